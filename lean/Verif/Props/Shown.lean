import Verif.Parser.Shown
import Verif.Props.Again

/-!
# C87: what is printed for a line that was read
-/

namespace Cnars.Props
open Cnars Cnars.Parser Cnars.Term

/-- The term of a task that was read, and what is printed for it unless a hash clashes. -/
theorem line_told {b : Buf} (hb : Reached b) {d : Nat} (hd : d < 3) {strict : Bool}
    {fuel : Nat} {text : List WChar} {r : Parsed} (h : parseText strict fuel b text d = .ok r)
    {a : List Ast} (ha : r.ast = some a) {M : Mach} (hord : ∀ l, (M.ord l).Perm l) {N : Nat}
    (hM : FreshBelow M N) {bad : Act Val} {env env' : Env} {t : Task}
    (he : evalTask M bad a env.clearNames = (.ok t, env')) (hw : Reach false env.world)
    (hN : env.world.dictH.length + (Ast.mentionsAll a).length ≤ N)
    (hops : Paired env.world [] (Ast.mentionsAll a)) (hcar : OpNames env.world.atoms)
    {bs : Option (List (List Char))} {p : Punct} {s : Syn} {ms : List Mark}
    (hp : partAll a = some [.task bs p s ms]) (hs : s.Clear M env.clearNames)
    (ht : ∀ x c y, .stmt x c y ∈ s.subs → y.operates = false) :
    Print.Plain t.sentence.term ∧ Good t.sentence.term ∧
      Same (s.shown M fun _ => []).1 (Print.treeOf env'.world.store.dict t.sentence.term) ∧
      OpNames env'.world.atoms := by
  classical
  have hn := C43_tree hb hd h ha
  obtain ⟨bs', p', s', ms', r1, e1, vs, xs, hp', h2, _, h3, _, _, _, _, h9, h10, _⟩ := evalTask_ok hn he
  rw [hp] at hp'
  simp only [Option.some.injEq, List.cons.injEq, Part.task.injEq, and_true] at hp'
  obtain ⟨rfl, rfl, rfl, rfl⟩ := hp'
  have hms : s.mentions = Ast.mentionsAll a := by
    rw [Ast.partAll_mentions hp]; simp [Part.mentions]
  have hf : s.Filled := by
    obtain ⟨a, rfl, ht, _⟩ := narsese_typed hn
    exact Ast.partAll_filled (by simpa using ht) hp _ List.mem_cons_self
  have hcalls := narsese_calls hn hp
  have hbare : ∀ m ∈ s.mentions, NoCaret m.text := by rw [hms]; exact mentions_bare hn hp
  rw [← hms] at hN hops
  obtain ⟨hA, _⟩ := Syn.eval_acct hord hM hw s (live := []) (seen := []) h2 (Acct.start hw) hops hN
  have hhold := Syn.eval_holds hord hM hw s (live := []) (seen := []) hs h2 (Acct.start hw) hops hN
  have hon : OpNames e1.world.atoms := Syn.eval_opNames s h2 hbare hcar
  rw [h9]
  have ht1 := hA.reach.tidy.1
  -- an atom that was met is held
  have held : ∀ n x, Met env.world e1.world.atoms n x →
      ∃ j ∈ e1.world.handles, e1.world.atoms[j]? = some x := by
    rintro n x ⟨hx, j, h1, hj | hj⟩
    · have hlt := hw.tidy.1.lt j hj
      have hget := List.getElem?_eq_getElem hlt
      have h1' := prefix_get hA.atoms hget
      rw [h1, Option.some.injEq] at h1'
      have hname : env.world.nameOf j = some n := by simp [World.nameOf, hget, ← h1', hx]
      have hkn : env.world.store.checkByName n = true := by
        have := (hw.tidy.1.inv n (env.world.key j)).2 ⟨j, hj, rfl, hname⟩
        simp [Store.checkByName, this]
      obtain ⟨i, hi, hi'⟩ := ((C31_entries_partial hw).1 n).mp hkn
      obtain rfl := hw.tidy.1.nameInj hj (hw.tidy.1.sub i hi) hname hi'
      exact ⟨j, hA.keeps hi, h1⟩
    · exact ⟨j, hhold.2 j hj (List.getElem?_eq_some_iff.mp h1).1, h1⟩
  let σ : String → Term := fun n =>
    if h : ∃ x, Met env.world e1.world.atoms n x then termOf h.choose else default
  have hσ : ∀ n ∈ namesIn s.mentions, ∀ x, Met env.world e1.world.atoms n x → termOf x = σ n := by
    intro n _ x hx
    have hex : ∃ x, Met env.world e1.world.atoms n x := ⟨x, hx⟩
    simp only [σ, dif_pos hex]
    obtain ⟨i, i1, i2⟩ := held n _ hex.choose_spec
    obtain ⟨j, j1, j2⟩ := held n x hx
    have : j = i := ht1.nameInj (ht1.sub j j1) (ht1.sub i i1) (n := n)
      (by simp [World.nameOf, j2, hx.1]) (by simp [World.nameOf, i2, hex.choose_spec.1])
    subst this
    rw [j2, Option.some.injEq] at i2
    rw [← i2]
  obtain ⟨_, q2⟩ := Syn.eval_first hord hM hw s (live := []) (seen := []) h2 (Acct.start hw) hops hN
    (Later.refl _) List.prefix_rfl hσ
  -- what is printed for it
  have key : ∀ n ∈ namesIn s.mentions, Print.label e1.world.store.dict (σ n) = n.toList ∧
      (Print.operational (σ n) = true ↔ n.toList.head? = some '^') := fun n hm => by
    obtain ⟨x, hx⟩ := q2 n hm
    obtain ⟨j, j1, j2⟩ := held n x hx
    rw [← hσ n hm x hx, ← hx.1, ← hon x (List.mem_of_getElem? j2)]
    have hd : e1.world.store.dict (keyOf (Term.atomHash x.addr)) = some x.name :=
      (ht1.dict _ _).2 ⟨j, ht1.sub j j1, by simp [World.key, j2], by simp [World.nameOf, j2]⟩
    unfold termOf
    split
    · rename_i ho
      simp [Term.mkOperation, Print.label, Print.operational, Term.leafInfo, hd, ho]
    · rename_i ho
      simp [Term.mkAtom, Print.label, Print.operational, Term.leafInfo, hd, ho]
  have hlab : Labelled e1.world.store.dict σ s.mentions := by
    refine ⟨fun w hw => ?_, fun w hw => ?_⟩
    · obtain ⟨k1, k2⟩ := key (String.ofList w) (List.mem_flatMap.mpr ⟨_, hw, by simp [Mention.known]⟩)
      rw [String.toList_ofList] at k1 k2
      refine ⟨k1, ?_⟩
      rw [← Bool.not_eq_true, k2]
      exact hbare _ hw
    · obtain ⟨k1, k2⟩ := key ("^" ++ String.ofList w) (List.mem_flatMap.mpr ⟨_, hw, by simp [Mention.known]⟩)
      refine ⟨?_, k2.mpr (caret_head _)⟩
      rw [k1]
      simp
  have htells : ∀ u ∈ s.subs, u.Tells := by
    intro u hu
    cases u with
    | stmt x c y => exact ht x c y hu
    | call f ts => exact hcalls _ hu f ts rfl
    | _ => trivial
  have told := Syn.eval_told hord hM hw s (live := []) (seen := []) (d := e1.world.store.dict) hs hf htells h2
    (Acct.start hw) hops hN (Later.refl _) List.prefix_rfl hσ hlab
  have hg := (Syn.eval_names M s h2).1
  rw [h3]
  exact ⟨told.plain, hg, told.same, hon⟩

/-- C87: the term of a task that was read is printed as the line says: words as they are written,
variables numbered by kind in the order in which they occur, intervals with a sign, abbreviated sets and
the other notations written out; only the order of the components of commutative compounds is left open.
It does not matter what was read before.

Missing from the full statement: components of commutative compounds that are commutative compounds
themselves, and predicates that are operations, which are printed as something else or not at all (C37);
clashes of a hash with the key of an atom (C33); and as in `C85_held_partial`. -/
theorem C87_text_partial {b : Buf} (hb : Reached b) {d : Nat} (hd : d < 3) {strict : Bool}
    {fuel : Nat} {text : List WChar} {r : Parsed} (h : parseText strict fuel b text d = .ok r)
    {a : List Ast} (ha : r.ast = some a) {M : Mach} (hord : ∀ l, (M.ord l).Perm l) {N : Nat}
    (hM : FreshBelow M N) {bad : Act Val} {env env' : Env} {t : Task}
    (he : evalTask M bad a env.clearNames = (.ok t, env')) (hw : Reach false env.world)
    (hN : env.world.dictH.length + (Ast.mentionsAll a).length ≤ N)
    (hops : Paired env.world [] (Ast.mentionsAll a)) (hcar : OpNames env.world.atoms)
    {bs : Option (List (List Char))} {p : Punct} {s : Syn} {ms : List Mark}
    (hp : partAll a = some [.task bs p s ms]) (hs : s.Clear M env.clearNames)
    (ht : ∀ x c y, .stmt x c y ∈ s.subs → y.operates = false)
    (hk : Print.NoClash env'.world.store.dict t.sentence.term) :
    ∃ tree, Print.term env'.world.store.dict false t.sentence.term = .ok tree.text ∧
      Same (s.shown M fun _ => []).1 tree ∧ OpNames env'.world.atoms := by
  obtain ⟨k1, k2, k3, k4⟩ := line_told hb hd h ha hord hM he hw hN hops hcar hp hs ht
  exact ⟨_, k1.text k2 hk, k3, k4⟩

/-- C87: if commutative compounds have only one component, the text is determined by the line alone.

Missing from the full statement: as in `C87_text_partial`. -/
theorem C87_line_partial {b : Buf} (hb : Reached b) {d : Nat} (hd : d < 3) {strict : Bool}
    {fuel : Nat} {text : List WChar} {r : Parsed} (h : parseText strict fuel b text d = .ok r)
    {a : List Ast} (ha : r.ast = some a) {M : Mach} (hord : ∀ l, (M.ord l).Perm l) {N : Nat}
    (hM : FreshBelow M N) {bad : Act Val} {env env' : Env} {t : Task}
    (he : evalTask M bad a env.clearNames = (.ok t, env')) (hw : Reach false env.world)
    (hN : env.world.dictH.length + (Ast.mentionsAll a).length ≤ N)
    (hops : Paired env.world [] (Ast.mentionsAll a)) (hcar : OpNames env.world.atoms)
    {bs : Option (List (List Char))} {p : Punct} {s : Syn} {ms : List Mark}
    (hp : partAll a = some [.task bs p s ms]) (hs : ∀ u ∈ s.subs, u.Plain)
    (h1 : ∀ c ts, .comp c ts ∈ s.subs → c.isCommutative = true → ts.length ≤ 1)
    (ht : ∀ x c y, .stmt x c y ∈ s.subs → y.operates = false)
    (hk : Print.NoClash env'.world.store.dict t.sentence.term) :
    Print.term env'.world.store.dict false t.sentence.term = .ok (s.shown M fun _ => []).1.text := by
  have hms : s.mentions = Ast.mentionsAll a := by
    rw [Ast.partAll_mentions hp]; simp [Part.mentions]
  have hcl : s.Clear M env.clearNames := by
    rw [← hms] at hN hops
    exact Syn.plain_clear hord hM hw s (live := []) (seen := []) hs (Acct.start hw) hops hN
  obtain ⟨tree, k1, k2, _⟩ := C87_text_partial hb hd h ha hord hM he hw hN hops hcar hp hcl ht hk
  have hcalls := narsese_calls (C43_tree hb hd h ha) hp
  have hst : straight (s.shown M fun _ => []).1 := by
    refine Syn.shown_straight M s _ (fun u hu => ?_) (fun u hu => ?_)
    · cases u with
      | comp c ts => exact h1 c ts hu
      | _ => trivial
    · cases u with
      | stmt x c y => exact ht x c y hu
      | call f ts => exact hcalls _ hu f ts rfl
      | _ => trivial
  rw [k1, Same.eq _ k2 hst]

/-- C87: a line read in two sessions, whatever happened before in each, gives tasks that are printed with
the same text for the term and have the same punctuation, truth value and budget, if commutative
compounds have only one component.

Missing from the full statement: as in `C87_text_partial`; for the other commutative compounds, see the
counterexample. -/
theorem C87_sessions_partial {b : Buf} (hb : Reached b) {d : Nat} (hd : d < 3) {strict : Bool}
    {fuel : Nat} {text : List WChar} {r : Parsed} (h : parseText strict fuel b text d = .ok r)
    {a : List Ast} (ha : r.ast = some a) {b' : Buf} (hb' : Reached b') {d' : Nat} (hd' : d' < 3)
    {fuel' : Nat} {r' : Parsed} (h' : parseText strict fuel' b' text d' = .ok r')
    {M : Mach} (hord : ∀ l, (M.ord l).Perm l) {N : Nat}
    (hM : FreshBelow M N) {bad : Act Val} {env env1 : Env} {t : Task}
    (he : evalTask M bad a env.clearNames = (.ok t, env1)) (hw : Reach false env.world)
    (hN : env.world.dictH.length + (Ast.mentionsAll a).length ≤ N)
    (hops : Paired env.world [] (Ast.mentionsAll a)) (hcar : OpNames env.world.atoms)
    {env' env1' : Env} {t' : Task}
    (he' : evalTask M bad a env'.clearNames = (.ok t', env1')) (hw' : Reach false env'.world)
    (hN' : env'.world.dictH.length + (Ast.mentionsAll a).length ≤ N)
    (hops' : Paired env'.world [] (Ast.mentionsAll a)) (hcar' : OpNames env'.world.atoms)
    {bs : Option (List (List Char))} {p : Punct} {s : Syn} {ms : List Mark}
    (hp : partAll a = some [.task bs p s ms]) (hs : ∀ u ∈ s.subs, u.Plain)
    (h1 : ∀ c ts, .comp c ts ∈ s.subs → c.isCommutative = true → ts.length ≤ 1)
    (ht : ∀ x c y, .stmt x c y ∈ s.subs → y.operates = false)
    (hk : Print.NoClash env1.world.store.dict t.sentence.term)
    (hk' : Print.NoClash env1'.world.store.dict t'.sentence.term) :
    r'.ast = some a ∧
    (∃ u, Print.term env1.world.store.dict false t.sentence.term = .ok u ∧
      Print.term env1'.world.store.dict false t'.sentence.term = .ok u) ∧
    t.sentence.punct = t'.sentence.punct ∧ t.sentence.truth = t'.sentence.truth ∧ t.budget = t'.budget := by
  have e1 := C87_line_partial hb hd h ha hord hM he hw hN hops hcar hp hs h1 ht hk
  have e2 := C87_line_partial hb hd h ha hord hM he' hw' hN' hops' hcar' hp hs h1 ht hk'
  have hn := C43_tree hb hd h ha
  obtain ⟨_, _, _, _, _, x1, vs, xs, hp1, _, m1, _, q1, q2, q3, q4, _⟩ := evalTask_ok hn he
  obtain ⟨_, _, _, _, _, x1', vs', xs', hp1', _, m1', _, q1', q2', q3', q4', _⟩ := evalTask_ok hn he'
  rw [hp] at hp1 hp1'
  simp only [Option.some.injEq, List.cons.injEq, Part.task.injEq, and_true] at hp1 hp1'
  obtain ⟨rfl, rfl, rfl, rfl⟩ := hp1
  obtain ⟨rfl, rfl, rfl, rfl⟩ := hp1'
  have hvs : vs = vs' := by
    have := evalMarks_const M ms x1 x1'
    rw [m1, m1'] at this
    simpa using this
  subst hvs
  have hxs : xs = xs' := by
    rw [q3] at q3'
    cases xs with
    | none => cases xs' with
      | none => rfl
      | some _ => cases q3'
    | some l => cases xs' with
      | none => cases q3'
      | some l' =>
        simp only [Option.map_some, Option.some.injEq] at q3'
        rw [List.map_injective_iff.mpr (fun x y h => Res.ok.inj h) q3']
  subst hxs
  have e3 : t.sentence.punct = t'.sentence.punct := q1.trans q1'.symm
  have e4 : t.sentence.truth = t'.sentence.truth := q2.trans q2'.symm
  have e5 : Action.finishBudget M (budgetFor M xs) t.sentence =
      Action.finishBudget M (budgetFor M xs) t'.sentence := by
    unfold Action.finishBudget
    rw [e3, e4]
  rw [q4, q4'] at e5
  exact ⟨(parseText_indep hb'.empty hb.empty hd' hd h' h).trans ha, ⟨_, e1, e2⟩, e3, e4, Res.ok.inj e5⟩

/-- The texts of the terms of lines read one after the other, each printed when it has been read. -/
def shownIn (M : Mach) : List (List Char) → Session → List String
  | [], _ => []
  | l :: ls, s =>
    match parseTask M undefined true 1000 0 s (bytes l) with
    | (.ok (some t), s1) => (match Print.term s1.env.world.store.dict false t.sentence.term with
      | .ok u => String.ofList u
      | _ => "") :: shownIn M ls s1
    | _ => []

/-- `<(&/,(&/,A,+5),(#x,$y,#x)){--B>.` -/
def shownText : List Char := ['<', '(', '&', '/', ',', '(', '&', '/', ',', 'A', ',', '+', '5', ')', ',',
  '(', '#', 'x', ',', '$', 'y', ',', '#', 'x', ')', ')', '{', '-', '-', 'B', '>', '.']

/-- What the line stands for … -/
def shownSyn (a n x y b : List Char) : Syn :=
  .stmt (.comp .sequentialEvents [.comp .sequentialEvents [.name a, .interval n],
    .comp .product [.var .dependent x, .var .independent y, .var .dependent x]]) .instance (.name b)

example : (match partAll (treeOf shownText) with
    | some [.task none .judgement (.stmt (.comp .sequentialEvents [.comp .sequentialEvents [.name a, .interval n],
        .comp .product [.var .dependent x, .var .independent y, .var .dependent z]]) .instance (.name b)) []] =>
      decide ((a, n, x, y, z, b) = (['A'], ['5'], ['x'], ['y'], ['x'], ['B']))
    | _ => false) = true := by decide +kernel

/-- … meets the conditions on compounds and predicates … -/
example {a n x y b : List Char} : (∀ u ∈ (shownSyn a n x y b).subs, u.Plain) ∧
    (∀ c ts, .comp c ts ∈ (shownSyn a n x y b).subs → c.isCommutative = true → ts.length ≤ 1) ∧
    ∀ s c p, .stmt s c p ∈ (shownSyn a n x y b).subs → p.operates = false := by
  refine ⟨fun u hu => ?_, fun c ts hu => ?_, fun s c p hu => ?_⟩
  all_goals
    simp only [shownSyn, Syn.subs, Syn.subsAll, List.mem_cons, List.not_mem_nil, or_false,
      List.append_nil, List.cons_append, List.nil_append, reduceCtorEq, false_or, Syn.comp.injEq,
      Syn.stmt.injEq] at hu
  · rcases hu with rfl | rfl | rfl | rfl | rfl | rfl | rfl | rfl | rfl | rfl <;>
      first
        | trivial
        | exact ⟨fun _ => rfl, fun h => by rcases h with h | h <;> cases h⟩
        | exact fun h => by cases h
  · rcases hu with h | h | h <;> (rw [h.1]; intro e; cases e)
  · rw [hu.2.2]; rfl

/-- … its complexes have no keys of atoms, and it is shown as it is printed. -/
example : (match parseTask roomy undefined true 1000 0 new (bytes shownText) with
    | (.ok (some t), s) => (Print.complexes t.sentence.term).map fun u =>
        (s.env.world.store.dict (keyOf u.hash)).isNone
    | _ => []) = [true, true, true, true] ∧
    shownIn roomy [shownText] new = ["<{(&/, A, +5, (*, #0, $0, #0))} --> B>"] ∧
    ((shownSyn ['A'] ['5'] ['x'] ['y'] ['B']).shown roomy fun _ => []).1.text =
      "<{(&/, A, +5, (*, #0, $0, #0))} --> B>".toList := by decide +kernel

/-- C87: what is printed for a commutative compound depends on what was read before, since the order
of its components is that of their addresses: `{A,B}.` is `{B, A}` if it is the first line, and `{A, B}`
if `<B-->A>.` was read before it. -/
theorem C87_order_counterexample :
    shownIn roomy [['{', 'A', ',', 'B', '}', '.']] new = ["{B, A}"] ∧
    shownIn roomy [['<', 'B', '-', '-', '>', 'A', '>', '.'], ['{', 'A', ',', 'B', '}', '.']] new =
      ["<B --> A>", "{A, B}"] := by decide +kernel

/-- C87: what is printed for a line need not be a term of the grammar: `(^go)!` is read, its term is
printed as `(^go, )`, and `(^go, )!` is rejected. -/
theorem C87_call_counterexample :
    shownIn roomy [['(', '^', 'g', 'o', ')', '!']] new = ["(^go, )"] ∧
    (match parseText true 1000 freshBuf (bytes ['(', '^', 'g', 'o', ',', ' ', ')', '!']) 0 with
    | .ok r => r.ast.isNone
    | _ => false) = true := by decide +kernel

end Cnars.Props
