import Verif.Parser.Kept
import Verif.Props.Progress

/-!
# C85: reading the same line again
-/

namespace Cnars.Props
open Cnars Cnars.Parser Cnars.Term

/-- C85: whether the evaluation of the tree of an accepted line gives a task, throws or is undefined,
and which term, punctuation, truth value and budget the task has, depends on nothing but the terms
that the names in the line stand for, once all of them are known.

Missing from the full statement: allocators that return addresses equal in the low 32 bits to those
of living terms, and operations of which only one name is known, as in C79. -/
theorem C85_repeat_partial {b : Buf} (hb : Reached b) {d : Nat} (hd : d < 3) {strict : Bool}
    {fuel : Nat} {text : List WChar} {r : Parsed} (h : parseText strict fuel b text d = .ok r)
    {a : List Ast} (ha : r.ast = some a) {M : Mach} (hord : ∀ l, (M.ord l).Perm l) {N : Nat}
    (hM : FreshBelow M N) {bad : Act Val} {env env' : Env}
    (hw : Reach false env.world) (hN : env.world.dictH.length + (Ast.mentionsAll a).length ≤ N)
    (hops : Paired env.world [] (Ast.mentionsAll a))
    (hw' : Reach false env'.world) (hN' : env'.world.dictH.length + (Ast.mentionsAll a).length ≤ N)
    (hops' : Paired env'.world [] (Ast.mentionsAll a))
    (hk : ∀ n ∈ namesIn (Ast.mentionsAll a), ∃ x : Named, x.name = n ∧
      (∃ j ∈ env.world.handles, env.world.atoms[j]? = some x) ∧
      ∃ j ∈ env'.world.handles, env'.world.atoms[j]? = some x) :
    match (evalTask M bad a env.clearNames).1, (evalTask M bad a env'.clearNames).1 with
    | .ok t, .ok t' => t.sentence.term = t'.sentence.term ∧ t.sentence.punct = t'.sentence.punct ∧
      t.sentence.truth = t'.sentence.truth ∧ t.budget = t'.budget
    | .throw m, .throw m' => m = m'
    | .ub, .ub => True
    | _, _ => False := by
  classical
  have hn := C43_tree hb hd h ha
  obtain ⟨bs, p, t, ms, hp, _⟩ := evalTask_part hn
  have hms : t.mentions = Ast.mentionsAll a := by
    rw [Ast.partAll_mentions hp]; simp [Part.mentions]
  have hf : t.Filled := by
    obtain ⟨a, rfl, ht, _⟩ := narsese_typed hn
    exact Ast.partAll_filled (by simpa using ht) hp _ List.mem_cons_self
  rw [← hms] at hN hops hN' hops' hk
  -- what the names stand for
  let Q : String → Named → Prop := fun n x => x.name = n ∧
      (∃ j ∈ env.world.handles, env.world.atoms[j]? = some x) ∧
      ∃ j ∈ env'.world.handles, env'.world.atoms[j]? = some x
  let σ : String → Term := fun n => if h : ∃ x, Q n x then termOf h.choose else default
  have hσ : ∀ n ∈ namesIn t.mentions, ∃ x, Q n x ∧ termOf x = σ n := fun n hm => by
    have hx : ∃ x, Q n x := hk n hm
    refine ⟨hx.choose, hx.choose_spec, ?_⟩
    simp only [σ, dif_pos hx]
  have k1 : ∀ n ∈ namesIn t.mentions, Knows env.world σ n := fun n hm => by
    obtain ⟨x, ⟨hx, ⟨j, h1, h2⟩, _⟩, h3⟩ := hσ n hm
    exact ⟨j, h1, x, h2, hx, h3⟩
  have k2 : ∀ n ∈ namesIn t.mentions, Knows env'.world σ n := fun n hm => by
    obtain ⟨x, ⟨hx, _, ⟨j, h1, h2⟩⟩, h3⟩ := hσ n hm
    exact ⟨j, h1, x, h2, hx, h3⟩
  have e1 := Syn.eval_means hord hM hw t (e := env.clearNames) (live := []) (seen := [])
    (Acct.start hw) hops k1 hN
  have e2 := Syn.eval_means hord hM hw' t (e := env'.clearNames) (live := []) (seen := [])
    (Acct.start hw') hops' k2 hN'
  have hfuel := evalTask_ends hn hp (M := M) (bad := bad) (P := True) (Q := fun _ => True) (F := False)
    (((Syn.eval_ends hord hM hw t (e := env.clearNames) (live := []) (seen := []) hf (Acct.start hw) hops hN)).imp
      (fun _ => trivial) (fun _ _ => trivial) id) (fun _ => trivial) (fun _ _ => trivial)
  have := evalTask_same hn hp (bad := bad) (bad' := bad) (Agrees.fst_eq e1 e2)
  rcases hx : evalTask M bad a env.clearNames with ⟨x, e⟩
  rcases hy : evalTask M bad a env'.clearNames with ⟨y, e'⟩
  rw [hx, hy] at this
  rw [hx] at hfuel
  cases x <;> cases y <;> first
    | exact hfuel
    | exact ⟨this.2.1, this.2.2.1, this.2.2.2, this.1⟩
    | exact this

/-- C85: reading a line a second time gives an equal term, an equal truth value and an equal budget.  A
first reading gave a task, and the atoms made for the line are all still there after it.  Whatever
happened in between, as long as these atoms are still held, parsing the line again and evaluating
gives a task with the same term (the same addresses, that is), punctuation, truth value and budget.
The parser may have been used in between, or be another one.

Missing from the full statement: lines for which atoms are made that are not in the resulting term
any more, such as A in `(&,{A,B},{B,C}).`; and as in `C85_repeat_partial`. -/
theorem C85_again_partial {b : Buf} (hb : Reached b) {d : Nat} (hd : d < 3) {strict : Bool}
    {fuel : Nat} {text : List WChar} {r : Parsed} (h : parseText strict fuel b text d = .ok r)
    {a : List Ast} (ha : r.ast = some a) {b' : Buf} (hb' : Reached b') {d' : Nat} (hd' : d' < 3)
    {fuel' : Nat} {r' : Parsed} (h' : parseText strict fuel' b' text d' = .ok r')
    {M : Mach} (hord : ∀ l, (M.ord l).Perm l) {N : Nat} (hM : FreshBelow M N) {bad : Act Val} {env env1 env2 : Env} {t : Task}
    (he : evalTask M bad a env.clearNames = (.ok t, env1))
    (hw : Reach false env.world) (hN : env.world.dictH.length + (Ast.mentionsAll a).length ≤ N)
    (hops : Paired env.world [] (Ast.mentionsAll a))
    (hall : ∀ j, env.world.atoms.length ≤ j → j < env1.world.atoms.length → j ∈ env1.world.handles)
    (hw2 : Reach false env2.world) (hN2 : env2.world.dictH.length + (Ast.mentionsAll a).length ≤ N)
    (hops2 : Paired env2.world [] (Ast.mentionsAll a)) (hat : env1.world.atoms <+: env2.world.atoms)
    (hkeep : ∀ j ∈ env1.world.handles, j ∈ env2.world.handles) :
    r'.ast = some a ∧ ∃ t' env3, evalTask M bad a env2.clearNames = (.ok t', env3) ∧
      t'.sentence.term = t.sentence.term ∧ t'.sentence.punct = t.sentence.punct ∧
      t'.sentence.truth = t.sentence.truth ∧ t'.budget = t.budget := by
  classical
  refine ⟨(parseText_indep hb'.empty hb.empty hd' hd h' h).trans ha, ?_⟩
  have hn := C43_tree hb hd h ha
  obtain ⟨bs, p, s, ms, r1, e1, vs, xs, hp, h2, _, _, _, _, _, _, h9, _⟩ := evalTask_ok hn he
  have hms : s.mentions = Ast.mentionsAll a := by
    rw [Ast.partAll_mentions hp]; simp [Part.mentions]
  rw [← hms] at hN hops hN2 hops2
  obtain ⟨hA, _⟩ := Syn.eval_acct hord hM hw s (live := []) (seen := []) h2 (Acct.start hw) hops hN
  rw [← h9] at hA
  have ht1 := hA.reach.tidy.1
  -- an atom that was met is held
  have held : ∀ n x, Met env.world env1.world.atoms n x →
      ∃ j ∈ env1.world.handles, env1.world.atoms[j]? = some x := by
    rintro n x ⟨hx, j, h1, hj | hj⟩
    · have hlt := hw.tidy.1.lt j hj
      have hget := List.getElem?_eq_getElem hlt
      have h1' := prefix_get hA.atoms hget
      rw [h1, Option.some.injEq] at h1'
      have hname : env.world.nameOf j = some n := by simp [World.nameOf, hget, ← h1', hx]
      have hkn : env.world.store.checkByName n = true := by
        have := (hw.tidy.1.inv n (env.world.key j)).2 ⟨j, hj, rfl, hname⟩
        simp [Store.checkByName, this]
      obtain ⟨i, hi, hi'⟩ := ((C31_entries_partial hw).1 n).mp hkn
      obtain rfl := hw.tidy.1.nameInj hj (hw.tidy.1.sub i hi) hname hi'
      exact ⟨j, hA.keeps hi, h1⟩
    · exact ⟨j, hall j hj (List.getElem?_eq_some_iff.mp h1).1, h1⟩
  let σ : String → Term := fun n =>
    if h : ∃ x, Met env.world env1.world.atoms n x then termOf h.choose else default
  have hσ : ∀ n ∈ namesIn s.mentions, ∀ x, Met env.world env1.world.atoms n x → termOf x = σ n := by
    intro n _ x hx
    have hex : ∃ x, Met env.world env1.world.atoms n x := ⟨x, hx⟩
    simp only [σ, dif_pos hex]
    obtain ⟨i, i1, i2⟩ := held n _ hex.choose_spec
    obtain ⟨j, j1, j2⟩ := held n x hx
    have : j = i := ht1.nameInj (ht1.sub j j1) (ht1.sub i i1) (n := n)
      (by simp [World.nameOf, j2, hx.1]) (by simp [World.nameOf, i2, hex.choose_spec.1])
    subst this
    rw [j2, Option.some.injEq] at i2
    rw [← i2]
  obtain ⟨q1, q2⟩ := Syn.eval_first hord hM hw s (live := []) (seen := []) h2 (Acct.start hw) hops hN
    (Later.refl _) (by rw [h9]) hσ
  have hk : ∀ n ∈ namesIn s.mentions, Knows env2.world σ n := fun n hm => by
    obtain ⟨x, hx⟩ := q2 n hm
    obtain ⟨j, j1, j2⟩ := held n x hx
    exact ⟨j, hkeep j j1, x, prefix_get hat j2, hx.1, hσ n hm x hx⟩
  have e2 := Syn.eval_means hord hM hw2 s (e := env2.clearNames) (live := []) (seen := [])
    (Acct.start hw2) hops2 hk hN2
  have hsame : (s.eval M env.clearNames).1 = (s.eval M env2.clearNames).1 := by
    rw [← e2.2, h2]
    have : env2.clearNames.names = env.clearNames.names := rfl
    rw [this, q1]
    rfl
  have := evalTask_same hn hp (bad := bad) (bad' := bad) hsame
  rw [he] at this
  obtain ⟨t', h3, h4⟩ := this.ok_left rfl
  rcases hy : evalTask M bad a env2.clearNames with ⟨y, env3⟩
  rw [hy] at h3
  subst h3
  exact ⟨t', env3, rfl, h4.2.1.symm, h4.2.2.1.symm, h4.2.2.2.symm, h4.1.symm⟩

/-- C85: if no commutative compound of a line is a component of another one, and different components of
a commutative compound are told apart by the comparator (`Clear`), no atom made for the line is lost.

Missing from the full statement: other commutative compounds, whose components may be dropped by
merging or by a hash collision; and as in `C85_repeat_partial`. -/
theorem C85_held_partial {b : Buf} (hb : Reached b) {d : Nat} (hd : d < 3) {strict : Bool}
    {fuel : Nat} {text : List WChar} {r : Parsed} (h : parseText strict fuel b text d = .ok r)
    {a : List Ast} (ha : r.ast = some a) {M : Mach} (hord : ∀ l, (M.ord l).Perm l) {N : Nat}
    (hM : FreshBelow M N) {bad : Act Val} {env env' : Env} {t : Task}
    (he : evalTask M bad a env = (.ok t, env')) (hw : Reach false env.world)
    (hN : env.world.dictH.length + (Ast.mentionsAll a).length ≤ N)
    (hops : Paired env.world [] (Ast.mentionsAll a))
    (hs : ∀ bs p t ms, partAll a = some [.task bs p t ms] → t.Clear M env) :
    (∀ j ∈ env.world.handles, j ∈ env'.world.handles) ∧
    ∀ j, env.world.atoms.length ≤ j → j < env'.world.atoms.length → j ∈ env'.world.handles := by
  have hn := C43_tree hb hd h ha
  obtain ⟨bs, p, s, ms, r1, e1, vs, xs, hp, h2, _, _, _, _, _, _, h9, _⟩ := evalTask_ok hn he
  have hms : s.mentions = Ast.mentionsAll a := by
    rw [Ast.partAll_mentions hp]; simp [Part.mentions]
  rw [← hms] at hN hops
  have := Syn.eval_holds hord hM hw s (live := []) (seen := []) (hs _ _ _ _ hp) h2 (Acct.start hw) hops hN
  unfold Holds at this
  rw [← h9] at this
  exact this

/-- C85: this is so for all lines whose commutative compounds have only words as components, or a single
component that is not commutative.

Missing from the full statement: as in `C85_held_partial`. -/
theorem C85_words_partial {b : Buf} (hb : Reached b) {d : Nat} (hd : d < 3) {strict : Bool}
    {fuel : Nat} {text : List WChar} {r : Parsed} (h : parseText strict fuel b text d = .ok r)
    {a : List Ast} (ha : r.ast = some a) {M : Mach} (hord : ∀ l, (M.ord l).Perm l) {N : Nat}
    (hM : FreshBelow M N) {bad : Act Val} {env env' : Env} {t : Task}
    (he : evalTask M bad a env = (.ok t, env')) (hw : Reach false env.world)
    (hN : env.world.dictH.length + (Ast.mentionsAll a).length ≤ N)
    (hops : Paired env.world [] (Ast.mentionsAll a))
    (hs : ∀ bs p t ms, partAll a = some [.task bs p t ms] → ∀ u ∈ t.subs, u.Plain) :
    (∀ j ∈ env.world.handles, j ∈ env'.world.handles) ∧
    ∀ j, env.world.atoms.length ≤ j → j < env'.world.atoms.length → j ∈ env'.world.handles := by
  refine C85_held_partial hb hd h ha hord hM he hw hN hops fun bs p t ms hp => ?_
  have hms : t.mentions = Ast.mentionsAll a := by
    rw [Ast.partAll_mentions hp]; simp [Part.mentions]
  rw [← hms] at hN hops
  exact Syn.plain_clear hord hM hw t (live := []) (seen := []) (hs _ _ _ _ hp) (Acct.start hw) hops hN

/-- C85: reading a line twice in a row, if no operation is in it and its commutative compounds are as
in `C85_held_partial`, gives the same term, punctuation, truth value and budget twice.

Missing from the full statement: as in `C85_held_partial`; operations, see the counterexample. -/
theorem C85_twice_partial {b : Buf} (hb : Reached b) {d : Nat} (hd : d < 3) {strict : Bool}
    {fuel : Nat} {text : List WChar} {r : Parsed} (h : parseText strict fuel b text d = .ok r)
    {a : List Ast} (ha : r.ast = some a) {d' : Nat} (hd' : d' < 3) {fuel' : Nat} {r' : Parsed}
    (h' : parseText strict fuel' r.scan.buf text d' = .ok r')
    {M : Mach} (hord : ∀ l, (M.ord l).Perm l) {N : Nat} (hM : FreshBelow M N) {bad : Act Val}
    {env env1 : Env} {t : Task} (he : evalTask M bad a env.clearNames = (.ok t, env1))
    (hw : Reach false env.world) (hN : env.world.dictH.length + 2 * (Ast.mentionsAll a).length ≤ N)
    (hops : ∀ s, Mention.op s ∉ Ast.mentionsAll a)
    (hs : ∀ bs p t ms, partAll a = some [.task bs p t ms] → t.Clear M env.clearNames) :
    r'.ast = some a ∧ ∃ t' env2, evalTask M bad a env1.clearNames = (.ok t', env2) ∧
      t'.sentence.term = t.sentence.term ∧ t'.sentence.punct = t.sentence.punct ∧
      t'.sentence.truth = t.sentence.truth ∧ t'.budget = t.budget := by
  have paired : ∀ (w : World) (ms seen : List Mention), (∀ s, Mention.op s ∉ ms) → Paired w seen ms := by
    intro w ms
    induction ms with
    | nil => exact fun _ _ => trivial
    | cons m ms ih =>
      exact fun seen hm => ⟨fun s e => absurd List.mem_cons_self (e ▸ hm s),
        ih _ fun s hs => hm s (List.mem_cons_of_mem _ hs)⟩
  have hp := paired env.world _ [] hops
  have hheld := C85_held_partial hb hd h ha hord hM he hw (by change env.world.dictH.length + _ ≤ N; omega) hp hs
  have hr := (C79_handles_partial hb hd h ha hord hM he hw (by change env.world.dictH.length + _ ≤ N; omega) hp).1
  have hlen : env1.world.dictH.length ≤ env.world.dictH.length + (Ast.mentionsAll a).length := by
    have hn := C43_tree hb hd h ha
    obtain ⟨bs, p, s, ms, r1, e1, vs, xs, hp', h2, _, _, _, _, _, _, h9, _⟩ := evalTask_ok hn he
    have hms : s.mentions = Ast.mentionsAll a := by
      rw [Ast.partAll_mentions hp']; simp [Part.mentions]
    have := (Syn.eval_acct hord hM hw s (live := []) (seen := []) h2 (Acct.start hw) (hms ▸ hp)
      (by rw [hms]; change env.world.dictH.length + _ ≤ N; omega)).2
    rw [hms] at this
    rw [h9]
    exact this
  exact C85_again_partial hb hd h ha (.next hb hd h) hd' h' hord hM he hw (by omega) hp hheld.2 hr
    (by omega) (paired _ _ [] hops) List.prefix_rfl (fun _ h => h)

/-- `<{A,B}-->[C]>. %0.9%` -/
def setsText : List Char := ['<', '{', 'A', ',', 'B', '}', '-', '-', '>',
  '[', 'C', ']', '>', '.', ' ', '%', '0', '.', '9', '%']

/-- What the line stands for … -/
def setsSyn (a b c : List Char) : Syn :=
  .stmt (.comp .extensionalSet [.name a, .name b]) .inheritance (.comp .intensionalSet [.name c])

example : (match partAll (treeOf setsText) with
    | some [.task none .judgement (.stmt (.comp .extensionalSet [.name a, .name b]) .inheritance
        (.comp .intensionalSet [.name c])) [_]] => (a, b, c) = (['A'], ['B'], ['C'])
    | _ => false) = true := by decide +kernel

/-- … its compounds are as they should be, there are no operations … -/
example {a b c : List Char} : ∀ u ∈ (setsSyn a b c).subs, u.Plain := by
  intro u hu
  simp only [setsSyn, Syn.subs, Syn.subsAll, List.mem_cons, List.mem_append, List.not_mem_nil, or_false] at hu
  rcases hu with (rfl | (rfl | rfl | rfl) | (rfl | rfl)) <;>
    simp [Syn.Plain, Syn.commutes]

example : (Ast.mentionsAll (treeOf setsText)).all (fun | .op _ => false | _ => true) = true ∧
    env0.world.dictH.length + 2 * (Ast.mentionsAll (treeOf setsText)).length ≤ 8 := by decide +kernel

/-- The addresses in the term, the handles and the names of all atoms, after reading a line once and
after reading it twice. -/
def readTwice (s : List Char) : Option (List (List Word × List Nat × List String)) :=
  match parseTask roomy undefined true 1000 0 new (bytes s) with
  | (.ok (some t), s1) => match parseTask roomy undefined true 1000 0 s1 (bytes s) with
    | (.ok (some t'), s2) => some
      [(addrs t.sentence.term, s1.env.world.handles, s1.env.world.atoms.map Cnars.Named.name),
        (addrs t'.sentence.term, s2.env.world.handles, s2.env.world.atoms.map Cnars.Named.name)]
    | _ => none
  | _ => none

/-- … and the line is read to the same term twice, of three atoms that are still held. -/
example : readTwice setsText = some [([4128, 4096, 4160], [0, 1, 2], ["A", "B", "C"]),
    ([4128, 4096, 4160], [0, 1, 2, 0, 1, 2], ["A", "B", "C"])] := by decide +kernel

/-- What `(&&,<A-->B>,<#x-->C>).` stands for: a commutative compound of statements. -/
def pairSyn : Syn := .comp .conjunction [.stmt (.name ['A']) .inheritance (.name ['B']),
  .stmt (.var .dependent ['x']) .inheritance (.name ['C'])]

/-- The statements are told apart by the comparator, in one of its two directions. -/
def apart : Res (List Term) → Bool
  | .ok [a, b] => (match Term.lt a b with | .ok r => r | _ => false) || (match Term.lt b a with | .ok r => r | _ => false)
  | _ => false

/-- The compound is `Clear` though it is not `Plain`. -/
example : pairSyn.Clear roomy env0 ∧ ¬ pairSyn.Plain := by
  refine ⟨?_, fun h => ?_⟩
  · have ha : apart (Syn.evalAll roomy [.stmt (.name ['A']) .inheritance (.name ['B']),
        .stmt (.var .dependent ['x']) .inheritance (.name ['C'])] env0).1 = true := by decide +kernel
    simp only [pairSyn, Syn.Clear, Syn.ClearAll]
    refine ⟨by simp [Syn.Plain], fun _ => ⟨by simp [Syn.commutes], fun rs e' h => ?_⟩⟩
    rw [h] at ha
    match rs, ha with
    | [a, b], ha =>
      simp only [apart, Bool.or_eq_true] at ha
      intro x hx y hy h1 h2
      simp only [List.mem_cons, List.not_mem_nil, or_false] at hx hy
      rcases hx with rfl | rfl <;> rcases hy with rfl | rfl
      · rfl
      · rw [h1, h2] at ha; simp at ha
      · rw [h1, h2] at ha; simp at ha
      · rfl
  · obtain ⟨s, h | h⟩ := ((h rfl).2.resolve_left (by simp)) _ (List.mem_cons_self) <;> cases h
/-- Read twice in a row the line gives the same term. -/
example : readTwice ['(', '&', '&', ',', '<', 'A', '-', '-', '>', 'B', '>', ',', '<', '#', 'x', '-', '-', '>',
      'C', '>', ')', '.'] = some [([4160, 4096, 4128], [0, 1, 2], ["A", "B", "C"]),
    ([4160, 4096, 4128], [0, 1, 2, 0, 1, 2], ["A", "B", "C"])] := by decide +kernel

/-- `(^go,A).` -/
def goText : List Char := ['(', '^', 'g', 'o', ',', 'A', ')', '.']

/-- C85, the full statement fails: read twice in a row, the line `(^go,A).` gives two terms that differ,
as a second operation `^go` is made (Narsese/Parser/NarseseParser.cpp:455-475, C36). -/
theorem C85_operation_counterexample : readTwice goText = some
    [([4128, 4096], [0, 1], ["^go", "A"]), ([4128, 4160], [0, 1, 2, 1], ["^go", "A", "^go"])] := by
  decide +kernel

end Cnars.Props
