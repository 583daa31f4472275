import Verif.Parser.Mentions
import Verif.Props.Ranges
import Verif.Props.Caches
import Verif.Props.Compounds

/-!
# C78, C79: what a construction and a line hold on to
-/

namespace Cnars.Props
open Cnars Cnars.Parser Cnars.Term

/-! ### C78 -/

mutual
theorem leaves_shape : ∀ t : Term, (shape t).leaves = (leafTerms t).map shape
  | .atom a i => by simp [shape, Shape.leaves, leafTerms]
  | .interval n i => by simp [shape, Shape.leaves, leafTerms]
  | .var k n i => by simp [shape, Shape.leaves, leafTerms]
  | .stmt s c p i => by simp [shape, Shape.leaves, leafTerms, leaves_shape s, leaves_shape p]
  | .comp c ts i => by
    simp only [shape, Shape.leaves, leafTerms]
    exact leaves_shapes ts
theorem leaves_shapes : ∀ ts : List Term, Shape.leavesAll (shapes ts) = (leafTermsAll ts).map shape
  | [] => rfl
  | t :: ts => by simp [shapes, Shape.leavesAll, leafTermsAll, leaves_shape t, leaves_shapes ts]
end

theorem statements_adds : Adds fun t => statements (shape t) := by
  intro c ts i
  simp only [shape, statements]
  induction ts with
  | nil => rfl
  | cons t ts ih => simp [shapes, statementsAll, ih]

/-- C78: no constant, variable or interval occurs more often in a compound than in the arguments it
was constructed from, nor are there more statements in it, so its complexity is at most the sum of
theirs. -/
theorem C78_no_growth {ord : Order} (hord : ∀ l, (ord l).Perm l) {c : Connector} {args : List Term}
    {isInput : Bool} {r : Term} (hc : ∀ t ∈ args, Constructed t)
    (h : mkComp ord c args isInput = .ok r) :
    (shape r).leaves.Subperm (args.flatMap fun t => (shape t).leaves) ∧
    statements (shape r) ≤ (args.map fun t => statements (shape t)).sum ∧
    r.info.complexity ≤ (args.map fun t => t.info.complexity).sum := by
  have g : ∀ t ∈ args, Good t := fun t ht => (hc t ht).good
  have h1 : (shape r).leaves.Subperm (args.flatMap fun t => (shape t).leaves) := by
    have := mkComp_subperm hord g h
    have e : (args.flatMap fun t => (shape t).leaves) = (leafTermsAll args).map shape := by
      rw [← leaves_shapes, leavesAll_eq, shapes_eq_map, List.flatMap_map]
    rw [e, leaves_shape]
    obtain ⟨l, hl, hs⟩ := this
    exact ⟨l.map shape, hl.map _, hs.map _⟩
  have h2 : statements (shape r) ≤ (args.map fun t => statements (shape t)).sum := by
    have := mkComp_total statements_adds hord g h
    have e : ∀ ts : List Term, total (fun t => statements (shape t)) ts =
        (ts.map fun t => statements (shape t)).sum := fun ts => by
      induction ts with
      | nil => rfl
      | cons t ts ih => simp [ih]
    rw [e] at this
    exact this
  refine ⟨h1, h2, ?_⟩
  have h3 : (args.map fun t => t.info.complexity).sum =
      (args.flatMap fun t => (shape t).leaves).length + (args.map fun t => statements (shape t)).sum := by
    clear h h1 h2 g
    induction args with
    | nil => rfl
    | cons t ts ih =>
      simp only [List.map_cons, List.sum_cons, List.flatMap_cons, List.length_append]
      rw [ih fun u hu => hc u (List.mem_cons_of_mem _ hu), C24_complexity (hc t List.mem_cons_self)]
      omega
  have h4 : r.info.complexity = (shape r).leaves.length + statements (shape r) :=
    C24_complexity (.comp c isInput hord hc h)
  have := h1.length_le
  omega

/-- `{A, B, A}`: three leaves in the arguments, two in the result. -/
example : ∃ r, mkComp id .extensionalSet [sA, sB, sA] true = .ok r ∧ r.info.complexity = 2 ∧
    ([sA, sB, sA].map fun t => t.info.complexity).sum = 3 := ⟨setAB, rfl, by decide +kernel, by decide +kernel⟩

/-! ### C79 -/

/-- The word, as the name of a constant or of an operation, is written in the line. -/
def InLine (line : List WChar) (n : String) : Prop :=
  ∃ s, Written line s ∧ (n = String.ofList s ∨ n = "^" ++ String.ofList s)

theorem inLine_of_names {line : List WChar} {as : List Ast} {ps : List Part}
    (hn : IsNarsese line as) (hp : partAll as = some ps) {n : String}
    (h : n ∈ namesIn (Ast.mentionsAll as)) : InLine line n := by
  obtain ⟨m, hm, hk⟩ := List.mem_flatMap.mp h
  have ht := hn.written _ (Ast.mentionsAll_leaf hp m hm)
  refine ⟨m.text, ht, ?_⟩
  cases m with
  | name s => simp only [Mention.known, List.mem_singleton] at hk; exact .inl hk
  | op s => simp only [Mention.known, List.mem_singleton] at hk; exact .inr hk
  | interval s => simp [Mention.known] at hk

/-- C79: a parsed line takes one handle for every occurrence of a constant or operation in the
term, and no other; the names are words of the line.  The names known afterwards are those known
before and these, and the dictionary stays such that more lines can be parsed.  Destroying the term
gives everything back.  Every interval in the term is a number in the line.

Missing from the full statement: allocators that return addresses equal in the low 32 bits to those
of living terms (C30); lines with an operation of which only one of `go` and `^go` is known when it
is reached, see the counterexample. -/
theorem C79_handles_partial {b : Buf} (hb : Reached b) {d : Nat} (hd : d < 3) {strict : Bool}
    {fuel : Nat} {text : List WChar} {r : Parsed} (h : parseText strict fuel b text d = .ok r)
    {a : List Ast} (ha : r.ast = some a) {M : Mach} (hord : ∀ l, (M.ord l).Perm l) {N : Nat}
    (hM : FreshBelow M N) {bad : Act Val} {env env' : Env} {t : Task}
    (he : evalTask M bad a env = (.ok t, env')) (hw : Reach false env.world)
    (hN : env.world.dictH.length + (Ast.mentionsAll a).length ≤ N)
    (hops : Paired env.world [] (Ast.mentionsAll a)) :
    Reach false env'.world ∧
    (∃ js, env'.world.handles.Perm (env.world.handles ++ js) ∧
      List.Forall₂ (fun j x => ∃ n, env'.world.atoms[j]? = some ⟨x.1, n, x.2⟩ ∧
        InLine (firstLine text) n) js (atomsAll [t.sentence.term]) ∧
      ∀ n, env'.world.store.checkByName n = true ↔
        env.world.store.checkByName n = true ∨ ∃ j ∈ js, env'.world.nameOf j = some n) ∧
    (∃ w, (addrs t.sentence.term).foldlM (fun w a => dropAddr a w) env'.world = .ok w ∧
      Reach false w ∧ w.handles.Perm env.world.handles ∧
      ∀ n, w.store.checkByName n = env.world.store.checkByName n) ∧
    ∀ k i, .interval k i ∈ leafTerms t.sentence.term → ∃ s x, Written (firstLine text) s ∧
      Action.stod M s = .ok x ∧ Action.toInt x = .ok k := by
  have hn := C43_tree hb hd h ha
  obtain ⟨bs, p, s, ms, r', e1, vs, xs, hp, h2, h3, h4, _, _, _, _, h9, _⟩ := evalTask_ok hn he
  have hms : s.mentions = Ast.mentionsAll a := by
    rw [Ast.partAll_mentions hp]; simp [Part.mentions]
  have hC := Syn.eval_counted M s h2
  rw [← hms] at hN hops
  obtain ⟨hA, _⟩ := Syn.eval_acct hord hM hw s (live := []) (seen := []) h2 (Acct.start hw) hops hN
  rw [hms] at hA hC
  simp only [List.nil_append] at hA
  rw [← h4] at hA hC
  rw [← h9] at hA
  clear h h2 h3 hops
  have same : ∀ {w : World}, Reach false w → env.world.atoms <+: w.atoms → ∀ j ∈ env.world.handles,
      w.nameOf j = env.world.nameOf j := fun hr hat j hj => by
    have hx := List.getElem?_eq_getElem (hw.tidy.1.lt j (hw.tidy.1.sub j hj))
    simp [World.nameOf, hx, prefix_get hat hx]
  obtain ⟨js, k1, k2⟩ := hA.bal
  refine ⟨hA.reach, ⟨js, k1, k2.imp fun j x ⟨n, q1, q2⟩ => ⟨n, q2, inLine_of_names hn hp q1⟩, ?_⟩, ?_, ?_⟩
  · intro n
    rw [(C31_entries_partial hA.reach).1, (C31_entries_partial hw).1]
    constructor
    · rintro ⟨j, hj, hnm⟩
      rcases List.mem_append.mp (k1.mem_iff.mp hj) with hj | hj
      · exact .inl ⟨j, hj, same hA.reach hA.atoms j hj ▸ hnm⟩
      · exact .inr ⟨j, hj, hnm⟩
    · rintro (⟨j, hj, hnm⟩ | ⟨j, hj, hnm⟩)
      · exact ⟨j, k1.mem_iff.mpr (List.mem_append_left _ hj), (same hA.reach hA.atoms j hj).trans hnm⟩
      · exact ⟨j, k1.mem_iff.mpr (List.mem_append_right _ hj), hnm⟩
  · obtain ⟨w, q1, q2, q3, q4, _⟩ := dropAll_spec hA.reach (D := addrs t.sentence.term) k1 (by
      rw [addrs_one]
      exact List.forall₂_map_right_iff.mpr (k2.imp fun j x ⟨n, _, q2⟩ => ⟨_, q2, rfl⟩))
    refine ⟨w, q1, q2, q3, fun n => ?_⟩
    rw [Bool.eq_iff_iff, (C31_entries_partial q2).1, (C31_entries_partial hw).1]
    have hat : env.world.atoms <+: w.atoms := q4 ▸ hA.atoms
    constructor
    · rintro ⟨j, hj, hnm⟩
      have hj := q3.mem_iff.mp hj
      exact ⟨j, hj, same q2 hat j hj ▸ hnm⟩
    · rintro ⟨j, hj, hnm⟩
      exact ⟨j, q3.mem_iff.mpr hj, (same q2 hat j hj).trans hnm⟩
  · intro k i hl
    obtain ⟨v, x, q1, q2⟩ := hC k i hl
    exact ⟨v, x, hn.written _ (Ast.mentionsAll_leaf hp _ q1), q2⟩

/-- An address whose low 32 bits no term in the dictionary has, if there is one among the first. -/
def freeAddr (w : World) : Word :=
  ((List.range (w.dictH.length + 1)).map fun k => BitVec.ofNat 64 (0x1000 + 0x20 * k)).find?
    (fun a => !(w.dictH.map fun t => (w.atoms[t]?).map fun x => x.addr.setWidth 32).contains
      (some (a.setWidth 32))) |>.getD 0

/-- `mach` with memory to give. -/
def roomy : Mach := { mach with addr := freeAddr }

/-- Such allocators exist: 2^26 names fit. -/
theorem roomy_fresh : FreshBelow roomy (2 ^ 26) := by
  intro w hw hN
  have ht := hw.tidy.1
  intro t x hx hu e
  have htd : t ∈ w.dictH := by
    simp only [World.useCount] at hu
    rcases Nat.eq_zero_or_pos (w.dictH.count t) with h0 | h0
    · exact ht.sub t (List.count_pos_iff.mp (by omega))
    · exact List.count_pos_iff.mp h0
  change _ = BitVec.setWidth 32 (freeAddr w) at e
  unfold freeAddr at e
  generalize hU : (w.dictH.map fun t => (w.atoms[t]?).map fun x => x.addr.setWidth 32) = U at e
  cases hf : ((List.range (w.dictH.length + 1)).map fun k => BitVec.ofNat 64 (0x1000 + 0x20 * k)).find?
      (fun a => !U.contains (some (a.setWidth 32))) with
  | some c =>
    rw [hf] at e
    have hc := List.find?_some hf
    simp only [Bool.not_eq_true', Option.getD_some] at hc e
    have : some (c.setWidth 32) ∈ U := by
      rw [← hU, List.mem_map]
      exact ⟨t, htd, by simp [hx, e]⟩
    rw [List.contains_iff_mem.mpr this] at hc
    cases hc
  | none =>
    rw [List.find?_eq_none] at hf
    have hnd : ((List.range (w.dictH.length + 1)).map fun k =>
        some ((BitVec.ofNat 64 (0x1000 + 0x20 * k)).setWidth 32)).Nodup := by
      refine List.Nodup.map_on (fun i hi j hj hij => ?_) List.nodup_range
      rw [List.mem_range] at hi hj
      simp only [Option.some.injEq] at hij
      have := congrArg BitVec.toNat hij
      simp only [BitVec.toNat_setWidth, BitVec.toNat_ofNat] at this
      omega
    have hsub : ((List.range (w.dictH.length + 1)).map fun k =>
        some ((BitVec.ofNat 64 (0x1000 + 0x20 * k)).setWidth 32)) ⊆ U := by
      intro y hy
      obtain ⟨k, hk, rfl⟩ := List.mem_map.mp hy
      have := hf _ (List.mem_map.mpr ⟨k, hk, rfl⟩)
      simpa using this
    have := (hnd.subperm hsub).length_le
    simp only [List.length_map, List.length_range, ← hU] at this
    omega

/-- `(&&,A,A,go(B)).` -/
def twiceText : List Char :=
  ['(', '&', '&', ',', 'A', ',', 'A', ',', 'g', 'o', '(', 'B', ')', ')', '.']

/-- Is every operation paired? -/
def paired (w : World) (seen : List Mention) : List Mention → Bool
  | [] => true
  | m :: ms => (match m with
    | .op s => w.store.checkByName (String.ofList s) && w.store.checkByName ("^" ++ String.ofList s) ||
        [String.ofList s, "^" ++ String.ofList s].all fun n =>
          !w.store.checkByName n && !(namesIn seen).contains n
    | _ => true) && paired w (seen ++ [m]) ms

theorem paired_sound {w : World} : ∀ {ms seen : List Mention}, paired w seen ms = true →
    Paired w seen ms
  | [], _, _ => trivial
  | m :: ms, seen, h => by
    simp only [paired, Bool.and_eq_true] at h
    refine ⟨?_, paired_sound h.2⟩
    rintro s rfl
    have := h.1
    simp only [Bool.or_eq_true, Bool.and_eq_true, List.all_eq_true, Bool.not_eq_true',
      List.contains_eq_mem, decide_eq_false_iff_not] at this
    exact this

/-- The hypotheses are met: the words of the line are paired and few enough … -/
example : Paired env0.world [] (Ast.mentionsAll (treeOf twiceText)) ∧
    env0.world.dictH.length + (Ast.mentionsAll (treeOf twiceText)).length ≤ 2 ^ 26 ∧
    Reach false env0.world := by
  have h1 : paired env0.world [] (Ast.mentionsAll (treeOf twiceText)) = true := by decide +kernel
  have h2 : env0.world.dictH.length + (Ast.mentionsAll (treeOf twiceText)).length = 4 := by
    decide +kernel
  generalize Ast.mentionsAll (treeOf twiceText) = ms at h1 h2
  exact ⟨paired_sound h1, by omega, .init⟩

/-- … and of the four handles taken for its words, three are left. -/
example : (match parseTask roomy undefined true 1000 0 new (bytes twiceText) with
    | (.ok (some _), s) => s.env.world.handles.map s.env.world.nameOf
    | _ => []) = [some "A", some "B", some "^go"] := by decide +kernel

/-- `(*,go,^go).` -/
def bothText : List Char := ['(', '*', ',', 'g', 'o', ',', '^', 'g', 'o', ')', '.']

/-- The line is accepted, but reading it is undefined: `go` is known when the operation is reached,
`^go` is not, and a null pointer is followed (NarseseParser.cpp:455-475). -/
theorem C79_operation_counterexample :
    accepted? (parseText true 1000 freshBuf (bytes bothText) 0) = true ∧
    (match (parseTask roomy undefined true 1000 0 new (bytes bothText)).1 with
      | .ub => true
      | _ => false) = true := by decide +kernel

end Cnars.Props
