import Verif.Parser.Reread
import Verif.Props.Actions
import Verif.Props.Complete
import Verif.Props.Interning
import Verif.Props.Printing

/-!
# C41, C76: reading what was printed, constructing what was constructed
-/

namespace Cnars.Props
open Cnars Cnars.Parser Term Print

/-! ### C41 -/

/-- The atoms of the term are held, under the names they were created with; for an operation `^name`
there is also a term `name` (see C36). -/
def AtomsHeld (w : World) (t : Term) : Prop :=
  ∀ a i, .atom a i ∈ leafTerms t → ∃ j ∈ w.dictH, ∃ n, w.atoms[j]? = some ⟨a, n, i.isOperation⟩ ∧
    (i.isOperation = true → ∀ v, n = "^" ++ v → w.store.checkByName v = true)

/-- Intervals are values of type `int`, and no copula is `{--`, `--]` or `{-]`. -/
def PlainLeaves (t : Term) : Prop :=
  (∀ n i, .interval n i ∈ leafTerms t → n ≤ 2147483647) ∧
    ∀ c ∈ copulas t, c ≠ .instance ∧ c ≠ .property ∧ c ≠ .instanceProperty

/-- C41: a term is printed, and the text with a full stop is read.  If
* names still denote the atoms of the term (`AtomsHeld`) and are words of the grammar, intervals and
  numbers of variables are not negative, compounds have as many components as the grammar asks for
  (`Legible`),
* the term is not a single variable, which is no sentence (`Sayable`),
* keys of compounds and statements are not keys of names (`NoClash`, see C38),
* compounds have nothing left to reduce (`Steady`, see C76),
* no copula is an abbreviation, and variables are numbered in the order of their occurrence,

then the line is accepted, and the judgement is about a term that differs at most in the stored names of
variables: the syntax tree is the same, and so is everything in the caches.  The dictionaries are left as
they were.

Missing from the full statement: the other terms; see the counterexamples.  The driver's memory is taken
to be large enough; see `C41_short_partial`. -/
theorem C41_roundtrip_partial {M : Mach} (hord : ∀ l, (M.ord l).Perm l) (hM : ExactInts M)
    {s : Session} (hs : Reached s.buf) {asg : Bool} (hw : Reach asg s.env.world) {t : Term} (ht : Constructed t)
    (hl : Legible s.env.world.store.dict t) (hv : Sayable t) (hc : NoClash s.env.world.store.dict t)
    (st : Steady t) (hp : PlainLeaves t) (ho : InOrder t) (hh : AtomsHeld s.env.world t) :
    ∃ text, Print.term s.env.world.store.dict false t = .ok text ∧
      ∀ d < 3, ∀ fuel, 24 * (text.length + 1) + 6 ≤ fuel → ∀ bad,
        ∃ tk s', parseTask M bad false fuel d s (codes (text ++ ['.'])) = (.ok (some tk), s') ∧
          tk.sentence.punct = .judgement ∧ shape tk.sentence.term = shape t ∧
          tk.sentence.term.info = t.info ∧
          tk.sentence.term.relabel (fun _ _ => "") = t.relabel (fun _ _ => "") ∧
          s'.env.world.store = s.env.world.store := by
  refine ⟨_, hl.plain.text ht.good hc, fun d hd fuel hf bad => ?_⟩
  have ha : Ascii ((Print.treeOf s.env.world.store.dict t).text ++ ['.']) :=
    (ascii_text hl).append (by simp [Ascii])
  have hfl := firstLine_ascii ha
  obtain ⟨scan, hacc⟩ := (parseText_iff (fuel := fuel) hs.empty hd (by
    rw [hfl]; simpa [codes] using hf) (by rw [hfl]; exact no_tab ha)
    (astLine s.env.world.store.dict t)).mpr ⟨by rw [hfl]; exact isNarsese_printed hl hv, meant_line hl⟩
  obtain ⟨tk, s', h1, h2, h3, _, hs', h4⟩ := reread_task hord hM hw.tidy.1 hl hv ht.good st ho
    (fun N hN => ⟨hh, hp.1, hN, hp.2⟩) hacc bad
  refine ⟨tk, s', h1, h2, ?_, ?_, h3, by rw [h4]⟩
  · rw [← shape_relabel blank, h3, shape_relabel]
  · rw [← info_relabel blank, h3, info_relabel]

/-- C41, with the memory there is: the same if the text has at most 120 characters. -/
theorem C41_short_partial {M : Mach} (hord : ∀ l, (M.ord l).Perm l) (hM : ExactInts M)
    {s : Session} (hs : Reached s.buf) {asg : Bool} (hw : Reach asg s.env.world) {t : Term} (ht : Constructed t)
    (hl : Legible s.env.world.store.dict t) (hv : Sayable t) (hc : NoClash s.env.world.store.dict t)
    (st : Steady t) (hp : PlainLeaves t) (ho : InOrder t) (hh : AtomsHeld s.env.world t) :
    ∃ text, Print.term s.env.world.store.dict false t = .ok text ∧ (text.length ≤ 120 →
      ∀ d < 3, ∀ fuel, 24 * (text.length + 1) + 6 ≤ fuel → ∀ bad,
        ∃ tk s', parseTask M bad true fuel d s (codes (text ++ ['.'])) = (.ok (some tk), s') ∧
          tk.sentence.punct = .judgement ∧ shape tk.sentence.term = shape t ∧
          tk.sentence.term.info = t.info ∧
          tk.sentence.term.relabel (fun _ _ => "") = t.relabel (fun _ _ => "") ∧
          s'.env.world.store = s.env.world.store) := by
  refine ⟨_, hl.plain.text ht.good hc, fun h120 d hd fuel hf bad => ?_⟩
  have ha : Ascii ((Print.treeOf s.env.world.store.dict t).text ++ ['.']) :=
    (ascii_text hl).append (by simp [Ascii])
  have hfl := firstLine_ascii ha
  obtain ⟨scan, hacc⟩ := (C74_short_partial (fuel := fuel) hs hd (by rw [hfl]; exact no_tab ha) (by
      intro c hc
      obtain ⟨x, hx, rfl⟩ := List.mem_map.mp hc
      have := (ha x hx).2
      change (x.toNat : Int) ≤ 127
      omega) (by rw [hfl]; simpa [codes] using h120) (by rw [hfl]; simpa [codes] using hf)
    (astLine s.env.world.store.dict t)).mpr ⟨by rw [hfl]; exact isNarsese_printed hl hv, meant_line hl⟩
  obtain ⟨tk, s', h1, h2, h3, _, hs', h4⟩ := reread_task hord hM hw.tidy.1 hl hv ht.good st ho
    (fun N hN => ⟨hh, hp.1, hN, hp.2⟩) hacc bad
  refine ⟨tk, s', h1, h2, ?_, ?_, h3, by rw [h4]⟩
  · rw [← shape_relabel blank, h3, shape_relabel]
  · rw [← info_relabel blank, h3, info_relabel]

/-! #### Samples -/

/-- A, B, C, `^go` and `go` have been mentioned. -/
def names5 : World :=
  ((((World.init.alloc "A" 0x555555581eb0 false).alloc "B" 0x555555581f30 false).alloc "C"
    0x555555581fb0 false).alloc "^go" 0x5555555820b0 true).alloc "go" 0x555555582130 false

theorem fresh_of {w : World} {a : Word}
    (h : ∀ x ∈ w.atoms, x.addr.setWidth 32 ≠ a.setWidth 32) : FreshAddr w a :=
  fun _ x hx _ => h x (List.mem_of_getElem? hx)

theorem names5_reach : Reach true names5 :=
  .step (.create "go" 0x555555582130) (.step (.operation "go" 0x5555555820b0)
    (.step (.create "C" 0x555555581fb0) (.step (.create "B" 0x555555581f30)
      (.step (.create "A" 0x555555581eb0) .init (fresh_of (by decide)) rfl) (fresh_of (by decide +kernel))
        rfl) (fresh_of (by decide +kernel)) rfl) ⟨fresh_of (by decide +kernel), rfl⟩ rfl)
    (fresh_of (by decide +kernel)) rfl

/-- A parser that has not been used. -/
def with5 : Session := ⟨freshBuf, .uninit, ⟨names5, fun _ => [], ⟨0, 0⟩⟩⟩

theorem isWord_letters {s : List Char} (hs : s ≠ []) (h : ∀ c ∈ s, (97 ≤ c.toNat ∧ c.toNat ≤ 122) ∨
    (65 ≤ c.toNat ∧ c.toNat ≤ 90)) : IsWord s := by
  refine ⟨.inl (plus_cls hs fun c hc => ?_), fun c hc => ?_⟩
  · rcases h c hc with h | h
    · exact ⟨(95, 122), by decide, by omega, by omega⟩
    · exact ⟨(65, 90), by decide, h⟩
  · rcases h c hc with h | h <;> omega

/-- `<(^go, $0, +3) ==> <{B, A} --> C>>` -/
def sample41 : Term :=
  mkStmt (mkStmt (finishComp .product [mkVar .independent "$x" 0, mkInterval 3]) .inheritance sGo) .implication
    (mkStmt setAB .inheritance sC)

theorem sample41_c : Constructed sample41 :=
  .stmt .implication true (.stmt .inheritance true (.comp (ord := id)
    (args := [mkVar .independent "$x" 0, mkInterval 3]) .product true permutes_id (by
      simp only [List.mem_cons, List.not_mem_nil, or_false, forall_eq_or_imp, forall_eq]
      exact ⟨.var _ _ _, .interval _⟩) rfl) sGo_c rfl) (.stmt .inheritance true setAB_c sC_c rfl) rfl

theorem sample41_legible : Legible names5.store.dict sample41 := by
  have hA : Legible names5.store.dict sA := .name (n := "A") rfl (by decide +kernel)
    (isWord_letters (by decide) (by decide))
  have hB : Legible names5.store.dict sB := .name (n := "B") rfl (by decide +kernel)
    (isWord_letters (by decide) (by decide))
  have hC : Legible names5.store.dict sC := .name (n := "C") rfl (by decide +kernel)
    (isWord_letters (by decide) (by decide))
  have hG : Legible names5.store.dict sGo := .op (n := "^go") (w := ['g', 'o']) rfl (by decide +kernel) rfl
    (isWord_letters (by decide) (by decide))
  refine .stmt rfl (.opStmt rfl (by simp) ?_ hG) (.stmt rfl (.comp (show 1 ≤ 2 by decide) ?_) hC)
  · simp only [List.mem_cons, List.not_mem_nil, or_false, forall_eq_or_imp, forall_eq]
    exact ⟨.var (m := 0) rfl, .interval (n := 3)⟩
  · simp only [List.mem_cons, List.not_mem_nil, or_false, forall_eq_or_imp, forall_eq]
    exact ⟨hB, hA⟩

theorem inert_atom (c : Connector) (a : Word) {i : Info} : Inert c (.atom a i) :=
  ⟨fun _ _ h => by simp at h, fun _ _ _ h => by simp at h⟩

theorem mach_exact : ExactInts mach := by
  intro n hn
  have h0 : (n : ℚ) ≤ 2147483647 := by exact_mod_cast hn
  refine ⟨?_, by simp [mach, Rnd.exact]⟩
  have h1 : ¬ (2 ^ 1024 ≤ (n : ℚ)) := by
    intro h
    have h1 : (2 : ℚ) ^ 1024 ≤ 2147483647 := le_trans h h0
    have h2 : (2 : ℚ) ^ 32 ≤ 2 ^ 1024 := pow_le_pow_right₀ (by norm_num) (by norm_num)
    have h3 : (2 : ℚ) ^ 32 ≤ 2147483647 := le_trans h2 h1
    norm_num at h3
  have h2 : ¬ ((n : ℚ) ≤ -2 ^ 1024) := by
    intro h
    have h3 : (0 : ℚ) ≤ n := Nat.cast_nonneg n
    have h4 : (0 : ℚ) < 2 ^ 1024 := by positivity
    exact absurd (le_trans h3 h) (not_le.mpr (neg_neg_of_pos h4))
  have h3 : ¬ ((n : ℚ) ≠ 0 ∧ (n : ℚ) < 1 / 2 ^ 1022 ∧ -(n : ℚ) < 1 / 2 ^ 1022) := by
    rintro ⟨h4, h5, _⟩
    have : 1 ≤ n := Nat.one_le_iff_ne_zero.mpr (by exact_mod_cast h4)
    have h6 : (1 : ℚ) ≤ n := by exact_mod_cast this
    have h7 : (1 : ℚ) < 1 / 2 ^ 1022 := lt_of_le_of_lt h6 h5
    rw [lt_div_iff₀ (by positivity), one_mul] at h7
    exact absurd h7 (not_lt.mpr (one_le_pow₀ (by norm_num)))
  simp only [mach, decide_eq_false_iff_not]
  rintro (h | h | h)
  · exact h1 h
  · exact h2 h
  · exact h3 h

theorem sample41_steady : Steady sample41 := by
  refine .stmt _ _ (.stmt _ _ (.comp _ _ ?_ ?_ ?_) (.atom _ _)) (.stmt _ _ (.comp _ _ ?_ ?_ ?_) (.atom _ _))
  · simp only [List.mem_cons, List.not_mem_nil, or_false, forall_eq_or_imp, forall_eq]
    exact ⟨.var _ _ _, .interval _ _⟩
  · intro h; cases h
  · intro h; cases h
  · simp only [List.mem_cons, List.not_mem_nil, or_false, forall_eq_or_imp, forall_eq]
    exact ⟨.atom _ _, .atom _ _⟩
  · intro _ h; cases h
  · intro _
    refine ⟨by simp, ?_, by simp⟩
    simp only [List.mem_cons, List.not_mem_nil, or_false, forall_eq_or_imp, forall_eq]
    exact ⟨inert_atom _ _, inert_atom _ _⟩

theorem sample41_leaves : leafTerms sample41 =
    [mkVar .independent "$x" 0, mkInterval 3, sGo, sB, sA, sC] := rfl

theorem sample41_plain : PlainLeaves sample41 := by
  refine ⟨?_, by decide +kernel⟩
  rw [sample41_leaves]
  intro n i h
  simp [mkVar, mkInterval, sGo, sB, sA, sC, mkAtom, mkOperation] at h
  omega

theorem sample41_order : InOrder sample41 := by
  intro k
  cases k
  · exact ⟨1, by decide +kernel⟩
  · exact ⟨0, by decide +kernel⟩
  · exact ⟨0, by decide +kernel⟩

theorem sample41_held : AtomsHeld names5 sample41 := by
  rw [AtomsHeld, sample41_leaves]
  intro a i h
  simp only [mkVar, mkInterval, sGo, sB, sA, sC, mkAtom, mkOperation, List.mem_cons, List.not_mem_nil, or_false,
    Term.atom.injEq, reduceCtorEq, false_or] at h
  rcases h with ⟨rfl, rfl⟩ | ⟨rfl, rfl⟩ | ⟨rfl, rfl⟩ | ⟨rfl, rfl⟩
  · refine ⟨3, by decide +kernel, "^go", by decide +kernel, fun _ v hv => ?_⟩
    have : v = "go" := by
      apply String.toList_injective
      have := congrArg String.toList hv
      simpa using this.symm
    subst this
    decide +kernel
  · exact ⟨1, by decide +kernel, "B", by decide +kernel, fun h => by cases h⟩
  · exact ⟨0, by decide +kernel, "A", by decide +kernel, fun h => by cases h⟩
  · exact ⟨2, by decide +kernel, "C", by decide +kernel, fun h => by cases h⟩

theorem sample41_clash : NoClash names5.store.dict sample41 := by unfold NoClash; decide +kernel

/-- The hypotheses are met by `<(^go, $0, +3) ==> <{B, A} --> C>>`. -/
example : ∃ text, Print.term names5.store.dict false sample41 = .ok text ∧
    ∀ d < 3, ∀ fuel, 24 * (text.length + 1) + 6 ≤ fuel → ∀ bad,
      ∃ tk s', parseTask mach bad false fuel d with5 (codes (text ++ ['.'])) = (.ok (some tk), s') ∧
        tk.sentence.punct = .judgement ∧ shape tk.sentence.term = shape sample41 ∧
        tk.sentence.term.info = sample41.info ∧
        tk.sentence.term.relabel (fun _ _ => "") = sample41.relabel (fun _ _ => "") ∧
        s'.env.world.store = names5.store := by
  exact C41_roundtrip_partial (M := mach) (s := with5) (fun l => List.Perm.refl l) mach_exact .fresh names5_reach
    sample41_c sample41_legible trivial sample41_clash sample41_steady sample41_plain sample41_order sample41_held

/-! #### Terms that do not come back -/

mutual
/-- Equality of trees, as a program. -/
def sameShape : Shape → Shape → Bool
  | .const a, .const b => a == b
  | .interval m, .interval n => m == n
  | .var k m, .var k' n => k == k' && m == n
  | .stmt s c p, .stmt s' c' p' => sameShape s s' && c == c' && sameShape p p'
  | .comp c ts, .comp c' us => c == c' && sameShapes ts us
  | _, _ => false
/-- The same for lists. -/
def sameShapes : List Shape → List Shape → Bool
  | [], [] => true
  | t :: ts, u :: us => sameShape t u && sameShapes ts us
  | _, _ => false
end

mutual
theorem sameShape_refl : ∀ s : Shape, sameShape s s = true
  | .const a => by simp [sameShape]
  | .interval m => by simp [sameShape]
  | .var k m => by simp [sameShape]
  | .stmt s c p => by simp [sameShape, sameShape_refl s, sameShape_refl p]
  | .comp c ts => by simp [sameShape, sameShapes_refl ts]
theorem sameShapes_refl : ∀ ss : List Shape, sameShapes ss ss = true
  | [] => rfl
  | s :: ss => by simp [sameShapes, sameShape_refl s, sameShapes_refl ss]
end

theorem differ {s u : Shape} (h : sameShape s u = false) : s ≠ u := by
  rintro rfl
  rw [sameShape_refl] at h
  cases h

/-- The term of the judgement whose text is the printed form of a term and a full stop. -/
def reread (w : World) (t : Term) : Option Term :=
  match Print.term w.store.dict false t with
  | .ok text =>
    match (parseTask mach undefined true 3000 0 ⟨freshBuf, .uninit, ⟨w, fun _ => [], ⟨0, 0⟩⟩⟩
      (codes (text ++ ['.']))).1 with
    | .ok (some tk) => some tk.sentence.term
    | _ => none
  | _ => none

/-- `{C, {B, A}}`, which comes from `{[{A, B}, C]}`. -/
def nested : Term := finishComp .extensionalSet [sC, setAB]
theorem nested_c : Constructed nested :=
  .comp (ord := id) (args := [finishComp .intensionalSet [sC, setAB]]) .extensionalSet true permutes_id (by
    simp only [List.mem_singleton, forall_eq]
    exact .comp (ord := id) (args := [setAB, sC]) .intensionalSet true permutes_id (by
      simp only [List.mem_cons, List.not_mem_nil, or_false, forall_eq_or_imp, forall_eq]
      exact ⟨setAB_c, sC_c⟩) (by rfl)) (by rfl)



/-- The term of the judgement whose text is given. -/
def readTerm (w : World) (text : List Char) : Option Term :=
  match (parseTask mach undefined true 3000 0 ⟨freshBuf, .uninit, ⟨w, fun _ => [], ⟨0, 0⟩⟩⟩
    (codes (text ++ ['.']))).1 with
  | .ok (some tk) => some tk.sentence.term
  | _ => none

/-- C41 fails for compounds of compounds of different kinds: the line `{[{A, B}, C]}.` makes the term
`{C, {B, A}}`; when this is read, the inner set is merged with the outer one, which gives `{B, A, C}`. -/
theorem C41_merging_counterexample :
    Constructed nested ∧ (readTerm names5 "{[{A, B}, C]}".toList).map (fun t => sameShape (shape t) (shape nested)) =
        some true ∧
      Print.term names5.store.dict false nested = .ok "{C, {B, A}}".toList ∧
      ∃ u, readTerm names5 "{C, {B, A}}".toList = some u ∧ shape u ≠ shape nested := by
  refine ⟨nested_c, by decide +kernel, by decide +kernel, ?_⟩
  have h : (readTerm names5 "{C, {B, A}}".toList).map (fun t => sameShape (shape t) (shape nested)) =
      some false := by decide +kernel
  obtain ⟨u, hu, h⟩ := Option.map_eq_some_iff.mp h
  exact ⟨u, hu, differ h⟩

/-- `(&&, <$1 --> A>, <$0 --> B>)`, which comes from `(&&, <$x --> B>, <$y --> A>)`. -/
def swapped : Term :=
  finishComp .conjunction [mkStmt (mkVar .independent "$y" 1) .inheritance sA,
    mkStmt (mkVar .independent "$x" 0) .inheritance sB]

theorem swapped_c : Constructed swapped :=
  .comp (ord := id) (args := [mkStmt (mkVar .independent "$x" 0) .inheritance sB,
      mkStmt (mkVar .independent "$y" 1) .inheritance sA]) .conjunction true permutes_id (by
    simp only [List.mem_cons, List.not_mem_nil, or_false, forall_eq_or_imp, forall_eq]
    exact ⟨.stmt .inheritance true (.var _ _ _) sB_c rfl, .stmt .inheritance true (.var _ _ _) sA_c rfl⟩) (by rfl)

/-- C41 fails when the components of a set are sorted past each other: variables are numbered while the
line `(&&, <$x --> B>, <$y --> A>).` is read, then the statements are sorted.  Reading the printed form
numbers the variables the other way round. -/
theorem C41_numbering_counterexample :
    Constructed swapped ∧ (readTerm names5 "(&&, <$x --> B>, <$y --> A>)".toList).map
        (fun t => sameShape (shape t) (shape swapped)) = some true ∧
      Print.term names5.store.dict false swapped = .ok "(&&, <$1 --> A>, <$0 --> B>)".toList ∧
      ∃ u, readTerm names5 "(&&, <$1 --> A>, <$0 --> B>)".toList = some u ∧ shape u ≠ shape swapped := by
  refine ⟨swapped_c, by decide +kernel, by decide +kernel, ?_⟩
  have h : (readTerm names5 "(&&, <$1 --> A>, <$0 --> B>)".toList).map
      (fun t => sameShape (shape t) (shape swapped)) = some false := by decide +kernel
  obtain ⟨u, hu, h⟩ := Option.map_eq_some_iff.mp h
  exact ⟨u, hu, differ h⟩

/-- C41 fails for intervals with a negative number, which the parser makes from `+-3.`: they are printed
without the sign `+`, and `-3.` is rejected. -/
theorem C41_negative_counterexample :
    Constructed (mkInterval (-3)) ∧
      (readTerm names5 "+-3".toList).map (fun t => sameShape (shape t) (shape (mkInterval (-3)))) = some true ∧
      Print.term names5.store.dict false (mkInterval (-3)) = .ok "-3".toList ∧
      rejected? (parseText true 300 freshBuf (codes ("-3".toList ++ ['.'])) 0) = true :=
  ⟨.interval _, by decide +kernel, by decide +kernel, by decide +kernel⟩

/-- C41 fails for the copula `{--`, which the parser never makes: it reads it as an abbreviation. -/
theorem C41_copula_counterexample :
    Constructed (mkStmt sA .instance sB) ∧
      Print.term names5.store.dict false (mkStmt sA .instance sB) = .ok "<A {-- B>".toList ∧
      ∃ u, readTerm names5 "<A {-- B>".toList = some u ∧ shape u ≠ shape (mkStmt sA .instance sB) := by
  refine ⟨.stmt .instance true sA_c sB_c rfl, by decide +kernel, ?_⟩
  have h : (readTerm names5 "<A {-- B>".toList).map
      (fun t => sameShape (shape t) (shape (mkStmt sA .instance sB))) = some false := by decide +kernel
  obtain ⟨u, hu, h⟩ := Option.map_eq_some_iff.mp h
  exact ⟨u, hu, differ h⟩

/-- A and `^go` have been mentioned, `go` has not. -/
def names2 : World :=
  (World.init.alloc "A" 0x555555581eb0 false).alloc "^go" 0x5555555820b0 true

theorem names2_reach : Reach true names2 :=
  .step (.operation "go" 0x5555555820b0)
    (.step (.create "A" 0x555555581eb0) .init (fresh_of (by decide)) rfl)
    ⟨fresh_of (by decide +kernel), rfl⟩ rfl

/-- `(^go, A)` -/
def goA : Term := mkStmt (finishComp .product [sA]) .inheritance sGo

theorem goA_c : Constructed goA :=
  .stmt .inheritance true (.comp (ord := id) (args := [sA]) .product true permutes_id (by
    simp only [List.mem_singleton, forall_eq]
    exact sA_c) rfl) sGo_c rfl

/-- C41 fails for operations whose name without `^` is no term (see C36): reading `(^go, A)` makes a second
operation `^go`, with another address. -/
theorem C41_operation_counterexample :
    Reach true names2 ∧ Constructed goA ∧ Print.term names2.store.dict false goA = .ok "(^go, A)".toList ∧
      ∃ u, readTerm names2 "(^go, A)".toList = some u ∧ shape u ≠ shape goA := by
  refine ⟨names2_reach, goA_c, by decide +kernel, ?_⟩
  have h : (readTerm names2 "(^go, A)".toList).map (fun t => sameShape (shape t) (shape goA)) =
      some false := by decide +kernel
  obtain ⟨u, hu, h⟩ := Option.map_eq_some_iff.mp h
  exact ⟨u, hu, differ h⟩

/-! ### C76 -/

/-- C76: constructing a compound again, from its own components, gives the same compound: the components
in the same order, the same caches, in whatever order the `std::unordered_map` of connectors is walked.

Missing from the full statement: compounds with something left to reduce, see the counterexample. -/
theorem C76_again_partial {c : Connector} {ts : List Term} {i : Info} (ht : Constructed (.comp c ts i))
    (st : Steady (.comp c ts i)) {ord : Order} (hord : ∀ l, (ord l).Perm l) (b : Bool) :
    mkComp ord c ts b = .ok (.comp c ts i) :=
  st.mkComp ht.good hord b

example : mkComp id .extensionalSet [sB, sA] true = .ok setAB :=
  C76_again_partial (i := setAB.info) setAB_c (.comp _ _ (by
    simp only [List.mem_cons, List.not_mem_nil, or_false, forall_eq_or_imp, forall_eq]
    exact ⟨.atom _ _, .atom _ _⟩) (fun _ h => by cases h) (fun _ => by
      refine ⟨by simp, ?_, by simp⟩
      simp only [List.mem_cons, List.not_mem_nil, or_false, forall_eq_or_imp, forall_eq]
      exact ⟨inert_atom _ _, inert_atom _ _⟩)) (fun l => List.Perm.refl l) true

/-- C76 fails for `{C, {B, A}}`: constructing the set of its components merges the inner set. -/
theorem C76_merging_counterexample :
    Constructed nested ∧ ∃ u, mkComp id .extensionalSet [sC, setAB] true = .ok u ∧ shape u ≠ shape nested := by
  have h : (match mkComp id .extensionalSet [sC, setAB] true with
      | .ok t => sameShape (shape t) (shape nested)
      | _ => true) = false := by decide +kernel
  refine ⟨nested_c, ?_⟩
  cases hu : mkComp id .extensionalSet [sC, setAB] true with
  | ok u => rw [hu] at h; exact ⟨u, rfl, differ h⟩
  | _ => rw [hu] at h; cases h

end Cnars.Props
