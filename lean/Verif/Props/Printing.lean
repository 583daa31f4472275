import Verif.Interp.Faithful
import Verif.Interp.Sentences
import Verif.Props.Compounds
import Mathlib.Data.Rat.Floor

/-!
# C37-C40, C70: printing
-/

namespace Cnars.Props
open Cnars Term Print

/-! ### Samples -/

/-- `^go` -/
def sGo : Term := mkOperation 0x5555555820b0#64
theorem sGo_c : Constructed sGo := .operation _

/-- A dictionary with the names of the sample atoms. -/
def sDict : Map Key String :=
  (((Map.empty.set (keyOf sA.hash) "A").set (keyOf sB.hash) "B").set (keyOf sC.hash) "C").set
    (keyOf sGo.hash) "^go"

/-- `(*, A, B)` -/
def prodAB : Term := finishComp .product [sA, sB]
theorem prodAB_c : Constructed prodAB :=
  .comp (ord := id) (args := [sA, sB]) .product true permutes_id (by simp; exact ⟨sA_c, sB_c⟩) rfl

/-- `(^go, A, B)`, that is `<(*, A, B) --> ^go>`. -/
def goAB : Term := mkStmt prodAB .inheritance sGo
theorem goAB_c : Constructed goAB := .stmt .inheritance true prodAB_c sGo_c rfl

/-- `<(^go, A, B) ==> <{A, B} --> C>>` -/
def ruleAB : Term := mkStmt goAB .implication (mkStmt setAB .inheritance sC)
theorem ruleAB_c : Constructed ruleAB :=
  .stmt .implication true goAB_c (.stmt .inheritance true setAB_c sC_c rfl) rfl

theorem goAB_plain : Plain goAB := by
  refine .opStmt _ _ _ _ rfl ?_
  intro t ht
  simp only [List.mem_cons, List.not_mem_nil, or_false] at ht
  rcases ht with rfl | rfl <;> exact .atom _ _

theorem setAB_plain : Plain setAB := by
  refine .comp _ _ (by simp) ?_
  intro t ht
  simp only [List.mem_cons, List.not_mem_nil, or_false] at ht
  rcases ht with rfl | rfl <;> exact .atom _ _

theorem ruleAB_plain : Plain ruleAB :=
  .stmt _ _ rfl goAB_plain (.stmt _ _ rfl setAB_plain (.atom _ _))

example : Print.term sDict false ruleAB = .ok "<(^go, A, B) ==> <{B, A} --> C>>".toList := by
  decide +kernel

/-! ## C37 -/

/-- Plain printing of a constructed term is defined exactly for the terms in which every compound
has components and every statement with an operational predicate has a compound as its subject —
provided no statement or compound shares its key with a dictionary entry.

Missing from the full statement: the other terms, which the constructors do build; see the
counterexamples. -/
theorem C37_defined_iff_partial {t : Term} (h : Constructed t) {d : Map Key String}
    (hd : ∀ u ∈ complexes t, d (keyOf u.hash) = none) :
    (∃ s, Print.term d false t = .ok s) ↔ Printable t :=
  ⟨fun hs => (Printable.of_ok' h.good hd).1 hs, fun hp => hp.ok h.good d⟩

/-- For those terms plain printing is defined in every dictionary. -/
theorem C37_plain_partial {t : Term} (h : Constructed t) (hp : Printable t) (d : Map Key String) :
    ∃ s, Print.term d false t = .ok s := hp.ok h.good d

/-- Coloured printing is defined too if no name in the dictionary contains a brace and the term
contains neither `{--` nor `{-]`. -/
theorem C37_colored_partial {t : Term} (h : Constructed t) (hp : Printable t) {d : Map Key String}
    (hd : ∀ k n, d k = some n → CleanName n)
    (hc : ∀ c ∈ copulas t, c ≠ .instance ∧ c ≠ .instanceProperty) :
    ∃ s, Print.term d true t = .ok s := by
  obtain ⟨_, c, _, h2, _⟩ := hp.both h.good hd hc
  exact ⟨c, h2⟩

example : ∃ s, Print.term Map.empty false ruleAB = .ok s :=
  C37_plain_partial ruleAB_c ruleAB_plain.printable _

theorem sDict_clean : ∀ k n, sDict k = some n → CleanName n := by
  intro k n h
  simp only [sDict, Map.set, Map.empty] at h
  have : n = "^go" ∨ n = "C" ∨ n = "B" ∨ n = "A" := by
    split at h
    · simp_all
    · split at h
      · simp_all
      · split at h
        · simp_all
        · split at h <;> simp_all
  unfold CleanName
  rcases this with rfl | rfl | rfl | rfl <;> decide +kernel

example : ∃ s, Print.term sDict true ruleAB = .ok s :=
  C37_colored_partial ruleAB_c ruleAB_plain.printable sDict_clean (by decide +kernel)

/-- `{A}` -/
def setA : Term := finishComp .extensionalSet [sA]
theorem setA_c : Constructed setA :=
  .comp (ord := id) (args := [sA]) .extensionalSet true permutes_id (by simp; exact sA_c) rfl
/-- `{B}` -/
def setB : Term := finishComp .extensionalSet [sB]
theorem setB_c : Constructed setB :=
  .comp (ord := id) (args := [sB]) .extensionalSet true permutes_id (by simp; exact sB_c) rfl

theorem singletons_sample : SetsOf .extensionalSet [setA, setB] := by
  refine ⟨by simp, ?_, told_of_hash ?_ ?_, apart_of_nodup (by decide +kernel)⟩
  · simp only [List.mem_cons, List.not_mem_nil, or_false, forall_eq_or_imp, forall_eq]
    exact ⟨⟨setA_c, _, _, rfl⟩, setB_c, _, _, rfl⟩
  · simp only [List.mem_cons, List.not_mem_nil, or_false, forall_eq_or_imp, forall_eq]
    exact ⟨setA_c, setB_c⟩
  · intro a b ha hb he
    simp only [List.mem_cons, List.not_mem_nil, or_false] at ha hb
    rcases ha with rfl | rfl <;> rcases hb with rfl | rfl <;>
      first | rfl | exact absurd he (by decide +kernel)

/-- `(&, {A}, {B})` is built as a compound without components; printing it takes the predecessor of
an empty range's end. -/
theorem C37_empty_counterexample : ∃ t, Constructed t ∧
    mkComp id .extensionalIntersection [setA, setB] true = .ok t ∧
    ∀ colored, Print.term Map.empty colored t = .ub := by
  obtain ⟨R, i, e, h⟩ := C15_extensional_intersection_partial (b := true) permutes_id singletons_sample
  refine ⟨_, .comp _ true permutes_id (by simp; exact ⟨setA_c, setB_c⟩) e, e, ?_⟩
  have hR : R = [] := by
    apply List.eq_nil_iff_forall_not_mem.2
    intro z hz
    have hA := (h z).1 hz setA (by simp)
    have hB := (h z).1 hz setB (by simp)
    simp only [setA, setB, finishComp, comps, List.mem_singleton] at hA hB
    rw [hA] at hB
    exact absurd (congrArg Term.hash hB) (by decide +kernel)
  subst hR
  intro colored
  rw [term_comp rfl]; rfl

/-- `<A --> ^go>`: the atom `A` is read as a compound. -/
theorem C37_operation_counterexample : Constructed (mkStmt sA .inheritance sGo) ∧
    ∀ colored, Print.term Map.empty colored (mkStmt sA .inheritance sGo) = .ub :=
  ⟨.stmt .inheritance true sA_c sGo_c rfl, by decide +kernel⟩

/-- `<A ==> (^go, A, B)>`: an implication whose consequent is an operation counts as an operation
itself, and the atom `A` is read as a compound. -/
theorem C37_implication_counterexample : Constructed (mkStmt sA .implication goAB) ∧
    ∀ colored, Print.term sDict colored (mkStmt sA .implication goAB) = .ub :=
  ⟨.stmt .implication true sA_c goAB_c rfl, by decide +kernel⟩

/-- Coloured printing of a statement with copula `{--` or `{-]` never returns: the copula is used as
a format string. -/
theorem C37_copula_counterexample {s p : Term} {c : Copula} {i : Info} {d : Map Key String}
    (hc : c = .instance ∨ c = .instanceProperty) (hi : i.isOperation = false)
    (hd : d (keyOf (Term.stmt s c p i).hash) = none) (r : Str) :
    Print.term d true (.stmt s c p i) ≠ .ok r := by
  rw [term_stmt hd, hi]
  simp only [Bool.false_eq_true, if_false]
  intro h
  simp only [Res.bind_eq_ok] at h
  obtain ⟨_, _, _, _, _, _, x, hx, _⟩ := h
  rcases hc with rfl | rfl <;> exact absurd hx (by simp only [Print.paint, if_true]; intro h; cases h)

example : Constructed (mkStmt sA .instance sB) ∧
    Print.term sDict true (mkStmt sA .instance sB) = .throw "fmt::format_error" :=
  ⟨.stmt .instance true sA_c sB_c rfl, by decide +kernel⟩

/-- An atom called `{` cannot be printed in colour. -/
theorem C37_name_counterexample :
    Print.term (Map.empty.set (keyOf sA.hash) "{") true sA = .throw "fmt::format_error" := by
  decide +kernel

/-! ## C38 -/

/-- In dictionary `d` the names of the constants and operations of `t` and `u` are words that do not
look like variables, intervals or connectors. -/
def ProperNames (d : Map Key String) (t : Term) : Prop :=
  ∀ x ∈ atoms t, ∃ l, Print.term d false x = .ok l ∧ NameLike l

/-- Names identify constants. -/
def NamesIdentify (d : Map Key String) (t u : Term) : Prop :=
  ∀ x ∈ atoms t, ∀ y ∈ atoms u, Print.term d false x = Print.term d false y → addrOf x = addrOf y

theorem atoms_atom {t x : Term} (h : x ∈ atoms t) : ∃ a i, x = .atom a i := by
  have key : ∀ n (t : Term), sizeOf t < n → x ∈ atoms t → ∃ a i, x = .atom a i := by
    intro n
    induction n with
    | zero => intro t ht; omega
    | succ n ih =>
      intro t ht hx
      cases t with
      | atom a i => simp [atoms] at hx; exact ⟨a, i, hx⟩
      | interval => simp [atoms] at hx
      | var => simp [atoms] at hx
      | stmt s c p i =>
        simp only [atoms, List.mem_append] at hx
        simp only [Term.stmt.sizeOf_spec] at ht
        rcases hx with hx | hx
        · exact ih s (by omega) hx
        · exact ih p (by omega) hx
      | comp c ts i =>
        simp only [atoms, mem_atomsAll] at hx
        simp only [Term.comp.sizeOf_spec] at ht
        obtain ⟨u, hu, hx⟩ := hx
        have := List.sizeOf_lt_of_mem hu
        exact ih u (by omega) hx
  exact key _ t (Nat.lt_succ_self _) h

/-- Two terms that print the same are the same term, if every statement with an operational
predicate is an operation statement `<(*, …) --> ^op>` (`Plain`), compounds have components, no
statement or compound shares its key with a dictionary entry, and names identify atoms and do not
look like anything else.

Missing from the full statement: the other shapes; see the counterexamples. -/
theorem C38_faithful_partial {t u : Term} {d : Map Key String} (ht : Constructed t)
    (hu : Constructed u) (pt : Plain t) (pu : Plain u)
    (ct : ∀ x ∈ complexes t, d (keyOf x.hash) = none) (cu : ∀ x ∈ complexes u, d (keyOf x.hash) = none)
    (nt : ProperNames d t) (nu : ProperNames d u) (hi : NamesIdentify d t u)
    (h : Print.term d false t = Print.term d false u) : shape t = shape u := by
  have e1 := pt.text ht.good ct
  have e2 := pu.text hu.good cu
  rw [e1, e2, Res.ok.injEq] at h
  have l1 : ∀ {v : Term}, ProperNames d v → ∀ x ∈ atoms v, NameLike (label d x) := by
    intro v nv x hx
    obtain ⟨l, h1, h2⟩ := nv x hx
    obtain ⟨a, i, rfl⟩ := atoms_atom hx
    rw [term_atom, Res.ok.injEq] at h1
    rw [h1]; exact h2
  refine pt.tree_inj pu ht.good hu.good (l1 nt) (l1 nu) ?_
    (Tree.text_injective (pt.tree_ok (l1 nt)) (pu.tree_ok (l1 nu)) h)
  intro x hx y hy e
  refine hi x hx y hy ?_
  obtain ⟨a, i, rfl⟩ := atoms_atom hx
  obtain ⟨b, j, rfl⟩ := atoms_atom hy
  rw [term_atom, term_atom, e]

theorem ruleAB_names : ProperNames sDict ruleAB := by
  intro x hx
  have : x = sA ∨ x = sB ∨ x = sC ∨ x = sGo := by
    have e : atoms ruleAB = [sA, sB, sGo, sB, sA, sC] := rfl
    rw [e] at hx
    simp only [List.mem_cons, List.not_mem_nil, or_false] at hx
    tauto
  have key : ∀ l : Str, ∀ c r, l = c :: r → (∀ x ∈ l, Tree.isDelim x = false) → c ∉ reserved →
      NameLike l := by
    rintro l c r rfl h1 h2
    exact ⟨⟨by simp, h1⟩, fun c' r' e => by cases e; exact h2⟩
  rcases this with rfl | rfl | rfl | rfl
  · exact ⟨['A'], by decide +kernel, key _ 'A' [] rfl (by decide +kernel) (by decide +kernel)⟩
  · exact ⟨['B'], by decide +kernel, key _ 'B' [] rfl (by decide +kernel) (by decide +kernel)⟩
  · exact ⟨['C'], by decide +kernel, key _ 'C' [] rfl (by decide +kernel) (by decide +kernel)⟩
  · exact ⟨['^', 'g', 'o'], by decide +kernel, key _ '^' ['g', 'o'] rfl (by decide +kernel) (by decide +kernel)⟩

/-- The hypotheses are met by `<(^go, A, B) ==> <{A, B} --> C>>`. -/
example (h : Print.term sDict false ruleAB = Print.term sDict false ruleAB) : shape ruleAB = shape ruleAB :=
  C38_faithful_partial ruleAB_c ruleAB_c ruleAB_plain ruleAB_plain (by decide +kernel) (by decide +kernel)
    ruleAB_names ruleAB_names (by unfold NamesIdentify; decide +kernel) h

/-- `<{A, B} --> ^go>` and `<(*, B, A) --> ^go>` both print `(^go, B, A)`: the connector of the
subject of an operation statement is lost. -/
theorem C38_connector_counterexample : ∃ t u, Constructed t ∧ Constructed u ∧
    (∀ d : Map Key String, d (keyOf t.hash) = none → d (keyOf u.hash) = none →
      d (keyOf setAB.hash) = none →
      Print.term d false t = Print.term d false u) ∧ shape t ≠ shape u := by
  refine ⟨mkStmt setAB .inheritance sGo, mkStmt (finishComp .product [sB, sA]) .inheritance sGo,
    .stmt .inheritance true setAB_c sGo_c rfl,
    .stmt .inheritance true (.comp (ord := id) (args := [sB, sA]) .product true permutes_id
      (by simp; exact ⟨sB_c, sA_c⟩) rfl) sGo_c rfl, ?_, by simp [mkStmt, shape, setAB, finishComp]⟩
  intro d h1 h2 _
  unfold mkStmt at h1 h2 ⊢
  rw [term_stmt h1, term_stmt h2]
  rfl

/-- A statement is printed as `Z` if an atom called `Z` happens to have the same low 32 bits in its
hash. -/
theorem C38_clash_counterexample : ∃ t u : Term, Constructed t ∧ Constructed u ∧
    keyOf t.hash = keyOf u.hash ∧
    (∀ (d : Map Key String) (n : String), d (keyOf u.hash) = some n →
      Print.term d false t = .ok n.toList ∧ Print.term d false u = .ok n.toList) ∧
    shape t ≠ shape u := by
  have hk : keyOf (mkStmt sA .inheritance (mkAtom 0x555555582220#64)).hash =
      keyOf (mkAtom 0x5555c55220e0#64).hash := by decide +kernel
  refine ⟨mkStmt sA .inheritance (mkAtom 0x555555582220#64), mkAtom 0x5555c55220e0#64,
    .stmt .inheritance true sA_c (.atom _) rfl, .atom _, hk, ?_, by simp [mkStmt, mkAtom, shape]⟩
  intro d n h
  constructor
  · rw [← hk] at h
    unfold mkStmt at h ⊢
    rw [Print.term]
    simp only [named, h]
  · unfold mkAtom at h ⊢
    rw [Print.term]
    simp only [named, h]; rfl

/-! ## C39 -/

/-- Removing the escape sequences from the coloured rendering gives the plain one, if no name in the
dictionary contains a brace or an escape character and the term contains neither `{--` nor `{-]`.
(Printing is defined as in C37.)

Missing from the full statement: names with braces; see the counterexample. -/
theorem C39_color_partial {t : Term} (h : Constructed t) (hp : Printable t) {d : Map Key String}
    (hd : ∀ k n, d k = some n → CleanName n)
    (hc : ∀ c ∈ copulas t, c ≠ .instance ∧ c ≠ .instanceProperty) :
    ∃ c p, Print.term d true t = .ok c ∧ Print.term d false t = .ok p ∧ strip false c = p := by
  obtain ⟨p, c, h1, h2, h3⟩ := hp.both h.good hd hc
  exact ⟨c, p, h2, h1, h3.whole⟩

example : ∃ c p, Print.term sDict true ruleAB = .ok c ∧ Print.term sDict false ruleAB = .ok p ∧
    strip false c = p :=
  C39_color_partial ruleAB_c ruleAB_plain.printable sDict_clean (by decide +kernel)

/-- The coloured rendering is a different text. -/
example : Print.term sDict true ruleAB ≠ Print.term sDict false ruleAB := by decide +kernel

/-- An atom called `a{{b` loses a brace in colour. -/
theorem C39_brace_counterexample : ∃ c p,
    Print.term (Map.empty.set (keyOf sA.hash) "a{{b") true sA = .ok c ∧
    Print.term (Map.empty.set (keyOf sA.hash) "a{{b") false sA = .ok p ∧
    strip false c = "a{b".toList ∧ p = "a{{b".toList :=
  ⟨Color.escape .term ++ "a{b".toList ++ reset, "a{{b".toList, by decide +kernel, by decide +kernel,
    by decide +kernel, rfl⟩

/-! ## C40 -/

section
variable {K : Type} [Field K] [LinearOrder K] [IsStrictOrderedRing K] [FloorRing K]

omit [FloorRing K] in
theorem clamp_unit (n : Num K) : 0 ≤ n.clamp ∧ n.clamp ≤ 1 := by
  cases n with
  | fin x =>
    simp only [Num.clamp]
    split
    · split
      · exact ⟨by assumption, by assumption⟩
      · exact ⟨zero_le_one, le_refl 1⟩
    · exact ⟨le_refl 0, zero_le_one⟩
  | _ => simp [Num.clamp]

theorem cround_bounds {x : K} (h0 : 0 ≤ x) (h1 : x ≤ 1000) :
    0 ≤ Num.cround x ∧ Num.cround x ≤ 1000 ∧ |(Num.cround x : K) - x| ≤ 1 / 2 := by
  have e : Num.cround x = ⌊x + 1 / 2⌋ := by simp [Num.cround, h0]
  rw [e]
  have a := Int.floor_le (x + 1 / 2)
  have b := Int.lt_floor_add_one (x + 1 / 2)
  refine ⟨Int.floor_nonneg.2 (by linarith), ?_, ?_⟩
  · have : ⌊x + 1 / 2⌋ < 1001 := Int.floor_lt.2 (by push_cast; linarith)
    omega
  · rw [abs_le]; constructor <;> linarith

/-- What is used about `float` rounding: it is monotone, leaves the integers up to 1000 alone, and
its relative error up to there is at most `ε`; near 0, where exponents end, a small absolute error is
allowed. -/
structure FloatLike (R : Rnd K) (ε : K) : Prop where
  mono : Monotone R.s
  ints : ∀ k : Int, 0 ≤ k → k ≤ 1000 → R.s (k : K) = k
  err : ∀ x : K, 0 ≤ x → x ≤ 1000 → |R.s x - x| ≤ ε * (x + 1 / 1000)

/-- In real arithmetic, what is shown is a multiple of 0.001 in [0,1] whatever is stored, and within
0.0005 of a stored value in [0,1]. -/
theorem C40_exact (n : Num K) :
    (∃ k : Int, 0 ≤ k ∧ k ≤ 1000 ∧ n.shown (Rnd.exact K) = (k : K) / 1000) ∧
    ∀ x, n = .fin x → 0 ≤ x → x ≤ 1 → |n.shown (Rnd.exact K) - x| ≤ 1 / 2000 := by
  have hc : (n.toFloat (Rnd.exact K)).clamp = n.clamp := by cases n <;> rfl
  obtain ⟨h0, h1⟩ := clamp_unit n
  obtain ⟨k0, k1, k2⟩ := cround_bounds (x := n.clamp * 1000) (by linarith) (by linarith)
  have e : n.shown (Rnd.exact K) = (Num.cround (n.clamp * 1000) : K) / 1000 := by
    unfold Num.shown; rw [hc]; rfl
  refine ⟨⟨_, k0, k1, e⟩, ?_⟩
  rintro x rfl hx0 hx1
  have hx : (Num.fin x).clamp = x := by simp [Num.clamp, hx0, hx1]
  rw [e]
  rw [hx] at k2 ⊢
  rw [abs_le] at k2 ⊢
  constructor <;> [linarith [k2.1]; linarith [k2.2]]

/-- In floating point, what is shown is in [0,1], is the `float` nearest to a multiple of 0.001, and
differs from a stored value in [0,1] by at most 0.0005 and four rounding errors.

Missing from the full statement: exactly 0.0005, which rounding does not allow. -/
theorem C40_float_partial {R : Rnd K} {ε : K} (hR : FloatLike R ε) (n : Num K) :
    0 ≤ n.shown R ∧ n.shown R ≤ 1 ∧
    (∃ k : Int, 0 ≤ k ∧ k ≤ 1000 ∧ n.shown R = R.s ((k : K) / 1000)) ∧
    ∀ x, n = .fin x → 0 ≤ x → x ≤ 1 → |n.shown R - x| ≤ 1 / 2000 + 4 * ε := by
  have s0 : R.s 0 = 0 := by simpa using hR.ints 0 (by omega) (by omega)
  have s1 : R.s 1 = 1 := by simpa using hR.ints 1 (by omega) (by omega)
  have s1000 : R.s 1000 = 1000 := by simpa using hR.ints 1000 (by omega) (by omega)
  have hε : 0 ≤ ε := by
    have := hR.err 0 le_rfl (by norm_num)
    rw [s0] at this
    simpa using this
  obtain ⟨h0, h1⟩ := clamp_unit (n.toFloat R)
  have m0 : 0 ≤ R.s ((n.toFloat R).clamp * 1000) := s0 ▸ hR.mono (by linarith)
  have m1 : R.s ((n.toFloat R).clamp * 1000) ≤ 1000 := by
    have := hR.mono (show (n.toFloat R).clamp * 1000 ≤ 1000 by linarith)
    rwa [s1000] at this
  obtain ⟨k0, k1, k2⟩ := cround_bounds m0 m1
  generalize hk : Num.cround (R.s ((n.toFloat R).clamp * 1000)) = k at k0 k1 k2
  have e : n.shown R = R.s ((k : K) / 1000) := by
    unfold Num.shown; rw [hk, hR.ints k k0 k1]
  have kk0 : (0 : K) ≤ k := by exact_mod_cast k0
  have kk1 : (k : K) ≤ 1000 := by exact_mod_cast k1
  have d0 : (0 : K) ≤ (k : K) / 1000 := by positivity
  have d1 : (k : K) / 1000 ≤ 1 := by rw [div_le_one (by norm_num)]; exact kk1
  refine ⟨e ▸ s0 ▸ hR.mono d0, e ▸ s1 ▸ hR.mono d1, ⟨k, k0, k1, e⟩, ?_⟩
  rintro x rfl hx0 hx1
  have y0 : 0 ≤ R.s x := s0 ▸ hR.mono hx0
  have y1 : R.s x ≤ 1 := s1 ▸ hR.mono hx1
  have hc : ((Num.fin x).toFloat R).clamp = R.s x := by simp [Num.toFloat, Num.clamp, y0, y1]
  rw [hc] at k2
  rw [e]
  have e1 := abs_le.1 (hR.err x hx0 (by linarith))
  have e2 := abs_le.1 (hR.err (R.s x * 1000) (by linarith) (by linarith))
  have e3 := abs_le.1 (hR.err _ d0 (by linarith))
  have k2 := abs_le.1 k2
  have f1 : ε * (x + 1 / 1000) ≤ ε * (1 + 1 / 1000) := by gcongr
  have f2 : ε * (R.s x * 1000 + 1 / 1000) ≤ ε * (1000 + 1 / 1000) := by gcongr; linarith
  have f3 : ε * ((k : K) / 1000 + 1 / 1000) ≤ ε * (1 + 1 / 1000) := by gcongr
  rw [abs_le]
  constructor <;> linarith [e1.1, e1.2, e2.1, e2.2, e3.1, e3.2, k2.1, k2.2]

/-- Exact arithmetic is such a rounding. -/
example : FloatLike (Rnd.exact ℚ) 0 :=
  ⟨monotone_id, fun _ _ _ => rfl, fun x _ _ => by simp [Rnd.exact]⟩

end

/-- A NaN and negative numbers are shown as 0, infinity as 1, 0.12345 as 0.123. -/
example : (Num.nan : Num ℚ).shown (Rnd.exact ℚ) = 0 ∧ (Num.posInf : Num ℚ).shown (Rnd.exact ℚ) = 1 ∧
    (Num.fin (-3 : ℚ)).shown (Rnd.exact ℚ) = 0 ∧
    (Num.fin (12345 / 100000 : ℚ)).shown (Rnd.exact ℚ) = 123 / 1000 := by
  refine ⟨?_, ?_, ?_, ?_⟩ <;> norm_num [Num.shown, Num.toFloat, Num.clamp, Num.cround, Rnd.exact]

/-! ## C70 -/

section
variable {K : Type}

/-- What the parser builds: objects of the four classes. -/
inductive Built : Sentence K → Prop
  | judgement (g : Stamp.Globals) (d : Truth K) (t : Term) (tr : Option (Truth K))
      (s : Option Stamp.Stamp) : Built (.judgement g d t tr s)
  | question (g : Stamp.Globals) (t : Term) (s : Option Stamp.Stamp) : Built (.question g t s)
  | goal (g : Stamp.Globals) (d : Truth K) (t : Term) (tr : Option (Truth K))
      (s : Option Stamp.Stamp) : Built (.goal g d t tr s)
  | quest (g : Stamp.Globals) (t : Term) (s : Option Stamp.Stamp) : Built (.quest g t s)

/-- Plain printing of a sentence of one of the four classes is defined whenever that of its term is,
and starts with the term followed by the punctuation mark; a tense mark follows exactly if the
sentence is not eternal, and a truth value exactly in judgements and goals.

Missing from the full statement: coloured printing, and sentences created without a class. -/
theorem C70_plain_partial {s : Sentence K} (h : Built s) {fix : Nat → K → Str} {time : Nat}
    {d : Map Key String} {x : Str} (hx : Print.term d false s.term = .ok x) :
    ∃ tense truth : Str,
      Print.sentence fix time d false s = .ok (x ++ s.punct.symbol.toList ++ [' '] ++ tense ++ truth) ∧
      (s.stamp.isEternal = true → tense = []) ∧
      (s.stamp.isEternal = false → tense = (s.stamp.tense time).symbol.toList ++ [' ']) ∧
      (s.punct = .question ∨ s.punct = .quest → truth = []) ∧
      (s.punct = .judgement ∨ s.punct = .goal → ∃ v, s.truth = some v ∧
        truth = ['%'] ++ fix 3 v.f ++ [';'] ++ fix 3 v.c ++ ['%']) := by
  have key : ∀ (tr : Option (Truth K)), truthOf s = .ok tr →
      (s.punct = .question ∨ s.punct = .quest → tr = none) →
      (s.punct = .judgement ∨ s.punct = .goal → tr = s.truth ∧ ∃ v, tr = some v) →
      ∃ tense truth : Str,
      Print.sentence fix time d false s = .ok (x ++ s.punct.symbol.toList ++ [' '] ++ tense ++ truth) ∧
      (s.stamp.isEternal = true → tense = []) ∧
      (s.stamp.isEternal = false → tense = (s.stamp.tense time).symbol.toList ++ [' ']) ∧
      (s.punct = .question ∨ s.punct = .quest → truth = []) ∧
      (s.punct = .judgement ∨ s.punct = .goal → ∃ v, s.truth = some v ∧
        truth = ['%'] ++ fix 3 v.f ++ [';'] ++ fix 3 v.c ++ ['%']) := by
    intro tr h1 h2 h3
    refine ⟨stampText false time s.stamp,
      tr.elim [] fun v => ['%'] ++ fix 3 v.f ++ [';'] ++ fix 3 v.c ++ ['%'], ?_, ?_, ?_, ?_, ?_⟩
    · unfold Print.sentence
      rw [hx, h1]
      cases tr <;> simp [truthText, paint]
    · intro h; simp [stampText, h]
    · intro h; simp [stampText, h]
    · intro h; rw [h2 h]; rfl
    · intro h
      obtain ⟨e, v, hv⟩ := h3 h
      exact ⟨v, by rw [← e, hv], by rw [hv]; rfl⟩
  cases h with
  | judgement g dd t tr st =>
    exact key (some (tr.getD dd)) rfl (by simp [Sentence.judgement]) fun _ => ⟨rfl, _, rfl⟩
  | question g t st => exact key none rfl (fun _ => rfl) (by simp [Sentence.question])
  | goal g dd t tr st =>
    exact key (some (tr.getD dd)) rfl (by simp [Sentence.goal]) fun _ => ⟨rfl, _, rfl⟩
  | quest g t st => exact key none rfl (fun _ => rfl) (by simp [Sentence.quest])

/-- No sentence can be printed in colour. -/
theorem C70_color_counterexample (s : Sentence K) (fix : Nat → K → Str) (time : Nat)
    (d : Map Key String) (r : Str) : Print.sentence fix time d true s ≠ .ok r := by
  intro h
  unfold Print.sentence at h
  simp only [Res.bind_eq_ok, if_true] at h
  obtain ⟨_, _, _, _, _, _, _, _, h⟩ := h
  cases h

/-- `Sentence(term, Goal, …)` as created from Python: reading the desire value is undefined, whatever
the truth value. -/
theorem C70_goal_counterexample (g : Stamp.Globals) (tr : Option (Truth K)) (st : Option Stamp.Stamp)
    (fix : Nat → K → Str) (time : Nat) :
    Print.sentence fix time sDict false (Sentence.ofPunct g sA .goal tr st) = .ub := by
  have : Print.term sDict false sA = .ok ['A'] := by decide +kernel
  unfold Print.sentence
  show (Print.term sDict false sA).bind _ = _
  rw [this]; rfl

/-- `Sentence(term, Judgement, None, …)`: a null pointer is dereferenced. -/
theorem C70_judgement_counterexample (g : Stamp.Globals) (st : Option Stamp.Stamp)
    (fix : Nat → K → Str) (time : Nat) :
    Print.sentence fix time sDict false (Sentence.ofPunct g sA .judgement none st) = .ub := by
  have : Print.term sDict false sA = .ok ['A'] := by decide +kernel
  unfold Print.sentence
  show (Print.term sDict false sA).bind _ = _
  rw [this]; rfl

end

/-- `A. :/: %1;9%` for a sentence five steps ahead. -/
example : Print.sentence (K := ℚ) (fun _ x => if x = 1 then ['1'] else ['9']) 0 sDict false
    (.judgement ⟨0, 0⟩ ⟨1, 9 / 10, 1⟩ sA none (some (Stamp.Stamp.makeAt ⟨0, 0⟩ 5).1)) =
    .ok "A. :/: %1;9%".toList := by decide +kernel

end Cnars.Props
