import Verif.Narsese.LtLemmas
import Verif.Narsese.Interval

/-!
# C01-C09: identity, equality and ordering of terms
-/

namespace Cnars.Props
open Cnars Term

/-- An atomic constant: a plain atom or an operation, at a given address. -/
def IsConstAt (t : Term) (addr : Word) : Prop := t = mkAtom addr ∨ t = mkOperation addr

/-! ## C01 -/

theorem C01_distinct_atoms {s t : Term} {a b : Word} (hs : IsConstAt s a) (ht : IsConstAt t b) :
    (a ≠ b → s.hash ≠ t.hash ∧ Term.eq s t = .ok false) ∧ (a = b → Term.eq s t = .ok true) := by
  have e : Term.eq s t = .ok (s.hash == t.hash) := by
    have ls : IsLeaf s := by rcases hs with rfl | rfl; exacts [.atom _, .operation _]
    have lt : IsLeaf t := by rcases ht with rfl | rfl; exacts [.atom _, .operation _]
    have vs : s.varKind = none := by rcases hs with rfl | rfl <;> rfl
    rw [eq_leaf ls, lt.typeIdx, leafEq_const (.inl vs)]
    by_cases h : s.hash = t.hash <;> simp [h]
  have hs' : s.hash = atomHash a := by rcases hs with rfl | rfl <;> rfl
  have ht' : t.hash = atomHash b := by rcases ht with rfl | rfl <;> rfl
  refine ⟨fun hab => ?_, fun hab => ?_⟩
  · have hne : s.hash ≠ t.hash := by
      rw [hs', ht']; exact fun h => hab (atomHash_inj h)
    exact ⟨hne, by rw [e]; simp [hne]⟩
  · rw [e, hs', ht', hab]; simp

example : Term.eq (mkAtom 0x7f0000001000#64) (mkAtom 0x7f0000001010#64) = .ok false :=
  ((C01_distinct_atoms (.inl rfl) (.inl rfl)).1 (by decide +kernel)).2

/-! ## C02 -/

/-- For constants anywhere from 4 GiB up to the end of user space, intervals of any length that the
parser accepts, and variables of any kind and index, the kinds never mix; intervals compare equal
exactly when their lengths do; variables of different kinds never compare equal.  (For dependent
and query variables of the same kind `==` is undefined, see C05.) -/
theorem C02_kinds_distinct_partial {a : Word} (ha : 2^32 ≤ a.toNat ∧ a.toNat < 2^63) {s : Term}
    (hs : IsConstAt s a) {m n : Int} (hm : 0 ≤ m ∧ m < 2^31) (hn : 0 ≤ n ∧ n < 2^31)
    (j k : VarKind) (name name' : String) (x y : Int) :
    Term.eq s (mkVar k name x) = .ok false ∧ Term.eq (mkVar k name x) s = .ok false ∧
    Term.eq s (mkInterval n) = .ok false ∧ Term.eq (mkInterval n) s = .ok false ∧
    Term.eq (mkInterval n) (mkVar k name x) = .ok false ∧
    Term.eq (mkVar k name x) (mkInterval n) = .ok false ∧
    Term.eq (mkInterval m) (mkInterval n) = .ok (decide (m = n)) ∧
    (j ≠ k → Term.eq (mkVar j name' y) (mkVar k name x) = .ok false) := by
  have ls : IsLeaf s := by rcases hs with rfl | rfl; exacts [.atom _, .operation _]
  have hs' : s.hash = atomHash a := by rcases hs with rfl | rfl <;> rfl
  have neq : ∀ {t u : Term}, IsLeaf t → t.hash ≠ u.hash → Term.eq t u = .ok false := by
    intro t u ht h; rw [eq_leaf ht]; simp [h]
  have h1 : s.hash ≠ (mkVar k name x).hash := by rw [hs']; exact atomHash_ne_varHash ha.2 k
  have h2 : s.hash ≠ (mkInterval n).hash := by
    rw [hs']; exact atomHash_ne_intervalHash ha.1 ha.2 (by omega)
  have h3 : (mkInterval n).hash ≠ (mkVar k name x).hash := intervalHash_ne_varHash hn.1 hn.2 k
  refine ⟨neq ls h1, neq (.var ..) h1.symm, neq ls h2, neq (.interval _) h2.symm,
    neq (.interval _) h3, neq (.var ..) h3.symm, ?_, ?_⟩
  · rw [eq_leaf (.interval m), leafEq_const (.inl rfl)]
    by_cases h : m = n
    · subst h; simp; rfl
    · have : (mkInterval m).hash ≠ (mkInterval n).hash := fun e =>
        h (intervalHash_inj (by omega) (by omega) e)
      simp [this, h]
  · intro hjk
    exact neq (.var ..) fun e => hjk (varHash_inj e)

example : Term.eq (mkAtom 0x555555581eb0#64) (mkVar .query "x" 3) = .ok false :=
  (C02_kinds_distinct_partial (a := 0x555555581eb0#64) (by decide +kernel) (.inl rfl)
    (m := 0) (n := 1) (by decide) (by decide) .query .query "x" "x" 3 3).1

/-- In a process whose heap lies below 4 GiB (an executable that is not position independent), the
constant at the 16-aligned address 0x405000 compares equal to the interval `+4214847`. -/
theorem C02_low_address_counterexample :
    Term.eq (mkAtom 0x405000#64) (mkInterval 4214847) = .ok true := by decide +kernel

/-- An `Interval` of negative length -127, constructed directly, compares equal to every
independent variable. -/
theorem C02_negative_interval_counterexample (name : String) (i : Int) :
    Term.eq (mkInterval (-127)) (mkVar .independent name i) = .ok true := by
  rw [eq_leaf (.interval _), leafEq_const (.inl rfl)]
  have : (mkInterval (-127)).hash = (mkVar .independent name i).hash := by
    have : intervalHash (-127) = varHash .independent := by decide +kernel
    exact this
  rw [if_neg (by rw [this]; simp [mkVar, typeIdx]), this]
  simp

/-! ## C03 -/

/-- Whenever `==` answers, the answer is equality of the plain trees, whatever hashes collide; and
it answers whenever the left operand has no dependent or query variable.  Missing: `==` on terms
with such variables is undefined (C05). -/
theorem C03_structural_partial {a b : Term} (ca : Constructed a) (cb : Constructed b)
    (pa : Placed a) (pb : Placed b) :
    (∀ r, Term.eq a b = .ok r → (r = true ↔ shape a = shape b)) ∧
    (OnlyIndependent a → ∃ r, Term.eq a b = .ok r) :=
  ⟨fun _ h => eq_iff_shape ca.good cb.good pa pb h, fun hi => eq_defined ca.good cb.good hi⟩

/-! ### Sample terms used in the examples -/

section Samples
/-- Four constants as a 64-bit allocator might place them. -/
def sA : Term := mkAtom 0x555555581eb0#64
def sB : Term := mkAtom 0x555555581f30#64
def sC : Term := mkAtom 0x555555581fb0#64
def sD : Term := mkAtom 0x555555582030#64
def sX : Term := mkVar .independent "x" 0
def sY : Term := mkVar .independent "y" 1
def sAB : Term := mkStmt sA .inheritance sB
def sBA : Term := mkStmt sB .inheritance sA
def sXY : Term := mkStmt sX .inheritance sY
def sYX : Term := mkStmt sY .inheritance sX
def sXA : Term := mkStmt sX .inheritance sA
def sYA : Term := mkStmt sY .inheritance sA

theorem sA_c : Constructed sA := .atom _
theorem sB_c : Constructed sB := .atom _
theorem sC_c : Constructed sC := .atom _
theorem sD_c : Constructed sD := .atom _
theorem sX_c : Constructed sX := .var ..
theorem sY_c : Constructed sY := .var ..
theorem sAB_c : Constructed sAB := .stmt .inheritance true sA_c sB_c rfl
theorem sBA_c : Constructed sBA := .stmt .inheritance true sB_c sA_c rfl
theorem sXY_c : Constructed sXY := .stmt .inheritance true sX_c sY_c rfl
theorem sYX_c : Constructed sYX := .stmt .inheritance true sY_c sX_c rfl
theorem sXA_c : Constructed sXA := .stmt .inheritance true sX_c sA_c rfl
theorem sYA_c : Constructed sYA := .stmt .inheritance true sY_c sA_c rfl

theorem sAB_p : Placed sAB := by
  intro l hl
  simp [sAB, sA, sB, Shape.leaves] at hl
  rcases hl with rfl | rfl <;> (unfold LeafPlaced; decide +kernel)
theorem sBA_p : Placed sBA := by
  intro l hl
  simp [sBA, sA, sB, Shape.leaves] at hl
  rcases hl with rfl | rfl <;> (unfold LeafPlaced; decide +kernel)
theorem sXY_p : Placed sXY := by
  intro l hl
  simp [sXY, sX, sY, Shape.leaves] at hl
  rcases hl with rfl | rfl <;> simp [LeafPlaced]
theorem sYX_p : Placed sYX := by
  intro l hl
  simp [sYX, sX, sY, Shape.leaves] at hl
  rcases hl with rfl | rfl <;> simp [LeafPlaced]
theorem sAB_i : OnlyIndependent sAB := by
  intro l hl k i h
  simp [sAB, sA, sB, Shape.leaves] at hl
  rcases hl with rfl | rfl <;> simp at h
theorem sXY_i : OnlyIndependent sXY := by
  intro l hl k i h
  simp [sXY, sX, sY, Shape.leaves] at hl
  rcases hl with rfl | rfl <;> simp at h <;> exact h.1.symm
end Samples

example : ∃ r, Term.eq sXY sYX = .ok r ∧ (r = true ↔ shape sXY = shape sYX) := by
  obtain ⟨r, hr⟩ := (C03_structural_partial sXY_c sYX_c sXY_p sYX_p).2 sXY_i
  exact ⟨r, hr, (C03_structural_partial sXY_c sYX_c sXY_p sYX_p).1 r hr⟩

/-! ## C04 -/

/-- `==` is an equivalence relation on the terms without dependent and query variables. -/
theorem C04_equivalence_partial {a b c : Term} (ca : Constructed a) (cb : Constructed b)
    (cc : Constructed c) (pa : Placed a) (pb : Placed b) (pc : Placed c)
    (ia : OnlyIndependent a) (ib : OnlyIndependent b) :
    Term.eq a a = .ok true ∧ Term.eq a b = Term.eq b a ∧
    (Term.eq a b = .ok true → Term.eq b c = .ok true → Term.eq a c = .ok true) := by
  have key : ∀ {u v : Term}, Constructed u → Constructed v → Placed u → Placed v →
      OnlyIndependent u → (Term.eq u v = .ok true ↔ shape u = shape v) ∧
        (Term.eq u v = .ok false ↔ shape u ≠ shape v) := by
    intro u v cu cv pu pv iu
    obtain ⟨r, hr⟩ := eq_defined cu.good cv.good iu
    have := eq_iff_shape cu.good cv.good pu pv hr
    rw [hr]
    cases r <;> simp_all
  refine ⟨(key ca ca pa pa ia).1.2 rfl, ?_, fun h1 h2 => ?_⟩
  · by_cases h : shape a = shape b
    · rw [(key ca cb pa pb ia).1.2 h, (key cb ca pb pa ib).1.2 h.symm]
    · rw [(key ca cb pa pb ia).2.2 h, (key cb ca pb pa ib).2.2 (Ne.symm h)]
  · exact (key ca cc pa pc ia).1.2
      (((key ca cb pa pb ia).1.1 h1).trans ((key cb cc pb pc ib).1.1 h2))

example : Term.eq sAB sAB = .ok true :=
  (C04_equivalence_partial sAB_c sAB_c sAB_c sAB_p sAB_p sAB_p sAB_i sAB_i).1

/-- Reflexivity fails for the simplest dependent and query variables. -/
theorem C04_reflexivity_counterexample (name : String) (i : Int) :
    Term.eq (mkVar .dependent name i) (mkVar .dependent name i) ≠ .ok true ∧
    Term.eq (mkVar .query name i) (mkVar .query name i) ≠ .ok true := by
  constructor <;> rw [eq_leaf (.var ..)] <;>
    simp [mkVar, typeIdx, leafEq, varKind, Term.info, IV.front, IV.empty, Res.ofOption]

/-- Transitivity fails through an `Interval(-127)`. -/
theorem C04_transitivity_counterexample :
    ∃ a b c, Constructed a ∧ Constructed b ∧ Constructed c ∧ Term.eq a b = .ok true ∧
      Term.eq b c = .ok true ∧ Term.eq a c = .ok false :=
  ⟨sX, mkInterval (-127), sY, sX_c, .interval _, sY_c, by decide +kernel, by decide +kernel,
    by decide +kernel⟩

/-! ## C05 -/

/-- `<` is defined on all pairs of constructed terms.  `==` is defined when the left operand has
only independent variables.  Missing: `==` with dependent or query variables. -/
theorem C05_comparison_defined_partial {a b : Term} (ca : Constructed a) (cb : Constructed b) :
    (∃ r, lt a b = .ok r) ∧ (OnlyIndependent a → ∃ r, Term.eq a b = .ok r) :=
  ⟨lt_defined ca.good cb.good, fun hi => eq_defined ca.good cb.good hi⟩

example : ∃ r, lt sXY sYX = .ok r := (C05_comparison_defined_partial sXY_c sYX_c).1

/-- Comparing any two dependent variables (or any two query variables) with `==` reads entry 0 of
the empty table of independent variables. -/
theorem C05_eq_undefined_counterexample (k : VarKind) (hk : k ≠ .independent)
    (name name' : String) (i j : Int) :
    Term.eq (mkVar k name i) (mkVar k name' j) = .ub := by
  rw [eq_leaf (.var ..)]
  cases k <;>
    simp_all [mkVar, typeIdx, Term.hash, leafEq, varKind, Term.info, IV.front, IV.empty, Res.ofOption]

/-- C03 is false for such variables and for constants in low memory: `#x` is the same term as itself, but
`==` does not answer; the constant at 0x405000 and the interval `+4214847` are different terms, but `==`
holds, and also of the statements about them. -/
theorem C03_counterexample :
    (Constructed (mkVar .dependent "x" 0) ∧
      Term.eq (mkVar .dependent "x" 0) (mkVar .dependent "x" 0) = .ub) ∧
    ∃ a b : Term, Constructed a ∧ Constructed b ∧ shape a ≠ shape b ∧ Term.eq a b = .ok true ∧
      Term.eq (mkStmt a .inheritance sA) (mkStmt b .inheritance sA) = .ok true :=
  ⟨⟨.var _ _ _, C05_eq_undefined_counterexample _ (by decide) _ _ _ _⟩,
    mkAtom 0x405000#64, mkInterval 4214847, .atom _, .interval _, by simp, by decide +kernel, by decide +kernel⟩

/-- The same inside compound terms: `<#x --> A> == <#x --> A>` is undefined. -/
theorem C05_eq_undefined_nested_counterexample (k : VarKind) (hk : k ≠ .independent)
    (name name' : String) (i j : Int) (c : Copula) (p q : Term) (hpq : p.hash = q.hash) :
    Term.eq (mkStmt (mkVar k name i) c p) (mkStmt (mkVar k name' j) c q) = .ub := by
  rw [eq_stmt_stmt, C05_eq_undefined_counterexample k hk name name' i j]
  rw [if_neg]
  · rfl
  · simp only [ne_eq, not_not]
    show stmtHash _ _ _ = stmtHash _ _ _
    rw [hpq]; rfl

/-! ## C06 -/

/-- `<` is irreflexive on all constructed terms. -/
theorem C06_irreflexive_partial {a : Term} (ca : Constructed a) : lt a a = .ok false :=
  lt_irrefl ca.good

example : lt sXY sXY = .ok false := C06_irreflexive_partial sXY_c

/-- The order on ranks: first the hash, then the variable index. -/
private def rankLt (x y : Nat × Int) : Prop := x.1 < y.1 ∨ (x.1 = y.1 ∧ x.2 < y.2)

/-- On a set of constructed terms in which terms with equal hashes either have no variables or
differ only in variable indices, and in which every term uses a single variable index, `<` is a
strict weak ordering.  Missing: terms with two or more different variables. -/
theorem C06_strict_weak_order_partial (S : Term → Prop) (hc : ∀ a, S a → Constructed a)
    (hidx : ∀ a, S a → ∃ i, AllIdx a i)
    (hhash : ∀ a b, S a → S b → a.hash = b.hash →
      (¬ HasVariable a ∧ ¬ HasVariable b) ∨ (shape a).pattern = (shape b).pattern) :
    (∀ a b, S a → S b → lt a b = .ok true → lt b a = .ok false) ∧
    (∀ a b c, S a → S b → S c → lt a b = .ok true → lt b c = .ok true → lt a c = .ok true) ∧
    (∀ a b c, S a → S b → S c → lt a b = .ok false → lt b a = .ok false → lt b c = .ok false →
      lt c b = .ok false → lt a c = .ok false ∧ lt c a = .ok false) := by
  classical
  have hf : ∀ a : Term, ∃ i, S a → AllIdx a i := by
    intro a
    by_cases ha : S a
    · obtain ⟨i, hi⟩ := hidx a ha; exact ⟨i, fun _ => hi⟩
    · exact ⟨0, fun h => absurd h ha⟩
  obtain ⟨idx, hidx'⟩ := Classical.axiomOfChoice hf
  let rank : Term → Nat × Int := fun a => (a.hash.toNat, if a.info.hasVar then idx a else 0)
  have key : ∀ a b, S a → S b →
      (lt a b = .ok true ∧ rankLt (rank a) (rank b)) ∨ (lt a b = .ok false ∧ ¬ rankLt (rank a) (rank b)) := by
    intro a b ha hb
    have ga := (hc a ha).good
    have gb := (hc b hb).good
    by_cases he : a.hash = b.hash
    · have hlt : lt a b = .ok (a.info.hasVar && decide (idx a < idx b)) ∧ a.info.hasVar = b.info.hasVar := by
        rcases hhash a b ha hb he with ⟨h1, h2⟩ | hp
        · have v1 : a.info.hasVar = false := by
            rw [Bool.eq_false_iff]; exact fun h => h1 (ga.hasVar_iff.1 h)
          have v2 : b.info.hasVar = false := by
            rw [Bool.eq_false_iff]; exact fun h => h2 (gb.hasVar_iff.1 h)
          have hh : ltHead a b = some false := by simp [ltHead, he, v1, v2]
          refine ⟨?_, by rw [v1, v2]⟩
          rw [v1]
          rcases leaf_cases ga with la | ⟨s, c, p, _, _, rfl⟩ | ⟨c, ts, _, rfl⟩
          · rw [lt_leaf la, hh]; rfl
          · rw [lt_stmt, hh]; rfl
          · rw [lt_comp, hh]; rfl
        · exact ⟨lt_uniform ga gb (hidx' a ha) (hidx' b hb) hp, ga.hasVar_of_pattern gb hp⟩
      obtain ⟨hlt, hv⟩ := hlt
      have hr : rankLt (rank a) (rank b) ↔ (a.info.hasVar = true ∧ idx a < idx b) := by
        simp only [rankLt, rank, he, hv]
        cases b.info.hasVar <;> simp
      by_cases h : a.info.hasVar = true ∧ idx a < idx b
      · exact .inl ⟨by rw [hlt]; simp [h.1, h.2], hr.2 h⟩
      · refine .inr ⟨?_, fun h' => h (hr.1 h')⟩
        rw [hlt]
        cases hx : a.info.hasVar
        · simp
        · have : ¬ idx a < idx b := fun h' => h ⟨hx, h'⟩
          simp [this]
    · have hlt := lt_of_hash_ne ga he
      have hne : a.hash.toNat ≠ b.hash.toNat := fun e => he (BitVec.eq_of_toNat_eq e)
      by_cases h : a.hash < b.hash
      · exact .inl ⟨by rw [hlt]; simp [h], .inl h⟩
      · refine .inr ⟨by rw [hlt]; simp [h], ?_⟩
        rintro (h' | h')
        · exact h h'
        · exact hne h'.1
  have kt : ∀ a b, S a → S b → (lt a b = .ok true ↔ rankLt (rank a) (rank b)) := by
    intro a b ha hb
    rcases key a b ha hb with ⟨h1, h2⟩ | ⟨h1, h2⟩ <;> rw [h1] <;> simp [h2]
  have kf : ∀ a b, S a → S b → (lt a b = .ok false ↔ ¬ rankLt (rank a) (rank b)) := by
    intro a b ha hb
    rcases key a b ha hb with ⟨h1, h2⟩ | ⟨h1, h2⟩ <;> rw [h1] <;> simp [h2]
  refine ⟨?_, ?_, ?_⟩
  · intro a b ha hb h
    rw [kt a b ha hb] at h
    rw [kf b a hb ha]
    unfold rankLt at *; omega
  · intro a b c ha hb hc' h1 h2
    rw [kt a b ha hb] at h1
    rw [kt b c hb hc'] at h2
    rw [kt a c ha hc']
    unfold rankLt at *; omega
  · intro a b c ha hb hc' h1 h2 h3 h4
    rw [kf _ _ (by assumption) (by assumption)] at h1 h2 h3 h4 ⊢
    rw [kf _ _ (by assumption) (by assumption)]
    unfold rankLt at *; omega

/-- The hypotheses hold, for instance, of `{A, $x, $y, <$x --> A>, <$y --> A>}`. -/
example : lt sXA sYA = .ok true ∧ lt sYA sXA = .ok false ∧
    (∀ t, (t = sA ∨ t = sXA ∨ t = sYA) → ∃ i, AllIdx t i) ∧
    (shape sXA).pattern = (shape sYA).pattern := by
  refine ⟨by decide +kernel, by decide +kernel, ?_, rfl⟩
  rintro t (rfl | rfl | rfl)
  · exact ⟨0, by simp [AllIdx, sA, Shape.leaves]⟩
  · exact ⟨0, by simp [AllIdx, sXA, sX, sA, Shape.leaves]⟩
  · exact ⟨1, by simp [AllIdx, sYA, sY, sA, Shape.leaves]⟩

/-- With two variables asymmetry fails: each of `<$x --> $y>` and `<$y --> $x>` is below the
other. -/
theorem C06_asymmetry_counterexample :
    Constructed sXY ∧ Constructed sYX ∧ lt sXY sYX = .ok true ∧ lt sYX sXY = .ok true :=
  ⟨sXY_c, sYX_c, by decide +kernel, by decide +kernel⟩

/-! ## C07 -/

/-- `<A c B>` and `<B c A>` compare equal only if `A` and `B` are the same term, for every copula:
statements are never reordered.  So the property holds in the trivial case only. -/
theorem C07_symmetric_only_if_same_partial {a b : Term} (ca : Constructed a) (cb : Constructed b)
    (pa : Placed a) (pb : Placed b) (ia : OnlyIndependent a) (ib : OnlyIndependent b) (c : Copula) :
    (shape a = shape b → Term.eq (mkStmt a c b) (mkStmt b c a) = .ok true) ∧
    (shape a ≠ shape b → Term.eq (mkStmt a c b) (mkStmt b c a) = .ok false) := by
  have mem : ∀ (u v : Term), (∀ l ∈ (shape (mkStmt u c v)).leaves, l ∈ (shape u).leaves ∨ l ∈ (shape v).leaves) :=
    fun u v l hl => mem_leaves_stmt.1 hl
  have g1 : Good (mkStmt a c b) := .stmt c ca.good cb.good
  have g2 : Good (mkStmt b c a) := .stmt c cb.good ca.good
  have p1 : Placed (mkStmt a c b) := fun l hl => (mem a b l hl).elim (pa l) (pb l)
  have p2 : Placed (mkStmt b c a) := fun l hl => (mem b a l hl).elim (pb l) (pa l)
  have i1 : OnlyIndependent (mkStmt a c b) := fun l hl => (mem a b l hl).elim (ia l) (ib l)
  obtain ⟨r, hr⟩ := eq_defined g1 g2 i1
  have h := eq_iff_shape g1 g2 p1 p2 hr
  rw [hr]
  simp only [shape_mkStmt, Shape.stmt.injEq, true_and] at h
  constructor
  · intro e; rw [h.2 ⟨e, e.symm⟩]
  · intro e
    cases r with
    | false => rfl
    | true => exact absurd (h.1 rfl).1 e

theorem C07_similarity_counterexample :
    (Copula.similarity).isCommutative = true ∧
    Constructed (mkStmt sA .similarity sB) ∧ Constructed (mkStmt sB .similarity sA) ∧
    Term.eq (mkStmt sA .similarity sB) (mkStmt sB .similarity sA) = .ok false :=
  ⟨by decide, .stmt _ true sA_c sB_c rfl, .stmt _ true sB_c sA_c rfl, by decide +kernel⟩

/-! ## C08 -/

/-- Renaming variables in any way does not change the hash of any constructed term. -/
theorem C08_hash_ignores_variables_partial {a b : Term} (ca : Constructed a) (cb : Constructed b)
    (f : VarKind → Option Int → Option Int) (h : shape b = (shape a).rename f) :
    a.hash = b.hash := by
  rw [ca.good.hash_shape, cb.good.hash_shape, h, hash_rename]

example : sXY.hash = sYX.hash :=
  C08_hash_ignores_variables_partial sXY_c sYX_c (fun _ i => i.map (1 - ·)) rfl

/-- A statement built from renamed parts has the same hash. -/
theorem C08_statement_partial {a b a' b' r r' : Term} (ca : Constructed a) (cb : Constructed b)
    (ca' : Constructed a') (cb' : Constructed b') (f g : VarKind → Option Int → Option Int)
    (ha : shape a' = (shape a).rename f) (hb : shape b' = (shape b).rename g) (c : Copula)
    {i i' : Bool} (h : newStmt a c b i = .ok r) (h' : newStmt a' c b' i' = .ok r') :
    r.hash = r'.hash := by
  rw [Good.newStmt ca.good cb.good h, Good.newStmt ca'.good cb'.good h']
  have e1 := C08_hash_ignores_variables_partial ca ca' f ha
  have e2 := C08_hash_ignores_variables_partial cb cb' g hb
  show stmtHash _ _ _ = stmtHash _ _ _
  rw [e1, e2]

example : (mkStmt sX .implication sY).hash = (mkStmt sY .implication sY).hash :=
  C08_statement_partial sX_c sY_c sY_c sY_c (fun _ _ => some 1) (fun _ i => i) rfl rfl .implication
    (i := true) (i' := true) rfl rfl

/-- Not so for commutative compounds: identifying the two variables of `(&&,$x,$y)` merges its
components, and the hash changes. -/
theorem C08_merging_counterexample :
    ∃ r r', mkComp id .conjunction [sX, sY] true = .ok r ∧
      mkComp id .conjunction [sX, sX] true = .ok r' ∧ r.hash ≠ r'.hash := by
  have h1 : mkComp id .conjunction [sX, sY] true = .ok (finishComp .conjunction [sX, sY]) := by rfl
  have h2 : mkComp id .conjunction [sX, sX] true = .ok (finishComp .conjunction [sX]) := by rfl
  exact ⟨_, _, h1, h2, by decide +kernel⟩

/-! ## C09 -/

/-- `i + j` is interchangeable with an `Interval` built from the sum, for operands with any
history. -/
theorem C09_add_partial {a b : Term} {m n : Int} (ha : intervalValue a = .ok m)
    (hb : intervalValue b = .ok n) (hs : fitsInt (m + n)) :
    ∃ r, intervalAdd a b = .ok r ∧ intervalValue r = .ok (m + n) ∧ r = mkInterval (m + n) ∧
      Term.eq r (mkInterval (m + n)) = .ok true := by
  refine ⟨mkInterval (m + n), ?_, rfl, rfl, ?_⟩
  · simp [intervalAdd, ha, hb, hs]
  · rw [eq_leaf (.interval _), leafEq_const (.inl rfl)]; simp [mkInterval, typeIdx]

example : ∃ r, intervalAdd (mkInterval 2) (mkInterval 40) = .ok r ∧
    Term.eq r (mkInterval 42) = .ok true := by
  obtain ⟨r, h1, _, _, h2⟩ := C09_add_partial (a := mkInterval 2) (b := mkInterval 40) rfl rfl
    (by decide)
  exact ⟨r, h1, h2⟩

/-- Any history of `i = i + j` ends in the interval of the total length. -/
theorem C09_add_history_partial {m : Int} {ns : List Int} {r : Term}
    (h : intervalAddAll (mkInterval m) (ns.map mkInterval) = .ok r) :
    r = mkInterval (m + ns.sum) := by
  induction ns generalizing m with
  | nil => simp [intervalAddAll] at h; simp [h]
  | cons n ns ih =>
    simp only [intervalAddAll, List.map_cons, Res.bind_eq_ok] at h
    obtain ⟨a, h1, h2⟩ := h
    simp only [intervalAdd, intervalValue, mkInterval, Res.ok_bind] at h1
    split at h1
    · simp at h1
      rw [← h1] at h2
      have := ih (m := m + n) h2
      rw [this, List.sum_cons]; congr 1; omega
    · cases h1

example : ∃ r, intervalAddAll (mkInterval 1) ([2, 3].map mkInterval) = .ok r ∧ r = mkInterval 6 :=
  ⟨_, rfl, C09_add_history_partial (m := 1) (ns := [2, 3]) rfl⟩

/-- Intervals as built by the constructor compare equal exactly when their lengths agree. -/
theorem C09_constructed_partial {m n : Int} (hm : fitsInt m) (hn : fitsInt n) :
    Term.eq (mkInterval m) (mkInterval n) = .ok (decide (m = n)) := by
  rw [eq_leaf (.interval m), leafEq_const (.inl rfl)]
  by_cases h : m = n
  · subst h; simp; rfl
  · have : (mkInterval m).hash ≠ (mkInterval n).hash := fun e => h (intervalHash_inj hm hn e)
    simp [this, h]

example : Term.eq (mkInterval (-1)) (mkInterval 1) = .ok false :=
  C09_constructed_partial (by decide) (by decide)

/-- `i += j` with `j ≠ 0` leaves the hash of the old length behind: the object is unequal to an
interval of its own length, and equal to one of its old length. -/
theorem C09_add_assign_counterexample {m n : Int} (hm : fitsInt m) (hn : n ≠ 0)
    (hs : fitsInt (m + n)) :
    ∃ r, intervalAddAssign (mkInterval m) (mkInterval n) = .ok r ∧
      intervalValue r = .ok (m + n) ∧ Term.eq r (mkInterval (m + n)) = .ok false ∧
      Term.eq r (mkInterval m) = .ok true := by
  refine ⟨.interval (m + n) (mkInterval m).info, ?_, rfl, ?_, ?_⟩
  · simp [intervalAddAssign, intervalValue, mkInterval]
    exact hs
  · have : (mkInterval m).info.hash ≠ (mkInterval (m + n)).hash := fun e => by
      have := intervalHash_inj hm hs e; omega
    simp [Term.eq, this]
  · simp [Term.eq, mkInterval, typeIdx, leafEq, varKind, Term.hash, Term.info]

example : ∃ r, intervalAddAssign (mkInterval 1) (mkInterval 1) = .ok r ∧
    intervalValue r = .ok 2 ∧ Term.eq r (mkInterval 2) = .ok false ∧
    Term.eq r (mkInterval 1) = .ok true :=
  C09_add_assign_counterexample (by decide) (by decide) (by decide)

end Cnars.Props
