import Verif.Narsese.Shape
import Verif.Narsese.LeafHash

/-!
Helper lemmas about `Term::operator==` and `Term::operator<`.
-/

namespace Cnars
open Term

theorem Placed.stmt {s p : Term} {c : Copula} (h : Placed (mkStmt s c p)) : Placed s ∧ Placed p :=
  ⟨fun l hl => h l (mem_leaves_stmt.2 (.inl hl)), fun l hl => h l (mem_leaves_stmt.2 (.inr hl))⟩

theorem Placed.comp {ts : List Term} {c : Connector} (h : Placed (finishComp c ts)) :
    ∀ t ∈ ts, Placed t :=
  fun t ht l hl => h l (mem_leaves_comp.2 ⟨t, ht, hl⟩)

theorem OnlyIndependent.stmt {s p : Term} {c : Copula} (h : OnlyIndependent (mkStmt s c p)) :
    OnlyIndependent s ∧ OnlyIndependent p :=
  ⟨fun l hl => h l (mem_leaves_stmt.2 (.inl hl)), fun l hl => h l (mem_leaves_stmt.2 (.inr hl))⟩

theorem OnlyIndependent.comp {ts : List Term} {c : Connector} (h : OnlyIndependent (finishComp c ts)) :
    ∀ t ∈ ts, OnlyIndependent t :=
  fun t ht l hl => h l (mem_leaves_comp.2 ⟨t, ht, hl⟩)

theorem Good.comps_good {ts : List Term} {c : Connector} (h : Good (finishComp c ts)) :
    ∀ t ∈ ts, Good t := by
  generalize hx : finishComp c ts = x at h
  cases h with
  | comp c' hts _ =>
    simp only [finishComp, Term.comp.injEq] at hx
    obtain ⟨_, rfl, _⟩ := hx
    exact hts
  | _ => simp [finishComp, mkAtom, mkOperation, mkInterval, mkVar, mkStmt] at hx

/-- Cases for the leaf terms. -/
inductive IsLeaf : Term → Prop
  | atom (a : Word) : IsLeaf (mkAtom a)
  | operation (a : Word) : IsLeaf (mkOperation a)
  | interval (n : Int) : IsLeaf (mkInterval n)
  | var (k : VarKind) (name : String) (idx : Int) : IsLeaf (mkVar k name idx)

theorem eq_leaf {a : Term} (ha : IsLeaf a) (b : Term) :
    eq a b = if b.typeIdx ≠ 0 ∨ a.hash ≠ b.hash then .ok false else leafEq a b := by
  cases ha <;> simp [mkAtom, mkOperation, mkInterval, mkVar, Term.eq, Term.hash, Term.info] <;> congr

theorem leaf_cases {t : Term} (h : Good t) :
    IsLeaf t ∨ (∃ s c p, Good s ∧ Good p ∧ t = mkStmt s c p) ∨
      (∃ c ts, (∀ u ∈ ts, Good u) ∧ t = finishComp c ts) := by
  cases h with
  | atom a => exact .inl (.atom a)
  | operation a => exact .inl (.operation a)
  | interval n => exact .inl (.interval n)
  | var k n i => exact .inl (.var k n i)
  | stmt c hs hp => exact .inr (.inl ⟨_, c, _, hs, hp, rfl⟩)
  | comp c hts _ => exact .inr (.inr ⟨c, _, hts, rfl⟩)

theorem eq_stmt (s p b : Term) (c : Copula) (hb : b.typeIdx ≠ 1) :
    eq (mkStmt s c p) b = .ok false := by
  cases b <;> simp_all [mkStmt, Term.eq, typeIdx]

theorem eq_comp (c : Connector) (ts : List Term) (b : Term) (hb : b.typeIdx ≠ 2) :
    eq (finishComp c ts) b = .ok false := by
  cases b <;> simp_all [finishComp, Term.eq, typeIdx]

theorem IsLeaf.typeIdx {t : Term} (h : IsLeaf t) : t.typeIdx = 0 := by
  cases h <;> rfl

theorem typeIdx_mkStmt (s p : Term) (c : Copula) : (mkStmt s c p).typeIdx = 1 := rfl
theorem typeIdx_finishComp (c : Connector) (ts : List Term) : (finishComp c ts).typeIdx = 2 := rfl

theorem eq_stmt_stmt (s1 p1 s2 p2 : Term) (c1 c2 : Copula) :
    eq (mkStmt s1 c1 p1) (mkStmt s2 c2 p2) =
      if (mkStmt s1 c1 p1).hash ≠ (mkStmt s2 c2 p2).hash then .ok false
      else do
        if ← eq s1 s2 then
          if ← eq p1 p2 then return c1 == c2
          else return false
        else return false := by
  simp only [mkStmt, Term.eq, Term.hash, Term.info]; rfl

theorem eq_comp_comp (c1 c2 : Connector) (ts1 ts2 : List Term) :
    eq (finishComp c1 ts1) (finishComp c2 ts2) =
      if (finishComp c1 ts1).hash ≠ (finishComp c2 ts2).hash then .ok false
      else if ts1.length ≠ ts2.length then .ok false
      else if c1 ≠ c2 then .ok false
      else eqAll ts1 ts2 := by
  simp only [finishComp, Term.eq, Term.hash, Term.info]; rfl

theorem hash_mkVar (k : VarKind) (n : String) (i : Int) : (mkVar k n i).hash = varHash k := rfl
theorem hash_mkAtom (a : Word) : (mkAtom a).hash = atomHash a := rfl
theorem hash_mkOperation (a : Word) : (mkOperation a).hash = atomHash a := rfl
theorem hash_mkInterval (n : Int) : (mkInterval n).hash = intervalHash n := rfl

theorem leafEq_const {a b : Term} (h : a.varKind = none ∨ b.varKind = none) :
    leafEq a b = .ok (a.hash == b.hash) := by
  unfold leafEq
  rcases h with h | h <;> rw [h]
  · rfl
  · cases a.varKind with
    | none => rfl
    | some k => cases k <;> rfl

theorem leafEq_var {j k : VarKind} {m n : String} {x y : Int} {r : Bool} (hjk : j = k)
    (h : leafEq (mkVar j m x) (mkVar k n y) = .ok r) : r = decide (x = y) := by
  subst hjk
  cases j <;> simp [leafEq, mkVar, varKind, IV.front, IV.single, IV.empty, Res.ofOption, Term.info] at h
  rw [← h]; by_cases e : x = y <;> simp [e]

/-- On leaves: `==` decides equality of the plain leaves. -/
theorem leaf_eq_iff {a b : Term} (ha : IsLeaf a) (hb : IsLeaf b) (pa : Placed a) (pb : Placed b)
    {r : Bool} (h : eq a b = .ok r) : r = true ↔ shape a = shape b := by
  rw [eq_leaf ha, hb.typeIdx] at h
  have konst : ∀ {x : Bool}, leafEq a b = .ok (a.hash == b.hash) → (a.hash = b.hash ↔ shape a = shape b) →
      (r = true ↔ shape a = shape b) := by
    intro _ hk hiff
    rw [hk] at h
    by_cases e : a.hash = b.hash
    · simp [e] at h; subst h; simp [← hiff, e]
    · simp [e] at h; subst h; simp [← hiff, e]
  have pa' : ∀ l ∈ (shape a).leaves, LeafPlaced l := pa
  have pb' : ∀ l ∈ (shape b).leaves, LeafPlaced l := pb
  have lint : ∀ {n : Int}, 0 ≤ n ∧ n < 2^31 → -2^31 ≤ n ∧ n < 2^31 := by omega
  cases ha <;> cases hb <;>
    simp only [shape_mkAtom, shape_mkOperation, shape_mkInterval, shape_mkVar, Shape.leaves,
      List.mem_singleton, forall_eq, LeafPlaced] at pa' pb'
  -- constants among themselves
  case atom.atom a b =>
    exact konst (x := true) (leafEq_const (.inl rfl)) ⟨fun e => by rw [shape_mkAtom, shape_mkAtom, atomHash_inj e],
      fun e => by simp at e; rw [e]⟩
  case atom.operation a b =>
    exact konst (x := true) (leafEq_const (.inl rfl)) ⟨fun e => by rw [shape_mkAtom, shape_mkOperation, atomHash_inj e],
      fun e => by simp at e; rw [e]; rfl⟩
  case operation.atom a b =>
    exact konst (x := true) (leafEq_const (.inl rfl)) ⟨fun e => by rw [shape_mkAtom, shape_mkOperation, atomHash_inj e],
      fun e => by simp at e; rw [e]; rfl⟩
  case operation.operation a b =>
    exact konst (x := true) (leafEq_const (.inl rfl)) ⟨fun e => by rw [shape_mkOperation, shape_mkOperation, atomHash_inj e],
      fun e => by simp at e; rw [e]⟩
  case interval.interval m n =>
    exact konst (x := true) (leafEq_const (.inl rfl))
      ⟨fun e => by rw [shape_mkInterval, shape_mkInterval, intervalHash_inj (lint pa') (lint pb') e],
      fun e => by simp at e; rw [e]⟩
  case var.var j m x k n y =>
    by_cases e : (mkVar j m x).hash = (mkVar k n y).hash
    · have hjk : j = k := varHash_inj e
      simp only [e, ne_eq, not_true, or_self, if_false] at h
      rw [leafEq_var hjk h]
      simp [hjk]
    · simp [e] at h; subst h
      have hjk : j ≠ k := fun hjk => e (by rw [hjk]; rfl)
      simp [hjk]
  all_goals
    refine konst (x := true) (leafEq_const (by first | exact .inl rfl | exact .inr rfl)) ⟨fun e => ?_, fun e => ?_⟩
    · exfalso
      first
        | exact atomHash_ne_intervalHash pa'.1 pa'.2 (lint pb') e
        | exact atomHash_ne_intervalHash pb'.1 pb'.2 (lint pa') e.symm
        | exact atomHash_ne_varHash pa'.2 _ e
        | exact atomHash_ne_varHash pb'.2 _ e.symm
        | exact intervalHash_ne_varHash pa'.1 pa'.2 _ e
        | exact intervalHash_ne_varHash pb'.1 pb'.2 _ e.symm
    · simp at e

theorem eqAll_iff {ts1 ts2 : List Term} (hlen : ts1.length = ts2.length) {r : Bool}
    (ih : ∀ t ∈ ts1, ∀ u ∈ ts2, ∀ r, eq t u = .ok r → (r = true ↔ shape t = shape u))
    (h : eqAll ts1 ts2 = .ok r) : r = true ↔ ts1.map shape = ts2.map shape := by
  induction ts1 generalizing ts2 with
  | nil => cases ts2 <;> simp_all [eqAll]
  | cons t ts1 ih1 =>
    cases ts2 with
    | nil => simp at hlen
    | cons u ts2 =>
      simp only [eqAll, Res.bind_eq_ok] at h
      obtain ⟨q, hq, h⟩ := h
      have hq' := ih t (by simp) u (by simp) q hq
      cases q with
      | true =>
        simp only [if_true] at h
        have := ih1 (by simpa using hlen) (fun t ht u hu => ih t (by simp [ht]) u (by simp [hu])) h
        simp [this, hq'.1 rfl]
      | false =>
        simp at h; subst h
        have : shape t ≠ shape u := fun e => by simpa using hq'.2 e
        simp [this]

/-- `==`, whenever it answers, decides equality of the plain trees. -/
theorem eq_iff_shape {a b : Term} (ga : Good a) (gb : Good b) (pa : Placed a) (pb : Placed b)
    {r : Bool} (h : eq a b = .ok r) : r = true ↔ shape a = shape b := by
  have hashNe : a.hash ≠ b.hash → shape a ≠ shape b := fun hne e =>
    hne (by rw [ga.hash_shape, gb.hash_shape, e])
  induction ga generalizing b r with
  | stmt c1 gs gp ihs ihp =>
    rename_i s1 p1
    rcases leaf_cases gb with lb | ⟨s2, c2, p2, gs2, gp2, rfl⟩ | ⟨c2, ts, gts, rfl⟩
    · rw [eq_stmt _ _ _ _ (by rw [lb.typeIdx]; simp)] at h
      cases h; cases lb <;> simp
    · rw [eq_stmt_stmt] at h
      split at h
      · next hne => cases h; simpa using hashNe hne
      · next he =>
        simp only [Res.bind_eq_ok] at h
        obtain ⟨q, hq, h⟩ := h
        have hq' := ihs gs2 pa.stmt.1 pb.stmt.1 hq
          (fun hne e => hne (by rw [gs.hash_shape, gs2.hash_shape, e]))
        cases q with
        | false =>
          simp at h; subst h
          have : shape s1 ≠ shape s2 := fun e => by simpa using hq'.2 e
          simp [this]
        | true =>
          simp only [if_true, Res.bind_eq_ok] at h
          obtain ⟨q2, hq2, h⟩ := h
          have hq2' := ihp gp2 pa.stmt.2 pb.stmt.2 hq2
            (fun hne e => hne (by rw [gp.hash_shape, gp2.hash_shape, e]))
          cases q2 with
          | false =>
            simp at h; subst h
            have : shape p1 ≠ shape p2 := fun e => by simpa using hq2'.2 e
            simp [this]
          | true =>
            simp at h; subst h
            simp [hq'.1 rfl, hq2'.1 rfl]
    · rw [eq_stmt _ _ _ _ (by rw [typeIdx_finishComp]; simp)] at h
      cases h; simp
  | comp c1 gts1 _ ih =>
    rename_i ts1 _
    rcases leaf_cases gb with lb | ⟨s2, c2, p2, gs2, gp2, rfl⟩ | ⟨c2, ts2, gts2, rfl⟩
    · rw [eq_comp _ _ _ (by rw [lb.typeIdx]; simp)] at h
      cases h; cases lb <;> simp
    · rw [eq_comp _ _ _ (by rw [typeIdx_mkStmt]; simp)] at h
      cases h; simp
    · rw [eq_comp_comp] at h
      split at h
      · next hne => cases h; simpa using hashNe hne
      · split at h
        · next hl =>
          cases h
          simp only [Bool.false_eq_true, shape_finishComp, Shape.comp.injEq, false_iff, not_and]
          exact fun _ e => hl (by simpa using congrArg List.length e)
        · next hl =>
          simp only [ne_eq, not_not] at hl
          split at h
          · next hc => cases h; simp [hc]
          · next hc =>
            simp only [ne_eq, not_not] at hc
            have := eqAll_iff hl (fun t ht u hu r hr =>
              ih t ht (gts2 u hu) (pa.comp t ht) (pb.comp u hu) hr
                (fun hne e => hne (by rw [(gts1 t ht).hash_shape, (gts2 u hu).hash_shape, e]))) h
            simp [this, hc]
  | atom x =>
    rcases leaf_cases gb with lb | ⟨s2, c2, p2, gs2, gp2, rfl⟩ | ⟨c2, ts, gts, rfl⟩
    · exact leaf_eq_iff (.atom x) lb pa pb h
    · rw [eq_leaf (.atom x), typeIdx_mkStmt] at h; simp at h; subst h; simp
    · rw [eq_leaf (.atom x), typeIdx_finishComp] at h; simp at h; subst h; simp
  | operation x =>
    rcases leaf_cases gb with lb | ⟨s2, c2, p2, gs2, gp2, rfl⟩ | ⟨c2, ts, gts, rfl⟩
    · exact leaf_eq_iff (.operation x) lb pa pb h
    · rw [eq_leaf (.operation x), typeIdx_mkStmt] at h; simp at h; subst h; simp
    · rw [eq_leaf (.operation x), typeIdx_finishComp] at h; simp at h; subst h; simp
  | interval x =>
    rcases leaf_cases gb with lb | ⟨s2, c2, p2, gs2, gp2, rfl⟩ | ⟨c2, ts, gts, rfl⟩
    · exact leaf_eq_iff (.interval x) lb pa pb h
    · rw [eq_leaf (.interval x), typeIdx_mkStmt] at h; simp at h; subst h; simp
    · rw [eq_leaf (.interval x), typeIdx_finishComp] at h; simp at h; subst h; simp
  | var k m x =>
    rcases leaf_cases gb with lb | ⟨s2, c2, p2, gs2, gp2, rfl⟩ | ⟨c2, ts, gts, rfl⟩
    · exact leaf_eq_iff (.var k m x) lb pa pb h
    · rw [eq_leaf (.var k m x), typeIdx_mkStmt] at h; simp at h; subst h; simp
    · rw [eq_leaf (.var k m x), typeIdx_finishComp] at h; simp at h; subst h; simp

theorem leaf_eq_defined {a b : Term} (ha : IsLeaf a) (hb : Good b) (hi : OnlyIndependent a) :
    ∃ r, eq a b = .ok r := by
  rw [eq_leaf ha]
  split
  · exact ⟨_, rfl⟩
  · next hn =>
    rcases leaf_cases hb with lb | ⟨s2, c2, p2, gs2, gp2, rfl⟩ | ⟨c2, ts, gts, rfl⟩
    · cases ha with
      | var k m x =>
        have hk : k = .independent := hi (.var k (some x)) (by simp [Shape.leaves]) k _ rfl
        subst hk
        cases lb with
        | var j n y => cases j <;> exact ⟨_, rfl⟩
        | _ => exact ⟨_, leafEq_const (.inr rfl)⟩
      | _ => exact ⟨_, leafEq_const (.inl rfl)⟩
    · simp [typeIdx_mkStmt] at hn
    · simp [typeIdx_finishComp] at hn

theorem eqAll_defined {ts1 ts2 : List Term}
    (ih : ∀ t ∈ ts1, ∀ u ∈ ts2, ∃ r, eq t u = .ok r) : ∃ r, eqAll ts1 ts2 = .ok r := by
  induction ts1 generalizing ts2 with
  | nil => exact ⟨true, by simp [eqAll]⟩
  | cons t ts1 ih1 =>
    cases ts2 with
    | nil => exact ⟨true, by simp [eqAll]⟩
    | cons u ts2 =>
      obtain ⟨q, hq⟩ := ih t (by simp) u (by simp)
      obtain ⟨r, hr⟩ := ih1 (ts2 := ts2) (fun t ht u hu => ih t (by simp [ht]) u (by simp [hu]))
      cases q with
      | true => exact ⟨r, by simp [eqAll, hq, hr]⟩
      | false => exact ⟨false, by simp [eqAll, hq]⟩

/-- `==` answers when the left operand has only independent variables. -/
theorem eq_defined {a b : Term} (ga : Good a) (gb : Good b) (hi : OnlyIndependent a) :
    ∃ r, eq a b = .ok r := by
  induction ga generalizing b with
  | stmt c1 gs gp ihs ihp =>
    rcases leaf_cases gb with lb | ⟨s2, c2, p2, gs2, gp2, rfl⟩ | ⟨c2, ts, gts, rfl⟩
    · exact ⟨_, eq_stmt _ _ _ _ (by rw [lb.typeIdx]; simp)⟩
    · rw [eq_stmt_stmt]
      split
      · exact ⟨_, rfl⟩
      · obtain ⟨q, hq⟩ := ihs gs2 hi.stmt.1
        obtain ⟨q2, hq2⟩ := ihp gp2 hi.stmt.2
        cases q <;> cases q2 <;> exact ⟨_, by simp [hq, hq2]; rfl⟩
    · exact ⟨_, eq_stmt _ _ _ _ (by rw [typeIdx_finishComp]; simp)⟩
  | comp c1 gts1 _ ih =>
    rcases leaf_cases gb with lb | ⟨s2, c2, p2, gs2, gp2, rfl⟩ | ⟨c2, ts2, gts2, rfl⟩
    · exact ⟨_, eq_comp _ _ _ (by rw [lb.typeIdx]; simp)⟩
    · exact ⟨_, eq_comp _ _ _ (by rw [typeIdx_mkStmt]; simp)⟩
    · rw [eq_comp_comp]
      split
      · exact ⟨_, rfl⟩
      · split
        · exact ⟨_, rfl⟩
        · split
          · exact ⟨_, rfl⟩
          · exact eqAll_defined fun t ht u hu => ih t ht (gts2 u hu) (hi.comp t ht)
  | atom x => exact leaf_eq_defined (.atom x) gb hi
  | operation x => exact leaf_eq_defined (.operation x) gb hi
  | interval x => exact leaf_eq_defined (.interval x) gb hi
  | var k m x => exact leaf_eq_defined (.var k m x) gb hi

end Cnars
