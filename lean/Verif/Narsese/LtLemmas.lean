import Verif.Narsese.EqLemmas

/-!
Helper lemmas about `Term::operator<`.
-/

set_option linter.unusedSimpArgs false

namespace Cnars
open Term

/-- The plain tree with the variable indices erased. -/
def Shape.pattern (t : Shape) : Shape := t.rename fun _ _ => none

/-- All variables of the term have index `i`. -/
def AllIdx (t : Term) (i : Int) : Prop :=
  ∀ l ∈ (shape t).leaves, ∀ k j, l = .var k j → j = some i

/-- The term contains a variable. -/
def HasVariable (t : Term) : Prop := ∃ k j, Shape.var k j ∈ (shape t).leaves

theorem AllIdx.stmt {s p : Term} {c : Copula} {i : Int} (h : AllIdx (mkStmt s c p) i) :
    AllIdx s i ∧ AllIdx p i :=
  ⟨fun l hl => h l (mem_leaves_stmt.2 (.inl hl)), fun l hl => h l (mem_leaves_stmt.2 (.inr hl))⟩

theorem AllIdx.comp {ts : List Term} {c : Connector} {i : Int} (h : AllIdx (finishComp c ts) i) :
    ∀ t ∈ ts, AllIdx t i :=
  fun t ht l hl => h l (mem_leaves_comp.2 ⟨t, ht, hl⟩)

theorem hasVar_mkStmt (s p : Term) (c : Copula) :
    (mkStmt s c p).info.hasVar = (s.info.hasVar || p.info.hasVar) := by
  simp [mkStmt, structInfo, Term.info]

theorem hasVar_finishComp (c : Connector) (ts : List Term) :
    (finishComp c ts).info.hasVar = ts.any (·.info.hasVar) := rfl

theorem Good.hasVar_iff {t : Term} (h : Good t) : t.info.hasVar = true ↔ HasVariable t := by
  induction h with
  | atom => simp [mkAtom, Term.info, leafInfo, HasVariable, shape, Shape.leaves]
  | operation => simp [mkOperation, Term.info, leafInfo, HasVariable, shape, Shape.leaves]
  | interval => simp [mkInterval, Term.info, leafInfo, HasVariable, shape, Shape.leaves]
  | var k n i =>
    simp only [HasVariable, shape_mkVar, Shape.leaves]
    simp [mkVar, Term.info]
  | stmt c _ _ ihs ihp =>
    rw [hasVar_mkStmt, Bool.or_eq_true, ihs, ihp]
    simp only [HasVariable, mem_leaves_stmt]
    constructor
    · rintro (⟨k, j, h⟩ | ⟨k, j, h⟩)
      · exact ⟨k, j, .inl h⟩
      · exact ⟨k, j, .inr h⟩
    · rintro ⟨k, j, h | h⟩
      · exact .inl ⟨k, j, h⟩
      · exact .inr ⟨k, j, h⟩
  | comp c _ _ ih =>
    rw [hasVar_finishComp, List.any_eq_true]
    simp only [HasVariable, mem_leaves_comp]
    constructor
    · rintro ⟨t, ht, hv⟩
      obtain ⟨k, j, h⟩ := (ih t ht).1 hv
      exact ⟨k, j, t, ht, h⟩
    · rintro ⟨k, j, t, ht, h⟩
      exact ⟨t, ht, (ih t ht).2 ⟨k, j, h⟩⟩

mutual
theorem hash_rename (f : VarKind → Option Int → Option Int) : ∀ t : Shape, (t.rename f).hash = t.hash
  | .const a => rfl
  | .interval n => rfl
  | .var k i => rfl
  | .stmt s c p => by simp only [Shape.rename, Shape.hash, hash_rename f s, hash_rename f p]
  | .comp c ts => by simp only [Shape.rename, Shape.hash, hashes_renameAll f ts]
theorem hashes_renameAll (f : VarKind → Option Int → Option Int) :
    ∀ ts : List Shape, Shape.hashes (Shape.renameAll f ts) = Shape.hashes ts
  | [] => rfl
  | t :: ts => by simp only [Shape.renameAll, Shape.hashes, hash_rename f t, hashes_renameAll f ts]
end

theorem hash_pattern (t : Shape) : t.pattern.hash = t.hash := hash_rename _ t

theorem Good.hash_of_pattern {a b : Term} (ga : Good a) (gb : Good b)
    (h : (shape a).pattern = (shape b).pattern) : a.hash = b.hash := by
  rw [ga.hash_shape, gb.hash_shape, ← hash_pattern, h, hash_pattern]

mutual
theorem leaves_rename (f : VarKind → Option Int → Option Int) :
    ∀ t : Shape, (t.rename f).leaves = t.leaves.map (Shape.rename f)
  | .const a => rfl
  | .interval n => rfl
  | .var k i => rfl
  | .stmt s c p => by simp only [Shape.rename, Shape.leaves, leaves_rename f s, leaves_rename f p, List.map_append]
  | .comp c ts => by simp only [Shape.rename, Shape.leaves, leavesAll_rename f ts]
theorem leavesAll_rename (f : VarKind → Option Int → Option Int) :
    ∀ ts : List Shape, Shape.leavesAll (Shape.renameAll f ts) = (Shape.leavesAll ts).map (Shape.rename f)
  | [] => rfl
  | t :: ts => by
    simp only [Shape.renameAll, Shape.leavesAll, leaves_rename f t, leavesAll_rename f ts, List.map_append]
end

theorem hasVariable_pattern {t : Term} :
    HasVariable t ↔ ∃ k, Shape.var k none ∈ (shape t).pattern.leaves := by
  unfold HasVariable Shape.pattern
  rw [leaves_rename]
  simp only [List.mem_map]
  constructor
  · rintro ⟨k, j, h⟩; exact ⟨k, _, h, rfl⟩
  · rintro ⟨k, l, hl, h⟩
    cases l <;> simp [Shape.rename] at h
    subst h; exact ⟨_, _, hl⟩

theorem Good.hasVar_of_pattern {a b : Term} (ga : Good a) (gb : Good b)
    (h : (shape a).pattern = (shape b).pattern) : a.info.hasVar = b.info.hasVar := by
  rw [Bool.eq_iff_iff, ga.hasVar_iff, gb.hasVar_iff, hasVariable_pattern, hasVariable_pattern, h]

/-- `operator<` on leaves. -/
theorem lt_leaf {a : Term} (ha : IsLeaf a) (b : Term) :
    lt a b = match ltHead a b with | some r => .ok r | none => leafLt a b := by
  cases ha <;> simp only [mkAtom, mkOperation, mkInterval, mkVar, Term.lt] <;>
    generalize ltHead _ _ = o <;> cases o <;> rfl

theorem lt_stmt_gen (s1 p1 b : Term) (c1 : Copula) (i : Info) :
    lt (.stmt s1 c1 p1 i) b = match ltHead (.stmt s1 c1 p1 i) b with
      | some r => .ok r
      | none => match b with
        | .stmt s2 c2 p2 _ => do
          if ← lt s1 s2 then return true
          else if ← lt p1 p2 then return true
          else return decide (c1.idx < c2.idx)
        | _ => .ok false := by
  cases b <;> simp only [Term.lt] <;> generalize ltHead _ _ = o <;> cases o <;> rfl

theorem lt_comp_gen (c1 : Connector) (ts1 : List Term) (i : Info) (b : Term) :
    lt (.comp c1 ts1 i) b = match ltHead (.comp c1 ts1 i) b with
      | some r => .ok r
      | none => match b with
        | .comp c2 ts2 _ =>
          if ts1.length ≠ ts2.length then .ok (decide (ts1.length < ts2.length))
          else if c1 ≠ c2 then .ok (decide (c1.idx < c2.idx))
          else ltAny ts1 ts2
        | _ => .ok false := by
  cases b <;> simp only [Term.lt] <;> generalize ltHead _ _ = o <;> cases o <;> rfl

theorem lt_stmt (s1 p1 b : Term) (c1 : Copula) :
    lt (mkStmt s1 c1 p1) b = match ltHead (mkStmt s1 c1 p1) b with
      | some r => .ok r
      | none => match b with
        | .stmt s2 c2 p2 _ => do
          if ← lt s1 s2 then return true
          else if ← lt p1 p2 then return true
          else return decide (c1.idx < c2.idx)
        | _ => .ok false := lt_stmt_gen ..

theorem lt_comp (c1 : Connector) (ts1 : List Term) (b : Term) :
    lt (finishComp c1 ts1) b = match ltHead (finishComp c1 ts1) b with
      | some r => .ok r
      | none => match b with
        | .comp c2 ts2 _ =>
          if ts1.length ≠ ts2.length then .ok (decide (ts1.length < ts2.length))
          else if c1 ≠ c2 then .ok (decide (c1.idx < c2.idx))
          else ltAny ts1 ts2
        | _ => .ok false := lt_comp_gen ..

theorem lt_of_hash_ne {a b : Term} (ga : Good a) (h : a.hash ≠ b.hash) :
    lt a b = .ok (decide (a.hash < b.hash)) := by
  have hh : ltHead a b = some (decide (a.hash < b.hash)) := by simp [ltHead, h]
  rcases leaf_cases ga with la | ⟨s, c, p, _, _, rfl⟩ | ⟨c, ts, _, rfl⟩
  · rw [lt_leaf la, hh]
  · rw [lt_stmt, hh]
  · rw [lt_comp, hh]

/-- What is known when the first part of `operator<` does not decide. -/
theorem ltHead_none {a b : Term} (h : ltHead a b = none) :
    a.hash = b.hash ∧ a.info.hasVar = true ∧ b.info.hasVar = true ∧ a.typeIdx = b.typeIdx := by
  unfold ltHead at h
  by_cases h1 : a.hash = b.hash
  · by_cases h2 : a.typeIdx = b.typeIdx
    · cases ha : a.info.hasVar <;> cases hb : b.info.hasVar <;> simp_all
    · cases ha : a.info.hasVar <;> cases hb : b.info.hasVar <;> simp_all
  · simp [h1] at h

theorem leafLt_defined {a b : Term} (la : IsLeaf a) (lb : IsLeaf b) : ∃ r, leafLt a b = .ok r := by
  cases la with
  | var k m x =>
    cases lb with
    | var j n y =>
      cases k <;> cases j <;>
        simp [leafLt, mkVar, varKind, IV.front, IV.single, Res.ofOption, Term.info]
    | _ => cases k <;> simp [leafLt, mkVar, mkAtom, mkOperation, mkInterval, varKind]
  | _ => simp [leafLt, mkAtom, mkOperation, mkInterval, varKind]

theorem ltAny_defined {ts1 ts2 : List Term}
    (ih : ∀ t ∈ ts1, ∀ u ∈ ts2, ∃ r, lt t u = .ok r) : ∃ r, ltAny ts1 ts2 = .ok r := by
  induction ts1 generalizing ts2 with
  | nil => exact ⟨false, by simp [ltAny]⟩
  | cons t ts1 ih1 =>
    cases ts2 with
    | nil => exact ⟨false, by simp [ltAny]⟩
    | cons u ts2 =>
      obtain ⟨q, hq⟩ := ih t (by simp) u (by simp)
      obtain ⟨r, hr⟩ := ih1 (ts2 := ts2) (fun t ht u hu => ih t (by simp [ht]) u (by simp [hu]))
      cases q with
      | false => exact ⟨r, by simp [ltAny, hq, hr]⟩
      | true => exact ⟨true, by simp [ltAny, hq]⟩

theorem leaf_lt_defined {a b : Term} (la : IsLeaf a) (gb : Good b) : ∃ r, lt a b = .ok r := by
  rw [lt_leaf la]
  cases h : ltHead a b with
  | some r => exact ⟨r, rfl⟩
  | none =>
    have ht := (ltHead_none h).2.2.2
    rcases leaf_cases gb with lb | ⟨s2, c2, p2, gs2, gp2, rfl⟩ | ⟨c2, ts, gts, rfl⟩
    · exact leafLt_defined la lb
    · rw [la.typeIdx] at ht; simp [typeIdx_mkStmt] at ht
    · rw [la.typeIdx] at ht; simp [typeIdx_finishComp] at ht

/-- `operator<` always answers on constructed terms. -/
theorem lt_defined {a b : Term} (ga : Good a) (gb : Good b) : ∃ r, lt a b = .ok r := by
  induction ga generalizing b with
  | stmt c1 gs gp ihs ihp =>
    rw [lt_stmt]
    split
    · exact ⟨_, rfl⟩
    · next h =>
      have ht := (ltHead_none h).2.2.2
      rcases leaf_cases gb with lb | ⟨s2, c2, p2, gs2, gp2, rfl⟩ | ⟨c2, ts, gts, rfl⟩
      · rw [lb.typeIdx] at ht; simp [typeIdx_mkStmt] at ht
      · obtain ⟨q, hq⟩ := ihs gs2
        obtain ⟨q2, hq2⟩ := ihp gp2
        simp only [mkStmt, hq, hq2, Res.ok_bind]
        cases q <;> cases q2 <;> exact ⟨_, rfl⟩
      · simp [typeIdx_mkStmt, typeIdx_finishComp] at ht
  | comp c1 gts1 _ ih =>
    rw [lt_comp]
    split
    · exact ⟨_, rfl⟩
    · next h =>
      have ht := (ltHead_none h).2.2.2
      rcases leaf_cases gb with lb | ⟨s2, c2, p2, gs2, gp2, rfl⟩ | ⟨c2, ts2, gts2, rfl⟩
      · rw [lb.typeIdx] at ht; simp [typeIdx_finishComp] at ht
      · simp [typeIdx_mkStmt, typeIdx_finishComp] at ht
      · simp only [finishComp]
        split
        · exact ⟨_, rfl⟩
        · split
          · exact ⟨_, rfl⟩
          · exact ltAny_defined fun t ht u hu => ih t ht (gts2 u hu)
  | atom x => exact leaf_lt_defined (.atom x) gb
  | operation x => exact leaf_lt_defined (.operation x) gb
  | interval x => exact leaf_lt_defined (.interval x) gb
  | var k m x => exact leaf_lt_defined (.var k m x) gb

theorem ltHead_self (a : Term) : ltHead a a = if a.info.hasVar then none else some false := by
  unfold ltHead
  cases h : a.info.hasVar <;> simp

theorem ltAny_self {ts : List Term} (h : ∀ t ∈ ts, lt t t = .ok false) : ltAny ts ts = .ok false := by
  induction ts with
  | nil => simp [ltAny]
  | cons t ts ih =>
    simp [ltAny, h t (by simp), ih (fun u hu => h u (by simp [hu]))]

theorem lt_irrefl {a : Term} (ga : Good a) : lt a a = .ok false := by
  induction ga with
  | stmt c gs gp ihs ihp =>
    rw [lt_stmt, ltHead_self]
    split
    · next h => split at h <;> simp_all
    · simp [mkStmt, ihs, ihp]
  | comp c gts _ ih =>
    rw [lt_comp, ltHead_self]
    split
    · next h => split at h <;> simp_all
    · simp [finishComp, ltAny_self ih]
  | atom x => rw [lt_leaf (.atom x), ltHead_self]; simp [mkAtom, mkOperation, mkInterval, Term.info, leafInfo]
  | operation x => rw [lt_leaf (.operation x), ltHead_self]; simp [mkAtom, mkOperation, mkInterval, Term.info, leafInfo]
  | interval x => rw [lt_leaf (.interval x), ltHead_self]; simp [mkAtom, mkOperation, mkInterval, Term.info, leafInfo]
  | var k m x =>
    rw [lt_leaf (.var k m x), ltHead_self]
    cases k <;> simp [mkVar, Term.info, leafLt, varKind, IV.front, IV.single, Res.ofOption]

theorem ltHead_same {a b : Term} (hh : a.hash = b.hash) (hv : a.info.hasVar = b.info.hasVar)
    (ht : a.typeIdx = b.typeIdx) :
    ltHead a b = if a.info.hasVar then none else some false := by
  unfold ltHead
  cases h : b.info.hasVar <;> simp [hh, hv, h, ht]

theorem ltAny_uniform {ts1 ts2 : List Term} {i j : Int} (hlen : ts1.length = ts2.length)
    (h : ∀ n (h1 : n < ts1.length) (h2 : n < ts2.length),
      lt ts1[n] ts2[n] = .ok (ts1[n].info.hasVar && decide (i < j))) :
    ltAny ts1 ts2 = .ok (ts1.any (·.info.hasVar) && decide (i < j)) := by
  induction ts1 generalizing ts2 with
  | nil => simp [ltAny]
  | cons t ts1 ih =>
    cases ts2 with
    | nil => simp at hlen
    | cons u ts2 =>
      have h0 := h 0 (by simp) (by simp)
      simp only [List.getElem_cons_zero] at h0
      have := ih (ts2 := ts2) (by simpa using hlen) (fun n h1 h2 => by
        have := h (n + 1) (Nat.succ_lt_succ h1) (Nat.succ_lt_succ h2)
        simpa only [List.getElem_cons_succ] using this)
      simp only [ltAny, h0, Res.ok_bind, this, List.any_cons]
      generalize decide (i < j) = d
      cases t.info.hasVar <;> cases d <;> simp

/-- Terms that differ only in variable indices, each with a single variable index, are ordered by
that index. -/
theorem lt_uniform {a b : Term} (ga : Good a) (gb : Good b) {i j : Int} (ha : AllIdx a i)
    (hb : AllIdx b j) (hp : (shape a).pattern = (shape b).pattern) :
    lt a b = .ok (a.info.hasVar && decide (i < j)) := by
  have hh := ga.hash_of_pattern gb hp
  have hv := ga.hasVar_of_pattern gb hp
  induction ga generalizing b with
  | stmt c1 gs gp ihs ihp =>
    rename_i s1 p1
    rcases leaf_cases gb with lb | ⟨s2, c2, p2, gs2, gp2, rfl⟩ | ⟨c2, ts, gts, rfl⟩
    · cases lb <;> simp [Shape.pattern, Shape.rename] at hp
    · simp only [Shape.pattern, shape_mkStmt, Shape.rename, Shape.stmt.injEq] at hp
      obtain ⟨hp1, hpc, hp2⟩ := hp
      rw [lt_stmt, ltHead_same hh hv rfl]
      cases hx : (mkStmt s1 c1 p1).info.hasVar with
      | false => simp
      | true =>
        have e1 := ihs gs2 ha.stmt.1 hb.stmt.1 hp1 (gs.hash_of_pattern gs2 hp1) (gs.hasVar_of_pattern gs2 hp1)
        have e2 := ihp gp2 ha.stmt.2 hb.stmt.2 hp2 (gp.hash_of_pattern gp2 hp2) (gp.hasVar_of_pattern gp2 hp2)
        rw [hasVar_mkStmt] at hx
        simp only [mkStmt, e1, e2, Res.ok_bind, hpc]
        generalize decide (i < j) = d
        clear ihs ihp e1 e2 hv hh
        cases h1 : s1.info.hasVar <;> cases h2 : p1.info.hasVar <;> cases d <;> simp_all
    · simp [Shape.pattern, Shape.rename] at hp
  | comp c1 gts1 _ ih =>
    rename_i ts1 _
    rcases leaf_cases gb with lb | ⟨s2, c2, p2, gs2, gp2, rfl⟩ | ⟨c2, ts2, gts2, rfl⟩
    · cases lb <;> simp [Shape.pattern, Shape.rename] at hp
    · simp [Shape.pattern, Shape.rename] at hp
    · simp only [Shape.pattern, shape_finishComp, Shape.rename, Shape.comp.injEq, renameAll_eq,
        List.map_map] at hp
      obtain ⟨hc, hm⟩ := hp
      subst hc
      have hlen : ts1.length = ts2.length := by simpa using congrArg List.length hm
      rw [lt_comp, ltHead_same hh hv rfl]
      cases hx : (finishComp c1 ts1).info.hasVar with
      | false => simp
      | true =>
        rw [hasVar_finishComp] at hx
        simp only [finishComp, hlen, ne_eq, not_true, if_false, if_true]
        rw [ltAny_uniform (i := i) (j := j) hlen, hx]
        intro n h1 h2
        have hn : (shape ts1[n]).pattern = (shape ts2[n]).pattern := by
          have := congrArg (fun l => l[n]?) hm
          simpa [h1, h2, Shape.pattern] using this
        have g1 := gts1 _ (List.getElem_mem h1)
        have g2 := gts2 _ (List.getElem_mem h2)
        exact ih _ (List.getElem_mem h1) g2 (ha.comp _ (List.getElem_mem h1))
          (hb.comp _ (List.getElem_mem h2)) hn (g1.hash_of_pattern g2 hn) (g1.hasVar_of_pattern g2 hn)
  | atom x =>
    rcases leaf_cases gb with lb | ⟨s2, c2, p2, gs2, gp2, rfl⟩ | ⟨c2, ts2, gts2, rfl⟩
    · rw [lt_leaf (.atom x), ltHead_same hh hv lb.typeIdx.symm]
      simp [mkAtom, mkOperation, mkInterval, Term.info, leafInfo]
    · simp [Shape.pattern, Shape.rename] at hp
    · simp [Shape.pattern, Shape.rename] at hp
  | operation x =>
    rcases leaf_cases gb with lb | ⟨s2, c2, p2, gs2, gp2, rfl⟩ | ⟨c2, ts2, gts2, rfl⟩
    · rw [lt_leaf (.operation x), ltHead_same hh hv lb.typeIdx.symm]
      simp [mkAtom, mkOperation, mkInterval, Term.info, leafInfo]
    · simp [Shape.pattern, Shape.rename] at hp
    · simp [Shape.pattern, Shape.rename] at hp
  | interval x =>
    rcases leaf_cases gb with lb | ⟨s2, c2, p2, gs2, gp2, rfl⟩ | ⟨c2, ts2, gts2, rfl⟩
    · rw [lt_leaf (.interval x), ltHead_same hh hv lb.typeIdx.symm]
      simp [mkAtom, mkOperation, mkInterval, Term.info, leafInfo]
    · simp [Shape.pattern, Shape.rename] at hp
    · simp [Shape.pattern, Shape.rename] at hp
  | var k m x =>
    rcases leaf_cases gb with lb | ⟨s2, c2, p2, gs2, gp2, rfl⟩ | ⟨c2, ts2, gts2, rfl⟩
    · cases lb with
      | var j' n y =>
        simp only [Shape.pattern, shape_mkVar, Shape.rename, Shape.var.injEq, and_true] at hp
        subst hp
        rw [lt_leaf (.var _ m x), ltHead_same hh hv rfl]
        have hi : x = i := by
          simpa using ha (.var k (some x)) (by simp [Shape.leaves]) _ _ rfl
        have hj : y = j := by
          simpa using hb (.var k (some y)) (by simp [Shape.leaves]) _ _ rfl
        subst hi; subst hj
        cases k <;> simp [mkVar, Term.info, leafLt, varKind, IV.front, IV.single, Res.ofOption]
      | _ => simp [Shape.pattern, Shape.rename] at hp
    · simp [Shape.pattern, Shape.rename] at hp
    · simp [Shape.pattern, Shape.rename] at hp

/-- A set of terms in which a shared hash is explained: two different members with the same hash
differ only in the index of the one variable each of them contains. -/
structure Tellable (S : Term → Prop) : Prop where
  good : ∀ a, S a → Good a
  explain : ∀ a b, S a → S b → a.hash = b.hash → a = b ∨
    (HasVariable a ∧ ∃ i j, i ≠ j ∧ AllIdx a i ∧ AllIdx b j ∧ (shape a).pattern = (shape b).pattern)

theorem AllIdx.unique {t : Term} {i j : Int} (h : HasVariable t) (hi : AllIdx t i) (hj : AllIdx t j) :
    i = j := by
  obtain ⟨k, x, hx⟩ := h
  have h1 := hi _ hx k x rfl
  have h2 := hj _ hx k x rfl
  rw [h1] at h2; simpa using h2

/-- On such a set the comparator of `std::set` is a strict total order. -/
theorem Tellable.orderly {S : Term → Prop} (h : Tellable S) : Orderly S := by
  have byHash : ∀ a b, S a → S b → a.hash < b.hash → Above a b := by
    intro a b ha hb hlt
    have hne : a.hash ≠ b.hash := by intro e; rw [e] at hlt; exact absurd hlt (BitVec.lt_irrefl _)
    have hnlt : ¬ b.hash < a.hash := BitVec.lt_asymm hlt
    refine ⟨?_, ?_⟩
    · rw [lt_of_hash_ne (h.good a ha) hne]; simp [hlt]
    · rw [lt_of_hash_ne (h.good b hb) hne.symm]; simp [hnlt]
  have byIdx : ∀ a b i j, S a → S b → HasVariable a → AllIdx a i → AllIdx b j →
      (shape a).pattern = (shape b).pattern → i < j → Above a b := by
    intro a b i j ha hb hv hi hj hp hlt
    have va : a.info.hasVar = true := (h.good a ha).hasVar_iff.2 hv
    have vb : b.info.hasVar = true := by
      rw [← (h.good a ha).hasVar_of_pattern (h.good b hb) hp]; exact va
    refine ⟨?_, ?_⟩
    · rw [lt_uniform (h.good a ha) (h.good b hb) hi hj hp]; simp [va, hlt]
    · rw [lt_uniform (h.good b hb) (h.good a ha) hj hi hp.symm]
      have : ¬ j < i := by omega
      simp [this]
  have irr : ∀ a, S a → lt a a = .ok false := fun a ha => lt_irrefl (h.good a ha)
  have inv : ∀ a b, S a → S b → Above a b → a.hash < b.hash ∨
      (a.hash = b.hash ∧ HasVariable a ∧ HasVariable b ∧ ∃ i j, i < j ∧ AllIdx a i ∧ AllIdx b j ∧
        (shape a).pattern = (shape b).pattern) := by
    intro a b ha hb hab
    by_cases he : a.hash = b.hash
    · rcases h.explain a b ha hb he with rfl | ⟨hv, i, j, hne, hi, hj, hp⟩
      · exact absurd hab Above.irrefl
      · right
        have vb : HasVariable b := by
          rw [hasVariable_pattern, ← hp, ← hasVariable_pattern]; exact hv
        refine ⟨he, hv, vb, i, j, ?_, hi, hj, hp⟩
        by_contra hn
        have : j < i := by omega
        exact (byIdx b a j i hb ha vb hj hi hp.symm this).asymm hab
    · left
      have := hab.1
      rw [lt_of_hash_ne (h.good a ha) he] at this
      simpa using this
  refine ⟨irr, ?_, ?_⟩
  · intro a b ha hb
    by_cases he : a.hash = b.hash
    · rcases h.explain a b ha hb he with rfl | ⟨hv, i, j, hne, hi, hj, hp⟩
      · exact .inl rfl
      · have vb : HasVariable b := by
          rw [hasVariable_pattern, ← hp, ← hasVariable_pattern]; exact hv
        rcases Int.lt_or_gt_of_ne hne with hlt | hlt
        · exact .inr (.inl (byIdx a b i j ha hb hv hi hj hp hlt))
        · exact .inr (.inr (byIdx b a j i hb ha vb hj hi hp.symm hlt))
    · have : a.hash < b.hash ∨ b.hash < a.hash := by
        rw [BitVec.lt_def, BitVec.lt_def]
        have : a.hash.toNat ≠ b.hash.toNat := fun e => he (BitVec.eq_of_toNat_eq e)
        omega
      rcases this with hlt | hlt
      · exact .inr (.inl (byHash a b ha hb hlt))
      · exact .inr (.inr (byHash b a hb ha hlt))
  · intro a b c ha hb hc hab hbc
    rcases inv a b ha hb hab with h1 | ⟨e1, v1, w1, i, j, hij, hi, hj, hp⟩
    · rcases inv b c hb hc hbc with h2 | ⟨e2, _⟩
      · exact byHash a c ha hc (BitVec.lt_trans h1 h2)
      · exact byHash a c ha hc (by rw [← e2]; exact h1)
    · rcases inv b c hb hc hbc with h2 | ⟨e2, v2, w2, i', j', hij', hi', hj', hp'⟩
      · exact byHash a c ha hc (by rw [e1]; exact h2)
      · have : j = i' := AllIdx.unique w1 hj hi'
        exact byIdx a c i j' ha hc v1 hi hj' (hp.trans hp') (by omega)

/-- Terms that are told apart by their hashes. -/
theorem Orderly.of_hash {S : Term → Prop} (hg : ∀ a, S a → Good a)
    (h : ∀ a b, S a → S b → a.hash = b.hash → a = b) : Orderly S :=
  Tellable.orderly ⟨hg, fun a b ha hb he => .inl (h a b ha hb he)⟩

end Cnars
