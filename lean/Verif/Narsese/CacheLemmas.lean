import Verif.Narsese.LtLemmas

/-!
Helper lemmas: the caches of a good term are functions of its plain tree.
-/

namespace Cnars
open Term

/-- The cached flag for one kind of variables. -/
def Info.has (i : Info) : VarKind → Bool
  | .independent => i.hasIvar
  | .dependent => i.hasDvar
  | .query => i.hasQvar

theorem has_mkStmt (s : Term) (c : Copula) (p : Term) (k : VarKind) :
    (mkStmt s c p).info.has k = (s.info.has k || p.info.has k) := by
  cases k <;> simp [mkStmt, Term.info, structInfo, Info.has]

theorem has_finishComp (c : Connector) (ts : List Term) (k : VarKind) :
    (finishComp c ts).info.has k = ts.any (·.info.has k) := by
  cases k <;> rfl

theorem Good.has_iff {t : Term} (h : Good t) (k : VarKind) :
    t.info.has k = true ↔ ∃ i, Shape.var k i ∈ (shape t).leaves := by
  induction h with
  | atom => cases k <;> simp [mkAtom, Term.info, leafInfo, Info.has, shape, Shape.leaves]
  | operation => cases k <;> simp [mkOperation, Term.info, leafInfo, Info.has, shape, Shape.leaves]
  | interval => cases k <;> simp [mkInterval, Term.info, leafInfo, Info.has, shape, Shape.leaves]
  | var k' n i =>
    rw [shape_mkVar]
    cases k <;> cases k' <;> simp [mkVar, Term.info, Info.has, Shape.leaves]
  | stmt c _ _ ihs ihp =>
    rw [has_mkStmt, Bool.or_eq_true, ihs, ihp]
    simp only [mem_leaves_stmt]
    constructor
    · rintro (⟨j, h⟩ | ⟨j, h⟩)
      · exact ⟨j, .inl h⟩
      · exact ⟨j, .inr h⟩
    · rintro ⟨j, h | h⟩
      · exact .inl ⟨j, h⟩
      · exact .inr ⟨j, h⟩
  | comp c _ _ ih =>
    rw [has_finishComp, List.any_eq_true]
    simp only [mem_leaves_comp]
    constructor
    · rintro ⟨t, ht, hv⟩
      obtain ⟨j, h⟩ := (ih t ht).1 hv
      exact ⟨j, t, ht, h⟩
    · rintro ⟨j, t, ht, h⟩
      exact ⟨t, ht, (ih t ht).2 ⟨j, h⟩⟩

theorem Good.complexity {t : Term} (h : Good t) : t.info.complexity = (shape t).complexity := by
  induction h with
  | atom => rfl
  | operation => rfl
  | interval => rfl
  | var k n i => rw [shape_mkVar]; rfl
  | @stmt s p c _ _ ihs ihp =>
    have : (mkStmt s c p).info.complexity = 1 + (s.info.complexity + p.info.complexity) := rfl
    rw [this, shape_mkStmt, Shape.complexity, ihs, ihp]; omega
  | @comp ts c _ _ ih =>
    have : (finishComp c ts).info.complexity = (ts.map (·.info.complexity)).sum := rfl
    rw [this, shape_finishComp, Shape.complexity, complexityAll_eq, List.map_map]
    congr 1
    exact List.map_congr_left (fun t ht => ih t ht)

/-- The contents of a table as a list of occurrences. -/
def IV.occs (v : IV) : List (Option Int × List Nat) := (v.indices.map some).zip v.positions

theorem concat_occs {f : Term → List (Option Int × List Nat)} (ts : List Term) (n : Nat)
    (hl : ∀ t ∈ ts, t.info.iv.indices.length = t.info.iv.positions.length)
    (h : ∀ t ∈ ts, t.info.iv.occs = f t) :
    (IV.concat n (ts.map (·.info.iv))).indices.length =
      (IV.concat n (ts.map (·.info.iv))).positions.length ∧
    (IV.concat n (ts.map (·.info.iv))).occs =
      ((ts.zipIdx n).flatMap (fun p => (f p.1).map (fun o => (o.1, p.2 :: o.2)))) := by
  induction ts generalizing n with
  | nil => simp [IV.concat, IV.empty, IV.occs]
  | cons t ts ih =>
    obtain ⟨l2, h2⟩ := ih (n + 1) (fun u hu => hl u (by simp [hu])) (fun u hu => h u (by simp [hu]))
    have l1 := hl t (by simp)
    refine ⟨by simp [IV.concat, l1, l2], ?_⟩
    simp only [List.zipIdx_cons, List.flatMap_cons, ← h t (by simp), ← h2]
    simp only [IV.concat, List.map_cons, IV.occs, List.map_append]
    rw [List.zip_append (by simp [l1])]
    congr 1
    rw [List.zip_map_right]
    rfl

theorem occsAll_eq (k : VarKind) (ts : List Shape) (n : Nat) :
    Shape.occsAll k n ts =
      (ts.zipIdx n).flatMap (fun p => (p.1.occs k).map (fun o => (o.1, p.2 :: o.2))) := by
  induction ts generalizing n with
  | nil => rfl
  | cons t ts ih => simp [Shape.occsAll, ih]

mutual
theorem occs_eq_nil_iff (k : VarKind) : ∀ s : Shape,
    s.occs k = [] ↔ ∀ i, Shape.var k i ∉ s.leaves
  | .const _ => by simp [Shape.occs, Shape.leaves]
  | .interval _ => by simp [Shape.occs, Shape.leaves]
  | .var k' i => by
    simp only [Shape.occs, Shape.leaves]
    by_cases h : k' = k
    · subst h; simp
    · simp [h]; intro h2; exact absurd h2.symm h
  | .stmt s _ p => by
    simp [Shape.occs, Shape.leaves, occs_eq_nil_iff k s, occs_eq_nil_iff k p, forall_and]
  | .comp _ ts => by
    simp only [Shape.occs, Shape.leaves]; exact occsAll_eq_nil_iff k ts 0
theorem occsAll_eq_nil_iff (k : VarKind) : ∀ (ts : List Shape) (n : Nat),
    Shape.occsAll k n ts = [] ↔ ∀ i, Shape.var k i ∉ Shape.leavesAll ts
  | [], n => by simp [Shape.occsAll, Shape.leavesAll]
  | t :: ts, n => by
    simp [Shape.occsAll, Shape.leavesAll, occs_eq_nil_iff k t, occsAll_eq_nil_iff k ts, forall_and]
end

theorem zipIdx_map_flatMap {α β γ : Type} (g : α → β) (f : β × Nat → List γ) (l : List α) (n : Nat) :
    ((l.map g).zipIdx n).flatMap f = (l.zipIdx n).flatMap (fun p => f (g p.1, p.2)) := by
  induction l generalizing n with
  | nil => rfl
  | cons a l ih => simp [ih]

/-- What `buildTable` computes: the independent occurrences of the sons, prefixed. -/
theorem buildTable_occs {ts : List Term} {flag : Bool}
    (hl : ∀ t ∈ ts, t.info.iv.indices.length = t.info.iv.positions.length)
    (h : ∀ t ∈ ts, t.info.iv.occs = (shape t).occs .independent) :
    (buildTable flag ts).indices.length = (buildTable flag ts).positions.length ∧
    (buildTable flag ts).occs =
      if flag then Shape.occsAll .independent 0 (ts.map shape) else [] := by
  cases flag with
  | false => simp [buildTable, IV.empty, IV.occs]
  | true =>
    obtain ⟨a, b⟩ := concat_occs (f := fun t => (shape t).occs .independent) ts 0 hl h
    refine ⟨by simpa [buildTable] using a, ?_⟩
    simp only [buildTable, if_true, b, occsAll_eq, zipIdx_map_flatMap]

theorem shape_occs_stmt (k : VarKind) (s : Shape) (c : Copula) (p : Shape) :
    (Shape.stmt s c p).occs k = Shape.occsAll k 0 [s, p] := by
  simp [Shape.occs, Shape.occsAll]

theorem Good.iv_occs {t : Term} (h : Good t) :
    t.info.iv.indices.length = t.info.iv.positions.length ∧
    t.info.iv.occs = (shape t).occs .independent := by
  induction h with
  | atom => simp [mkAtom, Term.info, leafInfo, IV.empty, IV.occs, shape, Shape.occs]
  | operation => simp [mkOperation, Term.info, leafInfo, IV.empty, IV.occs, shape, Shape.occs]
  | interval => simp [mkInterval, Term.info, leafInfo, IV.empty, IV.occs, shape, Shape.occs]
  | var k n i =>
    rw [shape_mkVar]
    cases k <;> simp [mkVar, Term.info, IV.occs, IV.single, IV.empty, Shape.occs]
  | @stmt s p c hs hp ihs ihp =>
    have hiv : (mkStmt s c p).info.iv = buildTable ((mkStmt s c p).info.has .independent) [s, p] := rfl
    have key := buildTable_occs (ts := [s, p]) (flag := (mkStmt s c p).info.has .independent)
      (by simp [ihs.1, ihp.1]) (by simp [ihs.2, ihp.2])
    rw [← hiv] at key
    refine ⟨key.1, key.2.trans ?_⟩
    rw [shape_mkStmt, shape_occs_stmt]
    split
    · rfl
    · next hb =>
      have := mt (Good.has_iff (Good.stmt c hs hp) .independent).2 hb
      rw [eq_comm]
      have h2 := (occs_eq_nil_iff .independent (shape (mkStmt s c p))).2 (by simpa using this)
      rw [shape_mkStmt, shape_occs_stmt] at h2
      exact h2
  | @comp ts c hts hs ih =>
    have hiv : (finishComp c ts).info.iv =
      buildTable ((finishComp c ts).info.has .independent) ts := rfl
    have key := buildTable_occs (ts := ts) (flag := (finishComp c ts).info.has .independent)
      (fun t ht => (ih t ht).1) (fun t ht => (ih t ht).2)
    rw [← hiv] at key
    refine ⟨key.1, key.2.trans ?_⟩
    rw [shape_finishComp, Shape.occs]
    split
    · rfl
    · next hb =>
      have := mt (Good.has_iff (Good.comp c hts hs) .independent).2 hb
      have h2 := (occs_eq_nil_iff .independent (shape (finishComp c ts))).2 (by simpa using this)
      rw [shape_finishComp, Shape.occs] at h2
      exact h2.symm

/-- The tables for dependent and query variables of a statement or compound: what they really
list. -/
theorem Good.own_occs {t : Term} (h : Good t) (k : VarKind) :
    (t.info.own k).indices.length = (t.info.own k).positions.length ∧
    (t.info.own k).occs =
      match shape t with
      | .stmt .. | .comp .. =>
        if (shape t).occs k = [] then [] else (shape t).occs .independent
      | s => s.occs k := by
  have hi := h.iv_occs
  have hhas : t.info.has k = true ↔ (shape t).occs k ≠ [] := by
    rw [h.has_iff k, ne_eq, occs_eq_nil_iff]; simp
  cases h with
  | atom => cases k <;> simp [mkAtom, Term.info, leafInfo, IV.empty, IV.occs, shape, Shape.occs, Info.own]
  | operation => cases k <;> simp [mkOperation, Term.info, leafInfo, IV.empty, IV.occs, shape, Shape.occs, Info.own]
  | interval => cases k <;> simp [mkInterval, Term.info, leafInfo, IV.empty, IV.occs, shape, Shape.occs, Info.own]
  | var k' n i =>
    rw [shape_mkVar]
    cases k <;> cases k' <;> simp [mkVar, Term.info, IV.occs, IV.single, IV.empty, Shape.occs, Info.own]
  | @stmt s p c hs hp =>
    have hiv : (mkStmt s c p).info.own k = buildTable ((mkStmt s c p).info.has k) [s, p] := by
      cases k <;> rfl
    have key := buildTable_occs (ts := [s, p]) (flag := (mkStmt s c p).info.has k)
      (by simp [hs.iv_occs.1, hp.iv_occs.1]) (by simp [hs.iv_occs.2, hp.iv_occs.2])
    rw [← hiv] at key
    refine ⟨key.1, key.2.trans ?_⟩
    rw [shape_mkStmt] at hhas ⊢
    simp only [List.map_cons, List.map_nil]
    split
    · next hb => rw [if_neg (hhas.1 hb)]; rw [shape_occs_stmt]
    · next hb => rw [if_pos (not_not.1 (mt hhas.2 hb))]
  | @comp ts c hts hs =>
    have hiv : (finishComp c ts).info.own k =
      buildTable ((finishComp c ts).info.has k) ts := by cases k <;> rfl
    have key := buildTable_occs (ts := ts) (flag := (finishComp c ts).info.has k)
      (fun t ht => (hts t ht).iv_occs.1) (fun t ht => (hts t ht).iv_occs.2)
    rw [← hiv] at key
    refine ⟨key.1, key.2.trans ?_⟩
    rw [shape_finishComp] at hhas ⊢
    simp only
    split
    · next hb => rw [if_neg (hhas.1 hb)]; rw [Shape.occs]
    · next hb => rw [if_pos (not_not.1 (mt hhas.2 hb))]

end Cnars
