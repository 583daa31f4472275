import Verif.Narsese.CacheLemmas
import Verif.Narsese.Normalize
import Verif.Props.TermEq

/-!
# C24-C27: cached complexity, flags and variable indices
-/

namespace Cnars.Props
open Cnars Term

mutual
/-- The number of statements in a term, at all levels. -/
def statements : Shape → Nat
  | .const _ | .interval _ | .var _ _ => 0
  | .stmt s _ p => statements s + statements p + 1
  | .comp _ ts => statementsAll ts
def statementsAll : List Shape → Nat
  | [] => 0
  | t :: ts => statements t + statementsAll ts
end

mutual
theorem complexity_count : ∀ s : Shape, s.complexity = s.leaves.length + statements s
  | .const _ | .interval _ | .var _ _ => by simp [Shape.complexity, Shape.leaves, statements]
  | .stmt s _ p => by
    simp [Shape.complexity, Shape.leaves, statements, complexity_count s, complexity_count p]; omega
  | .comp _ ts => by
    simp [Shape.complexity, Shape.leaves, statements, complexityAll_count ts]
theorem complexityAll_count : ∀ ts : List Shape,
    Shape.complexityAll ts = (Shape.leavesAll ts).length + statementsAll ts
  | [] => rfl
  | t :: ts => by
    simp [Shape.complexityAll, Shape.leavesAll, statementsAll, complexity_count t,
      complexityAll_count ts]
    omega
end

/-! ## C24 -/

theorem C24_complexity {t : Term} (h : Constructed t) :
    t.info.complexity = (shape t).leaves.length + statements (shape t) := by
  rw [h.good.complexity, complexity_count]

/-- Two terms that read the same have the same complexity, whatever their histories. -/
theorem C24_history_independent {t u : Term} (ht : Constructed t) (hu : Constructed u)
    (h : shape t = shape u) : t.info.complexity = u.info.complexity := by
  rw [C24_complexity ht, C24_complexity hu, h]

example : sXA.info.complexity = 3 := (C24_complexity sXA_c).trans (by decide +kernel)

/-! ## C25 -/

theorem C25_flags {t : Term} (h : Constructed t) :
    (t.info.hasVar = true ↔ ∃ k i, Shape.var k i ∈ (shape t).leaves) ∧
    (t.info.hasIvar = true ↔ ∃ i, Shape.var .independent i ∈ (shape t).leaves) ∧
    (t.info.hasDvar = true ↔ ∃ i, Shape.var .dependent i ∈ (shape t).leaves) ∧
    (t.info.hasQvar = true ↔ ∃ i, Shape.var .query i ∈ (shape t).leaves) := by
  refine ⟨?_, h.good.has_iff .independent, h.good.has_iff .dependent, h.good.has_iff .query⟩
  rw [h.good.hasVar_iff]; rfl

example : sXA.info.hasIvar = true ∧ sXA.info.hasQvar = false := by
  have := C25_flags sXA_c
  refine ⟨this.2.1.2 ⟨some 0, ?_⟩, ?_⟩
  · have : shape sXA = .stmt (.var .independent (some 0)) .inheritance (shape sA) := rfl
    rw [this]; simp [Shape.leaves]
  · rw [Bool.eq_false_iff]
    intro h
    obtain ⟨i, hi⟩ := this.2.2.2.1 h
    have h2 : shape sXA = .stmt (.var .independent (some 0)) .inheritance (.const 0x555555581eb0#64) := rfl
    rw [h2] at hi; simp [Shape.leaves] at hi

/-! ## C26 -/

/-- The table of kind `k` of a term lists the variables of that kind. -/
def Lists (t : Term) (k : VarKind) : Prop :=
  (t.info.own k).indices.map some = ((shape t).occs k).map (·.1) ∧
  (t.info.own k).positions = ((shape t).occs k).map (·.2)

theorem lists_of_occs {v : IV} {o : List (Option Int × List Nat)}
    (hl : v.indices.length = v.positions.length) (h : v.occs = o) :
    v.indices.map some = o.map (·.1) ∧ v.positions = o.map (·.2) := by
  subst h
  unfold IV.occs
  constructor
  · exact (List.map_fst_zip (by simp [hl])).symm
  · exact (List.map_snd_zip (by simp [hl])).symm

/-- A statement or compound. -/
def Structured (s : Shape) : Prop := (∃ a c b, s = .stmt a c b) ∨ ∃ c ts, s = .comp c ts

/-- For independent variables the claim holds for every term.  For the other two kinds it holds
for atoms and for terms without variables of that kind; missing: statements and compounds with
dependent or query variables, see the counterexample. -/
theorem C26_variable_index_partial {t : Term} (h : Constructed t) :
    Lists t .independent ∧
    ∀ k, (¬ Structured (shape t) ∨ ∀ i, Shape.var k i ∉ (shape t).leaves) → Lists t k := by
  refine ⟨lists_of_occs h.good.iv_occs.1 h.good.iv_occs.2, fun k hk => ?_⟩
  have ho := h.good.own_occs k
  refine lists_of_occs ho.1 (ho.2.trans ?_)
  rcases hk with hk | hk
  · cases hs : shape t with
    | stmt a c b => exact absurd (.inl ⟨a, c, b, hs⟩) hk
    | comp c ts => exact absurd (.inr ⟨c, ts, hs⟩) hk
    | _ => rfl
  · have := (occs_eq_nil_iff k (shape t)).2 hk
    cases hs : shape t <;> simp_all

example : sXY.info.iv.indices = [0, 1] ∧ sXY.info.iv.positions = [[0], [1]] ∧
    (Shape.occs .independent (shape sXY)).map (·.1) = [some 0, some 1] ∧
    sXY.info.iv.positions = ((shape sXY).occs .independent).map (·.2) :=
  ⟨by decide +kernel, by decide +kernel, by decide +kernel, (C26_variable_index_partial sXY_c).1.2⟩

/-- What happens in the missing case: the table of any kind of which the term has variables lists
the *independent* variables. -/
theorem C26_wrong_kind {t : Term} (h : Constructed t) (hs : Structured (shape t)) (k : VarKind)
    (hk : ∃ i, Shape.var k i ∈ (shape t).leaves) :
    (t.info.own k).indices.map some = ((shape t).occs .independent).map (·.1) ∧
    (t.info.own k).positions = ((shape t).occs .independent).map (·.2) := by
  have ho := h.good.own_occs k
  refine lists_of_occs ho.1 (ho.2.trans ?_)
  have hne : (shape t).occs k ≠ [] := by
    rw [ne_eq, occs_eq_nil_iff]; push Not; exact hk
  rcases hs with ⟨a, c, b, hs⟩ | ⟨c, ts, hs⟩ <;> rw [hs] at hne ⊢ <;> simp [hne]

/-- `<#x --> $y>` with indices 7 and 5. -/
def sDepInd : Term := mkStmt (mkVar .dependent "x" 7) .inheritance (mkVar .independent "y" 5)
theorem sDepInd_c : Constructed sDepInd :=
  .stmt .inheritance true (.var ..) (.var ..) rfl

/-- The dependent table of `<#x --> $y>` lists `$y` instead of `#x`. -/
theorem C26_dependent_counterexample : Constructed sDepInd ∧ ¬ Lists sDepInd .dependent ∧
    sDepInd.info.dv.indices = [5] ∧ sDepInd.info.dv.positions = [[1]] := by
  refine ⟨sDepInd_c, ?_, by decide +kernel, by decide +kernel⟩
  unfold Lists; decide +kernel

/-! ## C27 -/

theorem C27_length (l : List Int) : (normalize l).length = l.length := by simp [normalize]

theorem normalize_getElem (l : List Int) (i : Nat) (h : i < l.length) :
    (normalize l)[i]'(by rw [C27_length]; exact h) = ((distinctSorted l).idxOf l[i] : Int) := by
  simp [normalize]

theorem C27_order (l : List Int) (i j : Nat) (hi : i < (normalize l).length)
    (hj : j < (normalize l).length) :
    ((normalize l)[i] = (normalize l)[j] ↔
      l[i]'(C27_length l ▸ hi) = l[j]'(C27_length l ▸ hj)) ∧
    ((normalize l)[i] < (normalize l)[j] ↔
      l[i]'(C27_length l ▸ hi) < l[j]'(C27_length l ▸ hj)) := by
  have hi' := hi; have hj' := hj
  rw [C27_length] at hi' hj'
  have mi : l[i] ∈ distinctSorted l := (mem_distinctSorted l _).2 (List.getElem_mem _)
  have mj : l[j] ∈ distinctSorted l := (mem_distinctSorted l _).2 (List.getElem_mem _)
  rw [normalize_getElem l i hi', normalize_getElem l j hj']
  constructor
  · rw [Int.natCast_inj, List.idxOf_inj mi]
  · rw [Int.ofNat_lt, idxOf_lt_iff (sorted_distinctSorted l) mi mj]

/-- The values used are exactly `0 .. m-1`, `m` the number of distinct indices. -/
theorem C27_range (l : List Int) (v : Int) :
    v ∈ normalize l ↔ 0 ≤ v ∧ v < l.toFinset.card := by
  have hnd : (distinctSorted l).Nodup :=
    (sorted_distinctSorted l).imp (fun h => ne_of_lt h)
  have hcard : l.toFinset.card = (distinctSorted l).length := by
    rw [← List.toFinset_card_of_nodup hnd]
    congr 1; ext x; simp [mem_distinctSorted]
  rw [hcard]
  simp only [normalize, List.mem_map]
  constructor
  · rintro ⟨x, hx, rfl⟩
    have := List.idxOf_lt_length_of_mem ((mem_distinctSorted l x).2 hx)
    omega
  · rintro ⟨h0, h1⟩
    have hlt : v.toNat < (distinctSorted l).length := by omega
    refine ⟨(distinctSorted l)[v.toNat], (mem_distinctSorted l _).1 (List.getElem_mem _), ?_⟩
    rw [hnd.idxOf_getElem]; omega

/-- These three facts determine the result. -/
theorem renumber_unique {l a b : List Int} {m : Nat}
    (ha : a.length = l.length) (hb : b.length = l.length)
    (oa : ∀ i j (hi : i < l.length) (hj : j < l.length), a[i] < a[j] ↔ l[i] < l[j])
    (ob : ∀ i j (hi : i < l.length) (hj : j < l.length), b[i] < b[j] ↔ l[i] < l[j])
    (ra : ∀ v, v ∈ a ↔ 0 ≤ v ∧ v < (m : Int)) (rb : ∀ v, v ∈ b ↔ 0 ≤ v ∧ v < (m : Int)) : a = b := by
  -- by strong induction on the value
  have key : ∀ n : Nat, ∀ i (hi : i < l.length), a[i] = n → b[i] = n := by
    intro n
    induction n using Nat.strong_induction_on with
    | _ n ih =>
      intro i hi hai
      have hbi := (rb b[i]).1 (List.getElem_mem _)
      have hm := ((ra a[i]).1 (List.getElem_mem _)).2
      -- `b[i]` is not smaller: else some `j` has `a[j] = b[i]` below `n`, so `b[j] = b[i]`
      rcases lt_trichotomy b[i] (n : Int) with h | h | h
      · exfalso
        obtain ⟨j, hj, haj⟩ := List.getElem_of_mem ((ra b[i]).2 ⟨hbi.1, by omega⟩)
        have hj' : j < l.length := by omega
        have h1 := ih b[i].toNat (by omega) j hj' (by omega)
        have h2 : a[j] < a[i] := by omega
        rw [oa j i hj' hi, ← ob j i hj' hi] at h2
        omega
      · exact h
      · exfalso
        obtain ⟨j, hj, hbj⟩ := List.getElem_of_mem ((rb n).2 ⟨by omega, by omega⟩)
        have hj' : j < l.length := by omega
        have h2 : b[j] < b[i] := by omega
        rw [ob j i hj' hi, ← oa j i hj' hi] at h2
        have h3 := (ra a[j]).1 (List.getElem_mem _)
        have h1 := ih a[j].toNat (by omega) j hj' (by omega)
        omega
  apply List.ext_getElem (by omega)
  intro i h1 h2
  have hi : i < l.length := by omega
  have h3 := (ra a[i]).1 (List.getElem_mem _)
  have := key a[i].toNat i hi (by omega)
  omega

theorem C27_idempotent (l : List Int) : normalize (normalize l) = normalize l := by
  have hl := C27_length l
  have hcard : (normalize l).toFinset.card = l.toFinset.card := by
    have : (normalize l).toFinset = (Finset.range l.toFinset.card).image (fun n : Nat => (n : Int)) := by
      ext v
      simp only [List.mem_toFinset, C27_range, Finset.mem_image, Finset.mem_range]
      constructor
      · rintro ⟨a, b⟩; exact ⟨v.toNat, by omega, by omega⟩
      · rintro ⟨n, hn, rfl⟩; omega
    rw [this, Finset.card_image_of_injective _ (fun a b h => Int.natCast_inj.1 h), Finset.card_range]
  refine renumber_unique (l := normalize l) (m := l.toFinset.card) (C27_length _) rfl ?_ ?_ ?_ ?_
  · intro i j hi hj
    exact (C27_order (normalize l) i j (by rw [C27_length]; exact hi) (by rw [C27_length]; exact hj)).2
  · intro i j hi hj; rfl
  · intro v; rw [C27_range, hcard]
  · intro v; rw [C27_range]

example : normalize [7, -3, 7, 40, 0] = [2, 0, 2, 3, 1] := by decide +kernel

end Cnars.Props
