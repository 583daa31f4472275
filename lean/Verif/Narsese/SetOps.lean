import Verif.Narsese.LtLemmas

/-!
Helper lemmas: the set algorithms on component lists under a comparator that is a strict total
order on the elements.
-/

set_option linter.unusedSectionVars false

namespace Cnars
open Term

theorem SortedTs.tail {x : Term} {xs : List Term} (h : SortedTs (x :: xs)) : SortedTs xs :=
  (List.pairwise_cons.1 h).2

theorem SortedTs.head {x : Term} {xs : List Term} (h : SortedTs (x :: xs)) : ∀ z ∈ xs, Above x z :=
  (List.pairwise_cons.1 h).1

section
variable {S : Term → Prop} (hS : Orderly S)
include hS

theorem Orderly.notMem_of_below {x : Term} {ys : List Term} (hx : ∀ z ∈ ys, Above x z) : x ∉ ys :=
  fun h => Above.irrefl (hx x h)

/-- The head of one ascending list is below everything in the other if below its head. -/
theorem Orderly.below_all {x y : Term} {ys : List Term} (hx : S x) (hy : S y) (hys : ∀ z ∈ ys, S z)
    (hsy : SortedTs (y :: ys)) (h : Above x y) : ∀ z ∈ y :: ys, Above x z := by
  intro z hz
  rcases List.mem_cons.1 hz with rfl | hz
  · exact h
  · exact hS.trans x y z hx hy (hys z hz) h (hsy.head z hz)

theorem Orderly.mergeUnion {xs ys : List Term} (hx : ∀ z ∈ xs, S z) (hy : ∀ z ∈ ys, S z)
    (sx : SortedTs xs) (sy : SortedTs ys) :
    ∃ r, Terms.mergeUnion xs ys = .ok r ∧ ∀ z, z ∈ r ↔ z ∈ xs ∨ z ∈ ys := by
  fun_induction Terms.mergeUnion xs ys with
  | case1 ys => exact ⟨_, rfl, by simp⟩
  | case2 x xs => exact ⟨_, rfl, by simp⟩
  | case3 x xs y ys ih1 ih2 ih3 =>
    have Sx := hx x (by simp)
    have Sy := hy y (by simp)
    have hxs : ∀ z ∈ xs, S z := fun z hz => hx z (by simp [hz])
    have hys : ∀ z ∈ ys, S z := fun z hz => hy z (by simp [hz])
    rcases hS.total x y Sx Sy with rfl | h | h
    · obtain ⟨r, hr, hm⟩ := ih3 hxs hys sx.tail sy.tail
      refine ⟨x :: r, by simp [hS.irrefl x Sx, hr], ?_⟩
      intro z; simp only [List.mem_cons, hm]; tauto
    · obtain ⟨r, hr, hm⟩ := ih1 hxs hy sx.tail sy
      refine ⟨x :: r, by simp [h.1, hr], ?_⟩
      intro z; simp only [List.mem_cons, hm]; tauto
    · obtain ⟨r, hr, hm⟩ := ih2 hx hys sx sy.tail
      refine ⟨y :: r, by simp [h.1, h.2, hr], ?_⟩
      intro z; simp only [List.mem_cons, hm]; tauto

theorem Orderly.mergeInter {xs ys : List Term} (hx : ∀ z ∈ xs, S z) (hy : ∀ z ∈ ys, S z)
    (sx : SortedTs xs) (sy : SortedTs ys) :
    ∃ r, Terms.mergeInter xs ys = .ok r ∧ ∀ z, z ∈ r ↔ z ∈ xs ∧ z ∈ ys := by
  fun_induction Terms.mergeInter xs ys with
  | case1 ys => exact ⟨_, rfl, by simp⟩
  | case2 x xs => exact ⟨_, rfl, by simp⟩
  | case3 x xs y ys ih1 ih2 ih3 =>
    have Sx := hx x (by simp)
    have Sy := hy y (by simp)
    have hxs : ∀ z ∈ xs, S z := fun z hz => hx z (by simp [hz])
    have hys : ∀ z ∈ ys, S z := fun z hz => hy z (by simp [hz])
    rcases hS.total x y Sx Sy with rfl | h | h
    · obtain ⟨r, hr, hm⟩ := ih3 hxs hys sx.tail sy.tail
      refine ⟨x :: r, by simp [hS.irrefl x Sx, hr], ?_⟩
      intro z
      have n1 := hS.notMem_of_below sx.head
      have n2 := hS.notMem_of_below sy.head
      simp only [List.mem_cons, hm]
      constructor
      · rintro (rfl | ⟨h1, h2⟩)
        · exact ⟨.inl rfl, .inl rfl⟩
        · exact ⟨.inr h1, .inr h2⟩
      · rintro ⟨rfl | h1, h2 | h2⟩
        · exact .inl rfl
        · exact .inl rfl
        · exact .inl h2
        · exact .inr ⟨h1, h2⟩
    · obtain ⟨r, hr, hm⟩ := ih1 hxs hy sx.tail sy
      refine ⟨r, by simp [h.1, hr], ?_⟩
      have n := hS.notMem_of_below (hS.below_all Sx Sy hys sy h)
      intro z; rw [hm]
      constructor
      · rintro ⟨h1, h2⟩; exact ⟨by simp [h1], h2⟩
      · rintro ⟨h1, h2⟩
        rcases List.mem_cons.1 h1 with rfl | h1
        · exact absurd h2 n
        · exact ⟨h1, h2⟩
    · obtain ⟨r, hr, hm⟩ := ih2 hx hys sx sy.tail
      refine ⟨r, by simp [h.1, h.2, hr], ?_⟩
      have n := hS.notMem_of_below (hS.below_all Sy Sx hxs sx h)
      intro z; rw [hm]
      constructor
      · rintro ⟨h1, h2⟩; exact ⟨h1, by simp [h2]⟩
      · rintro ⟨h1, h2⟩
        rcases List.mem_cons.1 h2 with rfl | h2
        · exact absurd h1 n
        · exact ⟨h1, h2⟩

theorem Orderly.mergeDiff {xs ys : List Term} (hx : ∀ z ∈ xs, S z) (hy : ∀ z ∈ ys, S z)
    (sx : SortedTs xs) (sy : SortedTs ys) :
    ∃ r, Terms.mergeDiff xs ys = .ok r ∧ ∀ z, z ∈ r ↔ z ∈ xs ∧ z ∉ ys := by
  fun_induction Terms.mergeDiff xs ys with
  | case1 ys => exact ⟨_, rfl, by simp⟩
  | case2 x xs => exact ⟨_, rfl, by simp⟩
  | case3 x xs y ys ih1 ih2 ih3 =>
    have Sx := hx x (by simp)
    have Sy := hy y (by simp)
    have hxs : ∀ z ∈ xs, S z := fun z hz => hx z (by simp [hz])
    have hys : ∀ z ∈ ys, S z := fun z hz => hy z (by simp [hz])
    rcases hS.total x y Sx Sy with rfl | h | h
    · obtain ⟨r, hr, hm⟩ := ih3 hxs hys sx.tail sy.tail
      refine ⟨r, by simp [hS.irrefl x Sx, hr], ?_⟩
      have n1 := hS.notMem_of_below sx.head
      intro z; rw [hm]
      simp only [List.mem_cons, not_or]
      constructor
      · rintro ⟨h1, h2⟩; exact ⟨.inr h1, fun e => n1 (e ▸ h1), h2⟩
      · rintro ⟨h1 | h1, h2, h3⟩
        · exact absurd h1 h2
        · exact ⟨h1, h3⟩
    · obtain ⟨r, hr, hm⟩ := ih1 hxs hy sx.tail sy
      refine ⟨x :: r, by simp [h.1, hr], ?_⟩
      have n := hS.notMem_of_below (hS.below_all Sx Sy hys sy h)
      intro z; rw [List.mem_cons, hm, List.mem_cons (a := z) (b := x)]
      constructor
      · rintro (rfl | ⟨h1, h2⟩)
        · exact ⟨.inl rfl, n⟩
        · exact ⟨.inr h1, h2⟩
      · rintro ⟨h1 | h1, h2⟩
        · exact .inl h1
        · exact .inr ⟨h1, h2⟩
    · obtain ⟨r, hr, hm⟩ := ih2 hx hys sx sy.tail
      refine ⟨r, by simp [h.1, h.2, hr], ?_⟩
      have n := hS.notMem_of_below (hS.below_all Sy Sx hxs sx h)
      intro z; rw [hm]
      constructor
      · rintro ⟨h1, h2⟩
        refine ⟨h1, ?_⟩
        rw [List.mem_cons]; rintro (rfl | h3)
        · exact n h1
        · exact h2 h3
      · rintro ⟨h1, h2⟩; exact ⟨h1, fun h3 => h2 (by simp [h3])⟩

/-- Lifting a two-operand algorithm to the loop over the operands. -/
theorem Orderly.foldOp {op : List Term → List Term → Res (List Term)} {R : Prop → Prop → Prop}
    (hop : ∀ xs ys, (∀ z ∈ xs, S z) → (∀ z ∈ ys, S z) → SortedTs xs → SortedTs ys →
      ∃ r, op xs ys = .ok r ∧ (∀ z ∈ r, z ∈ xs ∨ z ∈ ys) ∧ ∀ z, z ∈ r ↔ R (z ∈ xs) (z ∈ ys))
    {acc : List Term} {ts : List Terms} (ha : ∀ z ∈ acc, S z) (sa : SortedTs acc)
    (ht : ∀ t ∈ ts, t.comm = true ∧ SortedTs t.items ∧ ∀ z ∈ t.items, S z) :
    ∃ r, Terms.foldOp op acc ts = .ok r ∧ SortedTs r ∧ (∀ z ∈ r, S z) ∧
      ∀ z, z ∈ r ↔ ts.foldl (fun p t => R p (z ∈ t.items)) (z ∈ acc) := by
  induction ts generalizing acc with
  | nil => exact ⟨acc, rfl, sa, ha, by simp⟩
  | cons t ts ih =>
    obtain ⟨hc, hst, hts⟩ := ht t (by simp)
    obtain ⟨r, hr, hsub, hm⟩ := hop acc t.items ha hts sa hst
    have hrS : ∀ z ∈ r, S z := fun z hz => (hsub z hz).elim (ha z) (hts z)
    obtain ⟨tmp, e, st, hmt⟩ := hS.setInsertAll (xs := r) (s := []) hrS (by simp) (by simp [SortedTs])
    have hmt' : ∀ z, z ∈ tmp ↔ z ∈ r := by intro z; rw [hmt]; simp
    obtain ⟨r2, e2, s2, hS2, hm2⟩ := ih (acc := tmp) (fun z hz => hrS z ((hmt' z).1 hz)) st
      (fun u hu => ht u (by simp [hu]))
    refine ⟨r2, ?_, s2, hS2, ?_⟩
    · simp [Terms.foldOp, hc, hr, e, e2]
    · intro z; rw [hm2]; simp only [List.foldl_cons]
      have : (z ∈ tmp) = R (z ∈ acc) (z ∈ t.items) := by rw [eq_iff_iff, hmt', hm]
      rw [this]

end

/-- Commutative component lists whose elements the comparator orders strictly and totally. -/
structure SetsOver (S : Term → Prop) (ts : List Terms) : Prop where
  orderly : Orderly S
  comm : ∀ t ∈ ts, t.comm = true
  sorted : ∀ t ∈ ts, SortedTs t.items
  elems : ∀ t ∈ ts, ∀ z ∈ t.items, S z

theorem SetsOver.setOp {S : Term → Prop} {t : Terms} {ts : List Terms} (h : SetsOver S (t :: ts))
    {op : List Term → List Term → Res (List Term)} {R : Prop → Prop → Prop}
    (hop : ∀ xs ys, (∀ z ∈ xs, S z) → (∀ z ∈ ys, S z) → SortedTs xs → SortedTs ys →
      ∃ r, op xs ys = .ok r ∧ (∀ z ∈ r, z ∈ xs ∨ z ∈ ys) ∧ ∀ z, z ∈ r ↔ R (z ∈ xs) (z ∈ ys)) :
    ∃ r, Terms.setOp op (t :: ts) = .ok ⟨true, r⟩ ∧ SortedTs r ∧ (∀ z ∈ r, S z) ∧
      ∀ z, z ∈ r ↔ ts.foldl (fun p t => R p (z ∈ t.items)) (z ∈ t.items) := by
  have hu : t.unordered = t.items := by simp [Terms.unordered, h.comm t (by simp)]
  obtain ⟨r, e, s, hrS, hm⟩ := h.orderly.foldOp (R := R) hop (acc := t.items) (ts := ts)
    (h.elems t (by simp)) (h.sorted t (by simp))
    (fun u hu => ⟨h.comm u (by simp [hu]), h.sorted u (by simp [hu]), h.elems u (by simp [hu])⟩)
  refine ⟨r, ?_, s, hrS, hm⟩
  simp [Terms.setOp, hu, e, Terms.ofList, setInsertAll_self s]

theorem foldl_or {α : Type} (f : α → Prop) (p : Prop) (l : List α) :
    l.foldl (fun q a => q ∨ f a) p ↔ p ∨ ∃ a ∈ l, f a := by
  induction l generalizing p with
  | nil => simp
  | cons a l ih => simp only [List.foldl_cons, ih, List.mem_cons, exists_eq_or_imp, or_assoc]

theorem foldl_and {α : Type} (f : α → Prop) (p : Prop) (l : List α) :
    l.foldl (fun q a => q ∧ f a) p ↔ p ∧ ∀ a ∈ l, f a := by
  induction l generalizing p with
  | nil => simp
  | cons a l ih => simp only [List.foldl_cons, ih, List.mem_cons, forall_eq_or_imp, and_assoc]

theorem SetsOver.union {S : Term → Prop} {ts : List Terms} (h : SetsOver S ts) (hne : ts ≠ []) :
    ∃ r, Terms.union ts = .ok ⟨true, r⟩ ∧ SortedTs r ∧ ∀ z, z ∈ r ↔ ∃ t ∈ ts, z ∈ t.items := by
  cases ts with
  | nil => exact absurd rfl hne
  | cons t ts =>
    obtain ⟨r, e, s, _, hm⟩ := h.setOp (op := Terms.mergeUnion) (R := fun p q => p ∨ q) (by
      intro xs ys hx hy sx sy
      obtain ⟨r, e, hm⟩ := h.orderly.mergeUnion hx hy sx sy
      exact ⟨r, e, fun z hz => (hm z).1 hz, hm⟩)
    exact ⟨r, e, s, fun z => by rw [hm, foldl_or]; simp⟩

theorem SetsOver.intersection {S : Term → Prop} {ts : List Terms} (h : SetsOver S ts) (hne : ts ≠ []) :
    ∃ r, Terms.intersection ts = .ok ⟨true, r⟩ ∧ SortedTs r ∧ ∀ z, z ∈ r ↔ ∀ t ∈ ts, z ∈ t.items := by
  cases ts with
  | nil => exact absurd rfl hne
  | cons t ts =>
    obtain ⟨r, e, s, _, hm⟩ := h.setOp (op := Terms.mergeInter) (R := fun p q => p ∧ q) (by
      intro xs ys hx hy sx sy
      obtain ⟨r, e, hm⟩ := h.orderly.mergeInter hx hy sx sy
      exact ⟨r, e, fun z hz => .inl ((hm z).1 hz).1, hm⟩)
    exact ⟨r, e, s, fun z => by rw [hm, foldl_and]; simp⟩

theorem SetsOver.difference {S : Term → Prop} {t : Terms} {ts : List Terms} (h : SetsOver S (t :: ts)) :
    ∃ r, Terms.difference (t :: ts) = .ok ⟨true, r⟩ ∧ SortedTs r ∧
      ∀ z, z ∈ r ↔ z ∈ t.items ∧ ∀ u ∈ ts, z ∉ u.items := by
  obtain ⟨r, e, s, _, hm⟩ := h.setOp (op := Terms.mergeDiff) (R := fun p q => p ∧ ¬ q) (by
    intro xs ys hx hy sx sy
    obtain ⟨r, e, hm⟩ := h.orderly.mergeDiff hx hy sx sy
    exact ⟨r, e, fun z hz => .inl ((hm z).1 hz).1, hm⟩)
  exact ⟨r, e, s, fun z => by rw [hm, foldl_and (fun t : Terms => z ∉ t.items)]⟩

end Cnars
