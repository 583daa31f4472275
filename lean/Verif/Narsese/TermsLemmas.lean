import Verif.Narsese.Compound
import Mathlib.Data.List.Pairwise
import Mathlib.Data.List.Perm.Basic
import Mathlib.Data.List.Nodup
import Mathlib.Tactic.Common

/-!
Helper lemmas about `Terms` as ordered sets.
-/

namespace Cnars
open Term

/-- `b` is strictly above `a`, and the comparator says so consistently. -/
def Above (a b : Term) : Prop := lt a b = .ok true ∧ lt b a = .ok false

/-- The element list of a `std::set`. -/
def SortedTs (l : List Term) : Prop := l.Pairwise Above

theorem Above.asymm {a b : Term} (h : Above a b) : ¬ Above b a := by
  intro h2; have h3 := h2.2; rw [h.1] at h3; cases h3

theorem Above.irrefl {a : Term} : ¬ Above a a := fun h => h.asymm h

theorem Above.ne {a b : Term} (h : Above a b) : a ≠ b := by
  rintro rfl; exact Above.irrefl h

theorem checkAbove_ok {x : Term} {l : List Term} :
    checkAbove x l = .ok () ↔ ∀ z ∈ l, Above x z := by
  induction l with
  | nil => simp [checkAbove]
  | cons z zs ih =>
    simp only [checkAbove, Res.bind_eq_ok, List.mem_cons, forall_eq_or_imp]
    constructor
    · rintro ⟨xz, h1, zx, h2, h3⟩
      split at h3
      · next hb =>
        simp only [Bool.and_eq_true, Bool.not_eq_true'] at hb
        rw [hb.1] at h1; rw [hb.2] at h2
        exact ⟨⟨h1, h2⟩, ih.1 h3⟩
      · cases h3
    · rintro ⟨⟨h1, h2⟩, h3⟩
      exact ⟨true, h1, false, h2, by simp [ih.2 h3]⟩

/-- Inversion of a successful insertion: the new element is placed between the elements below and
above it, or is equivalent to a present element. -/
theorem setInsert_inv {x : Term} {s r : List Term} (h : setInsert x s = .ok r) :
    (∃ l1 l2, s = l1 ++ l2 ∧ r = l1 ++ x :: l2 ∧ (∀ y ∈ l1, Above y x) ∧ (∀ z ∈ l2, Above x z)) ∨
    (∃ l1 y l2, s = l1 ++ y :: l2 ∧ r = s ∧ (∀ y ∈ l1, Above y x) ∧ (∀ z ∈ l2, Above x z) ∧
      lt x y = .ok false ∧ lt y x = .ok false) := by
  induction s generalizing r with
  | nil =>
    simp only [setInsert, Res.ok.injEq] at h; subst h
    exact .inl ⟨[], [], rfl, rfl, by simp, by simp⟩
  | cons y ys ih =>
    simp only [setInsert, Res.bind_eq_ok] at h
    obtain ⟨yx, h1, xy, h2, h⟩ := h
    cases yx <;> cases xy <;> simp [Res.bind_eq_ok] at h
    · obtain ⟨⟨_, hc⟩, rfl⟩ := h
      exact .inr ⟨[], y, ys, rfl, rfl, by simp, checkAbove_ok.1 hc, h2, h1⟩
    · obtain ⟨⟨_, hc⟩, rfl⟩ := h
      refine .inl ⟨[], y :: ys, rfl, rfl, by simp, ?_⟩
      simp only [List.mem_cons, forall_eq_or_imp]
      exact ⟨⟨h2, h1⟩, checkAbove_ok.1 hc⟩
    · obtain ⟨r', hr, rfl⟩ := h
      rcases ih hr with ⟨l1, l2, rfl, rfl, a, b⟩ | ⟨l1, w, l2, rfl, rfl, a, b, c⟩
      · refine .inl ⟨y :: l1, l2, rfl, rfl, ?_, b⟩
        simp only [List.mem_cons, forall_eq_or_imp]; exact ⟨⟨h1, h2⟩, a⟩
      · refine .inr ⟨y :: l1, w, l2, rfl, rfl, ?_, b, c⟩
        simp only [List.mem_cons, forall_eq_or_imp]; exact ⟨⟨h1, h2⟩, a⟩

theorem setInsert_sorted {x : Term} {s r : List Term} (h : setInsert x s = .ok r)
    (hs : SortedTs s) : SortedTs r := by
  rcases setInsert_inv h with ⟨l1, l2, rfl, rfl, a, b⟩ | ⟨l1, w, l2, rfl, rfl, a, b, c⟩
  · unfold SortedTs at *
    rw [List.pairwise_append] at hs ⊢
    obtain ⟨h1, h2, h3⟩ := hs
    refine ⟨h1, List.pairwise_cons.2 ⟨b, h2⟩, ?_⟩
    intro y hy z hz
    rcases List.mem_cons.1 hz with rfl | hz
    · exact a y hy
    · exact h3 y hy z hz
  · exact hs

theorem setInsert_mem {x : Term} {s r : List Term} (h : setInsert x s = .ok r) :
    (∀ z ∈ r, z = x ∨ z ∈ s) ∧ (∀ z ∈ s, z ∈ r) ∧
    (x ∈ r ∨ ∃ y ∈ s, lt x y = .ok false ∧ lt y x = .ok false) := by
  rcases setInsert_inv h with ⟨l1, l2, rfl, rfl, a, b⟩ | ⟨l1, w, l2, rfl, rfl, a, b, c⟩
  · refine ⟨?_, ?_, .inl (by simp)⟩
    · intro z hz; simp only [List.mem_append, List.mem_cons] at hz ⊢; tauto
    · intro z hz; simp only [List.mem_append, List.mem_cons] at hz ⊢; tauto
  · exact ⟨fun z hz => .inr hz, fun z hz => hz, .inr ⟨w, by simp, c⟩⟩

theorem setInsertAll_sorted {xs s r : List Term} (h : setInsertAll xs s = .ok r)
    (hs : SortedTs s) : SortedTs r := by
  induction xs generalizing s with
  | nil => simp only [setInsertAll, Res.ok.injEq] at h; subst h; exact hs
  | cons x xs ih =>
    simp only [setInsertAll, Res.bind_eq_ok] at h
    obtain ⟨s', h1, h2⟩ := h
    exact ih h2 (setInsert_sorted h1 hs)

theorem setInsertAll_mem {xs s r : List Term} (h : setInsertAll xs s = .ok r) :
    (∀ z ∈ r, z ∈ xs ∨ z ∈ s) ∧ (∀ z ∈ s, z ∈ r) := by
  induction xs generalizing s with
  | nil => simp only [setInsertAll, Res.ok.injEq] at h; subst h; simp
  | cons x xs ih =>
    simp only [setInsertAll, Res.bind_eq_ok] at h
    obtain ⟨s', h1, h2⟩ := h
    obtain ⟨a, b⟩ := ih h2
    obtain ⟨c, d, _⟩ := setInsert_mem h1
    refine ⟨?_, fun z hz => b z (d z hz)⟩
    intro z hz
    rcases a z hz with h | h
    · exact .inl (List.mem_cons_of_mem _ h)
    · rcases c z h with rfl | h
      · exact .inl (by simp)
      · exact .inr h

theorem setInsert_last {x : Term} {s : List Term} (h : ∀ y ∈ s, Above y x) :
    setInsert x s = .ok (s ++ [x]) := by
  induction s with
  | nil => rfl
  | cons y ys ih =>
    have hy := h y (by simp)
    have := ih (fun z hz => h z (by simp [hz]))
    simp [setInsert, hy.1, hy.2, this]

/-- Inserting an ascending sequence above everything present appends it. -/
theorem setInsertAll_append {l s : List Term} (h : SortedTs (s ++ l)) :
    setInsertAll l s = .ok (s ++ l) := by
  induction l generalizing s with
  | nil => simp [setInsertAll]
  | cons x xs ih =>
    have hx : ∀ y ∈ s, Above y x := fun y hy =>
      (List.pairwise_append.1 h).2.2 y hy x (by simp)
    have h2 : SortedTs ((s ++ [x]) ++ xs) := by simpa [SortedTs] using h
    simp [setInsertAll, setInsert_last hx, ih h2]

theorem setInsertAll_self {l : List Term} (h : SortedTs l) : setInsertAll l [] = .ok l := by
  simpa using setInsertAll_append (s := []) (by simpa using h)

/-- The comparator is a strict total order on `S`: incomparable members are equal. -/
structure Orderly (S : Term → Prop) : Prop where
  irrefl : ∀ a, S a → lt a a = .ok false
  total : ∀ a b, S a → S b → a = b ∨ Above a b ∨ Above b a
  trans : ∀ a b c, S a → S b → S c → Above a b → Above b c → Above a c

theorem Orderly.mono {S T : Term → Prop} (h : Orderly S) (hT : ∀ t, T t → S t) : Orderly T :=
  ⟨fun a ha => h.irrefl a (hT a ha), fun a b ha hb => h.total a b (hT a ha) (hT b hb),
   fun a b c ha hb hc => h.trans a b c (hT a ha) (hT b hb) (hT c hc)⟩

theorem Orderly.setInsert {S : Term → Prop} (h : Orderly S) {x : Term} {s : List Term}
    (hx : S x) (hs : ∀ t ∈ s, S t) (hsort : SortedTs s) :
    ∃ r, setInsert x s = .ok r ∧ ∀ z, z ∈ r ↔ z = x ∨ z ∈ s := by
  induction s with
  | nil => exact ⟨[x], rfl, by simp⟩
  | cons y ys ih =>
    have hy := hs y (by simp)
    have hys : ∀ t ∈ ys, S t := fun t ht => hs t (by simp [ht])
    obtain ⟨hyb, hsort'⟩ := List.pairwise_cons.1 hsort
    rcases h.total x y hx hy with rfl | hxy | hyx
    · have hc : checkAbove x ys = .ok () := checkAbove_ok.2 hyb
      refine ⟨x :: ys, ?_, by simp⟩
      simp [Cnars.setInsert, h.irrefl x hx, hc]
    · have hc : checkAbove x ys = .ok () := checkAbove_ok.2 fun z hz =>
        h.trans x y z hx hy (hys z hz) hxy (hyb z hz)
      refine ⟨x :: y :: ys, ?_, by simp⟩
      simp [Cnars.setInsert, hxy.1, hxy.2, hc]
    · obtain ⟨r, hr, hm⟩ := ih hys hsort'
      refine ⟨y :: r, ?_, ?_⟩
      · simp [Cnars.setInsert, hyx.1, hyx.2, hr]
      · intro z; simp only [List.mem_cons, hm]; tauto

theorem Orderly.setInsertAll {S : Term → Prop} (h : Orderly S) {xs s : List Term}
    (hx : ∀ t ∈ xs, S t) (hs : ∀ t ∈ s, S t) (hsort : SortedTs s) :
    ∃ r, setInsertAll xs s = .ok r ∧ SortedTs r ∧ ∀ z, z ∈ r ↔ z ∈ xs ∨ z ∈ s := by
  induction xs generalizing s with
  | nil => exact ⟨s, rfl, hsort, by simp⟩
  | cons x xs ih =>
    obtain ⟨s', e, hm⟩ := h.setInsert (hx x (by simp)) hs hsort
    obtain ⟨r, e2, hr, hm2⟩ := ih (s := s') (fun t ht => hx t (by simp [ht]))
      (fun t ht => by
        rcases (hm t).1 ht with rfl | h'
        · exact hx t (by simp)
        · exact hs t h') (setInsert_sorted e hsort)
    refine ⟨r, by simp [Cnars.setInsertAll, e, e2], hr, ?_⟩
    intro z; rw [hm2, hm]; simp only [List.mem_cons]; tauto

theorem SortedTs.nodup {l : List Term} (h : SortedTs l) : l.Nodup :=
  List.Pairwise.imp (fun hab => hab.ne) h

/-- Two ascending lists with the same members are equal. -/
theorem SortedTs.ext {l r : List Term} (hl : SortedTs l) (hr : SortedTs r)
    (h : ∀ z, z ∈ l ↔ z ∈ r) : l = r := by
  have hp : l.Perm r := (List.perm_ext_iff_of_nodup hl.nodup hr.nodup).2 h
  exact hp.eq_of_pairwise (fun a b _ _ h1 h2 => absurd h2 h1.asymm) hl hr

end Cnars
