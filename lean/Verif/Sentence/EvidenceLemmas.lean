import Verif.Sentence.Evidence
import Mathlib.Data.List.Basic
import Mathlib.Tactic.Common

/-!
# Helper lemmas about evidential bases
-/

namespace Cnars.Evidence
open Cnars

theorem mem_sinsert {x y : Nat} {l : List Nat} : y ∈ sinsert x l ↔ y = x ∨ y ∈ l := by
  induction l with
  | nil => simp [sinsert]
  | cons z zs ih =>
    simp only [sinsert]
    split
    · simp
    · split
      · next h => subst h; simp
      · simp [ih]; tauto

theorem sinsert_sorted {x : Nat} {l : List Nat} (h : l.Pairwise (· < ·)) :
    (sinsert x l).Pairwise (· < ·) := by
  induction l with
  | nil => simp [sinsert]
  | cons z zs ih =>
    simp only [sinsert]
    have hz := List.pairwise_cons.1 h
    split
    · next hlt =>
      refine List.pairwise_cons.2 ⟨?_, h⟩
      intro a ha
      rcases List.mem_cons.1 ha with rfl | ha
      · exact hlt
      · exact Nat.lt_trans hlt (hz.1 a ha)
    · split
      · exact h
      · next h1 h2 =>
        refine List.pairwise_cons.2 ⟨?_, ih hz.2⟩
        intro a ha
        rcases mem_sinsert.1 ha with rfl | ha
        · omega
        · exact hz.1 a ha

theorem setOf_sorted (l : List Nat) : (setOf l).Pairwise (· < ·) := by
  have : ∀ (l s : List Nat), s.Pairwise (· < ·) →
      (l.foldl (fun s x => sinsert x s) s).Pairwise (· < ·) := by
    intro l
    induction l with
    | nil => intro s h; exact h
    | cons x xs ih => intro s h; exact ih _ (sinsert_sorted h)
  exact this l [] List.Pairwise.nil

theorem mem_setOf {x : Nat} (l : List Nat) : x ∈ setOf l ↔ x ∈ l := by
  have : ∀ (l s : List Nat), x ∈ l.foldl (fun s x => sinsert x s) s ↔ x ∈ l ∨ x ∈ s := by
    intro l
    induction l with
    | nil => intro s; simp
    | cons y ys ih => intro s; simp only [List.foldl_cons, ih, mem_sinsert, List.mem_cons]; tauto
  simpa [setOf] using this l []

/-- What the interleaving loop does. -/
theorem interleaveLoop_spec (len i : Nat) (l1 l2 acc : List Nat)
    (hlen : len ≤ i + l1.length + l2.length) :
    ∃ r n1 n2, interleaveLoop len i l1 l2 acc = .ok r ∧ n1 ≤ l1.length ∧ n2 ≤ l2.length ∧
      (∀ x, x ∈ r ↔ x ∈ acc ∨ x ∈ l1.take n1 ∨ x ∈ l2.take n2) ∧
      (n1 = n2 ∨ (n1 = l1.length ∧ n1 < n2) ∨ (n2 = l2.length ∧ n2 < n1)) ∧
      len ≤ i + n1 + n2 ∧ (n1 + n2 = 0 ∨ i + n1 + n2 ≤ len + 1) ∧
      (acc.Pairwise (· < ·) → r.Pairwise (· < ·)) := by
  fun_induction interleaveLoop len i l1 l2 acc with
  | case1 i acc h => simp only [List.length_nil] at hlen; omega
  | case2 i acc h =>
    exact ⟨_, 0, 0, rfl, by simp, by simp, by simp, by simp, by omega, by omega, id⟩
  | case3 i acc x2 l2 h ih =>
    simp only [List.length_nil, List.length_cons] at hlen ih ⊢
    obtain ⟨r, n1, n2, e, h1, h2, hm, hf, hl, hu, hs⟩ := ih (by omega)
    have h0 : n1 = 0 := by omega
    subst h0
    refine ⟨r, 0, n2 + 1, e, by omega, by omega, ?_, by omega, by omega, by omega,
      fun ha => hs (sinsert_sorted ha)⟩
    intro x; rw [hm, mem_sinsert]
    simp only [List.take_nil, List.not_mem_nil, false_or, List.take_succ_cons, List.mem_cons]
    constructor
    · rintro ((h | h) | h)
      · exact .inr (.inl h)
      · exact .inl h
      · exact .inr (.inr h)
    · rintro (h | h | h)
      · exact .inl (.inr h)
      · exact .inl (.inl h)
      · exact .inr h
  | case4 i acc x2 l2 h =>
    exact ⟨_, 0, 0, rfl, by simp, by simp, by simp, by simp, by omega, by omega, id⟩
  | case5 i acc x1 l1 h ih =>
    simp only [List.length_nil, List.length_cons] at hlen ih ⊢
    obtain ⟨r, n1, n2, e, h1, h2, hm, hf, hl, hu, hs⟩ := ih (by omega)
    have h0 : n2 = 0 := by omega
    subst h0
    refine ⟨r, n1 + 1, 0, e, by omega, by omega, ?_, by omega, by omega, by omega,
      fun ha => hs (sinsert_sorted ha)⟩
    intro x; rw [hm, mem_sinsert]
    simp only [List.take_nil, List.not_mem_nil, or_false, List.take_succ_cons, List.mem_cons]
    constructor
    · rintro ((h | h) | h)
      · exact .inr (.inl h)
      · exact .inl h
      · exact .inr (.inr h)
    · rintro (h | h | h)
      · exact .inl (.inr h)
      · exact .inl (.inl h)
      · exact .inr h
  | case6 i acc x1 l1 h =>
    exact ⟨_, 0, 0, rfl, by simp, by simp, by simp, by simp, by omega, by omega, id⟩
  | case7 i acc x1 l1 x2 l2 h ih =>
    simp only [List.length_cons] at hlen ih ⊢
    obtain ⟨r, n1, n2, e, h1, h2, hm, hf, hl, hu, hs⟩ := ih (by omega)
    refine ⟨r, n1 + 1, n2 + 1, e, by omega, by omega, ?_, by omega, by omega, by omega,
      fun ha => hs (sinsert_sorted (sinsert_sorted ha))⟩
    intro x; rw [hm, mem_sinsert, mem_sinsert]
    simp only [List.take_succ_cons, List.mem_cons]
    constructor
    · rintro ((h | h | h) | h | h)
      · exact .inr (.inl (.inl h))
      · exact .inr (.inr (.inl h))
      · exact .inl h
      · exact .inr (.inl (.inr h))
      · exact .inr (.inr (.inr h))
    · rintro (h | (h | h) | (h | h))
      · exact .inl (.inr (.inr h))
      · exact .inl (.inl h)
      · exact .inr (.inl h)
      · exact .inl (.inr (.inl h))
      · exact .inr (.inr h)
  | case8 i acc x1 l1 x2 l2 h =>
    exact ⟨_, 0, 0, rfl, by simp, by simp, by simp, by simp, by omega, by omega, id⟩

theorem interleave3_spec (cap : Nat) (base s1 s2 : List Nat) :
    ∃ r n1 n2, interleave3 cap base s1 s2 = .ok r ∧ n1 ≤ s1.length ∧ n2 ≤ s2.length ∧
      (∀ x, x ∈ r ↔ x ∈ base ∨ x ∈ s1.take n1 ∨ x ∈ s2.take n2) ∧
      (n1 = n2 ∨ (n1 = s1.length ∧ n1 < n2) ∨ (n2 = s2.length ∧ n2 < n1)) ∧
      min (s1.length + s2.length) cap ≤ n1 + n2 ∧ n1 + n2 ≤ cap + 1 ∧
      (base.Pairwise (· < ·) → r.Pairwise (· < ·)) := by
  obtain ⟨r, n1, n2, e, h1, h2, hm, hf, hl, hu, hs⟩ :=
    interleaveLoop_spec (min (s1.length + s2.length) cap) 0 s1 s2 base (by omega)
  exact ⟨r, n1, n2, e, h1, h2, hm, hf, by omega, by omega, hs⟩

theorem mem_setIntersection {x : Nat} {s t : List Nat} (hs : s.Pairwise (· < ·))
    (ht : t.Pairwise (· < ·)) : x ∈ setIntersection s t ↔ x ∈ s ∧ x ∈ t := by
  fun_induction setIntersection s t with
  | case1 t => simp
  | case2 y ys => simp
  | case3 a as b bs hlt ih =>
    have ha := List.pairwise_cons.1 hs
    have hb := List.pairwise_cons.1 ht
    rw [ih ha.2 ht]
    constructor
    · rintro ⟨h1, h2⟩; exact ⟨List.mem_cons_of_mem _ h1, h2⟩
    · rintro ⟨h1, h2⟩
      rcases List.mem_cons.1 h1 with rfl | h1
      · rcases List.mem_cons.1 h2 with rfl | h2
        · omega
        · have := hb.1 _ h2; omega
      · exact ⟨h1, h2⟩
  | case4 a as b bs hn hlt ih =>
    have ha := List.pairwise_cons.1 hs
    have hb := List.pairwise_cons.1 ht
    rw [ih hs hb.2]
    constructor
    · rintro ⟨h1, h2⟩; exact ⟨h1, List.mem_cons_of_mem _ h2⟩
    · rintro ⟨h1, h2⟩
      rcases List.mem_cons.1 h2 with rfl | h2
      · rcases List.mem_cons.1 h1 with rfl | h1
        · omega
        · have := ha.1 _ h1; omega
      · exact ⟨h1, h2⟩
  | case5 a as b bs h1 h2 ih =>
    have ha := List.pairwise_cons.1 hs
    have hb := List.pairwise_cons.1 ht
    have hab : a = b := by omega
    subst hab
    rw [List.mem_cons, ih ha.2 hb.2, List.mem_cons, List.mem_cons]
    tauto

/-- The loop with the first operand exhausted. -/
theorem interleaveLoop_nil (l acc : List Nat) (i len : Nat) (h : len ≤ i + l.length) :
    interleaveLoop len i [] l acc = .ok ((l.take (len - i)).foldl (fun s x => sinsert x s) acc) := by
  induction l generalizing i acc with
  | nil =>
    simp only [List.length_nil] at h
    have hn : ¬ i < len := by omega
    simp [interleaveLoop, hn]
  | cons x xs ih =>
    simp only [List.length_cons] at h
    by_cases hlt : i < len
    · simp only [interleaveLoop, hlt, if_true]
      rw [ih (sinsert x acc) (i + 1) (by omega), show len - i = (len - (i + 1)) + 1 by omega]
      simp
    · rw [show len - i = 0 by omega]; simp [interleaveLoop, hlt]

theorem sinsert_last {x : Nat} {l : List Nat} (h : ∀ y ∈ l, y < x) : sinsert x l = l ++ [x] := by
  induction l with
  | nil => simp [sinsert]
  | cons y ys ih =>
    have hy := h y (by simp)
    simp only [sinsert, show ¬ x < y by omega, show ¬ x = y by omega, if_false, List.cons_append]
    rw [ih (fun z hz => h z (by simp [hz]))]

/-- Rebuilding a set from its ascending enumeration. -/
theorem setOf_of_sorted {l : List Nat} (h : l.Pairwise (· < ·)) : setOf l = l := by
  have : ∀ (l s : List Nat), (s ++ l).Pairwise (· < ·) →
      l.foldl (fun s x => sinsert x s) s = s ++ l := by
    intro l
    induction l with
    | nil => intro s _; simp
    | cons x xs ih =>
      intro s hs
      have hlt : ∀ y ∈ s, y < x := by
        intro y hy
        exact (List.pairwise_append.1 hs).2.2 y hy x (by simp)
      rw [List.foldl_cons, sinsert_last hlt, ih _ (by simpa using hs)]
      simp
  have h2 := this l [] (by simpa using h)
  rw [List.nil_append] at h2
  exact h2

theorem interleave3_nil_nil (cap : Nat) {l : List Nat} (h : l.Pairwise (· < ·)) :
    interleave3 cap [] [] l = .ok (l.take cap) := by
  have hp : (l.take cap).Pairwise (· < ·) := h.sublist (List.take_sublist cap l)
  rw [interleave3, interleaveLoop_nil _ _ _ _ (by simp only [List.length_nil]; omega), Nat.sub_zero]
  have e : l.take (min (([] : List Nat).length + l.length) cap) = l.take cap := by
    rcases Nat.le_total l.length cap with hc | hc
    · simp [Nat.min_eq_left hc, List.take_of_length_le hc]
    · simp [Nat.min_eq_right hc]
  rw [e]
  exact congrArg Res.ok (setOf_of_sorted hp)

/-- Everything that holds of reachable worlds: every base refers to an existing set, and every set
is strictly ascending. -/
structure Inv (w : World) : Prop where
  ref : ∀ b ∈ w.bases, b.set < w.sets.length
  sorted : ∀ s ∈ w.sets, s.Pairwise (· < ·)

theorem inv_empty : Inv World.empty := ⟨by simp [World.empty], by simp [World.empty]⟩

theorem mem_of_getElem?_eq {α} {l : List α} {i : Nat} {a : α} (h : l[i]? = some a) : a ∈ l :=
  List.mem_of_getElem? h

theorem mem_set_cases {α} {l : List α} {i : Nat} {a b : α} (h : b ∈ l.set i a) : b = a ∨ b ∈ l := by
  rcases List.mem_or_eq_of_mem_set h with h | h
  · exact .inr h
  · exact .inl h

theorem ofOption_bind_ok {α β} {o : Option α} {f : α → Res β} {b : β} :
    (Res.ofOption o >>= f) = .ok b ↔ ∃ a, o = some a ∧ f a = .ok b := by
  cases o <;> simp

theorem ofOption_eq_ok {α} {o : Option α} {a : α} : Res.ofOption o = .ok a ↔ o = some a := by
  cases o <;> simp

theorem step_inv (cap : Nat) (w w' : World) (o : Op) (h : Inv w) (hs : step cap w o = .ok w') :
    Inv w' := by
  cases o with
  | new =>
    simp only [step, Res.ok.injEq] at hs; subst hs
    constructor
    · intro b hb
      simp only [List.mem_append, List.mem_singleton] at hb
      simp only [List.length_append, List.length_singleton]
      rcases hb with hb | rfl
      · have := h.ref b hb; omega
      · simp
    · intro s hs
      simp only [List.mem_append, List.mem_singleton] at hs
      rcases hs with hs | rfl
      · exact h.sorted s hs
      · simp
  | newOf ids =>
    simp only [step, Res.ok.injEq] at hs; subst hs
    constructor
    · intro b hb
      simp only [List.mem_append, List.mem_singleton] at hb
      simp only [List.length_append, List.length_singleton]
      rcases hb with hb | rfl
      · have := h.ref b hb; omega
      · simp
    · intro s hs
      simp only [List.mem_append, List.mem_singleton] at hs
      rcases hs with hs | rfl
      · exact h.sorted s hs
      · exact setOf_sorted ids
  | copy b =>
    simp only [step, ofOption_bind_ok, Res.ok.injEq] at hs
    obtain ⟨o, ho, rfl⟩ := hs
    refine ⟨?_, h.sorted⟩
    intro c hc
    simp only [List.mem_append, List.mem_singleton] at hc
    rcases hc with hc | rfl
    · exact h.ref c hc
    · exact h.ref _ (List.mem_of_getElem? ho)
  | add b id =>
    simp only [step, ofOption_bind_ok, Res.ok.injEq] at hs
    obtain ⟨o, ho, s, hs', rfl⟩ := hs
    constructor
    · intro c hc
      simp only [List.length_set]
      rcases mem_set_cases hc with rfl | hc
      · exact h.ref o (List.mem_of_getElem? ho)
      · exact h.ref c hc
    · intro t ht
      rcases mem_set_cases ht with rfl | ht
      · exact sinsert_sorted (h.sorted s (List.mem_of_getElem? hs'))
      · exact h.sorted t ht
  | extend b other =>
    simp only [step, Res.bind_eq_ok, ofOption_eq_ok, Res.ok.injEq] at hs
    obtain ⟨o, ho, p, hp, s0, hs0, s1, hs1, s2, hs2, r, hr, rfl⟩ := hs
    obtain ⟨r', n1, n2, e, _, _, _, _, _, _, hsort⟩ := interleave3_spec cap s1 s1 s2
    rw [hr] at e; cases e
    have hsets : ∀ t ∈ w.sets.set o.set [], t.Pairwise (· < ·) := by
      intro t ht
      rcases mem_set_cases ht with rfl | ht
      · exact List.Pairwise.nil
      · exact h.sorted t ht
    constructor
    · intro c hc; simpa using h.ref c hc
    · intro t ht
      rcases mem_set_cases ht with rfl | ht
      · exact hsort (hsets s1 (List.mem_of_getElem? hs1))
      · exact hsets t ht
  | interleave b1 b2 =>
    simp only [step, Res.bind_eq_ok, ofOption_eq_ok, Res.ok.injEq] at hs
    obtain ⟨o, ho, p, hp, s1, hs1, s2, hs2, r, hr, rfl⟩ := hs
    obtain ⟨r', n1, n2, e, _, _, _, _, _, _, hsort⟩ := interleave3_spec cap [w.nextId] s1 s2
    rw [hr] at e; cases e
    constructor
    · intro b hb
      simp only [List.mem_append, List.mem_singleton] at hb
      simp only [List.length_append, List.length_singleton]
      rcases hb with hb | rfl
      · have := h.ref b hb; omega
      · simp
    · intro s hs
      simp only [List.mem_append, List.mem_singleton] at hs
      rcases hs with hs | rfl
      · exact h.sorted s hs
      · exact hsort (by simp)
  | hash b =>
    simp only [step, ofOption_bind_ok] at hs
    obtain ⟨o, ho, s, hs', hs⟩ := hs
    split at hs
    · cases hs; exact h
    · cases hs
      refine ⟨?_, h.sorted⟩
      intro c hc
      rcases mem_set_cases hc with rfl | hc
      · exact h.ref o (List.mem_of_getElem? ho)
      · exact h.ref c hc

theorem run_inv (cap : Nat) (w w' : World) (os : List Op) (h : Inv w)
    (hr : run cap w os = .ok w') : Inv w' := by
  induction os generalizing w with
  | nil => simp only [run, Res.ok.injEq] at hr; subst hr; exact h
  | cons o os ih =>
    simp only [run, Res.bind_eq_ok] at hr
    obtain ⟨w1, h1, h2⟩ := hr
    exact ih w1 (step_inv cap w w1 o h h1) h2

theorem evidence_iff {w : World} {b : Nat} {s : List Nat} :
    w.evidence b = some s ↔ ∃ o, w.bases[b]? = some o ∧ w.sets[o.set]? = some s := by
  simp [World.evidence, Option.bind_eq_some_iff]

end Cnars.Evidence
