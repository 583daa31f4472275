import Verif.Narsese.Keyed

/-!
Helper lemmas: the comparator on terms that differ only in one place.
-/

namespace Cnars
open Term

/-- Terms that tie are compared by a part of them, which depends on their type. -/
theorem keyed_by {S : Term → Prop} {T : Nat → Term → Prop} (f : Term → Term) (hg : ∀ a, S a → Good a)
    (hs : ∀ a, S a → a.info.hasVar = true → IsLeaf a ∨ a.typeIdx ≠ 0 ∧ T a.typeIdx (f a))
    (hl : ∀ a b, S a → S b → Tie a b → a.typeIdx ≠ 0 → lt a b = lt (f a) (f b)) (hk : ∀ n, Keyed (T n)) : Keyed S := by
  have leaf : ∀ {a b}, S b → Tie a b → IsLeaf a → IsLeaf b := fun {a b} hb ht la => by
    rcases hs b hb ht.2.2.1 with h | ⟨h, _⟩
    · exact h
    · rw [← ht.2.2.2, la.typeIdx] at h
      exact absurd rfl h
  have other : ∀ {a b}, S b → Tie a b → a.typeIdx ≠ 0 → T a.typeIdx (f b) := fun {a b} hb ht ha => by
    rw [ht.2.2.2] at ha ⊢
    rcases hs b hb ht.2.2.1 with h | ⟨_, h⟩
    · exact absurd h.typeIdx ha
    · exact h
  refine keyed_of_ties hg (fun a b ha hb ht h => ?_) fun a b d ha hb hd h1 h2 h => ?_
  · rcases hs a ha ht.2.1 with la | ⟨na, ta⟩
    · exact leaf_asymm la (leaf hb ht la) ht h
    · rw [hl a b ha hb ht na] at h
      rw [hl b a hb ha ht.symm (by rw [← ht.2.2.2]; exact na)]
      exact (hk _).asymm ta (other hb ht na) h
  · have h3 : Tie a d := ⟨h1.1.trans h2.1, h1.2.1, h2.2.2.1, h1.2.2.2.trans h2.2.2.2⟩
    rcases hs a ha h1.2.1 with la | ⟨na, ta⟩
    · exact leaf_cotrans la (leaf hb h1 la) (leaf hd h3 la) h1 h2 h
    · rw [hl a d ha hd h3 na] at h
      rw [hl a b ha hb h1 na, hl b d hb hd h2 (by rw [← h1.2.2.2]; exact na)]
      exact (hk _).cotrans ta (other hb h1 na) (other hd h3 na) h

theorem lt_subject {s p q : Term} {c : Copula} (gs : Good s) (gp : Good p) (gq : Good q)
    (ht : Tie (mkStmt s c p) (mkStmt s c q)) : lt (mkStmt s c p) (mkStmt s c q) = lt p q := by
  obtain ⟨y, hy⟩ := lt_defined gp gq
  rw [hy]
  exact (lt_tie ht (lt_irrefl gs) hy).trans (by simp)

theorem lt_predicate {s u p : Term} {c : Copula} (gs : Good s) (gu : Good u) (gp : Good p)
    (ht : Tie (mkStmt s c p) (mkStmt u c p)) : lt (mkStmt s c p) (mkStmt u c p) = lt s u := by
  obtain ⟨y, hy⟩ := lt_defined gs gu
  rw [hy]
  exact (lt_tie ht hy (lt_irrefl gp)).trans (by simp)

theorem ltAny_hole {p q : Term} : ∀ {pre post : List Term}, (∀ t ∈ pre, Good t) → (∀ t ∈ post, Good t) → Good p → Good q →
    ltAny (pre ++ p :: post) (pre ++ q :: post) = lt p q
  | [], post, _, g2, gp, gq => by
    obtain ⟨y, hy⟩ := lt_defined gp gq
    have := ltAny_self (ts := post) fun t ht => lt_irrefl (g2 t ht)
    simp only [List.nil_append, ltAny, hy, Res.ok_bind, this]
    cases y <;> rfl
  | t :: pre, post, g1, g2, gp, gq => by
    have := ltAny_hole (pre := pre) (fun t ht => g1 t (List.mem_cons_of_mem _ ht)) g2 gp gq
    simp only [List.cons_append, ltAny, lt_irrefl (g1 t List.mem_cons_self), Res.ok_bind, this]
    rfl

theorem lt_hole {c : Connector} {pre post : List Term} {p q : Term} (g1 : ∀ t ∈ pre, Good t) (g2 : ∀ t ∈ post, Good t)
    (gp : Good p) (gq : Good q) (ht : Tie (finishComp c (pre ++ p :: post)) (finishComp c (pre ++ q :: post))) :
    lt (finishComp c (pre ++ p :: post)) (finishComp c (pre ++ q :: post)) = lt p q := by
  rw [lt_comp, ltHead_tie ht]
  simp only [finishComp, List.length_append, List.length_cons, ne_eq, not_true_eq_false, if_false]
  exact ltAny_hole g1 g2 gp gq

end Cnars
