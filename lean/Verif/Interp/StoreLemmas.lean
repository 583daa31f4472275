import Verif.Interp.Store

/-!
# What the dictionary operations do to each map
-/

namespace Cnars
variable {P : Type}

theorem checkCount_dict (s : Store P) (k : Key) : (s.checkCount k).2.dict = s.dict := by
  unfold Store.checkCount; split <;> (try split) <;> rfl
theorem checkCount_inv (s : Store P) (k : Key) : (s.checkCount k).2.inv = s.inv := by
  unfold Store.checkCount; split <;> (try split) <;> rfl
theorem checkCount_objs (s : Store P) (k : Key) : (s.checkCount k).2.objs = s.objs := by
  unfold Store.checkCount; split <;> (try split) <;> rfl

theorem put_dict (s : Store P) (k : Key) (n : String) (p : Option P) :
    (s.put k n p).dict = s.dict.set k n := checkCount_dict _ k
theorem put_inv (s : Store P) (k : Key) (n : String) (p : Option P) :
    (s.put k n p).inv = s.inv.set n k := checkCount_inv _ k
theorem put_objs (s : Store P) (k : Key) (n : String) (p : Option P) :
    (s.put k n p).objs = s.objs.set k p := checkCount_objs _ k

theorem remove_dict (s : Store P) (k : Key) : (s.remove k).2.dict = s.dict.erase k := by
  unfold Store.remove Store.startRemove
  cases h : s.dict k with
  | none => funext x; by_cases hx : x = k <;> simp [Map.erase_apply, hx, h]
  | some n => cases h2 : s.objs k <;> rfl
theorem remove_inv (s : Store P) (k : Key) : (s.remove k).2.inv =
    match s.dict k with | none => s.inv | some n => s.inv.erase n := by
  unfold Store.remove Store.startRemove
  cases h : s.dict k with
  | none => rfl
  | some n =>
    have : (if (s.inv n).isSome then s.inv.erase n else s.inv) = s.inv.erase n := by
      split
      · rfl
      · next hn =>
        funext x
        by_cases hx : x = n
        · subst hx; simp at hn; simp [hn]
        · simp [Map.erase_ne _ hx]
    cases h2 : s.objs k <;> simp [Store.finishRemove, this]

theorem checkCount_count (s : Store P) (k j : Key) :
    (s.checkCount k).2.count j = if j = k ∧ s.count k = some 0 then none else s.count j := by
  unfold Store.checkCount
  split
  · next h => simp [h]
  · next c h =>
    by_cases hc : c = 0
    · subst hc
      by_cases hj : j = k
      · simp [hj, h]
      · simp [hj, Map.erase_ne _ hj]
    · simp [hc, h]

theorem remove_count (s : Store P) (k j : Key) (h : j ≠ k) : (s.remove k).2.count j = s.count j := by
  unfold Store.remove Store.startRemove
  cases h1 : s.dict k with
  | none => rfl
  | some n => cases h2 : s.objs k <;> simp [Store.finishRemove, Map.erase_apply, h]

end Cnars
