import Mathlib.Data.Int.Order.Basic
import Mathlib.Data.Finset.Card
import Verif.Base.Hash

/-!
# `_normalize` (utils/IndexVar.cpp:17-33)
-/

namespace Cnars

/-- Insertion into a `std::set<int>`, as the ascending list of its elements. -/
def insInt (x : Int) : List Int → List Int
  | [] => [x]
  | y :: ys => if x < y then x :: y :: ys else if x = y then y :: ys else y :: insInt x ys

/-- `std::set<int> p1(variables.begin(), variables.end())` and its listing `p2`
(IndexVar.cpp:19-20). -/
def distinctSorted (l : List Int) : List Int := l.foldl (fun s x => insInt x s) []

/-- `_normalize` (IndexVar.cpp:17-33): `mapping` sends the `i`-th smallest value to `i`.  The
position `i` is converted to `int`; here it is a natural number, i.e. fewer than 2^31 distinct
indices are assumed. -/
def normalize (l : List Int) : List Int := l.map (fun x => ((distinctSorted l).idxOf x : Int))

theorem mem_insInt {x y : Int} {l : List Int} : y ∈ insInt x l ↔ y = x ∨ y ∈ l := by
  induction l with
  | nil => simp [insInt]
  | cons z zs ih =>
    unfold insInt
    split
    · simp
    · split
      · next h => subst h; simp
      · simp [ih]; tauto

theorem sorted_insInt {x : Int} {l : List Int} (h : l.Pairwise (· < ·)) :
    (insInt x l).Pairwise (· < ·) := by
  induction l with
  | nil => simp [insInt]
  | cons z zs ih =>
    rw [List.pairwise_cons] at h
    unfold insInt
    split
    · next hx =>
      refine List.pairwise_cons.2 ⟨?_, List.pairwise_cons.2 h⟩
      intro y hy
      rcases List.mem_cons.1 hy with rfl | hy
      · exact hx
      · exact lt_trans hx (h.1 y hy)
    · split
      · exact List.pairwise_cons.2 h
      · refine List.pairwise_cons.2 ⟨?_, ih h.2⟩
        intro y hy
        rcases mem_insInt.1 hy with rfl | hy
        · omega
        · exact h.1 y hy

theorem foldl_ins (l s : List Int) (hs : s.Pairwise (· < ·)) :
    (l.foldl (fun s x => insInt x s) s).Pairwise (· < ·) ∧
    ∀ y, y ∈ l.foldl (fun s x => insInt x s) s ↔ y ∈ l ∨ y ∈ s := by
  induction l generalizing s with
  | nil => simp [hs]
  | cons x xs ih =>
    obtain ⟨a, b⟩ := ih (insInt x s) (sorted_insInt hs)
    refine ⟨a, fun y => ?_⟩
    rw [List.foldl_cons, b, mem_insInt, List.mem_cons]; tauto

theorem sorted_distinctSorted (l : List Int) : (distinctSorted l).Pairwise (· < ·) :=
  (foldl_ins l [] .nil).1

theorem mem_distinctSorted (l : List Int) (y : Int) : y ∈ distinctSorted l ↔ y ∈ l := by
  simpa [distinctSorted] using (foldl_ins l [] .nil).2 y

/-- In an ascending list, positions are ordered like the values. -/
theorem idxOf_lt_iff {s : List Int} (hs : s.Pairwise (· < ·)) {x y : Int} (hx : x ∈ s) (hy : y ∈ s) :
    s.idxOf x < s.idxOf y ↔ x < y := by
  have key : ∀ {x y : Int}, x ∈ s → y ∈ s → s.idxOf x < s.idxOf y → x < y := by
    intro x y hx hy h
    have h2 := List.pairwise_iff_getElem.1 hs _ _ (List.idxOf_lt_length_of_mem hx)
      (List.idxOf_lt_length_of_mem hy) h
    simpa using h2
  refine ⟨key hx hy, fun h => ?_⟩
  by_contra hn
  rcases Nat.lt_or_ge (s.idxOf y) (s.idxOf x) with h2 | h2
  · have := key hy hx h2; omega
  · have he : s.idxOf x = s.idxOf y := by omega
    have := (List.idxOf_inj hx).1 he
    omega

end Cnars
