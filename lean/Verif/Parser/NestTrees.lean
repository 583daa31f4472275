import Verif.Parser.Height

/-!
# Exact bounds between the height of a tree and the nesting of its syntax tree

`height_depth` is a linear bound.  Here the bounds are tables, per height or nesting and symbol; an entry 0 says that there are
no such trees.
-/

namespace Cnars.Parser
open Cnars

/-! ### The deepest nesting for a height -/

/-- There are trees for all symbols of a list, the first of them within the height, the next within one less, and so on. -/
def fitting (F : Nat → Nat → Nat) : Nat → List Nat → Bool
  | _, [] => true
  | h, X :: Xs => decide (1 ≤ F h X) && fitting F (h - 1) Xs

/-- The bounds of all symbols of a list, increased by `e`, are within `K`. -/
def shallow (F : Nat → Nat → Nat) (e K : Nat) : Nat → List Nat → Bool
  | _, [] => true
  | h, X :: Xs => decide (e + F h X ≤ K) && shallow F e K (h - 1) Xs

/-- The bounds for a height respect the terminals and the productions. -/
def deepRow (T : Tables) (F : Nat → Nat → Nat) (n h : Nat) : Bool :=
  (List.range n).all (fun s => decide ((if symEmit T s = .none then 1 else 2) ≤ F h s)) &&
    (List.range T.prods.length).all fun p =>
      !fitting F h (rhsOf T p) ||
        (decide ((if prodEmit T p = .none then 1 else 2) ≤ F h (lhsOf T p)) &&
          shallow F (if prodEmit T p = .none then 0 else 1) (F h (lhsOf T p)) h (rhsOf T p))

theorem fitting_of {T : Tables} {F : Nat → Nat → Nat} {B H : Nat} (hB : H ≤ B) : ∀ (cs : List PTree) (i : Nat),
    (∀ c ∈ cs, ∀ h ≤ B, c.height ≤ h → Ast.depths (c.ast T) + 1 ≤ F h (c.root T)) →
    PTree.heights i cs ≤ H → fitting F (H - i) (cs.map (PTree.root T)) = true
  | [], _, _, _ => rfl
  | c :: cs, i, h1, h2 => by
    simp only [PTree.heights] at h2
    have hc := h1 c (by simp) (H - i) (by omega) (by omega)
    have ih := fitting_of hB cs (i + 1) (fun x hx => h1 x (by simp [hx])) (by omega)
    simp only [List.map_cons, fitting, Bool.and_eq_true, decide_eq_true_eq]
    exact ⟨by omega, by rw [Nat.sub_sub]; exact ih⟩

theorem shallow_le {T : Tables} {F : Nat → Nat → Nat} {B H e K : Nat} (hB : H ≤ B) (he : e + 1 ≤ K) :
    ∀ (cs : List PTree) (i : Nat),
    (∀ c ∈ cs, ∀ h ≤ B, c.height ≤ h → Ast.depths (c.ast T) + 1 ≤ F h (c.root T)) →
    PTree.heights i cs ≤ H → shallow F e K (H - i) (cs.map (PTree.root T)) = true →
    e + Ast.depths (PTree.asts T cs) + 1 ≤ K
  | [], _, _, _, _ => by simp only [PTree.asts, Ast.depths]; omega
  | c :: cs, i, h1, h2, h3 => by
    simp only [PTree.heights] at h2
    have hc := h1 c (by simp) (H - i) (by omega) (by omega)
    simp only [List.map_cons, shallow, Bool.and_eq_true, decide_eq_true_eq] at h3
    have ih := shallow_le hB he cs (i + 1) (fun x hx => h1 x (by simp [hx])) (by omega)
      (by rw [← Nat.sub_sub]; exact h3.2)
    simp only [PTree.asts, Ast.depths_append]
    omega

/-- A tree of height at most `h` is nested less deep than the table says. -/
theorem nested_lt {T : Tables} {F : Nat → Nat → Nat} {n B : Nat} (hF : ∀ h < B, deepRow T F n (h + 1) = true)
    {P : Nat → List WChar → Prop} (hP : ∀ s w, P s w → s < n) {t : PTree} (hv : t.Valid T P) :
    ∀ h ≤ B, t.height ≤ h → Ast.depths (t.ast T) + 1 ≤ F h (t.root T) := by
  induction hv with
  | @leaf s w hs =>
    intro h hB hh
    simp only [PTree.height] at hh
    obtain ⟨h, rfl⟩ : ∃ k, h = k + 1 := ⟨h - 1, by omega⟩
    have h1 := hF h (by omega)
    simp only [deepRow, Bool.and_eq_true, List.all_eq_true, List.mem_range, decide_eq_true_eq] at h1
    have h2 := h1.1 s (hP s w hs)
    simp only [PTree.ast, PTree.root, leafNodes]
    split at h2
    · rename_i he
      rw [if_pos he]
      simpa [Ast.depths] using h2
    · rename_i he
      rw [if_neg he]
      simpa [Ast.depths, Ast.depth] using h2
  | @node p cs hp hr hc ih =>
    intro h hB hh
    simp only [PTree.height] at hh
    obtain ⟨h, rfl⟩ : ∃ k, h = k + 1 := ⟨h - 1, by omega⟩
    have h1 := hF h (by omega)
    simp only [deepRow, Bool.and_eq_true, List.all_eq_true, List.mem_range] at h1
    have h2 := h1.2 p hp
    have hf := fitting_of (T := T) (F := F) hB cs 0 ih (by omega)
    rw [hr, show fitting F (h + 1) (cs.map (PTree.root T)) = true from hf] at h2
    simp only [Bool.not_true, Bool.false_or, Bool.and_eq_true, decide_eq_true_eq] at h2
    simp only [PTree.ast, PTree.root, wrapNodes]
    by_cases he : prodEmit T p = .none
    · simp only [if_pos he] at h2 ⊢
      have := shallow_le (T := T) (F := F) (e := 0) hB h2.1 cs 0 ih (by omega) h2.2
      omega
    · simp only [if_neg he] at h2 ⊢
      have := shallow_le (T := T) (F := F) (e := 1) hB h2.1 cs 0 ih (by omega) h2.2
      simp only [Ast.depths, Ast.depth, Nat.max_zero]
      omega

/-! ### The greatest height for a nesting -/

/-- There are trees for all symbols of a list. -/
def possible (G : Nat → Nat) : List Nat → Bool
  | [] => true
  | X :: Xs => decide (1 ≤ G X) && possible G Xs

/-- The bounds of all symbols of a list, increased by their position, are within `K`. -/
def lowRow (G : Nat → Nat) (K : Nat) : Nat → List Nat → Bool
  | _, [] => true
  | i, X :: Xs => decide (i + G X ≤ K) && lowRow G K (i + 1) Xs

/-- The bounds for a nesting respect the terminals and the productions. -/
def highRow (T : Tables) (G : Nat → Nat → Nat) (n d : Nat) : Bool :=
  (List.range n).all (fun s => (decide (symEmit T s ≠ .none) && decide (d = 0)) || decide (2 ≤ G d s)) &&
    (List.range T.prods.length).all fun p =>
      if prodEmit T p = .none then
        !possible (G d) (rhsOf T p) || (decide (2 ≤ G d (lhsOf T p)) && lowRow (G d) (G d (lhsOf T p)) 0 (rhsOf T p))
      else
        decide (d = 0) || !possible (G (d - 1)) (rhsOf T p) ||
          (decide (2 ≤ G d (lhsOf T p)) && lowRow (G (d - 1)) (G d (lhsOf T p)) 0 (rhsOf T p))

theorem possible_of {T : Tables} {G : Nat → Nat} {d : Nat} : ∀ (cs : List PTree),
    (∀ c ∈ cs, Ast.depths (c.ast T) ≤ d → c.height + 1 ≤ G (c.root T)) →
    Ast.depths (PTree.asts T cs) ≤ d → possible G (cs.map (PTree.root T)) = true
  | [], _, _ => rfl
  | c :: cs, h1, h2 => by
    simp only [PTree.asts, Ast.depths_append] at h2
    have hc := h1 c (by simp) (by omega)
    have ih := possible_of cs (fun x hx => h1 x (by simp [hx])) (by omega)
    simp only [List.map_cons, possible, Bool.and_eq_true, decide_eq_true_eq]
    exact ⟨by omega, ih⟩

theorem lowRow_le {T : Tables} {G : Nat → Nat} {d K : Nat} (hK : 1 ≤ K) : ∀ (cs : List PTree) (i : Nat),
    (∀ c ∈ cs, Ast.depths (c.ast T) ≤ d → c.height + 1 ≤ G (c.root T)) →
    Ast.depths (PTree.asts T cs) ≤ d → lowRow G K i (cs.map (PTree.root T)) = true → PTree.heights i cs + 1 ≤ K
  | [], _, _, _, _ => by simp only [PTree.heights]; omega
  | c :: cs, i, h1, h2, h3 => by
    simp only [PTree.asts, Ast.depths_append] at h2
    have hc := h1 c (by simp) (by omega)
    simp only [List.map_cons, lowRow, Bool.and_eq_true, decide_eq_true_eq] at h3
    have ih := lowRow_le hK cs (i + 1) (fun x hx => h1 x (by simp [hx])) (by omega) h3.2
    simp only [PTree.heights]
    omega

/-- A tree nested at most `d` deep is lower than the table says. -/
theorem height_lt {T : Tables} {G : Nat → Nat → Nat} {n B : Nat} (hG : ∀ d < B, highRow T G n d = true)
    {P : Nat → List WChar → Prop} (hP : ∀ s w, P s w → s < n) {t : PTree} (hv : t.Valid T P) :
    ∀ d < B, Ast.depths (t.ast T) ≤ d → t.height + 1 ≤ G d (t.root T) := by
  induction hv with
  | @leaf s w hs =>
    intro d hB hd
    have h1 := hG d hB
    simp only [highRow, Bool.and_eq_true, List.all_eq_true, List.mem_range] at h1
    have h2 := h1.1 s (hP s w hs)
    simp only [Bool.or_eq_true, Bool.and_eq_true, decide_eq_true_eq] at h2
    simp only [PTree.ast, leafNodes] at hd
    simp only [PTree.height, PTree.root]
    rcases h2 with ⟨h2, h3⟩ | h2
    · rw [if_neg h2] at hd
      simp only [Ast.depths, Ast.depth] at hd
      omega
    · exact h2
  | @node p cs hp hr hc ih =>
    intro d hB hd
    have h1 := hG d hB
    simp only [highRow, Bool.and_eq_true, List.all_eq_true, List.mem_range] at h1
    have h2 := h1.2 p hp
    simp only [PTree.ast, wrapNodes] at hd
    simp only [PTree.height, PTree.root]
    by_cases he : prodEmit T p = .none
    · rw [if_pos he] at hd h2
      have ih' := fun c hc => ih c hc d hB
      rw [hr, possible_of cs ih' hd] at h2
      simp only [Bool.not_true, Bool.false_or, Bool.and_eq_true, decide_eq_true_eq] at h2
      have := lowRow_le (by omega) cs 0 ih' hd h2.2
      omega
    · rw [if_neg he] at hd h2
      simp only [Ast.depths, Ast.depth, Nat.max_zero] at hd
      have ih' := fun c hc => ih c hc (d - 1) (by omega)
      rw [hr, possible_of cs ih' (by omega)] at h2
      simp only [Bool.not_true, Bool.or_false, Bool.or_eq_true, Bool.and_eq_true, decide_eq_true_eq] at h2
      rcases h2 with h2 | h2
      · omega
      · have := lowRow_le (by omega) cs 0 ih' (by omega) h2.2
        omega

end Cnars.Parser
