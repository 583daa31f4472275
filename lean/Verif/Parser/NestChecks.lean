import Verif.Parser.NestTrees
import Verif.Parser.NestCerts
import Verif.Parser.EbnfChecks

/-!
# The tables of `NestCerts.lean` respect the grammar
-/

namespace Cnars.Parser
open Cnars

/-- Entry number `X` of a packed row. -/
def packed (row X : Nat) : Nat := (row >>> (10 * X)) % 1024

/-- The deepest nesting for a height: nine rows, then linear. -/
def deepestAt (h X : Nat) : Nat :=
  if h < 9 then packed ((deepestRows[h]?).getD 0) X
  else packed ((deepestRows[8]?).getD 0) X + (h - 8) * packed deepestInc X

/-- The greatest height for a nesting: eight rows, then linear with period two. -/
def highestAt (d X : Nat) : Nat :=
  if d < 8 then packed ((highestRows[d]?).getD 0) X
  else packed ((highestRows[6 + d % 2]?).getD 0) X + (d / 2 - 3) * packed highestInc X

theorem narsese_deepest : ∀ h < 127, deepRow narsese deepestAt 59 (h + 1) = true := by
  decide +kernel

theorem narsese_highest : ∀ d < 45, highRow narsese highestAt 59 d = true := by
  decide +kernel

theorem lexTok_lt_59 {s : Nat} {w : List WChar} (h : LexTok narsese s w) : s < 59 := by
  obtain ⟨r, hr, _⟩ := lexTok_matches h
  rcases Nat.lt_or_ge s 59 with h' | h'
  · exact h'
  · rw [List.getElem?_eq_none (by
      have : tokTable.length = 59 := by decide +kernel
      omega)] at hr
    simp at hr

/-- Trees of height at most 127 are nested at most 371 deep. -/
theorem nested_of_height {t : PTree} (hv : t.Valid narsese (LexTok narsese)) (hr : t.root narsese = goalSym)
    (hh : t.height ≤ 127) : Ast.depths (t.ast narsese) ≤ 371 := by
  have h := nested_lt narsese_deepest (fun _ _ => lexTok_lt_59) hv 127 (Nat.le_refl _) hh
  have h2 : deepestAt 127 goalSym = 372 := by decide +kernel
  rw [hr, h2] at h
  omega

/-- Trees nested at most 44 deep have height at most 127. -/
theorem height_of_nested {t : PTree} (hv : t.Valid narsese (LexTok narsese)) (hr : t.root narsese = goalSym)
    (hd : Ast.depths (t.ast narsese) ≤ 44) : t.height ≤ 127 := by
  have h := height_lt narsese_highest (fun _ _ => lexTok_lt_59) hv 44 (by omega) hd
  have h2 : highestAt 44 goalSym = 128 := by decide +kernel
  rw [hr, h2] at h
  omega

end Cnars.Parser
