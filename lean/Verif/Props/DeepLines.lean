import Verif.Props.Complete
import Verif.Props.TooDeep

/-!
# Which deeply nested lines of Narsese are accepted (C74)
-/

namespace Cnars.Props
open Cnars Cnars.Parser

/-- C74: with the memory there is, exactly the lines of Narsese are accepted as far as they are nested at most 44 deep and have
short tokens; 44 is the best bound (`C46_nested_counterexample`). -/
theorem C74_nested_44_partial {b : Buf} (hb : Reached b) {d : Nat} (hd : d < 3) {text : List WChar}
    (h9 : (9 : WChar) ∉ firstLine text) (hc : ∀ c ∈ text, c ≤ 127)
    (hs : ShortTokens (firstLine text)) {fuel : Nat} (hf : 24 * (firstLine text).length + 6 ≤ fuel)
    {a : List Ast} (hn : Ast.depths a ≤ 44) :
    (∃ scan, parseText true fuel b text d = .ok ⟨some a, 0, scan⟩) ↔
      IsNarsese (firstLine text) a ∧ Ast.meantAll a = true := by
  rw [← C74_exact_partial hb hd h9 hf a]
  constructor
  · rintro ⟨scan, h⟩
    exact strict_accepted h
  · rintro ⟨scan, h⟩
    exact ⟨scan, C46_nested_44_partial hb hd hc hs h rfl hn⟩

/-- C74 fails for all deep lines: no line of Narsese that is nested more than 371 deep is accepted, or even rejected; the
behaviour is undefined. -/
theorem C74_too_deep_partial {b : Buf} (hb : Reached b) {d : Nat} (hd : d < 3) {text : List WChar}
    (h9 : (9 : WChar) ∉ firstLine text) (hc : ∀ c ∈ text, c ≤ 127)
    (hs : ShortTokens (firstLine text)) {fuel : Nat} (hf : 24 * (firstLine text).length + 6 ≤ fuel)
    {a : List Ast} (ha : IsNarsese (firstLine text) a) (hm : Ast.meantAll a = true) (hn : 371 < Ast.depths a) :
    parseText true fuel b text d = .ub := by
  obtain ⟨scan, h⟩ := (C74_exact_partial hb hd h9 hf a).mpr ⟨ha, hm⟩
  exact C46_too_deep_partial hb hd hc hs h rfl hn

/-- The hypotheses of `C74_too_deep_partial` are met. -/
example : ∃ a, IsNarsese (firstLine (flatText 122)) a ∧ 371 < Ast.depths a ∧ (9 : WChar) ∉ firstLine (flatText 122) := by
  have h : 371 < nesting? (parseText false 12000 freshBuf (flatText 122) 0) := by decide +kernel
  unfold nesting? at h
  split at h
  · rename_i p hp
    split at h
    · rename_i a ha
      exact ⟨a, C43_tree .fresh (by omega) hp ha, h, by decide +kernel⟩
    · omega
  · omega

end Cnars.Props
