import Verif.Props.Openings
import Verif.Parser.Tokens

/-!
# C74, C75: what the parser accepts
-/

namespace Cnars.Props
open Cnars Parser

/-- What the driver accepts with its memory it accepts with unlimited memory. -/
theorem strict_accepted {fuel : Nat} {b : Buf} {text : List WChar} {d : Nat} {a : List Ast} {len : Nat}
    {scan : Scan} (h : parseText true fuel b text d = .ok ⟨some a, len, scan⟩) :
    ∃ scan, parseText false fuel b text d = .ok ⟨some a, len, scan⟩ := by
  rcases strict_cases (T := narsese) fuel ⟨b, fill text, false⟩ d with h2 | h2
  · unfold parseText at h
    rw [h2] at h
    cases h
  · unfold parseText at h ⊢
    rw [h] at h2
    cases h3 : parse narsese false fuel ⟨b, fill text, false⟩ d with
    | ok r =>
      rw [h3] at h2
      obtain ⟨h4, h5, _⟩ := h2
      obtain ⟨ast, len, sc⟩ := r
      dsimp only at h4 h5
      subst h4 h5
      exact ⟨sc, rfl⟩
    | throw m => rw [h3] at h2; simp [Res.Rel] at h2
    | ub => rw [h3] at h2; simp [Res.Rel] at h2
    | outOfFuel => rw [h3] at h2; simp [Res.Rel] at h2

/-! ### C74 -/

/-- C74: the parser (with unlimited memory) accepts a line without tabs, with a given syntax tree, when
and only when that is a derivation tree of narsese.par in which a statement as content of a sentence is
not read as a term, and `(^op, …)` not as a product.  Missing: lines with tabs, where the claim fails
(`C74_tab_counterexample`), and the memory the parser really has (C46; `C74_short_partial`). -/
theorem C74_exact_partial {b : Buf} (hb : Reached b) {d : Nat} (hd : d < 3) {text : List WChar}
    (h9 : (9 : WChar) ∉ firstLine text) {fuel : Nat}
    (hf : 24 * (firstLine text).length + 6 ≤ fuel) (a : List Ast) :
    (∃ scan, parseText false fuel b text d = .ok ⟨some a, 0, scan⟩) ↔
      IsNarsese (firstLine text) a ∧ Ast.meantAll a = true :=
  parseText_iff hb.empty hd hf h9 a

/-- C74: every line of Narsese without tabs is accepted. -/
theorem C74_accepts_partial {b : Buf} (hb : Reached b) {d : Nat} (hd : d < 3) {text : List WChar}
    (h9 : (9 : WChar) ∉ firstLine text) {fuel : Nat}
    (hf : 24 * (firstLine text).length + 6 ≤ fuel) {a : List Ast}
    (h : IsNarsese (firstLine text) a) :
    ∃ r, parseText false fuel b text d = .ok r ∧ r.ast ≠ none := by
  obtain ⟨a', scan, h⟩ := parseText_accepts hb.empty hd hf h9 h
  exact ⟨_, h, by simp⟩

/-- C74: every line of Narsese of at most 121 characters, without tabs, is accepted with the memory
there is. -/
theorem C74_short_partial {b : Buf} (hb : Reached b) {d : Nat} (hd : d < 3) {text : List WChar}
    (h9 : (9 : WChar) ∉ firstLine text) (hc : ∀ c ∈ text, c ≤ 127)
    (hl : (firstLine text).length ≤ 121) {fuel : Nat}
    (hf : 24 * (firstLine text).length + 6 ≤ fuel) (a : List Ast) :
    (∃ scan, parseText true fuel b text d = .ok ⟨some a, 0, scan⟩) ↔
      IsNarsese (firstLine text) a ∧ Ast.meantAll a = true := by
  rw [← C74_exact_partial hb hd h9 hf a]
  constructor
  · rintro ⟨scan, h⟩
    exact strict_accepted h
  · rintro ⟨scan, h⟩
    exact ⟨scan, C46_short_accepted_partial hb hd hc hl h (by simp)⟩

/-- C74: so is, with the memory there is, every line of Narsese of any length with few opening
characters and short tokens; and no other such line is. -/
theorem C74_modest_partial {b : Buf} (hb : Reached b) {d : Nat} (hd : d < 3) {text : List WChar}
    (h9 : (9 : WChar) ∉ firstLine text) (hc : ∀ c ∈ text, c ≤ 127) (hm : Modest (firstLine text))
    {fuel : Nat} (hf : 24 * (firstLine text).length + 6 ≤ fuel) (a : List Ast) :
    (∃ scan, parseText true fuel b text d = .ok ⟨some a, 0, scan⟩) ↔
      IsNarsese (firstLine text) a ∧ Ast.meantAll a = true := by
  rw [← C74_exact_partial hb hd h9 hf a]
  constructor
  · rintro ⟨scan, h⟩
    exact strict_accepted h
  · rintro ⟨scan, h⟩
    rcases C46_modest_partial hb hd hc hm fuel with h1 | ⟨_, r, h1, h2⟩
    · exact ⟨scan, h1.trans h⟩
    · have := parseText_mono (k := 24 * (firstLine text).length + 6) h
      rw [← Nat.add_assoc, h1] at this
      cases this
      simp at h2

/-- C74: so is, with the memory there is, every line of Narsese of any length that is nested at most 41
deep and has short tokens. -/
theorem C74_nested_partial {b : Buf} (hb : Reached b) {d : Nat} (hd : d < 3) {text : List WChar}
    (h9 : (9 : WChar) ∉ firstLine text) (hc : ∀ c ∈ text, c ≤ 127)
    (hs : ShortTokens (firstLine text)) {fuel : Nat} (hf : 24 * (firstLine text).length + 6 ≤ fuel)
    {a : List Ast} (hn : Ast.depths a ≤ 41) :
    (∃ scan, parseText true fuel b text d = .ok ⟨some a, 0, scan⟩) ↔
      IsNarsese (firstLine text) a ∧ Ast.meantAll a = true := by
  rw [← C74_exact_partial hb hd h9 hf a]
  constructor
  · rintro ⟨scan, h⟩
    exact strict_accepted h
  · rintro ⟨scan, h⟩
    exact ⟨scan, C46_nested_accepted_partial hb hd hc hs h rfl hn⟩

/-- C74: the readings of a line are told apart: a line of Narsese without tabs has exactly one
derivation tree of the kind the parser builds. -/
theorem C74_unambiguous {line : List WChar} (h9 : (9 : WChar) ∉ line) (h10 : firstLine line = line)
    {a : List Ast} (h : IsNarsese line a) :
    ∃ a', (IsNarsese line a' ∧ Ast.meantAll a' = true) ∧
      ∀ a'', IsNarsese line a'' ∧ Ast.meantAll a'' = true → a'' = a' := by
  rw [← h10] at h h9 ⊢
  obtain ⟨a', scan, hp⟩ := parseText_accepts (d := 0) Reached.fresh.empty (by omega)
    (Nat.le_refl _) h9 h
  refine ⟨a', (parseText_iff Reached.fresh.empty (by omega) (Nat.le_refl _) h9 a').mp ⟨scan, hp⟩, ?_⟩
  intro a'' h''
  obtain ⟨scan', hp'⟩ := (parseText_iff (d := 0) Reached.fresh.empty (by omega) (Nat.le_refl _) h9
    a'').mpr h''
  rw [hp] at hp'
  simp only [Res.ok.injEq, Parsed.mk.injEq, Option.some.injEq] at hp'
  exact hp'.1.symm

/-- `<A --> B>.` -/
def plainText : List WChar := bytes ['<', 'A', ' ', '-', '-', '>', ' ', 'B', '>', '.']

theorem plainText_narsese : ∃ a, IsNarsese plainText a ∧ Ast.meantAll a = true := by
  have h : accepted? (parseText false 1000 freshBuf plainText 0) = true := by decide +kernel
  unfold accepted? at h
  split at h
  · rename_i p hp
    obtain ⟨a, ha⟩ := Option.isSome_iff_exists.mp h
    have hf : firstLine plainText = plainText := by decide
    obtain ⟨b, h1, h2⟩ := C74_unambiguous (line := plainText) (by decide) hf
      (hf ▸ C43_tree .fresh (by omega) hp ha)
    exact ⟨b, h1⟩
  · simp at h

example : ∃ a, IsNarsese (firstLine sampleText) a ∧ (9 : WChar) ∉ firstLine sampleText ∧
    (∀ c ∈ sampleText, c ≤ 127) ∧ (firstLine sampleText).length ≤ 121 := by
  have h := sampleText_accepted
  unfold accepted? at h
  split at h
  · rename_i p hp
    obtain ⟨a, ha⟩ := Option.isSome_iff_exists.mp h
    exact ⟨a, C43_tree .fresh (by omega) hp ha, by decide, by decide, by decide⟩
  · simp at h

/-- A line of 142 characters with 14 parentheses. -/
example : ∃ a, IsNarsese (firstLine (parenText 14 14)) a ∧ (9 : WChar) ∉ firstLine (parenText 14 14) ∧
    (∀ c ∈ parenText 14 14, c ≤ 127) ∧ Modest (firstLine (parenText 14 14)) ∧
    121 < (firstLine (parenText 14 14)).length := by
  have h : accepted? (parseText false 4000 freshBuf (parenText 14 14) 0) = true := by decide +kernel
  unfold accepted? at h
  split at h
  · rename_i p hp
    obtain ⟨a, ha⟩ := Option.isSome_iff_exists.mp h
    exact ⟨a, C43_tree .fresh (by omega) hp ha, by decide +kernel, by decide +kernel,
      .inr ⟨shortTokens_of_runsOk (by decide +kernel) (by decide +kernel), by decide +kernel⟩,
      by decide +kernel⟩
  · simp at h

/-- The wide line is accepted with its 302 characters, by the driver as it is. -/
example : ∃ a scan, IsNarsese (firstLine wideText) a ∧
    parseText true 8000 freshBuf wideText 0 = .ok ⟨some a, 0, scan⟩ := by
  have h : accepted? (parseText false 8000 freshBuf wideText 0) = true := by decide +kernel
  have hn : nesting? (parseText false 8000 freshBuf wideText 0) = 6 := by decide +kernel
  unfold accepted? at h
  split at h
  · rename_i p hp
    obtain ⟨a, ha⟩ := Option.isSome_iff_exists.mp h
    have hn' : Ast.depths a ≤ 41 := by
      simp only [nesting?, hp, ha] at hn
      omega
    have h9 : (9 : WChar) ∉ firstLine wideText := by decide +kernel
    have hs : ShortTokens (firstLine wideText) :=
      shortTokens_of_runsOk (by decide +kernel) (by decide +kernel)
    have h5 := C46_nested_accepted_partial .fresh (by omega) (by decide +kernel) hs hp ha hn'
    obtain ⟨ast, len, scan⟩ := p
    obtain rfl : ast = some a := ha
    obtain rfl : len = 0 := by
      have h6 := C43_tree .fresh (by omega) hp rfl
      obtain ⟨a', scan', h7⟩ := parseText_accepts (fuel := 8000) (d := 0) Reached.fresh.empty
        (by omega) (by decide +kernel) h9 h6
      rw [hp] at h7
      simp only [Res.ok.injEq, Parsed.mk.injEq] at h7
      exact h7.2.1
    have h7 := (C74_exact_partial (d := 0) (fuel := 8000) .fresh (by omega) h9 (by decide +kernel) a).mp ⟨scan, hp⟩
    obtain ⟨scan', h8⟩ := (C74_nested_partial (d := 0) (fuel := 8000) .fresh (by omega) h9
      (by decide +kernel) hs (by decide +kernel) hn').mpr h7
    exact ⟨a, scan', h7.1, h8⟩
  · simp at h

/-- C74 is false with tabs: `<A --> B>.` after a tab is a line of Narsese, since narsese.par:10 makes
the tab a blank, but it is rejected, since `string_raw` (narsese.par:158) does not exclude the tab and
the lexer takes the longest token. -/
theorem C74_tab_counterexample :
    (∃ a, IsNarsese (firstLine (9 :: plainText)) a ∧ Ast.meantAll a = true) ∧
      rejected? (parseText false 1000 freshBuf (9 :: plainText) 0) = true := by
  refine ⟨?_, by decide +kernel⟩
  obtain ⟨a, h, hm⟩ := plainText_narsese
  have : firstLine (9 :: plainText) = [9] ++ plainText := by decide
  rw [this]
  exact ⟨a, h.indent (by simp [IsBlank]), hm⟩

/-! ### C75 -/

/-- C75: blanks before the line and between its tokens make no difference: an accepted line without
tabs is a list of tokens, and any other line made of these tokens with any numbers of spaces before,
between and after them is accepted with the same syntax tree.  Missing: the memory the parser really
has (C46) and tabs, for which the claim fails (`C75_tab_counterexample`). -/
theorem C75_blanks_partial {b : Buf} (hb : Reached b) {d : Nat} (hd : d < 3) {text : List WChar}
    (h9 : (9 : WChar) ∉ firstLine text) {fuel : Nat}
    (hf : 24 * (firstLine text).length + 6 ≤ fuel) {a : List Ast} {scan : Scan}
    (h : parseText false fuel b text d = .ok ⟨some a, 0, scan⟩) :
    ∃ bl ts u, firstLine text = bl ++ u ∧ (∀ c ∈ bl, IsBlank c) ∧ Layout ts u ∧
      ∀ (b' : Buf), Reached b' → ∀ d' < 3, ∀ (text' bl' u' : List WChar),
        firstLine text' = bl' ++ u' → (∀ c ∈ bl', IsBlank c) → Layout ts u' →
        (9 : WChar) ∉ firstLine text' →
        ∀ fuel', 24 * (firstLine text').length + 6 ≤ fuel' →
        ∃ scan', parseText false fuel' b' text' d' = .ok ⟨some a, 0, scan'⟩ := by
  obtain ⟨hn, hm⟩ := (parseText_iff hb.empty hd hf h9 a).mp ⟨scan, h⟩
  obtain ⟨bl, ts, u, h1, h2, h3, h4⟩ := isNarsese_tokens.mp hn
  refine ⟨bl, ts, u, h1, h2, h3, ?_⟩
  intro b' hb' d' hd' text' bl' u' h1' h2' h3' h9' fuel' hf'
  exact (parseText_iff hb'.empty hd' hf' h9' a).mpr
    ⟨isNarsese_tokens.mpr ⟨bl', ts, u', h1', h2', h3', h4⟩, hm⟩

/-- C75: any derivation on the level of tokens describes lines the parser accepts. -/
theorem C75_tokens_partial {b : Buf} (hb : Reached b) {d : Nat} (hd : d < 3) {text : List WChar}
    (h9 : (9 : WChar) ∉ firstLine text) {fuel : Nat}
    (hf : 24 * (firstLine text).length + 6 ≤ fuel) (a : List Ast) :
    (∃ scan, parseText false fuel b text d = .ok ⟨some a, 0, scan⟩) ↔
      (∃ bl ts u, firstLine text = bl ++ u ∧ (∀ c ∈ bl, IsBlank c) ∧ Layout ts u ∧
        TokDerives (.nt .task) ts a) ∧ Ast.meantAll a = true := by
  rw [parseText_iff hb.empty hd hf h9 a, isNarsese_tokens]

example : Layout [bytes ['A'], bytes ['.']] (bytes ['A', ' ', ' ', '.', ' ']) :=
  .cons (t := bytes ['A']) (bl := bytes [' ', ' ']) (line := bytes ['.', ' '])
    (by simp [bytes, IsBlank]) (.cons (t := bytes ['.']) (bl := bytes [' ']) (line := [])
      (by simp [bytes, IsBlank]) .nil)

/-- C75 is false with tabs: `A` followed by a tab and `.` has the atom `A` with a tab at its end. -/
theorem C75_tab_counterexample :
    (match parseText false 1000 freshBuf (bytes ['A', '\t', '.']) 0 with
      | .ok ⟨some [.node .task [.node .judgement [.node .atom_term [.leaf .string_raw s]]]], _, _⟩ =>
        s == ['A', '\t']
      | _ => false) = true ∧
    (match parseText false 1000 freshBuf (bytes ['A', ' ', '.']) 0 with
      | .ok ⟨some [.node .task [.node .judgement [.node .atom_term [.leaf .string_raw s]]]], _, _⟩ =>
        s == ['A']
      | _ => false) = true := by
  constructor <;> decide +kernel

end Cnars.Props
