import Verif.Parser.Main

/-!
# C42, C43, C45-C48: the generated parser
-/

namespace Cnars.Props
open Cnars Parser

/-! ### Samples -/

/-- The bytes of a text. -/
def bytes (s : List Char) : List WChar := s.map fun c => (c.toNat : Int)

/-- Was the text accepted? -/
def accepted? (r : Res Parsed) : Bool :=
  match r with
  | .ok p => p.ast.isSome
  | _ => false

/-- Was the text rejected? -/
def rejected? (r : Res Parsed) : Bool :=
  match r with
  | .ok p => p.ast.isNone
  | _ => false

def undefined? (r : Res Parsed) : Bool :=
  match r with
  | .ub => true
  | _ => false

/-- ` <{A} --> (*, B, $1)>. :|: %1;0.9%` -/
def sampleText : List WChar :=
  bytes [' ', '<', '{', 'A', '}', ' ', '-', '-', '>', ' ', '(', '*', ',', ' ', 'B', ',', ' ', '$',
    '1', ')', '>', '.', ' ', ':', '|', ':', ' ', '%', '1', ';', '0', '.', '9', '%']

theorem sampleText_accepted : accepted? (parseText true 1000 freshBuf sampleText 0) = true := by
  decide +kernel

/-! ### C42, C43 -/

/-- C42: an accepted line belongs to the language of `narsese.par`. -/
theorem C42_accepted {b : Buf} (hb : Reached b) {d : Nat} (hd : d < 3) {strict : Bool} {fuel : Nat}
    {text : List WChar} {r : Parsed} (h : parseText strict fuel b text d = .ok r)
    (ha : r.ast ≠ none) : ∃ a, IsNarsese (firstLine text) a := by
  cases hr : r.ast with
  | none => exact absurd hr ha
  | some a =>
    obtain ⟨t, hv, hroot, hy, _⟩ := (parseText_ok hb.empty hd h).2 a hr
    exact ⟨_, hy ▸ narsese_tree hv hroot⟩

/-- C43: the syntax tree of an accepted line is the one its derivation prescribes. -/
theorem C43_tree {b : Buf} (hb : Reached b) {d : Nat} (hd : d < 3) {strict : Bool} {fuel : Nat}
    {text : List WChar} {r : Parsed} (h : parseText strict fuel b text d = .ok r) {a : List Ast}
    (ha : r.ast = some a) : IsNarsese (firstLine text) a := by
  obtain ⟨t, hv, hroot, hy, rfl⟩ := (parseText_ok hb.empty hd h).2 a ha
  exact hy ▸ narsese_tree hv hroot

example : ∃ r, parseText true 1000 freshBuf sampleText 0 = .ok r ∧ r.ast ≠ none := by
  have h := sampleText_accepted
  unfold accepted? at h
  split at h
  · rename_i p hp; exact ⟨p, hp, by intro hn; simp [hn] at h⟩
  · simp at h

/-! ### C45 -/

/-- C45: the parser returns, after at most 24 rounds per character (and 6 more); with the memory it
has, it returns or its behaviour is undefined (C46). -/
theorem C45_terminates {b : Buf} (hb : Reached b) {d : Nat} (hd : d < 3) (text : List WChar) :
    (∃ r, parseText false (24 * (firstLine text).length + 6) b text d = .ok r) ∧
      ((∃ r, parseText true (24 * (firstLine text).length + 6) b text d = .ok r) ∨
        parseText true (24 * (firstLine text).length + 6) b text d = .ub) := by
  obtain ⟨s', _, h⟩ := parseText_spec hb.empty text hd (Nat.le_refl _)
  have h1 : ∃ r, parseText false (24 * (firstLine text).length + 6) b text d = .ok r := by
    rcases h with ⟨_, _, _, _, _, h⟩ | ⟨_, h⟩ <;> exact ⟨_, h⟩
  refine ⟨h1, ?_⟩
  obtain ⟨r, h1⟩ := h1
  unfold parseText at h1 ⊢
  rcases strict_cases (T := narsese) (24 * (firstLine text).length + 6) ⟨b, fill text, false⟩ d with
    h2 | h2
  · exact Or.inr h2
  · rw [h1] at h2
    cases h3 : parse narsese true (24 * (firstLine text).length + 6) ⟨b, fill text, false⟩ d with
    | ok r => exact Or.inl ⟨r, rfl⟩
    | throw m => rw [h3] at h2; simp [Res.Rel] at h2
    | ub => exact Or.inr rfl
    | outOfFuel => rw [h3] at h2; simp [Res.Rel] at h2

example : Reached freshBuf ∧ (0 : Nat) < 3 := ⟨.fresh, by omega⟩

/-! ### C46 -/

/-- `{{…{A}…}}.` with 124 braces. -/
def deepText : List WChar :=
  bytes (List.replicate 124 '{' ++ ['A'] ++ List.replicate 124 '}' ++ ['.'])

/-- C46 is false, 1: 124 nested sets write beyond the stack, which has 128 entries and is enlarged
only when entry 128 has already been written. -/
theorem C46_stack_counterexample :
    accepted? (parseText false 6000 freshBuf deepText 0) = true ∧
      undefined? (parseText true 6000 freshBuf deepText 0) = true := by
  decide +kernel

/-- `AAA…A.` with 127 letters. -/
def longText : List WChar := bytes (List.replicate 127 'A' ++ ['.'])

/-- C46 is false, 2: an atom of 127 letters makes `clear_input` read beyond the buffer. -/
theorem C46_buffer_counterexample :
    accepted? (parseText false 6000 freshBuf longText 0) = true ∧
      undefined? (parseText true 6000 freshBuf longText 0) = true := by
  decide +kernel

/-- C46 is false, 3: the error message for `A` reads cells of the buffer that were never written. -/
theorem C46_message_counterexample :
    rejected? (parseText false 100 freshBuf (bytes ['A']) 0) = true ∧
      undefined? (parseText true 100 freshBuf (bytes ['A']) 0) = true := by
  decide +kernel

/-- C46, for accepted lines of at most 121 characters: the memory suffices.  (The bytes of a text are
`char` values, so at most 127.)  Missing: longer lines, where the claim fails for deep nesting and for
long tokens, and rejected lines, where it fails when the error is at the end of the line. -/
theorem C46_short_accepted_partial {b : Buf} (hb : Reached b) {d : Nat} (hd : d < 3)
    {text : List WChar} (hc : ∀ c ∈ text, c ≤ 127) (hl : (firstLine text).length ≤ 121)
    {fuel : Nat} {r : Parsed} (h : parseText false fuel b text d = .ok r) (ha : r.ast ≠ none) :
    parseText true fuel b text d = .ok r := by
  have hc' : ∀ c ∈ firstLine text, c ≤ 127 := fun c hm =>
    hc c ((List.takeWhile_sublist _).subset ((List.takeWhile_sublist _).subset hm))
  have hm := parseText_mono (k := 24 * (firstLine text).length + 6) h
  rcases parseText_short hb.empty hd hc' hl fuel with h' | ⟨h1, h2⟩
  · rw [h', h]
  · exfalso
    obtain ⟨s', _, h3⟩ := parseText_spec hb.empty text hd
      (fuel := fuel + (24 * (firstLine text).length + 6)) (by omega)
    rw [prun_mono h2] at h3
    rcases h3 with ⟨t, h3, _⟩ | ⟨_, h3⟩
    · simp at h3
    · rw [hm] at h3
      simp only [Res.ok.injEq] at h3
      rw [h3] at ha
      exact ha rfl

/-- C46, for rejected lines of at most 121 characters: nothing but the error message leaves the
memory, that is, the parser either returns as it should or fails when it has already rejected the
line. -/
theorem C46_short_rejected_partial {b : Buf} (hb : Reached b) {d : Nat} (hd : d < 3)
    {text : List WChar} (hc : ∀ c ∈ text, c ≤ 127) (hl : (firstLine text).length ≤ 121)
    {fuel : Nat} (hu : parseText true fuel b text d = .ub) :
    ∃ r, parseText false (fuel + 24 * (firstLine text).length + 6) b text d = .ok r ∧
      r.ast = none := by
  have hc' : ∀ c ∈ firstLine text, c ≤ 127 := fun c hm =>
    hc c ((List.takeWhile_sublist _).subset ((List.takeWhile_sublist _).subset hm))
  obtain ⟨s', _, h3⟩ := parseText_spec hb.empty text hd
    (fuel := fuel + 24 * (firstLine text).length + 6) (by omega)
  rcases parseText_short hb.empty hd hc' hl fuel with h' | ⟨h1, h2⟩
  · exfalso
    rw [hu] at h'
    have h4 := parseText_false_ne_ub hb.empty hd fuel (text := text)
    exact h4 h'.symm
  · have h2' : prun narsese (fuel + 24 * (firstLine text).length + 6)
        (PC.init (firstLine text)) = some .reject := by
      rw [Nat.add_assoc]; exact prun_mono h2
    rw [h2'] at h3
    rcases h3 with ⟨t, h3, _⟩ | ⟨_, h3⟩
    · simp at h3
    · exact ⟨_, h3, rfl⟩

example : (firstLine sampleText).length ≤ 121 ∧ (∀ c ∈ sampleText, c ≤ 127) := by decide

/-- C46, for accepted lines of any length: how high the stack becomes is a property of the parse tree,
and the stack is left exactly if the tree needs more than 127 entries besides the bottom one.  The
tokens have to be short (`C46_buffer_counterexample`). -/
theorem C46_stack_exact {b : Buf} (hb : Reached b) {d : Nat} (hd : d < 3) {text : List WChar}
    (hc : ∀ c ∈ text, c ≤ 127) (hs : ShortTokens (firstLine text)) {fuel : Nat} {r : Parsed}
    {a : List Ast} (h : parseText false fuel b text d = .ok r) (ha : r.ast = some a) :
    ∃ t : PTree, t.Valid narsese (LexTok narsese) ∧ t.root narsese = goalSym ∧
      t.yield = firstLine text ∧ t.ast narsese = a ∧
      (t.height ≤ 127 → parseText true fuel b text d = .ok r) ∧
      (127 < t.height → parseText true fuel b text d = .ub) := by
  have hc' : ∀ c ∈ firstLine text, c ≤ 127 := fun c hm =>
    hc c ((List.takeWhile_sublist _).subset ((List.takeWhile_sublist _).subset hm))
  have hsp := spare_of_runs hs
  have hm := parseText_mono (k := 24 * (firstLine text).length + 6) h
  obtain ⟨s', _, h3⟩ := parseText_spec hb.empty text hd
    (fuel := fuel + (24 * (firstLine text).length + 6)) (by omega)
  rcases h3 with ⟨t, h3, hv, hr, hy, h4⟩ | ⟨_, h4⟩
  · rw [hm] at h4
    simp only [Res.ok.injEq] at h4
    refine ⟨t, hv, hr, hy, ?_, fun ht => ?_, fun ht => ?_⟩
    · rw [h4] at ha
      simpa using ha
    · rcases parseText_low hb.empty hd hc' hsp (Low.less (low_accept ht _ _ h3)) with h5 | ⟨_, h5⟩
      · rw [h5, h]
      · rw [prun_mono h5] at h3
        simp at h3
    · rcases strict_cases (T := narsese) fuel ⟨b, fill text, false⟩ d with h5 | h5
      · exact h5
      · exfalso
        have h6 : ∃ r', parseText true fuel b text d = .ok r' := by
          unfold parseText at h ⊢
          rw [h] at h5
          cases h7 : parse narsese true fuel ⟨b, fill text, false⟩ d with
          | ok r' => exact ⟨r', rfl⟩
          | throw m => rw [h7] at h5; simp [Res.Rel] at h5
          | ub => rw [h7] at h5; simp [Res.Rel] at h5
          | outOfFuel => rw [h7] at h5; simp [Res.Rel] at h5
        obtain ⟨r', h6⟩ := h6
        have h7 := parseText_mono (k := 24 * (firstLine text).length + 6) h6
        have h8 := accept_low _ _ (by simp [PC.init, Under]) h3
          (parseText_defined hb.empty hd hc' hsp (by rw [h7]; simp))
        omega
  · rw [hm] at h4
    simp only [Res.ok.injEq] at h4
    rw [h4] at ha
    simp at ha

/-- C46, for accepted lines of any length: the memory suffices if the syntax tree is nested at most 41
deep and the tokens are short.  Missing: deeper nesting, where the claim may fail
(`C46_stack_counterexample`), long tokens and quoted names (`C46_buffer_counterexample`); for rejected
lines see `C46_openings_partial`. -/
theorem C46_nested_accepted_partial {b : Buf} (hb : Reached b) {d : Nat} (hd : d < 3)
    {text : List WChar} (hc : ∀ c ∈ text, c ≤ 127) (hs : ShortTokens (firstLine text))
    {fuel : Nat} {r : Parsed} {a : List Ast} (h : parseText false fuel b text d = .ok r)
    (ha : r.ast = some a) (hn : Ast.depths a ≤ 41) : parseText true fuel b text d = .ok r := by
  obtain ⟨t, hv, hr, _, rfl, h1, _⟩ := C46_stack_exact hb hd hc hs h ha
  exact h1 (height_of_depth hv hr hn)

/-- The nesting of the syntax tree of an accepted line. -/
def nesting? (r : Res Parsed) : Nat :=
  match r with
  | .ok p => match p.ast with
    | some a => Ast.depths a
    | none => 0
  | _ => 0

/-- `{A,A,…,A}.` with 150 elements, 302 characters. -/
def wideText : List WChar :=
  bytes ('{' :: 'A' :: (List.replicate 149 [',', 'A']).flatten ++ ['}', '.'])

example : wideText.length = 302 ∧ ShortTokens (firstLine wideText) ∧ (∀ c ∈ wideText, c ≤ 127) ∧
    accepted? (parseText false 8000 freshBuf wideText 0) = true ∧
    nesting? (parseText false 8000 freshBuf wideText 0) = 6 :=
  ⟨by decide +kernel, shortTokens_of_runsOk (by decide +kernel) (by decide +kernel),
    by decide +kernel, by decide +kernel, by decide +kernel⟩

/-- The hypotheses of `C46_stack_exact` also hold where the stack is left. -/
example : ShortTokens (firstLine deepText) ∧ (∀ c ∈ deepText, c ≤ 127) :=
  ⟨shortTokens_of_runsOk (by decide +kernel) (by decide +kernel), by decide +kernel⟩

/-! ### C47 -/

/-- C47: only the first line counts. -/
theorem C47_first_line (strict : Bool) (fuel : Nat) (b : Buf) (text : List WChar) (d : Nat) :
    Res.Rel false (fun x y => x.ast = y.ast ∧ x.len = y.len ∧ x.scan.buf = y.scan.buf)
      (parseText strict fuel b text d) (parseText strict fuel b (firstLine text) d) := by
  obtain ⟨r1, h1⟩ := fill_firstLine text
  obtain ⟨r2, h2⟩ := fill_firstLine (firstLine text)
  rw [firstLine_idem] at h2
  exact parsedRel_refl_ok (parse_rel (Or.inl rfl) fuel d ⟨rfl, Or.inr ⟨_, r1, r2, h1, h2⟩⟩)

/-- `A.` newline `B` -/
example : accepted? (parseText true 100 freshBuf (bytes ['A', '.', '\n', 'B']) 0) = true ∧
    firstLine (bytes ['A', '.', '\n', 'B']) = bytes ['A', '.'] := by
  decide +kernel

/-! ### C48 -/

/-- C48: a line with a byte above 127 (a negative `char`) is not accepted; with unlimited memory it
is rejected. -/
theorem C48_not_accepted {b : Buf} (hb : Reached b) {d : Nat} (hd : d < 3) {strict : Bool}
    {fuel : Nat} {text : List WChar} (hc : ∃ c ∈ firstLine text, c < 0) {r : Parsed}
    (h : parseText strict fuel b text d = .ok r) : r.ast = none := by
  cases hr : r.ast with
  | none => rfl
  | some a =>
    obtain ⟨c, hc, hlt⟩ := hc
    exact absurd hlt (Int.not_lt.mpr (derivesAll_nonneg (C43_tree hb hd h hr) c hc))

/-- C48: … -/
theorem C48_rejected {b : Buf} (hb : Reached b) {d : Nat} (hd : d < 3) {text : List WChar}
    (hc : ∃ c ∈ firstLine text, c < 0) :
    ∃ r, parseText false (24 * (firstLine text).length + 6) b text d = .ok r ∧ r.ast = none := by
  obtain ⟨r, hr⟩ := (C45_terminates hb hd text).1
  exact ⟨r, hr, C48_not_accepted hb hd hc hr⟩

/-- `"é".` in UTF-8 -/
def accentText : List WChar := [34, -61, -87, 34, 46]

example : ∃ c ∈ firstLine accentText, c < 0 := by decide

/-- In the code as it is, the error message for a non-ASCII byte is undefined behaviour: `wcstombs`
cannot convert it. -/
theorem C48_message_counterexample :
    rejected? (parseText false 100 freshBuf accentText 0) = true ∧
      undefined? (parseText true 100 freshBuf accentText 0) = true := by
  decide +kernel

/-! ### C49 (syntax), C71 -/

/-- C49, for the syntax (the values the semantic actions keep are missing): what was parsed before, accepted or rejected, makes no difference to the
syntax tree of a text, whatever was left in the buffer. -/
theorem C49_syntax_partial {b b' : Buf} (hb : Reached b) (hb' : Reached b') {text : List WChar} {d d' : Nat}
    (hd : d < 3) (hd' : d' < 3) {strict strict' : Bool} {fuel fuel' : Nat} {r r' : Parsed}
    (h : parseText strict fuel b text d = .ok r)
    (h' : parseText strict' fuel' b' text d' = .ok r') : r.ast = r'.ast :=
  parseText_indep hb.empty hb'.empty hd hd' h h'

/-- After `A.` and the rejected `A&`, the buffer is not the fresh one. -/
example : ∃ b, Reached b ∧ b ≠ freshBuf := by
  have h : accepted? (parseText false 100 freshBuf (bytes ['A', '.']) 0) = true ∧
      (match parseText false 100 freshBuf (bytes ['A', '.']) 0 with
        | .ok r => r.scan.buf.cap
        | _ => 0) = 129 := by decide +kernel
  cases hr : parseText false 100 freshBuf (bytes ['A', '.']) 0 with
  | ok r =>
    refine ⟨r.scan.buf, .next .fresh (by omega : 0 < 3) hr, ?_⟩
    intro hb
    rw [hr] at h
    simp [hb, freshBuf] at h
  | throw m => rw [hr] at h; simp at h
  | ub => rw [hr] at h; simp at h
  | outOfFuel => rw [hr] at h; simp at h

/-- C71 is false: `error_delay` is not initialised (Parser.cpp:6-10); if its memory happens to hold
3, the text `)A.` is accepted, though it is not Narsese and is rejected otherwise. -/
theorem C71_error_delay_counterexample :
    rejected? (parseText true 100 freshBuf (bytes [')', 'A', '.']) 0) = true ∧
      accepted? (parseText true 100 freshBuf (bytes [')', 'A', '.']) 3) = true := by
  decide +kernel

/-- C71, for values of `error_delay` below 3: they make no difference.  Missing: other values. -/
theorem C71_small_delay_partial {b : Buf} (hb : Reached b) {text : List WChar} {d : Nat}
    (hd : d < 3) {strict : Bool} {fuel fuel' : Nat} {r r' : Parsed}
    (h : parseText strict fuel b text d = .ok r)
    (h' : parseText strict fuel' freshBuf text 0 = .ok r') : r.ast = r'.ast :=
  parseText_indep hb.empty Reached.fresh.empty hd (by omega) h h'

end Cnars.Props
