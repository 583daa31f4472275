import Verif.Parser.Opens
import Verif.Props.Parsing

/-!
# C46: the stack, on lines of any length, accepted or not
-/

namespace Cnars.Props
open Cnars Cnars.Parser

theorem burdens_count (u : List WChar) :
    burdens u = 16 * u.count 40 + 8 * (u.count 91 + u.count 123) + 6 * u.count 60 + u.count 45 := by
  induction u with
  | nil => rfl
  | cons c u ih =>
    have : burdens (c :: u) = burden c + burdens u := by simp [burdens]
    rw [this, ih]
    simp only [List.count_cons, beq_iff_eq]
    unfold burden
    by_cases h1 : c = 40
    · subst h1; simp; omega
    by_cases h2 : c = 91
    · subst h2; simp; omega
    by_cases h3 : c = 123
    · subst h3; simp; omega
    by_cases h4 : c = 60
    · subst h4; simp; omega
    by_cases h5 : c = 45
    · subst h5; simp; omega
    simp [h1, h2, h3, h4, h5]

/-- C46, for lines of any length, accepted or not: with short tokens and few opening characters (say
14 parentheses, or 38 angle brackets), the parser does what it would do with unlimited memory, except
that the message for a rejected line may be undefined (`C46_message_counterexample`).  Missing: many
opening characters in a line that is rejected or nested deeply, long tokens and quoted names. -/
theorem C46_openings_partial {b : Buf} (hb : Reached b) {d : Nat} (hd : d < 3) {text : List WChar}
    (hc : ∀ c ∈ text, c ≤ 127) (hs : ShortTokens (firstLine text))
    (ho : 16 * (firstLine text).count 40 + 8 * ((firstLine text).count 91 + (firstLine text).count 123) +
      6 * (firstLine text).count 60 + (firstLine text).count 45 ≤ 228) (fuel : Nat) :
    parseText true fuel b text d = parseText false fuel b text d ∨
      (parseText true fuel b text d = .ub ∧
        ∃ r, parseText false (fuel + 24 * (firstLine text).length + 6) b text d = .ok r ∧
          r.ast = none) := by
  have hc' : ∀ c ∈ firstLine text, c ≤ 127 := fun c hm =>
    hc c ((List.takeWhile_sublist _).subset ((List.takeWhile_sublist _).subset hm))
  rw [← burdens_count] at ho
  have hsim : Sim narsese narseseCert (initSt ⟨b, fill text, false⟩ d) (PC.init (firstLine text)) [] :=
    sim_init hd (fill_is hb.empty text)
  have hlow := low_burden (firstLine text) ho fuel _ _ _ hsim
    (by simp [PC.read, PC.init, PTree.yields])
  rcases parseText_low hb.empty hd hc' (spare_of_runs hs) hlow with h | ⟨h1, h2⟩
  · exact .inl h
  · refine .inr ⟨h1, ?_⟩
    obtain ⟨s', _, h3⟩ := parseText_spec hb.empty text hd
      (fuel := fuel + 24 * (firstLine text).length + 6) (by omega)
    have h2' : prun narsese (fuel + 24 * (firstLine text).length + 6)
        (PC.init (firstLine text)) = some .reject := by
      rw [Nat.add_assoc]; exact prun_mono h2
    rw [h2'] at h3
    rcases h3 with ⟨t, h3, _⟩ | ⟨_, h3⟩
    · simp at h3
    · exact ⟨_, h3, rfl⟩

/-- A line the memory of the parser is known to be enough for, whether it is accepted or not. -/
def Modest (line : List WChar) : Prop :=
  line.length ≤ 121 ∨ ShortTokens line ∧
    16 * line.count 40 + 8 * (line.count 91 + line.count 123) + 6 * line.count 60 + line.count 45 ≤ 228

/-- C46: the two conditions together. -/
theorem C46_modest_partial {b : Buf} (hb : Reached b) {d : Nat} (hd : d < 3) {text : List WChar}
    (hc : ∀ c ∈ text, c ≤ 127) (hm : Modest (firstLine text)) (fuel : Nat) :
    parseText true fuel b text d = parseText false fuel b text d ∨
      (parseText true fuel b text d = .ub ∧
        ∃ r, parseText false (fuel + 24 * (firstLine text).length + 6) b text d = .ok r ∧
          r.ast = none) := by
  rcases hm with hl | ⟨hs, ho⟩
  · rcases parseText_short hb.empty hd (fun c hm => hc c ((List.takeWhile_sublist _).subset
        ((List.takeWhile_sublist _).subset hm))) hl fuel with h | h
    · exact .inl h
    · exact .inr ⟨h.1, C46_short_rejected_partial hb hd hc hl h.1⟩
  · exact C46_openings_partial hb hd hc hs ho fuel

/-- `(~,A,B*C*(~,A,B*C*…A)…).` with `n` opening and `m` closing parentheses. -/
def parenText (n m : Nat) : List WChar :=
  bytes ((List.replicate n ['(', '~', ',', 'A', ',', 'B', '*', 'C', '*']).flatten ++ 'A' ::
    List.replicate m ')' ++ ['.'])

/-- The hypotheses are met by an accepted line and by a rejected one, of more than 121 characters. -/
example : (14 ≤ (parenText 14 14).count 40 ∧ 121 < (parenText 14 14).length) ∧
    (ShortTokens (firstLine (parenText 14 14)) ∧ ∀ c ∈ parenText 14 14, c ≤ 127) ∧
    (16 * (firstLine (parenText 14 14)).count 40 + 8 * ((firstLine (parenText 14 14)).count 91 +
      (firstLine (parenText 14 14)).count 123) + 6 * (firstLine (parenText 14 14)).count 60 +
      (firstLine (parenText 14 14)).count 45 ≤ 228) ∧
    accepted? (parseText false 4000 freshBuf (parenText 14 14) 0) = true :=
  ⟨by decide +kernel, ⟨shortTokens_of_runsOk (by decide +kernel) (by decide +kernel),
    by decide +kernel⟩, by decide +kernel, by decide +kernel⟩

example : 121 < (parenText 14 2).length ∧
    (ShortTokens (firstLine (parenText 14 2)) ∧ ∀ c ∈ parenText 14 2, c ≤ 127) ∧
    (16 * (firstLine (parenText 14 2)).count 40 + 8 * ((firstLine (parenText 14 2)).count 91 +
      (firstLine (parenText 14 2)).count 123) + 6 * (firstLine (parenText 14 2)).count 60 +
      (firstLine (parenText 14 2)).count 45 ≤ 228) ∧
    rejected? (parseText false 4000 freshBuf (parenText 14 2) 0) = true :=
  ⟨by decide +kernel, ⟨shortTokens_of_runsOk (by decide +kernel) (by decide +kernel),
    by decide +kernel⟩, by decide +kernel, by decide +kernel⟩

/-- Two parentheses more than `C46_openings_partial` allows are enough to leave the stack, whether the
line is accepted or not. -/
theorem C46_openings_counterexample :
    (accepted? (parseText false 4000 freshBuf (parenText 16 16) 0) = true ∧
      undefined? (parseText true 4000 freshBuf (parenText 16 16) 0) = true) ∧
    (rejected? (parseText false 4000 freshBuf (parenText 16 2) 0) = true ∧
      undefined? (parseText true 4000 freshBuf (parenText 16 2) 0) = true) := by
  decide +kernel

end Cnars.Props
