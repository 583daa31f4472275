import Verif.Interp.PrintLemmas

/-!
# Removing the colour escapes
-/

namespace Cnars
open Term

namespace Print

/-- Removes the escape sequences `ESC … m`; `inside` tells whether one has been entered. -/
def strip : (inside : Bool) → Str → Str
  | _, [] => []
  | false, c :: r => if c = '\x1b' then strip true r else c :: strip false r
  | true, c :: r => if c = 'm' then strip false r else strip true r

/-- `c` is `p` with colour. -/
def Strips (c p : Str) : Prop := ∀ y, strip false (c ++ y) = p ++ strip false y

theorem Strips.append {c p c' p' : Str} (h : Strips c p) (h' : Strips c' p') :
    Strips (c ++ c') (p ++ p') := by
  intro y; rw [List.append_assoc, h, h', List.append_assoc]

theorem Strips.plain {p : Str} (h : '\x1b' ∉ p) : Strips p p := by
  intro y
  induction p with
  | nil => rfl
  | cons c p ih =>
    simp only [List.mem_cons, not_or] at h
    simp [strip, Ne.symm h.1, ih h.2]

theorem Strips.escape (c : Color) : Strips c.escape [] := by
  intro y; cases c <;> rfl

theorem Strips.reset : Strips Print.reset [] := by intro y; rfl

theorem Strips.whole {c p : Str} (h : Strips c p) : strip false c = p := by
  have := h []; simpa [strip] using this

theorem fmt0_clean {x : Str} (h1 : '{' ∉ x) (h2 : '}' ∉ x) : fmt0 x = .ok x := by
  induction x with
  | nil => rfl
  | cons c x ih =>
    simp only [List.mem_cons, not_or] at h1 h2
    have := ih h1.2 h2.2
    rw [fmt0]
    · rw [if_neg (by rintro (h | h) <;> simp_all), this]; rfl
    · intro r hc _; exact absurd hc (Ne.symm h1.1)
    · intro r hc _; exact absurd hc (Ne.symm h2.1)

/-- Printed both ways, with the same text. -/
def Both (a b : Res Str) : Prop := ∃ p c, a = .ok p ∧ b = .ok c ∧ Strips c p

theorem Both.paint (col : Color) {x : Str} (h1 : '{' ∉ x) (h2 : '}' ∉ x) (h3 : '\x1b' ∉ x) :
    Both (paint false col x) (paint true col x) := by
  refine ⟨x, col.escape ++ x ++ Print.reset, rfl, ?_, ?_⟩
  · simp [Print.paint, styled, fmt0_clean h1 h2]
  · have := ((Strips.escape col).append (Strips.plain h3)).append Strips.reset
    simpa using this

theorem Both.brace {ch : Char} (h : ch = '{' ∨ ch = '}') : Both (brace false ch) (brace true ch) := by
  refine ⟨[ch], Color.escape .parenthesis ++ [ch] ++ Print.reset, rfl, ?_, ?_⟩
  · rcases h with rfl | rfl <;> rfl
  · have h3 : '\x1b' ∉ [ch] := by rcases h with rfl | rfl <;> decide
    have := ((Strips.escape .parenthesis).append (Strips.plain h3)).append Strips.reset
    simpa using this

theorem Strips.wrapped {c p : Str} (h : Strips c p) : Strips (wrapped true c) (wrapped false p) := by
  have := ((Strips.escape .term).append h).append Strips.reset
  simpa [Print.wrapped] using this

theorem Both.terms {d : Map Key String} {ts : List Term}
    (h : ∀ t ∈ ts, Both (term d false t) (term d true t)) :
    Both (terms d false ts) (terms d true ts) := by
  induction ts with
  | nil => exact ⟨[], [], by rw [Print.terms], by rw [Print.terms], fun _ => rfl⟩
  | cons t ts ih =>
    obtain ⟨p, c, hp, hc, hs⟩ := h t (by simp)
    cases ts with
    | nil => exact ⟨p, c, by rw [Print.terms]; exact hp, by rw [Print.terms]; exact hc, hs⟩
    | cons u us =>
      obtain ⟨p', c', hp', hc', hs'⟩ := ih fun t ht => h t (by simp [ht])
      obtain ⟨p2, c2, hp2, hc2, hs2⟩ := Both.paint .separator (x := [',', ' ']) (by decide) (by decide) (by decide)
      exact ⟨p ++ p2 ++ p', c ++ c2 ++ c', by rw [terms_cons2, hp, hp2, hp']; rfl,
        by rw [terms_cons2, hc, hc2, hc']; rfl, (hs.append hs2).append hs'⟩

theorem digit_clean {b n : Nat} (hb : 1 < b) (hb' : b ≤ 16) : ∀ c ∈ Nat.toDigits b n,
    c ∈ ("0123456789abcdef".toList) := by
  induction n using Nat.strongRecOn with
  | ind n ih =>
    rw [Nat.toDigits_eq_if hb]
    have hd : ∀ m, m < 16 → Nat.digitChar m ∈ "0123456789abcdef".toList := by decide +kernel
    split
    · intro c hc; simp at hc; subst hc; exact hd n (by omega)
    · intro c hc
      rw [List.mem_append, List.mem_singleton] at hc
      rcases hc with hc | rfl
      · exact ih (n / b) (Nat.div_lt_self (by omega) hb) c hc
      · exact hd _ (by have := Nat.mod_lt n (y := b) (by omega); omega)

/-- The characters of numbers. -/
def numeric : Str := "+-x^$#?0123456789abcdef".toList

theorem decimal_chars (n : Int) : ∀ c ∈ decimal n, c ∈ numeric := by
  have h : ∀ m, ∀ c ∈ Nat.toDigits 10 m, c ∈ numeric := by
    intro m c hc
    have := digit_clean (b := 10) (by omega) (by omega) c hc
    revert this; unfold numeric; simp; intro h; rcases h with h | h | h | h | h | h | h | h | h | h | h | h | h | h | h | h <;> simp [h]
  cases n with
  | ofNat m => exact h m
  | negSucc m =>
    intro c hc
    simp only [decimal, List.mem_cons] at hc
    rcases hc with rfl | hc
    · decide
    · exact h _ c hc

theorem signed_chars (n : Int) : ∀ c ∈ signed n, c ∈ numeric := by
  cases n with
  | ofNat m =>
    intro c hc
    simp only [signed, List.mem_cons] at hc
    rcases hc with rfl | hc
    · decide
    · exact decimal_chars (.ofNat m) c hc
  | negSucc m => exact decimal_chars (.negSucc m)

theorem hexAddr_chars (a : Word) : ∀ c ∈ hexAddr a, c ∈ numeric := by
  have h : ∀ m, ∀ c ∈ Nat.toDigits 16 m, c ∈ numeric := by
    intro m c hc
    have := digit_clean (b := 16) (by omega) (by omega) c hc
    revert this; unfold numeric; simp; intro h; rcases h with h | h | h | h | h | h | h | h | h | h | h | h | h | h | h | h <;> simp [h]
  intro c hc
  simp only [hexAddr, List.mem_cons] at hc
  rcases hc with rfl | rfl | hc
  · decide
  · decide
  · split at hc
    · exact h _ c hc
    · rw [List.mem_cons] at hc
      rcases hc with rfl | hc
      · decide
      · exact h _ c hc

theorem numeric_clean {x : Str} (h : ∀ c ∈ x, c ∈ numeric) : '{' ∉ x ∧ '}' ∉ x ∧ '\x1b' ∉ x :=
  ⟨fun hc => absurd (h _ hc) (by decide), fun hc => absurd (h _ hc) (by decide),
    fun hc => absurd (h _ hc) (by decide)⟩

/-- A name without braces and escape characters. -/
def CleanName (n : String) : Prop := '{' ∉ n.toList ∧ '}' ∉ n.toList ∧ '\x1b' ∉ n.toList

theorem named_both {d : Map Key String} (hd : ∀ k n, d k = some n → CleanName n) {t : Term} :
    (named d false t = none ∧ named d true t = none) ∨
    ∃ a b, named d false t = some a ∧ named d true t = some b ∧ Both a b := by
  unfold named
  cases h : d (keyOf t.hash) with
  | none => left; simp
  | some n =>
    right
    obtain ⟨h1, h2, h3⟩ := hd _ _ h
    refine ⟨_, _, rfl, rfl, ?_⟩
    cases t with
    | atom a i => exact Both.paint _ h1 h2 h3
    | _ => exact ⟨_, _, rfl, rfl, Strips.plain h3⟩

theorem symbol_clean (c : Connector) (h : c ≠ .extensionalSet) :
    '{' ∉ c.symbol.toList ∧ '}' ∉ c.symbol.toList ∧ '\x1b' ∉ c.symbol.toList := by
  cases c <;> first | exact absurd rfl h | decide +kernel

theorem copula_clean (c : Copula) (h : c ≠ .instance) (h' : c ≠ .instanceProperty) :
    '{' ∉ c.symbol.toList ∧ '}' ∉ c.symbol.toList ∧ '\x1b' ∉ c.symbol.toList := by
  cases c <;> first | exact absurd rfl h | exact absurd rfl h' | decide +kernel

/-- Coloured printing of a printable term with clean names and copulas. -/
theorem Printable.both {t : Term} (h : Printable t) (hg : Good t) {d : Map Key String}
    (hd : ∀ k n, d k = some n → CleanName n)
    (hcop : ∀ c ∈ copulas t, c ≠ .instance ∧ c ≠ .instanceProperty) :
    Both (term d false t) (term d true t) := by
  induction h with
  | atom a i =>
    rw [term, term]
    rcases named_both hd (t := .atom a i) with ⟨h1, h2⟩ | ⟨x, y, h1, h2, h3⟩
    · rw [h1, h2]
      obtain ⟨c1, c2, c3⟩ := numeric_clean (hexAddr_chars a)
      simp only
      split
      · exact Both.paint _ (by simp [c1]) (by simp [c2]) (by simp [c3])
      · exact Both.paint _ c1 c2 c3
    · rw [h1, h2]; exact h3
  | interval n i =>
    rw [term, term]
    obtain ⟨c1, c2, c3⟩ := numeric_clean (signed_chars n)
    exact Both.paint _ c1 c2 c3
  | var k n i =>
    obtain ⟨idx, hx⟩ : ∃ idx, varText k i = .ok (k.symbol.toList ++ decimal idx) := by
      cases hg with
      | var k n idx => exact ⟨_, Good.varText k n idx⟩
    rw [term, term, hx]
    obtain ⟨c1, c2, c3⟩ := numeric_clean (x := k.symbol.toList ++ decimal idx) (by
      intro c hc
      rw [List.mem_append] at hc
      rcases hc with hc | hc
      · cases k <;> (revert c; decide +kernel)
      · exact decimal_chars idx c hc)
    exact Both.paint _ c1 c2 c3
  | @stmt s p c i hop _ _ ihs ihp =>
    obtain ⟨hs, hp, hi⟩ : Good s ∧ Good p ∧ i.isOperation = operational p := by
      have e := Good.operational hg
      cases hg with
      | stmt c h1 h2 => exact ⟨h1, h2, e⟩
    rw [term, term]
    rcases named_both hd (t := .stmt s c p i) with ⟨h1, h2⟩ | ⟨x, y, h1, h2, h3⟩
    · rw [h1, h2]
      simp only [hi, hop, Bool.false_eq_true, if_false]
      obtain ⟨p1, c1, hp1, hc1, s1⟩ := ihs hs fun x hx => hcop x (by simp [copulas, hx])
      obtain ⟨p2, c2, hp2, hc2, s2⟩ := ihp hp fun x hx => hcop x (by simp [copulas, hx])
      obtain ⟨p3, c3, hp3, hc3, s3⟩ := Both.paint .angle (x := ['<']) (by decide) (by decide) (by decide)
      obtain ⟨q1, q2, q3⟩ := copula_clean c (hcop c (by simp [copulas])).1 (hcop c (by simp [copulas])).2
      obtain ⟨p4, c4, hp4, hc4, s4⟩ := Both.paint .copula q1 q2 q3
      obtain ⟨p5, c5, hp5, hc5, s5⟩ := Both.paint .angle (x := ['>']) (by decide) (by decide) (by decide)
      have sp : Strips [' '] [' '] := Strips.plain (by decide)
      exact ⟨_, _, by rw [hp1, hp2, hp3, hp4, hp5]; rfl, by rw [hc1, hc2, hc3, hc4, hc5]; rfl,
        (((((s3.append s1.wrapped).append sp).append s4).append sp).append s2.wrapped).append s5⟩
    · rw [h1, h2]; exact h3
  | @opStmt ts p e c i j hop _ _ ihs ihp =>
    obtain ⟨hs, hp, hi⟩ : (∀ t ∈ ts, Good t) ∧ Good p ∧ i.isOperation = operational p := by
      have e := Good.operational hg
      cases hg with
      | stmt c h1 h2 =>
        refine ⟨?_, h2, e⟩
        cases h1 with
        | comp _ h _ => exact h
    rw [term, term]
    rcases named_both hd (t := .stmt (.comp e ts j) c p i) with ⟨h1, h2⟩ | ⟨x, y, h1, h2, h3⟩
    · rw [h1, h2]
      simp only [hi, hop, if_true, subjectArgs]
      obtain ⟨p2, c2, hp2, hc2, s2⟩ := ihp hp fun x hx => hcop x (by simp [copulas, hx])
      obtain ⟨p1, c1, hp1, hc1, s1⟩ := Both.terms (d := d) (ts := ts) fun t ht => ihs t ht (hs t ht)
        fun x hx => hcop x (by
          simp only [copulas, List.mem_cons, List.mem_append, mem_copulasAll]
          exact .inr (.inl ⟨t, ht, hx⟩))
      obtain ⟨p3, c3, hp3, hc3, s3⟩ := Both.paint .parenthesis (x := ['(']) (by decide) (by decide) (by decide)
      obtain ⟨p4, c4, hp4, hc4, s4⟩ := Both.paint .separator (x := [',', ' ']) (by decide) (by decide) (by decide)
      obtain ⟨p5, c5, hp5, hc5, s5⟩ := Both.paint .parenthesis (x := [')']) (by decide) (by decide) (by decide)
      exact ⟨_, _, by rw [hp1, hp2, hp3, hp4, hp5]; rfl, by rw [hc1, hc2, hc3, hc4, hc5]; rfl,
        (((s3.append s2).append s4).append s1).append s5⟩
    · rw [h1, h2]; exact h3
  | @comp ts c i hne _ ih =>
    have hts : ∀ t ∈ ts, Good t := by
      cases hg with
      | comp _ h _ => exact h
    rw [term, term]
    rcases named_both hd (t := .comp c ts i) with ⟨h1, h2⟩ | ⟨x, y, h1, h2, h3⟩
    · rw [h1, h2]
      simp only
      have hne' : ¬ (ts.isEmpty = true) := by simpa using hne
      simp only [if_neg hne']
      obtain ⟨p1, c1, hp1, hc1, s1⟩ := Both.terms (d := d) (ts := ts) fun t ht => ih t ht (hts t ht)
        fun x hx => hcop x (by
          simp only [copulas, mem_copulasAll]
          exact ⟨t, ht, hx⟩)
      by_cases he1 : c = .extensionalSet
      · simp only [if_pos he1]
        obtain ⟨p3, c3, hp3, hc3, s3⟩ := Both.brace (ch := '{') (.inl rfl)
        obtain ⟨p5, c5, hp5, hc5, s5⟩ := Both.brace (ch := '}') (.inr rfl)
        exact ⟨_, _, by rw [hp1, hp3, hp5]; rfl, by rw [hc1, hc3, hc5]; rfl, (s3.append s1).append s5⟩
      · simp only [if_neg he1]
        by_cases he2 : c = .intensionalSet
        · simp only [if_pos he2]
          obtain ⟨p3, c3, hp3, hc3, s3⟩ := Both.paint .parenthesis (x := ['[']) (by decide) (by decide) (by decide)
          obtain ⟨p5, c5, hp5, hc5, s5⟩ := Both.paint .parenthesis (x := [']']) (by decide) (by decide) (by decide)
          exact ⟨_, _, by rw [hp1, hp3, hp5]; rfl, by rw [hc1, hc3, hc5]; rfl, (s3.append s1).append s5⟩
        · simp only [if_neg he2]
          obtain ⟨p3, c3, hp3, hc3, s3⟩ := Both.paint .parenthesis (x := ['(']) (by decide) (by decide) (by decide)
          obtain ⟨q1, q2, q3⟩ := symbol_clean c he1
          obtain ⟨p2, c2, hp2, hc2, s2⟩ := Both.paint .connector q1 q2 q3
          obtain ⟨p4, c4, hp4, hc4, s4⟩ := Both.paint .separator (x := [',', ' ']) (by decide) (by decide) (by decide)
          obtain ⟨p5, c5, hp5, hc5, s5⟩ := Both.paint .parenthesis (x := [')']) (by decide) (by decide) (by decide)
          exact ⟨_, _, by rw [hp1, hp2, hp3, hp4, hp5]; rfl, by rw [hc1, hc2, hc3, hc4, hc5]; rfl,
            (((s3.append s2).append s4).append s1).append s5⟩
    · rw [h1, h2]; exact h3

end Print
end Cnars
