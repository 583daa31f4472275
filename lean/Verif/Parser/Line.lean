import Mathlib.Data.Nat.Digits.Defs
import Verif.Parser.Ranges
import Verif.Parser.Unparse

/-!
# The parts of a line

A line of Narsese taken apart into budget, content, punctuation, tense mark and truth value, each with
its text and its syntax tree.  Nothing of `/repo` is modelled here.
-/

namespace Cnars.Parser
open Cnars

/-- Tabs and spaces only. -/
def Blanks (u : List WChar) : Prop := ∀ c ∈ u, IsBlank c

/-- The number written with decimal digits. -/
def natOf (s : List Char) : Nat := Nat.ofDigits 10 (s.reverse.map fun c => c.toNat - 48)

/-- Numerals for integers. -/
inductive Numeral : List Char → Int → Prop where
  | pos {s : List Char} : s ≠ [] → allDigits s → Numeral s (natOf s)
  | neg {s : List Char} : s ≠ [] → allDigits s → Numeral ('-' :: s) (-(natOf s : Int))

/-- The tense mark of a sentence, possibly none, and the occurrence time it gives. -/
inductive TenseMark : List WChar → Option Int → Prop where
  | none : TenseMark [] none
  | future {u : List WChar} : Blanks u → TenseMark (codes [':', '/', ':'] ++ u) (some 5)
  | present {u : List WChar} : Blanks u → TenseMark (codes [':', '|', ':'] ++ u) (some 0)
  | past {u : List WChar} : Blanks u → TenseMark (codes [':', '\\', ':'] ++ u) (some (-5))
  | time {u v w : List WChar} {s : List Char} {n : Int} : Blanks u → Blanks v → Blanks w →
      Numeral s n →
      TenseMark (codes [':', '!'] ++ (u ++ (codes s ++ (v ++ (codes [':'] ++ w))))) (some n)

/-- The character after the content of a sentence. -/
def punctChar : Punct → Char
  | .judgement => '.'
  | .question => '?'
  | .goal => '!'
  | .quest => '@'

/-- The name of its node. -/
def punctEmit : Punct → Emit
  | .judgement => .judgement
  | .question => .question
  | .goal => .goal
  | .quest => .quest

/-! ## Taking derivations apart -/

theorem cons_split {g : Gram} {gs : List Gram} {u : List WChar} {a : List Ast}
    (h : DerivesAll (g :: gs) u a) :
    ∃ v w b c, u = v ++ w ∧ a = b ++ c ∧ Derives g v b ∧ DerivesAll gs w c := by
  cases h with
  | cons h1 h2 => exact ⟨_, _, _, _, rfl, rfl, h1, h2⟩

theorem nil_split {u : List WChar} {a : List Ast} (h : DerivesAll [] u a) : u = [] ∧ a = [] := by
  cases h; exact ⟨rfl, rfl⟩

theorem maybe_split {x : List Gram} {u : List WChar} {a : List Ast}
    (h : Derives (Gram.maybe x) u a) : (u = [] ∧ a = []) ∨ DerivesAll x u a := by
  cases h with
  | opt_none => exact .inl ⟨rfl, rfl⟩
  | opt_some h =>
    cases h with
    | grp hb h =>
      simp only [List.mem_singleton] at hb
      subst hb
      exact .inr h

theorem ch_codes {c : Char} {u : List WChar} (h : (Rx.ch c).Matches u) : u = codes [c] := by
  unfold Rx.ch at h
  cases h with
  | @cls _ lo hi n h1 h2 h3 =>
    simp only [List.mem_singleton, Prod.mk.injEq] at h1
    obtain ⟨rfl, rfl⟩ := h1
    have : n = c.toNat := Nat.le_antisymm h3 h2
    subst this
    rfl

theorem lit_codes : ∀ {s : List Char} {u : List WChar}, (Rx.lit s).Matches u → u = codes s
  | [], u, h => by cases h; rfl
  | [c], u, h => ch_codes h
  | c :: d :: s, u, h => by
    rw [Rx.lit] at h
    · cases h with
      | seq h1 h2 =>
        rw [ch_codes h1, lit_codes h2]
        rfl
    · simp

theorem lex_split {r : Rx} {e : Emit} {u : List WChar} {a : List Ast}
    (h : Derives (Gram.lex r e) u a) :
    ∃ v w, u = v ++ w ∧ r.Matches v ∧ Blanks w ∧ (e = .none → a = []) ∧
      (e ≠ .none → a = [.leaf e (textOf v)]) := by
  cases h with
  | grp hb h =>
    simp only [List.mem_singleton] at hb
    subst hb
    obtain ⟨v, w, b, c, rfl, rfl, h1, h2⟩ := cons_split h
    obtain ⟨w, w', c, c', rfl, rfl, h3, h4⟩ := cons_split h2
    obtain ⟨rfl, rfl⟩ := nil_split h4
    obtain ⟨hw, rfl⟩ := blanks_iff.mp h3
    rw [List.append_nil]
    cases h1 with
    | tok_plain hm => exact ⟨v, w, rfl, hm, hw, fun _ => rfl, fun h => absurd rfl h⟩
    | tok_leaf he hm => exact ⟨v, w, rfl, hm, hw, fun h => absurd h he, fun _ => rfl⟩

theorem kw_split {s : List Char} {u : List WChar} {a : List Ast} (h : Derives (Gram.kw s) u a) :
    ∃ w, u = codes s ++ w ∧ Blanks w ∧ a = [] := by
  obtain ⟨v, w, rfl, hm, hw, ha, _⟩ := lex_split h
  rw [lit_codes hm]
  exact ⟨w, rfl, hw, ha rfl⟩

/-! ## Numerals -/

theorem digits_natOf : ∀ s : List Char, Action.digits s = natOf s
  | [] => rfl
  | c :: s => by
    rw [digits_cons, digits_natOf s, natOf, natOf, List.reverse_cons, List.map_append,
      Nat.ofDigits_append]
    simp [Nat.add_comm, Nat.mul_comm]

theorem digit_codes {u : List WChar} (h : Rx.digit.Matches u) :
    ∃ c : Char, u = codes [c] ∧ c.isDigit = true := by
  unfold Rx.digit Rx.rng at h
  cases h with
  | @cls _ l hi n h1 h2 h3 =>
    simp only [List.mem_singleton, Prod.mk.injEq] at h1
    obtain ⟨rfl, rfl⟩ := h1
    have h9 : n ≤ 57 := h3
    have h0 : 48 ≤ n := h2
    have key : ∀ m, m ≤ 57 → 48 ≤ m → (Char.ofNat m).isDigit = true ∧ (Char.ofNat m).toNat = m := by
      decide
    obtain ⟨k1, k2⟩ := key n h9 h0
    exact ⟨Char.ofNat n, by simp [codes, k2], k1⟩

theorem star_codes {r : Rx} {u : List WChar} (h : (Rx.star r).Matches u)
    (hr : ∀ u, r.Matches u → ∃ c : Char, u = codes [c] ∧ c.isDigit = true) :
    ∃ s, u = codes s ∧ allDigits s := by
  generalize hq : Rx.star r = q at h
  induction h with
  | starNil => exact ⟨[], rfl, by simp [allDigits]⟩
  | starCons h1 h2 _ ih =>
    cases hq
    obtain ⟨c, rfl, hc⟩ := hr _ h1
    obtain ⟨s, rfl, hs⟩ := ih rfl
    refine ⟨c :: s, rfl, fun x hx => ?_⟩
    rcases List.mem_cons.mp hx with rfl | hx
    · exact hc
    · exact hs x hx
  | _ => cases hq

theorem textOf_codes (s : List Char) : textOf (codes s) = s := uncodes s

/-- What the token for integers is and what number is read. -/
theorem int_split {u : List WChar} (h : Rx.int.Matches u) :
    ∃ s n, u = codes s ∧ Numeral s n ∧ Action.decimal s = some (n : ℚ) := by
  unfold Rx.int at h
  cases h with
  | seq h1 h2 =>
    unfold Rx.plus at h2
    cases h2 with
    | seq h2 h3 =>
      obtain ⟨c, rfl, hc⟩ := digit_codes h2
      obtain ⟨s, rfl, hs⟩ := star_codes h3 fun _ => digit_codes
      have ha : allDigits (c :: s) := by
        intro x hx
        rcases List.mem_cons.mp hx with rfl | hx
        · exact hc
        · exact hs x hx
      have hd := decimal_digits ha (by simp)
      rw [digits_natOf] at hd
      unfold Rx.opt at h1
      cases h1 with
      | altR h =>
        cases h
        exact ⟨c :: s, _, rfl, .pos (by simp) ha, by rw [hd]; simp⟩
      | altL h =>
        rw [ch_codes h]
        refine ⟨'-' :: c :: s, _, rfl, .neg (by simp) ha, ?_⟩
        have t1 : (c :: s).takeWhile Char.isDigit = c :: s := List.takeWhile_eq_self_iff.mpr ha
        have t2 : (c :: s).dropWhile Char.isDigit = [] := List.dropWhile_eq_nil_iff.mpr ha
        simp only [Action.decimal, List.head?_cons, if_true, List.drop_succ_cons, List.drop_zero, t1,
          t2, List.head?_nil, reduceCtorEq, if_false, false_and, digits_natOf]
        simp [natOf]

/-! ## The parts -/

/-- The marks a tense mark is read as. -/
def TenseIs (ms : List Mark) (n : Option Int) : Prop :=
  match n with
  | none => ms = []
  | some n => (ms = [.tense n] ∧ -5 ≤ n ∧ n ≤ 5) ∨ ∃ s, ms = [.time s] ∧ Action.decimal s = some (n : ℚ)

/-- The trees of a tense mark. -/
def IsTense (as : List Ast) (n : Option Int) : Prop :=
  ∃ ms, partAll as = some (ms.map .mark) ∧ TenseIs ms n

theorem tense_rule {body : List Gram} {e : Emit} (hr : (body, e) ∈ rules .tense) {v : List WChar}
    {b : List Ast} (hb : DerivesAll body v b) : ∃ n, TenseMark v n ∧ IsTense [.node e b] n := by
  simp only [rules, List.mem_cons, Prod.mk.injEq, List.not_mem_nil, or_false] at hr
  rcases hr with ⟨rfl, rfl⟩ | ⟨rfl, rfl⟩ | ⟨rfl, rfl⟩ | ⟨rfl, rfl⟩
  · obtain ⟨v, w, b, c, rfl, rfl, h1, h2⟩ := cons_split hb
    obtain ⟨v', w', b', c', rfl, rfl, h3, h4⟩ := cons_split h2
    obtain ⟨v'', w'', b'', c'', rfl, rfl, h5, h6⟩ := cons_split h4
    obtain ⟨rfl, rfl⟩ := nil_split h6
    obtain ⟨w1, rfl, hw1, rfl⟩ := kw_split h1
    obtain ⟨w3, rfl, hw3, rfl⟩ := kw_split h5
    obtain ⟨x, w2, rfl, hx, hw2, _, hl⟩ := lex_split h3
    obtain ⟨s, n, rfl, hn, hd⟩ := int_split hx
    rw [hl (by decide), textOf_codes]
    refine ⟨some n, ?_, [.time s], rfl, .inr ⟨s, rfl, hd⟩⟩
    simpa using TenseMark.time hw1 hw2 hw3 hn
  · obtain ⟨v, w, b, c, rfl, rfl, h1, h2⟩ := cons_split hb
    obtain ⟨rfl, rfl⟩ := nil_split h2
    obtain ⟨w1, rfl, hw1, rfl⟩ := kw_split h1
    rw [List.append_nil]
    exact ⟨_, .future hw1, [.tense 5], rfl, .inl ⟨rfl, by decide, by decide⟩⟩
  · obtain ⟨v, w, b, c, rfl, rfl, h1, h2⟩ := cons_split hb
    obtain ⟨rfl, rfl⟩ := nil_split h2
    obtain ⟨w1, rfl, hw1, rfl⟩ := kw_split h1
    rw [List.append_nil]
    exact ⟨_, .present hw1, [.tense 0], rfl, .inl ⟨rfl, by decide, by decide⟩⟩
  · obtain ⟨v, w, b, c, rfl, rfl, h1, h2⟩ := cons_split hb
    obtain ⟨rfl, rfl⟩ := nil_split h2
    obtain ⟨w1, rfl, hw1, rfl⟩ := kw_split h1
    rw [List.append_nil]
    exact ⟨_, .past hw1, [.tense (-5)], rfl, .inl ⟨rfl, by decide, by decide⟩⟩

theorem tense_split {u : List WChar} {a : List Ast}
    (h : Derives (Gram.maybe [.nt .tense]) u a) : ∃ n, TenseMark u n ∧ IsTense a n := by
  rcases maybe_split h with ⟨rfl, rfl⟩ | h
  · exact ⟨none, .none, [], rfl, rfl⟩
  · obtain ⟨v, w, b, c, rfl, rfl, h1, h2⟩ := cons_split h
    obtain ⟨rfl, rfl⟩ := nil_split h2
    rw [List.append_nil, List.append_nil]
    cases h1 with
    | nt_plain hr _ => simp [rules] at hr
    | nt_node he hr hb => exact tense_rule hr hb

/-! ## Budgets and truth values -/

/-- Numerals with or without a decimal point, and their values. -/
inductive Decimal : List Char → ℚ → Prop where
  | whole {a : List Char} : a ≠ [] → allDigits a → Decimal a (natOf a)
  | point {a b : List Char} : a ≠ [] ∨ b ≠ [] → allDigits a → allDigits b →
      Decimal (a ++ '.' :: b) (natOf a + natOf b / 10 ^ b.length)

/-- Up to three numerals with semicolons between and the same character at both ends, possibly
nothing at all. -/
inductive Values (q : Char) : List WChar → List (List Char) → Prop where
  | none : Values q [] []
  | one {x : List Char} {u v w : List WChar} : Blanks u → Blanks v → Blanks w →
      Values q (codes [q] ++ (u ++ (codes x ++ (v ++ (codes [q] ++ w))))) [x]
  | two {x y : List Char} {u v u' v' w : List WChar} : Blanks u → Blanks v → Blanks u' → Blanks v' →
      Blanks w →
      Values q (codes [q] ++ (u ++ (codes x ++ (v ++ (codes [';'] ++ (u' ++ (codes y ++ (v' ++
        (codes [q] ++ w))))))))) [x, y]
  | three {x y z : List Char} {u v u' v' u'' v'' w : List WChar} : Blanks u → Blanks v →
      Blanks u' → Blanks v' → Blanks u'' → Blanks v'' → Blanks w →
      Values q (codes [q] ++ (u ++ (codes x ++ (v ++ (codes [';'] ++ (u' ++ (codes y ++ (v' ++
        (codes [';'] ++ (u'' ++ (codes z ++ (v'' ++ (codes [q] ++ w))))))))))))) [x, y, z]

theorem Decimal.reads {s : List Char} {x : ℚ} (h : Decimal s x) : Action.decimal s = some x := by
  cases h with
  | whole h ha => rw [decimal_digits ha h, digits_natOf]
  | point h ha hb => rw [decimal_point ha hb h, digits_natOf, digits_natOf]

theorem rng_codes {lo : Char} (hlo : 48 ≤ lo.toNat) {u : List WChar}
    (h : (Rx.rng lo '9').Matches u) : ∃ c : Char, u = codes [c] ∧ c.isDigit = true := by
  unfold Rx.rng at h
  cases h with
  | @cls _ l hi n h1 h2 h3 =>
    simp only [List.mem_singleton, Prod.mk.injEq] at h1
    obtain ⟨rfl, rfl⟩ := h1
    have h9 : n ≤ 57 := h3
    have h0 : 48 ≤ n := le_trans hlo h2
    have key : ∀ m, m ≤ 57 → 48 ≤ m → (Char.ofNat m).isDigit = true ∧ (Char.ofNat m).toNat = m := by
      decide
    obtain ⟨k1, k2⟩ := key n h9 h0
    exact ⟨Char.ofNat n, by simp [codes, k2], k1⟩

theorem allDigits_cons {c : Char} {s : List Char} (hc : c.isDigit = true) (hs : allDigits s) :
    allDigits (c :: s) := by
  intro x hx
  rcases List.mem_cons.mp hx with rfl | hx
  · exact hc
  · exact hs x hx

theorem plus_codes {r : Rx} {u : List WChar} (h : (Rx.plus r).Matches u)
    (hr : ∀ u, r.Matches u → ∃ c : Char, u = codes [c] ∧ c.isDigit = true) :
    ∃ s, u = codes s ∧ s ≠ [] ∧ allDigits s := by
  unfold Rx.plus at h
  cases h with
  | seq h2 h3 =>
    obtain ⟨c, rfl, hc⟩ := hr _ h2
    obtain ⟨s, rfl, hs⟩ := star_codes h3 hr
    exact ⟨c :: s, rfl, by simp, allDigits_cons hc hs⟩

theorem zero_codes {u : List WChar} (h : (Rx.ch '0').Matches u) :
    ∃ c : Char, u = codes [c] ∧ c.isDigit = true := ⟨_, ch_codes h, rfl⟩

theorem optZero_codes {u : List WChar} (h : (Rx.opt (Rx.ch '0')).Matches u) :
    ∃ s, u = codes s ∧ allDigits s := by
  unfold Rx.opt at h
  cases h with
  | altL h => exact ⟨['0'], ch_codes h, by simp [allDigits]⟩
  | altR h => cases h; exact ⟨[], rfl, by simp [allDigits]⟩

/-- `0`, `1`, `.25`, `0.25`, `1.`, `1.00`. -/
def UnitForm (s : List Char) : Prop :=
  s = ['0'] ∨ s = ['1'] ∨
    (∃ a b, s = a ++ '.' :: b ∧ (a = [] ∨ a = ['0']) ∧ b ≠ [] ∧ allDigits b) ∨
    ∃ b, s = '1' :: '.' :: b ∧ ∀ c ∈ b, c = '0'

/-- `.25`, `0.25`, but not `.00`. -/
def OpenForm (s : List Char) : Prop :=
  ∃ a b, s = a ++ '.' :: b ∧ (a = [] ∨ a = ['0']) ∧ allDigits b ∧ ∃ c ∈ b, c ≠ '0'

/-- Digits, the first not `0`. -/
def CountForm (s : List Char) : Prop := s ≠ [] ∧ allDigits s ∧ s.head? ≠ some '0'

/-- The first, the second and the third, those there are, have these forms. -/
def Forms (P Q R : List Char → Prop) (ss : List (List Char)) : Prop :=
  (∀ s, ss[0]? = some s → P s) ∧ (∀ s, ss[1]? = some s → Q s) ∧ (∀ s, ss[2]? = some s → R s)

theorem star_zeros {u : List WChar} (h : (Rx.star (Rx.ch '0')).Matches u) :
    ∃ s, u = codes s ∧ ∀ c ∈ s, c = '0' := by
  generalize hq : Rx.star (Rx.ch '0') = q at h
  induction h with
  | starNil => exact ⟨[], rfl, by simp⟩
  | starCons h1 h2 _ ih =>
    cases hq
    obtain ⟨s, rfl, hs⟩ := ih rfl
    rw [ch_codes h1]
    exact ⟨'0' :: s, rfl, by simpa using hs⟩
  | _ => cases hq

theorem zeros_star : ∀ {s : List Char}, (∀ c ∈ s, c = '0') → (Rx.star (Rx.ch '0')).Matches (codes s)
  | [], _ => .starNil
  | c :: s, h => by
    obtain rfl := h c (by simp)
    exact .starCons (u := codes ['0']) (.cls (List.mem_singleton.mpr rfl) (Nat.le_refl _)
      (Nat.le_refl _)) (zeros_star fun c hc => h c (by simp [hc]))

theorem optZero_form {u : List WChar} (h : (Rx.opt (Rx.ch '0')).Matches u) :
    ∃ s, u = codes s ∧ (s = [] ∨ s = ['0']) := by
  unfold Rx.opt at h
  cases h with
  | altL h => exact ⟨['0'], ch_codes h, .inr rfl⟩
  | altR h => cases h; exact ⟨[], rfl, .inl rfl⟩

theorem ch_matches (c : Char) : (Rx.ch c).Matches (codes [c]) :=
  .cls (List.mem_singleton.mpr rfl) (Nat.le_refl _) (Nat.le_refl _)

theorem optZero_matches {s : List Char} (h : s = [] ∨ s = ['0']) :
    (Rx.opt (Rx.ch '0')).Matches (codes s) := by
  rcases h with rfl | rfl
  · exact .altR .eps
  · exact .altL (ch_matches '0')

theorem codes_inj {s t : List Char} (h : codes s = codes t) : s = t := by
  rw [← uncodes s, h, uncodes]

theorem digit_range {c : Char} (h : c.isDigit = true) : 48 ≤ c.toNat ∧ c.toNat ≤ 57 := by
  simp only [Char.isDigit, Bool.and_eq_true, decide_eq_true_eq] at h
  exact ⟨h.1, h.2⟩

theorem digits_star {s : List Char} (h : allDigits s) : (Rx.star Rx.digit).Matches (codes s) :=
  star_cls s fun c hc => ⟨(48, 57), List.mem_singleton.mpr rfl, (digit_range (h c hc)).1, (digit_range (h c hc)).2⟩

theorem digits_plus {s : List Char} (h0 : s ≠ []) (h : allDigits s) :
    (Rx.plus Rx.digit).Matches (codes s) :=
  plus_cls h0 fun c hc => ⟨(48, 57), List.mem_singleton.mpr rfl, (digit_range (h c hc)).1, (digit_range (h c hc)).2⟩

/-- Digits other than `0`. -/
theorem rng_form {u : List WChar} (h : (Rx.rng '1' '9').Matches u) :
    ∃ c : Char, u = codes [c] ∧ c.isDigit = true ∧ c ≠ '0' := by
  unfold Rx.rng at h
  cases h with
  | @cls _ l hi n h1 h2 h3 =>
    simp only [List.mem_singleton, Prod.mk.injEq] at h1
    obtain ⟨rfl, rfl⟩ := h1
    have h9 : n ≤ 57 := h3
    have h0 : 49 ≤ n := h2
    have key : ∀ m, m ≤ 57 → 49 ≤ m → (Char.ofNat m).isDigit = true ∧ (Char.ofNat m).toNat = m ∧
        Char.ofNat m ≠ '0' := by
      decide
    obtain ⟨k1, k2, k3⟩ := key n h9 h0
    exact ⟨Char.ofNat n, by simp [codes, k2], k1, k3⟩

theorem nonzero_matches {c : Char} (h : c.isDigit = true) (h0 : c ≠ '0') :
    (Rx.rng '1' '9').Matches (codes [c]) := by
  obtain ⟨h1, h2⟩ := digit_range h
  have h3 : c.toNat ≠ 48 := fun h => h0 (Char.toNat_inj.mp h)
  exact .cls (List.mem_singleton.mpr rfl) (show 49 ≤ c.toNat by omega) h2

theorem unit_form {s : List Char} : Rx.unit.Matches (codes s) ↔ UnitForm s := by
  constructor
  · intro h
    generalize hu : codes s = u at h
    unfold Rx.unit at h
    cases h with
    | altL h =>
      cases h with
      | seq h1 h2 =>
        cases h2 with
        | seq h2 h3 =>
          obtain ⟨a, rfl, ha⟩ := optZero_form h1
          obtain ⟨b, rfl, hb0, hb⟩ := plus_codes h3 fun _ => digit_codes
          rw [ch_codes h2, ← codes_append, ← codes_append] at hu
          exact .inr (.inr (.inl ⟨a, b, codes_inj hu, ha, hb0, hb⟩))
    | altR h =>
      cases h with
      | altL h =>
        cases h with
        | seq h1 h2 =>
          cases h2 with
          | seq h2 h3 =>
            obtain ⟨b, rfl, hb⟩ := star_zeros h3
            rw [ch_codes h1, ch_codes h2, ← codes_append, ← codes_append] at hu
            exact .inr (.inr (.inr ⟨b, codes_inj hu, hb⟩))
      | altR h =>
        cases h with
        | altL h => rw [ch_codes h] at hu; exact .inr (.inl (codes_inj hu))
        | altR h => rw [ch_codes h] at hu; exact .inl (codes_inj hu)
  · rintro (rfl | rfl | ⟨a, b, rfl, ha, hb0, hb⟩ | ⟨b, rfl, hb⟩)
    · exact .altR (.altR (.altR (ch_matches '0')))
    · exact .altR (.altR (.altL (ch_matches '1')))
    · rw [codes_append, show codes ('.' :: b) = codes ['.'] ++ codes b from rfl]
      exact .altL (.seq (optZero_matches ha) (.seq (ch_matches '.') (digits_plus hb0 hb)))
    · exact .altR (.altL (.seq (u := codes ['1']) (ch_matches '1')
        (.seq (u := codes ['.']) (ch_matches '.') (zeros_star hb))))

theorem zeros_nonzero : ∀ {b : List Char}, (∃ c ∈ b, c ≠ '0') →
    ∃ z c d, b = z ++ c :: d ∧ (∀ x ∈ z, x = '0') ∧ c ≠ '0'
  | [], h => by simp at h
  | x :: b, h => by
    by_cases hx : x = '0'
    · subst hx
      obtain ⟨z, c, d, rfl, hz, hc⟩ := zeros_nonzero (b := b) (by simpa using h)
      exact ⟨'0' :: z, c, d, rfl, by simpa using hz, hc⟩
    · exact ⟨[], x, b, rfl, by simp, hx⟩

theorem openUnit_form {s : List Char} : Rx.openUnit.Matches (codes s) ↔ OpenForm s := by
  constructor
  · intro h
    generalize hu : codes s = u at h
    unfold Rx.openUnit at h
    cases h with
    | seq h1 h2 =>
      cases h2 with
      | seq h2 h3 =>
        cases h3 with
        | seq h3 h4 =>
          cases h4 with
          | seq h4 h5 =>
            obtain ⟨a, rfl, ha⟩ := optZero_form h1
            obtain ⟨b, rfl, hb⟩ := star_codes h3 fun _ => zero_codes
            obtain ⟨d, rfl, hd⟩ := star_codes h5 fun _ => digit_codes
            unfold Rx.plus at h4
            cases h4 with
            | seq h6 h7 =>
              obtain ⟨x, rfl, hx, hx0⟩ := rng_form h6
              obtain ⟨c, rfl, hc⟩ := star_codes h7 fun _ => rng_codes (by decide)
              rw [ch_codes h2] at hu
              refine ⟨a, b ++ (([x] ++ c) ++ d), codes_inj ?_, ha, ?_, x, by simp, hx0⟩
              · rw [hu]; simp [codes]
              · exact allDigits_append hb (allDigits_append (allDigits_cons hx hc) hd)
  · rintro ⟨a, b, rfl, ha, hb, hb0⟩
    obtain ⟨z, c, d, rfl, hz, hc⟩ := zeros_nonzero hb0
    have : codes (a ++ '.' :: (z ++ c :: d)) =
        codes a ++ (codes ['.'] ++ (codes z ++ ((codes [c] ++ []) ++ codes d))) := by simp [codes]
    rw [this]
    exact .seq (optZero_matches ha) (.seq (ch_matches '.') (.seq (zeros_star hz)
      (.seq (.seq (nonzero_matches (hb c (by simp)) hc) .starNil)
        (digits_star fun x hx => hb x (by simp [hx])))))

theorem posNat_form {s : List Char} : Rx.posNat.Matches (codes s) ↔ CountForm s := by
  constructor
  · intro h
    generalize hu : codes s = u at h
    unfold Rx.posNat at h
    cases h with
    | seq h4 h5 =>
      obtain ⟨d, rfl, hd⟩ := star_codes h5 fun _ => digit_codes
      unfold Rx.plus at h4
      cases h4 with
      | seq h6 h7 =>
        obtain ⟨x, rfl, hx, hx0⟩ := rng_form h6
        obtain ⟨c, rfl, hc⟩ := star_codes h7 fun _ => rng_codes (by decide)
        rw [← codes_append, ← codes_append] at hu
        obtain rfl := codes_inj hu
        exact ⟨by simp, allDigits_append (allDigits_cons hx hc) hd, by simpa using hx0⟩
  · rintro ⟨h0, h, hz⟩
    cases s with
    | nil => exact absurd rfl h0
    | cons c s =>
      have : codes (c :: s) = (codes [c] ++ []) ++ codes s := by simp [codes]
      rw [this]
      exact .seq (.seq (nonzero_matches (h c (by simp)) (by simpa using hz)) .starNil)
        (digits_star fun x hx => h x (by simp [hx]))

theorem unit_split {u : List WChar} (h : Rx.unit.Matches u) : ∃ s x, u = codes s ∧ Decimal s x := by
  unfold Rx.unit at h
  cases h with
  | altL h =>
    cases h with
    | seq h1 h2 =>
      cases h2 with
      | seq h2 h3 =>
        obtain ⟨a, rfl, ha⟩ := optZero_codes h1
        obtain ⟨b, rfl, hb0, hb⟩ := plus_codes h3 fun _ => digit_codes
        rw [ch_codes h2]
        exact ⟨a ++ '.' :: b, _, by simp [codes], .point (.inr hb0) ha hb⟩
  | altR h =>
    cases h with
    | altL h =>
      cases h with
      | seq h1 h2 =>
        cases h2 with
        | seq h2 h3 =>
          obtain ⟨b, rfl, hb⟩ := star_codes h3 fun _ => zero_codes
          rw [ch_codes h1, ch_codes h2]
          exact ⟨['1'] ++ '.' :: b, _, by simp [codes], .point (by simp) (by simp [allDigits]) hb⟩
    | altR h =>
      cases h with
      | altL h => exact ⟨['1'], _, ch_codes h, .whole (by simp) (by simp [allDigits])⟩
      | altR h => exact ⟨['0'], _, ch_codes h, .whole (by simp) (by simp [allDigits])⟩

theorem openUnit_split {u : List WChar} (h : Rx.openUnit.Matches u) :
    ∃ s x, u = codes s ∧ Decimal s x := by
  unfold Rx.openUnit at h
  cases h with
  | seq h1 h2 =>
    cases h2 with
    | seq h2 h3 =>
      cases h3 with
      | seq h3 h4 =>
        cases h4 with
        | seq h4 h5 =>
          obtain ⟨a, rfl, ha⟩ := optZero_codes h1
          obtain ⟨b, rfl, hb⟩ := star_codes h3 fun _ => zero_codes
          obtain ⟨c, rfl, hc0, hc⟩ := plus_codes h4 fun _ => rng_codes (by decide)
          obtain ⟨d, rfl, hd⟩ := star_codes h5 fun _ => digit_codes
          rw [ch_codes h2]
          exact ⟨a ++ '.' :: (b ++ (c ++ d)), _, by simp [codes],
            .point (.inr (by simp [hc0])) ha (allDigits_append hb (allDigits_append hc hd))⟩

theorem posNat_split {u : List WChar} (h : Rx.posNat.Matches u) :
    ∃ s x, u = codes s ∧ Decimal s x := by
  unfold Rx.posNat at h
  cases h with
  | seq h1 h2 =>
    obtain ⟨a, rfl, ha0, ha⟩ := plus_codes h1 fun _ => rng_codes (by decide)
    obtain ⟨b, rfl, hb⟩ := star_codes h2 fun _ => digit_codes
    exact ⟨a ++ b, _, by simp [codes], .whole (by simp [ha0]) (allDigits_append ha hb)⟩

/-- The shape of budgets and truth values. -/
theorem three_split {q : Char} {r1 r2 r3 : Rx} {e1 e2 e3 : Emit} (h1 : e1 ≠ .none)
    (h2 : e2 ≠ .none) (h3 : e3 ≠ .none)
    (d1 : ∀ u, r1.Matches u → ∃ s x, u = codes s ∧ Decimal s x)
    (d2 : ∀ u, r2.Matches u → ∃ s x, u = codes s ∧ Decimal s x)
    (d3 : ∀ u, r3.Matches u → ∃ s x, u = codes s ∧ Decimal s x) {u : List WChar} {a : List Ast}
    (h : DerivesAll [Gram.kw [q], Gram.lex r1 e1, Gram.maybe [Gram.kw [';'], Gram.lex r2 e2,
      Gram.maybe [Gram.kw [';'], Gram.lex r3 e3]], Gram.kw [q]] u a) :
    ∃ ss xs, Values q u ss ∧ List.Forall₂ Decimal ss xs ∧ ss ≠ [] ∧
      a = List.zipWith Ast.leaf [e1, e2, e3] ss ∧
      Forms (fun s => r1.Matches (codes s)) (fun s => r2.Matches (codes s))
        (fun s => r3.Matches (codes s)) ss := by
  obtain ⟨_, _, _, _, rfl, rfl, k1, g1⟩ := cons_split h
  obtain ⟨u1, rfl, hu1, rfl⟩ := kw_split k1
  obtain ⟨_, _, _, _, rfl, rfl, k2, g2⟩ := cons_split g1
  obtain ⟨x, v1, rfl, hx, hv1, _, l1⟩ := lex_split k2
  obtain rfl := l1 h1
  obtain ⟨x, dx, rfl, hdx⟩ := d1 _ hx
  obtain ⟨_, _, _, _, rfl, rfl, k3, g3⟩ := cons_split g2
  obtain ⟨_, _, _, _, rfl, rfl, k4, g4⟩ := cons_split g3
  obtain ⟨w, rfl, hw, rfl⟩ := kw_split k4
  obtain ⟨rfl, rfl⟩ := nil_split g4
  rcases maybe_split k3 with ⟨rfl, rfl⟩ | m1
  · refine ⟨[x], [dx], ?_, .cons hdx .nil, by simp, by simp [textOf_codes],
      by simpa [Forms] using hx⟩
    simpa using Values.one (q := q) hu1 hv1 hw
  · obtain ⟨_, _, _, _, rfl, rfl, k5, m2⟩ := cons_split m1
    obtain ⟨u2, rfl, hu2, rfl⟩ := kw_split k5
    obtain ⟨_, _, _, _, rfl, rfl, k6, m3⟩ := cons_split m2
    obtain ⟨y, v2, rfl, hy, hv2, _, l2⟩ := lex_split k6
    obtain rfl := l2 h2
    obtain ⟨y, dy, rfl, hdy⟩ := d2 _ hy
    obtain ⟨_, _, _, _, rfl, rfl, k7, m4⟩ := cons_split m3
    obtain ⟨rfl, rfl⟩ := nil_split m4
    rcases maybe_split k7 with ⟨rfl, rfl⟩ | n1
    · refine ⟨[x, y], [dx, dy], ?_, .cons hdx (.cons hdy .nil), by simp, by simp [textOf_codes],
        by simpa [Forms] using ⟨hx, hy⟩⟩
      simpa using Values.two (q := q) hu1 hv1 hu2 hv2 hw
    · obtain ⟨_, _, _, _, rfl, rfl, k8, n2⟩ := cons_split n1
      obtain ⟨u3, rfl, hu3, rfl⟩ := kw_split k8
      obtain ⟨_, _, _, _, rfl, rfl, k9, n3⟩ := cons_split n2
      obtain ⟨z, v3, rfl, hz, hv3, _, l3⟩ := lex_split k9
      obtain rfl := l3 h3
      obtain ⟨z, dz, rfl, hdz⟩ := d3 _ hz
      obtain ⟨rfl, rfl⟩ := nil_split n3
      refine ⟨[x, y, z], [dx, dy, dz], ?_, .cons hdx (.cons hdy (.cons hdz .nil)), by simp,
        by simp [textOf_codes], by simpa [Forms] using ⟨hx, hy, hz⟩⟩
      simpa using Values.three (q := q) hu1 hv1 hu2 hv2 hu3 hv3 hw

/-- The marks a truth value is read as. -/
def truthMarks (ss : List (List Char)) : List Mark := if ss = [] then [] else [.truth ss]

theorem values_rule {q : Char} {r1 r2 r3 : Rx} {e e1 e2 e3 : Emit} {u : List WChar} {a : List Ast}
    {n : NT} (hr : ∀ b x, (b, x) ∈ rules n → x = e ∧ b = [Gram.kw [q], Gram.lex r1 e1,
      Gram.maybe [Gram.kw [';'], Gram.lex r2 e2, Gram.maybe [Gram.kw [';'], Gram.lex r3 e3]],
      Gram.kw [q]]) (he : e ≠ .none) (h1 : e1 ≠ .none) (h2 : e2 ≠ .none) (h3 : e3 ≠ .none)
    (d1 : ∀ u, r1.Matches u → ∃ s x, u = codes s ∧ Decimal s x)
    (d2 : ∀ u, r2.Matches u → ∃ s x, u = codes s ∧ Decimal s x)
    (d3 : ∀ u, r3.Matches u → ∃ s x, u = codes s ∧ Decimal s x) (h : Derives (.nt n) u a) :
    ∃ ss xs, Values q u ss ∧ List.Forall₂ Decimal ss xs ∧ ss ≠ [] ∧
      a = [.node e (List.zipWith Ast.leaf [e1, e2, e3] ss)] ∧
      Forms (fun s => r1.Matches (codes s)) (fun s => r2.Matches (codes s))
        (fun s => r3.Matches (codes s)) ss := by
  cases h with
  | nt_plain hm _ => exact absurd (hr _ _ hm).1.symm he
  | nt_node _ hm hb =>
    obtain ⟨rfl, rfl⟩ := hr _ _ hm
    obtain ⟨ss, xs, k1, k2, k3, rfl, k4⟩ := three_split h1 h2 h3 d1 d2 d3 hb
    exact ⟨ss, xs, k1, k2, k3, rfl, k4⟩

theorem values_length {q : Char} {u : List WChar} {ss : List (List Char)} (h : Values q u ss) :
    ss.length ≤ 3 := by
  cases h <;> simp

theorem leaves_part {e1 e2 e3 : Emit} (n1 : ∀ s, Part.ofLeaf e1 s = .num s)
    (n2 : ∀ s, Part.ofLeaf e2 s = .num s) (n3 : ∀ s, Part.ofLeaf e3 s = .num s) :
    ∀ {ss : List (List Char)}, ss.length ≤ 3 →
      partAll (List.zipWith Ast.leaf [e1, e2, e3] ss) = some (ss.map .num)
  | [], _ => rfl
  | [_], _ => by simp [partAll, Ast.part, n1]
  | [_, _], _ => by simp [partAll, Ast.part, n1, n2]
  | [_, _, _], _ => by simp [partAll, Ast.part, n1, n2, n3]
  | _ :: _ :: _ :: _ :: _, h => by simp at h

theorem nums?_nums : ∀ ss : List (List Char), Part.nums? (ss.map .num) = some ss
  | [] => rfl
  | s :: ss => by simp [Part.nums?, nums?_nums ss]

theorem truth_split {n : NT} (hn : n = .truth ∨ n = .desire) {u : List WChar} {a : List Ast}
    (h : Derives (Gram.maybe [.nt n]) u a) : ∃ ss xs, Values '%' u ss ∧
      List.Forall₂ Decimal ss xs ∧ partAll a = some ((truthMarks ss).map .mark) ∧
      Forms UnitForm OpenForm CountForm ss := by
  rcases maybe_split h with ⟨rfl, rfl⟩ | h0
  · exact ⟨[], [], .none, .nil, rfl, by simp [Forms]⟩
  · obtain ⟨v, w, b, c, rfl, rfl, h1, h2⟩ := cons_split h0
    obtain ⟨rfl, rfl⟩ := nil_split h2
    rw [List.append_nil, List.append_nil]
    have h3 : Derives (.nt .truth) v b := by
      rcases hn with rfl | rfl
      · exact h1
      · cases h1 with
        | nt_plain hm hb =>
          simp only [rules, List.mem_singleton, Prod.mk.injEq, and_true] at hm
          subst hm
          obtain ⟨v', w', b', c', rfl, rfl, h4, h5⟩ := cons_split hb
          obtain ⟨rfl, rfl⟩ := nil_split h5
          rw [List.append_nil, List.append_nil]
          exact h4
        | nt_node he hm _ =>
          simp only [rules, List.mem_singleton, Prod.mk.injEq] at hm
          exact absurd hm.2 he
    obtain ⟨ss, xs, k1, k2, k3, rfl, k4⟩ := values_rule (n := .truth) (e := .truth) (by
      intro b x hm
      simp only [rules, List.mem_singleton, Prod.mk.injEq] at hm
      exact ⟨hm.2, hm.1⟩) (by decide) (by decide) (by decide) (by decide)
      (fun _ => unit_split) (fun _ => openUnit_split) (fun _ => posNat_split) h3
    simp only [unit_form, openUnit_form, posNat_form] at k4
    refine ⟨ss, xs, k1, k2, ?_, k4⟩
    have := leaves_part (e1 := .frequency) (e2 := .confidence) (e3 := .k_evidence) (fun _ => rfl)
      (fun _ => rfl) (fun _ => rfl) (values_length k1)
    simp [partAll, Ast.part, this, Part.build, nums?_nums, truthMarks, k3]

theorem budget_split {u : List WChar} {a : List Ast}
    (h : Derives (Gram.maybe [.nt .budget]) u a) : ∃ ss xs, Values '$' u ss ∧
      List.Forall₂ Decimal ss xs ∧
      partAll a = some (if ss = [] then [] else [.budget ss]) ∧
      Forms UnitForm OpenForm UnitForm ss := by
  rcases maybe_split h with ⟨rfl, rfl⟩ | h0
  · exact ⟨[], [], .none, .nil, rfl, by simp [Forms]⟩
  · obtain ⟨v, w, b, c, rfl, rfl, h1, h2⟩ := cons_split h0
    obtain ⟨rfl, rfl⟩ := nil_split h2
    rw [List.append_nil, List.append_nil]
    obtain ⟨ss, xs, k1, k2, k3, rfl, k4⟩ := values_rule (n := .budget) (e := .budget) (by
      intro b x hm
      simp only [rules, List.mem_singleton, Prod.mk.injEq] at hm
      exact ⟨hm.2, hm.1⟩) (by decide) (by decide) (by decide) (by decide)
      (fun _ => unit_split) (fun _ => openUnit_split) (fun _ => unit_split) h1
    simp only [unit_form, openUnit_form] at k4
    refine ⟨ss, xs, k1, k2, ?_, k4⟩
    have := leaves_part (e1 := .priority) (e2 := .durability) (e3 := .quality) (fun _ => rfl)
      (fun _ => rfl) (fun _ => rfl) (values_length k1)
    simp [partAll, Ast.part, this, Part.build, nums?_nums, k3]

theorem content_split {u : List WChar} {a : List Ast} (h : Derives Gram.content u a) :
    ∃ c t, a = [c] ∧ c.part = some (.syn t) := by
  obtain ⟨h1, p, hp, hf⟩ := derivesAll_typed (.cons h .nil) [([.term], none), ([.term], none)]
    (by decide +kernel)
  simp only [List.mem_cons, List.not_mem_nil, or_false, or_self] at hp
  subst hp
  simp only [Pat.Fits, List.append_nil] at hf
  rw [List.map_eq_singleton_iff] at hf
  obtain ⟨c, rfl, hf⟩ := hf
  obtain ⟨q, h2, h3, _⟩ := evalNode_part ⟨Rnd.exact ℚ, fun _ => false, fun _ => 0, id,
    Config.ofRnd (Rnd.exact ℚ)⟩ undefined (h1 c (by simp))
  rw [hf, part_term] at h3
  obtain ⟨t, rfl⟩ := h3
  exact ⟨c, t, rfl, h2⟩

theorem partAll_append : ∀ {as bs : List Ast} {ps qs : List Part}, partAll as = some ps →
    partAll bs = some qs → partAll (as ++ bs) = some (ps ++ qs)
  | [], bs, ps, qs, h1, h2 => by cases h1; exact h2
  | a :: as, bs, ps, qs, h1, h2 => by
    simp only [partAll, Option.bind_eq_some_iff, Option.map_eq_some_iff] at h1
    obtain ⟨p, h3, ps, h4, rfl⟩ := h1
    simp [partAll, h3, partAll_append h4 h2]

theorem marks?_marks : ∀ ms : List Mark, Part.marks? (ms.map .mark) = some ms
  | [] => rfl
  | m :: ms => by simp [Part.marks?, marks?_marks ms]

theorem build_sentence (p : Punct) (t : Syn) (ms : List Mark) :
    Part.build (punctEmit p) (.syn t :: ms.map .mark) = some (.sentence p t ms) := by
  cases p <;> simp [punctEmit, Part.build, marks?_marks]

/-- What a sentence is made of. -/
structure SentenceText (u : List WChar) (p : Punct) (n : Option Int) (vs : List (List Char))
    (xs : List ℚ) : Prop where
  text : ∃ uc w ut uv c, u = uc ++ (codes [punctChar p] ++ (w ++ (ut ++ uv))) ∧
    Derives Gram.content uc c ∧ Blanks w ∧ TenseMark ut n ∧ Values '%' uv vs
  values : List.Forall₂ Decimal vs xs
  forms : Forms UnitForm OpenForm CountForm vs
  asked : p = .question ∨ p = .quest → vs = []

theorem sentence_split {u : List WChar} {a : List Ast} (h : Derives (.nt .sentence) u a) :
    ∃ p n vs xs t tm x, SentenceText u p n vs xs ∧ a = [x] ∧ TenseIs tm n ∧
      x.part = some (.sentence p t (tm ++ truthMarks vs)) := by
  have key : ∀ body e, (body, e) ∈ rules .sentence → ∀ a, DerivesAll body u a →
      ∃ p n vs xs t tm, SentenceText u p n vs xs ∧ TenseIs tm n ∧
        (Ast.node e a).part = some (.sentence p t (tm ++ truthMarks vs)) := by
    intro body e hm a hb
    have asked : ∀ p, (p = .question ∨ p = .quest) → body = [Gram.content, Gram.kw [punctChar p],
        Gram.maybe [.nt .tense]] → e = punctEmit p → ∃ p n vs xs t tm, SentenceText u p n vs xs ∧
        TenseIs tm n ∧ (Ast.node e a).part = some (.sentence p t (tm ++ truthMarks vs)) := by
      rintro p hp rfl rfl
      obtain ⟨uc, _, a1, _, rfl, rfl, k1, g1⟩ := cons_split hb
      obtain ⟨_, _, _, _, rfl, rfl, k2, g2⟩ := cons_split g1
      obtain ⟨ut, _, a3, _, rfl, rfl, k3, g3⟩ := cons_split g2
      obtain ⟨rfl, rfl⟩ := nil_split g3
      obtain ⟨w, rfl, hw, rfl⟩ := kw_split k2
      obtain ⟨c, t, rfl, hc⟩ := content_split k1
      obtain ⟨n, hn, tm, ht1, ht2⟩ := tense_split k3
      refine ⟨p, n, [], [], t, tm, ⟨⟨uc, w, ut, [], _, by simp, k1, hw, hn, .none⟩, .nil,
        by simp [Forms], fun _ => rfl⟩, ht2, ?_⟩
      have := build_sentence p t tm
      simp [Ast.part, partAll, hc, ht1, truthMarks, this]
    have believed : ∀ p d, (p = .judgement ∨ p = .goal) → (d = .truth ∨ d = .desire) →
        body = [Gram.content, Gram.kw [punctChar p], Gram.maybe [.nt .tense], Gram.maybe [.nt d]] →
        e = punctEmit p → ∃ p n vs xs t tm, SentenceText u p n vs xs ∧
        TenseIs tm n ∧ (Ast.node e a).part = some (.sentence p t (tm ++ truthMarks vs)) := by
      rintro p d hp hd rfl rfl
      obtain ⟨uc, _, a1, _, rfl, rfl, k1, g1⟩ := cons_split hb
      obtain ⟨_, _, _, _, rfl, rfl, k2, g2⟩ := cons_split g1
      obtain ⟨ut, _, a3, _, rfl, rfl, k3, g3⟩ := cons_split g2
      obtain ⟨uv, _, a4, _, rfl, rfl, k4, g4⟩ := cons_split g3
      obtain ⟨rfl, rfl⟩ := nil_split g4
      obtain ⟨w, rfl, hw, rfl⟩ := kw_split k2
      obtain ⟨c, t, rfl, hc⟩ := content_split k1
      obtain ⟨n, hn, tm, ht1, ht2⟩ := tense_split k3
      obtain ⟨vs, xs, hv1, hv2, hv3, hv4⟩ := truth_split hd k4
      refine ⟨p, n, vs, xs, t, tm, ⟨⟨uc, w, ut, uv, _, by simp, k1, hw, hn, hv1⟩, hv2, hv4, ?_⟩,
        ht2, ?_⟩
      · rintro (rfl | rfl) <;> simp at hp
      have := build_sentence p t (tm ++ truthMarks vs)
      simp only [List.map_append] at this
      simp [Ast.part, partAll, hc, partAll_append ht1 hv3, this]
    simp only [rules, List.mem_cons, Prod.mk.injEq, List.not_mem_nil, or_false] at hm
    rcases hm with ⟨h1, h2⟩ | ⟨h1, h2⟩ | ⟨h1, h2⟩ | ⟨h1, h2⟩
    · exact believed .judgement .truth (by simp) (by simp) h1 h2
    · exact asked .question (by simp) h1 h2
    · exact believed .goal .desire (by simp) (by simp) h1 h2
    · exact asked .quest (by simp) h1 h2
  cases h with
  | nt_plain hm _ => simp [rules] at hm
  | nt_node he hm hb =>
    obtain ⟨p, n, vs, xs, t, tm, k1, k2, k3⟩ := key _ _ hm _ hb
    exact ⟨p, n, vs, xs, t, tm, _, k1, rfl, k2, k3⟩

/-- What a line is made of. -/
structure LineText (line : List WChar) (bs : List (List Char)) (ys : List ℚ) (p : Punct)
    (n : Option Int) (vs : List (List Char)) (xs : List ℚ) : Prop where
  text : ∃ w ub us, line = w ++ (ub ++ us) ∧ Blanks w ∧ Values '$' ub bs ∧
    SentenceText us p n vs xs
  values : List.Forall₂ Decimal bs ys
  forms : Forms UnitForm OpenForm UnitForm bs

theorem line_split {line : List WChar} {as : List Ast} (h : IsNarsese line as) :
    ∃ bs ys p n vs xs t tm, LineText line bs ys p n vs xs ∧ TenseIs tm n ∧
      partAll as = some [.task (if bs = [] then none else some bs) p t (tm ++ truthMarks vs)] := by
  obtain ⟨w, v, _, a, rfl, rfl, k1, g1⟩ := cons_split h
  obtain ⟨hw, rfl⟩ := blanks_iff.mp k1
  obtain ⟨v, _, a, _, rfl, rfl, k2, g2⟩ := cons_split g1
  obtain ⟨rfl, rfl⟩ := nil_split g2
  simp only [List.append_nil, List.nil_append]
  cases k2 with
  | nt_plain hm _ => simp [rules] at hm
  | nt_node he hm hb =>
    simp only [rules, List.mem_singleton, Prod.mk.injEq] at hm
    obtain ⟨rfl, rfl⟩ := hm
    obtain ⟨ub, _, a1, _, rfl, rfl, k3, g3⟩ := cons_split hb
    obtain ⟨us, _, a2, _, rfl, rfl, k4, g4⟩ := cons_split g3
    obtain ⟨rfl, rfl⟩ := nil_split g4
    obtain ⟨bs, ys, b1, b2, b3, b4⟩ := budget_split k3
    obtain ⟨p, n, vs, xs, t, tm, x, s1, rfl, s2, s3⟩ := sentence_split k4
    refine ⟨bs, ys, p, n, vs, xs, t, tm, ⟨⟨w, ub, us, by simp, hw, b1, s1⟩, b2, b4⟩, s2, ?_⟩
    have hx : partAll [x] = some [.sentence p t (tm ++ truthMarks vs)] := by simp [partAll, s3]
    have := partAll_append b3 hx
    by_cases h0 : bs = [] <;> simp [h0] at this ⊢ <;> simp [partAll, Ast.part, this, Part.build]

end Cnars.Parser
