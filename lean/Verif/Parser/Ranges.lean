import Verif.Parser.TaskLemmas
import Mathlib.Data.List.TakeWhile
import Mathlib.Tactic.Linarith
import Mathlib.Tactic.Positivity
import Mathlib.Tactic.NormNum

/-!
# The numbers in a task

Which tokens stand for numbers in the tree of a line, and what numbers they are.
-/

namespace Cnars.Parser
open Cnars Action

/-! ## Numerals -/

/-- The text of a token. -/
def textOf (u : List WChar) : List Char := u.map fun c => Char.ofNat c.toNat

theorem textOf_append (u v : List WChar) : textOf (u ++ v) = textOf u ++ textOf v := by
  simp [textOf]

theorem Rx.Matches.ch_text {c : Char} {u : List WChar} (h : (Rx.ch c).Matches u) :
    textOf u = [c] := by
  unfold Rx.ch at h
  cases h with
  | @cls _ lo hi n h1 h2 h3 =>
    simp only [List.mem_singleton, Prod.mk.injEq] at h1
    obtain ⟨rfl, rfl⟩ := h1
    have : n = c.toNat := Nat.le_antisymm h3 h2
    subst this
    simp [textOf]

/-- A digit that is not smaller than `lo`. -/
theorem Rx.Matches.rng_text {lo : Char} (hlo : lo = '0' ∨ lo = '1') {u : List WChar}
    (h : (Rx.rng lo '9').Matches u) :
    ∃ c : Char, textOf u = [c] ∧ c.isDigit = true ∧ lo.toNat ≤ c.toNat := by
  unfold Rx.rng at h
  cases h with
  | @cls _ l hi n h1 h2 h3 =>
    simp only [List.mem_singleton, Prod.mk.injEq] at h1
    obtain ⟨rfl, rfl⟩ := h1
    refine ⟨Char.ofNat n, by simp [textOf], ?_⟩
    have h9 : n ≤ 57 := h3
    have h0 : 48 ≤ n := by
      rcases hlo with rfl | rfl
      · exact h2
      · exact Nat.le_of_succ_le h2
    have key : ∀ m, m ≤ 57 → 48 ≤ m → (Char.ofNat m).isDigit = true ∧ (Char.ofNat m).toNat = m := by
      decide
    obtain ⟨k1, k2⟩ := key n h9 h0
    exact ⟨k1, by rw [k2]; exact h2⟩

/-- Only digits. -/
def allDigits (s : List Char) : Prop := ∀ c ∈ s, c.isDigit = true

theorem allDigits_append {s t : List Char} (hs : allDigits s) (ht : allDigits t) :
    allDigits (s ++ t) := by
  intro c hc
  rcases List.mem_append.mp hc with h | h
  · exact hs c h
  · exact ht c h

theorem Rx.star_digits {r : Rx} (hr : ∀ u, r.Matches u → allDigits (textOf u)) {u : List WChar}
    (h : (Rx.star r).Matches u) : allDigits (textOf u) := by
  generalize hq : Rx.star r = q at h
  induction h with
  | starNil => intro c hc; cases hc
  | starCons h1 h2 _ ih =>
    cases hq
    rw [textOf_append]
    exact allDigits_append (hr _ h1) (ih rfl)
  | _ => cases hq

theorem Rx.digit_digits {u : List WChar} (h : Rx.digit.Matches u) : allDigits (textOf u) := by
  obtain ⟨c, e, hc, _⟩ := Rx.Matches.rng_text (.inl rfl) h
  rw [e]
  intro x hx
  simp only [List.mem_singleton] at hx
  exact hx ▸ hc

theorem Rx.zero_digits {u : List WChar} (h : (Rx.ch '0').Matches u) : allDigits (textOf u) := by
  rw [h.ch_text]
  intro x hx
  simp only [List.mem_singleton] at hx
  subst hx
  rfl

theorem Rx.nine_digits {u : List WChar} (h : (Rx.rng '1' '9').Matches u) :
    allDigits (textOf u) := by
  obtain ⟨c, e, hc, _⟩ := Rx.Matches.rng_text (.inr rfl) h
  rw [e]
  intro x hx
  simp only [List.mem_singleton] at hx
  exact hx ▸ hc

theorem digit_bound {c : Char} (h : c.isDigit = true) : 48 ≤ c.toNat ∧ c.toNat ≤ 57 := by
  simp only [Char.isDigit, Bool.and_eq_true, decide_eq_true_eq, UInt32.le_iff_toNat_le] at h
  exact h

theorem digits_foldl : ∀ (s : List Char) (n : Nat),
    s.foldl (fun n c => 10 * n + (c.toNat - 48)) n = n * 10 ^ s.length + digits s
  | [], n => by simp [digits]
  | c :: s, n => by
    rw [List.foldl_cons, digits_foldl s, show digits (c :: s) = s.foldl _ _ from rfl,
      digits_foldl s]
    simp only [List.length_cons, Nat.pow_succ, Nat.mul_zero, Nat.zero_add]
    rw [Nat.add_mul]
    rw [Nat.add_assoc]
    congr 1
    rw [Nat.mul_comm 10 n, Nat.mul_assoc, Nat.mul_comm 10]

theorem digits_cons (c : Char) (s : List Char) :
    digits (c :: s) = (c.toNat - 48) * 10 ^ s.length + digits s := by
  have := digits_foldl s (c.toNat - 48)
  rw [← this, digits]
  simp

theorem digits_append (s t : List Char) :
    digits (s ++ t) = digits s * 10 ^ t.length + digits t := by
  rw [digits, List.foldl_append, digits_foldl t]
  rfl

theorem digits_lt : ∀ {s : List Char}, allDigits s → digits s < 10 ^ s.length
  | [], _ => by simp [digits]
  | c :: s, h => by
    have h1 := digit_bound (h c (by simp))
    have h2 := digits_lt (s := s) fun x hx => h x (by simp [hx])
    rw [digits_cons, List.length_cons, Nat.pow_succ]
    have h3 : (c.toNat - 48) * 10 ^ s.length ≤ 9 * 10 ^ s.length :=
      Nat.mul_le_mul_right _ (by omega)
    omega

/-- The number before the point and after it. -/
theorem decimal_point {a b : List Char} (ha : allDigits a) (hb : allDigits b)
    (h : a ≠ [] ∨ b ≠ []) :
    decimal (a ++ '.' :: b) = some ((digits a : ℚ) + (digits b : ℚ) / 10 ^ b.length) := by
  have hneg : ¬ (a ++ '.' :: b).head? = some '-' := by
    cases a with
    | nil => simp
    | cons c a =>
      simp only [List.cons_append, List.head?_cons, Option.some.injEq]
      rintro rfl
      exact absurd (ha '-' (by simp)) (by decide)
  have h1 : (a ++ '.' :: b).takeWhile Char.isDigit = a := by
    rw [List.takeWhile_append_of_pos ha]
    simp [show ('.' : Char).isDigit = false from rfl]
  have h2 : (a ++ '.' :: b).dropWhile Char.isDigit = '.' :: b := by
    rw [List.dropWhile_append_of_pos ha]
    simp [show ('.' : Char).isDigit = false from rfl]
  have h3 : b.takeWhile Char.isDigit = b := List.takeWhile_eq_self_iff.mpr hb
  simp only [decimal, if_neg hneg, h1, h2, List.head?_cons, if_true, List.drop_succ_cons,
    List.drop_zero, h3]
  rw [if_neg]
  rintro ⟨rfl, rfl⟩
  simp at h

theorem decimal_digits {a : List Char} (ha : allDigits a) (h : a ≠ []) :
    decimal a = some (digits a : ℚ) := by
  have hneg : ¬ a.head? = some '-' := by
    cases a with
    | nil => simp
    | cons c a =>
      simp only [List.head?_cons, Option.some.injEq]
      rintro rfl
      exact absurd (ha '-' (by simp)) (by decide)
  have h1 : a.takeWhile Char.isDigit = a := List.takeWhile_eq_self_iff.mpr ha
  have h2 : a.dropWhile Char.isDigit = [] := List.dropWhile_eq_nil_iff.mpr ha
  simp only [decimal, if_neg hneg, h1, h2, List.head?_nil, reduceCtorEq, if_false]
  rw [if_neg (by simp [h])]
  simp [digits]

theorem fraction_unit {b : List Char} (hb : allDigits b) :
    (0 : ℚ) ≤ (digits b : ℚ) / 10 ^ b.length ∧ (digits b : ℚ) / 10 ^ b.length < 1 := by
  have h := digits_lt hb
  have hp : (0 : ℚ) < 10 ^ b.length := by positivity
  refine ⟨by positivity, ?_⟩
  rw [div_lt_one hp]
  exact_mod_cast h

theorem opt_zero {u : List WChar} (h : (Rx.opt (Rx.ch '0')).Matches u) :
    allDigits (textOf u) ∧ digits (textOf u) = 0 := by
  cases h with
  | altL h => exact ⟨Rx.zero_digits h, by rw [h.ch_text]; rfl⟩
  | altR h =>
    cases h
    exact ⟨fun c hc => (List.not_mem_nil hc).elim, rfl⟩

theorem zeros {u : List WChar} (h : (Rx.star (Rx.ch '0')).Matches u) : digits (textOf u) = 0 := by
  generalize hq : Rx.star (Rx.ch '0') = q at h
  induction h with
  | starNil => rfl
  | starCons h1 h2 _ ih =>
    cases hq
    rw [textOf_append, h1.ch_text, digits_append, ih rfl]
    simp [digits]
  | _ => cases hq

theorem plus_text {r : Rx} {u : List WChar} (h : (Rx.plus r).Matches u) :
    ∃ v w, u = v ++ w ∧ r.Matches v ∧ (Rx.star r).Matches w := by
  cases h with
  | seq h1 h2 => exact ⟨_, _, rfl, h1, h2⟩

theorem nines {u : List WChar} (h : (Rx.plus (Rx.rng '1' '9')).Matches u) :
    allDigits (textOf u) ∧ 0 < digits (textOf u) := by
  obtain ⟨v, w, rfl, h1, h2⟩ := plus_text h
  obtain ⟨c, e, hc, hl⟩ := Rx.Matches.rng_text (.inr rfl) h1
  rw [textOf_append, e]
  refine ⟨allDigits_append (e ▸ Rx.nine_digits h1) (Rx.star_digits (fun _ => Rx.nine_digits) h2), ?_⟩
  rw [List.singleton_append, digits_cons]
  have hl : 49 ≤ c.toNat := hl
  have : 0 < (c.toNat - 48) * 10 ^ (textOf w).length := Nat.mul_pos (by omega) (by positivity)
  omega

/-- A numeral for a number from 0 to 1. -/
theorem unit_decimal {u : List WChar} (h : Rx.unit.Matches u) :
    ∃ x : ℚ, decimal (textOf u) = some x ∧ 0 ≤ x ∧ x ≤ 1 := by
  cases h with
  | altL h =>
    cases h with
    | seq h1 h2 =>
      cases h2 with
      | seq h2 h3 =>
        obtain ⟨a1, a2⟩ := opt_zero h1
        obtain ⟨v, w, rfl, b1, b2⟩ := plus_text h3
        have hb := allDigits_append (Rx.digit_digits b1) (Rx.star_digits (fun _ => Rx.digit_digits) b2)
        rw [textOf_append, textOf_append, h2.ch_text, textOf_append, List.singleton_append]
        refine ⟨_, decimal_point a1 hb (.inr ?_), ?_⟩
        · obtain ⟨c, e, _⟩ := Rx.Matches.rng_text (.inl rfl) b1
          simp [e]
        · rw [a2]
          obtain ⟨f1, f2⟩ := fraction_unit hb
          rw [Nat.cast_zero, zero_add]
          exact ⟨f1, f2.le⟩
  | altR h =>
    cases h with
    | altL h =>
      cases h with
      | seq h1 h2 =>
        cases h2 with
        | seq h2 h3 =>
          rw [textOf_append, textOf_append, h1.ch_text, h2.ch_text, List.singleton_append,
            List.singleton_append, ← List.singleton_append]
          refine ⟨_, decimal_point (a := ['1']) (by intro c hc; simp at hc; subst hc; rfl)
            (Rx.star_digits (fun _ => Rx.zero_digits) h3) (.inl (by simp)), ?_⟩
          rw [zeros h3]
          simp [digits]
    | altR h =>
      cases h with
      | altL h =>
        rw [h.ch_text]
        exact ⟨_, decimal_digits (by intro c hc; simp at hc; subst hc; rfl) (by simp), by
          simp [digits]⟩
      | altR h =>
        rw [h.ch_text]
        exact ⟨_, decimal_digits (by intro c hc; simp at hc; subst hc; rfl) (by simp), by
          simp [digits]⟩

/-- A numeral for a number strictly between 0 and 1. -/
theorem openUnit_decimal {u : List WChar} (h : Rx.openUnit.Matches u) :
    ∃ x : ℚ, decimal (textOf u) = some x ∧ 0 < x ∧ x < 1 := by
  cases h with
  | @seq _ _ u0 _ h1 h2 =>
    cases h2 with
    | @seq _ _ u1 _ h2 h3 =>
      cases h3 with
      | @seq _ _ u2 _ h3 h4 =>
        cases h4 with
        | @seq _ _ u3 u4 h4 h5 =>
          obtain ⟨a1, a2⟩ := opt_zero h1
          obtain ⟨b1, b2⟩ := nines h4
          have hz := Rx.star_digits (fun _ => Rx.zero_digits) h3
          have ht := Rx.star_digits (fun _ => Rx.digit_digits) h5
          have hb := allDigits_append hz (allDigits_append b1 ht)
          rw [textOf_append, textOf_append, h2.ch_text, textOf_append, textOf_append,
            List.singleton_append]
          have hd : 0 < digits (textOf u2 ++ (textOf u3 ++ textOf u4)) := by
            rw [digits_append, zeros h3, digits_append]
            have := Nat.mul_pos b2 (by positivity : 0 < 10 ^ (textOf u4).length)
            omega
          refine ⟨_, decimal_point a1 hb (.inr ?_), ?_⟩
          · intro e
            rw [e] at hd
            simp [digits] at hd
          · obtain ⟨f1, f2⟩ := fraction_unit hb
            have h0 : (0 : ℚ) < (digits (textOf u2 ++ (textOf u3 ++ textOf u4)) : ℚ) /
                10 ^ (textOf u2 ++ (textOf u3 ++ textOf u4)).length :=
              div_pos (by exact_mod_cast hd) (by positivity)
            rw [a2, Nat.cast_zero, zero_add]
            exact ⟨h0, f2⟩

/-- A numeral for a positive integer. -/
theorem posNat_decimal {u : List WChar} (h : Rx.posNat.Matches u) :
    ∃ n : Nat, decimal (textOf u) = some (n : ℚ) ∧ 1 ≤ n := by
  cases h with
  | @seq _ _ u v h1 h2 =>
    obtain ⟨b1, b2⟩ := nines h1
    rw [textOf_append]
    have hd : 0 < digits (textOf u ++ textOf v) := by
      rw [digits_append]
      have := Nat.mul_pos b2 (by positivity : 0 < 10 ^ (textOf v).length)
      omega
    refine ⟨_, decimal_digits (allDigits_append b1 (Rx.star_digits (fun _ => Rx.digit_digits) h2)) ?_, hd⟩
    intro e
    rw [e] at hd
    simp [digits] at hd

/-! ## Where the numerals are -/

mutual
/-- The texts of the tokens with a name, from left to right. -/
def Ast.tokens (e : Emit) : Ast → List (List Char)
  | .leaf e' s => if e' = e then [s] else []
  | .node _ cs => Ast.tokensAll e cs
/-- Of siblings. -/
def Ast.tokensAll (e : Emit) : List Ast → List (List Char)
  | [] => []
  | a :: as => Ast.tokens e a ++ Ast.tokensAll e as
end

/-- The tokens of truth values and budgets. -/
def Emit.isValue : Emit → Bool
  | .priority | .durability | .quality | .frequency | .confidence | .k_evidence => true
  | _ => false

theorem Emit.isValue_cases {x : Emit} (h : x.isValue = true) :
    (x = .priority ∨ x = .durability ∨ x = .quality) ∨
      (x = .frequency ∨ x = .confidence ∨ x = .k_evidence) := by
  revert h
  cases x <;> decide

/-- Such a leaf. -/
def Ast.isValue : Ast → Bool
  | .leaf e _ => e.isValue
  | .node .. => false

/-- The leaves of a budget. -/
inductive BudgetArgs : List Ast → Prop where
  | one {u : List WChar} : Rx.unit.Matches u → BudgetArgs [.leaf .priority (textOf u)]
  | two {u v : List WChar} : Rx.unit.Matches u → Rx.openUnit.Matches v →
      BudgetArgs [.leaf .priority (textOf u), .leaf .durability (textOf v)]
  | three {u v w : List WChar} : Rx.unit.Matches u → Rx.openUnit.Matches v → Rx.unit.Matches w →
      BudgetArgs [.leaf .priority (textOf u), .leaf .durability (textOf v),
        .leaf .quality (textOf w)]

/-- The leaves of a truth value. -/
inductive TruthArgs : List Ast → Prop where
  | one {u : List WChar} : Rx.unit.Matches u → TruthArgs [.leaf .frequency (textOf u)]
  | two {u v : List WChar} : Rx.unit.Matches u → Rx.openUnit.Matches v →
      TruthArgs [.leaf .frequency (textOf u), .leaf .confidence (textOf v)]
  | three {u v w : List WChar} : Rx.unit.Matches u → Rx.openUnit.Matches v → Rx.posNat.Matches w →
      TruthArgs [.leaf .frequency (textOf u), .leaf .confidence (textOf v),
        .leaf .k_evidence (textOf w)]

/-- A truth value. -/
def Ast.isTruth : Ast → Bool
  | .node e _ => decide (e = .truth)
  | .leaf .. => false

/-- Trees with numerals only in budgets and truth values, as the grammar has them there,
and no node with two truth values. -/
inductive Ast.Ranged : Ast → Prop where
  | leaf (e : Emit) (s : List Char) : Ranged (.leaf e s)
  | budget {cs : List Ast} : BudgetArgs cs → Ranged (.node .budget cs)
  | truth {cs : List Ast} : TruthArgs cs → Ranged (.node .truth cs)
  | node {e : Emit} {cs : List Ast} : e ≠ .budget → e ≠ .truth → (∀ c ∈ cs, Ranged c) →
      (∀ c ∈ cs, c.isValue = false) → cs.countP Ast.isTruth ≤ 1 → Ranged (.node e cs)

mutual
/-- Derives no numeral of a truth value or budget outside of a node. -/
def Gram.noValue : Gram → Bool
  | .tok _ e => !e.isValue
  | .nt _ => true
  | .grp alts => noValueAlts alts
  | .opt g => g.noValue
  | .star g => g.noValue
  | .plus g => g.noValue
def noValueAll : List Gram → Bool
  | [] => true
  | g :: gs => g.noValue && noValueAll gs
def noValueAlts : List (List Gram) → Bool
  | [] => true
  | b :: bs => noValueAll b && noValueAlts bs
end

mutual
/-- How many truth values it derives at most; more than 1 if there is no bound. -/
def Gram.truths : Gram → Nat
  | .tok .. => 0
  | .nt n => if n = .truth ∨ n = .desire then 1 else 0
  | .grp alts => truthsAlts alts
  | .opt g => g.truths
  | .star g => if g.truths = 0 then 0 else 2
  | .plus g => if g.truths = 0 then 0 else 2
def truthsAll : List Gram → Nat
  | [] => 0
  | g :: gs => g.truths + truthsAll gs
def truthsAlts : List (List Gram) → Nat
  | [] => 0
  | b :: bs => max (truthsAll b) (truthsAlts bs)
end

theorem truthsAlts_mem : ∀ {alts : List (List Gram)}, ∀ b ∈ alts, truthsAll b ≤ truthsAlts alts
  | [], _, h => by cases h
  | b :: bs, x, hx => by
    rw [truthsAlts]
    rcases List.mem_cons.mp hx with rfl | hx
    · exact Nat.le_max_left _ _
    · exact Nat.le_trans (truthsAlts_mem x hx) (Nat.le_max_right _ _)

theorem truths_rule {n : NT} {body : List Gram} {e : Emit} (h : (body, e) ∈ rules n) :
    truthsAll body ≤ 1 ∧ (e = .none → truthsAll body ≤ (Gram.nt n).truths) ∧
      (e = .truth → (Gram.nt n).truths = 1) := by
  have key : ∀ n, (rules n).all (fun r => decide (truthsAll r.1 ≤ 1 ∧
      (r.2 = .none → truthsAll r.1 ≤ (Gram.nt n).truths) ∧
      (r.2 = .truth → (Gram.nt n).truths = 1))) = true := by
    intro n; cases n <;> rfl
  exact of_decide_eq_true (List.all_eq_true.mp (key n) _ h)

theorem noValueAlts_mem : ∀ {alts : List (List Gram)}, noValueAlts alts = true →
    ∀ b ∈ alts, noValueAll b = true
  | [], _, _, h => by cases h
  | b :: bs, h, x, hx => by
    simp only [noValueAlts, Bool.and_eq_true] at h
    rcases List.mem_cons.mp hx with rfl | hx
    · exact h.1
    · exact noValueAlts_mem h.2 x hx

open Gram in
theorem budget_rule {n : NT} {body : List Gram} (h : (body, Emit.budget) ∈ rules n) :
    body = [kw ['$'], priority, maybe [kw [';'], durability, maybe [kw [';'], quality]],
      kw ['$']] := by
  cases n <;> simp [rules] at h
  exact h

open Gram in
theorem truth_rule {n : NT} {body : List Gram} (h : (body, Emit.truth) ∈ rules n) :
    body = [kw ['%'], frequency, maybe [kw [';'], confidence, maybe [kw [';'], k_evidence]],
      kw ['%']] := by
  cases n <;> simp [rules] at h
  exact h

theorem other_rule {n : NT} {body : List Gram} {e : Emit} (h : (body, e) ∈ rules n)
    (h1 : e ≠ .budget) (h2 : e ≠ .truth) : noValueAll body = true := by
  have key : ∀ n, (rules n).all (fun r => decide (r.2 = .budget) || decide (r.2 = .truth) ||
      noValueAll r.1) = true := by
    intro n; cases n <;> rfl
  have := List.all_eq_true.mp (key n) _ h
  simpa [h1, h2] using this

theorem kw_nil {s : List Char} {u : List WChar} {a : List Ast} (h : Derives (Gram.kw s) u a) :
    a = [] := by
  have h1 : DerivesAll [Gram.kw s] (u ++ []) (a ++ []) := .cons h .nil
  obtain ⟨_, p, hp, hf⟩ := derivesAll_typed h1 [([], none)] rfl
  simp only [List.mem_singleton] at hp
  subst hp
  simpa [Pat.Fits] using hf

theorem blanks_nil {u : List WChar} {a : List Ast} (h : Derives Gram.blanks u a) : a = [] := by
  have h1 : DerivesAll [Gram.blanks] (u ++ []) (a ++ []) := .cons h .nil
  obtain ⟨_, p, hp, hf⟩ := derivesAll_typed h1 [([], none)] rfl
  simp only [List.mem_singleton] at hp
  subst hp
  simpa [Pat.Fits] using hf

theorem lex_leaf {r : Rx} {e : Emit} (he : e ≠ .none) {u : List WChar} {a : List Ast}
    (h : Derives (Gram.lex r e) u a) : ∃ v, a = [.leaf e (textOf v)] ∧ r.Matches v := by
  cases h with
  | grp hb h =>
    simp only [List.mem_singleton] at hb
    subst hb
    cases h with
    | cons h1 h2 =>
      cases h2 with
      | cons h2 h3 =>
        cases h3
        obtain rfl := blanks_nil h2
        cases h1 with
        | tok_plain _ => exact absurd rfl he
        | tok_leaf _ hm => exact ⟨_, by simp [textOf], hm⟩

theorem maybe_cases {x : List Gram} {u : List WChar} {a : List Ast}
    (h : Derives (Gram.maybe x) u a) : a = [] ∨ ∃ v, DerivesAll x v a := by
  cases h with
  | opt_none => exact .inl rfl
  | opt_some h =>
    cases h with
    | grp hb h =>
      simp only [List.mem_singleton] at hb
      subst hb
      exact .inr ⟨_, h⟩

theorem cons_cases {g : Gram} {gs : List Gram} {u : List WChar} {a : List Ast}
    (h : DerivesAll (g :: gs) u a) :
    ∃ v w b c, a = b ++ c ∧ Derives g v b ∧ DerivesAll gs w c := by
  cases h with
  | cons h1 h2 => exact ⟨_, _, _, _, rfl, h1, h2⟩

theorem nil_cases {u : List WChar} {a : List Ast} (h : DerivesAll [] u a) : a = [] := by
  cases h; rfl

/-- The shape of budgets and truth values. -/
theorem three_cases {s t : List Char} {r1 r2 r3 : Rx} {e1 e2 e3 : Emit} (h1 : e1 ≠ .none)
    (h2 : e2 ≠ .none) (h3 : e3 ≠ .none) {u : List WChar} {a : List Ast}
    (h : DerivesAll [Gram.kw s, Gram.lex r1 e1, Gram.maybe [Gram.kw t, Gram.lex r2 e2,
      Gram.maybe [Gram.kw t, Gram.lex r3 e3]], Gram.kw s] u a) :
    (∃ x, r1.Matches x ∧ a = [.leaf e1 (textOf x)]) ∨
    (∃ x y, r1.Matches x ∧ r2.Matches y ∧ a = [.leaf e1 (textOf x), .leaf e2 (textOf y)]) ∨
    (∃ x y z, r1.Matches x ∧ r2.Matches y ∧ r3.Matches z ∧
      a = [.leaf e1 (textOf x), .leaf e2 (textOf y), .leaf e3 (textOf z)]) := by
  obtain ⟨_, _, _, _, rfl, k1, g1⟩ := cons_cases h
  obtain rfl := kw_nil k1
  obtain ⟨_, _, _, _, rfl, k2, g2⟩ := cons_cases g1
  obtain ⟨x, rfl, hx⟩ := lex_leaf h1 k2
  obtain ⟨_, _, _, _, rfl, k3, g3⟩ := cons_cases g2
  obtain ⟨_, _, _, _, rfl, k4, g4⟩ := cons_cases g3
  obtain rfl := kw_nil k4
  obtain rfl := nil_cases g4
  rcases maybe_cases k3 with rfl | ⟨_, m1⟩
  · exact .inl ⟨x, hx, rfl⟩
  · obtain ⟨_, _, _, _, rfl, k5, m2⟩ := cons_cases m1
    obtain rfl := kw_nil k5
    obtain ⟨_, _, _, _, rfl, k6, m3⟩ := cons_cases m2
    obtain ⟨y, rfl, hy⟩ := lex_leaf h2 k6
    obtain ⟨_, _, _, _, rfl, k7, m4⟩ := cons_cases m3
    obtain rfl := nil_cases m4
    rcases maybe_cases k7 with rfl | ⟨_, n1⟩
    · exact .inr (.inl ⟨x, y, hx, hy, rfl⟩)
    · obtain ⟨_, _, _, _, rfl, k8, n2⟩ := cons_cases n1
      obtain rfl := kw_nil k8
      obtain ⟨_, _, _, _, rfl, k9, n3⟩ := cons_cases n2
      obtain ⟨z, rfl, hz⟩ := lex_leaf h3 k9
      obtain rfl := nil_cases n3
      exact .inr (.inr ⟨x, y, z, hx, hy, hz, rfl⟩)

theorem derivesAll_ranged {gs : List Gram} {u : List WChar} {a : List Ast}
    (h : DerivesAll gs u a) : (∀ x ∈ a, x.Ranged) ∧
      (noValueAll gs = true → ∀ x ∈ a, x.isValue = false) ∧
      (truthsAll gs ≤ 1 → a.countP Ast.isTruth ≤ truthsAll gs) := by
  refine DerivesAll.rec
    (motive_1 := fun g _ a _ => (∀ x ∈ a, x.Ranged) ∧
      (g.noValue = true → ∀ x ∈ a, x.isValue = false) ∧
      (g.truths ≤ 1 → a.countP Ast.isTruth ≤ g.truths))
    (motive_2 := fun gs _ a _ => (∀ x ∈ a, x.Ranged) ∧
      (noValueAll gs = true → ∀ x ∈ a, x.isValue = false) ∧
      (truthsAll gs ≤ 1 → a.countP Ast.isTruth ≤ truthsAll gs))
    ?_ ?_ ?_ ?_ ?_ ?_ ?_ ?_ ?_ ?_ ?_ ?_ ?_ h
  · -- tok_plain
    intro r u _
    simp
  · -- tok_leaf
    intro r e u he _
    refine ⟨fun x hx => ?_, fun hn x hx => ?_, fun _ => ?_⟩
    · simp only [List.mem_singleton] at hx
      subst hx
      exact .leaf _ _
    · simp only [List.mem_singleton] at hx
      subst hx
      simpa [Gram.noValue, Ast.isValue] using hn
    · simp [Ast.isTruth]
  · -- nt_plain
    intro n body u a hr _ ih
    obtain ⟨t1, t2, _⟩ := truths_rule hr
    exact ⟨ih.1, fun _ => ih.2.1 (other_rule hr (by decide) (by decide)),
      fun _ => Nat.le_trans (ih.2.2 t1) (t2 rfl)⟩
  · -- nt_node
    intro n body e u a he hr hd ih
    obtain ⟨t1, _, t3⟩ := truths_rule hr
    refine ⟨fun x hx => ?_, fun _ x hx => ?_, fun _ => ?_⟩
    · simp only [List.mem_singleton] at hx
      subst hx
      by_cases h1 : e = .budget
      · subst h1
        rw [budget_rule hr] at hd
        rcases three_cases (by decide) (by decide) (by decide) hd with
          ⟨_, m1, rfl⟩ | ⟨_, _, m1, m2, rfl⟩ | ⟨_, _, _, m1, m2, m3, rfl⟩
        · exact .budget (.one m1)
        · exact .budget (.two m1 m2)
        · exact .budget (.three m1 m2 m3)
      · by_cases h2 : e = .truth
        · subst h2
          rw [truth_rule hr] at hd
          rcases three_cases (by decide) (by decide) (by decide) hd with
            ⟨_, m1, rfl⟩ | ⟨_, _, m1, m2, rfl⟩ | ⟨_, _, _, m1, m2, m3, rfl⟩
          · exact .truth (.one m1)
          · exact .truth (.two m1 m2)
          · exact .truth (.three m1 m2 m3)
        · exact .node h1 h2 ih.1 (ih.2.1 (other_rule hr h1 h2)) (Nat.le_trans (ih.2.2 t1) t1)
    · simp only [List.mem_singleton] at hx
      subst hx
      rfl
    · by_cases h2 : e = .truth
      · rw [t3 h2]
        exact List.countP_le_length
      · simp [Ast.isTruth, h2]
  · -- grp
    intro alts body u a hb _ ih
    refine ⟨ih.1, fun h => ih.2.1 (noValueAlts_mem (by simpa [Gram.noValue] using h) _ hb),
      fun h => ?_⟩
    rw [Gram.truths] at h ⊢
    have := truthsAlts_mem body hb
    exact Nat.le_trans (ih.2.2 (Nat.le_trans this h)) this
  · -- opt_none
    intro g
    simp
  · -- opt_some
    intro g u a _ ih
    exact ⟨ih.1, fun h => ih.2.1 (by simpa [Gram.noValue] using h),
      fun h => by rw [Gram.truths] at h ⊢; exact ih.2.2 h⟩
  · -- star_nil
    intro g
    simp
  · -- star_plus
    intro g u a _ ih
    exact ⟨ih.1, fun h => ih.2.1 (by simpa [Gram.noValue] using h),
      fun h => by simp only [Gram.truths] at h ih ⊢; exact ih.2.2 h⟩
  · -- plus_one
    intro g u a _ ih
    refine ⟨ih.1, fun h => ih.2.1 (by simpa [Gram.noValue] using h), fun h => ?_⟩
    rw [Gram.truths] at h ⊢
    split at h
    · rename_i h0
      rw [if_pos h0, ← h0]
      exact ih.2.2 (by omega)
    · omega
  · -- plus_more
    intro g u v a b _ _ ih1 ih2
    refine ⟨fun x hx => ?_, fun h x hx => ?_, fun h => ?_⟩
    · rcases List.mem_append.mp hx with hx | hx
      · exact ih1.1 x hx
      · exact ih2.1 x hx
    · rcases List.mem_append.mp hx with hx | hx
      · exact ih1.2.1 h x hx
      · exact ih2.2.1 (by simpa [Gram.noValue] using h) x hx
    · have h1 := ih1.2.2 h
      have h2 := ih2.2.2
      rw [List.countP_append]
      rw [Gram.truths] at h h1 ⊢
      split at h
      · rename_i h0
        rw [if_pos h0] at h1 ⊢
        have := h2 (by omega)
        omega
      · omega
  · -- nil
    simp
  · -- cons
    intro g gs u v a b _ _ ih1 ih2
    refine ⟨fun x hx => ?_, fun h x hx => ?_, fun h => ?_⟩
    · rcases List.mem_append.mp hx with hx | hx
      · exact ih1.1 x hx
      · exact ih2.1 x hx
    · simp only [noValueAll, Bool.and_eq_true] at h
      rcases List.mem_append.mp hx with hx | hx
      · exact ih1.2.1 h.1 x hx
      · exact ih2.2.1 h.2 x hx
    · rw [List.countP_append]
      rw [truthsAll] at h ⊢
      have h1 := ih1.2.2 (by omega)
      have h2 := ih2.2.2 (by omega)
      omega

/-- The tree of a line has its numerals in the right places. -/
theorem IsNarsese.ranged {line : List WChar} {as : List Ast} (h : IsNarsese line as) :
    (∀ a ∈ as, a.Ranged) ∧ ∀ a ∈ as, a.isValue = false :=
  ⟨(derivesAll_ranged h).1, (derivesAll_ranged h).2.1 rfl⟩

/-! ## The numerals of a part -/

/-- The numerals of a budget. -/
inductive BudgetNums : List (List Char) → Prop where
  | one {u : List WChar} : Rx.unit.Matches u → BudgetNums [textOf u]
  | two {u v : List WChar} : Rx.unit.Matches u → Rx.openUnit.Matches v →
      BudgetNums [textOf u, textOf v]
  | three {u v w : List WChar} : Rx.unit.Matches u → Rx.openUnit.Matches v → Rx.unit.Matches w →
      BudgetNums [textOf u, textOf v, textOf w]

/-- The numerals of a truth value. -/
inductive TruthNums : List (List Char) → Prop where
  | one {u : List WChar} : Rx.unit.Matches u → TruthNums [textOf u]
  | two {u v : List WChar} : Rx.unit.Matches u → Rx.openUnit.Matches v →
      TruthNums [textOf u, textOf v]
  | three {u v w : List WChar} : Rx.unit.Matches u → Rx.openUnit.Matches v → Rx.posNat.Matches w →
      TruthNums [textOf u, textOf v, textOf w]

/-- The numerals with a name in a budget. -/
def budgetTokens (e : Emit) (ss : List (List Char)) : List (List Char) :=
  match e with
  | .priority => ss.take 1
  | .durability => (ss.drop 1).take 1
  | .quality => (ss.drop 2).take 1
  | _ => []

/-- In a truth value. -/
def truthTokens (e : Emit) (ss : List (List Char)) : List (List Char) :=
  match e with
  | .frequency => ss.take 1
  | .confidence => (ss.drop 1).take 1
  | .k_evidence => (ss.drop 2).take 1
  | _ => []

/-- In a mark. -/
def Mark.tokens (e : Emit) : Mark → List (List Char)
  | .truth ss => truthTokens e ss
  | _ => []

/-- In a part. -/
def Part.tokens (e : Emit) : Part → List (List Char)
  | .mark m => m.tokens e
  | .budget ss => budgetTokens e ss
  | .sentence _ _ ms => ms.flatMap (Mark.tokens e)
  | .task b _ _ ms => (b.elim [] (budgetTokens e)) ++ ms.flatMap (Mark.tokens e)
  | _ => []

/-- A mark with the numerals of the grammar. -/
def Mark.Ranged : Mark → Prop
  | .truth ss => TruthNums ss
  | _ => True

/-- A truth value. -/
def Mark.isTruth : Mark → Bool
  | .truth _ => true
  | _ => false

/-- A truth value. -/
def Part.isTruth : Part → Bool
  | .mark m => m.isTruth
  | _ => false

/-- A part with the numerals of the grammar. -/
def Part.Ranged : Part → Prop
  | .mark m => m.Ranged
  | .budget ss => BudgetNums ss
  | .sentence _ _ ms => (∀ m ∈ ms, m.Ranged) ∧ ms.countP Mark.isTruth ≤ 1
  | .task b _ _ ms => (∀ ss, b = some ss → BudgetNums ss) ∧ (∀ m ∈ ms, m.Ranged) ∧
    ms.countP Mark.isTruth ≤ 1
  | _ => True

theorem Part.marks?_ranged : ∀ {ps : List Part} {ts : List Mark}, Part.marks? ps = some ts →
    (∀ p ∈ ps, p.Ranged) → (∀ m ∈ ts, m.Ranged) ∧
      (∀ e, ps.flatMap (Part.tokens e) = ts.flatMap (Mark.tokens e)) ∧
      ts.countP Mark.isTruth = ps.countP Part.isTruth
  | [], ts, h, _ => by cases h; simp
  | .mark t :: ps, ts, h, hp => by
    simp only [Part.marks?, Option.map_eq_some_iff] at h
    obtain ⟨us, h, rfl⟩ := h
    obtain ⟨h1, h2, h3⟩ := Part.marks?_ranged h fun p hm => hp p (List.mem_cons_of_mem _ hm)
    refine ⟨fun m hm => ?_, fun e => by simp [h2 e, Part.tokens], by
      rw [List.countP_cons, List.countP_cons, h3]; rfl⟩
    rcases List.mem_cons.mp hm with rfl | hm
    · exact hp (.mark m) (by simp)
    · exact h1 m hm
  | .copula _ :: _, _, h, _ => by simp [Part.marks?] at h
  | .conn _ :: _, _, h, _ => by simp [Part.marks?] at h
  | .str _ :: _, _, h, _ => by simp [Part.marks?] at h
  | .num _ :: _, _, h, _ => by simp [Part.marks?] at h
  | .syn _ :: _, _, h, _ => by simp [Part.marks?] at h
  | .budget _ :: _, _, h, _ => by simp [Part.marks?] at h
  | .sentence .. :: _, _, h, _ => by simp [Part.marks?] at h
  | .task .. :: _, _, h, _ => by simp [Part.marks?] at h

theorem Part.syns?_tokens {e : Emit} : ∀ {ps : List Part} {ts : List Syn},
    Part.syns? ps = some ts → ps.flatMap (Part.tokens e) = []
  | [], ts, h => rfl
  | .syn t :: ps, ts, h => by
    simp only [Part.syns?, Option.map_eq_some_iff] at h
    obtain ⟨us, h, rfl⟩ := h
    simp [Part.syns?_tokens h, Part.tokens]
  | .copula _ :: _, _, h => by simp [Part.syns?] at h
  | .conn _ :: _, _, h => by simp [Part.syns?] at h
  | .str _ :: _, _, h => by simp [Part.syns?] at h
  | .num _ :: _, _, h => by simp [Part.syns?] at h
  | .mark _ :: _, _, h => by simp [Part.syns?] at h
  | .budget _ :: _, _, h => by simp [Part.syns?] at h
  | .sentence .. :: _, _, h => by simp [Part.syns?] at h
  | .task .. :: _, _, h => by simp [Part.syns?] at h

/-- Nodes that are neither budget nor truth value pass the numerals on. -/
theorem Part.build_ranged {e : Emit} {ps : List Part} {q : Part} (h : Part.build e ps = some q)
    (h1 : e ≠ .budget) (h2 : e ≠ .truth) (hp : ∀ p ∈ ps, p.Ranged)
    (hc : ps.countP Part.isTruth ≤ 1) :
    q.Ranged ∧ (∀ x, q.tokens x = ps.flatMap (Part.tokens x)) ∧ q.isTruth = false := by
  unfold Part.build at h
  split at h
  all_goals first
    | exact absurd rfl h1
    | exact absurd rfl h2
    | (simp only [Option.some.injEq] at h
       subst h
       first
       | exact ⟨trivial, fun x => by simp [Part.tokens, Mark.tokens], rfl⟩
       | (have g1 := hp _ List.mem_cons_self
          exact ⟨⟨by simp, g1⟩, fun x => by simp [Part.tokens], rfl⟩)
       | (have g1 := hp _ List.mem_cons_self
          have g2 := hp _ (List.mem_cons_of_mem _ List.mem_cons_self)
          exact ⟨⟨fun ss he => by cases he; exact g1, g2⟩, fun x => by simp [Part.tokens], rfl⟩))
    | (simp only [Option.map_eq_some_iff] at h
       obtain ⟨ts, h3, rfl⟩ := h
       first
       | (have h4 := Part.marks?_ranged h3 fun p hm => hp p (List.mem_cons_of_mem _ hm)
          exact ⟨⟨h4.1, by rw [h4.2.2]; rw [List.countP_cons] at hc; omega⟩,
            fun x => by simp [Part.tokens, h4.2.1 x], rfl⟩)
       | exact ⟨trivial, fun x => by simp [Part.tokens, Part.syns?_tokens h3], rfl⟩)
    | (simp only [Option.or_eq_some_iff, Option.map_eq_some_iff] at h
       rcases h with ⟨c, hc, rfl⟩ | ⟨_, c, hc, rfl⟩ <;> exact ⟨trivial, fun x => rfl, rfl⟩)
    | simp at h

mutual
theorem Ast.part_ranged : ∀ {a : Ast} {p : Part}, a.part = some p → a.Ranged →
    p.Ranged ∧ (a.isValue = false → ∀ x : Emit, x.isValue = true → p.tokens x = a.tokens x) ∧
      p.isTruth = a.isTruth
  | .leaf e s, p, h, _ => by
    simp only [Ast.part, Option.some.injEq, Part.ofLeaf] at h
    have : p.Ranged ∧ (∀ x, p.tokens x = []) ∧ p.isTruth = false := by
      split at h <;> subst h <;> exact ⟨trivial, fun _ => rfl, rfl⟩
    refine ⟨this.1, fun hv x hx => ?_, this.2.2⟩
    rw [this.2.1, Ast.tokens, if_neg]
    rintro rfl
    simp [Ast.isValue, hx] at hv
  | .node e cs, p, h, hr => by
    simp only [Ast.part, Option.bind_eq_some_iff] at h
    obtain ⟨ps, h1, h2⟩ := h
    cases hr with
    | budget hb =>
      cases hb <;>
        (simp only [partAll, Ast.part, Option.bind_some, Option.map_some, Option.some.injEq] at h1
         subst h1
         simp only [Part.build, Part.nums?, Part.ofLeaf, Option.map_some, Option.some.injEq] at h2
         subst h2
         refine ⟨?_, fun _ x _ => ?_, rfl⟩
         · first
           | exact .one ‹_›
           | exact .two ‹_› ‹_›
           | exact .three ‹_› ‹_› ‹_›
         · cases x <;> simp [Part.tokens, budgetTokens, Ast.tokens, Ast.tokensAll])
    | truth hb =>
      cases hb <;>
        (simp only [partAll, Ast.part, Option.bind_some, Option.map_some, Option.some.injEq] at h1
         subst h1
         simp only [Part.build, Part.nums?, Part.ofLeaf, Option.map_some, Option.some.injEq] at h2
         subst h2
         refine ⟨?_, fun _ x _ => ?_, rfl⟩
         · first
           | exact TruthNums.one ‹_›
           | exact TruthNums.two ‹_› ‹_›
           | exact TruthNums.three ‹_› ‹_› ‹_›
         · cases x <;> simp [Part.tokens, Mark.tokens, truthTokens, Ast.tokens, Ast.tokensAll])
    | node n1 n2 hc hv ht =>
      obtain ⟨h3, h4, h5⟩ := Ast.partAll_ranged h1 hc hv
      obtain ⟨h6, h7, h8⟩ := Part.build_ranged h2 n1 n2 h3 (h5 ▸ ht)
      refine ⟨h6, fun _ x hx => ?_, by simp [h8, Ast.isTruth, n2]⟩
      rw [h7, h4 x hx, Ast.tokens]
  termination_by a => sizeOf a
theorem Ast.partAll_ranged : ∀ {as : List Ast} {ps : List Part}, partAll as = some ps →
    (∀ a ∈ as, a.Ranged) → (∀ a ∈ as, a.isValue = false) →
    (∀ p ∈ ps, p.Ranged) ∧
      (∀ x : Emit, x.isValue = true → ps.flatMap (Part.tokens x) = Ast.tokensAll x as) ∧
      ps.countP Part.isTruth = as.countP Ast.isTruth
  | [], ps, h, _, _ => by cases h; simp [Ast.tokensAll]
  | a :: as, ps, h, hr, hv => by
    simp only [partAll, Option.bind_eq_some_iff, Option.map_eq_some_iff] at h
    obtain ⟨p, h1, qs, h2, rfl⟩ := h
    obtain ⟨h3, h4, h7⟩ := Ast.part_ranged h1 (hr a (by simp))
    obtain ⟨h5, h6, h8⟩ := Ast.partAll_ranged h2 (fun b hb => hr b (List.mem_cons_of_mem _ hb))
      fun b hb => hv b (List.mem_cons_of_mem _ hb)
    refine ⟨fun q hq => ?_, fun x hx => ?_, by rw [List.countP_cons, List.countP_cons, h7, h8]⟩
    · rcases List.mem_cons.mp hq with rfl | hq
      · exact h3
      · exact h5 q hq
    · rw [List.flatMap_cons, h4 (hv a (by simp)) x hx, h6 x hx, Ast.tokensAll]
  termination_by as => sizeOf as
end

/-! ## The values -/

theorem evalMarks_truth (M : Mach) : ∀ {ms : List Mark} {e e' : Env} {vs : List Val},
    evalMarks M ms e = (.ok vs, e') → ms.countP Mark.isTruth ≤ 1 →
    ((∀ x, ms.flatMap (Mark.tokens x) = []) ∧ ∀ t, lastTruth vs t = t) ∨
    (∃ ss xs, .truth ss ∈ ms ∧ (∀ x, ms.flatMap (Mark.tokens x) = truthTokens x ss) ∧
      ss.map (stod M) = xs.map .ok ∧ ∀ t, lastTruth vs t = some (truthOfNumbers M xs))
  | [], e, e', vs, h, _ => by
    obtain ⟨rfl, _⟩ := Act.pure_ok h
    exact .inl ⟨fun _ => rfl, fun _ => rfl⟩
  | m :: ms, e, e', vs, h, hc => by
    rw [evalMarks] at h
    obtain ⟨v, e1, h1, h2⟩ := Act.bind_ok h
    obtain ⟨us, e2, h3, h4⟩ := Act.bind_ok h2
    obtain ⟨rfl, rfl⟩ := Act.pure_ok h4
    rw [List.countP_cons] at hc
    have ih := evalMarks_truth M h3 (by omega)
    cases m with
    | tense n =>
      obtain ⟨rfl, _⟩ := Act.pure_ok h1
      rcases ih with ⟨i1, i2⟩ | ⟨ss, xs, i1, i2, i3, i4⟩
      · exact .inl ⟨fun x => by simp [Mark.tokens, i1 x], fun t => by rw [lastTruth, i2]; simp⟩
      · exact .inr ⟨ss, xs, List.mem_cons_of_mem _ i1, fun x => by simp [Mark.tokens, i2 x], i3,
          fun t => by rw [lastTruth, i4]; simp⟩
    | time s =>
      rw [Mark.eval] at h1
      obtain ⟨x, e3, _, h5⟩ := Act.bind_ok h1
      obtain ⟨y, e4, _, h6⟩ := Act.bind_ok h5
      obtain ⟨rfl, _⟩ := Act.pure_ok h6
      rcases ih with ⟨i1, i2⟩ | ⟨ss, xs, i1, i2, i3, i4⟩
      · exact .inl ⟨fun x => by simp [Mark.tokens, i1 x], fun t => by rw [lastTruth, i2]; simp⟩
      · exact .inr ⟨ss, xs, List.mem_cons_of_mem _ i1, fun x => by simp [Mark.tokens, i2 x], i3,
          fun t => by rw [lastTruth, i4]; simp⟩
    | truth ss =>
      rw [Mark.eval] at h1
      obtain ⟨xs, e3, h5, h6⟩ := Act.bind_ok h1
      rw [truth_eq, Option.getD_some] at h6
      obtain ⟨rfl, _⟩ := Act.pure_ok h6
      have h0 : ms.countP Mark.isTruth = 0 := by
        have : Mark.isTruth (.truth ss) = true := rfl
        rw [this] at hc
        simp at hc
        simpa using hc
      refine .inr ⟨ss, xs, List.mem_cons_self, ?_, (numbers_env M h5).2, ?_⟩
      all_goals
        rcases ih with ⟨i1, i2⟩ | ⟨ss', xs', i1, i2, i3, i4⟩
        · intro x
          first
          | simp [Mark.tokens, i1 x]
          | rw [lastTruth, i2]
        · rw [List.countP_eq_zero] at h0
          exact absurd rfl (h0 _ i1)

/-- The value written for a name, as the machine reads it. -/
def written (M : Mach) (as : List Ast) (e : Emit) : Option ℚ :=
  (Ast.tokensAll e as).head?.bind fun s => (decimal s).map fun x => M.R.s (M.R.d x)

theorem stod_value {M : Mach} {s : List Char} {x y : ℚ} (h : stod M s = .ok y)
    (hd : decimal s = some x) : y = M.R.d x := by
  simp only [stod, hd] at h
  split at h
  · cases h
  · simpa using h.symm

theorem stod_values {M : Mach} : ∀ {ss : List (List Char)} {xs ds : List ℚ},
    ss.map (stod M) = xs.map .ok → ss.map decimal = ds.map some → xs = ds.map M.R.d
  | [], [], [], _, _ => rfl
  | [], _ :: _, _, h, _ => by cases h
  | [], [], _ :: _, _, h => by cases h
  | _ :: _, [], _, h, _ => by cases h
  | _ :: _, _ :: _, [], _, h => by cases h
  | s :: ss, x :: xs, d :: ds, h, h' => by
    simp only [List.map_cons, List.cons.injEq] at h h'
    rw [stod_value h.1 h'.1, stod_values h.2 h'.2, List.map_cons]

/-- The truth value of a task. -/
def truthSpec (M : Mach) (as : List Ast) (c : ℚ) : Truth ℚ :=
  ⟨(written M as .frequency).getD (M.R.s 1), (written M as .confidence).getD c,
    (written M as .k_evidence).getD (M.R.s 1)⟩

theorem orDefault_nonneg {x y : ℚ} (h : 0 ≤ x) : orDefault x y = x := by
  rw [orDefault, if_neg]
  linarith

theorem orDefault_missing {R : Rnd ℚ} (h : R.s (-1) = -1) {y : ℚ} :
    orDefault (R.s (-1)) y = y := by
  rw [orDefault, h, if_pos]
  norm_num

theorem truthOr_spec {M : Mach} (hR : M.R.Sound) (hm : M.R.s (-1) = -1)
    (hcfg : M.cfg = Config.ofRnd M.R) {as : List Ast} {ms : List Mark} {vs : List Val}
    {e e' : Env} (h : evalMarks M ms e = (.ok vs, e')) (hr : ∀ m ∈ ms, m.Ranged)
    (hc : ms.countP Mark.isTruth ≤ 1)
    (ht : ∀ x : Emit, x = .frequency ∨ x = .confidence ∨ x = .k_evidence →
      ms.flatMap (Mark.tokens x) = Ast.tokensAll x as) {c : ℚ} (hd : c = M.R.s (9 / 10)) :
    truthOr M c (lastTruth vs none) = truthSpec M as c := by
  subst hd
  have s1 : M.R.s (M.R.s 1) = M.R.s 1 := hR.s_s 1
  have k0 : 0 ≤ M.R.s 1 := hR.s_nonneg (by norm_num)
  rcases evalMarks_truth M h hc with ⟨i1, i2⟩ | ⟨ss, xs, i1, i2, i3, i4⟩
  · rw [i2, truthOr, truthSpec, written, written, written, ← ht _ (.inl rfl),
      ← ht _ (.inr (.inl rfl)), ← ht _ (.inr (.inr rfl)), i1, i1, i1, hcfg]
    simp [Config.ofRnd, hR.s_s]
  · have hs : TruthNums ss := hr _ i1
    rw [i4, truthOr, truthSpec, written, written, written, ← ht _ (.inl rfl),
      ← ht _ (.inr (.inl rfl)), ← ht _ (.inr (.inr rfl)), i2, i2, i2, hcfg]
    have nn : ∀ x : ℚ, 0 ≤ x → 0 ≤ M.R.s (M.R.d x) := fun x hx => hR.s_nonneg (hR.d_nonneg hx)
    cases hs with
    | @one u m1 =>
      obtain ⟨x, d1, b1, _⟩ := unit_decimal m1
      obtain rfl := stod_values i3 (ds := [x]) (by simp [d1])
      simp [truthOfNumbers, truthTokens, d1, orDefault_nonneg (nn x b1), orDefault_missing hm,
        hcfg, Config.ofRnd, s1, orDefault_nonneg k0]
    | @two u v m1 m2 =>
      obtain ⟨x, d1, b1, _⟩ := unit_decimal m1
      obtain ⟨x', d2, b2, _⟩ := openUnit_decimal m2
      obtain rfl := stod_values i3 (ds := [x, x']) (by simp [d1, d2])
      simp [truthOfNumbers, truthTokens, d1, d2, orDefault_nonneg (nn x b1),
        orDefault_nonneg (nn x' b2.le), hcfg, Config.ofRnd, s1, orDefault_nonneg k0]
    | @three u v w m1 m2 m3 =>
      obtain ⟨x, d1, b1, _⟩ := unit_decimal m1
      obtain ⟨x', d2, b2, _⟩ := openUnit_decimal m2
      obtain ⟨n, d3, b3⟩ := posNat_decimal m3
      obtain rfl := stod_values i3 (ds := [x, x', n]) (by simp [d1, d2, d3])
      simp [truthOfNumbers, truthTokens, d1, d2, d3, orDefault_nonneg (nn x b1),
        orDefault_nonneg (nn x' b2.le), orDefault_nonneg (nn n (by positivity))]

/-- The durability of a task with a budget that does not give it. -/
def durabilityOf (M : Mach) : Punct → ℚ
  | .judgement => M.R.s (5 / 10)
  | _ => M.R.s (9 / 10)

/-- The quality of a task with a budget that does not give it. -/
def qualityOf (M : Mach) (truth : Option (Truth ℚ)) : ℚ :=
  match truth with
  | some t => M.R.s (Nal.qualityFromTruth M.R t)
  | none => 1

/-- The budget of a task. -/
def budgetSpec (M : Mach) (as : List Ast) (s : Sentence ℚ) : Budget :=
  if Ast.tokensAll .priority as = [] then ⟨M.R.s (8 / 10), M.R.s (8 / 10), M.R.s (5 / 10)⟩
  else ⟨(written M as .priority).getD 0, (written M as .durability).getD (durabilityOf M s.punct),
    (written M as .quality).getD (qualityOf M s.truth)⟩

theorem finishBudget_spec {M : Mach} (hcfg : M.cfg = Config.ofRnd M.R) {b k : Budget}
    {s : Sentence ℚ} (hs : s.truth.isSome = true ↔ (s.punct = .judgement ∨ s.punct = .goal))
    (h : finishBudget M b s = .ok k) (hb : 0 ≤ b.priority) :
    k = ⟨b.priority, orDefault b.durability (durabilityOf M s.punct),
      orDefault b.quality (qualityOf M s.truth)⟩ := by
  obtain ⟨p, d, q⟩ := b
  unfold finishBudget at h
  cases hp : s.punct with
  | judgement =>
    simp only [hp] at h
    obtain ⟨t, ht⟩ := Option.isSome_iff_exists.mp (hs.mpr (.inl hp))
    rw [ht] at h ⊢
    by_cases hq : q < -(1 / 2)
    · simp only [if_pos hq, Res.ofOption, Res.bind, Res.ok_bind, Res.pure_eq, Res.ok.injEq] at h
      have e : ∀ x, orDefault q x = x := fun x => by rw [orDefault, if_pos hq]
      rw [← h]
      simp [orDefault_nonneg hb, e, qualityOf, durabilityOf, hcfg, Config.ofRnd]
    · simp only [if_neg hq, Res.ok_bind, Res.pure_eq, Res.ok.injEq] at h
      have e : ∀ x, orDefault q x = q := fun x => by rw [orDefault, if_neg hq]
      rw [← h]
      simp [orDefault_nonneg hb, e, durabilityOf, hcfg, Config.ofRnd]
  | goal =>
    simp only [hp] at h
    obtain ⟨t, ht⟩ := Option.isSome_iff_exists.mp (hs.mpr (.inr hp))
    rw [ht] at h ⊢
    by_cases hq : q < -(1 / 2)
    · simp only [if_pos hq, Res.ofOption, Res.bind, Res.ok_bind, Res.pure_eq, Res.ok.injEq] at h
      have e : ∀ x, orDefault q x = x := fun x => by rw [orDefault, if_pos hq]
      rw [← h]
      simp [orDefault_nonneg hb, e, qualityOf, durabilityOf, hcfg, Config.ofRnd]
    · simp only [if_neg hq, Res.ok_bind, Res.pure_eq, Res.ok.injEq] at h
      have e : ∀ x, orDefault q x = q := fun x => by rw [orDefault, if_neg hq]
      rw [← h]
      simp [orDefault_nonneg hb, e, durabilityOf, hcfg, Config.ofRnd]
  | question =>
    simp only [hp, Res.pure_eq, Res.ok.injEq] at h
    have ht : s.truth = none := by
      rw [← Option.not_isSome_iff_eq_none, hs, hp]; simp
    rw [← h, ht]
    simp [orDefault_nonneg hb, qualityOf, durabilityOf, hcfg, Config.ofRnd]
  | quest =>
    simp only [hp, Res.pure_eq, Res.ok.injEq] at h
    have ht : s.truth = none := by
      rw [← Option.not_isSome_iff_eq_none, hs, hp]; simp
    rw [← h, ht]
    simp [orDefault_nonneg hb, qualityOf, durabilityOf, hcfg, Config.ofRnd]

/-- The truth value and the budget of the task of a line. -/
theorem evalTask_values {line : List WChar} {as : List Ast} (hn : IsNarsese line as) {M : Mach}
    (hR : M.R.Sound) (hm : M.R.s (-1) = -1) (hcfg : M.cfg = Config.ofRnd M.R) {bad : Act Val}
    {e e' : Env} {k : Task} (h : evalTask M bad as e = (.ok k, e')) :
    k.sentence.truth = (if k.sentence.punct = .judgement ∨ k.sentence.punct = .goal
      then some (truthSpec M as (M.R.s (9 / 10))) else none) ∧
    k.budget = budgetSpec M as k.sentence := by
  obtain ⟨b, p, t, ms, r, e1, vs, xs, h1, _, h3, _, h5, h6, h7, h8, _⟩ := evalTask_ok hn h
  obtain ⟨g1, g2⟩ := hn.ranged
  obtain ⟨g3, g4, _⟩ := Ast.partAll_ranged h1 g1 g2
  obtain ⟨gb, gm, gc⟩ := g3 _ (List.mem_singleton.mpr rfl)
  have htr : k.sentence.truth = (if k.sentence.punct = .judgement ∨ k.sentence.punct = .goal
      then some (truthSpec M as (M.R.s (9 / 10))) else none) := by
    have key : ∀ c, c = M.R.s (9 / 10) →
        truthOr M c (lastTruth vs none) = truthSpec M as (M.R.s (9 / 10)) := by
      rintro c rfl
      refine truthOr_spec hR hm hcfg h3 gm gc ?_ rfl
      rintro x (rfl | rfl | rfl)
      all_goals
        rw [← g4 _ rfl]
        simp only [List.flatMap_cons, List.flatMap_nil, List.append_nil, Part.tokens]
        cases b <;> simp [budgetTokens]
    rw [h6, h5]
    cases p <;> simp [truthFor, key, hcfg, Config.ofRnd]
  refine ⟨htr, ?_⟩
  have hs : k.sentence.truth.isSome = true ↔
      (k.sentence.punct = .judgement ∨ k.sentence.punct = .goal) := by
    rw [htr]
    split <;> simp_all
  have nn : ∀ x : ℚ, 0 ≤ x → 0 ≤ M.R.s (M.R.d x) := fun x hx => hR.s_nonneg (hR.d_nonneg hx)
  have hbt : ∀ x : Emit, x = .priority ∨ x = .durability ∨ x = .quality →
      Ast.tokensAll x as = b.elim [] (budgetTokens x) := by
    have mt : ∀ x : Emit, x = .priority ∨ x = .durability ∨ x = .quality →
        ms.flatMap (Mark.tokens x) = [] := by
      rintro x hx
      rw [List.flatMap_eq_nil_iff]
      intro m _
      rcases hx with rfl | rfl | rfl <;> cases m <;> rfl
    intro x hx
    have hv : x.isValue = true := by rcases hx with rfl | rfl | rfl <;> rfl
    rw [← g4 _ hv]
    simp only [List.flatMap_cons, List.flatMap_nil, List.append_nil, Part.tokens]
    rw [mt x hx]
    simp
  have t1 := hbt .priority (.inl rfl)
  have t2 := hbt .durability (.inr (.inl rfl))
  have t3 := hbt .quality (.inr (.inr rfl))
  cases b with
  | none =>
    cases xs with
    | some xs => cases h7
    | none =>
      have hp0 : 0 ≤ M.R.s (8 / 10) := hR.s_nonneg (by norm_num)
      have hq0 : 0 ≤ M.R.s (5 / 10) := hR.s_nonneg (by norm_num)
      rw [budgetFor, hcfg] at h8
      rw [finishBudget_spec hcfg hs h8 hp0, budgetSpec, if_pos (by simpa using t1)]
      simp [Config.ofRnd, orDefault_nonneg hp0, orDefault_nonneg hq0]
  | some ss =>
    cases xs with
    | none => cases h7
    | some xs =>
      simp only [Option.map_some, Option.some.injEq] at h7
      simp only [Option.elim_some, budgetTokens] at t1 t2 t3
      rw [budgetSpec, written, written, written, t1, t2, t3]
      cases gb ss rfl with
      | @one u m1 =>
        obtain ⟨x, d1, b1, _⟩ := unit_decimal m1
        obtain rfl := stod_values h7 (ds := [x]) (by simp [d1])
        rw [finishBudget_spec hcfg hs h8 (nn x b1)]
        simp [budgetFor, d1, orDefault_missing hm]
      | @two u v m1 m2 =>
        obtain ⟨x, d1, b1, _⟩ := unit_decimal m1
        obtain ⟨x', d2, b2, _⟩ := openUnit_decimal m2
        obtain rfl := stod_values h7 (ds := [x, x']) (by simp [d1, d2])
        rw [finishBudget_spec hcfg hs h8 (nn x b1)]
        simp [budgetFor, d1, d2, orDefault_missing hm, orDefault_nonneg (nn x' b2.le)]
      | @three u v w m1 m2 m3 =>
        obtain ⟨x, d1, b1, _⟩ := unit_decimal m1
        obtain ⟨x', d2, b2, _⟩ := openUnit_decimal m2
        obtain ⟨x'', d3, b3, _⟩ := unit_decimal m3
        obtain rfl := stod_values h7 (ds := [x, x', x'']) (by simp [d1, d2, d3])
        rw [finishBudget_spec hcfg hs h8 (nn x b1)]
        simp [budgetFor, d1, d2, d3, orDefault_nonneg (nn x' b2.le), orDefault_nonneg (nn x'' b3)]

theorem marks_tokens : ∀ {ms : List Mark}, (∀ m ∈ ms, m.Ranged) → ms.countP Mark.isTruth ≤ 1 →
    (∀ x, ms.flatMap (Mark.tokens x) = []) ∨
    ∃ ss, TruthNums ss ∧ ∀ x, ms.flatMap (Mark.tokens x) = truthTokens x ss
  | [], _, _ => .inl fun _ => rfl
  | m :: ms, hr, hc => by
    rw [List.countP_cons] at hc
    have hr' : ∀ m ∈ ms, m.Ranged := fun m hm => hr m (List.mem_cons_of_mem _ hm)
    have ih := marks_tokens hr' (by omega)
    have plain : (∀ x, m.tokens x = []) → (∀ x, (m :: ms).flatMap (Mark.tokens x) = []) ∨
        ∃ ss, TruthNums ss ∧ ∀ x, (m :: ms).flatMap (Mark.tokens x) = truthTokens x ss := by
      intro h
      rcases ih with h1 | ⟨ss, h1, h2⟩
      · exact .inl fun x => by simp [h x, h1 x]
      · exact .inr ⟨ss, h1, fun x => by simp [h x, h2 x]⟩
    cases m with
    | tense n => exact plain fun _ => rfl
    | time s => exact plain fun _ => rfl
    | truth ss =>
      have h0 : ms.countP Mark.isTruth = 0 := by
        have : Mark.isTruth (.truth ss) = true := rfl
        rw [this] at hc
        simp at hc
        simpa using hc
      refine .inr ⟨ss, hr _ List.mem_cons_self, fun x => ?_⟩
      have : ms.flatMap (Mark.tokens x) = [] := by
        rw [List.flatMap_eq_nil_iff]
        intro m hm
        rw [List.countP_eq_zero] at h0
        have := h0 m hm
        cases m <;> first | rfl | exact absurd rfl this
      rw [List.flatMap_cons, this, List.append_nil, Mark.tokens]

/-- The numerals of the tree of a line: at most one of each kind, and of the form the grammar
says. -/
theorem IsNarsese.numerals {line : List WChar} {as : List Ast} (hn : IsNarsese line as) :
    (∀ x : Emit, x.isValue = true → (Ast.tokensAll x as).length ≤ 1) ∧
    (∀ x : Emit, x = .priority ∨ x = .quality ∨ x = .frequency → ∀ s ∈ Ast.tokensAll x as,
      ∃ u, s = textOf u ∧ Rx.unit.Matches u) ∧
    (∀ x : Emit, x = .durability ∨ x = .confidence → ∀ s ∈ Ast.tokensAll x as,
      ∃ u, s = textOf u ∧ Rx.openUnit.Matches u) ∧
    (∀ s ∈ Ast.tokensAll .k_evidence as, ∃ u, s = textOf u ∧ Rx.posNat.Matches u) := by
  obtain ⟨b, p, t, ms, h1, _⟩ := evalTask_part hn
  obtain ⟨g1, g2⟩ := hn.ranged
  obtain ⟨g3, g4, _⟩ := Ast.partAll_ranged h1 g1 g2
  obtain ⟨gb, gm, gc⟩ := g3 _ (List.mem_singleton.mpr rfl)
  have key : ∀ x : Emit, x.isValue = true →
      Ast.tokensAll x as = b.elim [] (budgetTokens x) ++ ms.flatMap (Mark.tokens x) := by
    intro x hx
    rw [← g4 x hx]
    simp [Part.tokens]
  have hb : (∀ x, b.elim [] (budgetTokens x) = []) ∨
      ∃ ss, BudgetNums ss ∧ ∀ x, b.elim [] (budgetTokens x) = budgetTokens x ss := by
    cases b with
    | none => exact .inl fun _ => rfl
    | some ss => exact .inr ⟨ss, gb ss rfl, fun _ => rfl⟩
  have one : ∀ (u : List WChar) (r : Rx), r.Matches u → ∀ s ∈ [textOf u], ∃ u, s = textOf u ∧ r.Matches u := by
    intro u r hu s hs
    simp only [List.mem_singleton] at hs
    exact ⟨u, hs, hu⟩
  have hB : ∀ x, (b.elim [] (budgetTokens x)).length ≤ 1 := by
    intro x
    rcases hb with hb | ⟨ss, hs, hb⟩
    · simp [hb x]
    · rw [hb]
      cases x <;> simp [budgetTokens]
  have hT : ∀ x, (ms.flatMap (Mark.tokens x)).length ≤ 1 := by
    intro x
    rcases marks_tokens gm gc with ht | ⟨ss, hs, ht⟩
    · simp [ht x]
    · rw [ht]
      cases x <;> simp [truthTokens]
  have bnil : ∀ x : Emit, x = .frequency ∨ x = .confidence ∨ x = .k_evidence →
      b.elim [] (budgetTokens x) = [] := by
    rintro x hx
    cases b with
    | none => rfl
    | some ss => rcases hx with rfl | rfl | rfl <;> rfl
  have tnil : ∀ x : Emit, x = .priority ∨ x = .durability ∨ x = .quality →
      ms.flatMap (Mark.tokens x) = [] := by
    rintro x hx
    rw [List.flatMap_eq_nil_iff]
    intro m _
    rcases hx with rfl | rfl | rfl <;> cases m <;> rfl
  have bu : ∀ x : Emit, (x = .priority ∨ x = .quality → ∀ s ∈ b.elim [] (budgetTokens x),
        ∃ u, s = textOf u ∧ Rx.unit.Matches u) ∧
      (x = .durability → ∀ s ∈ b.elim [] (budgetTokens x),
        ∃ u, s = textOf u ∧ Rx.openUnit.Matches u) := by
    intro x
    rcases hb with hb | ⟨ss, hs, hb⟩
    · simp [hb]
    · rw [hb]
      constructor
      · rintro (rfl | rfl) <;> cases hs <;>
          simp only [budgetTokens, List.take, List.drop, List.not_mem_nil, false_implies,
            implies_true] <;> exact one _ _ ‹_›
      · rintro rfl
        cases hs <;>
          simp only [budgetTokens, List.take, List.drop, List.not_mem_nil, false_implies,
            implies_true] <;> exact one _ _ ‹_›
  have tu : ∀ x : Emit, (x = .frequency → ∀ s ∈ ms.flatMap (Mark.tokens x),
        ∃ u, s = textOf u ∧ Rx.unit.Matches u) ∧
      (x = .confidence → ∀ s ∈ ms.flatMap (Mark.tokens x),
        ∃ u, s = textOf u ∧ Rx.openUnit.Matches u) ∧
      (x = .k_evidence → ∀ s ∈ ms.flatMap (Mark.tokens x),
        ∃ u, s = textOf u ∧ Rx.posNat.Matches u) := by
    intro x
    rcases marks_tokens gm gc with ht | ⟨ss, hs, ht⟩
    · simp [ht]
    · rw [ht]
      refine ⟨?_, ?_, ?_⟩
      all_goals
        rintro rfl
        cases hs <;>
          simp only [truthTokens, List.take, List.drop, List.not_mem_nil, false_implies,
            implies_true] <;> exact one _ _ ‹_›
  refine ⟨fun x hx => ?_, fun x hx => ?_, fun x hx => ?_, ?_⟩
  · rw [key x hx]
    rcases Emit.isValue_cases hx with hv | hv
    · rw [tnil x hv, List.append_nil]
      exact hB x
    · rw [bnil x hv]
      exact hT x
  · rcases hx with rfl | rfl | rfl
    · rw [key _ rfl, tnil _ (by simp), List.append_nil]
      exact (bu _).1 (by simp)
    · rw [key _ rfl, tnil _ (by simp), List.append_nil]
      exact (bu _).1 (by simp)
    · rw [key _ rfl, bnil _ (by simp)]
      exact (tu _).1 rfl
  · rcases hx with rfl | rfl
    · rw [key _ rfl, tnil _ (by simp), List.append_nil]
      exact (bu _).2 rfl
    · rw [key _ rfl, bnil _ (by simp)]
      exact (tu _).2.1 rfl
  · rw [key _ rfl, bnil _ (by simp)]
    exact (tu _).2.2 rfl

theorem written_some {M : Mach} {as : List Ast} {x : Emit} {y : ℚ} (h : written M as x = some y) :
    ∃ s ∈ Ast.tokensAll x as, ∃ z, decimal s = some z ∧ y = M.R.s (M.R.d z) := by
  simp only [written, Option.bind_eq_some_iff, Option.map_eq_some_iff] at h
  obtain ⟨s, h1, z, h2, rfl⟩ := h
  exact ⟨s, List.mem_of_mem_head? h1, z, h2, rfl⟩

theorem written_unit {line : List WChar} {as : List Ast} (hn : IsNarsese line as) {M : Mach}
    (hR : M.R.Sound) {x : Emit} (hx : x = .priority ∨ x = .quality ∨ x = .frequency) {y : ℚ}
    (h : written M as x = some y) : 0 ≤ y ∧ y ≤ 1 := by
  obtain ⟨s, h1, z, h2, rfl⟩ := written_some h
  obtain ⟨u, rfl, hu⟩ := hn.numerals.2.1 x hx s h1
  obtain ⟨z', h3, h4⟩ := unit_decimal hu
  obtain rfl : z' = z := by simpa [h3] using h2
  exact hR.s_unit (hR.d_unit h4)

theorem written_open {line : List WChar} {as : List Ast} (hn : IsNarsese line as) {M : Mach}
    {x : Emit} (hx : x = .durability ∨ x = .confidence) {y : ℚ}
    (h : written M as x = some y) : ∃ z, 0 < z ∧ z < 1 ∧ y = M.R.s (M.R.d z) := by
  obtain ⟨s, h1, z, h2, rfl⟩ := written_some h
  obtain ⟨u, rfl, hu⟩ := hn.numerals.2.2.1 x hx s h1
  obtain ⟨z', h3, h4⟩ := openUnit_decimal hu
  obtain rfl : z' = z := by simpa [h3] using h2
  exact ⟨z', h4.1, h4.2, rfl⟩

theorem written_pos {line : List WChar} {as : List Ast} (hn : IsNarsese line as) {M : Mach}
    (hR : M.R.Sound) {y : ℚ} (h : written M as .k_evidence = some y) : 1 ≤ y := by
  obtain ⟨s, h1, z, h2, rfl⟩ := written_some h
  obtain ⟨u, rfl, hu⟩ := hn.numerals.2.2.2 s h1
  obtain ⟨n, h3, h4⟩ := posNat_decimal hu
  obtain rfl : (n : ℚ) = z := by simpa [h3] using h2
  have h5 : (1 : ℚ) ≤ n := by exact_mod_cast h4
  have h6 := hR.d_mono h5
  rw [hR.d_one] at h6
  have h7 := hR.s_mono h6
  rwa [hR.s_one] at h7

theorem getD_all {P : ℚ → Prop} {o : Option ℚ} {d : ℚ} (h : ∀ y, o = some y → P y) (hd : P d) :
    P (o.getD d) := by
  cases o with
  | none => exact hd
  | some y => exact h y rfl

end Cnars.Parser
