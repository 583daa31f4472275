import Verif.Interp.Repr
import Verif.Props.Printing

/-!
# C90: what Python shows
-/

namespace Cnars.Props
open Cnars Term Print

/-- The four kinds of terms. -/
inductive Kind where
  | name | variable | statement | compound
  deriving DecidableEq

/-- Specification: the kind of a term.  Intervals count as names. -/
def kindOf : Term → Kind
  | .atom _ _ | .interval _ _ => .name
  | .var _ _ _ => .variable
  | .stmt _ _ _ _ => .statement
  | .comp _ _ _ => .compound

theorem mark_kind {t u : Term} {x y : Str} {c : Char} (hc : c = ':' ∨ c = ' ')
    (h : Repr.mark t ++ c :: x = Repr.mark u ++ c :: y) : kindOf t = kindOf u ∧ x = y := by
  have key : ∀ v : Term, Repr.mark v = ['V', 'a', 'r', 'i', 'a', 'b', 'l', 'e'] ∧ kindOf v = .variable ∨
      Repr.mark v = ['T', 'e', 'r', 'm'] ∧ kindOf v = .name ∨
      Repr.mark v = ['S', 't', 'a', 't', 'e', 'm', 'e', 'n', 't'] ∧ kindOf v = .statement ∨
      Repr.mark v = ['C', 'o', 'm', 'p', 'o', 'u', 'n', 'd'] ∧ kindOf v = .compound := by
    intro v; cases v <;> simp [Repr.mark, kindOf]
  rcases key t with ⟨e1, e2⟩ | ⟨e1, e2⟩ | ⟨e1, e2⟩ | ⟨e1, e2⟩ <;>
  rcases key u with ⟨e3, e4⟩ | ⟨e3, e4⟩ | ⟨e3, e4⟩ | ⟨e3, e4⟩ <;>
  rw [e1, e3] at h <;> rw [e2, e4] <;>
  first
  | (refine ⟨rfl, ?_⟩; simpa using h)
  | (exfalso; rcases hc with rfl | rfl <;> simp at h)

theorem digit_inj {m n : Nat} (hm : m < 16) (hn : n < 16) (h : m.digitChar = n.digitChar) : m = n := by
  have key : ∀ m < 16, ∀ n < 16, m.digitChar = n.digitChar → m = n := by decide +kernel
  exact key m hm n hn h

theorem hex_ne (m : Nat) : Nat.toDigits 16 m ≠ [] := by
  rcases Nat.lt_or_ge m 16 with h | h
  · rw [Nat.toDigits_of_lt_base h]; simp
  · rw [Nat.toDigits_of_base_le (by norm_num) h]; simp

/-- Hexadecimal numerals tell the number. -/
theorem hex_inj {m n : Nat} (h : Nat.toDigits 16 m = Nat.toDigits 16 n) : m = n := by
  induction m using Nat.strong_induction_on generalizing n with
  | _ m ih =>
    rcases Nat.lt_or_ge m 16 with hm | hm <;> rcases Nat.lt_or_ge n 16 with hn | hn
    · rw [Nat.toDigits_of_lt_base hm, Nat.toDigits_of_lt_base hn] at h
      exact digit_inj hm hn (by simpa using h)
    · rw [Nat.toDigits_of_lt_base hm, Nat.toDigits_of_base_le (by norm_num) hn] at h
      have := congrArg List.length h
      have h1 := List.length_pos_iff.2 (hex_ne (n / 16))
      simp at this
    · rw [Nat.toDigits_of_lt_base hn, Nat.toDigits_of_base_le (by norm_num) hm] at h
      have := congrArg List.length h
      have h1 := List.length_pos_iff.2 (hex_ne (m / 16))
      simp at this
    · rw [Nat.toDigits_of_base_le (by norm_num) hm, Nat.toDigits_of_base_le (by norm_num) hn] at h
      obtain ⟨h1, h2⟩ := List.append_inj' h rfl
      have e1 := ih (m / 16) (by omega) h1
      have e2 := digit_inj (Nat.mod_lt m (by norm_num)) (Nat.mod_lt n (by norm_num)) (by simpa using h2)
      omega

/-- C90: with a dictionary, the representation of a term is defined exactly if its text is, and it
tells the kind and the text. -/
theorem C90_term (d : Map Key String) (own : Option (Map Key String)) (a b : Word) (t u : Term) :
    ((∃ s, Repr.term (some d) own a t = .ok s) ↔ ∃ s, Print.term d false t = .ok s) ∧
    ∀ s, Repr.term (some d) own a t = .ok s → Repr.term (some d) own b u = .ok s →
      kindOf t = kindOf u ∧ Print.term d false t = Print.term d false u := by
  have e : ∀ (a : Word) (v : Term), Repr.term (some d) own a v =
      (Print.term d false v >>= fun x => .ok (['<'] ++ Repr.mark v ++ [':', ' '] ++ x ++ ['>'])) :=
    fun _ _ => rfl
  refine ⟨?_, ?_⟩
  · rw [e]
    cases Print.term d false t <;> simp [Bind.bind, Res.bind]
  · intro s h1 h2
    rw [e, Res.bind_eq_ok] at h1 h2
    obtain ⟨x, hx, h1⟩ := h1
    obtain ⟨y, hy, h2⟩ := h2
    simp only [Res.ok.injEq] at h1 h2
    subst h1
    have h3 : Repr.mark u ++ ':' :: (' ' :: y ++ ['>']) = Repr.mark t ++ ':' :: (' ' :: x ++ ['>']) := by
      simpa using h2
    obtain ⟨k, e⟩ := mark_kind (.inl rfl) h3
    refine ⟨k.symm, ?_⟩
    rw [hx, hy]
    simp only [List.cons_append, List.cons.injEq, true_and] at e
    rw [List.append_cancel_right e]

example : Repr.term (some sDict) none 0 ruleAB =
      .ok "<Statement: <(^go, A, B) ==> <{B, A} --> C>>>".toList ∧
    Repr.term (some sDict) none 0 (mkVar .independent "x" 1) = .ok "<Variable: $1>".toList ∧
    Repr.term (some sDict) none 0 sA = .ok "<Term: A>".toList := by decide +kernel

/-- C90: terms with the same representation are the same, if they are of the shapes and have the names
of C38.  Missing: the other shapes, as in C38. -/
theorem C90_faithful_partial {t u : Term} {d : Map Key String} (ht : Constructed t)
    (hu : Constructed u) (pt : Plain t) (pu : Plain u)
    (ct : ∀ x ∈ complexes t, d (keyOf x.hash) = none) (cu : ∀ x ∈ complexes u, d (keyOf x.hash) = none)
    (nt : ProperNames d t) (nu : ProperNames d u) (hi : NamesIdentify d t u)
    {own : Option (Map Key String)} {a b : Word}
    (h : Repr.term (some d) own a t = Repr.term (some d) own b u) : shape t = shape u := by
  obtain ⟨x, hx⟩ := C37_plain_partial ht pt.printable d
  obtain ⟨s, hs⟩ := (C90_term d own a b t u).1.2 ⟨x, hx⟩
  exact C38_faithful_partial ht hu pt pu ct cu nt nu hi
    ((C90_term d own a b t u).2 s hs (h ▸ hs)).2

/-- The hypotheses are met by `<(^go, A, B) ==> <{A, B} --> C>>`. -/
example (h : Repr.term (some sDict) none 16 ruleAB = Repr.term (some sDict) none 32 ruleAB) :
    shape ruleAB = shape ruleAB :=
  C90_faithful_partial ruleAB_c ruleAB_c ruleAB_plain ruleAB_plain (by decide +kernel)
    (by decide +kernel) ruleAB_names ruleAB_names (by unfold NamesIdentify; decide +kernel) h

/-- C90: without any interpreter the representation is defined and tells the kind and the address; it
is never the representation of a term with one. -/
theorem C90_address (a b : Word) (t u : Term) (d : Map Key String) (own : Option (Map Key String)) :
    (∃ s, Repr.term none none a t = .ok s) ∧
    (Repr.term none none a t = Repr.term none none b u → kindOf t = kindOf u ∧ a = b) ∧
    Repr.term none none a t ≠ Repr.term (some d) own b u := by
  refine ⟨⟨_, rfl⟩, ?_, ?_⟩
  · intro h
    simp only [Repr.term, Option.orElse, Res.ok.injEq] at h
    have h3 : Repr.mark t ++ ' ' :: (['a', 't', ' '] ++ Nat.toDigits 16 a.toNat ++ ['>']) =
        Repr.mark u ++ ' ' :: (['a', 't', ' '] ++ Nat.toDigits 16 b.toNat ++ ['>']) := by simpa using h
    obtain ⟨k, e⟩ := mark_kind (.inr rfl) h3
    refine ⟨k, ?_⟩
    have e2 := List.append_cancel_left (List.append_cancel_right e)
    exact BitVec.eq_of_toNat_eq (hex_inj e2)
  · intro h
    have e : Repr.term (some d) own b u =
      (Print.term d false u >>= fun x => .ok (['<'] ++ Repr.mark u ++ [':', ' '] ++ x ++ ['>'])) := rfl
    rw [e] at h
    have h := h.symm
    simp only [Repr.term, Option.orElse] at h
    rw [Res.bind_eq_ok] at h
    obtain ⟨x, _, h⟩ := h
    simp only [Res.ok.injEq] at h
    cases t <;> cases u <;> simp [Repr.mark] at h

/-- What main.cpp:19-20 prints, for a term at 0x55aa. -/
example : Repr.term none none 0x55aa sA = .ok "<Term at 55aa>".toList := by decide +kernel

section
variable {K : Type} [Field K] [LinearOrder K] [FloorRing K]

/-- C90: the representations of sentences and tasks are defined exactly if their texts are, and tell
them; none of them is also that of a task or sentence or term, respectively. -/
theorem C90_task (R : Rnd K) (fix : Nat → K → Str) (bg : Fin 3 → K → Str) (time : Nat)
    (d : Map Key String) (b b' : Print.Budget K) (s s' : Sentence K) (own : Option (Map Key String))
    (a : Word) (t : Term) :
    ((∃ x, Repr.task R fix bg time d b s = .ok x) ↔ ∃ x, Print.task R fix bg time d false b s = .ok x) ∧
    ((∃ x, Repr.sentence fix time d s = .ok x) ↔ ∃ x, Print.sentence fix time d false s = .ok x) ∧
    (∀ x, Repr.task R fix bg time d b s = .ok x → Repr.task R fix bg time d b' s' = .ok x →
      Print.task R fix bg time d false b s = Print.task R fix bg time d false b' s') ∧
    (∀ x, Repr.sentence fix time d s = .ok x → Repr.sentence fix time d s' = .ok x →
      Print.sentence fix time d false s = Print.sentence fix time d false s') ∧
    ∀ x, (Repr.task R fix bg time d b s = .ok x → Repr.sentence fix time d s' ≠ .ok x) ∧
      (Repr.task R fix bg time d b s = .ok x → Repr.term (some d) own a t ≠ .ok x) ∧
      (Repr.sentence fix time d s = .ok x → Repr.term (some d) own a t ≠ .ok x) := by
  have e1 : ∀ (b : Print.Budget K) (s : Sentence K), Repr.task R fix bg time d b s =
      (Print.task R fix bg time d false b s >>= fun x => .ok (['<', 'T', 'a', 's', 'k', ':', ' '] ++ x ++ ['>'])) :=
    fun _ _ => rfl
  have e2 : ∀ s : Sentence K, Repr.sentence fix time d s =
      (Print.sentence fix time d false s >>= fun x => .ok (['<', 'S', 'e', 'n', 't', 'e', 'n', 'c', 'e', ':', ' '] ++ x ++ ['>'])) :=
    fun _ => rfl
  have e3 : Repr.term (some d) own a t =
      (Print.term d false t >>= fun x => .ok (['<'] ++ Repr.mark t ++ [':', ' '] ++ x ++ ['>'])) := rfl
  rw [e3]
  simp only [e1, e2]
  refine ⟨?_, ?_, ?_, ?_, ?_⟩
  · cases Print.task R fix bg time d false b s <;> simp [Bind.bind, Res.bind]
  · cases Print.sentence fix time d false s <;> simp [Bind.bind, Res.bind]
  · intro x h1 h2
    rw [Res.bind_eq_ok] at h1 h2
    obtain ⟨y, hy, h1⟩ := h1
    obtain ⟨z, hz, h2⟩ := h2
    simp only [Res.ok.injEq] at h1 h2
    rw [← h1] at h2
    rw [hy, hz, List.append_cancel_left (List.append_cancel_right h2)]
  · intro x h1 h2
    rw [Res.bind_eq_ok] at h1 h2
    obtain ⟨y, hy, h1⟩ := h1
    obtain ⟨z, hz, h2⟩ := h2
    simp only [Res.ok.injEq] at h1 h2
    rw [← h1] at h2
    rw [hy, hz, List.append_cancel_left (List.append_cancel_right h2)]
  · intro x
    refine ⟨fun h1 h2 => ?_, fun h1 h2 => ?_, fun h1 h2 => ?_⟩
    all_goals
      rw [Res.bind_eq_ok] at h1 h2
      obtain ⟨y, hy, h1⟩ := h1
      obtain ⟨z, hz, h2⟩ := h2
      simp only [Res.ok.injEq] at h1 h2
      rw [← h1] at h2
      first
      | (simp at h2; done)
      | (cases t <;> simp [Repr.mark] at h2)

end

/-- The representation of a judgement and of a task, for a text of the numbers. -/
example : let fix : Nat → ℚ → Str := fun _ x => if x = 1 then ['1', '.', '0', '0'] else ['0', '.', '9', '0']
    let s : Sentence ℚ := .judgement ⟨0, 0⟩ ⟨1, 9 / 10, 1⟩ sA none none
    Repr.sentence fix 0 sDict s = .ok "<Sentence: A. %1.00;0.90%>".toList ∧
    Repr.task (Rnd.exact ℚ) fix (fun _ _ => []) 0 sDict ⟨.fin 1, .fin (9 / 10), .fin 1⟩ s =
      .ok "<Task: $1.00;0.90;1.00$ A. %1.00;0.90%>".toList := by decide +kernel

/-- C90 is false in Python itself: `repr(x)` raises a TypeError for every term, statement, compound,
sentence and task, as the bound functions want a second argument. -/
theorem C90_python_counterexample (c : Repr.Class) (hc : c ≠ .truth ∧ c ≠ .budget) (text : Res Str) :
    Repr.python c text = .ok (.raised "TypeError") := by
  cases c <;> first | rfl | exact absurd rfl hc.1 | exact absurd rfl hc.2

/-- C90: `repr(x)` works for truth values and budgets. -/
theorem C90_python_partial (c : Repr.Class) (text : Str) :
    Repr.python c (.ok text) = .ok (.value text) ↔ c = .truth ∨ c = .budget := by
  cases c <;> simp [Repr.python, Repr.binding, Repr.Binding.accepts, Res.bind]

end Cnars.Props
