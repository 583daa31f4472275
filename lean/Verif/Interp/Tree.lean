import Verif.Interp.Print

/-!
# Reading printed terms back: the bracket structure of printed texts is unambiguous
-/

namespace Cnars
open Term

/-- A printed term as a tree of words and brackets. -/
inductive Tree where
  | leaf (l : Str)
  | angle (s : Tree) (c : Copula) (p : Tree)
  | paren (head : Str) (ts : List Tree)
  | curly (ts : List Tree)
  | square (ts : List Tree)

namespace Tree

/-- The characters that end a word. -/
def isDelim (c : Char) : Bool :=
  c = ' ' || c = ',' || c = '<' || c = '>' || c = '(' || c = ')' || c = '{' || c = '}' || c = '[' ||
    c = ']'

/-- A word: not empty, no delimiters. -/
def Word (l : Str) : Prop := l ≠ [] ∧ ∀ c ∈ l, isDelim c = false

mutual
/-- The text of a tree. -/
def text : Tree → Str
  | leaf l => l
  | angle s c p => '<' :: (text s ++ (' ' :: (c.symbol.toList ++ (' ' :: (text p ++ ['>'])))))
  | paren h ts => '(' :: (h ++ (',' :: ' ' :: (texts ts ++ [')'])))
  | curly ts => '{' :: (texts ts ++ ['}'])
  | square ts => '[' :: (texts ts ++ [']'])
/-- The texts of the members, separated by `, `. -/
def texts : List Tree → Str
  | [] => []
  | [t] => text t
  | t :: ts => text t ++ (',' :: ' ' :: texts ts)
end

theorem texts_cons2 (t u : Tree) (us : List Tree) :
    texts (t :: u :: us) = text t ++ (',' :: ' ' :: texts (u :: us)) := by rw [texts]; simp

/-- Trees whose words are words. -/
inductive Ok : Tree → Prop
  | leaf {l : Str} : Word l → Ok (leaf l)
  | angle {s p : Tree} (c : Copula) : Ok s → Ok p → Ok (angle s c p)
  | paren {h : Str} {ts : List Tree} : Word h → (∀ t ∈ ts, Ok t) → Ok (paren h ts)
  | curly {ts : List Tree} : (∀ t ∈ ts, Ok t) → Ok (curly ts)
  | square {ts : List Tree} : (∀ t ∈ ts, Ok t) → Ok (square ts)

/-- What may follow a term. -/
def Stop (r : Str) : Prop := r = [] ∨ ∃ c r', r = c :: r' ∧ isDelim c = true

theorem word_unique {P : Char → Bool} {l l' r r' : Str} (hl : ∀ c ∈ l, P c = false)
    (hl' : ∀ c ∈ l', P c = false) (hr : r = [] ∨ ∃ c s, r = c :: s ∧ P c = true)
    (hr' : r' = [] ∨ ∃ c s, r' = c :: s ∧ P c = true) (h : l ++ r = l' ++ r') : l = l' ∧ r = r' := by
  induction l generalizing l' with
  | nil =>
    cases l' with
    | nil => exact ⟨rfl, h⟩
    | cons c l' =>
      rcases hr with hr | ⟨d, s, hr, hd⟩
      · subst hr; simp at h
      · subst hr
        simp at h
        have := hl' c (by simp)
        rw [h.1, this] at hd; cases hd
  | cons c l ih =>
    cases l' with
    | nil =>
      rcases hr' with hr' | ⟨d, s, hr', hd⟩
      · subst hr'; simp at h
      · subst hr'
        simp at h
        have := hl c (by simp)
        rw [← h.1, this] at hd; cases hd
    | cons c' l' =>
      simp at h
      obtain ⟨h1, h2⟩ := ih (fun d hd => hl d (by simp [hd])) (fun d hd => hl' d (by simp [hd])) h.2
      exact ⟨by rw [h.1, h1], h2⟩

/-- The first character of a text: a bracket, or the first of a word. -/
theorem text_head {t : Tree} (h : Ok t) : ∃ c r, text t = c :: r ∧
    (c = '<' ∨ c = '(' ∨ c = '{' ∨ c = '[' ∨ isDelim c = false) := by
  cases h with
  | leaf h =>
    obtain ⟨h1, h2⟩ := h
    rename_i l
    cases l with
    | nil => exact absurd rfl h1
    | cons c r => exact ⟨c, r, by simp [text], by simp [h2 c]⟩
  | angle => exact ⟨_, _, by rw [text], by simp⟩
  | paren => exact ⟨_, _, by rw [text], by simp⟩
  | curly => exact ⟨_, _, by rw [text], by simp⟩
  | square => exact ⟨_, _, by rw [text], by simp⟩

theorem copula_no_space (c : Copula) : ∀ x ∈ c.symbol.toList, (x = ' ' : Bool) = false := by
  cases c <;> decide +kernel

theorem copula_symbol_inj {c c' : Copula} (h : c.symbol.toList = c'.symbol.toList) : c = c' := by
  revert h; cases c <;> cases c' <;> decide +kernel

/-- Closing brackets. -/
def isClose (c : Char) : Bool := c = ')' || c = '}' || c = ']'

theorem isClose_delim {c : Char} (h : isClose c = true) : isDelim c = true := by
  simp only [isClose, Bool.or_eq_true, decide_eq_true_eq] at h
  rcases h with (h | h) | h <;> (subst h; decide)

theorem texts_head {t : Tree} {ts : List Tree} (h : Ok t) : ∃ c r, texts (t :: ts) = c :: r ∧
    isClose c = false := by
  obtain ⟨c, q, hq, hc⟩ := text_head h
  have hcl : isClose c = false := by
    rcases hc with hc | hc | hc | hc | hc
    · subst hc; decide
    · subst hc; decide
    · subst hc; decide
    · subst hc; decide
    · cases h1 : isClose c with
      | false => rfl
      | true => rw [isClose_delim h1] at hc; cases hc
  cases ts with
  | nil => exact ⟨c, q, by rw [texts]; exact hq, hcl⟩
  | cons v vs => exact ⟨c, _, by rw [texts_cons2, hq]; rfl, hcl⟩

mutual
theorem text_unique : ∀ (t u : Tree) (r r' : Str), Ok t → Ok u → Stop r → Stop r' →
    text t ++ r = text u ++ r' → t = u ∧ r = r'
  | leaf l, u, r, r', ht, hu, hr, hr', h => by
    cases ht with
    | leaf ht =>
    cases hu with
    | leaf hu =>
      simp only [text] at h
      obtain ⟨h1, h2⟩ := word_unique ht.2 hu.2 hr hr' h
      exact ⟨by rw [h1], h2⟩
    | _ =>
      cases l with
      | nil => exact absurd rfl ht.1
      | cons c l =>
        have := ht.2 c (by simp)
        simp [text] at h
        rw [h.1] at this; exact absurd this (by decide)
  | angle s c p, u, r, r', ht, hu, hr, hr', h => by
    cases ht with
    | angle _ hs hp =>
    cases hu with
    | angle c' hs' hp' =>
      simp only [text, List.cons_append, List.append_assoc, List.cons.injEq, true_and] at h
      obtain ⟨h1, h2⟩ := text_unique s _ _ _ hs hs' (.inr ⟨_, _, rfl, by decide⟩)
        (.inr ⟨_, _, rfl, by decide⟩) h
      simp only [List.cons.injEq, true_and] at h2
      obtain ⟨h3, h4⟩ := word_unique (P := fun x => (x = ' ' : Bool)) (copula_no_space c) (copula_no_space c')
        (.inr ⟨_, _, rfl, by decide⟩) (.inr ⟨_, _, rfl, by decide⟩) h2
      simp only [List.cons.injEq, true_and] at h4
      obtain ⟨h5, h6⟩ := text_unique p _ _ _ hp hp' (.inr ⟨_, _, rfl, by decide⟩)
        (.inr ⟨_, _, rfl, by decide⟩) h4
      simp only [List.nil_append, List.cons.injEq, true_and] at h6
      exact ⟨by rw [h1, copula_symbol_inj h3, h5], h6⟩
    | leaf hu =>
      rename_i l
      cases l with
      | nil => exact absurd rfl hu.1
      | cons c l =>
        have := hu.2 c (by simp)
        simp [text] at h
        rw [← h.1] at this; exact absurd this (by decide)
    | _ => simp [text] at h
  | paren hd ts, u, r, r', ht, hu, hr, hr', h => by
    cases ht with
    | paren hw hts =>
    cases hu with
    | paren hw' hts' =>
      simp only [text, List.cons_append, List.append_assoc, List.cons.injEq, true_and] at h
      obtain ⟨h3, h4⟩ := word_unique hw.2 hw'.2
        (.inr ⟨_, _, rfl, by decide⟩) (.inr ⟨_, _, rfl, by decide⟩) h
      simp only [List.cons.injEq, true_and] at h4
      obtain ⟨h5, h6⟩ := texts_unique ts _ ')' _ _ hts hts' (by decide) h4
      simp only [List.nil_append] at h6
      exact ⟨by rw [h3, h5], h6⟩
    | leaf hu =>
      rename_i l
      cases l with
      | nil => exact absurd rfl hu.1
      | cons c l =>
        have := hu.2 c (by simp)
        simp [text] at h
        rw [← h.1] at this; exact absurd this (by decide)
    | _ => simp [text] at h
  | curly ts, u, r, r', ht, hu, hr, hr', h => by
    cases ht with
    | curly hts =>
    cases hu with
    | curly hts' =>
      simp only [text, List.cons_append, List.append_assoc, List.cons.injEq, true_and] at h
      obtain ⟨h5, h6⟩ := texts_unique ts _ '}' _ _ hts hts' (by decide) h
      simp only [List.nil_append] at h6
      exact ⟨by rw [h5], h6⟩
    | leaf hu =>
      rename_i l
      cases l with
      | nil => exact absurd rfl hu.1
      | cons c l =>
        have := hu.2 c (by simp)
        simp [text] at h
        rw [← h.1] at this; exact absurd this (by decide)
    | _ => simp [text] at h
  | square ts, u, r, r', ht, hu, hr, hr', h => by
    cases ht with
    | square hts =>
    cases hu with
    | square hts' =>
      simp only [text, List.cons_append, List.append_assoc, List.cons.injEq, true_and] at h
      obtain ⟨h5, h6⟩ := texts_unique ts _ ']' _ _ hts hts' (by decide) h
      simp only [List.nil_append] at h6
      exact ⟨by rw [h5], h6⟩
    | leaf hu =>
      rename_i l
      cases l with
      | nil => exact absurd rfl hu.1
      | cons c l =>
        have := hu.2 c (by simp)
        simp [text] at h
        rw [← h.1] at this; exact absurd this (by decide)
    | _ => simp [text] at h
theorem texts_unique : ∀ (ts us : List Tree) (e : Char) (r r' : Str), (∀ t ∈ ts, Ok t) →
    (∀ t ∈ us, Ok t) → isClose e = true → texts ts ++ e :: r = texts us ++ e :: r' →
    ts = us ∧ r = r'
  | [], us, e, r, r', _, hu, he, h => by
    cases us with
    | nil => simp [texts] at h; exact ⟨rfl, h⟩
    | cons u us =>
      obtain ⟨c, q', hq', hc⟩ := texts_head (ts := us) (hu u (by simp))
      rw [hq'] at h
      simp [texts] at h
      rw [h.1, hc] at he; cases he
  | t :: ts, us, e, r, r', ht, hu, he, h => by
    have hde := isClose_delim he
    cases us with
    | nil =>
      obtain ⟨c, q', hq', hc⟩ := texts_head (ts := ts) (ht t (by simp))
      rw [hq'] at h
      simp [texts] at h
      rw [← h.1, hc] at he; cases he
    | cons u us =>
      have st : ∀ (l : List Tree) (x : Tree) (s : Str), ∃ s', texts (x :: l) ++ e :: s = text x ++ s' ∧
          Stop s' ∧ (l = [] → s' = e :: s) ∧ (∀ y ys, l = y :: ys → s' = ',' :: ' ' :: (texts (y :: ys) ++ e :: s)) := by
        intro l x s
        cases l with
        | nil => exact ⟨e :: s, by rw [texts], .inr ⟨_, _, rfl, hde⟩, fun _ => rfl, fun _ _ h => by cases h⟩
        | cons y ys =>
          refine ⟨',' :: ' ' :: (texts (y :: ys) ++ e :: s), by rw [texts_cons2]; simp,
            .inr ⟨_, _, rfl, by decide⟩, ?_, ?_⟩
          · intro h; cases h
          · intro _ _ h; cases h; rfl
      obtain ⟨s1, e1, st1, n1, c1⟩ := st ts t r
      obtain ⟨s2, e2, st2, n2, c2⟩ := st us u r'
      rw [e1, e2] at h
      obtain ⟨h1, h2⟩ := text_unique t u s1 s2 (ht t (by simp)) (hu u (by simp)) st1 st2 h
      cases ts with
      | nil =>
        cases us with
        | nil => rw [n1 rfl, n2 rfl] at h2; simp at h2; exact ⟨by rw [h1], h2⟩
        | cons y ys => rw [n1 rfl, c2 _ _ rfl] at h2; simp at h2; rw [h2.1] at he; exact absurd he (by decide)
      | cons x xs =>
        cases us with
        | nil => rw [n2 rfl, c1 _ _ rfl] at h2; simp at h2; rw [← h2.1] at he; exact absurd he (by decide)
        | cons y ys =>
          rw [c1 _ _ rfl, c2 _ _ rfl] at h2
          simp only [List.cons.injEq, true_and] at h2
          obtain ⟨h3, h4⟩ := texts_unique (x :: xs) (y :: ys) e r r' (fun a ha => ht a (by simp [ha]))
            (fun a ha => hu a (by simp [ha])) he h2
          exact ⟨by rw [h1, h3], h4⟩
end

/-- Different trees have different texts. -/
theorem text_injective {t u : Tree} (ht : Ok t) (hu : Ok u) (h : text t = text u) : t = u :=
  (text_unique t u [] [] ht hu (.inl rfl) (.inl rfl) (by simpa using h)).1

end Tree
end Cnars
