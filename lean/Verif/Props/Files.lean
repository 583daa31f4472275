import Verif.Parser.Files
import Verif.Props.Demo

/-!
# C99: a program that reads files of examples
-/

namespace Cnars.Props
open Cnars Cnars.Parser Cnars.Term

/-! ### Lines -/

theorem getlines_clean {text : List Char} : ∀ l ∈ getlines text, '\n' ∉ l := by
  induction text with
  | nil => simp [getlines]
  | cons c cs ih =>
    rw [getlines]
    split
    · intro l hl
      rcases List.mem_cons.mp hl with rfl | hl
      · simp
      · exact ih l hl
    · rename_i hc
      split
      · intro l hl
        rw [List.mem_singleton.mp hl]
        simpa using fun h => hc h.symm
      · rename_i x xs hg
        rw [hg] at ih
        intro l hl
        rcases List.mem_cons.mp hl with rfl | hl
        · have := ih x List.mem_cons_self
          simp only [List.mem_cons, not_or]
          exact ⟨fun h => hc h.symm, this⟩
        · exact ih l (List.mem_cons_of_mem _ hl)

theorem getlines_cons {l rest : List Char} (h : '\n' ∉ l) : getlines (l ++ '\n' :: rest) = l :: getlines rest := by
  induction l with
  | nil => rw [List.nil_append, getlines, if_pos rfl]
  | cons c cs ih =>
    simp only [List.mem_cons, not_or] at h
    rw [List.cons_append, getlines, if_neg (fun e => h.1 e.symm), ih h.2]

theorem getlines_join (ls : List (List Char)) (rest : List Char) (h : ∀ l ∈ ls, '\n' ∉ l) :
    getlines (ls.flatMap (· ++ ['\n']) ++ rest) = ls ++ getlines rest := by
  induction ls with
  | nil => rfl
  | cons l ls ih =>
    rw [List.flatMap_cons, List.append_assoc, List.append_assoc, List.singleton_append,
      getlines_cons (h l List.mem_cons_self), ih fun l hl => h l (List.mem_cons_of_mem _ hl)]
    rfl

theorem getlines_one {l : List Char} (h : '\n' ∉ l) (hl : l ≠ []) : getlines l = [l] := by
  induction l with
  | nil => exact absurd rfl hl
  | cons c cs ih =>
    simp only [List.mem_cons, not_or] at h
    rw [getlines, if_neg (fun e => h.1 e.symm)]
    cases cs with
    | nil => rfl
    | cons d ds => rw [ih h.2 (by simp)]

/-- The lines of a text: they are ended by the ends of line in it, except maybe for the last, which then is not empty. -/
def Cut (text : List Char) (ls : List (List Char)) : Prop :=
  (∀ l ∈ ls, '\n' ∉ l) ∧
    (ls.flatMap (· ++ ['\n']) = text ∨ ∃ l ls', ls = ls' ++ [l] ∧ l ≠ [] ∧ ls.flatMap (· ++ ['\n']) = text ++ ['\n'])

/-- C99: a file is cut at its ends of line and nowhere else; and this determines the lines. -/
theorem C99_lines (text : List Char) (ls : List (List Char)) : getlines text = ls ↔ Cut text ls := by
  constructor
  · rintro rfl
    refine ⟨fun l hl => getlines_clean l hl, ?_⟩
    induction text with
    | nil => exact .inl rfl
    | cons c cs ih =>
      by_cases hc : c = '\n'
      · subst hc
        have e : getlines ('\n' :: cs) = [] :: getlines cs := by rw [getlines, if_pos rfl]
        rw [e]
        rcases ih with h | ⟨l, ls', h1, h2, h3⟩
        · exact .inl (by simp [h])
        · exact .inr ⟨l, [] :: ls', by simp [h1], h2, by simp [h3]⟩
      · rcases hg : getlines cs with _ | ⟨l, ls⟩
        · have e : getlines (c :: cs) = [[c]] := by rw [getlines, if_neg hc, hg]
          rw [hg] at ih
          have hcs : cs = [] := by
            rcases ih with h | ⟨_, _, h, _⟩
            · exact h.symm
            · simp at h
          rw [e, hcs]
          exact .inr ⟨[c], [], by simp, by simp, by simp⟩
        · have e : getlines (c :: cs) = (c :: l) :: ls := by rw [getlines, if_neg hc, hg]
          rw [hg] at ih
          rw [e]
          rcases ih with h | ⟨l', ls', h1, h2, h3⟩
          · left
            rw [List.flatMap_cons] at h ⊢
            rw [← h]; rfl
          · right
            rw [List.flatMap_cons] at h3 ⊢
            rcases ls' with _ | ⟨a, ls'⟩
            · simp only [List.nil_append, List.cons.injEq] at h1
              refine ⟨c :: l, [], by simp [h1.2], by simp, congrArg (c :: ·) h3⟩
            · simp only [List.cons_append, List.cons.injEq] at h1
              refine ⟨l', (c :: a) :: ls', by simp [h1.1, h1.2], h2, congrArg (c :: ·) h3⟩
  · rintro ⟨h1, h2⟩
    rcases h2 with rfl | ⟨l, ls', rfl, h2, h3⟩
    · have := getlines_join ls [] h1
      simpa [getlines] using this
    · have e : text = ls'.flatMap (· ++ ['\n']) ++ l := by
        simp only [List.flatMap_append, List.flatMap_cons, List.flatMap_nil, List.append_nil] at h3
        rw [← List.append_assoc] at h3
        exact (List.append_cancel_right h3).symm
      rw [e, getlines_join ls' l fun x hx => h1 x (by simp [hx]), getlines_one (h1 l (by simp)) h2]

/-! ### What is read of a line -/

/-- A blank, or one of the control characters that are space. -/
def Space (c : Char) : Prop := c.toNat = 32 ∨ 9 ≤ c.toNat ∧ c.toNat ≤ 13

def Digit (c : Char) : Prop := 48 ≤ c.toNat ∧ c.toNat ≤ 57

/-- `t` is the line without the space around it. -/
structure Core (line t : List Char) : Prop where
  around : ∃ pre post, line = pre ++ t ++ post ∧ (∀ c ∈ pre, Space c) ∧ ∀ c ∈ post, Space c
  head : ∀ c, t.head? = some c → ¬ Space c
  last : ∀ c, t.getLast? = some c → ¬ Space c

/-- `t` is written in the line, and is neither a number nor a comment.  The first character that is no digit is one
that `isdigit` can be asked about. -/
def Asks (line t : List Char) : Prop :=
  Core line t ∧ t.head? ≠ some '\'' ∧
    ∃ ds c rest, t = ds ++ c :: rest ∧ (∀ x ∈ ds, Digit x) ∧ ¬ Digit c ∧ (c.toNat < 128 ∨ c.toNat = 255)

/-- A number, a comment, or only space. -/
def Ignored (line : List Char) : Prop :=
  ∃ t, Core line t ∧ ((∀ c ∈ t, Digit c) ∨ t.head? = some '\'')

/-- `isdigit` is asked about a negative number. -/
def Strange (line : List Char) : Prop :=
  ∃ ds c rest, Core line (ds ++ c :: rest) ∧ (∀ x ∈ ds, Digit x) ∧ 128 ≤ c.toNat ∧ c.toNat ≠ 255

theorem isSpace_iff {c : Char} : isSpace c = true ↔ Space c := by
  have h : ∀ d : Char, c = d ↔ c.toNat = d.toNat := fun d => ⟨fun h => h ▸ rfl, fun h => Char.toNat_inj.mp h⟩
  simp only [isSpace, List.mem_cons, List.not_mem_nil, or_false, decide_eq_true_eq, h, Space]
  simp only [show ' '.toNat = 32 from rfl, show '\t'.toNat = 9 from rfl, show '\n'.toNat = 10 from rfl,
    show '\x0b'.toNat = 11 from rfl, show '\x0c'.toNat = 12 from rfl, show '\r'.toNat = 13 from rfl]
  omega

theorem isDigit_iff {c : Char} : c.isDigit = true ↔ Digit c := by
  simp only [Char.isDigit, Digit, Bool.and_eq_true, decide_eq_true_eq, ge_iff_le, UInt32.le_iff_toNat_le]
  rfl

theorem dropWhile_space {pre t : List Char} (h : ∀ c ∈ pre, Space c) (ht : ∀ c, t.head? = some c → ¬ Space c) :
    (pre ++ t).dropWhile isSpace = t := by
  rw [List.dropWhile_append_of_pos fun c hc => isSpace_iff.mpr (h c hc)]
  cases t with
  | nil => rfl
  | cons c cs => exact List.dropWhile_cons_of_neg (by rw [isSpace_iff]; exact ht c rfl)

theorem Core.eq {line t : List Char} (h : Core line t) : t = trim line := by
  obtain ⟨⟨pre, post, rfl, h1, h2⟩, h3, h4⟩ := h
  unfold trim
  rw [List.append_assoc]
  cases ht : t with
  | nil =>
    rw [List.nil_append, List.dropWhile_append_of_pos fun c hc => isSpace_iff.mpr (h1 c hc)]
    have : post.dropWhile isSpace = [] := by
      rw [List.dropWhile_eq_nil_iff]
      exact fun c hc => isSpace_iff.mpr (h2 c hc)
    rw [this]; rfl
  | cons c cs =>
    rw [← ht, dropWhile_space h1 (by
      rw [ht]
      intro d hd
      exact h3 d (by rw [ht]; exact hd)), List.reverse_append,
      dropWhile_space (fun c hc => h2 c (List.mem_reverse.mp hc)) (by
        intro d hd
        rw [List.head?_reverse] at hd
        exact h4 d hd), List.reverse_reverse]

theorem core_trim (line : List Char) : Core line (trim line) := by
  have h1 : line = line.takeWhile isSpace ++ line.dropWhile isSpace := List.takeWhile_append_dropWhile.symm
  have h2 : ∀ c ∈ line.takeWhile isSpace, Space c := fun c hc => isSpace_iff.mp (List.mem_takeWhile_imp hc)
  have h3 : (line.dropWhile isSpace).reverse = (line.dropWhile isSpace).reverse.takeWhile isSpace ++
    (line.dropWhile isSpace).reverse.dropWhile isSpace := List.takeWhile_append_dropWhile.symm
  have h4 : ∀ c ∈ (line.dropWhile isSpace).reverse.takeWhile isSpace, Space c :=
    fun c hc => isSpace_iff.mp (List.mem_takeWhile_imp hc)
  have h5 : line.dropWhile isSpace = trim line ++ ((line.dropWhile isSpace).reverse.takeWhile isSpace).reverse := by
    conv_lhs => rw [← List.reverse_reverse (line.dropWhile isSpace), h3]
    rw [List.reverse_append]
    rfl
  refine ⟨⟨_, _, by rw [List.append_assoc, ← h5]; exact h1, h2, fun c hc => h4 c (List.mem_reverse.mp hc)⟩, ?_, ?_⟩
  · intro c hc hs
    have hd : (line.dropWhile isSpace).head? = some c := by
      rw [h5, List.head?_append, hc]; rfl
    have := List.head?_dropWhile_not isSpace line
    rw [hd] at this
    simp only at this
    rw [isSpace_iff.mpr hs] at this
    cases this
  · intro c hc hs
    rw [trim, List.getLast?_reverse] at hc
    have := List.head?_dropWhile_not isSpace (line.dropWhile isSpace).reverse
    rw [hc] at this
    simp only at this
    rw [isSpace_iff.mpr hs] at this
    cases this

theorem Core.again {line t : List Char} (h : Core line t) : trim t = t :=
  (Core.eq ⟨⟨[], [], by simp, by simp, by simp⟩, h.head, h.last⟩).symm

/-- A list is only digits, or has a first character that is none. -/
theorem digits_cases (t : List Char) : (∀ c ∈ t, Digit c) ∨
    ∃ ds c rest, t = ds ++ c :: rest ∧ (∀ x ∈ ds, Digit x) ∧ ¬ Digit c := by
  induction t with
  | nil => exact .inl (by simp)
  | cons c cs ih =>
    by_cases hc : Digit c
    · rcases ih with h | ⟨ds, x, rest, rfl, h1, h2⟩
      · exact .inl fun x hx => (List.mem_cons.mp hx).elim (fun e => e ▸ hc) (h x)
      · exact .inr ⟨c :: ds, x, rest, rfl, fun y hy => (List.mem_cons.mp hy).elim (fun e => e ▸ hc) (h1 y), h2⟩
    · exact .inr ⟨[], c, cs, rfl, by simp, hc⟩

theorem isDigits_step {c : Char} (hc : Digit c) (cs : List Char) : isDigits (c :: cs) = isDigits cs := by
  have h := hc.2
  rw [isDigits, if_neg (by omega), if_neg (by omega), if_pos (isDigit_iff.mpr hc)]

theorem isDigits_skip {ds : List Char} (h : ∀ x ∈ ds, Digit x) (t : List Char) : isDigits (ds ++ t) = isDigits t := by
  induction ds with
  | nil => rfl
  | cons c cs ih =>
    rw [List.cons_append, isDigits_step (h c List.mem_cons_self), ih fun x hx => h x (List.mem_cons_of_mem _ hx)]

theorem isDigits_all {t : List Char} (h : ∀ c ∈ t, Digit c) : isDigits t = .ok true := by
  have := isDigits_skip h []
  rwa [List.append_nil] at this

theorem isDigits_none {c : Char} (hc : ¬ Digit c) (rest : List Char) :
    isDigits (c :: rest) = if 128 ≤ c.toNat ∧ c.toNat ≠ 255 then .ub else .ok false := by
  rw [isDigits, if_neg (c := c.isDigit = true) (fun h => hc (isDigit_iff.mp h))]
  split
  · rw [if_neg (by omega)]
  · split
    · rw [if_pos ⟨by assumption, by assumption⟩]
    · rw [if_neg (by omega)]

/-- The digits at the beginning are determined. -/
theorem digits_first {ds ds' : List Char} {c c' : Char} {rest rest' : List Char} (h : ds ++ c :: rest = ds' ++ c' :: rest')
    (h1 : ∀ x ∈ ds, Digit x) (h2 : ¬ Digit c) (h1' : ∀ x ∈ ds', Digit x) (h2' : ¬ Digit c') : c = c' := by
  induction ds generalizing ds' with
  | nil =>
    cases ds' with
    | nil => simpa using (List.cons.inj h).1
    | cons d ds' =>
      obtain ⟨rfl, _⟩ := List.cons.inj h
      exact absurd (h1' _ List.mem_cons_self) h2
  | cons d ds ih =>
    cases ds' with
    | nil =>
      obtain ⟨rfl, _⟩ := List.cons.inj h
      exact absurd (h1 _ List.mem_cons_self) h2'
    | cons d' ds' =>
      exact ih (List.cons.inj h).2 (fun x hx => h1 x (List.mem_cons_of_mem _ hx))
        (fun x hx => h1' x (List.mem_cons_of_mem _ hx))

/-- C99: what is read of a line is what is between the space at its ends, if that is neither a number nor a comment nor
empty; such lines are passed over; and lines with a byte from 128 to 254 behind at most digits are undefined. -/
theorem C99_wanted (line t : List Char) :
    (wanted line = .ok (some t) ↔ Asks line t) ∧ (wanted line = .ok none ↔ Ignored line) ∧
      (wanted line = .ub ↔ Strange line) := by
  have hcore := core_trim line
  have uniq : ∀ {t}, Core line t → t = trim line := Core.eq
  rcases digits_cases (trim line) with hd | ⟨ds, c, rest, e, h1, h2⟩
  · have hw : wanted line = .ok none := by simp [wanted, isDigits_all hd]
    have notask : ∀ ds c rest, Core line (ds ++ c :: rest) → Digit c := fun ds c rest h =>
      hd c (by rw [← uniq h]; simp)
    rw [hw]
    refine ⟨⟨fun h => by simp at h, ?_⟩, ⟨fun _ => ⟨_, hcore, .inl hd⟩, fun _ => rfl⟩, ⟨fun h => (by cases h), ?_⟩⟩
    · rintro ⟨h, _, ds, c, rest, rfl, _, hn, _⟩
      exact absurd (notask _ _ _ h) hn
    · rintro ⟨ds, c, rest, h, _, hn, _⟩
      have := (notask _ _ _ h).2
      omega
  · have hne : trim line ≠ [] := by rw [e]; simp
    have hi : isDigits (trim line) = if 128 ≤ c.toNat ∧ c.toNat ≠ 255 then .ub else .ok false := by
      rw [e, isDigits_skip h1, isDigits_none h2]
    by_cases hc : 128 ≤ c.toNat ∧ c.toNat ≠ 255
    · rw [if_pos hc] at hi
      have hw : wanted line = .ub := by simp [wanted, hi]
      rw [hw]
      refine ⟨⟨fun h => by simp at h, ?_⟩, ⟨fun h => by simp at h, ?_⟩, ⟨fun _ => ⟨ds, c, rest, e ▸ hcore, h1, hc⟩,
        fun _ => rfl⟩⟩
      · rintro ⟨h, _, ds', c', rest', rfl, k1, k2, k3⟩
        have := digits_first (e.symm.trans (uniq h).symm) h1 h2 k1 k2
        subst this
        omega
      · rintro ⟨t', h, h3 | h3⟩
        · exact absurd (h3 c (by rw [uniq h, e]; simp)) h2
        · rw [uniq h, e] at h3
          cases ds with
          | nil =>
            simp only [List.nil_append, List.head?_cons, Option.some.injEq] at h3
            rw [h3] at hc
            exact absurd hc (by decide)
          | cons d ds =>
            simp only [List.cons_append, List.head?_cons, Option.some.injEq] at h3
            have := h1 d List.mem_cons_self
            rw [h3] at this
            exact absurd this (by unfold Digit; decide)
    · rw [if_neg hc] at hi
      have hstrange : ¬ Strange line := by
        rintro ⟨ds', c', rest', h, k1, k2⟩
        have := digits_first (e.symm.trans (uniq h).symm) h1 h2 k1 (by unfold Digit; omega)
        subst this
        exact hc k2
      by_cases hq : (trim line).head? = some '\''
      · have hw : wanted line = .ok none := by simp [wanted, hi, hq]
        rw [hw]
        refine ⟨⟨fun h => by simp at h, ?_⟩, ⟨fun _ => ⟨_, hcore, .inr hq⟩, fun _ => rfl⟩,
          ⟨fun h => (by cases h), fun h => absurd h hstrange⟩⟩
        rintro ⟨h, k, _⟩
        rw [uniq h] at k
        exact absurd hq k
      · have hw : wanted line = .ok (some (trim line)) := by
          simp [wanted, hi, hq, hcore.again, List.length_pos_iff, hne]
        rw [hw]
        refine ⟨⟨fun h => ?_, fun h => ?_⟩, ⟨fun h => by simp at h, ?_⟩, ⟨fun h => (by cases h), fun h => absurd h hstrange⟩⟩
        · simp only [Res.ok.injEq, Option.some.injEq] at h
          rw [← h]
          exact ⟨hcore, hq, ds, c, rest, e, h1, h2, by omega⟩
        · rw [uniq h.1]
        · rintro ⟨t', h, h3 | h3⟩
          · exact absurd (h3 c (by rw [uniq h, e]; simp)) h2
          · rw [uniq h] at h3
            exact absurd h3 hq

/-! ### The program -/

/-- What is asked for in some lines. -/
inductive Script : List (List Char) → List (List Char) → Prop
  | nil : Script [] []
  | skip {line lines ts} : Ignored line → Script lines ts → Script (line :: lines) ts
  | ask {line lines t ts} : Asks line t → Script lines ts → Script (line :: lines) (t :: ts)

/-- What is asked for in some files. -/
inductive Folder : List (Option (List Char)) → List (List Char) → Prop
  | nil : Folder [] []
  | closed {files ts} : Folder files ts → Folder (none :: files) ts
  | opened {text lines files ts us} : Cut text lines → Script lines ts → Folder files us →
    Folder (some text :: files) (ts ++ us)

/-- What is printed of a budget. -/
def budgetText (R : Rnd ℚ) (fix : Nat → ℚ → Str) (bg : Fin 3 → ℚ → Str) (colored : Bool) (p q r : ℚ) : Str :=
  let p := (Num.fin p).shown R
  let q := (Num.fin q).shown R
  let r := (Num.fin r).shown R
  if colored then
    bg 0 p ++ [' '] ++ fix 2 p ++ [' '] ++ Print.reset ++ (bg 1 q ++ [' '] ++ fix 2 q ++ [' '] ++ Print.reset) ++
      (bg 2 r ++ [' '] ++ fix 2 r ++ [' '] ++ Print.reset)
  else ['$'] ++ fix 2 p ++ [';'] ++ fix 2 q ++ [';'] ++ fix 2 r ++ ['$']

/-- What is printed of a sentence with this text of the term. -/
def sentenceText (fix : Nat → ℚ → Str) (x : Str) (p : Punct) (n : Stamp.Tense) (k : Sentence ℚ) : Str :=
  x ++ punctChar p :: ' ' :: (tenseText n ++ Parser.truthText (printedTruth fix k))

/-- `Answers`, with or without colours. -/
def AnswersIn (M : Mach) (fix : Nat → ℚ → Str) (bg : Fin 3 → ℚ → Str) (colored : Bool) (l : Entry) (text : Str) : Prop :=
  ∃ (k : Task) (env env' : Env) (x : Str),
    evalTask M undefined l.tree env.clearNames = (.ok k, env') ∧
    text = budgetText M.R fix bg colored k.budget.priority k.budget.durability k.budget.quality ++ [' '] ++
      sentenceText fix x l.punct (k.sentence.stamp.tense env'.globals.time) k.sentence ∧
    (Print.NoClash env'.world.store.dict k.sentence.term →
      ∃ tree, x = tree.text ∧ Same (l.term.shown M fun _ => []).1 tree)

theorem answersIn_plain {M : Mach} {fix : Nat → ℚ → Str} {bg : Fin 3 → ℚ → Str} {l : Entry} {text : Str} :
    AnswersIn M fix bg false l text ↔ Answers M fix l text := by
  simp only [AnswersIn, Answers, budgetText, sentenceText, lineText, Bool.false_eq_true, if_false, List.append_assoc,
    List.cons_append, List.nil_append]

theorem task_text_in {s : Sentence ℚ} (h : Formed s) (R : Rnd ℚ) (fix : Nat → ℚ → Str) (bg : Fin 3 → ℚ → Str)
    (time : Nat) (d : Map Key String) {x : Str} (hx : Print.term d false s.term = .ok x) (b : Parser.Budget)
    (colored : Bool) : Print.task R fix bg time d colored (shownBudget b) s =
      .ok (budgetText R fix bg colored b.priority b.durability b.quality ++ [' '] ++
        sentenceText fix x s.punct (s.stamp.tense time) s) := by
  have h0 := task_text h R fix bg time d hx (shownBudget b)
  unfold Print.task at h0 ⊢
  cases hs : Print.sentence fix time d false s with
  | ok str =>
    rw [hs] at h0
    simp only [Res.ok_bind, Bool.false_eq_true, if_false, Res.pure_eq, Res.ok.injEq, lineText] at h0
    have e : str = sentenceText fix x s.punct (s.stamp.tense time) s := by
      simp only [List.append_assoc, List.cons_append, List.nil_append, List.cons.injEq, true_and,
        List.append_cancel_left_eq] at h0
      exact h0
    subst e
    cases colored <;> simp [budgetText, shownBudget]
  | throw e => rw [hs] at h0; cases h0
  | ub => rw [hs] at h0; cases h0
  | outOfFuel => rw [hs] at h0; cases h0

/-- The lines of one file. -/
theorem script_steps {M : Mach} (hm : Machine M) {fix : Nat → ℚ → Str} {bg : Fin 3 → ℚ → Str} {N : Nat}
    (hM : FreshBelow M N) {d : Nat} (hd : d < 3) {fuel : Nat} {g : Stamp.Globals} {colored : Bool}
    {lines ts : List (List Char)} (h : Script lines ts) :
    ∀ {entries : List Entry} {s : Session} {ks : List (Option Task)}, entries.map Entry.text = ts.map bytes →
      (∀ l ∈ entries, l.Fair M N fuel) → Prog.Steps M true N (Prog.start g) ⟨s, ks, []⟩ → (∀ k ∈ ks, k = none) →
      ∃ texts s' ks', nal M fix bg colored true fuel d lines s = .ok (texts, s') ∧
        List.Forall₂ (AnswersIn M fix bg colored) entries texts ∧
        Prog.Steps M true N (Prog.start g) ⟨s', ks', []⟩ ∧ ∀ k ∈ ks', k = none := by
  induction h with
  | nil =>
    intro entries s ks he _ hs hn
    simp only [List.map_nil, List.map_eq_nil_iff] at he
    subst he
    exact ⟨[], s, ks, rfl, .nil, hs, hn⟩
  | @skip line lines ts hi _ ih =>
    intro entries s ks he hf hs hn
    have hw := (C99_wanted line []).2.1.mpr hi
    obtain ⟨texts, s', ks', r⟩ := ih he hf hs hn
    refine ⟨texts, s', ks', ?_, r.2⟩
    rw [nal, hw]
    simpa only [Res.ok_bind] using r.1
  | @ask line lines t ts ha _ ih =>
    intro entries s ks he hf hs hn
    have hw := (C99_wanted line t).1.mpr ha
    cases entries with
    | nil => simp at he
    | cons l entries =>
      simp only [List.map_cons, List.cons.injEq] at he
      obtain ⟨k, s1, w, x, h1, h2, h3, h4, h5, h6, h7, ks1, h8, h9⟩ :=
        fair_step hm hM hd (hf l List.mem_cons_self) hs hn
      obtain ⟨texts, s', ks', r1, r2, r3⟩ := ih he.2 (fun l' hl' => hf l' (List.mem_cons_of_mem _ hl')) h8 h9
      have htext := task_text_in h3 M.R fix bg s1.env.globals.time s1.env.world.store.dict h5 k.budget colored
      rw [h4] at htext
      refine ⟨_ :: texts, s', ks', ?_, .cons ⟨k, s.env, s1.env, x, h2, rfl, h6⟩ r2, r3⟩
      rw [nal, hw]
      rw [he.1] at h1
      simp only [Res.ok_bind, h1, htext, h7, r1]
      rfl

/-- C99: a program that reads all lines of any number of files, passes over the numbers and the comments, prints each
task and drops it, as `test_parse_nal` does, reads, prints and drops them all; every text is what should be printed
for the line; and at the end all dictionaries are empty.

Missing from the full statement: lines that are rejected, for which a null pointer is dereferenced
(counterexample); lines that begin, behind digits, with a byte from 128 on, for which `isdigit` is not defined
(counterexample); what is missing in C96. -/
theorem C99_files_partial {M : Mach} (hm : Machine M) {fix : Nat → ℚ → Str} {bg : Fin 3 → ℚ → Str} {N : Nat}
    (hM : FreshBelow M N) {d : Nat} (hd : d < 3) {fuel : Nat} {g : Stamp.Globals} {colored : Bool}
    {files : List (Option (List Char))} {ts : List (List Char)} (h : Folder files ts) {entries : List Entry}
    (he : entries.map Entry.text = ts.map bytes) (hl : ∀ l ∈ entries, l.Fair M N fuel) :
    ∃ texts s, nalFiles M fix bg colored true fuel d files (Prog.start g).ses = .ok (texts, s) ∧
      List.Forall₂ (AnswersIn M fix bg colored) entries texts ∧
      s.env.world.handles = [] ∧ s.env.world.dictH = [] ∧
      ∀ n k, s.env.world.store.checkByName n = false ∧ s.env.world.store.check k = false := by
  suffices H : ∀ {files ts}, Folder files ts → ∀ (entries : List Entry) (s : Session) (ks : List (Option Task)),
      entries.map Entry.text = ts.map bytes → (∀ l ∈ entries, l.Fair M N fuel) →
      Prog.Steps M true N (Prog.start g) ⟨s, ks, []⟩ → (∀ t ∈ ks, t = none) →
      ∃ texts s' ks', nalFiles M fix bg colored true fuel d files s = .ok (texts, s') ∧
        List.Forall₂ (AnswersIn M fix bg colored) entries texts ∧
        Prog.Steps M true N (Prog.start g) ⟨s', ks', []⟩ ∧ ∀ k ∈ ks', k = none by
    obtain ⟨texts, s, ks, h1, h2, h3, h4⟩ := H h entries (Prog.start g).ses [] he hl (.refl _) (by simp)
    obtain ⟨_, _, _, _, _, _, _, h5⟩ := C88_dictionary_partial hm.ord hM h3
    exact ⟨texts, s, h1, h2, (h5 h4).2 rfl⟩
  intro files ts h
  induction h with
  | nil =>
    intro entries s ks he _ hs hn
    simp only [List.map_nil, List.map_eq_nil_iff] at he
    subst he
    exact ⟨[], s, ks, rfl, .nil, hs, hn⟩
  | closed _ ih =>
    intro entries s ks he hl hs hn
    exact ih entries s ks he hl hs hn
  | @opened text lines files ts us hc hs' _ ih =>
    intro entries s ks he hl hs hn
    rw [List.map_append] at he
    obtain ⟨e1, e2, rfl, he1, he2⟩ := List.map_eq_append_iff.mp he
    obtain ⟨x1, s1, ks1, r1, r2, r3, r4⟩ := script_steps hm (fix := fix) (bg := bg) hM hd (colored := colored) hs' he1
      (fun l hl' => hl l (List.mem_append_left _ hl')) hs hn
    obtain ⟨x2, s2, ks2, q1, q2, q3⟩ := ih e2 s1 ks1 he2 (fun l hl' => hl l (List.mem_append_right _ hl')) r3 r4
    refine ⟨x1 ++ x2, s2, ks2, ?_, List.rel_append r2 q2, q3⟩
    rw [nalFiles, (C99_lines text lines).mpr hc, r1]
    simp only [Res.ok_bind, q1]
    rfl

theorem nal_prefix {M : Mach} {fix : Nat → ℚ → Str} {bg : Fin 3 → ℚ → Str} {colored strict : Bool} {fuel d : Nat}
    {lines : List (List Char)} {s s1 : Session} {texts : List Str}
    (h : nal M fix bg colored strict fuel d lines s = .ok (texts, s1)) {more : List (List Char)}
    (hu : nal M fix bg colored strict fuel d more s1 = .ub) :
    nal M fix bg colored strict fuel d (lines ++ more) s = .ub := by
  induction lines generalizing s texts with
  | nil =>
    rw [nal, Res.ok.injEq, Prod.mk.injEq] at h
    rw [h.2]; exact hu
  | cons l lines ih =>
    rw [List.cons_append, nal]
    rw [nal] at h
    cases hw : wanted l with
    | ok o =>
      rw [hw] at h
      simp only [Res.ok_bind] at h ⊢
      cases o with
      | none => exact ih h
      | some input =>
        simp only at h ⊢
        split at h <;> rename_i e <;> first | cases h | skip
        simp only [Res.bind_eq_ok] at h
        obtain ⟨x, h1, w, h2, ⟨y, s'⟩, h3, h4⟩ := h
        simp only [Res.pure_eq, Res.ok.injEq, Prod.mk.injEq] at h4
        obtain ⟨_, rfl⟩ := h4
        simp only [h1, h2, Res.ok_bind]
        rw [ih h3]
        rfl
    | throw e => rw [hw] at h; cases h
    | ub => rw [hw] at h; cases h
    | outOfFuel => rw [hw] at h; cases h

/-- C99 is false for all lines that are rejected: a null pointer is dereferenced; and for all lines for which `isdigit`
is asked about a negative number; whatever was read before. -/
theorem C99_rejected_counterexample {M : Mach} {fix : Nat → ℚ → Str} {bg : Fin 3 → ℚ → Str} {colored strict : Bool}
    {fuel d : Nat} {lines : List (List Char)} {s s1 : Session} {texts : List Str} {line : List Char}
    (h : nal M fix bg colored strict fuel d lines s = .ok (texts, s1))
    (hr : Strange line ∨ ∃ t s2, Asks line t ∧ parseTask M undefined strict fuel d s1 (bytes t) = (.ok none, s2))
    (more : List (List Char)) : nal M fix bg colored strict fuel d (lines ++ line :: more) s = .ub := by
  refine nal_prefix h ?_
  rw [nal]
  rcases hr with hr | ⟨t, s2, h1, h2⟩
  · rw [(C99_wanted line []).2.2.mpr hr]
    rfl
  · rw [(C99_wanted line t).1.mpr h1]
    simp only [Res.ok_bind, h2]

/-- A file with comments, an empty line, a number, and two tasks. -/
def someFile : List Char :=
  ['\'', 'D', 'e', 'd', '\n', '\n', ' ', '<', 'r', 'o', 'b', 'i', 'n', '-', '-', '>', 'b', 'i', 'r', 'd', '>', '.', '\r', '\n',
   '1', '0', '\n', ' ', '\'', '\'', 'o', '\n', '(', '&', '&', ',', ' ', 'A', ',', ' ', 'B', ')', '.']

example : getlines someFile = [['\'', 'D', 'e', 'd'], [], [' ', '<', 'r', 'o', 'b', 'i', 'n', '-', '-', '>', 'b', 'i', 'r', 'd', '>', '.', '\r'],
    ['1', '0'], [' ', '\'', '\'', 'o'], ['(', '&', '&', ',', ' ', 'A', ',', ' ', 'B', ')', '.']] := by decide

theorem someFile_asks : Folder [none, some someFile]
    [['<', 'r', 'o', 'b', 'i', 'n', '-', '-', '>', 'b', 'i', 'r', 'd', '>', '.'], ['(', '&', '&', ',', ' ', 'A', ',', ' ', 'B', ')', '.']] := by
  refine .closed ?_
  rw [← List.append_nil [_, _]]
  refine .opened ((C99_lines _ _).mp rfl) ?_ .nil
  rw [show getlines someFile = [_, _, _, _, _, _] from rfl]
  refine .skip ((C99_wanted _ []).2.1.mp (by decide)) (.skip ((C99_wanted _ []).2.1.mp (by decide))
    (.ask ((C99_wanted _ _).1.mp (by decide)) (.skip ((C99_wanted _ []).2.1.mp (by decide))
      (.skip ((C99_wanted _ []).2.1.mp (by decide)) (.ask ((C99_wanted _ _).1.mp (by decide)) .nil)))))

example {bg : Fin 3 → ℚ → Str} {colored : Bool} :
    ∃ texts s, nalFiles roomy fixed bg colored true 366 0 [none, some someFile] (Prog.start env0.globals).ses =
      .ok (texts, s) ∧
      List.Forall₂ (AnswersIn roomy fixed bg colored) [robin, both ['A'] ['B']] texts ∧
      s.env.world.handles = [] ∧ s.env.world.dictH = [] ∧
      ∀ n k, s.env.world.store.checkByName n = false ∧ s.env.world.store.check k = false := by
  have f0 : fair (both ['A'] ['B']) = true ∧ isBoth ['A'] ['B'] = true := by decide +kernel
  refine C99_files_partial roomy_ok (N := 2) (fun w hw h => roomy_fresh w hw (by omega)) (by omega) someFile_asks rfl ?_
  intro l hl
  simp only [List.mem_cons, List.not_mem_nil, or_false] at hl
  have h1 : roomy.erange 1 = false := by decide +kernel
  have h2 : roomy.erange 2 = false := by decide +kernel
  rcases hl with rfl | rfl
  · exact robin_fair h1 h2 (le_refl _)
  · exact both_fair h1 h2 (le_refl _) f0.1 f0.2

/-- What is printed with the allocator of the examples, and `#` for the escape sequences of a background. -/
example : (match nalFiles roomy fixed (fun _ _ => ['#']) true true 366 0 [none, some someFile] (Prog.start env0.globals).ses with
    | .ok (l, _) => l.map String.ofList
    | _ => []) =
    ["# 0.80 \x1b[0m# 0.80 \x1b[0m# 0.50 \x1b[0m <robin --> bird>. %1.000;0.900%",
      "# 0.80 \x1b[0m# 0.80 \x1b[0m# 0.50 \x1b[0m (&&, B, A). %1.000;0.900%"] := by decide +kernel

/-- A line that begins with `é`, and a line that is rejected, after `A.`. -/
example : Strange [Char.ofNat 0xc3, Char.ofNat 0xa9, '.'] := (C99_wanted _ []).2.2.mp (by decide)

example : Asks ['A', '&', '.', '\r'] ['A', '&', '.'] ∧
    (match nal roomy fixed (fun _ _ => []) false true 1000 0 [['A', '.']] (Prog.start env0.globals).ses with
      | .ok (_, s) => (match parseTask roomy undefined true 1000 0 s (bytes ['A', '&', '.']) with
        | (.ok none, _) => true
        | _ => false)
      | _ => false) = true := ⟨(C99_wanted _ _).1.mp (by decide), by decide +kernel⟩

end Cnars.Props
