import Verif.Parser.LineBuild
import Verif.Props.Complete
import Verif.Props.Lines

/-!
# C77: the parts of a line are determined by it
-/

namespace Cnars.Props
open Cnars Cnars.Parser Stamp

/-- C77: the lines of Narsese are exactly the texts made of such parts: a budget or none, a content, a
punctuation mark, a tense mark or none, a truth value or none, with blanks between. -/
theorem C77_shape {line : List WChar} : (∃ a, IsNarsese line a) ↔
    ∃ bs ys p n vs xs, LineText line bs ys p n vs xs := by
  constructor
  · rintro ⟨a, h⟩
    obtain ⟨bs, ys, p, n, vs, xs, _, _, hl, _⟩ := line_split h
    exact ⟨bs, ys, p, n, vs, xs, hl⟩
  · rintro ⟨bs, ys, p, n, vs, xs, hl⟩
    obtain ⟨a, _, _, h, _⟩ := line_derives hl
    exact ⟨a, h⟩

/-- The tree of an accepted line has the parts of the line. -/
theorem tree_parts {b : Buf} (hb : Reached b) {d : Nat} (hd : d < 3) {strict : Bool} {fuel : Nat}
    {text : List WChar} (h9 : (9 : WChar) ∉ firstLine text) {r : Parsed}
    (h : parseText strict fuel b text d = .ok r) {a : List Ast} (ha : r.ast = some a)
    {bs vs : List (List Char)} {ys xs : List ℚ} {p : Punct} {n : Option Int}
    (hl : LineText (firstLine text) bs ys p n vs xs) :
    ∃ t tm, TenseIs tm n ∧
      partAll a = some [.task (if bs = [] then none else some bs) p t (tm ++ truthMarks vs)] := by
  obtain ⟨a', t, tm, h1, h2, h3, h4⟩ := line_derives hl
  obtain ⟨scan, h5⟩ := (parseText_iff hb.empty hd (Nat.le_refl _) h9 a').mpr ⟨h1, h2⟩
  have h6 := parseText_indep hb.empty hb.empty hd hd h5 h
  rw [ha] at h6
  simp only [Option.some.injEq] at h6
  subst h6
  exact ⟨t, tm, h3, h4⟩

/-- C77: however an accepted line without tabs is taken apart, type, stamp, truth value and budget of
its task are what the parts say.  Missing: tabs, which the lexer takes for parts of words (C74). -/
theorem C77_reading_partial {b : Buf} (hb : Reached b) {d : Nat} (hd : d < 3) {strict : Bool}
    {fuel : Nat} {text : List WChar} (h9 : (9 : WChar) ∉ firstLine text) {r : Parsed}
    (h : parseText strict fuel b text d = .ok r) {a : List Ast} (ha : r.ast = some a) {M : Mach}
    (hR : M.R.Sound) (hi : IntExact M.R) (hm : M.R.s (-1) = -1) (hcfg : M.cfg = Config.ofRnd M.R)
    {bad : Act Val} {env env' : Env} {t : Task} (he : evalTask M bad a env = (.ok t, env'))
    {bs vs : List (List Char)} {ys xs : List ℚ} {p : Punct} {n : Option Int}
    (hl : LineText (firstLine text) bs ys p n vs xs) :
    t.sentence.punct = p ∧
      t.sentence.cls = (match p with
        | .judgement => .judgement | .question => .question | .goal => .goal | .quest => .quest) ∧
      t.sentence.stamp = (match n with
        | none => ⟨some [env.globals.inputId], (env.globals.time : Int).bmod (2 ^ 32),
            (env.globals.time : Int).bmod (2 ^ 32), -1, true⟩
        | some k => ⟨none, (env.globals.time : Int).bmod (2 ^ 32), k, -1, false⟩) ∧
      (∀ k, n = some k → -2 ^ 31 ≤ k ∧ k < 2 ^ 31) ∧
      t.sentence.truth = (if p = .judgement ∨ p = .goal then
        some ⟨(xs[0]?.map (stored M)).getD 1, (xs[1]?.map (stored M)).getD (M.R.s (9 / 10)),
          (xs[2]?.map (stored M)).getD 1⟩ else none) ∧
      (ys = [] → t.budget = ⟨M.R.s (8 / 10), M.R.s (8 / 10), M.R.s (5 / 10)⟩) ∧
      (∀ y, ys[0]? = some y → t.budget = ⟨stored M y,
        (ys[1]?.map (stored M)).getD
          (if p = .judgement then M.R.s (5 / 10) else M.R.s (9 / 10)),
        (ys[2]?.map (stored M)).getD
          (t.sentence.truth.elim 1 fun u => M.R.s (Nal.qualityFromTruth M.R u))⟩) := by
  obtain ⟨t', tm, ht, hp⟩ := tree_parts hb hd h9 h ha hl
  obtain ⟨w, ub, us, _, _, _, hs⟩ := hl.text
  obtain ⟨e1, e2, e3, e4, _, e6⟩ := line_says hb hd h ha hR hi hm hcfg he ht hl.values hs.values hp
  refine ⟨e1, ?_, ?_, e4, e6⟩
  · rw [e2]; cases p <;> rfl
  · rw [e3]; cases n <;> simp only [stampSpec, toInt32_bmod]

theorem decimals_eq {ss : List (List Char)} {xs ys : List ℚ} (h : List.Forall₂ Decimal ss xs)
    (h' : List.Forall₂ Decimal ss ys) : xs = ys := by
  induction h generalizing ys with
  | nil => cases h'; rfl
  | cons h1 _ ih =>
    cases h' with
    | cons h2 h3 =>
      have := h1.reads.symm.trans h2.reads
      simp only [Option.some.injEq] at this
      rw [this, ih h3]

theorem marks_parts {tm tm' : List Mark} {n n' : Option Int} {vs vs' : List (List Char)}
    (h : TenseIs tm n) (h' : TenseIs tm' n') (e : tm ++ truthMarks vs = tm' ++ truthMarks vs') :
    n = n' ∧ vs = vs' := by
  have key : ∀ {us us'}, truthMarks us = truthMarks us' → us = us' := by
    intro us us' h
    unfold truthMarks at h
    split at h <;> split at h <;> simp_all
  have none : ∀ {us : List (List Char)} {m : Mark} {ms : List Mark}, truthMarks us = m :: ms →
      ∃ u, m = .truth u := by
    intro us m ms h
    unfold truthMarks at h
    split at h
    · cases h
    · simp only [List.cons.injEq] at h
      exact ⟨us, h.1.symm⟩
  cases n with
  | none =>
    cases h
    cases n' with
    | none => cases h'; exact ⟨rfl, key e⟩
    | some k =>
      rcases h' with ⟨rfl, _⟩ | ⟨s, rfl, _⟩
      · obtain ⟨u, hu⟩ := none e; cases hu
      · obtain ⟨u, hu⟩ := none e; cases hu
  | some k =>
    cases n' with
    | none =>
      cases h'
      rcases h with ⟨rfl, _⟩ | ⟨s, rfl, _⟩
      · obtain ⟨u, hu⟩ := none e.symm; cases hu
      · obtain ⟨u, hu⟩ := none e.symm; cases hu
    | some k' =>
      rcases h with ⟨rfl, _⟩ | ⟨s, rfl, hs⟩ <;> rcases h' with ⟨rfl, _⟩ | ⟨s', rfl, hs'⟩ <;>
        simp only [List.cons_append, List.nil_append, List.cons.injEq, Mark.tense.injEq,
          Mark.time.injEq, reduceCtorEq, false_and] at e
      · exact ⟨by rw [e.1], key e.2⟩
      · rw [e.1, hs'] at hs
        simp only [Option.some.injEq, Int.cast_inj] at hs
        exact ⟨by rw [hs], key e.2⟩

/-- C77: the parts themselves are determined by the line: two ways of taking a line without tabs apart
agree in everything.  Missing: tabs. -/
theorem C77_unique_partial {line : List WChar} (h9 : (9 : WChar) ∉ line) (h10 : firstLine line = line)
    {bs bs' vs vs' : List (List Char)} {ys ys' xs xs' : List ℚ} {p p' : Punct} {n n' : Option Int}
    (h : LineText line bs ys p n vs xs) (h' : LineText line bs' ys' p' n' vs' xs') :
    bs = bs' ∧ ys = ys' ∧ p = p' ∧ n = n' ∧ vs = vs' ∧ xs = xs' := by
  obtain ⟨a, t, tm, h1, h2, h3, h4⟩ := line_derives h
  obtain ⟨a', t', tm', h1', h2', h3', h4'⟩ := line_derives h'
  obtain ⟨w, _, hu⟩ := C74_unambiguous h9 h10 h1
  have e : a = a' := (hu a ⟨h1, h2⟩).trans (hu a' ⟨h1', h2'⟩).symm
  subst e
  rw [h4] at h4'
  simp only [Option.some.injEq, List.cons.injEq, Part.task.injEq, and_true] at h4'
  obtain ⟨e1, e2, _, e4⟩ := h4'
  obtain ⟨_, _, _, _, _, _, hs⟩ := h.text
  obtain ⟨_, _, _, _, _, _, hs'⟩ := h'.text
  have eb : bs = bs' := by
    split at e1 <;> split at e1 <;> simp_all
  obtain ⟨en, ev⟩ := marks_parts h3 h3' e4
  exact ⟨eb, decimals_eq (eb ▸ h.values) h'.values, e2, en, ev, decimals_eq (ev ▸ hs.values) hs'.values⟩

/-- `$.5;.25;1$ <A-->B>! :!-12: %.75;.5;2%` has such parts. -/
example : ∃ bs ys p n vs xs, LineText (bytes wholeText) bs ys p n vs xs := by
  have h : accepted? (parseText false 2000 freshBuf (bytes wholeText) 0) = true := by decide +kernel
  unfold accepted? at h
  split at h
  · rename_i q hq
    obtain ⟨a, ha⟩ := Option.isSome_iff_exists.mp h
    have h1 := C43_tree .fresh (by omega) hq ha
    rw [show firstLine (bytes wholeText) = bytes wholeText from by decide +kernel] at h1
    exact C77_shape.mp ⟨a, h1⟩
  · simp at h

/-- `A. %1.0%`, taken apart. -/
example : LineText (bytes ['A', '.', ' ', '%', '1', '.', '0', '%']) [] [] .judgement none
    [['1', '.', '0']] [1] := by
  have hA : Derives Gram.content (codes ['A']) [.node .atom_term [.leaf .string_raw ['A']]] := by
    have h1 : Derives Gram.string_raw (codes ['A'] ++ []) [.leaf .string_raw ['A']] :=
      lex_reads (r := Rx.raw) (by decide) (plus_cls (by simp) fun c hc => ⟨(65, 90), by simp, by
        simp only [List.mem_singleton] at hc; subst hc; decide⟩) (by simp [Blanks])
    have h2 : Derives (.nt .word) (codes ['A']) [.leaf .string_raw ['A']] :=
      .nt_plain (body := [.grp [[Gram.string], [Gram.string_raw]]]) (by simp [rules])
        (derivesAll_single (.grp (body := [Gram.string_raw]) (by simp) (derivesAll_single h1)))
    exact .grp (body := [.nt .term_nonvar]) (by simp) (derivesAll_single
      (.nt_node (body := [.nt .word]) (by decide) (by simp [rules]) (derivesAll_single h2)))
  refine ⟨⟨[], [], _, rfl, by simp [Blanks], .none, ⟨⟨codes ['A'], codes [' '], [],
    codes ['%', '1', '.', '0', '%'], _, rfl, hA, by simp [Blanks, codes, IsBlank], .none, ?_⟩, ?_, ?_,
    by simp⟩⟩, .nil, by simp [Forms]⟩
  · exact Values.one (q := '%') (x := ['1', '.', '0']) (u := []) (v := []) (w := []) (by simp [Blanks])
      (by simp [Blanks]) (by simp [Blanks])
  · refine .cons ?_ .nil
    have := Decimal.point (a := ['1']) (b := ['0']) (by simp) (by simp [allDigits]) (by simp [allDigits])
    simpa [natOf] using this
  · simp [Forms, UnitForm]

end Cnars.Props
