import Verif.Parser.Line

/-!
# The parts of a line determine its syntax tree

The other direction of `Line.lean`: a line put together from a budget, a content, a punctuation mark,
a tense mark and a truth value is a line of Narsese, and there is a syntax tree of the kind the parser
builds which has these parts.
-/

namespace Cnars.Parser
open Cnars

/-! ## Texts -/

theorem rxTok_derives {s : Nat} {w : List WChar} (h : RxTok s w) :
    Derives (gramAt symGram s) w (leafNodes (symEmit narsese s) w) := by
  obtain ⟨r, hr, hw⟩ := h
  have hs : s < 59 := by
    rcases Nat.lt_or_ge s 59 with h' | h'
    · exact h'
    · rw [List.getElem?_eq_none (by
        have : tokTable.length = 59 := by decide +kernel
        omega)] at hr
      simp at hr
  have := Gram.same_eq (narsese_toks s (List.mem_range.mpr hs))
  rw [this, hr, Option.getD_some]
  unfold leafNodes
  split
  · rename_i he; rw [he]; exact .tok_plain hw
  · rename_i he; exact .tok_leaf he hw

/-- The content of a sentence has a tree of the kind the parser builds. -/
theorem content_meant {u : List WChar} {a : List Ast} (h : Derives Gram.content u a) :
    ∃ a', Derives Gram.content u a' ∧ Ast.meantAll a' = true ∧ headIs .statement_term a' = false := by
  have hg : gramAt symGram 226 = Gram.content := rfl
  obtain ⟨t, hv, hr, hy, _⟩ := derives_tree h 226 hg
  have hf := nearly_fits hv
  rw [hr, hy] at hf
  rcases hf with ⟨t', hv', hr', hy', hf'⟩ | ⟨h0, _⟩
  · have hd := valid_derives narsese_rules (fun _ _ => rxTok_derives) hv'
    rw [hr', hg, hy'] at hd
    obtain ⟨m1, m2⟩ := fits_meant hv' hf'
    exact ⟨_, hd, m1, startsWith_not (m2 (by rw [hr']; rfl))⟩
  · omega

theorem blanks_derives {w : List WChar} (h : Blanks w) : Derives Gram.blanks w [] :=
  blanks_iff.mpr ⟨h, rfl⟩

theorem derivesAll_single {g : Gram} {u : List WChar} {a : List Ast} (h : Derives g u a) :
    DerivesAll [g] u a := by
  simpa using DerivesAll.cons h .nil

theorem kw_reads {s : List Char} (hs : s ≠ []) {w : List WChar} (hw : Blanks w) :
    Derives (Gram.kw s) (codes s ++ w) [] :=
  .grp (List.mem_singleton.mpr rfl) (by
    simpa using DerivesAll.cons (.tok_plain (lit_matches s hs)) (derivesAll_single (blanks_derives hw)))

theorem lex_reads {r : Rx} {e : Emit} (he : e ≠ .none) {s : List Char} (h : r.Matches (codes s))
    {w : List WChar} (hw : Blanks w) : Derives (Gram.lex r e) (codes s ++ w) [.leaf e s] := by
  refine .grp (List.mem_singleton.mpr rfl) ?_
  have := DerivesAll.cons (.tok_leaf he h) (derivesAll_single (blanks_derives hw))
  rw [show (codes s).map (fun c => Char.ofNat c.toNat) = s from uncodes s] at this
  simpa using this

theorem maybe_derives {x : List Gram} {u : List WChar} {a : List Ast} (h : DerivesAll x u a) :
    Derives (Gram.maybe x) u a := .opt_some (.grp (List.mem_singleton.mpr rfl) h)

theorem maybe_none (x : List Gram) : Derives (Gram.maybe x) [] [] := .opt_none

/-! ## Budgets and truth values -/

theorem values_derives {q : Char} {r1 r2 r3 : Rx} {e1 e2 e3 : Emit} (h1 : e1 ≠ .none)
    (h2 : e2 ≠ .none) (h3 : e3 ≠ .none) {u : List WChar} {ss : List (List Char)} (h : Values q u ss)
    (h0 : ss ≠ []) (hf : Forms (fun s => r1.Matches (codes s)) (fun s => r2.Matches (codes s))
      (fun s => r3.Matches (codes s)) ss) :
    DerivesAll [Gram.kw [q], Gram.lex r1 e1, Gram.maybe [Gram.kw [';'], Gram.lex r2 e2,
      Gram.maybe [Gram.kw [';'], Gram.lex r3 e3]], Gram.kw [q]] u
      (List.zipWith Ast.leaf [e1, e2, e3] ss) := by
  obtain ⟨f1, f2, f3⟩ := hf
  cases h with
  | none => exact absurd rfl h0
  | one b1 b2 b3 =>
    have := DerivesAll.cons (kw_reads (s := [q]) (by simp) b1)
      (.cons (lex_reads h1 (f1 _ rfl) b2) (.cons (maybe_none [Gram.kw [';'], Gram.lex r2 e2,
        Gram.maybe [Gram.kw [';'], Gram.lex r3 e3]])
        (derivesAll_single (kw_reads (s := [q]) (by simp) b3))))
    simpa using this
  | two b1 b2 b3 b4 b5 =>
    have := DerivesAll.cons (kw_reads (s := [q]) (by simp) b1)
      (.cons (lex_reads h1 (f1 _ rfl) b2) (.cons (maybe_derives
        (.cons (kw_reads (s := [';']) (by simp) b3) (.cons (lex_reads h2 (f2 _ rfl) b4)
          (derivesAll_single (maybe_none [Gram.kw [';'], Gram.lex r3 e3])))))
        (derivesAll_single (kw_reads (s := [q]) (by simp) b5))))
    simpa using this
  | three b1 b2 b3 b4 b5 b6 b7 =>
    have := DerivesAll.cons (kw_reads (s := [q]) (by simp) b1)
      (.cons (lex_reads h1 (f1 _ rfl) b2) (.cons (maybe_derives
        (.cons (kw_reads (s := [';']) (by simp) b3) (.cons (lex_reads h2 (f2 _ rfl) b4)
          (derivesAll_single (maybe_derives (.cons (kw_reads (s := [';']) (by simp) b5)
            (derivesAll_single (lex_reads h3 (f3 _ rfl) b6))))))))
        (derivesAll_single (kw_reads (s := [q]) (by simp) b7))))
    simpa using this

/-- Trees of leaves are meant. -/
theorem meantAll_leaves {es : List Emit} {ss : List (List Char)} :
    Ast.meantAll (List.zipWith Ast.leaf es ss) = true := by
  induction es generalizing ss with
  | nil => rfl
  | cons e es ih =>
    cases ss with
    | nil => rfl
    | cons s ss => simp [Ast.meantAll, Ast.meant, ih]

theorem truth_derives {n : NT} (hn : n = .truth ∨ n = .desire) {u : List WChar}
    {ss : List (List Char)} (h : Values '%' u ss) (hf : Forms UnitForm OpenForm CountForm ss) :
    ∃ a, Derives (Gram.maybe [.nt n]) u a ∧ partAll a = some ((truthMarks ss).map .mark) ∧
      Ast.meantAll a = true := by
  by_cases h0 : ss = []
  · subst h0
    cases h
    exact ⟨[], .opt_none, rfl, rfl⟩
  have hd := values_derives (r1 := Rx.unit) (r2 := Rx.openUnit) (r3 := Rx.posNat) (e1 := .frequency) (e2 := .confidence) (e3 := .k_evidence) (by decide)
    (by decide) (by decide) h h0
    (by simpa only [unit_form, openUnit_form, posNat_form] using hf)
  have ht : Derives (.nt .truth) u
      [.node .truth (List.zipWith Ast.leaf [.frequency, .confidence, .k_evidence] ss)] :=
    .nt_node (by decide) (List.mem_singleton.mpr rfl) hd
  refine ⟨[.node .truth (List.zipWith Ast.leaf [.frequency, .confidence, .k_evidence] ss)], ?_, ?_, ?_⟩
  · refine maybe_derives (derivesAll_single ?_)
    rcases hn with rfl | rfl
    · exact ht
    · exact .nt_plain (List.mem_singleton.mpr rfl) (derivesAll_single ht)
  · have := leaves_part (e1 := .frequency) (e2 := .confidence) (e3 := .k_evidence) (fun _ => rfl)
      (fun _ => rfl) (fun _ => rfl) (values_length h)
    simp [partAll, Ast.part, this, Part.build, nums?_nums, truthMarks, h0]
  · simp [Ast.meantAll, Ast.meant, meantAll_leaves]

theorem budget_derives {u : List WChar} {ss : List (List Char)} (h : Values '$' u ss)
    (hf : Forms UnitForm OpenForm UnitForm ss) :
    ∃ a, Derives (Gram.maybe [.nt .budget]) u a ∧
      partAll a = some (if ss = [] then [] else [.budget ss]) ∧ Ast.meantAll a = true := by
  by_cases h0 : ss = []
  · subst h0
    cases h
    exact ⟨[], .opt_none, rfl, rfl⟩
  have hd := values_derives (r1 := Rx.unit) (r2 := Rx.openUnit) (r3 := Rx.unit) (e1 := .priority) (e2 := .durability) (e3 := .quality) (by decide)
    (by decide) (by decide) h h0 (by simpa only [unit_form, openUnit_form] using hf)
  refine ⟨[.node .budget (List.zipWith Ast.leaf [.priority, .durability, .quality] ss)],
    maybe_derives (derivesAll_single (.nt_node (by decide) (List.mem_singleton.mpr rfl) hd)), ?_, ?_⟩
  · have := leaves_part (e1 := .priority) (e2 := .durability) (e3 := .quality) (fun _ => rfl)
      (fun _ => rfl) (fun _ => rfl) (values_length h)
    simp [partAll, Ast.part, this, Part.build, nums?_nums, h0]
  · simp [Ast.meantAll, Ast.meant, meantAll_leaves]

/-! ## Tense marks -/

theorem numeral_matches {s : List Char} {n : Int} (h : Numeral s n) : Rx.int.Matches (codes s) := by
  cases h with
  | pos h0 h => exact .seq (u := []) (.altR .eps) (digits_plus h0 h)
  | neg h0 h => exact .seq (u := codes ['-']) (.altL (ch_matches '-')) (digits_plus h0 h)

/-- One numeral is one number. -/
theorem numeral_decimal {s : List Char} {n : Int} (h : Numeral s n) :
    Action.decimal s = some (n : ℚ) := by
  obtain ⟨s', m, h1, h2, h3⟩ := int_split (numeral_matches h)
  obtain rfl := codes_inj h1
  have : n = m := by
    cases h with
    | pos h0 h =>
      cases h2 with
      | pos => rfl
      | neg => exact absurd (h '-' (by simp)) (by decide)
    | neg h0 h =>
      cases h2 with
      | pos _ h => exact absurd (h '-' (by simp)) (by decide)
      | neg => rfl
  rw [this, h3]

theorem tense_derives {u : List WChar} {n : Option Int} (h : TenseMark u n) :
    ∃ a ms, Derives (Gram.maybe [.nt .tense]) u a ∧ partAll a = some (ms.map .mark) ∧ TenseIs ms n ∧
      Ast.meantAll a = true := by
  cases h with
  | none => exact ⟨[], [], .opt_none, rfl, rfl, rfl⟩
  | future hb =>
    exact ⟨[.node .tense_future []], [.tense 5], maybe_derives (derivesAll_single (.nt_node (by decide)
      (by simp [rules]) (derivesAll_single (kw_reads (by simp) hb)))), rfl,
      .inl ⟨rfl, by decide, by decide⟩, rfl⟩
  | present hb =>
    exact ⟨[.node .tense_present []], [.tense 0], maybe_derives (derivesAll_single (.nt_node (by decide)
      (by simp [rules]) (derivesAll_single (kw_reads (by simp) hb)))), rfl,
      .inl ⟨rfl, by decide, by decide⟩, rfl⟩
  | past hb =>
    exact ⟨[.node .tense_past []], [.tense (-5)], maybe_derives (derivesAll_single (.nt_node (by decide)
      (by simp [rules]) (derivesAll_single (kw_reads (by simp) hb)))), rfl,
      .inl ⟨rfl, by decide, by decide⟩, rfl⟩
  | @time u v w s n b1 b2 b3 hs =>
    have := DerivesAll.cons (kw_reads (s := [':', '!']) (by simp) b1) (.cons
      (lex_reads (r := Rx.int) (e := .integer) (by decide) (numeral_matches hs) b2) (derivesAll_single
        (kw_reads (s := [':']) (by simp) b3)))
    refine ⟨[.node .tense_time [.leaf .integer s]], [.time s], maybe_derives (derivesAll_single
      (.nt_node (by decide) (List.mem_cons_self ..) ?_)), rfl, .inr ⟨s, rfl, numeral_decimal hs⟩, rfl⟩
    simpa [Gram.integer] using this

/-! ## Sentences and lines -/

theorem sentence_derives {u : List WChar} {p : Punct} {n : Option Int} {vs : List (List Char)}
    {xs : List ℚ} (h : SentenceText u p n vs xs) :
    ∃ x t tm, Derives (.nt .sentence) u [x] ∧ TenseIs tm n ∧
      x.part = some (.sentence p t (tm ++ truthMarks vs)) ∧ x.meant = true := by
  obtain ⟨⟨uc, w, ut, uv, c, rfl, hc, hw, ht, hv⟩, _, hf, hq⟩ := h
  obtain ⟨c, hc, m1, m2⟩ := content_meant hc
  obtain ⟨c, t, rfl, hp⟩ := content_split hc
  obtain ⟨a, tm, d1, d2, d3, d4⟩ := tense_derives ht
  have meant : ∀ b, Ast.meantAll b = true → (Ast.node (punctEmit p) (c :: (a ++ b))).meant = true := by
    intro b hb
    have hh : headIs .statement_term (c :: (a ++ b)) = false := by
      cases c <;> simp_all [headIs]
    have hm : Ast.meantAll (c :: (a ++ b)) = true := by
      rw [Ast.meantAll, meantAll_append, d4, hb]
      simpa [Ast.meantAll] using m1
    rw [Ast.meant, hh, hm]
    cases p <;> rfl
  have believed : ∀ d, (d = .truth ∨ d = .desire) →
      ([Gram.content, Gram.kw [punctChar p], Gram.maybe [.nt .tense], Gram.maybe [.nt d]],
        punctEmit p) ∈ rules .sentence → ∃ x t tm, Derives (.nt .sentence)
          (uc ++ (codes [punctChar p] ++ (w ++ (ut ++ uv)))) [x] ∧ TenseIs tm n ∧
          x.part = some (.sentence p t (tm ++ truthMarks vs)) ∧ x.meant = true := by
    intro d hd hr
    obtain ⟨b, e1, e2, e3⟩ := truth_derives hd hv hf
    refine ⟨.node (punctEmit p) (c :: (a ++ b)), t, tm, .nt_node (by cases p <;> decide) hr ?_, d3, ?_,
      meant b e3⟩
    · have := DerivesAll.cons hc (.cons (kw_reads (s := [punctChar p]) (by simp) hw)
        (.cons d1 (derivesAll_single e1)))
      simpa using this
    · have := build_sentence p t (tm ++ truthMarks vs)
      simp only [List.map_append] at this
      simp [Ast.part, partAll, hp, partAll_append d2 e2, this]
  have asked : (p = .question ∨ p = .quest) →
      ([Gram.content, Gram.kw [punctChar p], Gram.maybe [.nt .tense]], punctEmit p) ∈
        rules .sentence → ∃ x t tm, Derives (.nt .sentence)
          (uc ++ (codes [punctChar p] ++ (w ++ (ut ++ uv)))) [x] ∧ TenseIs tm n ∧
          x.part = some (.sentence p t (tm ++ truthMarks vs)) ∧ x.meant = true := by
    intro hpq hr
    obtain rfl := hq hpq
    cases hv
    refine ⟨.node (punctEmit p) (c :: (a ++ [])), t, tm, .nt_node (by cases p <;> decide) hr ?_, d3, ?_,
      meant [] rfl⟩
    · have := DerivesAll.cons hc (.cons (kw_reads (s := [punctChar p]) (by simp) hw)
        (derivesAll_single d1))
      simpa using this
    · have := build_sentence p t tm
      simp [Ast.part, partAll, hp, d2, this, truthMarks]
  cases p with
  | judgement => exact believed .truth (.inl rfl) (by simp [rules, punctChar, punctEmit])
  | goal => exact believed .desire (.inr rfl) (by simp [rules, punctChar, punctEmit])
  | question => exact asked (.inl rfl) (by simp [rules, punctChar, punctEmit])
  | quest => exact asked (.inr rfl) (by simp [rules, punctChar, punctEmit])

/-- A line with these parts has a tree of the kind the parser builds, which has these parts. -/
theorem line_derives {line : List WChar} {bs : List (List Char)} {ys : List ℚ} {p : Punct}
    {n : Option Int} {vs : List (List Char)} {xs : List ℚ} (h : LineText line bs ys p n vs xs) :
    ∃ as t tm, IsNarsese line as ∧ Ast.meantAll as = true ∧ TenseIs tm n ∧
      partAll as = some [.task (if bs = [] then none else some bs) p t (tm ++ truthMarks vs)] := by
  obtain ⟨⟨w, ub, us, rfl, hw, hb, hs⟩, _, hf⟩ := h
  obtain ⟨a, d1, d2, d3⟩ := budget_derives hb hf
  obtain ⟨x, t, tm, e1, e2, e3, e4⟩ := sentence_derives hs
  refine ⟨[.node .task (a ++ [x])], t, tm, ?_, ?_, e2, ?_⟩
  · have h1 : Derives (.nt .task) (ub ++ us) [.node .task (a ++ [x])] :=
      .nt_node (by decide) (List.mem_singleton.mpr rfl) (.cons d1 (derivesAll_single e1))
    have := DerivesAll.cons (blanks_derives hw) (derivesAll_single h1)
    exact this
  · have : Ast.meantAll (a ++ [x]) = true := by rw [meantAll_append, d3]; simp [Ast.meantAll, e4]
    simp [Ast.meantAll, Ast.meant, this]
  · have hx : partAll [x] = some [.sentence p t (tm ++ truthMarks vs)] := by simp [partAll, e3]
    have := partAll_append d2 hx
    by_cases h0 : bs = [] <;> simp [h0] at this ⊢ <;> simp [partAll, Ast.part, this, Part.build]

end Cnars.Parser
