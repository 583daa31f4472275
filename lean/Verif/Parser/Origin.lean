import Verif.Parser.Life
import Verif.Parser.Numerals
import Verif.Parser.Unparse
import Verif.Parser.Carets
import Verif.Parser.TaskText
import Verif.Props.Ranges
import Verif.Props.RoundTrip
import Verif.Props.Lines
import Verif.Props.Parsed

/-!
# What is known of a task because it was read

Lemmas for C89.  Nothing of `/repo` is modelled here.
-/

namespace Cnars.Parser
open Cnars Cnars.Props

/-! ## Words of a line are words of the grammar -/

mutual
/-- The texts of the leaves that are words. -/
def Ast.wordTexts : Ast → List (List Char)
  | .leaf e s => if e.isWord then [s] else []
  | .node _ cs => Ast.wordTextsAll cs
/-- Of siblings. -/
def Ast.wordTextsAll : List Ast → List (List Char)
  | [] => []
  | a :: as => Ast.wordTexts a ++ Ast.wordTextsAll as
end

theorem Ast.wordTextsAll_append (as bs : List Ast) :
    Ast.wordTextsAll (as ++ bs) = Ast.wordTextsAll as ++ Ast.wordTextsAll bs := by
  induction as with
  | nil => rfl
  | cons a as ih => simp [Ast.wordTextsAll, ih]

mutual
/-- The tokens in it that make words are raw or quoted. -/
def Gram.wordy : Gram → Bool
  | .tok r e => !e.isWord || r = .raw || r = .quoted
  | .nt _ => true
  | .grp alts => wordyAlts alts
  | .opt g => g.wordy
  | .star g => g.wordy
  | .plus g => g.wordy
def wordyAll : List Gram → Bool
  | [] => true
  | g :: gs => g.wordy && wordyAll gs
def wordyAlts : List (List Gram) → Bool
  | [] => true
  | b :: bs => wordyAll b && wordyAlts bs
end

theorem wordyAlts_mem {bs : List (List Gram)} (h : wordyAlts bs = true) :
    ∀ b ∈ bs, wordyAll b = true := by
  induction bs with
  | nil => simp
  | cons b bs ih =>
    simp only [wordyAlts, Bool.and_eq_true] at h
    intro c hc
    rcases List.mem_cons.mp hc with rfl | hc
    · exact h.1
    · exact ih h.2 c hc

theorem wordy_rule {n : NT} {body : List Gram} {e : Emit} (h : (body, e) ∈ rules n) :
    wordyAll body = true := by
  have key : ∀ n, (rules n).all (fun r => wordyAll r.1) = true := by
    intro n; cases n <;> rfl
  exact List.all_eq_true.mp (key n) _ h

/-- The text is that of a raw or quoted word. -/
def WordText (s : List Char) : Prop :=
  ∃ u : List WChar, (s = u.map fun c => Char.ofNat c.toNat) ∧ (Rx.raw.Matches u ∨ Rx.quoted.Matches u)

theorem derivesAll_words {gs : List Gram} {u : List WChar} {a : List Ast}
    (h : DerivesAll gs u a) : wordyAll gs = true → ∀ s ∈ Ast.wordTextsAll a, WordText s := by
  refine DerivesAll.rec
    (motive_1 := fun g _ a _ => g.wordy = true → ∀ s ∈ Ast.wordTextsAll a, WordText s)
    (motive_2 := fun gs _ a _ => wordyAll gs = true → ∀ s ∈ Ast.wordTextsAll a, WordText s)
    ?_ ?_ ?_ ?_ ?_ ?_ ?_ ?_ ?_ ?_ ?_ ?_ ?_ h
  · intro r u _
    simp [Ast.wordTextsAll]
  · intro r e u he hm hg s hs
    simp only [Ast.wordTextsAll, Ast.wordTexts, List.append_nil] at hs
    split at hs
    · rename_i hw
      obtain rfl := List.mem_singleton.mp hs
      simp only [Gram.wordy, hw, Bool.not_true, Bool.false_or, Bool.or_eq_true, decide_eq_true_eq] at hg
      rcases hg with rfl | rfl
      · exact ⟨u, rfl, .inl hm⟩
      · exact ⟨u, rfl, .inr hm⟩
    · simp at hs
  · intro n body u a hr _ ih _
    exact ih (wordy_rule hr)
  · intro n body e u a he hr _ ih _ s hs
    simp only [Ast.wordTextsAll, Ast.wordTexts, List.append_nil] at hs
    exact ih (wordy_rule hr) s hs
  · intro alts body u a hb _ ih h
    rw [Gram.wordy] at h
    exact ih (wordyAlts_mem h _ hb)
  · intro g
    simp [Ast.wordTextsAll]
  · intro g u a _ ih h
    rw [Gram.wordy] at h
    exact ih h
  · intro g
    simp [Ast.wordTextsAll]
  · intro g u a _ ih h
    rw [Gram.wordy] at h
    exact ih (by rw [Gram.wordy]; exact h)
  · intro g u a _ ih h
    rw [Gram.wordy] at h
    exact ih h
  · intro g u v a b _ _ ih1 ih2 h s hs
    rw [Ast.wordTextsAll_append, List.mem_append] at hs
    rcases hs with hs | hs
    · exact ih1 h s hs
    · rw [Gram.wordy] at h
      exact ih2 h s hs
  · simp [Ast.wordTextsAll]
  · intro g gs u v a b _ _ ih1 ih2 h s hs
    rw [wordyAll, Bool.and_eq_true] at h
    rw [Ast.wordTextsAll_append, List.mem_append] at hs
    rcases hs with hs | hs
    · exact ih1 h.1 s hs
    · exact ih2 h.2 s hs

/-- The word of a constant or an operation. -/
def Mention.word : Mention → List (List Char)
  | .name s | .op s => [s]
  | .interval _ => []

mutual
theorem Ast.mentions_word : ∀ {a : Ast} {p : Part}, a.part = some p →
    ∀ m ∈ a.mentions, ∀ s ∈ m.word, s ∈ a.wordTexts
  | .leaf e s, p, h => by simp [Ast.mentions]
  | .node e cs, p, h => by
    simp only [Ast.part, Option.bind_eq_some_iff] at h
    obtain ⟨ps, h1, h2⟩ := h
    rw [Ast.mentions, Ast.wordTexts, ownWords_eq h1 h2]
    intro m hm
    have key : ∀ {e' : Emit} {s : List Char}, e' = .string ∨ e' = .string_raw → e'.isWord = true := by
      rintro e' s (rfl | rfl) <;> rfl
    rcases List.mem_append.mp hm with hm1 | hm1
    · exact Ast.mentionsAll_word h1 m hm1
    · unfold Part.own at hm1
      split at hm1
      · obtain ⟨c, rfl, hc⟩ := one_of_partAll h1
        obtain ⟨e', rfl, he⟩ := Ast.part_str_leaf hc
        have hm := List.mem_singleton.mp hm1
        have := key (s := []) he
        simp [hm, Mention.word, Ast.wordTextsAll, Ast.wordTexts, this]
      · obtain ⟨c, rfl, hc⟩ := one_of_partAll h1
        obtain ⟨e', rfl, he⟩ := Ast.part_str_leaf hc
        have hm := List.mem_singleton.mp hm1
        have := key (s := []) he
        simp [hm, Mention.word, Ast.wordTextsAll, Ast.wordTexts, this]
      · have hm := List.mem_singleton.mp hm1
        simp [hm, Mention.word]
      · cases cs with
        | nil => simp [partAll] at h1
        | cons c cs =>
          simp only [partAll, Option.bind_eq_some_iff, Option.map_eq_some_iff, List.cons.injEq] at h1
          obtain ⟨q, h3, qs, h4, rfl, rfl⟩ := h1
          obtain ⟨e', rfl, he⟩ := Ast.part_str_leaf h3
          have hm := List.mem_singleton.mp hm1
          have := key (s := []) he
          simp [hm, Mention.word, Ast.wordTextsAll, Ast.wordTexts, this]
      · simp at hm1
theorem Ast.mentionsAll_word : ∀ {as : List Ast} {ps : List Part}, partAll as = some ps →
    ∀ m ∈ Ast.mentionsAll as, ∀ s ∈ m.word, s ∈ Ast.wordTextsAll as
  | [], ps, h => by simp [Ast.mentionsAll]
  | a :: as, ps, h => by
    simp only [partAll, Option.bind_eq_some_iff, Option.map_eq_some_iff] at h
    obtain ⟨p, h1, qs, h2, rfl⟩ := h
    intro m hm s hs
    rw [Ast.mentionsAll] at hm
    rw [Ast.wordTextsAll]
    rcases List.mem_append.mp hm with hm | hm
    · exact List.mem_append_left _ (Ast.mentions_word h1 m hm s hs)
    · exact List.mem_append_right _ (Ast.mentionsAll_word h2 m hm s hs)
end

/-- A name that a line gives: a word, or `^` and a word. -/
def NameText (n : String) : Prop :=
  ∃ s, WordText s ∧ (n = String.ofList s ∨ n = "^" ++ String.ofList s)

theorem names_text {line : List WChar} {as : List Ast} {ps : List Part} (hn : IsNarsese line as)
    (hp : partAll as = some ps) {n : String} (h : n ∈ namesIn (Ast.mentionsAll as)) : NameText n := by
  obtain ⟨m, hm, hk⟩ := List.mem_flatMap.mp h
  have key : ∀ s ∈ m.word, WordText s := fun s hs =>
    derivesAll_words hn (by decide +kernel) s (Ast.mentionsAll_word hp m hm s hs)
  cases m with
  | name s =>
    simp only [Mention.known, List.mem_singleton] at hk
    exact ⟨s, key s (by simp [Mention.word]), .inl hk⟩
  | op s =>
    simp only [Mention.known, List.mem_singleton] at hk
    exact ⟨s, key s (by simp [Mention.word]), .inr hk⟩
  | interval s => simp [Mention.known] at hk

theorem char_code {c : WChar} (h : 32 ≤ (Char.ofNat c.toNat).toNat) :
    ((Char.ofNat c.toNat).toNat : Int) = c := by
  unfold Char.ofNat at h ⊢
  split
  · rename_i hv
    simp only [Char.toNat, Char.ofNatAux] at *
    have : (UInt32.ofNatLT c.toNat (by
        rcases hv with hv | ⟨_, hv⟩
        · exact Nat.lt_trans hv (by decide)
        · exact Nat.lt_trans hv (by decide))).toNat = c.toNat := rfl
    rw [dif_pos hv] at h
    change 32 ≤ c.toNat at h
    change ((c.toNat : Nat) : Int) = c
    omega
  · rename_i hv
    rw [dif_neg hv] at h
    exact absurd h (by decide)

theorem WordText.isWord {s : List Char} (h : WordText s) (ha : Ascii s) : IsWord s := by
  obtain ⟨u, rfl, hu⟩ := h
  have : codes (u.map fun c => Char.ofNat c.toNat) = u := by
    clear hu
    induction u with
    | nil => rfl
    | cons c u ih =>
      have h1 := (ha (Char.ofNat c.toNat) (by simp)).1
      have h2 := ih fun x hx => ha x (by simp only [List.map_cons, List.mem_cons]; exact .inr hx)
      simp only [codes, List.map_cons, List.cons.injEq] at h2 ⊢
      exact ⟨char_code h1, h2⟩
  exact ⟨by rw [this]; exact hu, ha⟩

theorem WordText.bare {s : List Char} (h : WordText s) : NoCaret s := by
  obtain ⟨u, rfl, hu | hu⟩ := h
  · exact bare_token hu (by decide +kernel)
  · exact bare_token hu (by decide +kernel)

/-! ## A line is not a single variable -/

/-- Nodes that stand for variables. -/
def Emit.isVar : Emit → Bool
  | .variable_term | .independent_var | .dependent_var | .query_var => true
  | _ => false

/-- Nodes that stand for what stands below them. -/
def Emit.passes : Emit → Bool
  | .task | .judgement | .question | .goal | .quest | .compound_term | .statement_term | .multi_infix => true
  | _ => false

mutual
/-- It does not stand for a variable. -/
def Ast.noVar : Ast → Bool
  | .leaf .. => true
  | .node e cs => !e.isVar && (!e.passes || Ast.noVarAll cs)
/-- None of them does. -/
def Ast.noVarAll : List Ast → Bool
  | [] => true
  | a :: as => Ast.noVar a && Ast.noVarAll as
end

theorem Ast.noVarAll_append (as bs : List Ast) :
    Ast.noVarAll (as ++ bs) = (Ast.noVarAll as && Ast.noVarAll bs) := by
  induction as with
  | nil => simp [Ast.noVarAll]
  | cons a as ih => simp [Ast.noVarAll, ih, Bool.and_assoc]

/-- Nonterminals that do not make variables. -/
def NT.fixed : NT → Bool
  | .term | .variable | .int_set | .ext_set | .copula | .con_multi | .con_product | .con_single
  | .con_int_set | .con_ext_set | .con_negation | .con_int_image | .con_ext_image => false
  | _ => true

mutual
def Gram.fixed : Gram → Bool
  | .tok .. => true
  | .nt n => n.fixed
  | .grp alts => fixedAlts alts
  | .opt g => g.fixed
  | .star g => g.fixed
  | .plus g => g.fixed
def fixedAll : List Gram → Bool
  | [] => true
  | g :: gs => g.fixed && fixedAll gs
def fixedAlts : List (List Gram) → Bool
  | [] => true
  | b :: bs => fixedAll b && fixedAlts bs
end

theorem fixedAlts_mem {bs : List (List Gram)} (h : fixedAlts bs = true) :
    ∀ b ∈ bs, fixedAll b = true := by
  induction bs with
  | nil => simp
  | cons b bs ih =>
    simp only [fixedAlts, Bool.and_eq_true] at h
    intro c hc
    rcases List.mem_cons.mp hc with rfl | hc
    · exact h.1
    · exact ih h.2 c hc

theorem fixed_rule {n : NT} (hn : n.fixed = true) {body : List Gram} {e : Emit} (h : (body, e) ∈ rules n) :
    e.isVar = false ∧ (e = .none ∨ e.passes = true → fixedAll body = true) := by
  have key : ∀ n, n.fixed = true → (rules n).all (fun r => !r.2.isVar &&
      (!(r.2 == .none || r.2.passes) || fixedAll r.1)) = true := by
    intro n; cases n <;> decide +kernel
  have := List.all_eq_true.mp (key n hn) _ h
  simp only [Bool.and_eq_true, Bool.not_eq_true', Bool.or_eq_true, Bool.or_eq_false_iff, beq_eq_false_iff_ne] at this
  refine ⟨this.1, fun he => ?_⟩
  rcases this.2 with ⟨h1, h2⟩ | h2
  · rcases he with he | he
    · exact absurd he h1
    · rw [he] at h2; cases h2
  · exact h2

theorem derivesAll_noVar {gs : List Gram} {u : List WChar} {a : List Ast}
    (h : DerivesAll gs u a) : fixedAll gs = true → Ast.noVarAll a = true := by
  refine DerivesAll.rec
    (motive_1 := fun g _ a _ => g.fixed = true → Ast.noVarAll a = true)
    (motive_2 := fun gs _ a _ => fixedAll gs = true → Ast.noVarAll a = true)
    ?_ ?_ ?_ ?_ ?_ ?_ ?_ ?_ ?_ ?_ ?_ ?_ ?_ h
  · intro r u _ _
    rfl
  · intro r e u he hm _
    rfl
  · intro n body u a hr _ ih hn
    rw [Gram.fixed] at hn
    exact ih ((fixed_rule hn hr).2 (.inl rfl))
  · intro n body e u a he hr _ ih hn
    rw [Gram.fixed] at hn
    obtain ⟨h1, h2⟩ := fixed_rule hn hr
    rw [Ast.noVarAll, Ast.noVar, h1]
    cases hp : e.passes
    · rfl
    · simp [ih (h2 (.inr hp)), Ast.noVarAll]
  · intro alts body u a hb _ ih h
    rw [Gram.fixed] at h
    exact ih (fixedAlts_mem h _ hb)
  · intro g _; rfl
  · intro g u a _ ih h
    rw [Gram.fixed] at h
    exact ih h
  · intro g _; rfl
  · intro g u a _ ih h
    rw [Gram.fixed] at h
    exact ih (by rw [Gram.fixed]; exact h)
  · intro g u a _ ih h
    rw [Gram.fixed] at h
    exact ih h
  · intro g u v a b _ _ ih1 ih2 h
    rw [Ast.noVarAll_append, ih1 h, ih2 (by rwa [Gram.fixed] at h)]
    rfl
  · intro _; rfl
  · intro g gs u v a b _ _ ih1 ih2 h
    rw [fixedAll, Bool.and_eq_true] at h
    rw [Ast.noVarAll_append, ih1 h.1, ih2 h.2]
    rfl

/-- Not a variable. -/
def Syn.fixed : Syn → Bool
  | .var .. => false
  | _ => true

/-- Nor what a part says. -/
def Part.fixed : Part → Bool
  | .syn t => t.fixed
  | .sentence _ t _ => t.fixed
  | .task _ _ t _ => t.fixed
  | _ => true

theorem Part.build_fixed {e : Emit} {ps : List Part} {q : Part} (h : Part.build e ps = some q)
    (he : e.isVar = false) (hp : e.passes = true → ∀ p ∈ ps, p.fixed = true) : q.fixed = true := by
  unfold Part.build at h
  split at h <;> first
    | (simp only [Option.some.injEq] at h; subst h
       first
       | rfl
       | exact absurd he (by decide)
       | simpa [Part.fixed] using hp rfl)
    | (simp only [Option.map_eq_some_iff] at h
       obtain ⟨_, _, rfl⟩ := h
       first
       | rfl
       | exact hp rfl (.syn _) (by simp))
    | (rename_i h'
       rcases hc : Part.copula? e with _ | c
       · rcases hd : Part.conn? e with _ | c
         · simp [hc, hd] at h
         · simp only [hc, hd, Option.map_none, Option.map_some, Option.none_or, Option.some.injEq] at h
           subst h; rfl
       · simp only [hc, Option.map_some, Option.some_or, Option.some.injEq] at h
         subst h; rfl)
    | cases h

mutual
theorem Ast.part_fixed : ∀ {a : Ast} {p : Part}, a.part = some p → a.noVar = true → p.fixed = true
  | .leaf e s, p, h, _ => by
    simp only [Ast.part, Option.some.injEq] at h
    subst h
    unfold Part.ofLeaf
    split <;> rfl
  | .node e cs, p, h, hn => by
    simp only [Ast.part, Option.bind_eq_some_iff] at h
    obtain ⟨ps, h1, h2⟩ := h
    simp only [Ast.noVar, Bool.and_eq_true, Bool.not_eq_true', Bool.or_eq_true] at hn
    refine Part.build_fixed h2 hn.1 fun he => ?_
    rcases hn.2 with hn | hn
    · rw [he] at hn; cases hn
    · exact Ast.partAll_fixed h1 hn
theorem Ast.partAll_fixed : ∀ {as : List Ast} {ps : List Part}, partAll as = some ps →
    Ast.noVarAll as = true → ∀ p ∈ ps, p.fixed = true
  | [], ps, h, _ => by cases h; simp
  | a :: as, ps, h, hn => by
    simp only [partAll, Option.bind_eq_some_iff, Option.map_eq_some_iff] at h
    obtain ⟨p, h1, qs, h2, rfl⟩ := h
    rw [Ast.noVarAll, Bool.and_eq_true] at hn
    intro q hq
    rcases List.mem_cons.mp hq with rfl | hq
    · exact Ast.part_fixed h1 hn.1
    · exact Ast.partAll_fixed h2 hn.2 q hq
end

/-- Copulas that are written for others. -/
def abbr (c : Copula) : Bool := c == .instance || c == .property || c == .instanceProperty

/-- How many of these. -/
def abbrs (t : Term) : Nat := (Print.copulas t).countP abbr

theorem abbrs_all (ts : List Term) : (Print.copulasAll ts).countP abbr = total abbrs ts := by
  induction ts with
  | nil => rfl
  | cons t ts ih => rw [Print.copulasAll, List.countP_append, ih, total_cons]; rfl

theorem abbrs_adds : Adds abbrs := fun c ts i => by
  unfold abbrs
  rw [Print.copulas]
  exact abbrs_all ts

theorem total_zero {f : Term → Nat} {ts : List Term} (h : ∀ t ∈ ts, f t = 0) : total f ts = 0 := by
  induction ts with
  | nil => rfl
  | cons t ts ih =>
    rw [total_cons, h t (by simp), ih fun u hu => h u (by simp [hu])]

theorem mkComp_abbrs {ord : Order} (hord : ∀ l, (ord l).Perm l) {c : Connector} {args : List Term} {b : Bool}
    {r : Term} (hg : ∀ t ∈ args, Good t) (h : mkComp ord c args b = .ok r) (h0 : ∀ t ∈ args, abbrs t = 0) :
    abbrs r = 0 ∧ Sayable r := by
  have h1 := mkComp_total abbrs_adds hord hg h
  rw [total_zero h0] at h1
  refine ⟨Nat.le_zero.mp h1, ?_⟩
  obtain ⟨ts, _, hm, h2⟩ := mkComp_inv h
  obtain ⟨_, c', us, _, _, _, _, _, rfl⟩ := mkCompF_inv (fun t ht => hg t (hm t ht)) h2
  trivial

theorem newStmt_abbrs {s p r : Term} {c : Copula} {b : Bool} (hs : Good s) (hp : Good p)
    (h : newStmt s c p b = .ok r) (hc : abbr c = false) (s0 : abbrs s = 0) (p0 : abbrs p = 0) :
    abbrs r = 0 ∧ Sayable r := by
  obtain rfl := Good.newStmt hs hp h
  refine ⟨?_, trivial⟩
  unfold abbrs at s0 p0 ⊢
  rw [Term.mkStmt, Print.copulas, List.countP_cons, List.countP_append, s0, p0, hc]
  rfl

theorem newStatement_abbrs {M : Mach} (hord : ∀ l, (M.ord l).Perm l) {s p r : Term} {c : Copula} (hs : Good s)
    (hp : Good p) (h : Action.newStatement M s c p = .ok r) (s0 : abbrs s = 0) (p0 : abbrs p = 0) :
    abbrs r = 0 ∧ Sayable r := by
  have set : ∀ {k : Connector} {t t' : Term}, Good t → abbrs t = 0 → mkComp M.ord k [t] false = .ok t' →
      Good t' ∧ abbrs t' = 0 := fun hg h0 h =>
    ⟨(mkComp_leaves (by simpa using hg) h).1, (mkComp_abbrs hord (by simpa using hg) h (by simpa using h0)).1⟩
  unfold Action.newStatement at h
  split at h
  · simp only [Res.bind_eq_ok] at h
    obtain ⟨s', h1, h2⟩ := h
    obtain ⟨g, z⟩ := set hs s0 h1
    exact newStmt_abbrs g hp h2 rfl z p0
  · simp only [Res.bind_eq_ok] at h
    obtain ⟨p', h1, h2⟩ := h
    obtain ⟨g, z⟩ := set hp p0 h1
    exact newStmt_abbrs hs g h2 rfl s0 z
  · simp only [Res.bind_eq_ok] at h
    obtain ⟨s', h1, p', h3, h2⟩ := h
    obtain ⟨g, z⟩ := set hs s0 h1
    obtain ⟨g1, z1⟩ := set hp p0 h3
    exact newStmt_abbrs g g1 h2 rfl z z1
  · rename_i n1 n2 n3
    refine newStmt_abbrs hs hp h ?_ s0 p0
    cases c <;> first | rfl | exact absurd rfl n1 | exact absurd rfl n2 | exact absurd rfl n3

theorem newOperation_abbrs {M : Mach} (hord : ∀ l, (M.ord l).Perm l) {f r : Term} {ts : List Term} (hf : Good f)
    (hts : ∀ t ∈ ts, Good t) (h : Action.newOperation M f ts = .ok r) (f0 : abbrs f = 0)
    (t0 : ∀ t ∈ ts, abbrs t = 0) : abbrs r = 0 ∧ Sayable r := by
  unfold Action.newOperation at h
  simp only [Res.bind_eq_ok] at h
  obtain ⟨s, h1, h2⟩ := h
  exact newStmt_abbrs (mkComp_leaves hts h1).1 hf h2 rfl (mkComp_abbrs hord hts h1 t0).1 f0

theorem IsNamed.abbrs {t : Term} (h : IsNamed t) : abbrs t = 0 ∧ Sayable t := by
  obtain ⟨a, rfl | rfl⟩ := h <;> exact ⟨rfl, trivial⟩

mutual
/-- Evaluation leaves no abbreviated copula, and makes no variable from anything else. -/
theorem Syn.eval_abbrs {M : Mach} (hord : ∀ l, (M.ord l).Perm l) : ∀ (t : Syn) {e e' : Env} {r : Term},
    Syn.eval M t e = (.ok r, e') → abbrs r = 0 ∧ (t.fixed = true → Sayable r)
  | .name s, e, e', r, h => (named_ok h).1.abbrs.imp id fun h _ => h
  | .op s, e, e', r, h => (named_ok h).1.abbrs.imp id fun h _ => h
  | .interval s, e, e', r, h => by
    rw [Syn.eval] at h
    obtain ⟨x, e1, h1, h⟩ := Act.bind_ok h
    obtain ⟨n, e2, h2, h⟩ := Act.bind_ok h
    rw [← (Act.pure_ok h).1]
    exact ⟨rfl, fun _ => trivial⟩
  | .var k s, e, e', r, h => by
    rw [Syn.eval] at h
    obtain ⟨i, e1, h1, h⟩ := Act.bind_ok h
    rw [← (Act.pure_ok h).1]
    exact ⟨rfl, fun h => by cases h⟩
  | .stmt s c p, e, e', r, h => by
    rw [Syn.eval] at h
    obtain ⟨s', e1, h1, h⟩ := Act.bind_ok h
    obtain ⟨p', e2, h2, h⟩ := Act.bind_ok h
    exact (newStatement_abbrs hord (Syn.eval_names M s h1).1 (Syn.eval_names M p h2).1 (makingTerm_ok h).1
      (Syn.eval_abbrs hord s h1).1 (Syn.eval_abbrs hord p h2).1).imp id fun h _ => h
  | .comp c ts, e, e', r, h => by
    rw [Syn.eval] at h
    obtain ⟨ts', e1, h1, h⟩ := Act.bind_ok h
    exact (mkComp_abbrs hord (Syn.evalAll_names M ts h1).1 (makingTerm_ok h).1
      (Syn.evalAll_abbrs hord ts h1)).imp id fun h _ => h
  | .call f ts, e, e', r, h => by
    rw [Syn.eval] at h
    obtain ⟨f', e1, h1, h⟩ := Act.bind_ok h
    obtain ⟨ts', e2, h2, h⟩ := Act.bind_ok h
    exact (newOperation_abbrs hord (Syn.eval_names M f h1).1 (Syn.evalAll_names M ts h2).1 (makingTerm_ok h).1
      (Syn.eval_abbrs hord f h1).1 (Syn.evalAll_abbrs hord ts h2)).imp id fun h _ => h
  | .callName s ts, e, e', r, h => by
    rw [Syn.eval] at h
    obtain ⟨ts', e1, h1, h⟩ := Act.bind_ok h
    obtain ⟨f', e2, h2, h⟩ := Act.bind_ok h
    exact (newOperation_abbrs hord (named_ok h2).1.good (Syn.evalAll_names M ts h1).1 (makingTerm_ok h).1
      (named_ok h2).1.abbrs.1 (Syn.evalAll_abbrs hord ts h1)).imp id fun h _ => h
theorem Syn.evalAll_abbrs {M : Mach} (hord : ∀ l, (M.ord l).Perm l) : ∀ (ts : List Syn) {e e' : Env}
    {rs : List Term}, Syn.evalAll M ts e = (.ok rs, e') → ∀ r ∈ rs, abbrs r = 0
  | [], e, e', rs, h => by
    rw [Syn.evalAll] at h
    rw [← (Act.pure_ok h).1]
    simp
  | t :: ts, e, e', rs, h => by
    rw [Syn.evalAll] at h
    obtain ⟨r, e1, h1, h⟩ := Act.bind_ok h
    obtain ⟨us, e2, h2, h⟩ := Act.bind_ok h
    rw [← (Act.pure_ok h).1]
    intro x hx
    rcases List.mem_cons.mp hx with rfl | hx
    · exact (Syn.eval_abbrs hord t h1).1
    · exact Syn.evalAll_abbrs hord ts h2 x hx
end

end Cnars.Parser
