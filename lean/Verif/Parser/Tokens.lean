import Verif.Parser.EbnfComplete

/-!
# Texts as sequences of tokens

Blanks between tokens, taken out of the grammar: `TokDerives` is the derivation relation of
`Ebnf.lean` on lists of tokens, `Layout` says that a text is a list of tokens with blanks between them.
Nothing of `/repo` is modelled here.
-/

namespace Cnars.Parser

/-! ## Blanks -/

/-- A blank: tab or space (`#whitespaces ' \t'`, narsese.par:10). -/
def IsBlank (c : WChar) : Prop := c = 9 ∨ c = 32

theorem blank_matches {u : List WChar} : Rx.blank.Matches u ↔ ∃ c, u = [c] ∧ IsBlank c := by
  constructor
  · intro h
    cases h with
    | cls h h1 h2 =>
      rename_i lo hi n
      refine ⟨_, rfl, ?_⟩
      simp only [List.mem_cons, List.not_mem_nil, or_false, Prod.mk.injEq] at h
      rcases h with ⟨rfl, rfl⟩ | ⟨rfl, rfl⟩
      · obtain rfl : n = 9 := by omega
        exact Or.inl rfl
      · obtain rfl : n = 32 := by omega
        exact Or.inr rfl
  · rintro ⟨c, rfl, rfl | rfl⟩
    · exact .cls (n := 9) (lo := 9) (hi := 9) (by simp) (by omega) (by omega)
    · exact .cls (n := 32) (lo := 32) (hi := 32) (by simp) (by omega) (by omega)

theorem blanks_mk {u : List WChar} (h : ∀ c ∈ u, IsBlank c) : Derives Gram.blanks u [] := by
  have one (c : WChar) (hc : IsBlank c) : Derives (.grp [[.tok .blank .none]]) [c] [] :=
    .grp (List.mem_singleton.mpr rfl)
      (.cons (u := [c]) (v := []) (a := []) (b := []) (.tok_plain (blank_matches.mpr ⟨c, rfl, hc⟩)) .nil)
  have more (u : List WChar) (hu : ∀ c ∈ u, IsBlank c) (h0 : u ≠ []) :
      Derives (.plus (.grp [[.tok .blank .none]])) u [] := by
    obtain ⟨n, hn⟩ : ∃ n, u.length = n := ⟨_, rfl⟩
    induction n generalizing u with
    | zero => exact absurd (List.eq_nil_of_length_eq_zero hn) h0
    | succ n ih =>
      obtain ⟨v, c, rfl⟩ : ∃ v c, u = v ++ [c] :=
        ⟨u.dropLast, u.getLast h0, (List.dropLast_concat_getLast h0).symm⟩
      by_cases hv : v = []
      · subst hv
        exact .plus_one (one c (hu c (by simp)))
      · exact .plus_more (a := []) (b := []) (ih v (fun x hx => hu x (by simp [hx])) hv
          (by simpa using hn)) (one c (hu c (by simp)))
  by_cases h0 : u = []
  · subst h0; exact .star_nil
  · exact .star_plus (more u h h0)

theorem blanks_iff {u : List WChar} {a : List Ast} :
    Derives Gram.blanks u a ↔ (∀ c ∈ u, IsBlank c) ∧ a = [] := by
  constructor
  · have one (u : List WChar) (a : List Ast) (h : Derives (.grp [[.tok .blank .none]]) u a) :
        (∀ c ∈ u, IsBlank c) ∧ a = [] := by
      cases h with
      | grp hb h =>
        rw [List.mem_singleton] at hb
        subst hb
        cases h with
        | cons h1 h2 =>
          cases h2
          cases h1 with
          | tok_plain h =>
            obtain ⟨c, rfl, hc⟩ := blank_matches.mp h
            simpa using hc
          | tok_leaf h0 h => exact absurd rfl h0
    have more (g : Gram) (u : List WChar) (a : List Ast) (h : Derives g u a)
        (hg : g = .plus (.grp [[.tok .blank .none]])) : (∀ c ∈ u, IsBlank c) ∧ a = [] := by
      induction h using Derives.rec (motive_2 := fun _ _ _ _ => True) with
      | plus_one h => cases hg; exact one _ _ h
      | plus_more h1 h2 ih =>
        cases hg
        obtain ⟨h3, rfl⟩ := ih rfl
        obtain ⟨h4, rfl⟩ := one _ _ h2
        refine ⟨fun c hc => ?_, rfl⟩
        rcases List.mem_append.mp hc with hc | hc
        · exact h3 c hc
        · exact h4 c hc
      | nil => trivial
      | cons => trivial
      | _ => cases hg
    intro h
    cases h with
    | star_nil => simp
    | star_plus h => exact more _ _ _ h rfl
  · rintro ⟨h, rfl⟩
    exact blanks_mk h

/-- Blanks before a line make no difference. -/
theorem IsNarsese.indent {line : List WChar} {a : List Ast} (h : IsNarsese line a) {u : List WChar}
    (hu : ∀ c ∈ u, IsBlank c) : IsNarsese (u ++ line) a := by
  cases h with
  | cons h1 h2 =>
    obtain ⟨h3, rfl⟩ := blanks_iff.mp h1
    rw [← List.append_assoc]
    refine .cons (blanks_mk fun c hc => ?_) h2
    rcases List.mem_append.mp hc with hc | hc
    · exact hu c hc
    · exact h3 c hc

/-! ## Tokens -/

mutual
/-- `TokDerives g ts a`: the tokens `ts` are derived from `g`, with the syntax tree nodes `a`.  Like
`Derives`, except that a token with the blanks after it is one step. -/
inductive TokDerives : Gram → List (List WChar) → List Ast → Prop where
  | kw {r : Rx} {u : List WChar} : r.Matches u → TokDerives (Gram.lex r .none) [u] []
  | leaf {r : Rx} {e : Emit} {u : List WChar} : e ≠ .none → r.Matches u →
      TokDerives (Gram.lex r e) [u] [.leaf e (u.map fun c => Char.ofNat c.toNat)]
  | nt_plain {n : NT} {body : List Gram} {u : List (List WChar)} {a : List Ast} :
      (body, Emit.none) ∈ rules n → TokDerivesAll body u a → TokDerives (.nt n) u a
  | nt_node {n : NT} {body : List Gram} {e : Emit} {u : List (List WChar)} {a : List Ast} :
      e ≠ .none → (body, e) ∈ rules n → TokDerivesAll body u a →
      TokDerives (.nt n) u [.node e a]
  | grp {alts : List (List Gram)} {body : List Gram} {u : List (List WChar)} {a : List Ast} :
      body ∈ alts → TokDerivesAll body u a → TokDerives (.grp alts) u a
  | opt_none {g : Gram} : TokDerives (.opt g) [] []
  | opt_some {g : Gram} {u : List (List WChar)} {a : List Ast} : TokDerives g u a →
      TokDerives (.opt g) u a
  | star_nil {g : Gram} : TokDerives (.star g) [] []
  | star_plus {g : Gram} {u : List (List WChar)} {a : List Ast} : TokDerives (.plus g) u a →
      TokDerives (.star g) u a
  | plus_one {g : Gram} {u : List (List WChar)} {a : List Ast} : TokDerives g u a →
      TokDerives (.plus g) u a
  | plus_more {g : Gram} {u v : List (List WChar)} {a b : List Ast} : TokDerives (.plus g) u a →
      TokDerives g v b → TokDerives (.plus g) (u ++ v) (a ++ b)

/-- A sequence of parts. -/
inductive TokDerivesAll : List Gram → List (List WChar) → List Ast → Prop where
  | nil : TokDerivesAll [] [] []
  | cons {g : Gram} {gs : List Gram} {u v : List (List WChar)} {a b : List Ast} :
      TokDerives g u a → TokDerivesAll gs v b → TokDerivesAll (g :: gs) (u ++ v) (a ++ b)
end

/-- The text is the tokens with any blanks after each. -/
inductive Layout : List (List WChar) → List WChar → Prop where
  | nil : Layout [] []
  | cons {t : List WChar} {ts : List (List WChar)} {bl line : List WChar} :
      (∀ c ∈ bl, IsBlank c) → Layout ts line → Layout (t :: ts) (t ++ bl ++ line)

theorem Layout.append {ts us : List (List WChar)} {u v : List WChar} (h1 : Layout ts u)
    (h2 : Layout us v) : Layout (ts ++ us) (u ++ v) := by
  induction h1 with
  | nil => exact h2
  | cons hb _ ih =>
    rw [List.cons_append, List.append_assoc _ _ v]
    exact .cons hb ih

theorem Layout.split {ts us : List (List WChar)} {w : List WChar} (h : Layout (ts ++ us) w) :
    ∃ u v, w = u ++ v ∧ Layout ts u ∧ Layout us v := by
  induction ts generalizing w with
  | nil => exact ⟨[], w, rfl, .nil, h⟩
  | cons t ts ih =>
    cases h with
    | cons hb h =>
      obtain ⟨u, v, rfl, h1, h2⟩ := ih h
      exact ⟨_, v, by rw [← List.append_assoc], .cons hb h1, h2⟩

theorem Layout.one {t w : List WChar} (h : Layout [t] w) :
    ∃ bl, w = t ++ bl ∧ ∀ c ∈ bl, IsBlank c := by
  cases h with
  | cons hb h => cases h; exact ⟨_, by simp, hb⟩

/-- The tokens one after another. -/
theorem Layout.tight (ts : List (List WChar)) : Layout ts ts.flatten := by
  induction ts with
  | nil => exact .nil
  | cons t ts ih => simpa using Layout.cons (t := t) (bl := []) (by simp) ih

theorem lex_mk {r : Rx} {e : Emit} {u bl : List WChar} {a : List Ast} (h : Derives (.tok r e) u a)
    (hb : ∀ c ∈ bl, IsBlank c) : Derives (Gram.lex r e) (u ++ bl) a := by
  refine .grp (List.mem_singleton.mpr rfl) ?_
  have := DerivesAll.cons h (.cons (blanks_mk hb) .nil)
  simpa using this

mutual
theorem derives_of_tokens {g : Gram} {ts : List (List WChar)} {a : List Ast}
    (h : TokDerives g ts a) {u : List WChar} (hl : Layout ts u) : Derives g u a := by
  match h with
  | .kw h =>
    obtain ⟨bl, rfl, hb⟩ := hl.one
    exact lex_mk (.tok_plain h) hb
  | .leaf h0 h =>
    obtain ⟨bl, rfl, hb⟩ := hl.one
    exact lex_mk (.tok_leaf h0 h) hb
  | .nt_plain hr h => exact .nt_plain hr (derivesAll_of_tokens h hl)
  | .nt_node h0 hr h => exact .nt_node h0 hr (derivesAll_of_tokens h hl)
  | .grp hb h => exact .grp hb (derivesAll_of_tokens h hl)
  | .opt_none => cases hl; exact .opt_none
  | .opt_some h => exact .opt_some (derives_of_tokens h hl)
  | .star_nil => cases hl; exact .star_nil
  | .star_plus h => exact .star_plus (derives_of_tokens h hl)
  | .plus_one h => exact .plus_one (derives_of_tokens h hl)
  | .plus_more h1 h2 =>
    obtain ⟨u, v, rfl, hu, hv⟩ := hl.split
    exact .plus_more (derives_of_tokens h1 hu) (derives_of_tokens h2 hv)

theorem derivesAll_of_tokens {gs : List Gram} {ts : List (List WChar)} {a : List Ast}
    (h : TokDerivesAll gs ts a) {u : List WChar} (hl : Layout ts u) : DerivesAll gs u a := by
  match h with
  | .nil => cases hl; exact .nil
  | .cons h1 h2 =>
    obtain ⟨u, v, rfl, hu, hv⟩ := hl.split
    exact .cons (derives_of_tokens h1 hu) (derivesAll_of_tokens h2 hv)
end

/-! ## And back -/

mutual
/-- All tokens are followed by blanks. -/
def Gram.lexed : Gram → Bool
  | .tok _ _ => false
  | .nt _ => true
  | .grp [[.tok _ _, .star (.grp [[.tok (.cls [(9, 9), (32, 32)]) .none]])]] => true
  | .grp alts => Gram.lexedAlts alts
  | .opt g => g.lexed
  | .star g => g.lexed
  | .plus g => g.lexed

def Gram.lexedAll : List Gram → Bool
  | [] => true
  | g :: gs => g.lexed && Gram.lexedAll gs

def Gram.lexedAlts : List (List Gram) → Bool
  | [] => true
  | gs :: alts => Gram.lexedAll gs && Gram.lexedAlts alts
end

theorem lexedAlts_mem {alts : List (List Gram)} (h : Gram.lexedAlts alts = true) {body : List Gram}
    (hb : body ∈ alts) : Gram.lexedAll body = true := by
  induction alts with
  | nil => cases hb
  | cons x xs ih =>
    rw [Gram.lexedAlts, Bool.and_eq_true] at h
    rcases List.mem_cons.mp hb with rfl | hb
    · exact h.1
    · exact ih h.2 hb

theorem rules_lexed (n : NT) (p : List Gram × Emit) (hp : p ∈ rules n) :
    Gram.lexedAll p.1 = true := by
  have h : ∀ p ∈ rules n, Gram.lexedAll p.1 = true := by
    cases n <;> decide
  exact h p hp

mutual
theorem tokens_of_derives {g : Gram} {u : List WChar} {a : List Ast} (h : Derives g u a)
    (hg : g.lexed = true) : ∃ ts, Layout ts u ∧ TokDerives g ts a := by
  match h with
  | .tok_plain _ => simp [Gram.lexed] at hg
  | .tok_leaf _ _ => simp [Gram.lexed] at hg
  | .nt_plain hr h =>
    obtain ⟨ts, hl, h⟩ := tokens_of_derivesAll h (rules_lexed _ _ hr)
    exact ⟨ts, hl, .nt_plain hr h⟩
  | .nt_node h0 hr h =>
    obtain ⟨ts, hl, h⟩ := tokens_of_derivesAll h (rules_lexed _ _ hr)
    exact ⟨ts, hl, .nt_node h0 hr h⟩
  | .grp hb h =>
    unfold Gram.lexed at hg
    split at hg
    · simp at hg
    · rename_i heq; cases heq
    · rename_i r e heq
      cases heq
      rw [List.mem_singleton] at hb
      subst hb
      cases h with
      | cons h1 h2 =>
        cases h2 with
        | cons h2 h3 =>
          cases h3
          obtain ⟨hb, rfl⟩ := blanks_iff.mp h2
          cases h1 with
          | tok_plain h =>
            exact ⟨[_], by simpa using Layout.cons hb Layout.nil, TokDerives.kw h⟩
          | tok_leaf h0 h =>
            exact ⟨[_], by simpa using Layout.cons hb Layout.nil, TokDerives.leaf h0 h⟩
    · rename_i heq
      cases heq
      obtain ⟨ts, hl, h⟩ := tokens_of_derivesAll h (lexedAlts_mem hg hb)
      exact ⟨ts, hl, .grp hb h⟩
    all_goals (rename_i heq; cases heq)
  | .opt_none => exact ⟨[], .nil, .opt_none⟩
  | .opt_some h =>
    rw [Gram.lexed] at hg
    obtain ⟨ts, hl, h⟩ := tokens_of_derives h hg
    exact ⟨ts, hl, .opt_some h⟩
  | .star_nil => exact ⟨[], .nil, .star_nil⟩
  | .star_plus h =>
    rw [Gram.lexed] at hg
    obtain ⟨ts, hl, h⟩ := tokens_of_derives h (by rw [Gram.lexed]; exact hg)
    exact ⟨ts, hl, .star_plus h⟩
  | .plus_one h =>
    rw [Gram.lexed] at hg
    obtain ⟨ts, hl, h⟩ := tokens_of_derives h hg
    exact ⟨ts, hl, .plus_one h⟩
  | .plus_more h1 h2 =>
    obtain ⟨ts, hl, h1⟩ := tokens_of_derives h1 hg
    rw [Gram.lexed] at hg
    obtain ⟨us, hl', h2⟩ := tokens_of_derives h2 hg
    exact ⟨ts ++ us, hl.append hl', .plus_more h1 h2⟩

theorem tokens_of_derivesAll {gs : List Gram} {u : List WChar} {a : List Ast}
    (h : DerivesAll gs u a) (hg : Gram.lexedAll gs = true) :
    ∃ ts, Layout ts u ∧ TokDerivesAll gs ts a := by
  match h with
  | .nil => exact ⟨[], .nil, .nil⟩
  | .cons h1 h2 =>
    rw [Gram.lexedAll, Bool.and_eq_true] at hg
    obtain ⟨ts, hl, h1⟩ := tokens_of_derives h1 hg.1
    obtain ⟨us, hl', h2⟩ := tokens_of_derivesAll h2 hg.2
    exact ⟨ts ++ us, hl.append hl', .cons h1 h2⟩
end

/-- A line is Narsese when it is blanks and a list of tokens, with blanks between them, that is
derived from `task`. -/
theorem isNarsese_tokens {line : List WChar} {a : List Ast} :
    IsNarsese line a ↔ ∃ bl ts u, line = bl ++ u ∧ (∀ c ∈ bl, IsBlank c) ∧ Layout ts u ∧
      TokDerives (.nt .task) ts a := by
  constructor
  · intro h
    cases h with
    | cons h1 h2 =>
      cases h2 with
      | cons h2 h3 =>
        cases h3
        obtain ⟨hb, rfl⟩ := blanks_iff.mp h1
        obtain ⟨ts, hl, ht⟩ := tokens_of_derives h2 rfl
        exact ⟨_, ts, _, by simp, hb, hl, by simpa using ht⟩
  · rintro ⟨bl, ts, u, rfl, hb, hl, ht⟩
    have := DerivesAll.cons (blanks_mk hb) (.cons (derives_of_tokens ht hl) .nil)
    simpa [IsNarsese] using this

end Cnars.Parser
