import Verif.Interp.Faithful
import Verif.Parser.Syn
import Verif.Parser.Tokens

/-!
# The syntax tree of a printed term

Which syntax tree a printed term has: written down from the term (`astTerm`), derived from the grammar
for the printed text, and read as the term it came from (`synOf`).  Nothing of `/repo` is modelled here.
-/

namespace Cnars.Parser
open Cnars Print

/-- The character codes of a text. -/
def codes (s : List Char) : List WChar := s.map fun c => (c.toNat : Int)

theorem codes_append (s t : List Char) : codes (s ++ t) = codes s ++ codes t := List.map_append

theorem uncodes (s : List Char) : (codes s).map (fun c => Char.ofNat c.toNat) = s := by
  induction s with
  | nil => rfl
  | cons c s ih =>
    simp only [codes, List.map_cons, List.map_map] at ih ⊢
    rw [ih]
    congr 1
    rw [Int.toNat_natCast, Char.ofNat_toNat]

/-- Printable ASCII characters. -/
def Ascii (s : List Char) : Prop := ∀ c ∈ s, 32 ≤ c.toNat ∧ c.toNat < 127

/-- A name that can be written down: a word of the grammar (narsese.par:156-158), of printable
characters. -/
def IsWord (s : List Char) : Prop :=
  (Rx.raw.Matches (codes s) ∨ Rx.quoted.Matches (codes s)) ∧ Ascii s

/-- Numbers of components that can be written down (narsese.par). -/
def Arity : Connector → Nat → Prop
  | .list, _ => False
  | .negation, n => n = 1
  | .extensionalDifference, n => n = 2
  | .intensionalDifference, n => n = 2
  | .product, n => 1 ≤ n
  | .intensionalImage, n => 1 ≤ n
  | .extensionalImage, n => 1 ≤ n
  | .intensionalSet, n => 1 ≤ n
  | .extensionalSet, n => 1 ≤ n
  | _, n => 2 ≤ n

/-- Terms whose printed text can be read: constants have names that are words, operations such names
after `^`, intervals and variables numbers that are not negative, compounds as many components as the
grammar wants. -/
inductive Legible (d : Map Key String) : Term → Prop where
  | name {a : Word} {i : Info} {n : String} : i.isOperation = false → d (keyOf i.hash) = some n →
      IsWord n.toList → Legible d (.atom a i)
  | op {a : Word} {i : Info} {n : String} {w : List Char} : i.isOperation = true →
      d (keyOf i.hash) = some n → n.toList = '^' :: w → IsWord w → Legible d (.atom a i)
  | interval {n : Nat} {i : Info} : Legible d (.interval n i)
  | var {k : VarKind} {name : String} {i : Info} {m : Nat} :
      (i.own k).indices.head? = some (m : Int) → Legible d (.var k name i)
  | stmt {s p : Term} {c : Copula} {i : Info} : operational p = false → Legible d s → Legible d p →
      Legible d (.stmt s c p i)
  | opStmt {ts : List Term} {a : Word} {i j k : Info} : k.isOperation = true →
      ts ≠ [] → (∀ t ∈ ts, Legible d t) → Legible d (.atom a k) →
      Legible d (.stmt (.comp .product ts j) .inheritance (.atom a k) i)
  | comp {ts : List Term} {c : Connector} {i : Info} : Arity c ts.length →
      (∀ t ∈ ts, Legible d t) → Legible d (.comp c ts i)

theorem Arity.pos {c : Connector} {n : Nat} (h : Arity c n) : 1 ≤ n := by
  cases c <;> simp only [Arity] at h <;> omega

theorem Legible.plain {d : Map Key String} {t : Term} (h : Legible d t) : Plain t := by
  induction h with
  | name => exact .atom _ _
  | op => exact .atom _ _
  | interval => exact .interval _ _
  | var => exact .var _ _ _
  | stmt h _ _ h1 h2 => exact .stmt _ _ h h1 h2
  | opStmt h _ _ _ h1 _ => exact .opStmt _ _ _ _ h h1
  | comp h _ h1 =>
    refine .comp _ _ ?_ h1
    rintro rfl
    exact absurd h.pos (by simp)

/-! ## The trees -/

/-- A word: quoted or raw. -/
def wordLeaf (s : List Char) : Ast :=
  if s.head? = some '"' then .leaf .string s else .leaf .string_raw s

/-- The name of a copula in the grammar. -/
def copEmit : Copula → Emit
  | .inheritance => .inheritance
  | .similarity => .similarity
  | .instance => .instance
  | .property => .property
  | .instanceProperty => .instance_property
  | .implication => .implication
  | .predictiveImplication => .predictive_implication
  | .concurrentImplication => .concurrent_implication
  | .retrospectiveImplication => .retrospective_implication
  | .equivalence => .equivalence
  | .predictiveEquivalence => .predictive_equivalence
  | .concurrentEquivalence => .concurrent_equivalence

/-- The name of a connector in the grammar. -/
def conEmit : Connector → Emit
  | .conjunction => .con_conjunction
  | .disjunction => .con_disjunction
  | .product => .con_product
  | .parallelEvents => .con_parallel_events
  | .sequentialEvents => .con_sequential_events
  | .intensionalIntersection => .con_intensional_intersection
  | .extensionalIntersection => .con_extensional_intersection
  | .extensionalDifference => .con_extensional_difference
  | .intensionalDifference => .con_intensional_difference
  | .negation => .con_negation
  | .intensionalSet => .con_int_set
  | .extensionalSet => .con_ext_set
  | .intensionalImage => .con_int_image
  | .extensionalImage => .con_ext_image
  | .list => .none

/-- The name of a compound with a connector. -/
def compEmit : Connector → Emit
  | .intensionalSet => .set
  | .extensionalSet => .set
  | .negation => .negation
  | .intensionalImage => .int_image
  | .extensionalImage => .ext_image
  | .extensionalDifference => .single_prefix
  | .intensionalDifference => .single_prefix
  | _ => .multi_prefix

/-- The name of a variable of a kind. -/
def varName : VarKind → Emit
  | .independent => .independent_var
  | .dependent => .dependent_var
  | .query => .query_var

/-- The number of a variable. -/
def varIdx (k : VarKind) (i : Info) : Int := (i.own k).indices.head?.getD 0

mutual
/-- The node for a term. -/
def astTerm (d : Map Key String) : Term → Ast
  | .atom a i =>
    if i.isOperation then .node .operation [wordLeaf (label d (.atom a i)).tail]
    else .node .atom_term [wordLeaf (label d (.atom a i))]
  | .interval n _ => .node .interval [.leaf .integer (signed n).tail]
  | .var k _ i =>
    .node .variable_term [.node (varName k) [.leaf .string_raw (decimal (varIdx k i))]]
  | .stmt s c p _ =>
    .node .statement_term
      [if operational p then .node .statement_operation1 (astTerm d p :: astArgs d s)
        else .node .statement [astTerm d s, .node (copEmit c) [], astTerm d p]]
  | .comp c ts _ => .node .compound_term [.node (compEmit c) (.node (conEmit c) [] :: astTerms d ts)]
/-- The nodes for the components of the subject. -/
def astArgs (d : Map Key String) : Term → List Ast
  | .comp _ ts _ => astTerms d ts
  | _ => []
/-- The nodes for terms. -/
def astTerms (d : Map Key String) : List Term → List Ast
  | [] => []
  | t :: ts => astTerm d t :: astTerms d ts
end

theorem astTerms_eq (d : Map Key String) (ts : List Term) : astTerms d ts = ts.map (astTerm d) := by
  induction ts with
  | nil => rfl
  | cons t ts ih => simp [astTerms, ih]

/-! ## Derivations -/

/-- The text is derived, with these nodes. -/
def Reads (g : Gram) (s : List Char) (as : List Ast) : Prop :=
  ∃ ts, TokDerives g ts as ∧ Layout ts (codes s)

/-- The same for sequences. -/
def ReadsAll (gs : List Gram) (s : List Char) (as : List Ast) : Prop :=
  ∃ ts, TokDerivesAll gs ts as ∧ Layout ts (codes s)

theorem ReadsAll.nil : ReadsAll [] [] [] := ⟨[], .nil, .nil⟩

theorem ReadsAll.cons {g : Gram} {gs : List Gram} {s t : List Char} {as bs : List Ast}
    (h1 : Reads g s as) (h2 : ReadsAll gs t bs) : ReadsAll (g :: gs) (s ++ t) (as ++ bs) := by
  obtain ⟨ts, h3, h4⟩ := h1
  obtain ⟨us, h5, h6⟩ := h2
  exact ⟨ts ++ us, .cons h3 h5, by rw [codes_append]; exact h4.append h6⟩

theorem ReadsAll.one {g : Gram} {s : List Char} {as : List Ast} (h : Reads g s as) :
    ReadsAll [g] s as := by
  simpa using ReadsAll.cons h .nil

theorem Reads.plain {n : NT} {body : List Gram} {s : List Char} {as : List Ast}
    (hr : (body, Emit.none) ∈ rules n) (h : ReadsAll body s as) : Reads (.nt n) s as := by
  obtain ⟨ts, h1, h2⟩ := h
  exact ⟨ts, .nt_plain hr h1, h2⟩

theorem Reads.node {n : NT} {body : List Gram} {e : Emit} {s : List Char} {as : List Ast}
    (h0 : e ≠ .none) (hr : (body, e) ∈ rules n) (h : ReadsAll body s as) :
    Reads (.nt n) s [.node e as] := by
  obtain ⟨ts, h1, h2⟩ := h
  exact ⟨ts, .nt_node h0 hr h1, h2⟩

theorem Reads.grp {alts : List (List Gram)} {body : List Gram} {s : List Char} {as : List Ast}
    (hb : body ∈ alts) (h : ReadsAll body s as) : Reads (.grp alts) s as := by
  obtain ⟨ts, h1, h2⟩ := h
  exact ⟨ts, .grp hb h1, h2⟩

theorem Reads.opt_none {g : Gram} : Reads (.opt g) [] [] := ⟨[], .opt_none, .nil⟩

theorem Reads.star_nil {g : Gram} : Reads (.star g) [] [] := ⟨[], .star_nil, .nil⟩

theorem Reads.star {g : Gram} {s : List Char} {as : List Ast} (h : Reads (.plus g) s as) :
    Reads (.star g) s as := by
  obtain ⟨ts, h1, h2⟩ := h
  exact ⟨ts, .star_plus h1, h2⟩

theorem Reads.plus_one {g : Gram} {s : List Char} {as : List Ast} (h : Reads g s as) :
    Reads (.plus g) s as := by
  obtain ⟨ts, h1, h2⟩ := h
  exact ⟨ts, .plus_one h1, h2⟩

theorem Reads.plus_more {g : Gram} {s t : List Char} {as bs : List Ast} (h1 : Reads (.plus g) s as)
    (h2 : Reads g t bs) : Reads (.plus g) (s ++ t) (as ++ bs) := by
  obtain ⟨ts, h3, h4⟩ := h1
  obtain ⟨us, h5, h6⟩ := h2
  exact ⟨ts ++ us, .plus_more h3 h5, by rw [codes_append]; exact h4.append h6⟩

theorem lit_matches : ∀ (s : List Char), s ≠ [] → (Rx.lit s).Matches (codes s)
  | [], h => absurd rfl h
  | [c], _ => .cls (List.mem_singleton.mpr rfl) (Nat.le_refl _) (Nat.le_refl _)
  | c :: d :: s, _ => by
    have h := lit_matches (d :: s) (by simp)
    exact .seq (u := [(c.toNat : Int)])
      (.cls (List.mem_singleton.mpr rfl) (Nat.le_refl _) (Nat.le_refl _)) h

/-- Spaces. -/
def sp (n : Nat) : List Char := List.replicate n ' '

theorem layout_sp (s : List Char) (n : Nat) : Layout [codes s] (codes (s ++ sp n)) := by
  rw [codes_append]
  have : Layout [codes s] (codes s ++ codes (sp n) ++ []) := by
    refine .cons ?_ .nil
    intro c hc
    simp only [codes, sp, List.map_replicate, List.mem_replicate] at hc
    exact Or.inr hc.2
  simpa using this

theorem Reads.kw {s : List Char} (hs : s ≠ []) (n : Nat) : Reads (Gram.kw s) (s ++ sp n) [] :=
  ⟨[codes s], .kw (lit_matches s hs), layout_sp s n⟩

theorem Reads.leaf {r : Rx} {e : Emit} {s : List Char} (h0 : e ≠ .none) (h : r.Matches (codes s)) :
    Reads (Gram.lex r e) s [.leaf e s] := by
  refine ⟨[codes s], ?_, by simpa [sp] using layout_sp s 0⟩
  have := TokDerives.leaf h0 h
  rwa [uncodes] at this

/-! ### Words and numbers -/

theorem star_cls {rs : List (Nat × Nat)} : ∀ (s : List Char),
    (∀ c ∈ s, ∃ p ∈ rs, p.1 ≤ c.toNat ∧ c.toNat ≤ p.2) → (Rx.star (.cls rs)).Matches (codes s)
  | [], _ => .starNil
  | c :: s, h => by
    obtain ⟨p, hp, h1, h2⟩ := h c (by simp)
    have h3 := star_cls s fun x hx => h x (by simp [hx])
    exact .starCons (u := [(c.toNat : Int)]) (.cls (lo := p.1) (hi := p.2) hp h1 h2) h3

theorem plus_cls {rs : List (Nat × Nat)} {s : List Char} (hs : s ≠ [])
    (h : ∀ c ∈ s, ∃ p ∈ rs, p.1 ≤ c.toNat ∧ c.toNat ≤ p.2) :
    (Rx.plus (.cls rs)).Matches (codes s) := by
  cases s with
  | nil => exact absurd rfl hs
  | cons c s =>
    obtain ⟨p, hp, h1, h2⟩ := h c (by simp)
    exact .seq (u := [(c.toNat : Int)]) (.cls (lo := p.1) (hi := p.2) hp h1 h2)
      (star_cls s fun x hx => h x (by simp [hx]))

theorem digits_dec {c : Char} {n : Nat} (h : c ∈ Nat.toDigits 10 n) :
    48 ≤ c.toNat ∧ c.toNat ≤ 57 := by
  have := Nat.isDigit_of_mem_toDigits (b := 10) (by omega) (by omega) h
  simp only [Char.isDigit, Bool.and_eq_true, decide_eq_true_eq, ge_iff_le] at this
  exact ⟨UInt32.le_iff_toNat_le.mp this.1, UInt32.le_iff_toNat_le.mp this.2⟩

theorem digits_raw (n : Nat) : Rx.raw.Matches (codes (Nat.toDigits 10 n)) :=
  plus_cls (by
    have := Nat.toDigits_ne_nil (b := 10) (n := n)
    exact this) fun c hc => ⟨(48, 57), by simp, digits_dec hc⟩

theorem digits_int (n : Nat) : Rx.int.Matches (codes (Nat.toDigits 10 n)) := by
  have h : (Rx.plus Rx.digit).Matches (codes (Nat.toDigits 10 n)) :=
    plus_cls (by
      have := Nat.toDigits_ne_nil (b := 10) (n := n)
      exact this) fun c hc => ⟨('0'.toNat, '9'.toNat), by simp, digits_dec hc⟩
  exact .seq (u := []) (.altR .eps) h

theorem raw_head {s : List Char} (h : Rx.raw.Matches (codes s)) : s.head? ≠ some '"' := by
  intro hs
  cases s with
  | nil => cases hs
  | cons c s =>
    simp only [List.head?_cons, Option.some.injEq] at hs
    subst hs
    generalize hu : codes ('"' :: s) = u at h
    cases h with
    | seq h1 h2 =>
      cases h1 with
      | cls hm h3 h4 =>
        rename_i lo hi n
        have : (n : Int) = 34 := by
          have := congrArg List.head? hu
          simpa [codes] using this.symm
        obtain rfl : n = 34 := by omega
        simp only [List.mem_cons, List.not_mem_nil, or_false, Prod.mk.injEq] at hm
        rcases hm with ⟨rfl, rfl⟩ | ⟨rfl, rfl⟩ | ⟨rfl, rfl⟩ | ⟨rfl, rfl⟩ | ⟨rfl, rfl⟩ | ⟨rfl, rfl⟩ <;>
          omega

theorem quoted_head {s : List Char} (h : Rx.quoted.Matches (codes s)) : s.head? = some '"' := by
  generalize hu : codes s = u at h
  cases h with
  | seq h1 h2 =>
    cases h1 with
    | cls hm h3 h4 =>
      rename_i lo hi n
      have hn : n = 34 := by
        have hm' : lo = 34 ∧ hi = 34 := by
          have := List.mem_singleton.mp hm
          simpa using this
        omega
      subst hn
      cases s with
      | nil => simp [codes] at hu
      | cons c s =>
        simp only [codes, List.map_cons, List.singleton_append, List.cons.injEq] at hu
        have hc : c.toNat = 34 := by exact_mod_cast hu.1
        have : c = Char.ofNat c.toNat := (Char.ofNat_toNat c).symm
        rw [hc] at this
        rw [this]
        rfl

theorem Reads.word {s : List Char} (h : IsWord s) : Reads (.nt .word) s [wordLeaf s] := by
  rcases h.1 with h | h
  · rw [wordLeaf, if_neg (raw_head h)]
    exact .plain (body := [.grp [[Gram.string], [Gram.string_raw]]]) (by simp [rules])
      (.one (.grp (body := [Gram.string_raw]) (by simp) (.one (.leaf (by decide) h))))
  · rw [wordLeaf, if_pos (quoted_head h)]
    exact .plain (body := [.grp [[Gram.string], [Gram.string_raw]]]) (by simp [rules])
      (.one (.grp (body := [Gram.string]) (by simp) (.one (.leaf (by decide) h))))

/-! ### Lists -/

/-- The texts, with `, ` before each. -/
def commas : List (List Char) → List Char
  | [] => []
  | s :: ss => [','] ++ sp 1 ++ s ++ commas ss

theorem texts_commas (t : Tree) (ts : List Tree) :
    Tree.texts (t :: ts) = Tree.text t ++ commas (ts.map Tree.text) := by
  induction ts generalizing t with
  | nil => simp [Tree.texts, commas]
  | cons u us ih =>
    rw [Tree.texts_cons2, ih u]
    simp [commas, sp]

/-- Each member of the list is read as a term. -/
def Each (d : Map Key String) (ts : List Term) : Prop :=
  ∀ t ∈ ts, Reads (.nt .term) (treeOf d t).text [astTerm d t]

theorem Reads.comma {s : List Char} {as : List Ast} (h : Reads (.nt .term) s as) :
    Reads Gram.commaTerm ([','] ++ sp 1 ++ s) as :=
  .grp (body := [Gram.kw [','], .nt .term]) (by simp)
    (by simpa using ReadsAll.cons (.kw (s := [',']) (by simp) 1) (.one h))

theorem Reads.plus_commas {d : Map Key String} : ∀ {ts : List Term} {s : List Char} {as : List Ast},
    Each d ts → Reads (.plus Gram.commaTerm) s as →
    Reads (.plus Gram.commaTerm) (s ++ commas ((treesOf d ts).map Tree.text)) (as ++ astTerms d ts)
  | [], _, _, _, h => by simpa [treesOf, commas, astTerms] using h
  | t :: ts, s, as, hts, h => by
    have h1 := Reads.plus_more h (Reads.comma (hts t (by simp)))
    have h2 := Reads.plus_commas (ts := ts) (fun x hx => hts x (by simp [hx])) h1
    simpa [treesOf, commas, astTerms] using h2

theorem Reads.commaPlus {d : Map Key String} {t : Term} {ts : List Term} (h : Each d (t :: ts)) :
    Reads (.plus Gram.commaTerm) (commas ((treesOf d (t :: ts)).map Tree.text))
      (astTerms d (t :: ts)) := by
  have h1 := Reads.plus_commas (ts := ts) (fun x hx => h x (by simp [hx]))
    (Reads.plus_one (Reads.comma (h t (by simp))))
  simpa [treesOf, commas, astTerms] using h1

theorem Reads.commaStar {d : Map Key String} {ts : List Term} (h : Each d ts) :
    Reads (.star Gram.commaTerm) (commas ((treesOf d ts).map Tree.text)) (astTerms d ts) := by
  cases ts with
  | nil => exact .star_nil
  | cons t ts => exact .star (.commaPlus h)

/-- The texts of a list that is not empty. -/
theorem texts_of (d : Map Key String) (t : Term) (ts : List Term) :
    Tree.texts (treesOf d (t :: ts)) =
      (treeOf d t).text ++ commas ((treesOf d ts).map Tree.text) := by
  rw [treesOf, texts_commas]

/-! ### Terms -/

/-- The characters of a copula. -/
def copText : Copula → List Char
  | .inheritance => ['-', '-', '>']
  | .similarity => ['<', '-', '>']
  | .instance => ['{', '-', '-']
  | .property => ['-', '-', ']']
  | .instanceProperty => ['{', '-', ']']
  | .implication => ['=', '=', '>']
  | .predictiveImplication => ['=', '/', '>']
  | .concurrentImplication => ['=', '|', '>']
  | .retrospectiveImplication => ['=', '\\', '>']
  | .equivalence => ['<', '=', '>']
  | .predictiveEquivalence => ['<', '/', '>']
  | .concurrentEquivalence => ['<', '|', '>']

theorem copText_eq (c : Copula) : c.symbol.toList = copText c := by
  cases c <;> decide +kernel

/-- The characters of a connector. -/
def conText : Connector → List Char
  | .conjunction => ['&', '&']
  | .disjunction => ['|', '|']
  | .product => ['*']
  | .parallelEvents => ['&', '|']
  | .sequentialEvents => ['&', '/']
  | .intensionalIntersection => ['|']
  | .extensionalIntersection => ['&']
  | .extensionalDifference => ['-']
  | .intensionalDifference => ['~']
  | .negation => ['-', '-']
  | .intensionalSet => ['[']
  | .extensionalSet => ['{']
  | .intensionalImage => ['\\']
  | .extensionalImage => ['/']
  | .list => ['#']

theorem conText_eq (c : Connector) : c.symbol.toList = conText c := by
  cases c <;> decide +kernel

theorem Reads.copula (c : Copula) :
    Reads (.nt .copula) (c.symbol.toList ++ sp 1) [.node (copEmit c) []] := by
  rw [copText_eq]
  refine .node (body := [Gram.kw (copText c)]) (by cases c <;> decide) ?_
    (.one (.kw (by cases c <;> decide) 1))
  cases c <;> simp [rules, copEmit, copText]

/-- The nonterminal for a connector. -/
def conNT : Connector → NT
  | .product => .con_product
  | .extensionalDifference => .con_single
  | .intensionalDifference => .con_single
  | .negation => .con_negation
  | .intensionalSet => .con_int_set
  | .extensionalSet => .con_ext_set
  | .intensionalImage => .con_int_image
  | .extensionalImage => .con_ext_image
  | _ => .con_multi

theorem Reads.con {c : Connector} (hc : c ≠ .list) :
    Reads (.nt (conNT c)) (conText c) [.node (conEmit c) []] := by
  have h := Reads.kw (s := conText c) (by cases c <;> decide) 0
  simp only [sp, List.replicate_zero, List.append_nil] at h
  refine .node (body := [Gram.kw (conText c)]) ?_ ?_ (.one h)
  · cases c <;> first | exact absurd rfl hc | decide
  · cases c <;> first | exact absurd rfl hc | simp [rules, conNT, conEmit, conText]

theorem Reads.nonvar {e : Emit} {body : List Gram} {s : List Char} {as : List Ast} (h0 : e ≠ .none)
    (hr : (body, e) ∈ rules .term_nonvar) (h : ReadsAll body s as) :
    Reads (.nt .term_nonvar) s [.node e as] := .node h0 hr h

theorem Reads.term_of {s : List Char} {as : List Ast} (h : Reads (.nt .term_nonvar) s as) :
    Reads (.nt .term) s as :=
  .plain (body := [.nt .term_nonvar]) (by simp [rules]) (.one h)

theorem tight (s : List Char) (hs : s ≠ []) : Reads (Gram.kw s) s [] := by
  simpa [sp] using Reads.kw hs 0

theorem layout_trail {ts : List (List WChar)} {u bl : List WChar} (h : Layout ts u) (hts : ts ≠ [])
    (hb : ∀ c ∈ bl, IsBlank c) : Layout ts (u ++ bl) := by
  induction h with
  | nil => exact absurd rfl hts
  | @cons t ts b line hbl h ih =>
    cases ts with
    | nil =>
      cases h
      have : Layout [t] (t ++ (b ++ bl) ++ []) := by
        refine .cons ?_ .nil
        intro c hc
        rcases List.mem_append.mp hc with hc | hc
        · exact hbl c hc
        · exact hb c hc
      simpa using this
    | cons t' ts =>
      rw [List.append_assoc]
      exact .cons hbl (ih (by simp))

/-- Spaces after a text. -/
theorem Reads.trail {g : Gram} {s : List Char} {as : List Ast} (h : Reads g s as) (hs : s ≠ [])
    (n : Nat) : Reads g (s ++ sp n) as := by
  obtain ⟨ts, h1, h2⟩ := h
  refine ⟨ts, h1, ?_⟩
  rw [codes_append]
  refine layout_trail h2 ?_ ?_
  · rintro rfl
    generalize hc : codes s = u at h2
    cases h2
    exact hs (List.map_eq_nil_iff.mp hc)
  · intro c hc
    simp only [codes, sp, List.map_replicate, List.mem_replicate] at hc
    exact Or.inr hc.2

theorem Reads.angle {s p : List Char} {as bs : List Ast} {c : Copula} (h1 : Reads (.nt .term) s as)
    (hs : s ≠ []) (h2 : Reads (.nt .term) p bs) : Reads (.nt .statement)
      ('<' :: (s ++ (' ' :: (c.symbol.toList ++ (' ' :: (p ++ ['>']))))))
      [.node .statement (as ++ ([.node (copEmit c) []] ++ bs))] := by
  refine .node (body := [.grp [[Gram.kw ['<'], .nt .term, .nt .copula, .nt .term, Gram.kw ['>']],
    [Gram.kw ['('], .nt .term, .nt .copula, .nt .term, Gram.kw [')']]]]) (by decide) (by simp [rules])
    (.one (.grp (body := [Gram.kw ['<'], .nt .term, .nt .copula, .nt .term, Gram.kw ['>']])
      (by simp) ?_))
  have := ReadsAll.cons (tight ['<'] (by simp)) (.cons (h1.trail hs 1) (.cons (.copula c) (.cons h2
    (.one (tight ['>'] (by simp))))))
  simpa [sp] using this

theorem Reads.call {o s : List Char} {as bs : List Ast} (h1 : Reads (.nt .op) o as)
    (h2 : Reads (.star Gram.commaTerm) s bs) : Reads (.nt .statement) ('(' :: (o ++ (s ++ [')'])))
      [.node .statement_operation1 (as ++ bs)] := by
  refine .node (body := [Gram.kw ['('], .nt .op, .star Gram.commaTerm, Gram.kw [')']]) (by decide)
    (by simp [rules]) ?_
  have := ReadsAll.cons (tight ['('] (by simp)) (.cons h1 (.cons h2 (.one (tight [')'] (by simp)))))
  simpa using this

theorem Reads.op {w : List Char} (h : IsWord w) :
    Reads (.nt .op) ('^' :: w) [.node .operation [wordLeaf w]] :=
  .node (body := [Gram.kw ['^'], .nt .word]) (by decide) (by simp [rules])
    (by simpa using ReadsAll.cons (tight ['^'] (by simp)) (.one (.word h)))

/-- `(conn, a, b)`: the compounds without sets. -/
theorem Reads.paren {c : Connector} (hc : c ≠ .list) (h1 : c ≠ .extensionalSet)
    (h2 : c ≠ .intensionalSet) {d : Map Key String} {ts : List Term} (hn : Arity c ts.length)
    (h : Each d ts) : Reads (.nt .compound_term)
      ('(' :: (conText c ++ (',' :: ' ' :: (Tree.texts (treesOf d ts) ++ [')']))))
      [.node (compEmit c) (.node (conEmit c) [] :: astTerms d ts)] := by
  obtain ⟨t, ts, rfl⟩ := List.exists_cons_of_ne_nil (l := ts) (by
    rintro rfl; exact absurd hn.pos (by simp))
  rw [texts_of]
  have hcon := Reads.con hc
  have ht := h t (by simp)
  have hrest : Each d ts := fun x hx => h x (by simp [hx])
  have hstar := Reads.commaStar hrest
  have many : (body : List Gram) → body = [Gram.kw ['('], .nt (conNT c), Gram.kw [','], .nt .term,
      .star Gram.commaTerm, Gram.kw [')']] →
      ReadsAll body ('(' :: (conText c ++ (',' :: ' ' :: ((treeOf d t).text ++
        commas ((treesOf d ts).map Tree.text) ++ [')']))))
        (.node (conEmit c) [] :: astTerms d (t :: ts)) := by
    rintro _ rfl
    have := ReadsAll.cons (tight ['('] (by simp)) (.cons hcon (.cons (.kw (s := [',']) (by simp) 1)
      (.cons ht (.cons hstar (.one (tight [')'] (by simp)))))))
    simpa [sp, astTerms] using this
  have plus (hl : 2 ≤ (t :: ts).length) : (body : List Gram) → body = [Gram.kw ['('], .nt (conNT c),
      Gram.kw [','], .nt .term, .plus Gram.commaTerm, Gram.kw [')']] →
      ReadsAll body ('(' :: (conText c ++ (',' :: ' ' :: ((treeOf d t).text ++
        commas ((treesOf d ts).map Tree.text) ++ [')']))))
        (.node (conEmit c) [] :: astTerms d (t :: ts)) := by
    rintro _ rfl
    obtain ⟨u, us, rfl⟩ := List.exists_cons_of_ne_nil (l := ts) (by rintro rfl; simp at hl)
    have := ReadsAll.cons (tight ['('] (by simp)) (.cons hcon (.cons (.kw (s := [',']) (by simp) 1)
      (.cons ht (.cons (.commaPlus hrest) (.one (tight [')'] (by simp)))))))
    simpa [sp, astTerms] using this
  have multi (hl : 2 ≤ (t :: ts).length) (h1 : conNT c = .con_multi) (h2 : compEmit c = .multi_prefix) :
      Reads (.nt .compound_term) ('(' :: (conText c ++ (',' :: ' ' :: ((treeOf d t).text ++
        commas ((treesOf d ts).map Tree.text) ++ [')']))))
        [.node (compEmit c) (.node (conEmit c) [] :: astTerms d (t :: ts))] := by
    rw [h2]
    refine .plain (body := [.nt .multi]) (by simp [rules]) (.one (.node (body := [.grp [
      [Gram.kw ['('], .nt .con_multi, Gram.kw [','], .nt .term, .plus Gram.commaTerm, Gram.kw [')']],
      [Gram.kw ['('], .nt .con_product, Gram.kw [','], .nt .term, .star Gram.commaTerm,
        Gram.kw [')']]]]) (by decide) (by simp [rules]) (.one (.grp (List.mem_cons_self ..)
          (plus hl _ (by rw [h1]))))))
  cases c with
  | list => exact absurd rfl hc
  | extensionalSet => exact absurd rfl h1
  | intensionalSet => exact absurd rfl h2
  | conjunction => exact multi hn rfl rfl
  | disjunction => exact multi hn rfl rfl
  | parallelEvents => exact multi hn rfl rfl
  | sequentialEvents => exact multi hn rfl rfl
  | intensionalIntersection => exact multi hn rfl rfl
  | extensionalIntersection => exact multi hn rfl rfl
  | product =>
    refine .plain (body := [.nt .multi]) (by simp [rules]) (.one (.node (body := [.grp [
      [Gram.kw ['('], .nt .con_multi, Gram.kw [','], .nt .term, .plus Gram.commaTerm, Gram.kw [')']],
      [Gram.kw ['('], .nt .con_product, Gram.kw [','], .nt .term, .star Gram.commaTerm,
        Gram.kw [')']]]]) (by decide) (by simp [rules, compEmit]) (.one (.grp
          (List.mem_cons_of_mem _ (List.mem_cons_self ..)) (many _ rfl)))))
  | extensionalImage =>
    exact .plain (body := [.nt .ext_image]) (by simp [rules]) (.one (.node (by decide)
      (by simp [rules, compEmit, conNT]) (many _ rfl)))
  | intensionalImage =>
    exact .plain (body := [.nt .int_image]) (by simp [rules]) (.one (.node (by decide)
      (by simp [rules, compEmit, conNT]) (many _ rfl)))
  | negation =>
    obtain rfl : ts = [] := by simpa [Arity] using hn
    refine .plain (body := [.nt .negation]) (by simp [rules]) (.one (.node (body := [.grp [
      [.nt .con_negation, .nt .term], [Gram.kw ['('], .nt .con_negation, Gram.kw [','], .nt .term,
        Gram.kw [')']]]]) (by decide) (by simp [rules, compEmit]) (.one (.grp
          (List.mem_cons_of_mem _ (List.mem_cons_self ..)) ?_))))
    have := ReadsAll.cons (tight ['('] (by simp)) (.cons hcon (.cons (.kw (s := [',']) (by simp) 1)
      (.cons ht (.one (tight [')'] (by simp))))))
    simpa [sp, astTerms, treesOf, commas, conNT] using this
  | extensionalDifference =>
    obtain ⟨u, rfl⟩ : ∃ u, ts = [u] := List.length_eq_one_iff.mp (by simpa [Arity] using hn)
    refine .plain (body := [.nt .single]) (by simp [rules]) (.one (.node (body := [Gram.kw ['('],
      .nt .con_single, Gram.kw [','], Gram.operand, Gram.kw [','], Gram.operand, Gram.kw [')']])
      (by decide) (by simp [rules, compEmit]) ?_))
    have hop {x : List Char} {as : List Ast} (hx : Reads (.nt .term) x as) : Reads Gram.operand x as :=
      .grp (body := [.nt .term]) (by simp) (.one hx)
    have := ReadsAll.cons (tight ['('] (by simp)) (.cons hcon (.cons (.kw (s := [',']) (by simp) 1)
      (.cons (hop ht) (.cons (.kw (s := [',']) (by simp) 1) (.cons (hop (h u (by simp)))
        (.one (tight [')'] (by simp))))))))
    simpa [sp, astTerms, treesOf, commas, conNT] using this
  | intensionalDifference =>
    obtain ⟨u, rfl⟩ : ∃ u, ts = [u] := List.length_eq_one_iff.mp (by simpa [Arity] using hn)
    refine .plain (body := [.nt .single]) (by simp [rules]) (.one (.node (body := [Gram.kw ['('],
      .nt .con_single, Gram.kw [','], Gram.operand, Gram.kw [','], Gram.operand, Gram.kw [')']])
      (by decide) (by simp [rules, compEmit]) ?_))
    have hop {x : List Char} {as : List Ast} (hx : Reads (.nt .term) x as) : Reads Gram.operand x as :=
      .grp (body := [.nt .term]) (by simp) (.one hx)
    have := ReadsAll.cons (tight ['('] (by simp)) (.cons hcon (.cons (.kw (s := [',']) (by simp) 1)
      (.cons (hop ht) (.cons (.kw (s := [',']) (by simp) 1) (.cons (hop (h u (by simp)))
        (.one (tight [')'] (by simp))))))))
    simpa [sp, astTerms, treesOf, commas, conNT] using this

/-- Sets. -/
theorem Reads.set {c : Connector} (hc : c = .extensionalSet ∨ c = .intensionalSet)
    {d : Map Key String} {ts : List Term} (hn : Arity c ts.length) (h : Each d ts) :
    Reads (.nt .compound_term) (conText c ++ (Tree.texts (treesOf d ts) ++
      [if c = .extensionalSet then '}' else ']']))
      [.node (compEmit c) (.node (conEmit c) [] :: astTerms d ts)] := by
  obtain ⟨t, ts, rfl⟩ := List.exists_cons_of_ne_nil (l := ts) (by
    rintro rfl; exact absurd hn.pos (by simp))
  rw [texts_of]
  have hcon := Reads.con (c := c) (by rcases hc with rfl | rfl <;> simp)
  have ht := h t (by simp)
  have hstar := Reads.commaStar (d := d) (ts := ts) fun x hx => h x (by simp [hx])
  refine .plain (body := [.nt .set]) (by simp [rules]) (.one ?_)
  rcases hc with rfl | rfl
  · refine .node (body := [.grp [[.nt .int_set], [.nt .ext_set]]]) (by decide)
      (by simp [rules, compEmit]) (.one (.grp (body := [.nt .ext_set]) (by simp) (.one ?_)))
    refine .plain (body := [.nt .con_ext_set, .nt .term, .star Gram.commaTerm, Gram.kw ['}']])
      (by simp [rules]) ?_
    have := ReadsAll.cons hcon (.cons ht (.cons hstar (.one (tight ['}'] (by simp)))))
    simpa [astTerms, conNT] using this
  · refine .node (body := [.grp [[.nt .int_set], [.nt .ext_set]]]) (by decide)
      (by simp [rules, compEmit]) (.one (.grp (body := [.nt .int_set]) (by simp) (.one ?_)))
    refine .plain (body := [.nt .con_int_set, .nt .term, .star Gram.commaTerm, Gram.kw [']']])
      (by simp [rules]) ?_
    have := ReadsAll.cons hcon (.cons ht (.cons hstar (.one (tight [']'] (by simp)))))
    simpa [astTerms, conNT] using this

/-! ### The whole term -/

theorem IsWord.ne_nil {s : List Char} (h : IsWord s) : s ≠ [] := by
  rintro rfl
  rcases h.1 with h | h <;>
  · generalize hu : codes [] = u at h
    cases h with
    | seq h1 h2 => cases h1 with | cls => simp [codes] at hu

theorem label_name {d : Map Key String} {a : Word} {i : Info} {n : String}
    (h : d (keyOf i.hash) = some n) : label d (.atom a i) = n.toList := by
  simp [label, h]

theorem text_ne_nil {d : Map Key String} {t : Term} (h : Legible d t) : (treeOf d t).text ≠ [] := by
  cases h with
  | name hi hn hw => rw [treeOf, Tree.text, label_name hn]; exact hw.ne_nil
  | op hi hn hw hw' => rw [treeOf, Tree.text, label_name hn, hw]; simp
  | @interval n => rw [treeOf, Tree.text]; simp [signed]
  | var h => rw [treeOf, Tree.text]; rename_i k _ _ _; cases k <;> simp [VarKind.symbol]
  | stmt h => rw [treeOf, h]; simp [Tree.text]
  | opStmt h => rw [treeOf]; simp [operational, h, Tree.text]
  | comp h =>
    rw [treeOf]
    split
    · simp [Tree.text]
    · split <;> simp [Tree.text]

/-- The node for a statement. -/
def astStmt (d : Map Key String) (s : Term) (c : Copula) (p : Term) : Ast :=
  if operational p then .node .statement_operation1 (astTerm d p :: astArgs d s)
  else .node .statement [astTerm d s, .node (copEmit c) [], astTerm d p]

theorem reads_angle {d : Map Key String} {s p : Term} {c : Copula} {i : Info}
    (hop : operational p = false) (h1 : Legible d s)
    (hs : Reads (.nt .term) (treeOf d s).text [astTerm d s])
    (hp : Reads (.nt .term) (treeOf d p).text [astTerm d p]) :
    Reads (.nt .statement) (treeOf d (.stmt s c p i)).text [astStmt d s c p] := by
  rw [treeOf, hop, astStmt, hop]
  have := Reads.angle (c := c) hs (text_ne_nil h1) hp
  simpa [Tree.text] using this

theorem reads_call {d : Map Key String} {ts : List Term} {a : Word} {i j k : Info} {c : Copula}
    {e : Connector} (hop : k.isOperation = true) (hne : ts ≠ []) (hts : Each d ts)
    (hp : Legible d (.atom a k)) :
    Reads (.nt .statement) (treeOf d (.stmt (.comp e ts j) c (.atom a k) i)).text
      [astStmt d (.comp e ts j) c (.atom a k)] := by
  have hop' : operational (.atom a k) = true := hop
  rw [treeOf, hop', astStmt, hop']
  have hstar := Reads.commaStar hts
  cases hp with
  | name h3 => rw [h3] at hop; cases hop
  | op h3 h4 h5 h6 =>
    have h7 := Reads.call (Reads.op h6) hstar
    obtain ⟨t, ts, rfl⟩ := List.exists_cons_of_ne_nil hne
    simp only [if_true, Tree.text, treeArgs, astArgs]
    rw [label_name h4, h5, texts_of, astTerm, if_pos hop, label_name h4, h5]
    simpa [commas, treesOf, sp] using h7

theorem astTerm_stmt (d : Map Key String) (s p : Term) (c : Copula) (i : Info) :
    ∃ as, astTerm d (.stmt s c p i) = .node .statement_term as := by
  rw [astTerm]; exact ⟨_, rfl⟩

theorem reads_term {d : Map Key String} {t : Term} (h : Legible d t) :
    Reads (.nt .term) (treeOf d t).text [astTerm d t] := by
  induction h with
  | @name a i n hi hn hw =>
    rw [treeOf, Tree.text, astTerm, if_neg (by simp [hi]), label_name hn]
    exact .term_of (.nonvar (body := [.nt .word]) (by decide) (by simp [rules]) (.one (.word hw)))
  | @op a i n w hi hn hw hw' =>
    rw [treeOf, Tree.text, astTerm, if_pos hi, label_name hn, hw]
    exact .term_of (.plain (body := [.nt .op]) (by simp [rules]) (.one (.op hw')))
  | @interval n i =>
    rw [treeOf, Tree.text, astTerm]
    refine .term_of (.plain (body := [.nt .interval]) (by simp [rules]) (.one ?_))
    refine .node (body := [Gram.kw ['+'], Gram.integer]) (by decide) (by simp [rules]) ?_
    have := ReadsAll.cons (tight ['+'] (by simp)) (.one (Reads.leaf (r := Rx.int) (e := .integer)
      (by decide) (digits_int n)))
    simpa [signed, Gram.integer] using this
  | @var k name i m hm =>
    have hd : decimal (varIdx k i) = Nat.toDigits 10 m := by simp [varIdx, hm, decimal]
    rw [treeOf, Tree.text, astTerm, hd]
    simp only [hm, Option.getD_some]
    have hw : Reads (.nt .word) (Nat.toDigits 10 m) [.leaf .string_raw (Nat.toDigits 10 m)] :=
      .plain (body := [.grp [[Gram.string], [Gram.string_raw]]]) (by simp [rules])
        (.one (.grp (body := [Gram.string_raw]) (by simp) (.one (.leaf (by decide) (digits_raw m)))))
    have hk : Reads (.nt .variable) (k.symbol.toList ++ decimal m)
        [.node (varName k) [.leaf .string_raw (Nat.toDigits 10 m)]] := by
      have e : decimal (m : Int) = Nat.toDigits 10 m := rfl
      rw [e]
      cases k
      · exact .node (body := [Gram.kw ['$'], .nt .word]) (by decide) (by simp [rules, varName])
          (by simpa [VarKind.symbol] using ReadsAll.cons (tight ['$'] (by simp)) (.one hw))
      · exact .node (body := [Gram.kw ['#'], .nt .word]) (by decide) (by simp [rules, varName])
          (by simpa [VarKind.symbol] using ReadsAll.cons (tight ['#'] (by simp)) (.one hw))
      · exact .node (body := [Gram.kw ['?'], .nt .word]) (by decide) (by simp [rules, varName])
          (by simpa [VarKind.symbol] using ReadsAll.cons (tight ['?'] (by simp)) (.one hw))
    exact .node (body := [.nt .variable]) (by decide) (by simp [rules]) (.one hk)
  | @stmt s p c i hop hs hp ihs ihp =>
    rw [astTerm]
    exact .term_of (.nonvar (body := [.nt .statement]) (by decide) (by simp [rules])
      (.one (reads_angle hop hs ihs ihp)))
  | @opStmt ts a i j k hop hne hts hp ih ihp =>
    rw [astTerm]
    exact .term_of (.nonvar (body := [.nt .statement]) (by decide) (by simp [rules])
      (.one (reads_call hop hne ih hp)))
  | @comp ts c i hn hts ih =>
    rw [astTerm]
    refine .term_of (.nonvar (body := [.nt .compound_term]) (by decide) (by simp [rules]) (.one ?_))
    have hc : c ≠ .list := by rintro rfl; exact hn
    rw [treeOf]
    by_cases h1 : c = .extensionalSet
    · have := Reads.set (Or.inl h1) hn ih
      rw [if_pos h1]
      subst h1
      simpa [Tree.text, conText] using this
    · rw [if_neg h1]
      by_cases h2 : c = .intensionalSet
      · have := Reads.set (Or.inr h2) hn ih
        rw [if_pos h2]
        subst h2
        simpa [Tree.text, conText] using this
      · rw [if_neg h2, Tree.text, conText_eq]
        exact Reads.paren hc h1 h2 hn ih

/-- The node for a term that is the content of a sentence. -/
def astContent (d : Map Key String) : Term → Ast
  | .stmt s c p _ => astStmt d s c p
  | t => astTerm d t

/-- Not a variable, which is no sentence (narsese.par). -/
def Sayable : Term → Prop
  | .var .. => False
  | _ => True

theorem reads_content {d : Map Key String} {t : Term} (h : Legible d t) (hv : Sayable t) :
    Reads Gram.content (treeOf d t).text [astContent d t] := by
  have hterm : ∀ {s as}, Reads (.nt .term_nonvar) s as → Reads Gram.content s as := fun h =>
    .grp (body := [.nt .term_nonvar]) (by simp) (.one h)
  have hstmt : ∀ {s as}, Reads (.nt .statement) s as → Reads Gram.content s as := fun h =>
    .grp (body := [.nt .statement]) (by simp) (.one h)
  have key : (∀ as, astTerm d t ≠ .node .variable_term as) →
      Reads (.nt .term_nonvar) (treeOf d t).text [astTerm d t] := by
    intro hne
    obtain ⟨ts, h1, h2⟩ := reads_term h
    refine ⟨ts, ?_, h2⟩
    generalize ha : [astTerm d t] = as at h1
    cases h1 with
    | nt_plain hr h3 =>
      simp [rules] at hr
      subst hr
      cases h3 with
      | cons h4 h5 => cases h5; simpa using h4
    | nt_node h0 hr h3 =>
      simp [rules, h0] at hr
      obtain ⟨rfl, rfl⟩ := hr
      simp only [List.cons.injEq, and_true] at ha
      exact absurd ha (hne _)
  cases h with
  | name hi hn hw => exact hterm (key (by rw [astTerm]; simp [hi]))
  | op hi hn hw hw' => exact hterm (key (by rw [astTerm]; simp [hi]))
  | @interval n => exact hterm (key (by rw [astTerm]; simp))
  | var h => exact hv.elim
  | stmt hop h1 h2 => exact hstmt (reads_angle hop h1 (reads_term h1) (reads_term h2))
  | opStmt hop hne h1 h2 =>
    exact hstmt (reads_call hop hne (fun t ht => reads_term (h1 t ht)) h2)
  | comp h => exact hterm (key (by rw [astTerm]; simp))

/-! ### Characters -/

theorem Ascii.append {s t : List Char} (hs : Ascii s) (ht : Ascii t) : Ascii (s ++ t) := by
  intro c hc
  rcases List.mem_append.mp hc with h | h
  · exact hs c h
  · exact ht c h

theorem ascii_cop (c : Copula) : Ascii c.symbol.toList := by
  rw [copText_eq]; cases c <;> simp [copText, Ascii]

theorem ascii_con (c : Connector) : Ascii c.symbol.toList := by
  rw [conText_eq]; cases c <;> simp [conText, Ascii]

theorem ascii_digits (n : Nat) : Ascii (Nat.toDigits 10 n) := by
  intro c hc
  have := digits_dec hc
  omega

theorem ascii_commas {ss : List (List Char)} (h : ∀ s ∈ ss, Ascii s) : Ascii (commas ss) := by
  induction ss with
  | nil => simp [commas, Ascii]
  | cons s ss ih =>
    rw [commas]
    exact ((Ascii.append (by simp [Ascii]) (by simp [Ascii, sp])).append (h s (by simp))).append
      (ih fun t ht => h t (by simp [ht]))

theorem ascii_texts {d : Map Key String} {ts : List Term} (h : ∀ t ∈ ts, Ascii (treeOf d t).text) :
    Ascii (Tree.texts (treesOf d ts)) := by
  cases ts with
  | nil => simp [treesOf, Tree.texts, Ascii]
  | cons t ts =>
    rw [texts_of]
    refine (h t (by simp)).append (ascii_commas ?_)
    intro s hs
    rw [treesOf_eq, List.map_map, List.mem_map] at hs
    obtain ⟨u, hu, rfl⟩ := hs
    exact h u (by simp [hu])

theorem ascii_text {d : Map Key String} {t : Term} (h : Legible d t) : Ascii (treeOf d t).text := by
  induction h with
  | name hi hn hw => rw [treeOf, Tree.text, label_name hn]; exact hw.2
  | op hi hn hw hw' =>
    rw [treeOf, Tree.text, label_name hn, hw]
    exact Ascii.append (s := ['^']) (by simp [Ascii]) hw'.2
  | @interval n =>
    rw [treeOf, Tree.text]
    have : signed (n : Int) = ['+'] ++ Nat.toDigits 10 n := by simp [signed]
    rw [this]
    exact Ascii.append (by simp [Ascii]) (ascii_digits n)
  | @var k _ _ m hm =>
    rw [treeOf, Tree.text]
    simp only [hm, Option.getD_some]
    refine Ascii.append (by cases k <;> simp [Ascii, VarKind.symbol]) ?_
    exact ascii_digits m
  | @stmt s p c i hop hs hp ihs ihp =>
    rw [treeOf, hop]
    simp only [Bool.false_eq_true, if_false]
    rw [Tree.text]
    have hc := ascii_cop c
    intro x hx
    simp only [List.mem_append, List.mem_cons, List.not_mem_nil, or_false] at hx
    have hx' : x = '<' ∨ x = ' ' ∨ x = '>' ∨ x ∈ (treeOf d s).text ∨ x ∈ (treeOf d p).text ∨
        x ∈ c.symbol.toList := by
      clear hop hs hp ihs ihp hc; tauto
    rcases hx' with rfl | rfl | rfl | h | h | h
    · decide
    · decide
    · decide
    · exact ihs x h
    · exact ihp x h
    · exact hc x h
  | @opStmt ts a i j k hop hne hts hp ih ihp =>
    rw [treeOf]
    simp only [operational, hop, if_true, treeArgs]
    have h1 := ascii_texts ih
    rw [treeOf, Tree.text] at ihp
    rw [Tree.text]
    intro x hx
    have hx' : x = '(' ∨ x = ' ' ∨ x = ',' ∨ x = ')' ∨ x ∈ label d (.atom a k) ∨
        x ∈ Tree.texts (treesOf d ts) := by
      simp only [List.mem_append, List.mem_cons, List.not_mem_nil, or_false] at hx
      clear hop hne hts hp ih ihp h1; tauto
    rcases hx' with rfl | rfl | rfl | rfl | h | h
    · decide
    · decide
    · decide
    · decide
    · exact ihp x h
    · exact h1 x h
  | @comp ts c i hn hts ih =>
    have h1 := ascii_texts ih
    have h2 := ascii_con c
    rw [treeOf]
    intro x hx
    have hx' : x = '(' ∨ x = ' ' ∨ x = ',' ∨ x = ')' ∨ x = '{' ∨ x = '}' ∨ x = '[' ∨ x = ']' ∨
        x ∈ c.symbol.toList ∨ x ∈ Tree.texts (treesOf d ts) := by
      clear hn hts ih h1 h2
      split at hx
      · rw [Tree.text] at hx
        simp only [List.mem_append, List.mem_cons, List.not_mem_nil, or_false] at hx
        tauto
      · split at hx
        · rw [Tree.text] at hx
          simp only [List.mem_append, List.mem_cons, List.not_mem_nil, or_false] at hx
          tauto
        · rw [Tree.text] at hx
          simp only [List.mem_append, List.mem_cons, List.not_mem_nil, or_false] at hx
          tauto
    rcases hx' with rfl | rfl | rfl | rfl | rfl | rfl | rfl | rfl | h | h
    iterate 8 decide
    · exact h2 x h
    · exact h1 x h

theorem firstLine_ascii {s : List Char} (h : Ascii s) : firstLine (codes s) = codes s := by
  unfold firstLine
  have h1 : ∀ c ∈ codes s, 32 ≤ c ∧ c < 127 := by
    intro c hc
    obtain ⟨x, hx, rfl⟩ := List.mem_map.mp hc
    have := h x hx
    exact ⟨by change (32 : Int) ≤ (x.toNat : Int); omega, by change (x.toNat : Int) < 127; omega⟩
  rw [takeWhile_all, takeWhile_all]
  · intro c hc
    have := h1 c hc
    simp only [decide_eq_true_eq, ne_eq]
    rintro rfl
    exact absurd this.1 (by decide)
  · intro c hc
    have := h1 c (List.takeWhile_sublist _ |>.subset hc)
    simp only [decide_eq_true_eq, ne_eq]
    rintro rfl
    exact absurd this.1 (by decide)

theorem no_tab {s : List Char} (h : Ascii s) : (9 : WChar) ∉ codes s := by
  intro hc
  obtain ⟨x, hx, h9⟩ := List.mem_map.mp hc
  have := (h x hx).1
  have : (x.toNat : Int) = 9 := h9
  omega

/-! ### The sentence -/

/-- The nodes for the sentence. -/
def astLine (d : Map Key String) (t : Term) : List Ast :=
  [.node .task [.node .judgement [astContent d t]]]

theorem isNarsese_printed {d : Map Key String} {t : Term} (h : Legible d t) (hv : Sayable t) :
    IsNarsese (codes ((treeOf d t).text ++ ['.'])) (astLine d t) := by
  have h1 : Reads (.nt .sentence) ((treeOf d t).text ++ ['.']) [.node .judgement [astContent d t]] := by
    refine .node (body := [Gram.content, Gram.kw ['.'], Gram.maybe [.nt .tense], Gram.maybe [.nt .truth]])
      (by decide) (by simp [rules]) ?_
    have := ReadsAll.cons (reads_content h hv) (.cons (tight ['.'] (by simp))
      (.cons (Reads.opt_none (g := .grp [[.nt .tense]])) (.one (Reads.opt_none (g := .grp [[.nt .truth]])))))
    simpa [Gram.maybe] using this
  have h2 : Reads (.nt .task) ((treeOf d t).text ++ ['.']) (astLine d t) := by
    refine .node (body := [Gram.maybe [.nt .budget], .nt .sentence]) (by decide) (by simp [rules]) ?_
    simpa [Gram.maybe] using ReadsAll.cons (Reads.opt_none (g := .grp [[.nt .budget]])) (.one h1)
  obtain ⟨ts, h3, h4⟩ := h2
  exact isNarsese_tokens.mpr ⟨[], ts, _, by simp, by simp, h4, h3⟩

/-! ### The tree that is meant -/

theorem meant_word (s : List Char) : (wordLeaf s).meant = true := by
  unfold wordLeaf; split <;> simp [Ast.meant]

theorem meant_leafs {e : Emit} {as : List Ast}
    (h0 : ¬ (e = .judgement ∨ e = .question ∨ e = .goal ∨ e = .quest)) (h1 : e ≠ .multi_prefix_product)
    (h : Ast.meantAll as = true) : (Ast.node e as).meant = true := by
  rw [Ast.meant, if_neg h0, if_neg h1, h]; rfl

theorem meantAll_map {ts : List Term} {f : Term → Ast} (h : ∀ t ∈ ts, (f t).meant = true) :
    Ast.meantAll (ts.map f) = true := by
  induction ts with
  | nil => rfl
  | cons t ts ih =>
    rw [List.map_cons, Ast.meantAll, h t (by simp), ih (fun t ht => h t (by simp [ht]))]; rfl

theorem meantAll_terms {d : Map Key String} {ts : List Term} (h : ∀ t ∈ ts, (astTerm d t).meant = true) :
    Ast.meantAll (astTerms d ts) = true := by
  rw [astTerms_eq]; exact meantAll_map h

theorem meant_angle {d : Map Key String} {s p : Term} {c : Copula} (hop : operational p = false)
    (hs : (astTerm d s).meant = true) (hp : (astTerm d p).meant = true) :
    (astStmt d s c p).meant = true := by
  rw [astStmt, hop]
  refine meant_leafs (by decide) (by decide) ?_
  have : (Ast.node (copEmit c) []).meant = true := by cases c <;> rfl
  simp [Ast.meantAll, hs, hp, this]

theorem meant_call {d : Map Key String} {ts : List Term} {p : Term} {e : Connector} {c : Copula} {j : Info}
    (hop : operational p = true) (hs : ∀ t ∈ ts, (astTerm d t).meant = true)
    (hp : (astTerm d p).meant = true) : (astStmt d (.comp e ts j) c p).meant = true := by
  rw [astStmt, hop]
  refine meant_leafs (by decide) (by decide) ?_
  simp [Ast.meantAll, hp, astArgs, meantAll_terms hs]

theorem meant_term {d : Map Key String} {t : Term} (h : Legible d t) : (astTerm d t).meant = true := by
  induction h with
  | name hi hn hw =>
    rw [astTerm]
    split <;> exact meant_leafs (by decide) (by decide) (by simp [Ast.meantAll, meant_word])
  | op hi hn hw =>
    rw [astTerm]
    split <;> exact meant_leafs (by decide) (by decide) (by simp [Ast.meantAll, meant_word])
  | interval =>
    rw [astTerm]; exact meant_leafs (by decide) (by decide) (by simp [Ast.meantAll, Ast.meant])
  | @var k _ _ _ =>
    rw [astTerm]
    refine meant_leafs (by decide) (by decide) ?_
    cases k <;> simp [Ast.meantAll, Ast.meant, varName]
  | stmt hop hs hp ihs ihp =>
    rw [astTerm]
    refine meant_leafs (by decide) (by decide) ?_
    simp only [Ast.meantAll, Bool.and_true]
    exact meant_angle hop ihs ihp
  | opStmt hop hne hts hp ih ihp =>
    rw [astTerm]
    refine meant_leafs (by decide) (by decide) ?_
    simp only [Ast.meantAll, Bool.and_true]
    exact meant_call hop ih ihp
  | @comp ts c i hn hts ih =>
    rw [astTerm]
    refine meant_leafs (by decide) (by decide) ?_
    have h2 : (Ast.node (compEmit c) (.node (conEmit c) [] :: astTerms d ts)).meant = true := by
      refine meant_leafs (by cases c <;> decide) (by cases c <;> decide) ?_
      rw [Ast.meantAll, meantAll_terms ih]
      cases c <;> rfl
    simp [Ast.meantAll, h2]

theorem meant_line {d : Map Key String} {t : Term} (h : Legible d t) : Ast.meantAll (astLine d t) = true := by
  have h1 : headIs .statement_term [astContent d t] = false := by
    cases t with
    | atom a i => simp only [astContent, astTerm]; split <;> simp [headIs]
    | interval => simp [astContent, astTerm, headIs]
    | var => simp [astContent, astTerm, headIs]
    | comp => simp [astContent, astTerm, headIs]
    | stmt s c p i => simp only [astContent, astStmt]; split <;> simp [headIs]
  have h2 : (astContent d t).meant = true := by
    cases h with
    | stmt hop hs hp => exact meant_angle hop (meant_term hs) (meant_term hp)
    | opStmt hop hne hts hp => exact meant_call hop (fun t ht => meant_term (hts t ht)) (meant_term hp)
    | name h3 h4 h5 => exact meant_term (.name h3 h4 h5)
    | op h3 h4 h5 h6 => exact meant_term (.op h3 h4 h5 h6)
    | interval => exact meant_term .interval
    | var h => exact meant_term (.var h)
    | comp h h3 => exact meant_term (.comp h h3)
  simp [astLine, Ast.meantAll, Ast.meant, h1, h2]

/-! ### What it stands for -/

mutual
/-- The term as written. -/
def synOf (d : Map Key String) : Term → Syn
  | .atom a i =>
    if i.isOperation then .op (label d (.atom a i)).tail else .name (label d (.atom a i))
  | .interval n _ => .interval (signed n).tail
  | .var k _ i => .var k (decimal (varIdx k i))
  | .stmt s c p _ => if operational p then .call (synOf d p) (synArgs d s) else .stmt (synOf d s) c (synOf d p)
  | .comp c ts _ => .comp c (synsOf d ts)
/-- The arguments. -/
def synArgs (d : Map Key String) : Term → List Syn
  | .comp _ ts _ => synsOf d ts
  | _ => []
/-- Several. -/
def synsOf (d : Map Key String) : List Term → List Syn
  | [] => []
  | t :: ts => synOf d t :: synsOf d ts
end

theorem synsOf_eq (d : Map Key String) (ts : List Term) : synsOf d ts = ts.map (synOf d) := by
  induction ts with
  | nil => rfl
  | cons t ts ih => simp [synsOf, ih]

theorem part_word (s : List Char) : (wordLeaf s).part = some (.str s) := by
  unfold wordLeaf; split <;> rfl

theorem partAll_one {a : Ast} {p : Part} (h : a.part = some p) : partAll [a] = some [p] := by
  simp [partAll, h]

theorem partAll_syns {as : List Ast} {ts : List Syn} {a : Ast} {p : Part} (h : a.part = some p)
    (h1 : partAll as = some (ts.map .syn)) : partAll (a :: as) = some (p :: ts.map .syn) := by
  simp [partAll, h, h1]

theorem partAll_terms {d : Map Key String} : ∀ {ts : List Term},
    (∀ t ∈ ts, (astTerm d t).part = some (.syn (synOf d t))) →
    partAll (astTerms d ts) = some ((synsOf d ts).map .syn)
  | [], _ => rfl
  | t :: ts, h => by
    have h1 : partAll (astTerms d ts) = some ((synsOf d ts).map .syn) :=
      partAll_terms (fun u hu => h u (by simp [hu]))
    simp [astTerms, partAll, synsOf, h t (by simp), h1]

theorem part_angle {d : Map Key String} {s p : Term} {c : Copula} {i : Info} (hop : operational p = false)
    (hs : (astTerm d s).part = some (.syn (synOf d s))) (hp : (astTerm d p).part = some (.syn (synOf d p))) :
    (astStmt d s c p).part = some (.syn (synOf d (.stmt s c p i))) := by
  have hc : (Ast.node (copEmit c) []).part = some (.copula c) := by cases c <;> rfl
  rw [astStmt, synOf, hop]
  simp only [Bool.false_eq_true, if_false]
  rw [Ast.part, partAll, hs, partAll, hc, partAll, hp]
  rfl

theorem part_call {d : Map Key String} {ts : List Term} {p : Term} {c : Copula} {e : Connector} {i j : Info}
    (hop : operational p = true) (hs : ∀ t ∈ ts, (astTerm d t).part = some (.syn (synOf d t)))
    (hp : (astTerm d p).part = some (.syn (synOf d p))) :
    (astStmt d (.comp e ts j) c p).part = some (.syn (synOf d (.stmt (.comp e ts j) c p i))) := by
  rw [astStmt, synOf, hop]
  simp only [if_true, astArgs, synArgs]
  rw [Ast.part, partAll_syns hp (partAll_terms hs)]
  simp [Part.build, Part.syns?_map]

theorem part_of {d : Map Key String} {t : Term} (h : Legible d t) :
    (astTerm d t).part = some (.syn (synOf d t)) := by
  induction h with
  | name hi hn hw =>
    rw [astTerm, synOf]
    split <;> simp [Ast.part, partAll, part_word, Part.build]
  | op hi hn hw =>
    rw [astTerm, synOf]
    split <;> simp [Ast.part, partAll, part_word, Part.build]
  | interval => simp [astTerm, synOf, Ast.part, partAll, Part.build, Part.ofLeaf]
  | @var k _ _ _ =>
    cases k <;> simp [astTerm, synOf, Ast.part, partAll, Part.build, Part.ofLeaf, varName]
  | @stmt s p c i hop hs hp ihs ihp =>
    have h2 := partAll_one (part_angle (c := c) (i := i) hop ihs ihp)
    rw [astTerm, Ast.part]
    unfold astStmt at h2
    rw [h2]
    rfl
  | @opStmt ts a i j k hop hne hts hp ih ihp =>
    have h2 := partAll_one (part_call (p := .atom a k) (c := .inheritance) (e := .product) (i := i) (j := j)
      hop ih ihp)
    rw [astTerm, Ast.part]
    unfold astStmt at h2
    rw [h2]
    rfl
  | @comp ts c i hn hts ih =>
    have hcon : (Ast.node (conEmit c) []).part = some (.conn c) := by
      cases c <;> first | rfl | exact hn.elim
    have h2 : (Ast.node (compEmit c) (.node (conEmit c) [] :: astTerms d ts)).part =
        some (.syn (.comp c (synsOf d ts))) := by
      rw [Ast.part, partAll_syns hcon (partAll_terms ih)]
      cases c <;> simp [compEmit, Part.build, Part.syns?_map]
    rw [astTerm, Ast.part, partAll_one h2, synOf]
    rfl

theorem part_line {d : Map Key String} {t : Term} (h : Legible d t) :
    partAll (astLine d t) = some [.task none .judgement (synOf d t) []] := by
  have h1 : (astContent d t).part = some (.syn (synOf d t)) := by
    cases h with
    | stmt hop hs hp => exact part_angle hop (part_of hs) (part_of hp)
    | opStmt hop hne hts hp => exact part_call hop (fun t ht => part_of (hts t ht)) (part_of hp)
    | name h1 h2 h3 => exact part_of (.name h1 h2 h3)
    | op h1 h2 h3 h4 => exact part_of (.op h1 h2 h3 h4)
    | interval => exact part_of .interval
    | var h => exact part_of (.var h)
    | comp h h1 => exact part_of (.comp h h1)
  simp [astLine, partAll, Ast.part, h1, Part.build, Part.marks?]

end Cnars.Parser
