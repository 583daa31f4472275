import Verif.Parser.EbnfLemmas
import Verif.Parser.EbnfCerts
import Verif.Parser.Checks

/-!
# The tables implement the grammar file

Every production of the tables is a production of `narsese.par`, and every text the lexer delivers
for a terminal matches the terminal's expression.
-/

namespace Cnars.Parser

theorem narsese_rules : ∀ p, p < narsese.prods.length → ruleOk narsese symGram p = true := by
  have : ∀ p ∈ List.range narsese.prods.length, ruleOk narsese symGram p = true := by
    decide +kernel
  exact fun p hp => this p (List.mem_range.mpr hp)

theorem narsese_rx : ∀ k ∈ List.range narsese.dfas.length,
    machineRx rxTable tokTable ((rxCerts[k]?).getD []) ((narsese.dfas[k]?).getD []) = true := by
  decide +kernel

theorem narsese_toks : ∀ s ∈ List.range 59,
    (gramAt symGram s).same (.tok ((tokTable[s]?).getD .eps) (symEmit narsese s)) = true := by
  decide +kernel

theorem lexTok_matches {s : Nat} {w : List WChar} (h : LexTok narsese s w) :
    ∃ r, tokTable[s]? = some r ∧ r.Matches w := by
  rcases h with ⟨rfl, rfl⟩ | ⟨_, m, hm, ha⟩
  · exact ⟨.eps, rfl, .eps⟩
  · obtain ⟨k, hk, rfl⟩ := List.getElem_of_mem hm
    have := narsese_rx k (List.mem_range.mpr hk)
    rw [List.getElem?_eq_getElem hk] at this
    exact machine_sound this ha

theorem lexTok_derives {s : Nat} {w : List WChar} (h : LexTok narsese s w) :
    Derives (gramAt symGram s) w (leafNodes (symEmit narsese s) w) := by
  obtain ⟨r, hr, hw⟩ := lexTok_matches h
  have hs : s < 59 := by
    rcases Nat.lt_or_ge s 59 with h' | h'
    · exact h'
    · rw [List.getElem?_eq_none (by
        have : tokTable.length = 59 := by decide +kernel
        omega)] at hr
      simp at hr
  have := Gram.same_eq (narsese_toks s (List.mem_range.mpr hs))
  rw [this, hr, Option.getD_some]
  unfold leafNodes
  split
  · rename_i he; rw [he]; exact .tok_plain hw
  · rename_i he; exact .tok_leaf he hw

/-- A parse tree of the goal symbol is a derivation of its text. -/
theorem narsese_tree {t : PTree} (hv : t.Valid narsese (LexTok narsese))
    (hr : t.root narsese = goalSym) : IsNarsese t.yield (t.ast narsese) := by
  have h := valid_derives narsese_rules (fun _ _ => lexTok_derives) hv
  rw [hr] at h
  have he : gramAt symGram goalSym =
      .grp [[Gram.blanks, .grp [[.nt .task, .tok .eps .none]]]] := rfl
  rw [he] at h
  generalize t.yield = u at h
  generalize t.ast narsese = a at h
  unfold IsNarsese
  cases h with
  | grp h1 h2 =>
    simp only [List.mem_singleton] at h1
    subst h1
    cases h2 with
    | cons h3 h4 =>
      have h5 := derivesAll_one h4
      cases h5 with
      | grp h6 h7 =>
        simp only [List.mem_singleton] at h6
        subst h6
        cases h7 with
        | cons h8 h9 =>
          have h10 := derivesAll_one h9
          cases h10 with
          | tok_plain hm =>
            cases hm
            exact .cons h3 (by simpa using DerivesAll.cons h8 .nil)
          | tok_leaf he _ => exact absurd rfl he

end Cnars.Parser
