import Verif.Parser.Main
import Verif.Parser.OpenCerts

/-!
# Lines with few opening characters

How high the stack becomes on any line, accepted or not: every cycle of the automaton goes through an
opening character.  Helper lemmas; the theorem is in `Props/Openings.lean`.
-/

namespace Cnars.Parser

/-- Twice the number of stack entries that the character can leave below what follows it: `(`, `[` and
`{`, `<`, `-`. -/
def burden (c : WChar) : Nat :=
  if c = 40 then 16 else if c = 91 ∨ c = 123 then 8 else if c = 60 then 6 else if c = 45 then 1 else 0

/-- Of a text. -/
def burdens (u : List WChar) : Nat := (u.map burden).sum

theorem burdens_append (u v : List WChar) : burdens (u ++ v) = burdens u + burdens v := by
  simp [burdens]

/-- What every text of a regular expression has. -/
def Rx.least : Rx → Nat
  | .eps => 0
  | .cls [(a, b)] => if a = b then burden (a : Int) else 0
  | .cls _ => 0
  | .seq a b => a.least + b.least
  | .alt a b => min a.least b.least
  | .star _ => 0

theorem least_le {r : Rx} {u : List WChar} (h : r.Matches u) : r.least ≤ burdens u := by
  induction h with
  | eps => exact Nat.zero_le _
  | @cls rs lo hi n h1 h2 h3 =>
    unfold Rx.least
    split
    · rename_i heq; cases heq
    · rename_i a b heq
      cases heq
      simp only [List.mem_singleton, Prod.mk.injEq] at h1
      obtain ⟨rfl, rfl⟩ := h1
      split
      · rename_i hab
        subst hab
        obtain rfl : n = lo := Nat.le_antisymm h3 h2
        simp [burdens]
      · exact Nat.zero_le _
    · exact Nat.zero_le _
    all_goals rename_i heq; cases heq
  | seq _ _ ih1 ih2 => rw [burdens_append, Rx.least]; omega
  | altL _ ih => rw [Rx.least]; omega
  | altR _ ih => rw [Rx.least]; omega
  | starNil => exact Nat.zero_le _
  | starCons _ _ _ _ => exact Nat.zero_le _

/-- What every text of a symbol has. -/
def needOf (X : Nat) : Nat := (needTable[X]?).getD 0

def slackOf (q : Nat) : Nat := (slackTable[q]?).getD 24

theorem need_toks : ∀ s < 59, needOf s ≤ ((tokTable[s]?).map Rx.least).getD 0 := by decide +kernel

theorem need_prods : ∀ p < narsese.prods.length,
    needOf (lhsOf narsese p) ≤ ((rhsOf narsese p).map needOf).sum := by decide +kernel

theorem slack_bound : ∀ x ∈ slackTable, x ≤ 24 := by decide +kernel

theorem slack_rows : ∀ r < narsese.actions.length, ∀ x ∈ rowsOf narsese r, x.2.1 = 2 →
    slackOf r + 2 ≤ slackOf x.2.2 + needOf x.1 := by decide +kernel

theorem slack_start : slackOf 0 = 0 := by decide +kernel

theorem slackOf_le (q : Nat) : slackOf q ≤ 24 :=
  getD_le (P := fun x => x ≤ 24) slack_bound (Nat.le_refl _) q

/-- The yield of a tree has what its symbol needs. -/
theorem valid_need {t : PTree} (hv : t.Valid narsese (LexTok narsese)) :
    needOf (t.root narsese) ≤ burdens t.yield := by
  induction hv with
  | @leaf s w h =>
    obtain ⟨r, hr, hm⟩ := lexTok_matches h
    have h1 := need_toks s (lexTok_lt narsese_ok h)
    rw [hr] at h1
    exact Nat.le_trans h1 (least_le hm)
  | @node p cs hp hr hc ih =>
    have h1 := need_prods p hp
    rw [hr, List.map_map] at h1
    refine Nat.le_trans h1 ?_
    clear h1 hr hc
    simp only [PTree.yield]
    induction cs with
    | nil => exact Nat.zero_le _
    | cons c cs ihc =>
      have h2 := ih c (by simp)
      have h3 := ihc fun x hx => ih x (by simp [hx])
      simp only [List.map_cons, List.sum_cons, Function.comp_apply, PTree.yields, burdens_append]
      omega

/-- The height of the stack. -/
theorem chain_burden {es : List Entry} {ts : List PTree} {up : List Ast} (h : Chain narsese es ts up) :
    2 * ts.length ≤ burdens (PTree.yields ts.reverse) +
      ((topState es).map slackOf).getD 26 := by
  induction h with
  | @base e he => simp [topState_cons, he]
  | @push e es t ts up r act idx hc hr hrl hmem h2 hst hv hn ih =>
    rw [hr] at ih
    simp only [Option.map_some, Option.getD_some] at ih
    have hsz := valid_need hv
    have hr4 := slackOf_le r
    simp only [List.reverse_cons, PTree.yields_append, PTree.yields, List.append_nil,
      burdens_append, List.length_cons, topState_cons]
    rw [hst]
    by_cases ho : act % 2 = 1
    · rw [if_pos ho]
      simp only [Option.map_none, Option.getD_none]
      omega
    · rw [if_neg ho]
      simp only [Option.map_some, Option.getD_some]
      have := slack_rows r hrl _ hmem (edge_even narsese_ok hrl hmem h2 ho).1
      simp only at this
      omega

/-- A line with few opening characters never needs more stack than the first allocation. -/
theorem low_burden (text0 : List WChar) (hl : burdens text0 ≤ 228) :
    ∀ (fuel : Nat) (s : St) (c : PC) (l : List WChar), Sim narsese narseseCert s c l →
      c.read ++ c.text = text0 → Low narsese fuel c
  | fuel, s, c, l, h, hr => by
    have h1 := chain_burden h.chain
    have h2 : burdens (PTree.yields (c.st.map (·.2)).reverse) ≤ burdens text0 := by
      rw [← hr, burdens_append]; simp only [PC.read]; omega
    have h5 : ((topState s.stack).map slackOf).getD 26 ≤ 26 := by
      cases topState s.stack with
      | none => simp
      | some q =>
        have := slackOf_le q
        simp only [Option.map_some, Option.getD_some]
        omega
    have h6 : c.st.length < mallocStep := by
      simp only [List.length_map] at h1
      unfold mallocStep; omega
    cases fuel with
    | zero => exact h6
    | succ fuel =>
      refine ⟨h6, ?_⟩
      intro c' hc'
      obtain ⟨o, _, h3, _⟩ := step_sim narsese_ok narsese_eof h
      rw [hc'] at h3
      cases h3 with
      | @go s' _ l' h' =>
        exact low_burden text0 hl fuel s' c' l' h' (by rw [(pstep_go hc').1, hr])

end Cnars.Parser
