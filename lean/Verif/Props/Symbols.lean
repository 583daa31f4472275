import Verif.Parser.Line
import Verif.Parser.Unparse
import Verif.Props.Tables
import Verif.Props.RoundTrip

/-!
# C68: reading symbols
-/

namespace Cnars.Props
open Cnars Cnars.Parser Cnars.Term

/-- The nonterminals for connectors written before their arguments. -/
def connectorNTs : List NT :=
  [.con_multi, .con_product, .con_single, .con_int_set, .con_ext_set, .con_negation, .con_int_image,
   .con_ext_image]

theorem kw_derives {s : List Char} (hs : s ≠ []) {w : List WChar} (hw : Blanks w) :
    Derives (Gram.kw s) (codes s ++ w) [] := by
  refine .grp (body := [.tok (Rx.lit s) .none, Gram.blanks]) (by simp) ?_
  have h2 : DerivesAll [Gram.blanks] w [] := by
    have := DerivesAll.cons (blanks_iff.mpr ⟨hw, rfl⟩) .nil
    simpa using this
  exact .cons (.tok_plain (lit_matches s hs)) h2

theorem symbol_rule {n : NT} {s : List Char} {e : Emit} (h : ([Gram.kw s], e) ∈ rules n) (he : e ≠ .none)
    (hs : s ≠ []) {w : List WChar} (hw : Blanks w) : Derives (.nt n) (codes s ++ w) [.node e []] := by
  refine .nt_node he h ?_
  have := DerivesAll.cons (kw_derives hs hw) .nil
  simpa using this

theorem symbol_only {s : List Char} {u : List WChar} {as : List Ast} (h : DerivesAll [Gram.kw s] u as) :
    as = [] ∧ ∃ w, u = codes s ++ w ∧ Blanks w := by
  obtain ⟨v, w, b, c, rfl, rfl, h1, h2⟩ := cons_split h
  obtain ⟨rfl, rfl⟩ := nil_split h2
  obtain ⟨w, rfl, hw, rfl⟩ := kw_split h1
  exact ⟨rfl, w, by simp, hw⟩

theorem codes_inj {s t : List Char} (h : codes s = codes t) : s = t := by
  rw [← uncodes s, ← uncodes t, h]

/-- A text without blanks is determined by the text with blanks after it. -/
theorem before_blanks {s t : List Char} (hs : ∀ c ∈ codes s, ¬ IsBlank c) (ht : ∀ c ∈ codes t, ¬ IsBlank c)
    {v w : List WChar} (hv : Blanks v) (hw : Blanks w) (h : codes s ++ v = codes t ++ w) : s = t := by
  apply codes_inj
  have key : ∀ {x y : List WChar}, (∀ c ∈ x, ¬ IsBlank c) → Blanks y →
      (x ++ y).takeWhile (fun c => decide (¬ (c = 9 ∨ c = 32))) = x := fun hx hy => by
    rw [List.takeWhile_append_of_pos fun c hc => by simpa [IsBlank] using hx c hc]
    have : ∀ y : List WChar, Blanks y → y.takeWhile (fun c => decide (¬ (c = 9 ∨ c = 32))) = [] := by
      intro y hy
      cases y with
      | nil => rfl
      | cons c y =>
        have := hy c List.mem_cons_self
        rw [List.takeWhile_cons_of_neg (by simpa [IsBlank, or_iff_not_imp_left] using this)]
    rw [this _ hy, List.append_nil]
  rw [← key hs hv, h, key ht hw]

/-- No symbol has a blank in it. -/
theorem symbol_solid : (∀ c : Copula, ∀ x ∈ codes c.symbol.toList, ¬ IsBlank x) ∧
    ∀ c : Connector, ∀ x ∈ codes c.symbol.toList, ¬ IsBlank x := by
  unfold IsBlank
  constructor <;> intro c <;> cases c <;> decide

theorem copula_read (M : Mach) {u : List WChar} {as : List Ast} (h : Derives (.nt .copula) u as) :
    ∃ (c : Copula) (w : List WChar) (e : Emit), u = codes c.symbol.toList ++ w ∧ Blanks w ∧
      as = [.node e []] ∧ act M e none = some (pure (.copula c)) := by
  cases h with
  | nt_plain hr h => simp [rules] at hr
  | nt_node he hr h =>
    simp only [rules, List.mem_cons, List.not_mem_nil, or_false, Prod.mk.injEq] at hr
    rcases hr with ⟨rfl, rfl⟩ | ⟨rfl, rfl⟩ | ⟨rfl, rfl⟩ | ⟨rfl, rfl⟩ | ⟨rfl, rfl⟩ | ⟨rfl, rfl⟩ |
      ⟨rfl, rfl⟩ | ⟨rfl, rfl⟩ | ⟨rfl, rfl⟩ | ⟨rfl, rfl⟩ | ⟨rfl, rfl⟩ | ⟨rfl, rfl⟩ <;>
    obtain ⟨rfl, w, rfl, hw⟩ := symbol_only h
    · exact ⟨.inheritance, w, _, rfl, hw, rfl, rfl⟩
    · exact ⟨.similarity, w, _, rfl, hw, rfl, rfl⟩
    · exact ⟨.instance, w, _, rfl, hw, rfl, rfl⟩
    · exact ⟨.property, w, _, rfl, hw, rfl, rfl⟩
    · exact ⟨.instanceProperty, w, _, rfl, hw, rfl, rfl⟩
    · exact ⟨.implication, w, _, rfl, hw, rfl, rfl⟩
    · exact ⟨.predictiveImplication, w, _, rfl, hw, rfl, rfl⟩
    · exact ⟨.concurrentImplication, w, _, rfl, hw, rfl, rfl⟩
    · exact ⟨.retrospectiveImplication, w, _, rfl, hw, rfl, rfl⟩
    · exact ⟨.equivalence, w, _, rfl, hw, rfl, rfl⟩
    · exact ⟨.predictiveEquivalence, w, _, rfl, hw, rfl, rfl⟩
    · exact ⟨.concurrentEquivalence, w, _, rfl, hw, rfl, rfl⟩

/-- C68: wherever the grammar has a copula, the printed symbol of a copula is read, with any blanks
after it, and as that copula only; and nothing else is read there. -/
theorem C68_copulas_read (M : Mach) :
    (∀ (c : Copula) (w : List WChar), Blanks w →
      ∃ as, Derives (.nt .copula) (codes c.symbol.toList ++ w) as) ∧
    (∀ (c : Copula) (w : List WChar) (as : List Ast), Blanks w →
      Derives (.nt .copula) (codes c.symbol.toList ++ w) as →
      ∃ e, as = [.node e []] ∧ act M e none = some (pure (.copula c))) ∧
    (∀ (u : List WChar) (as : List Ast), Derives (.nt .copula) u as →
      ∃ (c : Copula) (w : List WChar), u = codes c.symbol.toList ++ w ∧ Blanks w) := by
  refine ⟨fun c w hw => ⟨[.node (copEmit c) []], symbol_rule ?_ ?_ ?_ hw⟩, fun c w as hw h => ?_,
    fun u as h => ?_⟩
  · cases c <;> simp [rules, copEmit, Copula.symbol, Copula.reprTable, Copula.idx]
  · cases c <;> decide
  · cases c <;> decide
  · obtain ⟨c', w', e, h1, hw', rfl, h2⟩ := copula_read M h
    have : c = c' := C68_symbols_injective.1 _ _ (String.toList_injective
      (before_blanks (symbol_solid.1 c) (symbol_solid.1 c') hw hw' h1))
    exact ⟨e, rfl, this ▸ h2⟩
  · obtain ⟨c, w, e, h1, hw, _⟩ := copula_read M h
    exact ⟨c, w, h1, hw⟩

/-- The nonterminal for a connector. -/
def connectorNT : Connector → NT
  | .product | .list => .con_product
  | .extensionalDifference | .intensionalDifference => .con_single
  | .intensionalSet => .con_int_set
  | .extensionalSet => .con_ext_set
  | .negation => .con_negation
  | .intensionalImage => .con_int_image
  | .extensionalImage => .con_ext_image
  | _ => .con_multi

theorem connector_read (M : Mach) {n : NT} (hn : n ∈ connectorNTs) {u : List WChar} {as : List Ast}
    (h : Derives (.nt n) u as) :
    ∃ (c : Connector) (w : List WChar) (e : Emit), c ≠ .list ∧ u = codes c.symbol.toList ++ w ∧ Blanks w ∧
      as = [.node e []] ∧ act M e none = some (pure (.conn c)) := by
  simp only [connectorNTs, List.mem_cons, List.not_mem_nil, or_false] at hn
  cases h with
  | nt_plain hr h => rcases hn with rfl | rfl | rfl | rfl | rfl | rfl | rfl | rfl <;> simp [rules] at hr
  | nt_node he hr h =>
    rcases hn with rfl | rfl | rfl | rfl | rfl | rfl | rfl | rfl <;>
      simp only [rules, List.mem_cons, List.not_mem_nil, or_false, Prod.mk.injEq] at hr
    · rcases hr with ⟨rfl, rfl⟩ | ⟨rfl, rfl⟩ | ⟨rfl, rfl⟩ | ⟨rfl, rfl⟩ | ⟨rfl, rfl⟩ | ⟨rfl, rfl⟩ <;>
        obtain ⟨rfl, w, rfl, hw⟩ := symbol_only h
      · exact ⟨.conjunction, w, _, by simp, rfl, hw, rfl, rfl⟩
      · exact ⟨.disjunction, w, _, by simp, rfl, hw, rfl, rfl⟩
      · exact ⟨.parallelEvents, w, _, by simp, rfl, hw, rfl, rfl⟩
      · exact ⟨.sequentialEvents, w, _, by simp, rfl, hw, rfl, rfl⟩
      · exact ⟨.intensionalIntersection, w, _, by simp, rfl, hw, rfl, rfl⟩
      · exact ⟨.extensionalIntersection, w, _, by simp, rfl, hw, rfl, rfl⟩
    · obtain ⟨rfl, rfl⟩ := hr
      obtain ⟨rfl, w, rfl, hw⟩ := symbol_only h
      exact ⟨.product, w, _, by simp, rfl, hw, rfl, rfl⟩
    · rcases hr with ⟨rfl, rfl⟩ | ⟨rfl, rfl⟩ <;> obtain ⟨rfl, w, rfl, hw⟩ := symbol_only h
      · exact ⟨.extensionalDifference, w, _, by simp, rfl, hw, rfl, rfl⟩
      · exact ⟨.intensionalDifference, w, _, by simp, rfl, hw, rfl, rfl⟩
    · obtain ⟨rfl, rfl⟩ := hr
      obtain ⟨rfl, w, rfl, hw⟩ := symbol_only h
      exact ⟨.intensionalSet, w, _, by simp, rfl, hw, rfl, rfl⟩
    · obtain ⟨rfl, rfl⟩ := hr
      obtain ⟨rfl, w, rfl, hw⟩ := symbol_only h
      exact ⟨.extensionalSet, w, _, by simp, rfl, hw, rfl, rfl⟩
    · obtain ⟨rfl, rfl⟩ := hr
      obtain ⟨rfl, w, rfl, hw⟩ := symbol_only h
      exact ⟨.negation, w, _, by simp, rfl, hw, rfl, rfl⟩
    · obtain ⟨rfl, rfl⟩ := hr
      obtain ⟨rfl, w, rfl, hw⟩ := symbol_only h
      exact ⟨.intensionalImage, w, _, by simp, rfl, hw, rfl, rfl⟩
    · obtain ⟨rfl, rfl⟩ := hr
      obtain ⟨rfl, w, rfl, hw⟩ := symbol_only h
      exact ⟨.extensionalImage, w, _, by simp, rfl, hw, rfl, rfl⟩

/-- C68: wherever the grammar has a connector before its arguments, the printed symbol of a connector
is read, with any blanks after it, as that connector only, at whatever place; and nothing else is read
there.

Missing from the full statement: the connector of lists, see the counterexample. -/
theorem C68_connectors_read_partial (M : Mach) :
    (∀ (c : Connector) (w : List WChar), c ≠ .list → Blanks w →
      ∃ n ∈ connectorNTs, ∃ as, Derives (.nt n) (codes c.symbol.toList ++ w) as) ∧
    (∀ n ∈ connectorNTs, ∀ (c : Connector) (w : List WChar) (as : List Ast), Blanks w →
      Derives (.nt n) (codes c.symbol.toList ++ w) as →
      ∃ e, as = [.node e []] ∧ act M e none = some (pure (.conn c))) ∧
    (∀ n ∈ connectorNTs, ∀ (u : List WChar) (as : List Ast), Derives (.nt n) u as →
      ∃ (c : Connector) (w : List WChar), u = codes c.symbol.toList ++ w ∧ Blanks w) := by
  refine ⟨fun c w hc hw => ?_, fun n hn c w as hw h => ?_, fun n hn u as h => ?_⟩
  · refine ⟨connectorNT c, ?_, [.node (conEmit c) []], symbol_rule ?_ ?_ ?_ hw⟩
    · cases c <;> decide
    · cases c <;> first | exact absurd rfl hc | simp [rules, connectorNT, conEmit, Connector.symbol, Connector.reprTable, Connector.idx]
    · cases c <;> first | exact absurd rfl hc | decide
    · cases c <;> decide
  · obtain ⟨c', w', e, _, h1, hw', rfl, h2⟩ := connector_read M hn h
    have : c = c' := C68_symbols_injective.2 _ _ (String.toList_injective
      (before_blanks (symbol_solid.2 c) (symbol_solid.2 c') hw hw' h1))
    exact ⟨e, rfl, this ▸ h2⟩
  · obtain ⟨c, w, e, _, h1, hw, _⟩ := connector_read M hn h
    exact ⟨c, w, h1, hw⟩

/-- `&` and a blank is read as the extensional intersection, not as the beginning of `&&`. -/
example : ∃ n ∈ connectorNTs, ∃ as, Derives (.nt n) (codes ['&', ' ']) as :=
  (C68_connectors_read_partial mach).1 .extensionalIntersection (codes [' ']) (by decide)
    (by intro c hc; simp [codes] at hc; exact .inr hc)

/-- The list of `A` and `B`. -/
def listAB : Term := finishComp .list [sA, sB]

/-- `(#, A, B).` -/
def listText : List Char := ['(', '#', ',', ' ', 'A', ',', ' ', 'B', ')', '.']

/-- C68 is false for lists: their printed form is rejected. -/
theorem C68_list_counterexample :
    Constructed listAB ∧
    (match Print.term names5.store.dict false listAB with
      | .ok s => decide (s ++ ['.'] = listText)
      | _ => false) = true ∧
    rejected? (parseText false 1000 freshBuf (bytes listText) 0) = true := by
  refine ⟨.comp .list true (fun l => List.Perm.refl l) (args := [sA, sB]) ?_ rfl, by decide +kernel,
    by decide +kernel⟩
  intro t ht
  simp only [List.mem_cons, List.not_mem_nil, or_false] at ht
  rcases ht with rfl | rfl
  · exact sA_c
  · exact sB_c

/-- The statement made for a copula that is no abbreviation has that copula. -/
theorem C68_statement (M : Mach) {s p r : Term} {c : Copula}
    (hc : c ≠ .instance ∧ c ≠ .property ∧ c ≠ .instanceProperty)
    (h : Action.newStatement M s c p = .ok r) : ∃ s' p' i, r = .stmt s' c p' i := by
  unfold Action.newStatement at h
  split at h
  · exact absurd rfl hc.1
  · exact absurd rfl hc.2.1
  · exact absurd rfl hc.2.2
  · unfold newStmt at h
    split at h
    · simp only [pure, Res.ok.injEq] at h
      exact ⟨_, _, _, h.symm⟩
    · simp only [Res.bind_eq_ok] at h
      obtain ⟨s', _, p', _, h⟩ := h
      simp only [pure, Res.ok.injEq] at h
      exact ⟨_, _, _, h.symm⟩

end Cnars.Props
