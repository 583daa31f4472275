import Verif.Narsese.Tables

/-!
# C23, C67, C68 (symbols), C69: connector and copula tables
-/

namespace Cnars.Props
open Cnars

/-- Specification of the arity rules, connector by connector. -/
def SpecArity : Connector → Nat → Prop
  | .negation, n => n = 1
  | .extensionalDifference, n => n = 2
  | .intensionalDifference, n => n = 2
  | .intensionalSet, n => 1 ≤ n
  | .extensionalSet, n => 1 ≤ n
  | .list, n => 1 ≤ n
  | _, n => 2 ≤ n

/-- C23: `check_valid` is the arity rule, for all connectors and lengths. -/
theorem C23_check_valid (c : Connector) (n : Nat) : c.checkValid n = true ↔ SpecArity c n := by
  cases c <;>
    simp [Connector.checkValid, SpecArity, Connector.isSingleOnly, Connector.isDoubleOnly,
      Connector.isMultipleOnly, Connector.look, Connector.idx, Connector.singleOnlyTable,
      Connector.doubleOnlyTable, Connector.multipleOnlyTable] <;> omega

example : Connector.product.checkValid 3 = true ∧ Connector.product.checkValid 1 = false ∧
    Connector.negation.checkValid 1 = true := by decide

/-- Specification: the time reversal of a copula. -/
def SpecReverse : Copula → Option Copula
  | .predictiveImplication => some .retrospectiveImplication
  | .retrospectiveImplication => some .predictiveImplication
  | .concurrentImplication => some .concurrentImplication
  | .concurrentEquivalence => some .concurrentEquivalence
  | _ => none

/-- Specification: the symmetric counterpart of a copula. -/
def SpecSymmetrize : Copula → Option Copula
  | .inheritance | .similarity => some .similarity
  | .implication | .equivalence => some .equivalence
  | .predictiveImplication | .predictiveEquivalence => some .predictiveEquivalence
  | .concurrentImplication | .concurrentEquivalence => some .concurrentEquivalence
  | _ => none

/-- C67, what holds: the two tables contain the right copulas, and reversal is an involution on the
entries it has.  Missing: the accessor functions convert the entry to `bool`
(`C67_counterexample`). -/
theorem C67_tables_partial (c : Copula) :
    Copula.reverseTable[c.idx]? = some (SpecReverse c) ∧
    Copula.symmetrizeTable[c.idx]? = some (SpecSymmetrize c) ∧
    (∀ d, SpecReverse c = some d → SpecReverse d = some c) ∧
    (∀ d, SpecSymmetrize c = some d → SpecSymmetrize d = some d) := by
  cases c <;> refine ⟨rfl, rfl, ?_, ?_⟩ <;> intro d <;> cases d <;> decide

/-- C67 counterexample: `reverse` and `symmetrize` return the truth value of the entry.  Every
copula is mapped to `true`, whose numeric value is that of `Similarity`; in particular the
predictive implication is not reversed into the retrospective one. -/
theorem C67_counterexample :
    (∀ c : Copula, c.reverse = true ∧ c.symmetrize = true) ∧
    (Copula.predictiveImplication.reverse.toNat ≠ Copula.retrospectiveImplication.idx) ∧
    (Copula.implication.symmetrize.toNat ≠ Copula.equivalence.idx) ∧
    Copula.predictiveImplication.reverse.toNat = Copula.similarity.idx := by
  refine ⟨fun c => by cases c <;> decide, by decide, by decide, by decide⟩

/-- C68, symbols: different copulas and different connectors have different printed symbols. -/
theorem C68_symbols_injective :
    (∀ a b : Copula, a.symbol = b.symbol → a = b) ∧
    (∀ a b : Connector, a.symbol = b.symbol → a = b) := by
  constructor <;> intro a b <;> cases a <;> cases b <;> decide

example : Copula.inheritance.symbol = "-->" ∧ Connector.intensionalImage.symbol = "\\" := by decide

/-- Specification: the documented names of the connectors. -/
def SpecConnectorName : Connector → String
  | .conjunction => "Conjunction" | .disjunction => "Disjunction" | .product => "Product"
  | .parallelEvents => "ParallelEvents" | .sequentialEvents => "SequentialEvents"
  | .intensionalIntersection => "IntensionalIntersection"
  | .extensionalIntersection => "ExtensionalIntersection"
  | .extensionalDifference => "ExtensionalDifference"
  | .intensionalDifference => "IntensionalDifference" | .negation => "Negation"
  | .intensionalSet => "IntensionalSet" | .extensionalSet => "ExtensionalSet"
  | .intensionalImage => "IntensionalImage" | .extensionalImage => "ExtensionalImage"
  | .list => "List"

/-- Specification: the documented names of the copulas. -/
def SpecCopulaName : Copula → String
  | .inheritance => "Inheritance" | .similarity => "Similarity" | .«instance» => "Instance"
  | .property => "Property" | .instanceProperty => "InstanceProperty"
  | .implication => "Implication" | .predictiveImplication => "PredictiveImplication"
  | .concurrentImplication => "ConcurrentImplication"
  | .retrospectiveImplication => "RetrospectiveImplication" | .equivalence => "Equivalence"
  | .predictiveEquivalence => "PredictiveEquivalence"
  | .concurrentEquivalence => "ConcurrentEquivalence"

/-- C69, what holds: every exported copula constant, and every exported connector constant other
than `ExtensionalDifference`, denotes the value of its name and carries its symbol as
documentation; every name is exported exactly once.  Missing: `ExtensionalDifference`
(`C69_counterexample`). -/
theorem C69_partial :
    (∀ e ∈ Connector.pyEnum, e.1 ≠ "ExtensionalDifference" →
      e.1 = SpecConnectorName e.2.1 ∧ e.2.2 = e.2.1.symbol) ∧
    (∀ e ∈ Copula.pyEnum, e.1 = SpecCopulaName e.2.1 ∧ e.2.2 = e.2.1.symbol) ∧
    Connector.pyEnum.map (·.1) = Connector.all.map SpecConnectorName ∧
    Copula.pyEnum.map (·.1) = Copula.all.map SpecCopulaName ∧
    (Connector.pyEnum.map (·.1)).Nodup ∧ (Copula.pyEnum.map (·.1)).Nodup := by
  refine ⟨by decide, by decide, by decide, by decide, by decide, by decide⟩

/-- C69 counterexample: Python's `Connector.ExtensionalDifference` is `ParallelEvents`, and no
exported constant denotes the extensional difference. -/
theorem C69_counterexample :
    ("ExtensionalDifference", Connector.parallelEvents, "-") ∈ Connector.pyEnum ∧
    ∀ e ∈ Connector.pyEnum, e.2.1 ≠ Connector.extensionalDifference := by
  refine ⟨by decide, by decide⟩

end Cnars.Props
