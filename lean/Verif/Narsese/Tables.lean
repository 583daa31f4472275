import Verif.Base.Res

/-!
# Connector and copula tables

`Narsese/include/Connector.h`, `Narsese/include/Copula.h` and the Python enumerations in
`Narsese/src/Connector.cpp`, `Narsese/src/Copula.cpp`.
-/

namespace Cnars

/-- `CONNECTOR::Connector` (Connector.h:11-29), without `None = -1`, which is represented by
`Option.none` where it can occur. -/
inductive Connector where
  | conjunction | disjunction | product | parallelEvents | sequentialEvents
  | intensionalIntersection | extensionalIntersection | extensionalDifference
  | intensionalDifference | negation | intensionalSet | extensionalSet
  | intensionalImage | extensionalImage | list
  deriving Repr, DecidableEq, Inhabited

namespace Connector

/-- The enumerator values of Connector.h:13-28. -/
def idx : Connector → Nat
  | conjunction => 0 | disjunction => 1 | product => 2 | parallelEvents => 3
  | sequentialEvents => 4 | intensionalIntersection => 5 | extensionalIntersection => 6
  | extensionalDifference => 7 | intensionalDifference => 8 | negation => 9
  | intensionalSet => 10 | extensionalSet => 11 | intensionalImage => 12
  | extensionalImage => 13 | list => 14

def all : List Connector :=
  [conjunction, disjunction, product, parallelEvents, sequentialEvents, intensionalIntersection,
   extensionalIntersection, extensionalDifference, intensionalDifference, negation,
   intensionalSet, extensionalSet, intensionalImage, extensionalImage, list]

/-- `CONNECTOR::Repr` (Connector.h:46). -/
def reprTable : List String :=
  ["&&", "||", "*", "&|", "&/", "|", "&", "-", "~", "--", "[", "{", "\\", "/", "#"]

/-- `_reducible` (Connector.h:50). -/
def reducibleTable : List Bool :=
  [true, true, false, true, true, true, true, false, false, false, true, true, false, false, false]

/-- `_commutative` (Connector.h:51). -/
def commutativeTable : List Bool :=
  [true, true, false, true, false, true, true, false, false, false, true, true, false, false, false]

/-- `_single_only` (Connector.h:52). -/
def singleOnlyTable : List Bool :=
  [false, false, false, false, false, false, false, false, false, true, false, false, false, false,
   false]

/-- `_double_only` (Connector.h:53). -/
def doubleOnlyTable : List Bool :=
  [false, false, false, false, false, false, false, true, true, false, false, false, false, false,
   false]

/-- `_multiple_only` (Connector.h:54). -/
def multipleOnlyTable : List Bool :=
  [true, true, true, true, true, true, true, true, true, false, false, false, true, true, false]

/-- `_temporal` (Connector.h:55). -/
def temporalTable : List Bool :=
  [false, false, false, true, true, false, false, false, false, false, false, false, false, false,
   false]

/-- Array access `table[connector]`; all tables have 15 entries, so the default is never used
(`tables_total` below). -/
def look (t : List Bool) (c : Connector) : Bool := t.getD c.idx false

/-- Connector.h:57. -/
def isCommutative (c : Connector) : Bool := look commutativeTable c
/-- Connector.h:58. -/
def isReducible (c : Connector) : Bool := look reducibleTable c
/-- Connector.h:59. -/
def isSingleOnly (c : Connector) : Bool := look singleOnlyTable c
/-- Connector.h:60. -/
def isDoubleOnly (c : Connector) : Bool := look doubleOnlyTable c
/-- Connector.h:61. -/
def isMultipleOnly (c : Connector) : Bool := look multipleOnlyTable c
/-- Connector.h:62. -/
def isTemporal (c : Connector) : Bool := look temporalTable c
/-- `Repr[connector]`. -/
def symbol (c : Connector) : String := reprTable.getD c.idx ""

/-- `check_valid` (Connector.h:63-69); `len_terms` is an `unsigned int`. -/
def checkValid (c : Connector) (len : Nat) : Bool :=
  (!isSingleOnly c || len == 1) &&
  (!isDoubleOnly c || len == 2) &&
  (!isMultipleOnly c || decide (len > 1)) &&
  decide (len > 0)

theorem tables_total :
    reprTable.length = 15 ∧ reducibleTable.length = 15 ∧ commutativeTable.length = 15 ∧
    singleOnlyTable.length = 15 ∧ doubleOnlyTable.length = 15 ∧ multipleOnlyTable.length = 15 ∧
    temporalTable.length = 15 := by decide

theorem idx_lt (c : Connector) : c.idx < 15 := by cases c <;> decide

theorem idx_injective {c d : Connector} (h : c.idx = d.idx) : c = d := by
  cases c <;> cases d <;> first | rfl | (exact absurd h (by decide))

theorem mem_all (c : Connector) : c ∈ all := by cases c <;> decide

/-- The Python enumeration `Connector` (Narsese/src/Connector.cpp:10-25): exported name, value,
documentation string. -/
def pyEnum : List (String × Connector × String) :=
  [("Conjunction", conjunction, "&&"),
   ("Disjunction", disjunction, "||"),
   ("Product", product, "*"),
   ("ParallelEvents", parallelEvents, "&|"),
   ("SequentialEvents", sequentialEvents, "&/"),
   ("IntensionalIntersection", intensionalIntersection, "|"),
   ("ExtensionalIntersection", extensionalIntersection, "&"),
   ("ExtensionalDifference", parallelEvents, "-"),
   ("IntensionalDifference", intensionalDifference, "~"),
   ("Negation", negation, "--"),
   ("IntensionalSet", intensionalSet, "["),
   ("ExtensionalSet", extensionalSet, "{"),
   ("IntensionalImage", intensionalImage, "\\"),
   ("ExtensionalImage", extensionalImage, "/"),
   ("List", list, "#")]

end Connector

/-- `COPULA::Copula` (Copula.h:11-26), without `None = -1`. -/
inductive Copula where
  | inheritance | similarity | «instance» | property | instanceProperty | implication
  | predictiveImplication | concurrentImplication | retrospectiveImplication | equivalence
  | predictiveEquivalence | concurrentEquivalence
  deriving Repr, DecidableEq, Inhabited

namespace Copula

/-- The enumerator values of Copula.h:13-25. -/
def idx : Copula → Nat
  | inheritance => 0 | similarity => 1 | «instance» => 2 | property => 3 | instanceProperty => 4
  | implication => 5 | predictiveImplication => 6 | concurrentImplication => 7
  | retrospectiveImplication => 8 | equivalence => 9 | predictiveEquivalence => 10
  | concurrentEquivalence => 11

def all : List Copula :=
  [inheritance, similarity, «instance», property, instanceProperty, implication,
   predictiveImplication, concurrentImplication, retrospectiveImplication, equivalence,
   predictiveEquivalence, concurrentEquivalence]

/-- `COPULA::Repr` (Copula.h:40). -/
def reprTable : List String :=
  ["-->", "<->", "{--", "--]", "{-]", "==>", "=/>", "=|>", "=\\>", "<=>", "</>", "<|>"]

/-- `_commutative` (Copula.h:42). -/
def commutativeTable : List Bool :=
  [false, true, false, false, false, false, false, false, false, true, false, true]

/-- `_higher_order` (Copula.h:43). -/
def higherOrderTable : List Bool :=
  [false, false, false, false, false, true, true, true, true, true, true, true]

/-- `_temporal` (Copula.h:44). -/
def temporalTable : List Bool :=
  [false, false, false, false, false, false, true, true, true, false, true, true]

/-- `_symmetrize` (Copula.h:45); `none` is the enumerator `None = -1`. -/
def symmetrizeTable : List (Option Copula) :=
  [some similarity, some similarity, none, none, none, some equivalence,
   some predictiveEquivalence, some concurrentEquivalence, none, some equivalence,
   some predictiveEquivalence, some concurrentEquivalence]

/-- `_reverse` (Copula.h:46). -/
def reverseTable : List (Option Copula) :=
  [none, none, none, none, none, none, some retrospectiveImplication, some concurrentImplication,
   some predictiveImplication, none, none, some concurrentEquivalence]

/-- The `int` value of an enumerator, `None` being -1. -/
def enumValue : Option Copula → Int
  | none => -1
  | some c => c.idx

def look (t : List Bool) (c : Copula) : Bool := t.getD c.idx false

/-- Copula.h:48. -/
def isCommutative (c : Copula) : Bool := look commutativeTable c
/-- Copula.h:49. -/
def isHigherOrder (c : Copula) : Bool := look higherOrderTable c
/-- Copula.h:50. -/
def isTemporal (c : Copula) : Bool := look temporalTable c
/-- `symmetrize` (Copula.h:51).  The declared return type is `bool`, so the table entry is
converted: nonzero enumerators (including `None = -1`) become `true`. -/
def symmetrize (c : Copula) : Bool := enumValue (symmetrizeTable.getD c.idx none) != 0
/-- `reverse` (Copula.h:52), again converted to `bool`. -/
def reverse (c : Copula) : Bool := enumValue (reverseTable.getD c.idx none) != 0
/-- `Repr[copula]`. -/
def symbol (c : Copula) : String := reprTable.getD c.idx ""

theorem tables_total :
    reprTable.length = 12 ∧ commutativeTable.length = 12 ∧ higherOrderTable.length = 12 ∧
    temporalTable.length = 12 ∧ symmetrizeTable.length = 12 ∧ reverseTable.length = 12 := by
  decide

theorem idx_lt (c : Copula) : c.idx < 12 := by cases c <;> decide

theorem idx_injective {c d : Copula} (h : c.idx = d.idx) : c = d := by
  cases c <;> cases d <;> first | rfl | (exact absurd h (by decide))

theorem mem_all (c : Copula) : c ∈ all := by cases c <;> decide

/-- The Python enumeration `Copula` (Narsese/src/Copula.cpp:18-30). -/
def pyEnum : List (String × Copula × String) :=
  [("Inheritance", inheritance, "-->"),
   ("Similarity", similarity, "<->"),
   ("Instance", «instance», "{--"),
   ("Property", property, "--]"),
   ("InstanceProperty", instanceProperty, "{-]"),
   ("Implication", implication, "==>"),
   ("PredictiveImplication", predictiveImplication, "=/>"),
   ("ConcurrentImplication", concurrentImplication, "=|>"),
   ("RetrospectiveImplication", retrospectiveImplication, "=\\>"),
   ("Equivalence", equivalence, "<=>"),
   ("PredictiveEquivalence", predictiveEquivalence, "</>"),
   ("ConcurrentEquivalence", concurrentEquivalence, "<|>")]

end Copula
end Cnars
