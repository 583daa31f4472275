import Verif.Interp.Sentences

/-!
# What Python shows

`pTerm::__repr__`, `pSentence::__repr__`, `pTask::__repr__`, and how pybind11 calls them.
-/

namespace Cnars.Repr
open Cnars

/-- The `mark` (Term.cpp:51-64).  An interval is an atom that is not a variable. -/
def mark : Term → Str
  | .var _ _ _ => ['V', 'a', 'r', 'i', 'a', 'b', 'l', 'e']
  | .atom _ _ => ['T', 'e', 'r', 'm']
  | .interval _ _ => ['T', 'e', 'r', 'm']
  | .stmt _ _ _ _ => ['S', 't', 'a', 't', 'e', 'm', 'e', 'n', 't']
  | .comp _ _ _ => ['C', 'o', 'm', 'p', 'o', 'u', 'n', 'd']

/-- `pTerm::__repr__` (Term.cpp:49-75); `given` is the dictionary of the interpreter passed, if any,
`own` that of the handle's own interpreter, `a` the address of the term, printed with `{:x}`. -/
def term (given own : Option (Map Key String)) (a : Word) (t : Term) : Res Str :=
  match given.orElse fun _ => own with
  | none => .ok (['<'] ++ mark t ++ [' ', 'a', 't', ' '] ++ Nat.toDigits 16 a.toNat ++ ['>'])
  | some d => do
    let text ← Print.term d false t
    return ['<'] ++ mark t ++ [':', ' '] ++ text ++ ['>']

variable {K : Type}

/-- `pSentence::__repr__` (Sentence.cpp:6-13). -/
def sentence (fix : Nat → K → Str) (time : Nat) (d : Map Key String) (s : Sentence K) : Res Str := do
  let text ← Print.sentence fix time d false s
  return ['<', 'S', 'e', 'n', 't', 'e', 'n', 'c', 'e', ':', ' '] ++ text ++ ['>']

/-- `pTask::__repr__` (Task.cpp:7-14). -/
def task [Field K] [LinearOrder K] [FloorRing K] (R : Rnd K) (fix : Nat → K → Str)
    (bg : Fin 3 → K → Str) (time : Nat) (d : Map Key String) (b : Print.Budget K) (s : Sentence K) :
    Res Str := do
  let text ← Print.task R fix bg time d false b s
  return ['<', 'T', 'a', 's', 'k', ':', ' '] ++ text ++ ['>']

/-- The classes that have a `__repr__` in Python. -/
inductive Class where
  | term | statement | compound | sentence | task | truth | budget
  deriving DecidableEq, Repr

/-- The parameters of a bound function and how many of them have defaults declared by `py::arg`. -/
structure Binding where
  params : Nat
  defaults : Nat

/-- pybind11 calls a function if it gets an argument for each parameter without a declared default.
(Defaults of the C++ function itself are not part of its type, so pybind11 knows nothing of them.) -/
def Binding.accepts (b : Binding) (args : Nat) : Bool :=
  decide (b.params - b.defaults ≤ args) && decide (args ≤ b.params)

/-- The lambda expressions bound as `__repr__` (Term.cpp:131-135, Statement.cpp:24-28,
Compound.cpp:345-349, Sentence.cpp:39-43, Task.cpp:24-28) have a second parameter `interpreter`; its
default `nullptr` is that of the lambda expression.  Those of Truth.cpp:14 and Budget.cpp:17-18 have
one. -/
def binding : Class → Binding
  | .truth => ⟨1, 0⟩
  | .budget => ⟨1, 0⟩
  | _ => ⟨2, 0⟩

/-- What a call from Python gives. -/
inductive Py (α : Type) where
  | value (a : α)
  | raised (cls : String)
  deriving DecidableEq

/-- `repr(x)` in Python: `__repr__` gets the object and nothing else. -/
def python (c : Class) (text : Res Str) : Res (Py Str) :=
  if (binding c).accepts 1 then text.bind fun s => .ok (.value s) else .ok (.raised "TypeError")

end Cnars.Repr
