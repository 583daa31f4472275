import Verif.Interp.Repr
import Verif.Parser.Session

/-!
# `parse` in Python
-/

namespace Cnars.Parser
open Cnars

/-- The function `parse` of the Python module (NarseseParser.cpp:991-1016).  A null pointer is turned into
an exception, exceptions are caught, and each time the Python error is set with `PyErr_SetString` to a
`RuntimeError` and the object `None` is *returned*.  The interpreter of Python checks that a function
returns an object exactly if no error is set, and raises `SystemError` otherwise; pybind11 passes on
what the lambda expression returns.  (The conversion of the Python string to `std::string` is not
modelled: `text` has its bytes.) -/
def pyParse (M : Mach) (strict : Bool) (fuel d : Nat) (s : Session) (text : List WChar) :
    Res (Repr.Py Task) × Session :=
  match parseTask M undefined strict fuel d s text with
  | (.ok (some t), s') => (.ok (.value t), s')
  | (.ok none, s') => (.ok (.raised "SystemError"), s')
  | (.throw _, s') => (.ok (.raised "SystemError"), s')
  | (.ub, s') => (.ub, s')
  | (.outOfFuel, s') => (.outOfFuel, s')

end Cnars.Parser
