import Verif.Narsese.Heap
import Verif.Interp.Print

/-!
# The test of `Term::clone`
-/

namespace Cnars.CloneTest
open Cnars

/-- `*o->terms->begin()`: only compounds have `terms`, and an empty set has no first element. -/
def first : Obj → Res Obj
  | .comp _ _ (o :: _) _ => .ok o
  | _ => .ub

/-- `o->subject`, which is null and may not be printed if the object is no statement. -/
def subject : Obj → Res Obj
  | .stmt _ s _ _ _ => .ok s
  | _ => .ub

/-- `o->predicate`. -/
def predicate : Obj → Res Obj
  | .stmt _ _ _ p _ => .ok p
  | _ => .ub

/-- `str1 = interpreter.interpret(*a); str2 = interpreter.interpret(*b); GTEST_ASSERT_EQ(str1, str2)`. -/
def sameText (d : Map Key String) (a b : Obj) : Res Bool := do
  let x ← Print.term d false a.val
  let y ← Print.term d false b.val
  return decide (x = y)

/-- The test test_term.test_clone after its line has been read (Tests/test_term.cpp:184-219), the only test that is
enabled (Tests/test.cpp:11): the object `o` is cloned; `true` if all assertions hold, `false` if one fails, which ends
the test.  `n` is the next unused address.  The assertion that the tables `_vars_independent` are different objects is
that of the terms: every term has one of its own, made with it (Term.h:118; only the copy of a variable replaces its
own by another new one, Variable.inl:29). -/
def checks (d : Map Key String) (n : Nat) (o : Obj) : Res Bool := do
  let (o', _) ← cloneO n o
  if ← sameText d o o' then
    if o.addr = o'.addr then return false
    let s ← first o
    let s' ← first o'
    if ← sameText d s s' then
      if s.addr = s'.addr then return false
      let p ← predicate s
      let p' ← predicate s'
      if ← sameText d p p' then
        if p.addr ≠ p'.addr then return false
        let v ← subject s
        let v' ← subject s'
        if ← sameText d v v' then
          return decide (v.addr ≠ v'.addr)
        else return false
      else return false
    else return false
  else return false

/-- The line of the test (Tests/test_term.cpp:183). -/
def line : List Char := "(&&, <$x-->robin>, <$x-->bird>).".toList

end Cnars.CloneTest
