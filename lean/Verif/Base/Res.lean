/-!
# Outcomes of C++ computations

Every modelled C++ function that can misbehave returns a `Res`.  Undefined behaviour is a value of
its own, so that a theorem "the result is `ok x`" says that no undefined behaviour occurs.
-/

namespace Cnars

/-- The outcome of running a piece of C++.
* `ok a`     : it returned `a`;
* `throw m`  : it threw a `std::exception` whose text is `m`;
* `ub`       : it executed something with undefined behaviour (out-of-range index, null
               dereference, `*begin()` of an empty container, ...);
* `outOfFuel`: only in definitions that take a step bound: the bound was too small. -/
inductive Res (α : Type _) where
  | ok (a : α)
  | throw (msg : String)
  | ub
  | outOfFuel
  deriving Repr, DecidableEq

namespace Res

/-- Sequencing: the first abnormal outcome wins. -/
def bind {α β : Type _} : Res α → (α → Res β) → Res β
  | ok a, f => f a
  | throw m, _ => throw m
  | ub, _ => ub
  | outOfFuel, _ => outOfFuel

instance : Monad Res where
  pure := ok
  bind := bind

@[simp] theorem pure_eq {α} (a : α) : (pure a : Res α) = ok a := rfl
@[simp] theorem ok_bind {α β} (a : α) (f : α → Res β) : (ok a >>= f) = f a := rfl
@[simp] theorem throw_bind {α β} (m) (f : α → Res β) : ((throw m : Res α) >>= f) = throw m := rfl
@[simp] theorem ub_bind {α β} (f : α → Res β) : ((ub : Res α) >>= f) = ub := rfl
@[simp] theorem outOfFuel_bind {α β} (f : α → Res β) :
    ((outOfFuel : Res α) >>= f) = outOfFuel := rfl

@[simp] theorem bind_assoc {α β γ} (x : Res α) (f : α → Res β) (g : β → Res γ) :
    ((x >>= f) >>= g) = (x >>= fun a => f a >>= g) := by cases x <;> rfl

@[simp] theorem bind_ok {α} (x : Res α) : (x >>= fun a => ok a) = x := by cases x <;> rfl

theorem bind_eq_ok {α β} {x : Res α} {f : α → Res β} {b : β} :
    (x >>= f) = ok b ↔ ∃ a, x = ok a ∧ f a = ok b := by
  cases x <;> simp

@[simp] theorem map_ok {α β} (f : α → β) (a : α) : (f <$> (ok a : Res α)) = ok (f a) := rfl

/-- The computation returned normally. -/
def isOk {α} : Res α → Bool
  | ok _ => true
  | _ => false

@[simp] theorem isOk_ok {α} (a : α) : (ok a : Res α).isOk = true := rfl
@[simp] theorem isOk_throw {α} (m) : (throw m : Res α).isOk = false := rfl
@[simp] theorem isOk_ub {α} : (ub : Res α).isOk = false := rfl
@[simp] theorem isOk_outOfFuel {α} : (outOfFuel : Res α).isOk = false := rfl

theorem isOk_iff {α} {x : Res α} : x.isOk = true ↔ ∃ a, x = ok a := by
  cases x <;> simp

/-- Reading through a pointer or an index that may be missing. -/
def ofOption {α} : Option α → Res α
  | some a => ok a
  | none => ub

@[simp] theorem ofOption_some {α} (a : α) : ofOption (some a) = ok a := rfl
@[simp] theorem ofOption_none {α} : (ofOption none : Res α) = ub := rfl

end Res
end Cnars
