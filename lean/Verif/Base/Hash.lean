import Verif.Base.Res

/-!
# `utils/hash.h`
-/

namespace Cnars

/-- `std::size_t` on LP64. -/
abbrev Word := BitVec 64

/-- `Hash::combine` (utils/hash.h:56-60).  `std::hash` on integer types is the identity
(libstdc++); for `int` elements the value is converted to `size_t` first, i.e. sign-extended. -/
def Hash.combine (seed value : Word) : Word :=
  seed ^^^ (value + 0x9e3779b9#64 + (seed <<< 6) + (seed >>> 2))

/-- `Hash::hash_container` (utils/hash.h:45-54): the hash of a vector, set or initializer list of
integers, starting from 0. -/
def Hash.container (values : List Word) : Word :=
  values.foldl Hash.combine 0

/-- Conversion of a (negative) enumerator or `int` to `size_t`: two's complement, sign-extended. -/
def Word.ofInt (i : Int) : Word := BitVec.ofInt 64 i

namespace Hash

theorem container_nil : container [] = 0 := rfl

theorem container_append (xs ys : List Word) :
    container (xs ++ ys) = ys.foldl combine (container xs) := by
  simp [container, List.foldl_append]

/-- Combining with a fixed seed is injective in the value. -/
theorem combine_right_injective (seed : Word) {v w : Word}
    (h : combine seed v = combine seed w) : v = w := by
  unfold combine at h
  have h2 : v + 0x9e3779b9#64 + (seed <<< 6) + (seed >>> 2)
      = w + 0x9e3779b9#64 + (seed <<< 6) + (seed >>> 2) := by
    have := congrArg (fun x => seed ^^^ x) h
    simpa [← BitVec.xor_assoc] using this
  simpa [BitVec.add_left_inj] using h2

end Hash
end Cnars
