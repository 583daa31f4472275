import Verif.Narsese.Term
import Mathlib.Tactic.Common

/-!
Helper lemmas: the hashes of atoms, intervals and variables.
-/

namespace Cnars
open Term

theorem atomHash_inj {a b : Word} (h : atomHash a = atomHash b) : a = b :=
  Hash.combine_right_injective _ h

theorem ofInt_toNat_nonneg {n : Int} (h0 : 0 ≤ n) (h1 : n < 2^31) : (Word.ofInt n).toNat = n.toNat := by
  simp only [Word.ofInt, BitVec.toNat_ofInt]
  omega

theorem ofInt_inj {m n : Int} (hm : -2^31 ≤ m ∧ m < 2^31) (hn : -2^31 ≤ n ∧ n < 2^31)
    (h : Word.ofInt m = Word.ofInt n) : m = n := by
  have := congrArg BitVec.toInt h
  simp only [Word.ofInt, BitVec.toInt_ofInt] at this
  rw [Int.bmod_eq_of_le (by omega) (by omega), Int.bmod_eq_of_le (by omega) (by omega)] at this
  exact this

theorem intervalHash_inj {m n : Int} (hm : -2^31 ≤ m ∧ m < 2^31) (hn : -2^31 ≤ n ∧ n < 2^31)
    (h : intervalHash m = intervalHash n) : m = n :=
  ofInt_inj hm hn (Hash.combine_right_injective _ h)

theorem varHash_inj {j k : VarKind} (h : varHash j = varHash k) : j = k := by
  cases j <;> cases k <;> first | rfl | (exact absurd h (by decide +kernel))

/-- The seed after the type word of an atom. -/
theorem atomHash_eq (a : Word) :
    atomHash a = 0x9e3779b9#64 ^^^ (a + 0x9e3779b9#64 + 0x278dde6e40#64 + 0x278dde6e#64) := by
  have h0 : Hash.combine 0 0 = 0x9e3779b9#64 := by decide +kernel
  have h1 : 0x9e3779b9#64 <<< 6 = 0x278dde6e40#64 := by decide +kernel
  have h2 : 0x9e3779b9#64 >>> 2 = 0x278dde6e#64 := by decide +kernel
  have h3 : atomHash a = Hash.combine (Hash.combine 0 0) a := rfl
  rw [h3, h0, Hash.combine, h1, h2]

theorem intervalHash_eq (n : Int) :
    intervalHash n = 0x9e3779b8#64 ^^^
      (Word.ofInt n + 0x9e3779b9#64 + 0x278dde6e00#64 + 0x278dde6e#64) := by
  have h0 : Hash.combine 0 (Word.ofInt (-1)) = 0x9e3779b8#64 := by decide +kernel
  have h1 : 0x9e3779b8#64 <<< 6 = 0x278dde6e00#64 := by decide +kernel
  have h2 : 0x9e3779b8#64 >>> 2 = 0x278dde6e#64 := by decide +kernel
  have h3 : intervalHash n = Hash.combine (Hash.combine 0 (Word.ofInt (-1))) (Word.ofInt n) := rfl
  rw [h3, h0, Hash.combine, h1, h2]

/-- The only 64-bit address whose atom has the hash of a variable is negative as a signed number. -/
theorem atomHash_ne_varHash {a : Word} (ha : a.toNat < 2^63) (k : VarKind) :
    atomHash a ≠ varHash k := by
  intro h
  have key : ∀ b : Word, varHash k = atomHash b → 2^63 ≤ b.toNat → False := by
    intro b hb hlt
    rw [hb] at h; rw [atomHash_inj h] at ha; omega
  cases k
  · exact key 0xffffffffffffff42#64 (by decide +kernel) (by decide +kernel)
  · exact key 0xffffffffffffff41#64 (by decide +kernel) (by decide +kernel)
  · exact key 0xffffffffffffff40#64 (by decide +kernel) (by decide +kernel)

theorem intervalHash_ne_varHash {n : Int} (h0 : 0 ≤ n) (h1 : n < 2^31) (k : VarKind) :
    intervalHash n ≠ varHash k := by
  intro h
  have key : ∀ m : Int, -2^31 ≤ m ∧ m < 0 → varHash k = intervalHash m → False := by
    intro m hm hb
    rw [hb] at h
    have := intervalHash_inj (by omega) (by omega) h
    omega
  cases k
  · exact key (-127) (by omega) (by decide +kernel)
  · exact key (-126) (by omega) (by decide +kernel)
  · exact key (-129) (by omega) (by decide +kernel)

theorem xor_one_near (x : Nat) : (x ^^^ 1) ≤ x + 1 ∧ x ≤ (x ^^^ 1) + 1 := by
  have h : (x ^^^ 1) / 2 = x / 2 := by simp [Nat.xor_div_two]
  omega

theorem xor_solve {s t d x y : Word} (h : s ^^^ x = t ^^^ y) (hd : s ^^^ t = d) : x = y ^^^ d := by
  have h2 : s ^^^ (s ^^^ x) = s ^^^ (t ^^^ y) := by rw [h]
  rw [← BitVec.xor_assoc, BitVec.xor_self, BitVec.zero_xor, ← BitVec.xor_assoc, hd] at h2
  rw [h2, BitVec.xor_comm]

theorem add3_toNat (a b c d : Word) (h : a.toNat + b.toNat + c.toNat + d.toNat < 2^64) :
    (a + b + c + d).toNat = a.toNat + b.toNat + c.toNat + d.toNat := by
  simp only [BitVec.toNat_add]; omega

theorem add3_toNat_mod (a b c d : Word) :
    (a + b + c + d).toNat = (a.toNat + b.toNat + c.toNat + d.toNat) % 2^64 := by
  simp only [BitVec.toNat_add]; omega

theorem ofInt_toNat_emod (n : Int) : ((Word.ofInt n).toNat : Int) = n % 2^64 := by
  simp only [Word.ofInt, BitVec.toNat_ofInt]; omega

/-- Intervals have the hashes of low addresses only. -/
theorem atomHash_ne_intervalHash {a : Word} (h1 : 2^32 ≤ a.toNat) (h2 : a.toNat < 2^63) {n : Int}
    (hn : -2^31 ≤ n ∧ n < 2^31) : atomHash a ≠ intervalHash n := by
  intro h
  rw [atomHash_eq, intervalHash_eq] at h
  have hd : 0x9e3779b9#64 ^^^ 0x9e3779b8#64 = 1#64 := by decide +kernel
  have e := congrArg BitVec.toNat (xor_solve h hd)
  have k1 : (0x9e3779b9#64).toNat = 0x9e3779b9 := by decide
  have k2 : (0x278dde6e40#64).toNat = 0x278dde6e40 := by decide
  have k3 : (0x278dde6e#64).toNat = 0x278dde6e := by decide
  have k4 : (0x278dde6e00#64).toNat = 0x278dde6e00 := by decide
  have hl : (a + 0x9e3779b9#64 + 0x278dde6e40#64 + 0x278dde6e#64).toNat
      = a.toNat + 0x9e3779b9 + 0x278dde6e40 + 0x278dde6e := by
    rw [add3_toNat _ _ _ _ (by rw [k1, k2, k3]; omega), k1, k2, k3]
  have hr : ((Word.ofInt n + 0x9e3779b9#64 + 0x278dde6e00#64 + 0x278dde6e#64).toNat : Int)
      = n + 0x9e3779b9 + 0x278dde6e00 + 0x278dde6e := by
    have := ofInt_toNat_emod n
    rw [add3_toNat_mod, k1, k4, k3]
    omega
  rw [BitVec.toNat_xor, hl] at e
  generalize (Word.ofInt n + 0x9e3779b9#64 + 0x278dde6e00#64 + 0x278dde6e#64).toNat = y at e hr
  have near := xor_one_near y
  have hone : (1#64).toNat = 1 := by decide
  rw [hone] at e
  rw [← e] at near
  omega

end Cnars
