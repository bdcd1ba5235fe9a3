import Verif.Spec.Diff
/-
Sums over sets of blocks (C68). Imports nothing of the model of the code.
-/
namespace AesSpec

/-- The XOR of all the blocks. -/
def xorAll (l : List (Bytes 16)) : Bytes 16 := l.foldr xorB (zeroB 16)

/-- With every block the list contains all blocks that differ from it at most in the bytes `P`. -/
def VariesIn (P : Fin 16 → Prop) (l : List (Bytes 16)) : Prop := ∀ x ∈ l, ∀ y : Bytes 16, (∀ j : Fin 16, ¬ P j → y[j] = x[j]) → y ∈ l

/-- The bytes that SHIFTROWS moves to column `c`. -/
def diagonal (c : Nat) (j : Fin 16) : Prop := (columnOf j + 4 - rowOf j) % 4 = c
/-- The bytes that INVSHIFTROWS moves to column `c`. -/
def antidiagonal (c : Nat) (j : Fin 16) : Prop := (columnOf j + rowOf j) % 4 = c

/-- The 256 values of a byte. -/
def byteValues : List (BitVec 8) := (List.range 256).map (BitVec.ofNat 8)
/-- The 256 blocks that agree with `x` except, perhaps, in byte `i`. -/
def varyByte (x : Bytes 16) (i : Fin 16) : List (Bytes 16) := byteValues.map fun v => x.set i v

end AesSpec
