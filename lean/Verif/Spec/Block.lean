import Verif.Spec.Fips197
/-
Specification of the block-level operations of the public API, on plain bytes. Imports only the FIPS-197
transcription, nothing of the model of the code.
-/
namespace AesSpec
open Fips197

/-- `n` bytes. -/
abbrev Bytes (n : Nat) := Vector Byte n

/-- Bytes as four key words: word `c` is `k[4c..4c+3]`. -/
def keyWords (k : Bytes 16) : Fin 4 → Word := fun c r => k[4 * c.val + r.val]

/-- One FIPS-197 encryption round (ShiftRows, SubBytes, MixColumns, AddRoundKey). -/
def encRound (s k : Bytes 16) : Bytes 16 :=
  State.toBytes (addRoundKey (keyWords k) (mixColumns (shiftRows (subBytes (State.ofBytes s)))))
/-- The final encryption round (no MixColumns). -/
def encLastRound (s k : Bytes 16) : Bytes 16 :=
  State.toBytes (addRoundKey (keyWords k) (shiftRows (subBytes (State.ofBytes s))))
/-- One round of the equivalent inverse cipher
(InvShiftRows, InvSubBytes, InvMixColumns, AddRoundKey; FIPS-197 section 5.3.5). -/
def decRound (s k : Bytes 16) : Bytes 16 :=
  State.toBytes (addRoundKey (keyWords k) (invMixColumns (invSubBytes (invShiftRows (State.ofBytes s)))))
/-- The final decryption round (no InvMixColumns). -/
def decLastRound (s k : Bytes 16) : Bytes 16 :=
  State.toBytes (addRoundKey (keyWords k) (invSubBytes (invShiftRows (State.ofBytes s))))
/-- MixColumns on bytes. -/
def mixCols (s : Bytes 16) : Bytes 16 := State.toBytes (mixColumns (State.ofBytes s))
/-- InvMixColumns on bytes. -/
def invMixCols (s : Bytes 16) : Bytes 16 := State.toBytes (invMixColumns (State.ofBytes s))

/-- Round key `r` of a FIPS-197 key schedule `w`, as bytes: words `w[4r], ..., w[4r+3]` one after the other. -/
def roundKeyBytes (w : Nat → Word) (r : Nat) : Bytes 16 :=
  Vector.ofFn fun i : Fin 16 => w (4 * r + i.val / 4) ⟨i.val % 4, by omega⟩

/-- Round key `r` of the equivalent inverse cipher (FIPS-197 section 5.3.5, KEYEXPANSIONEIC): the same
words, with INVMIXCOLUMNS applied to all but the first and the last round key. -/
def roundKeyEIC (nr : Nat) (w : Nat → Word) (r : Nat) : Bytes 16 :=
  if r = 0 ∨ r = nr then roundKeyBytes w r else invMixCols (roundKeyBytes w r)

/-- Bytewise and. -/
def andB {n : Nat} (a b : Bytes n) : Bytes n := Vector.zipWith (fun x y => x &&& y) a b
/-- Bytewise or. -/
def orB {n : Nat} (a b : Bytes n) : Bytes n := Vector.zipWith (fun x y => x ||| y) a b
/-- Bytewise xor. -/
def xorB {n : Nat} (a b : Bytes n) : Bytes n := Vector.zipWith (fun x y => x ^^^ y) a b
/-- Bytewise complement. -/
def notB {n : Nat} (a : Bytes n) : Bytes n := a.map (fun x => ~~~x)
/-- All-zero bytes. -/
def zeroB (n : Nat) : Bytes n := Vector.replicate n 0#8

end AesSpec
