import Verif.Spec.Block
/-
What the riscv32 backend computes where it deviates from FIPS-197, on plain bytes (C41).
-/
namespace AesSpec
open Fips197

/-- Decryption round with SHIFTROWS in place of INVSHIFTROWS. -/
def rv32DecRound (s k : Bytes 16) : Bytes 16 :=
  State.toBytes (addRoundKey (keyWords k) (invMixColumns (invSubBytes (shiftRows (State.ofBytes s)))))
/-- Final decryption round with SHIFTROWS in place of INVSHIFTROWS. -/
def rv32DecLastRound (s k : Bytes 16) : Bytes 16 :=
  State.toBytes (addRoundKey (keyWords k) (invSubBytes (shiftRows (State.ofBytes s))))
/-- MIXCOLUMNS after two SHIFTROWS. -/
def rv32Mc (s : Bytes 16) : Bytes 16 :=
  State.toBytes (mixColumns (shiftRows (shiftRows (State.ofBytes s))))
/-- INVMIXCOLUMNS after two SHIFTROWS. -/
def rv32Imc (s : Bytes 16) : Bytes 16 :=
  State.toBytes (invMixColumns (shiftRows (shiftRows (State.ofBytes s))))


/-- What riscv32 `encrypt_block` computes from the round keys `rk`: the first round key is used in a full round
instead of being added to the plaintext, and so on; the last but one is only added. -/
def rv32Cipher (nr : Nat) (rk : Nat → Bytes 16) (pt : Bytes 16) : Bytes 16 :=
  let s := ((List.range (nr - 1)).map rk).foldl encRound pt
  encLastRound (xorB s (rk (nr - 1))) (rk nr)

/-- What riscv32 `decrypt_block` computes from its round keys `rk`. -/
def rv32Decipher (nr : Nat) (rk : Nat → Bytes 16) (ct : Bytes 16) : Bytes 16 :=
  let s := ((List.range (nr - 1)).map rk).foldl rv32DecRound ct
  rv32DecLastRound (xorB s (rk (nr - 1))) (rk nr)

/-- The round keys of a riscv32 decrypter, from those of the encrypter. -/
def rv32DecKeys (nr : Nat) (rk : Nat → Bytes 16) (r : Nat) : Bytes 16 :=
  if r = 0 ∨ r = nr then rk (nr - r) else rv32Imc (rk (nr - r))

end AesSpec
