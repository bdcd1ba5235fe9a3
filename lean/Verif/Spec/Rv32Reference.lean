import Verif.Spec.Reference
import Verif.Spec.Rv32
import Verif.Spec.KeyVariants
/-
What a riscv32 (`zkne`, `zknd`) build of the crate is, on plain bytes: `reference` with the deviations of C41. An encrypter or
decrypter is its list of round keys, since converting one into the other and back does not give the first one again.
-/
namespace Aes.Client
open Rust AesSpec Fips197 Target TextSpec

/-- The key schedules of riscv32: ROTWORD is missing (for 256-bit keys only in the last group). -/
def rv32Sched : (k : KeySize) → Bytes k.bytes → Nat → Word
  | .k128 => keyExpansionWith (norotTemp 4) 4
  | .k192 => keyExpansionWith (norotTemp 6) 6
  | .k256 => keyExpansionWith norotTemp256 8

/-- The binary operations: the two decryption rounds deviate. -/
def rv32Bin {n : Nat} : BinOp → Bytes n → Bytes n → Bytes n
  | .dec => eachBlock2 rv32DecRound
  | .decLast => eachBlock2 rv32DecLastRound
  | op => refBin op
/-- A chain: a round per key but the last, which is only added; an empty chain panics. -/
def rv32Chain {n : Nat} (round : Bytes n → Bytes n → Bytes n) (x : Bytes n) : List (Bytes n) → M (Bytes n)
  | [] => .error .panic
  | k0 :: ks => .ok (xorB ((k0 :: ks).dropLast.foldl round x) ((k0 :: ks).getLast (by simp)))
/-- Round keys by number. -/
def keyAt {n : Nat} (ks : Vector (Bytes 16) n) (r : Nat) : Bytes 16 := ks.toList.getD r (zeroB 16)
/-- Reversed, with `f` applied to the inner ones: what conversions between encrypters and decrypters do. -/
def turned (f : Bytes 16 → Bytes 16) {nr : Nat} (ks : Vector (Bytes 16) (nr + 1)) : Vector (Bytes 16) (nr + 1) :=
  Vector.ofFn fun r : Fin (nr + 1) => if r.val = 0 ∨ r.val = nr then keyAt ks (nr - r.val) else f (keyAt ks (nr - r.val))

/-- The round keys of a fresh encrypter. -/
def rv32Keys (k : KeySize) (key : Bytes k.bytes) : Vector (Bytes 16) (k.rounds + 1) :=
  Vector.ofFn fun r : Fin (k.rounds + 1) => roundKeyBytes (rv32Sched k key) r.val

/-- The reference for riscv32. -/
def rv32 : Impl where
  V w := Bytes w.size
  E k := Vector (Bytes 16) (k.rounds + 1)
  D k := Vector (Bytes 16) (k.rounds + 1)
  new := aes.new
  from_bytes := aes.from_bytes
  from_ref := aes.from_ref
  try_from := aes.try_from
  zero := aes.zero
  default_ := aes.default_
  into_bytes := aes.into_bytes
  store_to := aes.store_to
  is_zero := aes.is_zero
  eq := aes.eq
  bin _ op := rv32Bin op
  assign := aes.assign
  not := aes.not
  chain_enc _ := rv32Chain (eachBlock2 encRound)
  chain_dec _ := rv32Chain (eachBlock2 rv32DecRound)
  mc := rv32Mc
  imc := rv32Imc
  from_u128 := aes.from_u128
  into_u128 := aes.into_u128
  from_pair := aes.from_pair
  to_pair := aes.to_pair
  from_block2 := aes.from_block2
  from_quad := aes.from_quad
  to_quad := aes.to_quad
  from_x2_pair := aes.from_x2_pair
  to_x2_pair := aes.to_x2_pair
  from_block4 := aes.from_block4
  from_x2 := aes.from_x2
  format1 := aes.format1
  format2 := aes.format2
  format4 := aes.format4
  encFrom k key := .ok (rv32Keys k key)
  decFrom k key := .ok (turned rv32Imc (rv32Keys k key))
  decrypter _ e := .ok (turned rv32Imc e)
  encrypter _ d := .ok (turned rv32Mc d)
  encrypt k _ e x := .ok (eachBlock (rv32Cipher k.rounds (keyAt e)) x)
  decrypt k _ d x := .ok (eachBlock (rv32Decipher k.rounds (keyAt d)) x)
  formatE k o e := .ok (cipherText o.alternate (typeName k.rounds ['E', 'n', 'c']) (e.toList.map (·.toList)))
  formatD k o d := .ok (cipherText o.alternate (typeName k.rounds ['D', 'e', 'c']) (d.toList.map (·.toList)))

end Aes.Client
