import Verif.Model.Client
import Verif.Spec.Block
import Verif.Spec.Text
/-
The crate as its documentation describes it, on plain bytes: a block is its bytes, a wide block the concatenation of its
blocks, and an encrypter or decrypter is nothing but its key. Of the model this uses only the list of operations
(`Client.Impl`) and the types of their arguments.
-/
namespace Aes.Client
open Rust AesSpec Fips197 Target TextSpec

/-- `Nk`, the number of words of a key (FIPS-197, Table 3). -/
def KeySize.words : KeySize → Nat
  | k128 => 4
  | k192 => 6
  | k256 => 8

/-- The `k` bytes of `v` from position `i`. -/
def part {n : Nat} (v : Bytes n) (i k : Nat) : Bytes k := Vector.ofFn fun j : Fin k => v.toList.getD (i + j.val) 0#8
/-- Apply `f` to every 16-byte block. -/
def eachBlock {n : Nat} (f : Bytes 16 → Bytes 16) (v : Bytes n) : Bytes n :=
  Vector.ofFn fun i : Fin n => (f (part v (i.val / 16 * 16) 16))[i.val % 16]
/-- Apply `f` to corresponding 16-byte blocks. -/
def eachBlock2 {n : Nat} (f : Bytes 16 → Bytes 16 → Bytes 16) (v u : Bytes n) : Bytes n :=
  Vector.ofFn fun i : Fin n => (f (part v (i.val / 16 * 16) 16) (part u (i.val / 16 * 16) 16))[i.val % 16]

/-- The binary operations. -/
def refBin {n : Nat} : BinOp → Bytes n → Bytes n → Bytes n
  | .and => andB
  | .or => orB
  | .xor => xorB
  | .enc => eachBlock2 encRound
  | .dec => eachBlock2 decRound
  | .encLast => eachBlock2 encLastRound
  | .decLast => eachBlock2 decLastRound
/-- `x = x op y`. -/
def refAssign {n : Nat} : AssignOp → Bytes n → Bytes n → Bytes n
  | .and => andB
  | .or => orB
  | .xor => xorB
/-- A chain: add the first key, then one round per further key; an empty chain panics. -/
def refChain {n : Nat} (round : Bytes n → Bytes n → Bytes n) (x : Bytes n) : List (Bytes n) → M (Bytes n)
  | [] => .error .panic
  | k0 :: ks => .ok (ks.foldl round (xorB x k0))
/-- The texts of a block. -/
def refText (alt : Bool) (b : List U8) : Style → List Char
  | .display => hexBytes alt b
  | .debug => hexBytes alt b
  | .lowerHex => (if alt then ['0', 'x'] else []) ++ hexBytes false b
  | .upperHex => (if alt then ['0', 'X'] else []) ++ hexBytes true b
  | .binary => (if alt then ['0', 'b'] else []) ++ binBytes b

/-- The reference, for a given key schedule. -/
def reference (sched : (k : KeySize) → Bytes k.bytes → Nat → Word) : Impl where
  V w := Bytes w.size
  E k := Bytes k.bytes
  D k := Bytes k.bytes
  new _ b := .ok b
  from_bytes _ b := .ok b
  from_ref _ b := .ok b
  try_from w s := .ok (if w.size ≤ s.length then .ok (Vector.ofFn fun i => s.getD i.val 0#8) else .error s.length)
  zero w := zeroB w.size
  default_ w := zeroB w.size
  into_bytes _ x := .ok x
  store_to w x dst := if w.size ≤ dst.length then .ok (x.toList ++ dst.drop w.size) else .error .panic
  is_zero w x := decide (x = zeroB w.size)
  eq _ x y := decide (x = y)
  bin _ op := refBin op
  assign _ op := refAssign op
  not _ := notB
  chain_enc _ := refChain (eachBlock2 encRound)
  chain_dec _ := refChain (eachBlock2 decRound)
  mc := mixCols
  imc := invMixCols
  from_u128 n := .ok (Vector.ofFn fun i : Fin 16 => (n >>> (8 * (15 - i.val))).setWidth 8)
  into_u128 x := .ok (BitVec.ofNat 128 (x.toList.foldl (fun acc b => 256 * acc + b.toNat) 0))
  from_pair p := (p.1 ++ p.2 : Bytes (16 + 16))
  to_pair x := (part x 0 16, part x 16 16)
  from_block2 b := (b ++ b : Bytes (16 + 16))
  from_quad p := (p.1 ++ p.2.1 ++ p.2.2.1 ++ p.2.2.2 : Bytes (16 + 16 + 16 + 16))
  to_quad x := (part x 0 16, part x 16 16, part x 32 16, part x 48 16)
  from_x2_pair p := (p.1 ++ p.2 : Bytes (32 + 32))
  to_x2_pair x := (part x 0 32, part x 32 32)
  from_block4 b := (b ++ b ++ b ++ b : Bytes (16 + 16 + 16 + 16))
  from_x2 x := (x ++ x : Bytes (32 + 32))
  format1 st o x := .ok (refText o.alternate x.toList st)
  format2 o x := .ok (tupleText o.alternate [(part x 0 16).toList, (part x 16 16).toList])
  format4 o x := .ok (tupleText o.alternate
    [(part x 0 16).toList, (part x 16 16).toList, (part x 32 16).toList, (part x 48 16).toList])
  encFrom _ key := .ok key
  decFrom _ key := .ok key
  decrypter _ key := .ok key
  encrypter _ key := .ok key
  encrypt k _ key x := .ok (eachBlock (cipher k.rounds (sched k key)) x)
  decrypt k _ key x := .ok (eachBlock (invCipher k.rounds (sched k key)) x)
  formatE k o key := .ok (cipherText o.alternate (typeName k.rounds ['E', 'n', 'c'])
    ((List.range (k.rounds + 1)).map fun r => (roundKeyBytes (sched k key) r).toList))
  formatD k o key := .ok (cipherText o.alternate (typeName k.rounds ['D', 'e', 'c'])
    ((List.range (k.rounds + 1)).map fun r => (roundKeyEIC k.rounds (sched k key) (k.rounds - r)).toList))

/-- AES: the reference with the key schedule of FIPS-197. -/
def aes : Impl := reference fun k => keyExpansion k.words

end Aes.Client
