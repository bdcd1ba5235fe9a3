import Verif.Rust
import Verif.Spec.Fips197
/-
Semantics of the RISC-V scalar-crypto AES instructions (Zknd, Zkne), transcribed from the Sail code in the
RISC-V Scalar Cryptography specification. Part of the trusted base. `#v[b0, b1, ..]` lists bytes from the
least significant one (the Sail text concatenates from the most significant one).
-/
namespace IsaRiscv
open Rust Fips197

/-- Sail `getbyte(x, i)`. -/
def getbyte {w : Nat} (x : BitVec w) (i : Nat) : U8 := x.extractLsb' (8 * i) 8

/-! ### RV64 -/

/-- Sail `aes_rv64_shiftrows_fwd(rs2, rs1)`, the bytes in increasing significance. -/
def shiftrows_fwd (rs1 rs2 : U64) : Vector U8 8 :=
  #v[getbyte rs1 0, getbyte rs1 5, getbyte rs2 2, getbyte rs2 7,
     getbyte rs1 4, getbyte rs2 1, getbyte rs2 6, getbyte rs1 3]
/-- Sail `aes_rv64_shiftrows_inv(rs2, rs1)`, the bytes in increasing significance. -/
def shiftrows_inv (rs1 rs2 : U64) : Vector U8 8 :=
  #v[getbyte rs1 0, getbyte rs2 5, getbyte rs2 2, getbyte rs1 7,
     getbyte rs1 4, getbyte rs1 1, getbyte rs2 6, getbyte rs2 3]
/-- Sail `aes_mixcolumn_fwd` on the four bytes of a column. -/
def mixcolumn_fwd (s0 s1 s2 s3 : U8) : Vector U8 4 :=
  #v[mul 0x02 s0 ^^^ mul 0x03 s1 ^^^ s2 ^^^ s3,
     s0 ^^^ mul 0x02 s1 ^^^ mul 0x03 s2 ^^^ s3,
     s0 ^^^ s1 ^^^ mul 0x02 s2 ^^^ mul 0x03 s3,
     mul 0x03 s0 ^^^ s1 ^^^ s2 ^^^ mul 0x02 s3]
/-- Sail `aes_mixcolumn_inv` on the four bytes of a column. -/
def mixcolumn_inv (s0 s1 s2 s3 : U8) : Vector U8 4 :=
  #v[mul 0x0e s0 ^^^ mul 0x0b s1 ^^^ mul 0x0d s2 ^^^ mul 0x09 s3,
     mul 0x09 s0 ^^^ mul 0x0e s1 ^^^ mul 0x0b s2 ^^^ mul 0x0d s3,
     mul 0x0d s0 ^^^ mul 0x09 s1 ^^^ mul 0x0e s2 ^^^ mul 0x0b s3,
     mul 0x0b s0 ^^^ mul 0x0d s1 ^^^ mul 0x09 s2 ^^^ mul 0x0e s3]
/-- Both columns of a doubleword through a column function. -/
def columns2 (f : U8 → U8 → U8 → U8 → Vector U8 4) (b : Vector U8 8) : Vector U8 8 :=
  f b[0] b[1] b[2] b[3] ++ f b[4] b[5] b[6] b[7]

/-- `aes64es rd, rs1, rs2`. -/
def aes64es (rs1 rs2 : U64) : U64 := fromLe 64 ((shiftrows_fwd rs1 rs2).map sbox)
/-- `aes64esm rd, rs1, rs2`. -/
def aes64esm (rs1 rs2 : U64) : U64 :=
  fromLe 64 (columns2 mixcolumn_fwd ((shiftrows_fwd rs1 rs2).map sbox))
/-- `aes64ds rd, rs1, rs2`. -/
def aes64ds (rs1 rs2 : U64) : U64 := fromLe 64 ((shiftrows_inv rs1 rs2).map invSbox)
/-- `aes64dsm rd, rs1, rs2`. -/
def aes64dsm (rs1 rs2 : U64) : U64 :=
  fromLe 64 (columns2 mixcolumn_inv ((shiftrows_inv rs1 rs2).map invSbox))
/-- `aes64im rd, rs1`. -/
def aes64im (rs1 : U64) : U64 := fromLe 64 (columns2 mixcolumn_inv (toLe 8 rs1))

/-- Sail `aes_decode_rcon`. -/
def decode_rcon (rnum : Nat) : U32 :=
  [0x01#32, 0x02#32, 0x04#32, 0x08#32, 0x10#32, 0x20#32, 0x40#32, 0x80#32, 0x1b#32, 0x36#32].getD rnum 0#32
/-- Sail `aes_subword_fwd`. -/
def subword_fwd (x : U32) : U32 := fromLe 32 ((toLe 4 x).map sbox)
/-- `aes64ks1i rd, rs1, rnum` (`rnum ≤ 10`). -/
def aes64ks1i (rs1 : U64) (rnum : Nat) : U64 :=
  let tmp1 : U32 := rs1.extractLsb' 32 32
  let tmp2 := if rnum = 10 then tmp1 else tmp1.rotateRight 8
  let tmp3 := subword_fwd tmp2
  let r := tmp3 ^^^ decode_rcon rnum
  r ++ r
/-- `aes64ks2 rd, rs1, rs2`. -/
def aes64ks2 (rs1 rs2 : U64) : U64 :=
  let hi1 : U32 := rs1.extractLsb' 32 32
  let w0 := hi1 ^^^ rs2.extractLsb' 0 32
  let w1 := hi1 ^^^ rs2.extractLsb' 0 32 ^^^ rs2.extractLsb' 32 32
  w1 ++ w0

/-! ### RV32 -/

/-- Sail `aes_mixcolumn_byte_fwd`: the column contributed by one byte. -/
def mixcolumn_byte_fwd (so : U8) : U32 := fromLe 32 #v[mul 0x02 so, so, so, mul 0x03 so]
/-- Sail `aes_mixcolumn_byte_inv`. -/
def mixcolumn_byte_inv (so : U8) : U32 :=
  fromLe 32 #v[mul 0x0e so, mul 0x09 so, mul 0x0d so, mul 0x0b so]

/-- `aes32esi rd, rs1, rs2, bs` (`bs < 4`). -/
def aes32esi (rs1 rs2 : U32) (bs : Nat) : U32 :=
  rs1 ^^^ ((sbox (getbyte rs2 bs)).setWidth 32).rotateLeft (8 * bs)
/-- `aes32esmi`. -/
def aes32esmi (rs1 rs2 : U32) (bs : Nat) : U32 :=
  rs1 ^^^ (mixcolumn_byte_fwd (sbox (getbyte rs2 bs))).rotateLeft (8 * bs)
/-- `aes32dsi`. -/
def aes32dsi (rs1 rs2 : U32) (bs : Nat) : U32 :=
  rs1 ^^^ ((invSbox (getbyte rs2 bs)).setWidth 32).rotateLeft (8 * bs)
/-- `aes32dsmi`. -/
def aes32dsmi (rs1 rs2 : U32) (bs : Nat) : U32 :=
  rs1 ^^^ (mixcolumn_byte_inv (invSbox (getbyte rs2 bs))).rotateLeft (8 * bs)

end IsaRiscv
