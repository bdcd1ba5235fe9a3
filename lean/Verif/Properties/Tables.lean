import Verif.Proofs.Table
import Verif.Proofs.Bitslice
/-!
C35: the ten lookup tables of the table-based backend; C39: the byte-parallel arithmetic of the constant-time
backend.
-/
set_option linter.unusedSimpArgs false
namespace Aes
open Rust AesSpec Fips197 Columns

/-- Four bytes as a 32-bit word, the first one most significant. -/
def be32 (a b c d : Byte) : BitVec 32 :=
  a.setWidth 32 <<< 24 ||| b.setWidth 32 <<< 16 ||| c.setWidth 32 <<< 8 ||| d.setWidth 32

/-- The big-endian bytes of a `be32` word. -/
theorem wordOf_be32 (a b c d : Byte) : wordOf .big (be32 a b c d) = mkW a b c d := by
  rw [be32, Table.or_bytes, wordOf_ofWord]
theorem be32_of {x : BitVec 32} {a b c d : Byte} (h : wordOf .big x = mkW a b c d) : x = be32 a b c d :=
  wordOf_inj (e := .big) (h.trans (wordOf_be32 a b c d).symm)

/-- C35: `TE0[b]` is the first column of the MIXCOLUMNS matrix times `SBOX(b)`, for every byte `b`
(the domain is finite and exhausted). -/
theorem C35_TE0 : ∀ b : Byte, Table.TE0[b.toNat] =
    be32 (mul 0x02 (sbox b)) (sbox b) (sbox b) (mul 0x03 (sbox b)) := fun b => be32_of (Table.te0_ent b)
/-- C35: `TE1` is the second column. -/
theorem C35_TE1 : ∀ b : Byte, Table.TE1[b.toNat] =
    be32 (mul 0x03 (sbox b)) (mul 0x02 (sbox b)) (sbox b) (sbox b) := fun b => be32_of (Table.te1_ent b)
/-- C35: `TE2` is the third column. -/
theorem C35_TE2 : ∀ b : Byte, Table.TE2[b.toNat] =
    be32 (sbox b) (mul 0x03 (sbox b)) (mul 0x02 (sbox b)) (sbox b) := fun b => be32_of (Table.te2_ent b)
/-- C35: `TE3` is the fourth column. -/
theorem C35_TE3 : ∀ b : Byte, Table.TE3[b.toNat] =
    be32 (sbox b) (sbox b) (mul 0x03 (sbox b)) (mul 0x02 (sbox b)) := fun b => be32_of (Table.te3_ent b)
/-- C35: `TE4` is the S-box in all four bytes. -/
theorem C35_TE4 : ∀ b : Byte, Table.TE4[b.toNat] = be32 (sbox b) (sbox b) (sbox b) (sbox b) := fun b => be32_of (Table.te4_ent b)
/-- C35: `TD0[b]` is the first column of the INVMIXCOLUMNS matrix times `INVSBOX(b)`. -/
theorem C35_TD0 : ∀ b : Byte, Table.TD0[b.toNat] =
    be32 (mul 0x0e (invSbox b)) (mul 0x09 (invSbox b)) (mul 0x0d (invSbox b)) (mul 0x0b (invSbox b)) := fun b => be32_of (Table.td0_ent b)
/-- C35: `TD1` is the second column. -/
theorem C35_TD1 : ∀ b : Byte, Table.TD1[b.toNat] =
    be32 (mul 0x0b (invSbox b)) (mul 0x0e (invSbox b)) (mul 0x09 (invSbox b)) (mul 0x0d (invSbox b)) := fun b => be32_of (Table.td1_ent b)
/-- C35: `TD2` is the third column. -/
theorem C35_TD2 : ∀ b : Byte, Table.TD2[b.toNat] =
    be32 (mul 0x0d (invSbox b)) (mul 0x0b (invSbox b)) (mul 0x0e (invSbox b)) (mul 0x09 (invSbox b)) := fun b => be32_of (Table.td2_ent b)
/-- C35: `TD3` is the fourth column. -/
theorem C35_TD3 : ∀ b : Byte, Table.TD3[b.toNat] =
    be32 (mul 0x09 (invSbox b)) (mul 0x0d (invSbox b)) (mul 0x0b (invSbox b)) (mul 0x0e (invSbox b)) := fun b => be32_of (Table.td3_ent b)
/-- C35: `TD4` is the inverse S-box in all four bytes. -/
theorem C35_TD4 : ∀ b : Byte, Table.TD4[b.toNat] =
    be32 (invSbox b) (invSbox b) (invSbox b) (invSbox b) := fun b => be32_of (Table.td4_ent b)

/-- C39: `subbytes` of the constant-time backend is the S-box on each of the 16 bytes of the state, whatever
the other bytes are, in either endianness. -/
theorem C39_subbytes (e : Endian) (s : Bytes 16) :
    toNe e 16 (Bitslice.subbytes (fromNe e 128 s)) = s.map sbox := by
  apply Vector.ext; intro i hi
  rw [Bitslice.getElem_toNe e _ i hi, Vector.getElem_map]
  have := Bitslice.byte_subbytes e (fromNe e 128 s) i hi
  rw [Bitslice.byte_fromNe e i s hi] at this
  exact this
/-- C39: `invsubbytes` is the inverse S-box on each byte. -/
theorem C39_invsubbytes (e : Endian) (s : Bytes 16) :
    toNe e 16 (Bitslice.invsubbytes (fromNe e 128 s)) = s.map invSbox := by
  apply Vector.ext; intro i hi
  rw [Bitslice.getElem_toNe e _ i hi, Vector.getElem_map]
  have := Bitslice.byte_invsubbytes e (fromNe e 128 s) i hi
  rw [Bitslice.byte_fromNe e i s hi] at this
  exact this
/-- C39: `xtime` multiplies each byte by `x`, although it works by a 128-bit subtraction. -/
theorem C39_xtime (e : Endian) (s : Bytes 16) :
    toNe e 16 (Bitslice.xtime (fromNe e 128 s)) = s.map xtimes := by
  apply Vector.ext; intro i hi
  rw [Bitslice.getElem_toNe e _ i hi, Vector.getElem_map]
  have := Bitslice.byte_xtime e (fromNe e 128 s) i hi
  rw [Bitslice.byte_fromNe e i s hi] at this
  exact this
/-- C39: `mixcolumns` is MIXCOLUMNS. -/
theorem C39_mixcolumns (e : Endian) (s : Bytes 16) :
    toNe e 16 (Bitslice.mixcolumns e (fromNe e 128 s)) = mixCols s := by
  apply Vector.ext; intro i hi
  rw [Bitslice.getElem_toNe e _ i hi]
  have := Bitslice.byte_mixcolumns e (fromNe e 128 s) i hi
  simp only [toNe_fromNe e 128 s (by omega)] at this
  exact this
/-- C39: `invmixcolumns` is INVMIXCOLUMNS. -/
theorem C39_invmixcolumns (e : Endian) (s : Bytes 16) :
    toNe e 16 (Bitslice.invmixcolumns e (fromNe e 128 s)) = invMixCols s := by
  apply Vector.ext; intro i hi
  rw [Bitslice.getElem_toNe e _ i hi]
  have := Bitslice.byte_invmixcolumns e (fromNe e 128 s) i hi
  simp only [toNe_fromNe e 128 s (by omega)] at this
  exact this
/-- C39: `shiftrows` is SHIFTROWS. -/
theorem C39_shiftrows (e : Endian) (s : Bytes 16) :
    toNe e 16 (Bitslice.shiftrows e s) = State.toBytes (shiftRows (State.ofBytes s)) := by
  rw [Bitslice.shiftrows_fn, toNe_fromNe e 128 _ (by omega)]
/-- C39: `invshiftrows` is INVSHIFTROWS. -/
theorem C39_invshiftrows (e : Endian) (s : Bytes 16) :
    toNe e 16 (Bitslice.invshiftrows e s) = State.toBytes (invShiftRows (State.ofBytes s)) := by
  rw [Bitslice.invshiftrows_fn, toNe_fromNe e 128 _ (by omega)]
/-- C39: `sub_word` (key schedule) is the S-box on each of the 4 bytes of a word. -/
theorem C39_sub_word (x : U32) (i : Nat) (hi : i < 4) :
    (Bitslice.sub_word x).extractLsb' (8 * i) 8 = sbox (x.extractLsb' (8 * i) 8) := by
  have h := Bitslice.lane_subbytes (x.setWidth 128) i (by omega)
  have e1 : (Bitslice.sub_word x).extractLsb' (8 * i) 8 = Bitslice.lane (Bitslice.subbytes (x.setWidth 128)) i := by
    apply BitVec.eq_of_getLsbD_eq; intro j hj
    simp [Bitslice.sub_word, Bitslice.lane, BitVec.getLsbD_extractLsb', hj]
    intro; omega
  have e2 : Bitslice.lane (x.setWidth 128) i = x.extractLsb' (8 * i) 8 := by
    apply BitVec.eq_of_getLsbD_eq; intro j hj
    simp [Bitslice.lane, BitVec.getLsbD_extractLsb', hj]
    intro; omega
  rw [e1, h, e2]

/-- The specification of the S-box gives the published values (FIPS-197 Table 4: SBOX({53}) = {ed}). -/
example : sbox 0x53 = 0xed ∧ sbox 0x00 = 0x63 ∧ invSbox 0xed = 0x53 ∧ Table.TE0[0x53] = 0xc1eded2c := by decide +kernel

end Aes
