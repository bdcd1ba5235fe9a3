import Verif.Proofs.Eval
import Verif.Proofs.Table
import Verif.Spec.Rv32
/-!
Faster versions of the specification's functions (S-box by table lookup, constants as shifts), proved equal to them: only used to let the
kernel run concrete instances.
-/
namespace Aes
open Rust AesSpec Fips197 Columns
set_option maxRecDepth 100000

/-- S-box by lookup. -/
def sboxT (b : Byte) : Byte := (Table.TE4[b.toNat]).setWidth 8
theorem sbox_fast : (Fips197.sbox : Byte → Byte) = sboxT := by
  funext b
  have h : mkW (sbox b) (sbox b) (sbox b) (sbox b) 3 = wordOf .big (Table.TE4[b.toNat]) 3 := congrFun (Table.te4_ent b).symm 3
  have h2 : sbox b = wordOf .big (Table.TE4[b.toNat]) 3 := h
  rw [h2, sboxT]
  generalize Table.TE4[b.toNat] = x
  simp only [wordOf, toNe]
  simp only [toBe, toLe, Vector.getElem_reverse, Vector.getElem_ofFn]
  apply BitVec.eq_of_toNat_eq
  simp

def subWordT (w : Word) : Word := fun i => sboxT (w i)
theorem subWord_fast : subWord = subWordT := by funext w; unfold subWord subWordT; rw [sbox_fast]
def stdTempT (nk i : Nat) (temp : Word) : Word :=
  if i % nk = 0 then Word.add (subWordT (rotWord temp)) (rcon (i / nk))
  else if nk > 6 ∧ i % nk = 4 then subWordT temp
  else temp
theorem stdTemp_fast : stdTemp = stdTempT := by funext nk i w; unfold stdTemp stdTempT; rw [subWord_fast]
def bigTempT (nk i : Nat) (temp : Word) : Word :=
  if i % nk = 0 then Word.add (subWordT (rotWordInv temp)) (rconBig (i / nk))
  else if nk > 6 ∧ i % nk = 4 then subWordT temp
  else temp
theorem bigTemp_fast : bigTemp = bigTempT := by funext nk i w; unfold bigTemp bigTempT; rw [subWord_fast]
def norotTempT (nk i : Nat) (temp : Word) : Word :=
  if i % nk = 0 then Word.add (subWordT temp) (rcon (i / nk)) else temp
theorem norotTemp_fast : norotTemp = norotTempT := by funext nk i w; unfold norotTemp norotTempT; rw [subWord_fast]
def norotTemp256T (i : Nat) (temp : Word) : Word :=
  if i = 56 then Word.add (subWordT temp) (rcon 7) else stdTempT 8 i temp
theorem norotTemp256_fast : norotTemp256 = norotTemp256T := by
  funext i w; unfold norotTemp256 norotTemp256T; rw [subWord_fast, stdTemp_fast]




/-- The state after SUBBYTES and SHIFTROWS, as sixteen bytes. -/
def subShiftT (s : Bytes 16) : Bytes 16 :=
  #v[sboxT s[0], sboxT s[5], sboxT s[10], sboxT s[15], sboxT s[4], sboxT s[9], sboxT s[14], sboxT s[3],
     sboxT s[8], sboxT s[13], sboxT s[2], sboxT s[7], sboxT s[12], sboxT s[1], sboxT s[6], sboxT s[11]]
def mixByteT (a b c d k : Byte) : Byte := xtimes a ^^^ (xtimes b ^^^ b) ^^^ c ^^^ d ^^^ k
def mixT (v k : Bytes 16) : Bytes 16 :=
  #v[mixByteT v[0] v[1] v[2] v[3] k[0], mixByteT v[1] v[2] v[3] v[0] k[1], mixByteT v[2] v[3] v[0] v[1] k[2], mixByteT v[3] v[0] v[1] v[2] k[3],
     mixByteT v[4] v[5] v[6] v[7] k[4], mixByteT v[5] v[6] v[7] v[4] k[5], mixByteT v[6] v[7] v[4] v[5] k[6], mixByteT v[7] v[4] v[5] v[6] k[7],
     mixByteT v[8] v[9] v[10] v[11] k[8], mixByteT v[9] v[10] v[11] v[8] k[9], mixByteT v[10] v[11] v[8] v[9] k[10], mixByteT v[11] v[8] v[9] v[10] k[11],
     mixByteT v[12] v[13] v[14] v[15] k[12], mixByteT v[13] v[14] v[15] v[12] k[13], mixByteT v[14] v[15] v[12] v[13] k[14], mixByteT v[15] v[12] v[13] v[14] k[15]]
def encRoundT (s k : Bytes 16) : Bytes 16 := mixT (subShiftT s) k
def encLastRoundT (s k : Bytes 16) : Bytes 16 := xorB (subShiftT s) k

theorem encRound_fast : encRound = encRoundT := by
  funext s k
  apply Vector.ext; intro i hi
  unfold encRound encRoundT
  simp only [State.toBytes, Vector.getElem_ofFn, addRoundKey, mixColumns, mul_02, mul_03, shiftRows, subBytes, sbox_fast, State.ofBytes]
  rcases (show i = 0 ∨ i = 1 ∨ i = 2 ∨ i = 3 ∨ i = 4 ∨ i = 5 ∨ i = 6 ∨ i = 7 ∨ i = 8 ∨ i = 9 ∨ i = 10 ∨ i = 11 ∨ i = 12 ∨
    i = 13 ∨ i = 14 ∨ i = 15 by omega) with h | h | h | h | h | h | h | h | h | h | h | h | h | h | h | h <;> subst h <;> rfl
theorem encLastRound_fast : encLastRound = encLastRoundT := by
  funext s k
  apply Vector.ext; intro i hi
  unfold encLastRound encLastRoundT
  simp only [State.toBytes, Vector.getElem_ofFn, addRoundKey, shiftRows, subBytes, sbox_fast, State.ofBytes, xorB, Vector.getElem_zipWith]
  rcases (show i = 0 ∨ i = 1 ∨ i = 2 ∨ i = 3 ∨ i = 4 ∨ i = 5 ∨ i = 6 ∨ i = 7 ∨ i = 8 ∨ i = 9 ∨ i = 10 ∨ i = 11 ∨ i = 12 ∨
    i = 13 ∨ i = 14 ∨ i = 15 by omega) with h | h | h | h | h | h | h | h | h | h | h | h | h | h | h | h <;> subst h <;> rfl

/-- Inverse S-box by lookup. -/
def invSboxT (b : Byte) : Byte := (Table.TD4[b.toNat]).setWidth 8
theorem invSbox_fast : (Fips197.invSbox : Byte → Byte) = invSboxT := by
  funext b
  have h : mkW (invSbox b) (invSbox b) (invSbox b) (invSbox b) 3 = wordOf .big (Table.TD4[b.toNat]) 3 := congrFun (Table.td4_ent b).symm 3
  have h2 : invSbox b = wordOf .big (Table.TD4[b.toNat]) 3 := h
  rw [h2, invSboxT]
  generalize Table.TD4[b.toNat] = x
  simp only [wordOf, toNe]
  simp only [toBe, toLe, Vector.getElem_reverse, Vector.getElem_ofFn]
  apply BitVec.eq_of_toNat_eq
  simp
def invSubBytesT (s : State) : State := fun r c => invSboxT (s r c)
theorem invSubBytes_fast : invSubBytes = invSubBytesT := by funext s; unfold invSubBytes invSubBytesT; rw [invSbox_fast]
def rv32DecRoundT (s k : Bytes 16) : Bytes 16 :=
  State.toBytes (addRoundKey (keyWords k) (invMixColumns (invSubBytesT (shiftRows (State.ofBytes s)))))
def rv32DecLastRoundT (s k : Bytes 16) : Bytes 16 :=
  State.toBytes (addRoundKey (keyWords k) (invSubBytesT (shiftRows (State.ofBytes s))))
theorem rv32DecRound_fast : rv32DecRound = rv32DecRoundT := by funext s k; unfold rv32DecRound rv32DecRoundT; rw [invSubBytes_fast]
theorem rv32DecLastRound_fast : rv32DecLastRound = rv32DecLastRoundT := by
  funext s k; unfold rv32DecLastRound rv32DecLastRoundT; rw [invSubBytes_fast]
end Aes
