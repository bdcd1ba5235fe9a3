import Verif.Proofs.Lanes
import Verif.Proofs.Gf
/-! `subbytes`/`invsubbytes` of the bit-sliced code act as the S-box on each of the sixteen byte lanes.
The 128-bit code is cut into stages; each stage has a byte "shadow"; the composition of the shadows is
compared with the S-box on all 256 bytes. -/
namespace Aes.Bitslice
open Rust

/-! ### more lane rules -/
theorem lane_shl_xor_and (x z : U128) (m : U8) (s j : Nat) (hs : s < 8) (hj : j < 16)
    (hm : ∀ i, i < s → m.getLsbD i = false) :
    lane (((x <<< s) ^^^ z) &&& rep m) j = ((lane x j <<< s) ^^^ lane z j) &&& m := by
  rw [show ((x <<< s) ^^^ z) &&& rep m = ((x <<< s) &&& rep m) ^^^ (z &&& rep m) by
    apply BitVec.eq_of_getLsbD_eq; intro i hi
    simp only [BitVec.getLsbD_and, BitVec.getLsbD_xor, Bool.and_xor_distrib_right]]
  rw [lane_xor, lane_shl_and hs hj (by rw [lane_rep m j hj]; exact hm), lane_and, lane_rep m j hj]
  apply BitVec.eq_of_getLsbD_eq; intro i hi
  simp only [BitVec.getLsbD_and, BitVec.getLsbD_xor, Bool.and_xor_distrib_right]

theorem lane_xor_shr_and (x z : U128) (m : U8) (s j : Nat) (hs : s < 8) (hj : j < 16)
    (hm : ∀ i, i < 8 → 8 - s ≤ i → m.getLsbD i = false) :
    lane ((z ^^^ (x >>> s)) &&& rep m) j = (lane z j ^^^ (lane x j >>> s)) &&& m := by
  rw [show (z ^^^ (x >>> s)) &&& rep m = (z &&& rep m) ^^^ ((x >>> s) &&& rep m) by
    apply BitVec.eq_of_getLsbD_eq; intro i hi
    simp only [BitVec.getLsbD_and, BitVec.getLsbD_xor, Bool.and_xor_distrib_right]]
  rw [lane_xor, lane_shr_and hs (by rw [lane_rep m j hj]; exact hm), lane_and, lane_rep m j hj]
  apply BitVec.eq_of_getLsbD_eq; intro i hi
  simp only [BitVec.getLsbD_and, BitVec.getLsbD_xor, Bool.and_xor_distrib_right]

/-! ### stages, on words and on bytes -/
def comb (s t : U128) : U128 :=
  (s ^^^ (((t <<< 2) ^^^ t) &&& rep 0xcc)) ^^^ step_b ((s &&& rep 0xcc) >>> 2) (rep 0x22)
def comb_8 (s t : U8) : U8 :=
  (s ^^^ (((t <<< 2) ^^^ t) &&& (0xcc : U8))) ^^^ step_b_8 ((s &&& (0xcc : U8)) >>> 2) 0x22
theorem lane_comb (s t : U128) (j : Nat) (hj : j < 16) : lane (comb s t) j = comb_8 (lane s j) (lane t j) := by
  unfold comb comb_8
  rw [lane_xor, lane_xor, lane_shl_xor_and _ _ _ _ _ (by omega) hj (by decide), lane_step_b _ _ _ hj (by decide),
    lane_mask_shr _ _ _ _ (by omega) hj (by decide)]

def fold4 (x : U128) : U128 := x ^^^ ((x &&& rep 0xf0) >>> 4)
def fold4_8 (x : U8) : U8 := x ^^^ ((x &&& (0xf0 : U8)) >>> 4)
theorem lane_fold4 (x : U128) (j : Nat) (hj : j < 16) : lane (fold4 x) j = fold4_8 (lane x j) := by
  unfold fold4 fold4_8
  rw [lane_xor, lane_mask_shr _ _ _ _ (by omega) hj (by decide)]

def norm4 (a3 : U128) : U128 :=
  let a5 := step_b a3 (rep 0xa0)
  (a3 ^^^ ((((a5 &&& rep 0xc0) ^^^ ((a5 <<< 2) &&& rep 0xc0))
    ||| step_b ((a5 &&& rep 0xc0) >>> 2) (rep 0x20)) >>> 4)) &&& rep 0x0f
def norm4_8 (a3 : U8) : U8 :=
  let a5 := step_b_8 a3 0xa0
  (a3 ^^^ ((((a5 &&& (0xc0 : U8)) ^^^ ((a5 <<< 2) &&& (0xc0 : U8)))
    ||| step_b_8 ((a5 &&& (0xc0 : U8)) >>> 2) 0x20) >>> 4)) &&& (0x0f : U8)
theorem lane_norm4 (x : U128) (j : Nat) (hj : j < 16) : lane (norm4 x) j = norm4_8 (lane x j) := by
  unfold norm4 norm4_8
  simp only []
  rw [lane_xor_shr_and _ _ _ _ _ (by omega) hj (by decide), lane_or, lane_xor, lane_and,
    lane_shl_and (by omega) hj (by rw [lane_rep _ j hj]; decide), lane_step_b _ _ _ hj (by decide),
    lane_step_b _ _ _ hj (by decide),
    lane_mask_shr _ _ _ _ (by omega) hj (by decide), lane_step_b _ _ _ hj (by decide), lane_rep _ j hj]

def fold2 (a3 : U128) : U128 := a3 ^^^ ((a3 &&& rep 0x0c) >>> 2)
def fold2_8 (a3 : U8) : U8 := a3 ^^^ ((a3 &&& (0x0c : U8)) >>> 2)
theorem lane_fold2 (x : U128) (j : Nat) (hj : j < 16) : lane (fold2 x) j = fold2_8 (lane x j) := by
  unfold fold2 fold2_8
  rw [lane_xor, lane_mask_shr _ _ _ _ (by omega) hj (by decide)]

def inv2 (a4 : U128) : U128 :=
  let a5 := step_b a4 (rep 0x08)
  let a4 := (a4 ^^^ (a5 >>> 2)) &&& rep 0x03
  a4 ^^^ ((a4 &&& rep 0x02) >>> 1)
def inv2_8 (a4 : U8) : U8 :=
  let a5 := step_b_8 a4 0x08
  let a4 := (a4 ^^^ (a5 >>> 2)) &&& (0x03 : U8)
  a4 ^^^ ((a4 &&& (0x02 : U8)) >>> 1)
theorem lane_inv2 (x : U128) (j : Nat) (hj : j < 16) : lane (inv2 x) j = inv2_8 (lane x j) := by
  unfold inv2 inv2_8
  simp only []
  rw [lane_xor, lane_mask_shr _ _ _ _ (by omega) hj (by decide),
    lane_xor_shr_and _ _ _ _ _ (by omega) hj (by decide), lane_step_b _ _ _ hj (by decide)]

theorem inv2_8_top : ∀ x : U8, (inv2_8 x).getLsbD 6 = false ∧ (inv2_8 x).getLsbD 7 = false := by decide +kernel

def dup2 (a4 : U128) : U128 := a4 ||| (a4 <<< 2)
def dup2_8 (a4 : U8) : U8 := a4 ||| (a4 <<< 2)
theorem lane_dup2_inv2 (x : U128) (j : Nat) (hj : j < 16) :
    lane (dup2 (inv2 x)) j = dup2_8 (inv2_8 (lane x j)) := by
  unfold dup2 dup2_8
  rw [lane_or, lane_shl (by omega) hj, lane_inv2 x j hj]
  intro _ i hi8 hi
  rw [lane_inv2 x _ (by omega)]
  rcases (show i = 6 ∨ i = 7 by omega) with h | h <;> rw [h]
  · exact (inv2_8_top _).1
  · exact (inv2_8_top _).2

def dup4 (a3 : U128) : U128 := a3 ||| (a3 <<< 4)
def dup4_8 (a3 : U8) : U8 := a3 ||| (a3 <<< 4)
/-- the inversion in the 4-bit field, duplicated to both nibbles -/
def inv4 (a3 : U128) : U128 :=
  step_a (fold2 a3) (dup2 (inv2 (step_a (fold2 a3) a3 (rep 0x0a)))) (rep 0x0a)
def inv4_8 (a3 : U8) : U8 :=
  step_a_8 (fold2_8 a3) (dup2_8 (inv2_8 (step_a_8 (fold2_8 a3) a3 0x0a))) 0x0a
theorem lane_inv4 (x : U128) (j : Nat) (hj : j < 16) : lane (inv4 x) j = inv4_8 (lane x j) := by
  unfold inv4 inv4_8
  rw [lane_step_a _ _ _ _ hj (by decide), lane_dup2_inv2 _ _ hj, lane_step_a _ _ _ _ hj (by decide),
    lane_fold2 _ _ hj]

theorem inv4_8_top : ∀ x : U8, ∀ i, i < 8 → 4 ≤ i → (inv4_8 (norm4_8 x)).getLsbD i = false := by decide +kernel

theorem lane_dup4 (x : U128) (j : Nat) (hj : j < 16) :
    lane (dup4 (inv4 (norm4 x))) j = dup4_8 (inv4_8 (norm4_8 (lane x j))) := by
  unfold dup4 dup4_8
  rw [lane_or, lane_shl (by omega) hj, lane_inv4 _ j hj, lane_norm4 _ j hj]
  intro _ i hi8 hi
  rw [lane_inv4 _ _ (by omega), lane_norm4 _ _ (by omega)]
  exact inv4_8_top _ i hi8 (by omega)

/-- src/aes_bitslice.rs:53-81, the inversion in GF(2^8) (tower-field basis) -/
def mid (x : U128) : U128 :=
  let a1 := fold4 x
  let d := dup4 (inv4 (norm4 (comb (step_a x a1 (rep 0xaa)) (step_a a1 (swap2 x) (rep 0xaa)))))
  comb (step_a a1 d (rep 0xaa)) (step_a (swap2 a1) d (rep 0xaa))
def mid_8 (x : U8) : U8 :=
  let a1 := fold4_8 x
  let d := dup4_8 (inv4_8 (norm4_8 (comb_8 (step_a_8 x a1 0xaa) (step_a_8 a1 (swap2_8 x) 0xaa))))
  comb_8 (step_a_8 a1 d 0xaa) (step_a_8 (swap2_8 a1) d 0xaa)
theorem lane_mid (x : U128) (j : Nat) (hj : j < 16) : lane (mid x) j = mid_8 (lane x j) := by
  unfold mid mid_8
  simp only []
  have haa : (0xaa : U8).getLsbD 0 = false := by decide
  rw [lane_comb _ _ _ hj, lane_step_a _ _ _ _ hj haa, lane_step_a _ _ _ _ hj haa, lane_dup4 _ _ hj,
    lane_comb _ _ _ hj, lane_step_a _ _ _ _ hj haa, lane_step_a _ _ _ _ hj haa, lane_swap2 _ _ hj,
    lane_swap2 _ _ hj, lane_fold4 _ _ hj]

def sPre (x : U128) : U128 :=
  let y := ror1 x
  let x := (x &&& rep 0xdd) ^^^ (y &&& rep 0x57)
  let y := ror1 y
  let x := x ^^^ (y &&& rep 0x1c)
  let y := ror1 y
  let x := x ^^^ (y &&& rep 0x4a)
  let y := ror1 y
  let x := x ^^^ (y &&& rep 0x42)
  let y := ror1 y
  let x := x ^^^ (y &&& rep 0x64)
  let y := ror1 y
  x ^^^ (y &&& rep 0xe0)
def sPre_8 (x : U8) : U8 :=
  let y := ror1_8 x
  let x := (x &&& (0xdd : U8)) ^^^ (y &&& (0x57 : U8))
  let y := ror1_8 y
  let x := x ^^^ (y &&& (0x1c : U8))
  let y := ror1_8 y
  let x := x ^^^ (y &&& (0x4a : U8))
  let y := ror1_8 y
  let x := x ^^^ (y &&& (0x42 : U8))
  let y := ror1_8 y
  let x := x ^^^ (y &&& (0x64 : U8))
  let y := ror1_8 y
  x ^^^ (y &&& (0xe0 : U8))
theorem lane_sPre (x : U128) (j : Nat) (hj : j < 16) : lane (sPre x) j = sPre_8 (lane x j) := by
  unfold sPre sPre_8
  simp only [lane_xor, lane_and, lane_ror1 _ _ hj, lane_rep _ _ hj]

def ror2 (y : U128) : U128 := ((y &&& rep 0xfc) >>> 2) ||| ((y &&& rep 0x03) <<< 6)
def ror2_8 (y : U8) : U8 := ((y &&& (0xfc : U8)) >>> 2) ||| ((y &&& (0x03 : U8)) <<< 6)
theorem lane_ror2 (x : U128) (j : Nat) (hj : j < 16) : lane (ror2 x) j = ror2_8 (lane x j) := by
  unfold ror2 ror2_8
  rw [lane_or, lane_mask_shr _ _ _ _ (by omega) hj (by decide), lane_mask_shl _ _ _ _ (by omega) hj (by decide)]

def sPost (x : U128) : U128 :=
  let y := ror1 x
  let x := (x &&& rep 0x39) ^^^ (y &&& rep 0x3f)
  let y := ror2 y
  let x := x ^^^ (y &&& rep 0x97)
  let y := ror1 y
  let x := x ^^^ (y &&& rep 0x9b)
  let y := ror1 y
  let x := x ^^^ (y &&& rep 0x3c)
  let y := ror1 y
  let x := x ^^^ (y &&& rep 0xdd)
  let y := ror1 y
  let x := x ^^^ (y &&& rep 0x72)
  x ^^^ rep 0x63
def sPost_8 (x : U8) : U8 :=
  let y := ror1_8 x
  let x := (x &&& (0x39 : U8)) ^^^ (y &&& (0x3f : U8))
  let y := ror2_8 y
  let x := x ^^^ (y &&& (0x97 : U8))
  let y := ror1_8 y
  let x := x ^^^ (y &&& (0x9b : U8))
  let y := ror1_8 y
  let x := x ^^^ (y &&& (0x3c : U8))
  let y := ror1_8 y
  let x := x ^^^ (y &&& (0xdd : U8))
  let y := ror1_8 y
  let x := x ^^^ (y &&& (0x72 : U8))
  x ^^^ (0x63 : U8)
theorem lane_sPost (x : U128) (j : Nat) (hj : j < 16) : lane (sPost x) j = sPost_8 (lane x j) := by
  unfold sPost sPost_8
  simp only [lane_xor, lane_and, lane_ror1 _ _ hj, lane_ror2 _ _ hj, lane_rep _ _ hj]

def iPre (x : U128) : U128 :=
  let x := x ^^^ rep 0x63
  let y := ror1 x
  let x := (x &&& rep 0xfd) ^^^ (y &&& rep 0x5e)
  let y := ror1 y
  let x := x ^^^ (y &&& rep 0xf3)
  let y := ror1 y
  let x := x ^^^ (y &&& rep 0xf5)
  let y := ror1 y
  let x := x ^^^ (y &&& rep 0x78)
  let y := ror1 y
  let x := x ^^^ (y &&& rep 0x77)
  let y := ror1 y
  let x := x ^^^ (y &&& rep 0x15)
  let y := ror1 y
  x ^^^ (y &&& rep 0xa5)
def iPre_8 (x : U8) : U8 :=
  let x := x ^^^ (0x63 : U8)
  let y := ror1_8 x
  let x := (x &&& (0xfd : U8)) ^^^ (y &&& (0x5e : U8))
  let y := ror1_8 y
  let x := x ^^^ (y &&& (0xf3 : U8))
  let y := ror1_8 y
  let x := x ^^^ (y &&& (0xf5 : U8))
  let y := ror1_8 y
  let x := x ^^^ (y &&& (0x78 : U8))
  let y := ror1_8 y
  let x := x ^^^ (y &&& (0x77 : U8))
  let y := ror1_8 y
  let x := x ^^^ (y &&& (0x15 : U8))
  let y := ror1_8 y
  x ^^^ (y &&& (0xa5 : U8))
theorem lane_iPre (x : U128) (j : Nat) (hj : j < 16) : lane (iPre x) j = iPre_8 (lane x j) := by
  unfold iPre iPre_8
  simp only [lane_xor, lane_and, lane_ror1 _ _ hj, lane_rep _ _ hj]

def iPost (x : U128) : U128 :=
  let y := ror1 x
  let x := (x &&& rep 0xb5) ^^^ (y &&& rep 0x40)
  let y := ror1 y
  let x := x ^^^ (y &&& rep 0x80)
  let y := ror1 y
  let x := x ^^^ (y &&& rep 0x16)
  let y := ror1 y
  let x := x ^^^ (y &&& rep 0xeb)
  let y := ror1 y
  let x := x ^^^ (y &&& rep 0x97)
  let y := ror1 y
  let x := x ^^^ (y &&& rep 0xfb)
  let y := ror1 y
  x ^^^ (y &&& rep 0x7d)
def iPost_8 (x : U8) : U8 :=
  let y := ror1_8 x
  let x := (x &&& (0xb5 : U8)) ^^^ (y &&& (0x40 : U8))
  let y := ror1_8 y
  let x := x ^^^ (y &&& (0x80 : U8))
  let y := ror1_8 y
  let x := x ^^^ (y &&& (0x16 : U8))
  let y := ror1_8 y
  let x := x ^^^ (y &&& (0xeb : U8))
  let y := ror1_8 y
  let x := x ^^^ (y &&& (0x97 : U8))
  let y := ror1_8 y
  let x := x ^^^ (y &&& (0xfb : U8))
  let y := ror1_8 y
  x ^^^ (y &&& (0x7d : U8))
theorem lane_iPost (x : U128) (j : Nat) (hj : j < 16) : lane (iPost x) j = iPost_8 (lane x j) := by
  unfold iPost iPost_8
  simp only [lane_xor, lane_and, lane_ror1 _ _ hj, lane_rep _ _ hj]

theorem subbytes_stages (x : U128) : subbytes x = sPost (mid (sPre x)) := rfl
theorem invsubbytes_stages (x : U128) : invsubbytes x = iPost (mid (iPre x)) := rfl

theorem sub_8_eq : ∀ b : U8, sPost_8 (mid_8 (sPre_8 b)) = Fips197.sboxT b := by decide +kernel
theorem invsub_8_eq : ∀ b : U8, iPost_8 (mid_8 (iPre_8 b)) = Fips197.invSboxT b := by decide +kernel

theorem lane_subbytes (x : U128) (j : Nat) (hj : j < 16) : lane (subbytes x) j = Fips197.sbox (lane x j) := by
  rw [subbytes_stages, lane_sPost _ _ hj, lane_mid _ _ hj, lane_sPre _ _ hj, sub_8_eq, Fips197.sbox_eq]
theorem lane_invsubbytes (x : U128) (j : Nat) (hj : j < 16) : lane (invsubbytes x) j = Fips197.invSbox (lane x j) := by
  rw [invsubbytes_stages, lane_iPost _ _ hj, lane_mid _ _ hj, lane_iPre _ _ hj, invsub_8_eq, Fips197.invSbox_eq]

end Aes.Bitslice
