import Verif.Model.Bitslice
import Verif.Proofs.Bytes
/-! Byte lanes of 128-bit words, and the lane-wise action of the bit-sliced code. -/
namespace Aes.Bitslice
open Rust

/-- Byte lane `j` (bits `8j .. 8j+7`). -/
def lane (x : U128) (j : Nat) : U8 := x.extractLsb' (8 * j) 8

theorem getLsbD_lane (x : U128) (j i : Nat) : (lane x j).getLsbD i = (decide (i < 8) && x.getLsbD (8 * j + i)) := by
  simp [lane]

theorem lane_ext {x y : U128} (h : ∀ j, j < 16 → lane x j = lane y j) : x = y := by
  apply BitVec.eq_of_getLsbD_eq
  intro i hi
  have := congrArg (fun b => b.getLsbD (i % 8)) (h (i / 8) (by omega))
  simp only [getLsbD_lane, show i % 8 < 8 by omega, decide_true, Bool.true_and,
    show 8 * (i / 8) + i % 8 = i by omega] at this
  exact this

theorem lane_and (x y : U128) (j : Nat) : lane (x &&& y) j = lane x j &&& lane y j := by
  apply BitVec.eq_of_getLsbD_eq; intro i hi
  simp only [getLsbD_lane, hi, decide_true, Bool.true_and, BitVec.getLsbD_and]
theorem lane_or (x y : U128) (j : Nat) : lane (x ||| y) j = lane x j ||| lane y j := by
  apply BitVec.eq_of_getLsbD_eq; intro i hi
  simp only [getLsbD_lane, hi, decide_true, Bool.true_and, BitVec.getLsbD_or]
theorem lane_xor (x y : U128) (j : Nat) : lane (x ^^^ y) j = lane x j ^^^ lane y j := by
  apply BitVec.eq_of_getLsbD_eq; intro i hi
  simp only [getLsbD_lane, hi, decide_true, Bool.true_and, BitVec.getLsbD_xor]
theorem lane_zero (j : Nat) : lane 0 j = 0 := by
  apply BitVec.eq_of_getLsbD_eq; intro i hi; simp [lane]

theorem lane_rep (c : U8) (j : Nat) (hj : j < 16) : lane (rep c) j = c := by
  unfold lane rep
  rw [byte_fromLe 128 _ j hj (by omega)]
  simp

theorem lane_ge (x : U128) (j : Nat) (hj : 16 ≤ j) : lane x j = 0 := by
  apply BitVec.eq_of_getLsbD_eq; intro i hi
  rw [getLsbD_lane, BitVec.getLsbD_of_ge x _ (by omega)]; simp

/-- Shift right, when nothing is shifted in from the next lane. -/
theorem lane_shr {x : U128} {s j : Nat} (hs : s < 8) (h : ∀ i, i < s → (lane x (j + 1)).getLsbD i = false) :
    lane (x >>> s) j = lane x j >>> s := by
  apply BitVec.eq_of_getLsbD_eq; intro i hi
  simp only [getLsbD_lane, hi, decide_true, Bool.true_and, BitVec.getLsbD_ushiftRight]
  by_cases h8 : s + i < 8
  · simp only [h8, decide_true, Bool.true_and]; congr 1; omega
  · have := h (s + i - 8) (by omega)
    simp only [getLsbD_lane, show s + i - 8 < 8 by omega, decide_true, Bool.true_and] at this
    simp only [h8, decide_false, Bool.false_and]
    rw [← this]; congr 1; omega

/-- Shift left, when nothing is shifted in from the previous lane. -/
theorem lane_shl {x : U128} {s j : Nat} (hs : s < 8) (hj : j < 16)
    (h : 0 < j → ∀ i, i < 8 → 8 - s ≤ i → (lane x (j - 1)).getLsbD i = false) :
    lane (x <<< s) j = lane x j <<< s := by
  apply BitVec.eq_of_getLsbD_eq; intro i hi
  simp only [getLsbD_lane, hi, decide_true, Bool.true_and, BitVec.getLsbD_shiftLeft,
    show 8 * j + i < 128 by omega]
  by_cases h8 : i < s
  · by_cases hj0 : j = 0
    · subst hj0; simp [h8]
    · have := h (by omega) (i + 8 - s) (by omega) (by omega)
      simp only [getLsbD_lane, show i + 8 - s < 8 by omega, decide_true, Bool.true_and] at this
      simp only [h8, decide_true, Bool.not_true, Bool.false_and]
      rw [show 8 * j + i - s = 8 * (j - 1) + (i + 8 - s) by omega, this]; simp
  · simp only [h8, decide_false, Bool.not_false, Bool.true_and, show i - s < 8 by omega, decide_true,
      show ¬ (8 * j + i < s) by omega]
    congr 1; omega

/-- Shift left under a mask whose low bits are clear. -/
theorem lane_shl_and {x y : U128} {s j : Nat} (hs : s < 8) (hj : j < 16)
    (h : ∀ i, i < s → (lane y j).getLsbD i = false) :
    lane ((x <<< s) &&& y) j = (lane x j <<< s) &&& lane y j := by
  apply BitVec.eq_of_getLsbD_eq; intro i hi
  simp only [getLsbD_lane, hi, decide_true, Bool.true_and, BitVec.getLsbD_shiftLeft, BitVec.getLsbD_and,
    show 8 * j + i < 128 by omega]
  by_cases h8 : i < s
  · have := h i h8
    simp only [getLsbD_lane, hi, decide_true, Bool.true_and] at this
    simp [this]
  · simp only [h8, decide_false, Bool.not_false, Bool.true_and, show i - s < 8 by omega, decide_true,
      show ¬ (8 * j + i < s) by omega]
    rw [show 8 * j + i - s = 8 * j + (i - s) by omega]

/-- Shift right under a mask whose high bits are clear. -/
theorem lane_shr_and {x y : U128} {s j : Nat} (hs : s < 8)
    (h : ∀ i, i < 8 → 8 - s ≤ i → (lane y j).getLsbD i = false) :
    lane ((x >>> s) &&& y) j = (lane x j >>> s) &&& lane y j := by
  apply BitVec.eq_of_getLsbD_eq; intro i hi
  simp only [getLsbD_lane, hi, decide_true, Bool.true_and, BitVec.getLsbD_ushiftRight, BitVec.getLsbD_and]
  by_cases h8 : s + i < 8
  · simp only [h8, decide_true, Bool.true_and]
    rw [show s + (8 * j + i) = 8 * j + (s + i) by omega]
  · have := h i hi (by omega)
    simp only [getLsbD_lane, hi, decide_true, Bool.true_and] at this
    simp [this]

/-- `(x & rep m) >> s`, `m` with its low `s` bits clear. -/
theorem lane_mask_shr (x : U128) (m : U8) (s j : Nat) (hs : s < 8) (hj : j < 16)
    (hm : ∀ i, i < s → m.getLsbD i = false) :
    lane ((x &&& rep m) >>> s) j = (lane x j &&& m) >>> s := by
  rw [lane_shr hs, lane_and, lane_rep m j hj]
  intro i hi
  by_cases h : j + 1 < 16
  · rw [lane_and, lane_rep m _ h, BitVec.getLsbD_and, hm i hi, Bool.and_false]
  · rw [lane_ge _ _ (by omega)]; simp

/-- `(x & rep m) << s`, `m` with its high `s` bits clear. -/
theorem lane_mask_shl (x : U128) (m : U8) (s j : Nat) (hs : s < 8) (hj : j < 16)
    (hm : ∀ i, i < 8 → 8 - s ≤ i → m.getLsbD i = false) :
    lane ((x &&& rep m) <<< s) j = (lane x j &&& m) <<< s := by
  rw [lane_shl hs hj, lane_and, lane_rep m j hj]
  intro h0 i hi8 hi
  rw [lane_and, lane_rep m _ (by omega), BitVec.getLsbD_and, hm i hi8 hi, Bool.and_false]

/-! ### the byte shadows of the bit-sliced helpers -/

def ror1_8 (x : U8) : U8 := ((x &&& (0xfe : U8)) >>> 1) ||| ((x &&& (0x01 : U8)) <<< 7)
def swap2_8 (x : U8) : U8 := ((x &&& (0xcc : U8)) >>> 2) ||| ((x &&& (0x33 : U8)) <<< 2)
def step_a_8 (a b mask : U8) : U8 :=
  let x := a &&& b
  x ^^^ ((x &&& mask) >>> 1) ^^^ ((((a <<< 1) &&& b) ^^^ ((b <<< 1) &&& a)) &&& mask)
def step_b_8 (a mask : U8) : U8 :=
  let x := a &&& mask
  (x ||| (x >>> 1)) ^^^ ((a <<< 1) &&& mask)

theorem lane_ror1 (x : U128) (j : Nat) (hj : j < 16) : lane (ror1 x) j = ror1_8 (lane x j) := by
  unfold ror1 ror1_8
  rw [lane_or, lane_mask_shr _ _ _ _ (by omega) hj (by decide), lane_mask_shl _ _ _ _ (by omega) hj (by decide)]
theorem lane_swap2 (x : U128) (j : Nat) (hj : j < 16) : lane (swap2 x) j = swap2_8 (lane x j) := by
  unfold swap2 swap2_8
  rw [lane_or, lane_mask_shr _ _ _ _ (by omega) hj (by decide), lane_mask_shl _ _ _ _ (by omega) hj (by decide)]

theorem lane_step_a (a b : U128) (m : U8) (j : Nat) (hj : j < 16) (hm : m.getLsbD 0 = false) :
    lane (step_a a b (rep m)) j = step_a_8 (lane a j) (lane b j) m := by
  have hm' : ∀ i, i < 1 → m.getLsbD i = false := by intro i hi; rw [show i = 0 by omega]; exact hm
  unfold step_a step_a_8
  simp only [lane_xor]
  rw [lane_mask_shr _ _ _ _ (by omega) hj hm', lane_and]
  congr 1
  rw [show (((a <<< 1) &&& b) ^^^ ((b <<< 1) &&& a)) &&& rep m
      = ((a <<< 1) &&& (b &&& rep m)) ^^^ ((b <<< 1) &&& (a &&& rep m)) by
    apply BitVec.eq_of_getLsbD_eq; intro i hi
    simp only [BitVec.getLsbD_and, BitVec.getLsbD_xor, Bool.and_xor_distrib_right, Bool.and_assoc]]
  rw [lane_xor, lane_shl_and (by omega) hj, lane_shl_and (by omega) hj, lane_and, lane_and, lane_rep m j hj]
  · apply BitVec.eq_of_getLsbD_eq; intro i hi
    simp only [BitVec.getLsbD_and, BitVec.getLsbD_xor, Bool.and_xor_distrib_right, Bool.and_assoc]
  all_goals
    intro i hi
    rw [lane_and, lane_rep m j hj, BitVec.getLsbD_and, hm' i hi, Bool.and_false]

theorem lane_step_b (a : U128) (m : U8) (j : Nat) (hj : j < 16) (hm : m.getLsbD 0 = false) :
    lane (step_b a (rep m)) j = step_b_8 (lane a j) m := by
  have hm' : ∀ i, i < 1 → m.getLsbD i = false := by intro i hi; rw [show i = 0 by omega]; exact hm
  unfold step_b step_b_8
  simp only [lane_xor, lane_or]
  rw [lane_mask_shr _ _ _ _ (by omega) hj hm', lane_and, lane_shl_and (by omega) hj, lane_rep m j hj]
  intro i hi
  rw [lane_rep m j hj, hm' i hi]

end Aes.Bitslice
