import Verif.Model.NiX4
import Verif.Proofs.X86
import Verif.Proofs.DefaultWide
/-! src/aesni_x2.rs and src/aesni_x4.rs satisfy the laws. -/
namespace Aes
open Rust AesSpec IsaX86

theorem getElem_sub {n : Nat} (v : Vector U8 n) (off m i : Nat) (h : off + m ≤ n) (hi : i < m) :
    (sub v off m)[i] = v[off + i] := by
  simp only [sub, Vector.getElem_ofFn, List.getD_eq_getElem?_getD]
  rw [List.getElem?_eq_getElem (by simp; omega)]
  simp
theorem sub_lo {h : Nat} (a b : Vector U8 h) : sub (a ++ b) 0 h = a := by
  apply Vector.ext; intro i hi
  rw [getElem_sub _ _ _ _ (by omega) hi]
  simp only [Nat.zero_add]; exact Vector.getElem_append_left hi
theorem sub_hi {h : Nat} (a b : Vector U8 h) : sub (a ++ b) h h = b := by
  apply Vector.ext; intro i hi
  rw [getElem_sub _ _ _ _ (by omega) hi, Vector.getElem_append_right (by omega) (by omega)]; congr 1; omega
/-- A part of the low half. -/
theorem sub_append_lo {h off m : Nat} (a b : Vector U8 h) (hm : off + m ≤ h) : sub (a ++ b) off m = sub a off m := by
  apply Vector.ext; intro i hi
  rw [getElem_sub _ _ _ _ (by omega) hi, getElem_sub _ _ _ _ (by omega) hi, Vector.getElem_append_left (by omega)]
/-- A part of the high half. -/
theorem sub_append_hi {h off m : Nat} (a b : Vector U8 h) (hm : off + m ≤ h) : sub (a ++ b) (h + off) m = sub b off m := by
  apply Vector.ext; intro i hi
  rw [getElem_sub _ _ _ _ (by omega) hi, getElem_sub _ _ _ _ (by omega) hi, Vector.getElem_append_right (by omega) (by omega)]
  congr 1; omega

namespace NiX2

instance : LawfulVec X2 where
  view := X2.val
  ofB := X2.mk
  view_ofB _ := rfl
  ofB_view _ := rfl
  new_eq _ := rfl
  from_bytes_eq v := by
    show from_bytes v = _
    unfold from_bytes; rw [X86.loadu_eq]; rfl
  store_to_ok t dst h := X86.storeu_ok t.val dst h
  store_to_short t dst h := X86.storeu_short t.val dst h
  view_zero := rfl
  is_zero_eq t := X86.testz_self t.val
  eq_eq a b := by
    show (testz (xor a.val b.val) (xor a.val b.val) == 1) = _
    rw [X86.testz_self, X86.xor_eq]
    simp only [xorB_eq_zero]
  view_and _ _ := rfl
  view_or _ _ := rfl
  view_xor _ _ := rfl
  view_not a := X86.xor_minus1 a.val

theorem lane2_0 (a b : M128i) : lane2 (a ++ b) 0 = a := sub_lo a b
theorem lane2_1 (a b : M128i) : lane2 (a ++ b) 1 = b := sub_hi a b

theorem lanewise2_pair (f : M128i → M128i → M128i) (a b c d : M128i) :
    lanewise2 f (a ++ b) (c ++ d) = f a c ++ f b d := by
  unfold lanewise2; rw [lane2_0, lane2_0, lane2_1, lane2_1]

instance : LawfulX2 X2 where
  view_from_pair _ _ := rfl
  to_pair_from_pair a b := by
    show ((⟨sub (a.val ++ b.val) (16 * 0) 16⟩, ⟨sub (a.val ++ b.val) (16 * 1) 16⟩) : X86.Block × X86.Block) = (a, b)
    rw [show sub (a.val ++ b.val) (16 * 0) 16 = a.val from sub_lo _ _,
      show sub (a.val ++ b.val) (16 * 1) 16 = b.val from sub_hi _ _]
  from_block_eq _ := rfl
  enc_eq _ _ _ _ := congrArg X2.mk (lanewise2_pair _ _ _ _ _)
  dec_eq _ _ _ _ := congrArg X2.mk (lanewise2_pair _ _ _ _ _)
  enc_last_eq _ _ _ _ := congrArg X2.mk (lanewise2_pair _ _ _ _ _)
  dec_last_eq _ _ _ _ := congrArg X2.mk (lanewise2_pair _ _ _ _ _)
  pre_lanes := .inl ⟨rfl, rfl⟩
end NiX2

namespace NiX4

/-- The mask as its eight bits. -/
theorem mask8_eq_iff (p q : Nat → Bool) : mask8 p = mask8 q ↔ ∀ i, i < 8 → p i = q i := by
  constructor
  · intro h
    have key : ∀ b0 b1 b2 b3 b4 b5 b6 b7 : Bool, 
        (List.range 8).foldr (fun i acc => acc ||| (if ([b0,b1,b2,b3,b4,b5,b6,b7].getD i false) then 1#8 <<< i else 0#8)) 0#8
          = BitVec.ofBoolListLE [b0,b1,b2,b3,b4,b5,b6,b7] := by decide
    have e : ∀ p : Nat → Bool, mask8 p = BitVec.ofBoolListLE [p 0, p 1, p 2, p 3, p 4, p 5, p 6, p 7] := by
      intro p; rw [← key]; rfl
    rw [e p, e q] at h
    have hb : ∀ i, (BitVec.ofBoolListLE [p 0, p 1, p 2, p 3, p 4, p 5, p 6, p 7]).getLsbD i =
        (BitVec.ofBoolListLE [q 0, q 1, q 2, q 3, q 4, q 5, q 6, q 7]).getLsbD i := fun i => by rw [h]
    simp only [BitVec.getLsbD_ofBoolListLE] at hb
    intro i hi
    have hbi := hb i
    have : i = 0 ∨ i = 1 ∨ i = 2 ∨ i = 3 ∨ i = 4 ∨ i = 5 ∨ i = 6 ∨ i = 7 := by omega
    rcases this with rfl | rfl | rfl | rfl | rfl | rfl | rfl | rfl <;> exact hbi
  · intro h
    unfold mask8
    simp only [List.range, List.range.loop, List.foldr]
    simp [h]

theorem mask8_all (p : Nat → Bool) : (mask8 p == 0b11111111#8) = true ↔ ∀ i, i < 8 → p i = true := by
  rw [show (0b11111111#8) = mask8 (fun _ => true) by decide, beq_iff_eq, mask8_eq_iff]
theorem mask8_none (p : Nat → Bool) : (mask8 p == 0#8) = true ↔ ∀ i, i < 8 → p i = false := by
  rw [show (0#8) = mask8 (fun _ => false) by decide, beq_iff_eq, mask8_eq_iff]

/-- Equal qwords, equal registers. -/
theorem qwords_ext (a b : M512i) : (∀ i, i < 8 → sub a (8 * i) 8 = sub b (8 * i) 8) ↔ a = b := by
  constructor
  · intro h
    apply Vector.ext; intro i hi
    have := congrArg (fun v : Vector U8 8 => v[i % 8]'(by omega)) (h (i / 8) (by omega))
    rw [getElem_sub _ _ _ _ (by omega) (by omega), getElem_sub _ _ _ _ (by omega) (by omega)] at this
    simpa only [show 8 * (i / 8) + i % 8 = i by omega] using this
  · rintro rfl _ _; rfl

theorem cmpeq_all (a b : M512i) : (cmpeq_epi64_mask a b == 0b11111111#8) = decide (a = b) := by
  unfold cmpeq_epi64_mask
  rw [Bool.eq_iff_iff, mask8_all, decide_eq_true_iff]
  simp only [beq_iff_eq, qwords_ext]

theorem sub_setzero (i : Nat) (hi : i < 8) : sub (setzero : M512i) (8 * i) 8 = setzero := by
  apply Vector.ext; intro j hj
  rw [getElem_sub _ _ _ _ (by omega) hj]; simp [setzero]

theorem test_none (a : M512i) : (test_epi64_mask a a == 0#8) = decide (a = zeroB 64) := by
  unfold test_epi64_mask
  rw [Bool.eq_iff_iff, mask8_none]
  have ha : IsaX86.and a a = a := by
    apply Vector.ext; intro i hi; simp [IsaX86.and]
  simp only [ha, Bool.not_eq_false', beq_iff_eq]
  rw [decide_eq_true_iff, show zeroB 64 = (setzero : M512i) from rfl, ← qwords_ext]
  constructor
  · intro h i hi; rw [h i hi, sub_setzero i hi]
  · intro h i hi; rw [h i hi, sub_setzero i hi]

instance : LawfulVec X4 where
  view := X4.val
  ofB := X4.mk
  view_ofB _ := rfl
  ofB_view _ := rfl
  new_eq _ := rfl
  from_bytes_eq v := by
    show from_bytes v = _
    unfold from_bytes; rw [X86.loadu_eq]; rfl
  store_to_ok t dst h := X86.storeu_ok t.val dst h
  store_to_short t dst h := X86.storeu_short t.val dst h
  view_zero := rfl
  is_zero_eq t := test_none t.val
  eq_eq a b := cmpeq_all a.val b.val
  view_and _ _ := rfl
  view_or _ _ := rfl
  view_xor _ _ := rfl
  view_not a := X86.xor_minus1 a.val

theorem insert_cast (a b : M256i) : inserti64x4_1 (castsi256_si512 a) b = a ++ b := by
  unfold inserti64x4_1 castsi256_si512; rw [sub_lo]
theorem insert_cast128 (a b : M128i) : inserti128_si256_1 (castsi128_si256 a) b = a ++ b := by
  unfold inserti128_si256_1 castsi128_si256; rw [NiX2.lane2_0]

theorem lane4_0 (a b : M256i) : lane4 (a ++ b) 0 = lane2 a 0 := sub_append_lo a b (by omega)
theorem lane4_1 (a b : M256i) : lane4 (a ++ b) 1 = lane2 a 1 := sub_append_lo a b (by omega)
theorem lane4_2 (a b : M256i) : lane4 (a ++ b) 2 = lane2 b 0 := sub_append_hi a b (off := 0) (by omega)
theorem lane4_3 (a b : M256i) : lane4 (a ++ b) 3 = lane2 b 1 := sub_append_hi a b (off := 16) (by omega)

theorem lanewise4_pair (f : M128i → M128i → M128i) (a b c d : M256i) :
    lanewise4 f (a ++ b) (c ++ d) = lanewise2 f a c ++ lanewise2 f b d := by
  unfold lanewise4; simp only [lane4_0, lane4_1, lane4_2, lane4_3]; rfl

theorem from_x2_pair_eq (a b : NiX2.X2) : from_x2_pair (a, b) = ⟨a.val ++ b.val⟩ :=
  congrArg X4.mk (insert_cast _ _)
theorem from_quad_eq' (a b c d : X86.Block) :
    from_quad (a, b, c, d) = ⟨(a.val ++ b.val) ++ (c.val ++ d.val)⟩ := by
  show (⟨inserti64x4_1 (castsi256_si512 (inserti128_si256_1 (castsi128_si256 a.val) b.val))
    (inserti128_si256_1 (castsi128_si256 c.val) d.val)⟩ : X4) = _
  rw [insert_cast128, insert_cast128, insert_cast]

theorem wide_eq (f : M128i → M128i → M128i) (a b c d : NiX2.X2) :
    (⟨lanewise4 f (from_x2_pair (a, b)).val (from_x2_pair (c, d)).val⟩ : X4) =
      from_x2_pair (⟨lanewise2 f a.val c.val⟩, ⟨lanewise2 f b.val d.val⟩) := by
  rw [from_x2_pair_eq, from_x2_pair_eq, from_x2_pair_eq, lanewise4_pair]

instance : LawfulX4 X4 where
  view_from_x2_pair a b := congrArg X4.val (from_x2_pair_eq a b)
  to_x2_pair_from_x2_pair a b := by
    show to_x2_pair (from_x2_pair (a, b)) = _
    rw [from_x2_pair_eq]
    show ((⟨sub (a.val ++ b.val) (32 * 0) 32⟩, ⟨sub (a.val ++ b.val) (32 * 1) 32⟩) : NiX2.X2 × NiX2.X2) = (a, b)
    rw [show sub (a.val ++ b.val) (32 * 0) 32 = a.val from sub_lo _ _,
      show sub (a.val ++ b.val) (32 * 1) 32 = b.val from sub_hi _ _]
  from_quad_eq a b c d := (from_quad_eq' a b c d).trans (from_x2_pair_eq _ _).symm
  to_quad_from_quad a b c d := by
    show to_quad (from_quad (a, b, c, d)) = _
    rw [from_quad_eq']
    show ((⟨lane4 ((a.val ++ b.val) ++ (c.val ++ d.val)) 0⟩, ⟨lane4 ((a.val ++ b.val) ++ (c.val ++ d.val)) 1⟩,
      ⟨lane4 ((a.val ++ b.val) ++ (c.val ++ d.val)) 2⟩, ⟨lane4 ((a.val ++ b.val) ++ (c.val ++ d.val)) 3⟩) :
        X86.Block × X86.Block × X86.Block × X86.Block) = _
    rw [lane4_0, lane4_1, lane4_2, lane4_3, NiX2.lane2_0, NiX2.lane2_1, NiX2.lane2_0, NiX2.lane2_1]
  from_block_eq b := (from_quad_eq' b b b b).symm
  from_x2_eq x := (from_x2_pair_eq x x).symm
  enc_eq a b c d := wide_eq aesenc a b c d
  dec_eq a b c d := wide_eq aesdec a b c d
  enc_last_eq a b c d := wide_eq aesenclast a b c d
  dec_last_eq a b c d := wide_eq aesdeclast a b c d
  pre_lanes := .inl ⟨rfl, rfl⟩
end NiX4
end Aes
