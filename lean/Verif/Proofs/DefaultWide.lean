import Verif.Model.DefaultX2
import Verif.Model.DefaultX4
import Verif.Proofs.Lawful
import Verif.Proofs.RustLemmas
/-! src/aesdefault_x2.rs and src/aesdefault_x4.rs satisfy the laws, over any lawful component type. -/
namespace Aes
open Rust AesSpec

/-- The two halves of an even byte string. -/
theorem append_slices {h : Nat} (v : Vector U8 (h + h)) :
    slice v 0 h (by omega) ++ slice v h h (by omega) = v := by
  apply Vector.ext; intro i hi
  by_cases hh : i < h
  · rw [Vector.getElem_append_left hh, getElem_slice]; simp
  · rw [Vector.getElem_append_right (by omega) (by omega), getElem_slice]; congr 1; omega
theorem slice_append_lo {h : Nat} (a b : Vector U8 h) : slice (a ++ b) 0 h (by omega) = a := by
  apply Vector.ext; intro i hi
  rw [getElem_slice]; simp only [Nat.zero_add]; exact Vector.getElem_append_left hi
theorem slice_append_hi {h : Nat} (a b : Vector U8 h) : slice (a ++ b) h h (by omega) = b := by
  apply Vector.ext; intro i hi
  rw [getElem_slice, Vector.getElem_append_right (by omega) (by omega)]; congr 1; omega
theorem append_inj' {h : Nat} {a b c d : Vector U8 h} (e : a ++ b = c ++ d) : a = c ∧ b = d := by
  refine ⟨?_, ?_⟩
  · rw [← slice_append_lo a b, ← slice_append_lo c d]; congr 1
  · rw [← slice_append_hi a b, ← slice_append_hi c d]; congr 1
theorem zipWith_append' {h : Nat} (f : U8 → U8 → U8) (a b c d : Vector U8 h) :
    Vector.zipWith f a c ++ Vector.zipWith f b d = Vector.zipWith f (a ++ b) (c ++ d) := by
  apply Vector.ext; intro i hi
  rw [Vector.getElem_zipWith]
  by_cases hh : i < h
  · rw [Vector.getElem_append_left hh, Vector.getElem_append_left hh, Vector.getElem_append_left hh, Vector.getElem_zipWith]
  · rw [Vector.getElem_append_right (by omega) (by omega), Vector.getElem_append_right (by omega) (by omega),
      Vector.getElem_append_right (by omega) (by omega), Vector.getElem_zipWith]
theorem map_append' {h : Nat} (f : U8 → U8) (a b : Vector U8 h) : a.map f ++ b.map f = (a ++ b).map f := by
  simp
theorem zero_append (h : Nat) : zeroB h ++ zeroB h = zeroB (h + h) := by
  simp [zeroB]

/-- Storing two halves one after the other. -/
theorem store_halves {U : Type} {h : Nat} [AesVec U h] [LawfulVec U] (a b : U) (dst : List U8) (hl : h + h ≤ dst.length) :
    (do
      let dst ← onTo dst h fun s => AesVec.store_to a s
      let dst ← onFrom dst h fun s => AesVec.store_to b s
      pure dst : M (List U8)) = .ok ((view a ++ view b).toList ++ dst.drop (h + h)) := by
  unfold onTo onFrom
  simp only [sliceTo_ok dst h (by omega), bind_ok]
  rw [LawfulVec.store_to_ok a _ (by rw [List.length_take]; omega)]
  simp only [bind_ok, pure_ok]
  rw [sliceFrom_ok _ _ (by rw [List.length_append, List.length_append, Vector.length_toList]; omega)]
  simp only [bind_ok]
  rw [LawfulVec.store_to_ok b _ (by
    simp only [List.length_drop, List.length_append, Vector.length_toList, List.length_take]; omega)]
  simp only [bind_ok]
  refine congrArg Except.ok ?_
  have e0 : List.drop h (List.take h dst) = [] := List.drop_of_length_le (by simp; omega)
  rw [e0, List.append_nil]
  have l1 : (view a).toList.length = h := Vector.length_toList
  rw [List.take_append_of_le_length (by omega), List.take_of_length_le (by omega),
    List.drop_append_of_le_length (by omega), List.drop_of_length_le (l := (view a).toList) (by omega), List.nil_append,
    List.drop_drop, Vector.toList_append, List.append_assoc]

namespace DefaultX2
variable {B : Type} [AesBlock B] [LawfulVec B]

instance : LawfulVec (X2 B) where
  view t := (view t.f0 ++ view t.f1 : Bytes (16 + 16))
  ofB v := ⟨ofB (slice v 0 16 (by omega)), ofB (slice v 16 16 (by omega))⟩
  view_ofB v := by simp only [LawfulVec.view_ofB]; exact append_slices (h := 16) v
  ofB_view t := by
    obtain ⟨a, b⟩ := t
    simp only [X2.mk.injEq]
    exact ⟨by rw [slice_append_lo, LawfulVec.ofB_view], by rw [slice_append_hi, LawfulVec.ofB_view]⟩
  new_eq v := by
    show new v = _
    unfold new array_from_slice
    rw [rawRead_slice v 0 16 (by omega), rawRead_slice v 16 16 (by omega)]
    simp only [bind_ok, LawfulVec.new_eq, pure_ok]
  from_bytes_eq v := by
    show new v = _
    unfold new array_from_slice
    rw [rawRead_slice v 0 16 (by omega), rawRead_slice v 16 16 (by omega)]
    simp only [bind_ok, LawfulVec.new_eq, pure_ok]
  store_to_ok t dst h := by
    show store_to t dst = _
    unfold store_to
    rw [assert_ge h, bind_ok]
    exact store_halves t.f0 t.f1 dst h
  store_to_short t dst h := by
    show store_to t dst = _
    unfold store_to
    rw [assert_ge_not h]; rfl
  view_zero := by
    show (view (AesVec.zero : B) ++ view (AesVec.zero : B) : Bytes (16 + 16)) = _
    rw [LawfulVec.view_zero]; exact zero_append 16
  is_zero_eq t := by
    show (AesVec.is_zero t.f0 && AesVec.is_zero t.f1) = _
    rw [LawfulVec.is_zero_eq, LawfulVec.is_zero_eq, Bool.eq_iff_iff, Bool.and_eq_true, decide_eq_true_iff,
      decide_eq_true_iff, decide_eq_true_iff]
    constructor
    · rintro ⟨h0, h1⟩; rw [h0, h1]; exact zero_append 16
    · intro h; exact append_inj' (h.trans (zero_append 16).symm)
  eq_eq a b := by
    show (AesVec.eq a.f0 b.f0 && AesVec.eq a.f1 b.f1) = _
    rw [LawfulVec.eq_eq, LawfulVec.eq_eq, Bool.eq_iff_iff, Bool.and_eq_true, decide_eq_true_iff,
      decide_eq_true_iff, decide_eq_true_iff]
    constructor
    · rintro ⟨h0, h1⟩; rw [h0, h1]
    · intro h; exact append_inj' h
  view_and a b := by
    show (view (AesVec.bitand a.f0 b.f0) ++ view (AesVec.bitand a.f1 b.f1) : Bytes (16 + 16)) = _
    rw [LawfulVec.view_and, LawfulVec.view_and]; exact zipWith_append' _ _ _ _ _
  view_or a b := by
    show (view (AesVec.bitor a.f0 b.f0) ++ view (AesVec.bitor a.f1 b.f1) : Bytes (16 + 16)) = _
    rw [LawfulVec.view_or, LawfulVec.view_or]; exact zipWith_append' _ _ _ _ _
  view_xor a b := by
    show (view (AesVec.bitxor a.f0 b.f0) ++ view (AesVec.bitxor a.f1 b.f1) : Bytes (16 + 16)) = _
    rw [LawfulVec.view_xor, LawfulVec.view_xor]; exact zipWith_append' _ _ _ _ _
  view_not a := by
    show (view (AesVec.not a.f0) ++ view (AesVec.not a.f1) : Bytes (16 + 16)) = _
    rw [LawfulVec.view_not, LawfulVec.view_not]; exact map_append' _ _ _

instance : LawfulX2 (X2 B) where
  view_from_pair _ _ := rfl
  to_pair_from_pair _ _ := rfl
  from_block_eq _ := rfl
  enc_eq _ _ _ _ := rfl
  dec_eq _ _ _ _ := rfl
  enc_last_eq _ _ _ _ := rfl
  dec_last_eq _ _ _ _ := rfl
  pre_lanes := by
    show PreLanes _ _ ((AesVec.pre (T := B)).map (impl_pre_encdec to_pair from_pair))
    cases h : (AesVec.pre (T := B)) with
    | none => exact .inl ⟨rfl, rfl⟩
    | some p => exact .inr ⟨p, _, rfl, rfl, fun _ _ _ _ => rfl, fun _ _ _ _ => rfl⟩
end DefaultX2

namespace DefaultX4
variable {B X2 : Type} [AesBlock B] [LawfulVec B] [AesBlockX2 B X2] [LawfulVec X2]

instance : LawfulVec (X4 X2) where
  view t := (view t.f0 ++ view t.f1 : Bytes (32 + 32))
  ofB v := ⟨ofB (slice v 0 32 (by omega)), ofB (slice v 32 32 (by omega))⟩
  view_ofB v := by simp only [LawfulVec.view_ofB]; exact append_slices (h := 32) v
  ofB_view t := by
    obtain ⟨a, b⟩ := t
    simp only [X4.mk.injEq]
    exact ⟨by rw [slice_append_lo, LawfulVec.ofB_view], by rw [slice_append_hi, LawfulVec.ofB_view]⟩
  new_eq v := by
    show new v = _
    unfold new array_from_slice
    rw [rawRead_slice v 0 32 (by omega), rawRead_slice v 32 32 (by omega)]
    simp only [bind_ok, LawfulVec.new_eq, pure_ok]
  from_bytes_eq v := by
    show new v = _
    unfold new array_from_slice
    rw [rawRead_slice v 0 32 (by omega), rawRead_slice v 32 32 (by omega)]
    simp only [bind_ok, LawfulVec.new_eq, pure_ok]
  store_to_ok t dst h := by
    show store_to t dst = _
    unfold store_to
    rw [assert_ge h, bind_ok]
    exact store_halves t.f0 t.f1 dst h
  store_to_short t dst h := by
    show store_to t dst = _
    unfold store_to
    rw [assert_ge_not h]; rfl
  view_zero := by
    show (view (AesVec.zero : X2) ++ view (AesVec.zero : X2) : Bytes (32 + 32)) = _
    rw [LawfulVec.view_zero]; exact zero_append 32
  is_zero_eq t := by
    show (AesVec.is_zero t.f0 && AesVec.is_zero t.f1) = _
    rw [LawfulVec.is_zero_eq, LawfulVec.is_zero_eq, Bool.eq_iff_iff, Bool.and_eq_true, decide_eq_true_iff,
      decide_eq_true_iff, decide_eq_true_iff]
    constructor
    · rintro ⟨h0, h1⟩; rw [h0, h1]; exact zero_append 32
    · intro h; exact append_inj' (h.trans (zero_append 32).symm)
  eq_eq a b := by
    show (AesVec.eq a.f0 b.f0 && AesVec.eq a.f1 b.f1) = _
    rw [LawfulVec.eq_eq, LawfulVec.eq_eq, Bool.eq_iff_iff, Bool.and_eq_true, decide_eq_true_iff,
      decide_eq_true_iff, decide_eq_true_iff]
    constructor
    · rintro ⟨h0, h1⟩; rw [h0, h1]
    · intro h; exact append_inj' h
  view_and a b := by
    show (view (AesVec.bitand a.f0 b.f0) ++ view (AesVec.bitand a.f1 b.f1) : Bytes (32 + 32)) = _
    rw [LawfulVec.view_and, LawfulVec.view_and]; exact zipWith_append' _ _ _ _ _
  view_or a b := by
    show (view (AesVec.bitor a.f0 b.f0) ++ view (AesVec.bitor a.f1 b.f1) : Bytes (32 + 32)) = _
    rw [LawfulVec.view_or, LawfulVec.view_or]; exact zipWith_append' _ _ _ _ _
  view_xor a b := by
    show (view (AesVec.bitxor a.f0 b.f0) ++ view (AesVec.bitxor a.f1 b.f1) : Bytes (32 + 32)) = _
    rw [LawfulVec.view_xor, LawfulVec.view_xor]; exact zipWith_append' _ _ _ _ _
  view_not a := by
    show (view (AesVec.not a.f0) ++ view (AesVec.not a.f1) : Bytes (32 + 32)) = _
    rw [LawfulVec.view_not, LawfulVec.view_not]; exact map_append' _ _ _

instance [LawfulX2 X2] : LawfulX4 (X4 X2) where
  view_from_x2_pair _ _ := rfl
  to_x2_pair_from_x2_pair _ _ := rfl
  from_quad_eq _ _ _ _ := rfl
  to_quad_from_quad a b c d := by
    show (let (a, b) := AesBlockX2.to_pair (AesBlockX2.from_pair (a, b) : X2)
          let (c, d) := AesBlockX2.to_pair (AesBlockX2.from_pair (c, d) : X2)
          (a, b, c, d)) = _
    rw [LawfulX2.to_pair_from_pair, LawfulX2.to_pair_from_pair]
  from_block_eq b := by
    show (⟨AesBlockX2.from_block b, AesBlockX2.from_block b⟩ : X4 X2) =
      ⟨AesBlockX2.from_pair (b, b), AesBlockX2.from_pair (b, b)⟩
    rw [LawfulX2.from_block_eq]
  from_x2_eq _ := rfl
  enc_eq _ _ _ _ := rfl
  dec_eq _ _ _ _ := rfl
  enc_last_eq _ _ _ _ := rfl
  dec_last_eq _ _ _ _ := rfl
  pre_lanes := by
    show PreLanes _ _ ((AesVec.pre (T := X2)).map (impl_pre_encdec to_x2_pair from_x2_pair))
    cases h : (AesVec.pre (T := X2)) with
    | none => exact .inl ⟨rfl, rfl⟩
    | some p => exact .inr ⟨p, _, rfl, rfl, fun _ _ _ _ => rfl, fun _ _ _ _ => rfl⟩
end DefaultX4
end Aes
