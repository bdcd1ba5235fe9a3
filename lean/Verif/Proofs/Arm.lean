import Verif.Model.Arm
import Verif.Proofs.SpecLemmas
import Verif.Proofs.ColumnsFips
/-! src/aes_arm.rs satisfies the laws (both `target_arch` variants). -/
namespace Aes.Arm
open Rust AesSpec Fips197 IsaArm
variable {is32 : Bool}

theorem from_bytes_ok (v : Vector U8 16) : (from_bytes v : M (Block is32)) = .ok ⟨v⟩ := by
  unfold from_bytes vld1q_u8; rw [rawRead_all]; rfl

theorem is_zero_ok (t : Block is32) : is_zero t = decide (t.val = zeroB 16) := by
  rw [Bool.eq_iff_iff, decide_eq_true_iff]
  obtain ⟨v⟩ := t
  cases is32
  · simp only [is_zero, beq_iff_eq, or_eq_zero, lane_u64, fromLe_eq_zero _ (show 64 = 8 * 8 by rfl)]
    constructor
    · rintro ⟨h0, h1⟩
      apply Vector.ext; intro i hi
      by_cases h : i < 8
      · have := congrArg (fun x => x[i]) h0
        simpa [zeroB] using this
      · have := congrArg (fun x => x[i - 8]) h1
        simpa [zeroB, show 8 + (i - 8) = i by omega] using this
    · rintro rfl
      constructor <;> (apply Vector.ext; intro i hi; simp [zeroB])
  · simp only [is_zero, beq_iff_eq, or_eq_zero, lane_u32, fromLe_eq_zero _ (show 32 = 8 * 4 by rfl)]
    constructor
    · rintro ⟨⟨⟨h0, h1⟩, h2⟩, h3⟩
      apply Vector.ext; intro i hi
      by_cases hA : i < 4
      · have := congrArg (fun x => x[i]) h0
        simpa [zeroB] using this
      by_cases hB : i < 8
      · have := congrArg (fun x => x[i - 4]) h1
        simpa [zeroB, show 4 + (i - 4) = i by omega] using this
      by_cases hC : i < 12
      · have := congrArg (fun x => x[i - 8]) h2
        simpa [zeroB, show 8 + (i - 8) = i by omega] using this
      · have := congrArg (fun x => x[i - 12]) h3
        simpa [zeroB, fin4_three, show 12 + (i - 12) = i by omega] using this
    · rintro rfl
      refine ⟨⟨⟨?_, ?_⟩, ?_⟩, ?_⟩ <;> (apply Vector.ext; intro i hi; simp [zeroB])

instance : LawfulVec (Block is32) where
  view := Block.val
  ofB := Block.mk
  view_ofB _ := rfl
  ofB_view _ := rfl
  new_eq _ := rfl
  from_bytes_eq := from_bytes_ok
  store_to_ok t dst h := by
    show (do assert _; rawWrite dst t.val) = _
    rw [assert_ge h]; exact rawWrite_ok dst t.val h
  store_to_short t dst h := by
    show (do assert _; rawWrite dst t.val) = _
    rw [assert_ge_not h]; rfl
  view_zero := rfl
  is_zero_eq t := is_zero_ok t
  eq_eq a b := by
    show is_zero (bitxor a b) = _
    rw [is_zero_ok]
    have : (bitxor a b).val = xorB a.val b.val := rfl
    simp only [this, xorB_eq_zero]
  view_and _ _ := rfl
  view_or _ _ := rfl
  view_xor _ _ := rfl
  view_not _ := rfl

theorem veorq_eq (a b : U8x16) : veorq a b = xorB a b := rfl
theorem vzero : vdupq_n_u8 0 = zeroB 16 := rfl

instance : LawfulEnc (Block is32) where
  view_enc a k := by
    rw [encRound_eq]
    show veorq (vaesmcq (vaeseq a.val (vdupq_n_u8 0))) k.val = _
    rw [vaesmcq, vaeseq, veorq_eq, veorq_eq, vzero, xorB_zero, ofBytes_toBytes]
    rfl
  view_enc_last a k := by
    rw [encLastRound_eq]
    show veorq (vaeseq a.val (vdupq_n_u8 0)) k.val = _
    rw [vaeseq, veorq_eq, veorq_eq, vzero, xorB_zero]
    rfl

instance : LawfulDec (Block is32) where
  view_dec a k := by
    rw [decRound_eq]
    show veorq (vaesimcq (vaesdq a.val (vdupq_n_u8 0))) k.val = _
    rw [vaesimcq, vaesdq, veorq_eq, veorq_eq, vzero, xorB_zero, ofBytes_toBytes]
    rfl
  view_dec_last a k := by
    rw [decLastRound_eq]
    show veorq (vaesdq a.val (vdupq_n_u8 0)) k.val = _
    rw [vaesdq, veorq_eq, veorq_eq, vzero, xorB_zero]
    rfl
  view_mc _ := rfl
  view_imc _ := rfl

instance : LawfulPre (Block is32) where
  pre_enc_eq p h a k k' := by
    cases h
    show bitxor (mc (aese a k)) k' = bitxor (mc (aese (bitxor a k) zero)) k'
    have : vaeseq (veorq a.val k.val) (vdupq_n_u8 0) = vaeseq a.val k.val := by
      unfold vaeseq; rw [veorq_eq, veorq_eq, vzero, xorB_zero]
    simp only [aese, bitxor, zero, this]
  pre_dec_eq p h a k k' := by
    cases h
    show bitxor (imc (aesd a k)) k' = bitxor (imc (aesd (bitxor a k) zero)) k'
    have : vaesdq (veorq a.val k.val) (vdupq_n_u8 0) = vaesdq a.val k.val := by
      unfold vaesdq; rw [veorq_eq, veorq_eq, vzero, xorB_zero]
    simp only [aesd, bitxor, zero, this]

/-! ### key schedule -/
open Columns

theorem wordOf_sub_word (x : U32) : wordOf .little (sub_word x) = subWord (wordOf .little x) := by
  have h : vaeseq (vdupq_n_u32_bytes x) (vdupq_n_u8 0) =
      State.toBytes (subBytes (shiftRows (State.ofBytes (vdupq_n_u32_bytes x)))) := by
    unfold vaeseq; rw [veorq_eq, vzero, xorB_zero]
  funext j
  simp only [wordOf, toNe, sub_word, lane_u32, toLe_fromLe 32 (n := 4) _ (by omega), Vector.getElem_ofFn, h]
  simp only [State.toBytes, Vector.getElem_ofFn, State.ofBytes, subBytes, shiftRows, vdupq_n_u32_bytes, subWord, wordOf, toNe]
  match j with
  | 0 | 1 | 2 | 3 => simp

theorem first_ok (old prev : U32) (k : Nat) (hk : k < 10) : wordOf .little (first old prev (RCON.toList.getD k 0)) =
    Word.add (wordOf .little old) (Word.add (subWord (rotWord (wordOf .little prev))) (rcon (k + 1))) := by
  unfold first
  rw [wordOf_xor, wordOf_xor, wordOf_rotr8_le, wordOf_sub_word, wordOf_RCON_le k hk, Word.add_assoc]; rfl
theorem fifth_ok (old prev : U32) : wordOf .little (fifth old prev) =
    Word.add (wordOf .little old) (subWord (wordOf .little prev)) := by
  unfold fifth
  rw [wordOf_xor, wordOf_sub_word]

theorem keygen_128_ok (key : Vector U8 16) : keygen_128 is32 key =
    .ok (Vector.ofFn fun r => ⟨roundKeyBytes (keyExpansion 4 key) r⟩) := by
  unfold keygen_128 as_blocks
  rw [columns_128_ok, bind_ok, blocks_std_128 .little (fun _ => first) _ key (fun _ _ _ _ h => first_ok _ _ _ h), pure_ok]
  congr 1
  apply Vector.ext; intro i hi; simp

theorem keygen_192_ok (key : Vector U8 24) : keygen_192 is32 key =
    .ok (Vector.ofFn fun r => ⟨roundKeyBytes (keyExpansion 6 key) r⟩) := by
  unfold keygen_192 as_blocks
  rw [columns_192_ok, bind_ok, blocks_std_192 .little (fun _ => first) _ key (fun _ _ _ _ h => first_ok _ _ _ h), pure_ok]
  congr 1
  apply Vector.ext; intro i hi; simp

theorem keygen_256_ok (key : Vector U8 32) : keygen_256 is32 key =
    .ok (Vector.ofFn fun r => ⟨roundKeyBytes (keyExpansion 8 key) r⟩) := by
  unfold keygen_256 as_blocks
  rw [columns_256_ok, bind_ok, blocks_std_256 .little (fun i => if i = 56 then first else first) fifth key
    (fun _ _ _ _ h => by rw [ite_self]; exact first_ok _ _ _ h) fifth_ok, pure_ok]
  congr 1
  apply Vector.ext; intro i hi; simp

instance : LawfulKeygen (Block is32) where
  keygen_128_eq := keygen_128_ok
  keygen_192_eq := keygen_192_ok
  keygen_256_eq := keygen_256_ok

end Aes.Arm
