import Verif.Properties.Rounds
import Verif.Properties.Wide
/-!
C47: laws that relate a round to its key, at every width and on every target (riscv32 and big-endian included). Constructions
that use the rounds as building blocks (tweaked or permuted round keys, as in AEGIS, Haraka or Deoxys) rely on them.
-/
namespace Aes
open Rust AesSpec Fips197 AesVec AesBlock Target

/-- In `r x k` the key is added last. -/
def KeyAddedLast {T : Type} {n : Nat} [AesVec T n] (r : T → T → T) : Prop := ∀ x k : T, r x k = bitxor (r x zero) k
/-- `r x k` determines `x` from `k` and `k` from `x`. -/
def Cancels {T : Type} (r : T → T → T) : Prop := ∀ x y k l : T, (r x k = r y k → x = y) ∧ (r x k = r x l → k = l)

theorem decRound_rv (s k : Bytes 16) : rv32DecRound s k =
    xorB (State.toBytes (invMixColumns (invSubBytes (shiftRows (State.ofBytes s))))) k := toBytes_addRoundKey ..
theorem decLastRound_rv (s k : Bytes 16) : rv32DecLastRound s k =
    xorB (State.toBytes (invSubBytes (shiftRows (State.ofBytes s)))) k := toBytes_addRoundKey ..

/-- The two laws together. -/
def RoundLaws {T : Type} {n : Nat} [AesVec T n] (r : T → T → T) : Prop := KeyAddedLast r ∧ Cancels r

/-- A round given by an injective map of bytes followed by adding the key. -/
theorem laws_of_view {B : Type} [AesBlock B] [LawfulVec B] {r : B → B → B} (f g : Bytes 16 → Bytes 16)
    (h : ∀ a k, view (r a k) = xorB (f (view a)) (view k)) (hg : ∀ s, g (f s) = s) : RoundLaws r := by
  refine ⟨fun x k => view_inj ?_, fun x y k l => ⟨fun he => view_inj ?_, fun he => view_inj ?_⟩⟩
  · rw [LawfulVec.view_xor, h, h, LawfulVec.view_zero, xorB_zero]
  · have he := congrArg view he
    rw [h, h] at he
    rw [← hg (view x), ← hg (view y), ← xorB_cancel (f (view x)) (view k), he, xorB_cancel]
  · have he := congrArg view he
    rw [h, h, xorB_comm, xorB_comm _ (view l)] at he
    rw [← xorB_cancel (view k) (f (view x)), he, xorB_cancel]

section block
variable (t : Target)

theorem laws_enc : RoundLaws (enc : t.Block → t.Block → t.Block) :=
  laws_of_view (fun s => State.toBytes (mixColumns (shiftRows (subBytes (State.ofBytes s)))))
    (fun s => State.toBytes (invSubBytes (invShiftRows (invMixColumns (State.ofBytes s)))))
    (fun a k => by rw [LawfulEnc.view_enc, encRound_eq])
    (fun s => by simp only [ofBytes_toBytes, invMixColumns_mixColumns, invShiftRows_shiftRows, invSubBytes_subBytes, toBytes_ofBytes])
theorem laws_enc_last : RoundLaws (enc_last : t.Block → t.Block → t.Block) :=
  laws_of_view (fun s => State.toBytes (shiftRows (subBytes (State.ofBytes s))))
    (fun s => State.toBytes (invSubBytes (invShiftRows (State.ofBytes s))))
    (fun a k => by rw [LawfulEnc.view_enc_last, encLastRound_eq])
    (fun s => by simp only [ofBytes_toBytes, invShiftRows_shiftRows, invSubBytes_subBytes, toBytes_ofBytes])
theorem laws_dec : RoundLaws (dec : t.Block → t.Block → t.Block) := by
  by_cases hrv : t = .riscv32
  · subst hrv
    exact laws_of_view (B := Riscv32.Block) (r := Riscv32.dec)
      (fun s => State.toBytes (invMixColumns (invSubBytes (shiftRows (State.ofBytes s)))))
      (fun s => State.toBytes (invShiftRows (subBytes (mixColumns (State.ofBytes s)))))
      (fun a k => by rw [Riscv32.view_dec, decRound_rv])
      (fun s => by simp only [ofBytes_toBytes, mixColumns_invMixColumns, invShiftRows_shiftRows, subBytes_invSubBytes, toBytes_ofBytes])
  · have := t.lawfulDec hrv
    exact laws_of_view (fun s => State.toBytes (invMixColumns (invSubBytes (invShiftRows (State.ofBytes s)))))
      (fun s => State.toBytes (shiftRows (subBytes (mixColumns (State.ofBytes s)))))
      (fun a k => by rw [LawfulDec.view_dec, decRound_eq])
      (fun s => by simp only [ofBytes_toBytes, mixColumns_invMixColumns, shiftRows_invShiftRows, subBytes_invSubBytes, toBytes_ofBytes])
theorem laws_dec_last : RoundLaws (dec_last : t.Block → t.Block → t.Block) := by
  by_cases hrv : t = .riscv32
  · subst hrv
    exact laws_of_view (B := Riscv32.Block) (r := Riscv32.dec_last)
      (fun s => State.toBytes (invSubBytes (shiftRows (State.ofBytes s))))
      (fun s => State.toBytes (invShiftRows (subBytes (State.ofBytes s))))
      (fun a k => by rw [Riscv32.view_dec_last, decLastRound_rv])
      (fun s => by simp only [ofBytes_toBytes, invShiftRows_shiftRows, subBytes_invSubBytes, toBytes_ofBytes])
  · have := t.lawfulDec hrv
    exact laws_of_view (fun s => State.toBytes (invSubBytes (invShiftRows (State.ofBytes s))))
      (fun s => State.toBytes (shiftRows (subBytes (State.ofBytes s))))
      (fun a k => by rw [LawfulDec.view_dec_last, decLastRound_eq])
      (fun s => by simp only [ofBytes_toBytes, shiftRows_invShiftRows, subBytes_invSubBytes, toBytes_ofBytes])

/-! Lifting to two and four blocks. -/

theorem laws_x2 {r : t.Block → t.Block → t.Block} {r2 : t.X2 → t.X2 → t.X2} (h : RoundLaws r)
    (hl : ∀ a b c d, r2 (AesBlockX2.from_pair (a, b)) (AesBlockX2.from_pair (c, d)) = AesBlockX2.from_pair (r a c, r b d)) :
    RoundLaws r2 := by
  have inj : ∀ a b c d : t.Block, (AesBlockX2.from_pair (a, b) : t.X2) = AesBlockX2.from_pair (c, d) → a = c ∧ b = d := by
    intro a b c d he
    have he := congrArg AesBlockX2.to_pair he
    rw [LawfulX2.to_pair_from_pair, LawfulX2.to_pair_from_pair] at he
    exact ⟨congrArg Prod.fst he, congrArg Prod.snd he⟩
  refine ⟨fun x k => ?_, fun x y k l => ?_⟩
  · obtain ⟨a, b, rfl⟩ := x2_surj x
    obtain ⟨c, d, rfl⟩ := x2_surj k
    rw [C30_zero_x2, hl, hl, C30_xor_x2, h.1 a c, h.1 b d]
  · obtain ⟨a, b, rfl⟩ := x2_surj x
    obtain ⟨a', b', rfl⟩ := x2_surj y
    obtain ⟨c, d, rfl⟩ := x2_surj k
    obtain ⟨c', d', rfl⟩ := x2_surj l
    rw [hl, hl, hl]
    refine ⟨fun he => ?_, fun he => ?_⟩
    · obtain ⟨h1, h2⟩ := inj _ _ _ _ he
      rw [(h.2 a a' c c).1 h1, (h.2 b b' d d).1 h2]
    · obtain ⟨h1, h2⟩ := inj _ _ _ _ he
      rw [(h.2 a a c c').2 h1, (h.2 b b d d').2 h2]
theorem laws_x4 {r : t.X2 → t.X2 → t.X2} {r4 : t.X4 → t.X4 → t.X4} (h : RoundLaws r)
    (hl : ∀ a b c d, r4 (AesBlockX4.from_x2_pair (a, b)) (AesBlockX4.from_x2_pair (c, d)) = AesBlockX4.from_x2_pair (r a c, r b d)) :
    RoundLaws r4 := by
  have inj : ∀ a b c d : t.X2, (AesBlockX4.from_x2_pair (a, b) : t.X4) = AesBlockX4.from_x2_pair (c, d) → a = c ∧ b = d := by
    intro a b c d he
    have he := congrArg AesBlockX4.to_x2_pair he
    rw [LawfulX4.to_x2_pair_from_x2_pair, LawfulX4.to_x2_pair_from_x2_pair] at he
    exact ⟨congrArg Prod.fst he, congrArg Prod.snd he⟩
  refine ⟨fun x k => ?_, fun x y k l => ?_⟩
  · obtain ⟨a, b, rfl⟩ := x4_surj x
    obtain ⟨c, d, rfl⟩ := x4_surj k
    rw [C30_zero_x4, hl, hl, (C30_bits_x4 t _ _ _ _).2.2.1, h.1 a c, h.1 b d]
  · obtain ⟨a, b, rfl⟩ := x4_surj x
    obtain ⟨a', b', rfl⟩ := x4_surj y
    obtain ⟨c, d, rfl⟩ := x4_surj k
    obtain ⟨c', d', rfl⟩ := x4_surj l
    rw [hl, hl, hl]
    refine ⟨fun he => ?_, fun he => ?_⟩
    · obtain ⟨h1, h2⟩ := inj _ _ _ _ he
      rw [(h.2 a a' c c).1 h1, (h.2 b b' d d).1 h2]
    · obtain ⟨h1, h2⟩ := inj _ _ _ _ he
      rw [(h.2 a a c c').2 h1, (h.2 b b d d').2 h2]

theorem laws_w {r1 : t.Block → t.Block → t.Block} {r2 : t.X2 → t.X2 → t.X2} {r4 : t.X4 → t.X4 → t.X4} (h : RoundLaws r1)
    (h2 : ∀ a b c d, r2 (AesBlockX2.from_pair (a, b)) (AesBlockX2.from_pair (c, d)) = AesBlockX2.from_pair (r1 a c, r1 b d))
    (h4 : ∀ a b c d, r4 (AesBlockX4.from_x2_pair (a, b)) (AesBlockX4.from_x2_pair (c, d)) = AesBlockX4.from_x2_pair (r2 a c, r2 b d)) :
    RoundLaws r1 ∧ RoundLaws r2 ∧ RoundLaws r4 := ⟨h, laws_x2 t h h2, laws_x4 t (laws_x2 t h h2) h4⟩

/-- C47: `enc`. For every width and target: `x.enc(k) == x.enc(zero) ^ k`; equal results under the same key come from equal
blocks, and equal results for the same block from equal keys. -/
theorem C47_enc (w : Width) (x y k l : t.Vec w) : enc x k = bitxor (enc x zero) k ∧
    (enc x k = enc y k → x = y) ∧ (enc x k = enc x l → k = l) := by
  have h := laws_w t (laws_enc t) (LawfulX2.enc_eq (X2 := t.X2)) (LawfulX4.enc_eq (X4 := t.X4))
  cases w
  · exact ⟨h.1.1 x k, h.1.2 x y k l⟩
  · exact ⟨h.2.1.1 x k, h.2.1.2 x y k l⟩
  · exact ⟨h.2.2.1 x k, h.2.2.2 x y k l⟩
/-- C47: `dec`. -/
theorem C47_dec (w : Width) (x y k l : t.Vec w) : dec x k = bitxor (dec x zero) k ∧
    (dec x k = dec y k → x = y) ∧ (dec x k = dec x l → k = l) := by
  have h := laws_w t (laws_dec t) (LawfulX2.dec_eq (X2 := t.X2)) (LawfulX4.dec_eq (X4 := t.X4))
  cases w
  · exact ⟨h.1.1 x k, h.1.2 x y k l⟩
  · exact ⟨h.2.1.1 x k, h.2.1.2 x y k l⟩
  · exact ⟨h.2.2.1 x k, h.2.2.2 x y k l⟩
/-- C47: `enc_last`. -/
theorem C47_enc_last (w : Width) (x y k l : t.Vec w) : enc_last x k = bitxor (enc_last x zero) k ∧
    (enc_last x k = enc_last y k → x = y) ∧ (enc_last x k = enc_last x l → k = l) := by
  have h := laws_w t (laws_enc_last t) (LawfulX2.enc_last_eq (X2 := t.X2)) (LawfulX4.enc_last_eq (X4 := t.X4))
  cases w
  · exact ⟨h.1.1 x k, h.1.2 x y k l⟩
  · exact ⟨h.2.1.1 x k, h.2.1.2 x y k l⟩
  · exact ⟨h.2.2.1 x k, h.2.2.2 x y k l⟩
/-- C47: `dec_last`. -/
theorem C47_dec_last (w : Width) (x y k l : t.Vec w) : dec_last x k = bitxor (dec_last x zero) k ∧
    (dec_last x k = dec_last y k → x = y) ∧ (dec_last x k = dec_last x l → k = l) := by
  have h := laws_w t (laws_dec_last t) (LawfulX2.dec_last_eq (X2 := t.X2)) (LawfulX4.dec_last_eq (X4 := t.X4))
  cases w
  · exact ⟨h.1.1 x k, h.1.2 x y k l⟩
  · exact ⟨h.2.1.1 x k, h.2.1.2 x y k l⟩
  · exact ⟨h.2.2.1 x k, h.2.2.2 x y k l⟩
end block

/-- C47: a full round is a last round, MIXCOLUMNS and the key (not on riscv32, where `mc` is wrong, C41). -/
theorem C47_enc_decomposed (t : Target) (hrv : t ≠ .riscv32) (x k : t.Block) :
    enc x k = bitxor (mc (enc_last x zero)) k ∧ dec x k = bitxor (imc (dec_last x zero)) k := by
  have he := (C47_enc t .x1 x x k k).1
  have hd := (C47_dec t .x1 x x k k).1
  rw [← C37_enc_mc t hrv x zero, ← C37_dec_imc t hrv x zero, (C36_zero t).1, (C36_zero t).2]
  exact ⟨he, hd⟩
/-- C47: on riscv32 that fails. -/
theorem C47_decomposed_refuted : ∃ x k : Target.riscv32.Block, enc x k ≠ bitxor (mc (enc_last x zero)) k :=
  ⟨⟨0x100#32, 0#32, 0#32, 0#32⟩, zero, fun h => absurd (congrArg into_bytes h) (by decide +kernel)⟩

/-- Concrete: with the operands of src/tests.rs:17-19 on the table-based code, `enc` with the key and without it differ, and
differ by the key. -/
example : ∃ x k : Target.table.Block, enc x k ≠ enc x zero ∧ enc x k = bitxor (enc x zero) k :=
  ⟨⟨0x00010203#32, 0x04050607#32, 0x08090a0b#32, 0x0c0d0e0f#32⟩, ⟨0x10111213#32, 0x14151617#32, 0x18191a1b#32, 0x1c1d1e1f#32⟩,
    fun h => absurd (congrArg into_bytes h) (by decide +kernel), (C47_enc .table .x1 _ (zero : Target.table.Block) _ (zero : Target.table.Block)).1⟩
end Aes
