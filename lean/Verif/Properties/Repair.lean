import Verif.Properties.Contract
import Verif.Properties.BigEndian
import Verif.Properties.Riscv32
/-!
C57: the contract (Verif/Properties/Contract.lean) on the targets of the crate, and what would have to change in the two
modules that do not meet it. The repaired modules are not in the repository; they differ from it in the fields written out here.
-/
namespace Aes
open Rust AesSpec Fips197 AesVec AesBlock Client

/-- C57: the contract is met by exactly the targets that C29 shows to be AES. -/
theorem C57_contract_iff (t : Target) : Contract t.Block ↔ t ≠ .riscv32 ∧ t ≠ .bitslice .big := by
  constructor
  · intro h
    refine ⟨?_, ?_⟩
    · rintro rfl
      obtain ⟨x, _, hx, hb⟩ := h.new ramp
      refine C41_mc_refuted.1 ?_
      rw [hx, bind_ok]
      exact h.mc x ramp hb
    · rintro rfl
      obtain ⟨ks, hk, hr⟩ := h.keygen_128 exKey128
      have he : Aes128Enc.from exKey128 = .ok (⟨ks⟩ : AesEnc BeBlock 10) := by unfold Aes128Enc.from; rw [hk]; rfl
      exact C42_key_schedule_wrong_128 exKey128 ⟨ks⟩ he (hr 1 (by omega))
  · rintro ⟨hrv, hbe⟩
    have := t.lawfulDec hrv
    have := t.lawfulPre hrv
    have := t.lawfulKeygen hrv hbe
    exact Contract.of_lawful

-- A target on each side.
example : Contract (Target.arm true).Block := (C57_contract_iff _).2 ⟨by decide, by decide⟩
example : ¬ Contract Target.riscv32.Block := fun h => ((C57_contract_iff _).1 h).1 rfl
example : ¬ Contract (Target.bitslice .big).Block := fun h => ((C57_contract_iff _).1 h).2 rfl

/-- C57: what `C57_any_backend` calls the crate over a backend is the crate, on every target without vector AES. -/
theorem C57_over_is_crate (t : Target) (h : t ≠ .x86Vaes ∧ t ≠ .x86Vaes512) : Over.crate t.Block = crate t := by
  cases t <;> first | rfl | exact absurd rfl h.1 | exact absurd rfl h.2

/-! ### src/aes_riscv32.rs -/

namespace RepairRv32
open Riscv32 IsaRiscv

/-- `outer!` (src/aes_riscv32.rs:20-40) with the words in the order decryption needs: row `i` comes from column `c - i`. -/
def outerInv (name : U32 → U32 → Nat → U32) (msg rk : Riscv32.Block) : Riscv32.Block :=
  ⟨inner name msg.w0 msg.w3 msg.w2 msg.w1 rk.w0,
   inner name msg.w1 msg.w0 msg.w3 msg.w2 rk.w1,
   inner name msg.w2 msg.w1 msg.w0 msg.w3 rk.w2,
   inner name msg.w3 msg.w2 msg.w1 msg.w0 rk.w3⟩

/-- Blocks of the repaired module. -/
def Block : Type := Riscv32.Block

/-- The repaired module: `dec`, `dec_last`, `mc` and `imc` use `outerInv` for decryption (src/aes_riscv32.rs:147-179), `pre_enc` and
`pre_dec` add the key first (src/aes_riscv32.rs:126-128,148-150), and all key schedules rotate (`first_256` in the place of
`first`: src/aes_riscv32.rs:207,227,235,264). -/
instance : AesBlock Block :=
  { (inferInstance : AesBlock Riscv32.Block) with
    dec := fun x k => outerInv aes32dsmi x k
    dec_last := fun x k => outerInv aes32dsi x k
    mc := fun x => Riscv32.enc (outerInv aes32dsi x Riscv32.zero) Riscv32.zero
    imc := fun x => outerInv aes32dsmi (Riscv32.enc_last x Riscv32.zero) Riscv32.zero
    pre := some ⟨fun x k => Riscv32.enc (Riscv32.bitxor x k) Riscv32.zero, fun x k => outerInv aes32dsmi (Riscv32.bitxor x k) Riscv32.zero⟩
    keygen_128 := fun key => do as_blocks (N := 11) (← Columns.columns_128 first_256 .little key)
    keygen_192 := fun key => do as_blocks (N := 13) (← Columns.columns_192 first_256 .little key)
    keygen_256 := fun key => do as_blocks (N := 15) (← Columns.columns_256 first_256 fifth first_256 .little key) }

instance : LawfulVec Block :=
  { (inferInstance : LawfulVec Riscv32.Block) with }
instance : LawfulEnc Block := ⟨LawfulEnc.view_enc (B := Riscv32.Block), LawfulEnc.view_enc_last (B := Riscv32.Block)⟩

theorem f4s : (0 : Fin 4) - 0 = 0 ∧ (0 : Fin 4) - 1 = 3 ∧ (0 : Fin 4) - 2 = 2 ∧ (0 : Fin 4) - 3 = 1 ∧
    (1 : Fin 4) - 0 = 1 ∧ (1 : Fin 4) - 1 = 0 ∧ (1 : Fin 4) - 2 = 3 ∧ (1 : Fin 4) - 3 = 2 ∧
    (2 : Fin 4) - 0 = 2 ∧ (2 : Fin 4) - 1 = 1 ∧ (2 : Fin 4) - 2 = 0 ∧ (2 : Fin 4) - 3 = 3 ∧
    (3 : Fin 4) - 0 = 3 ∧ (3 : Fin 4) - 1 = 2 ∧ (3 : Fin 4) - 2 = 1 ∧ (3 : Fin 4) - 3 = 0 := by decide
theorem view_outer_dsm (a k : Riscv32.Block) : view (outerInv aes32dsmi a k) = decRound (view a) (view k) := by
  apply bytes_ext
  apply fin4_cases <;> rw [kw_decRound, ← mkW_eta (fun r => invSbox _)] <;>
    simp only [outerInv, f4s, view_kw0, view_kw1, view_kw2, view_kw3, inner_dsm]
theorem view_outer_ds (a k : Riscv32.Block) : view (outerInv aes32dsi a k) = decLastRound (view a) (view k) := by
  apply bytes_ext
  apply fin4_cases <;> rw [kw_decLastRound, ← mkW_eta (fun r => invSbox _)] <;>
    simp only [outerInv, f4s, view_kw0, view_kw1, view_kw2, view_kw3, inner_ds]

theorem add_sub4 : ∀ r c : Fin 4, c + r - r = c := by decide
theorem sub_add4 : ∀ r c : Fin 4, c - r + r = c := by decide
/-- `mc` and `imc` as a round and the last round of the other direction. -/
theorem mc_of (s : Bytes 16) : encRound (decLastRound s (zeroB 16)) (zeroB 16) = mixCols s := by
  rw [encRound, decLastRound, addRoundKey_zero, addRoundKey_zero, ofBytes_toBytes', mixCols]
  rw [show shiftRows (subBytes (invSubBytes (invShiftRows (State.ofBytes s)))) = State.ofBytes s by
    funext r c; simp only [subBytes, invSubBytes, shiftRows, invShiftRows, sbox_invSbox, add_sub4]]
theorem imc_of (s : Bytes 16) : decRound (encLastRound s (zeroB 16)) (zeroB 16) = invMixCols s := by
  rw [decRound, encLastRound, addRoundKey_zero, addRoundKey_zero, ofBytes_toBytes', invMixCols]
  rw [show invSubBytes (invShiftRows (shiftRows (subBytes (State.ofBytes s)))) = State.ofBytes s by
    funext r c; simp only [subBytes, invSubBytes, shiftRows, invShiftRows, invSbox_sbox, sub_add4]]

theorem view_mc (a : Riscv32.Block) : view (Riscv32.enc (outerInv aes32dsi a Riscv32.zero) Riscv32.zero) = mixCols (view a) := by
  rw [enc_eq, view_pre_enc, view_outer_ds, view_zero', mc_of]
theorem view_imc (a : Riscv32.Block) : view (outerInv aes32dsmi (Riscv32.enc_last a Riscv32.zero) Riscv32.zero) = invMixCols (view a) := by
  rw [view_outer_dsm, enc_last_eq, view_pre_enc_last, view_zero', imc_of]

instance : LawfulDec Block := ⟨view_outer_dsm, view_outer_ds, view_mc, view_imc⟩

/-- The key of a round can be added after a round with a zero key. -/
theorem encRound_zero (s k : Bytes 16) : xorB (encRound s (zeroB 16)) k = encRound s k := by
  rw [encRound, encRound, addRoundKey_zero, toBytes_addRoundKey]
theorem decRound_zero (s k : Bytes 16) : xorB (decRound s (zeroB 16)) k = decRound s k := by
  rw [decRound, decRound, addRoundKey_zero, toBytes_addRoundKey]

theorem pre_enc_ok (a k k' : Riscv32.Block) : Riscv32.bitxor (Riscv32.enc (Riscv32.bitxor a k) Riscv32.zero) k' =
    Riscv32.enc (Riscv32.bitxor a k) k' := by
  refine view_inj (T := Riscv32.Block) ?_
  refine (LawfulVec.view_xor (T := Riscv32.Block) _ _).trans ?_
  rw [enc_eq, enc_eq, view_pre_enc, view_pre_enc, view_zero', encRound_zero]
theorem pre_dec_ok (a k k' : Riscv32.Block) : Riscv32.bitxor (outerInv aes32dsmi (Riscv32.bitxor a k) Riscv32.zero) k' =
    outerInv aes32dsmi (Riscv32.bitxor a k) k' := by
  refine view_inj (T := Riscv32.Block) ?_
  refine (LawfulVec.view_xor (T := Riscv32.Block) _ _).trans ?_
  rw [view_outer_dsm, view_outer_dsm, view_zero', decRound_zero]

instance : LawfulPre Block where
  pre_enc_eq p hp a k k' := by
    cases hp
    exact pre_enc_ok a k k'
  pre_dec_eq p hp a k k' := by
    cases hp
    exact pre_dec_ok a k k'

open Columns
theorem keygen_128_ok (key : Vector U8 16) : (columns_128 first_256 .little key >>= fun c => as_blocks (N := 11) c) =
    .ok (Vector.ofFn fun r => ofB' (roundKeyBytes (keyExpansion 4 key) r)) := by
  unfold as_blocks
  rw [columns_128_ok, bind_ok, blocks_std_128 .little (fun _ => first_256) _ key (fun _ _ _ _ h => first_256_ok _ _ _ h), mapM_new]
  refine congrArg Except.ok ?_
  apply Vector.ext; intro i hi; simp
theorem keygen_192_ok (key : Vector U8 24) : (columns_192 first_256 .little key >>= fun c => as_blocks (N := 13) c) =
    .ok (Vector.ofFn fun r => ofB' (roundKeyBytes (keyExpansion 6 key) r)) := by
  unfold as_blocks
  rw [columns_192_ok, bind_ok, blocks_std_192 .little (fun _ => first_256) _ key (fun _ _ _ _ h => first_256_ok _ _ _ h), mapM_new]
  refine congrArg Except.ok ?_
  apply Vector.ext; intro i hi; simp
theorem keygen_256_ok (key : Vector U8 32) :
    (columns_256 first_256 fifth first_256 .little key >>= fun c => as_blocks (N := 15) c) =
    .ok (Vector.ofFn fun r => ofB' (roundKeyBytes (keyExpansion 8 key) r)) := by
  unfold as_blocks
  rw [columns_256_ok, bind_ok, blocks_std_256 .little (fun i => if i = 56 then first_256 else first_256) fifth key
    (fun _ _ _ _ h => by rw [ite_self]; exact first_256_ok _ _ _ h) fifth_ok, mapM_new]
  refine congrArg Except.ok ?_
  apply Vector.ext; intro i hi; simp

instance : LawfulKeygen Block where
  keygen_128_eq := keygen_128_ok
  keygen_192_eq := keygen_192_ok
  keygen_256_eq := keygen_256_ok
end RepairRv32

/-- C57: with these changes `src/aes_riscv32.rs` meets the contract, so every program sees AES. -/
theorem C57_riscv32_repaired : Contract RepairRv32.Block ∧
    ∀ (client : Client) (n : Nat), observe (Over.crate RepairRv32.Block) client n = observe aes client n :=
  have h : Contract RepairRv32.Block := Contract.of_lawful
  ⟨h, C57_any_backend RepairRv32.Block h⟩

/-! ### src/aes_bitslice.rs with big-endian words -/

namespace RepairBe
open Bitslice Columns

/-- First word of a group (src/aes_bitslice.rs:349,367,375,392,402), written for big-endian words. -/
def first (old prev rcon : U32) : U32 := old ^^^ (sub_word prev).rotateLeft 8 ^^^ (rcon <<< 24)

/-- Blocks of the repaired module. -/
def Block : Type := Bitslice.Block .big

/-- The repaired module: only the first words of the groups change in the key schedules (src/aes_bitslice.rs:340-408). -/
instance : AesBlock Block :=
  { (inferInstance : AesBlock (Bitslice.Block .big)) with
    keygen_128 := fun key => do pure (as_blocks .big (N := 11) (← columns_128 first .big key))
    keygen_192 := fun key => do pure (as_blocks .big (N := 13) (← columns_192 first .big key))
    keygen_256 := fun key => do pure (as_blocks .big (N := 15) (← columns_256 first fifth first .big key)) }

instance : LawfulVec Block :=
  { (inferInstance : LawfulVec (Bitslice.Block .big)) with }
instance : LawfulEnc Block :=
  ⟨LawfulEnc.view_enc (B := Bitslice.Block .big), LawfulEnc.view_enc_last (B := Bitslice.Block .big)⟩
instance : LawfulDec Block :=
  ⟨LawfulDec.view_dec (B := Bitslice.Block .big), LawfulDec.view_dec_last (B := Bitslice.Block .big),
   LawfulDec.view_mc (B := Bitslice.Block .big), LawfulDec.view_imc (B := Bitslice.Block .big)⟩
instance : LawfulPre Block :=
  ⟨LawfulPre.pre_enc_eq (T := Bitslice.Block .big), LawfulPre.pre_dec_eq (T := Bitslice.Block .big)⟩

theorem byte_rotateLeft8 (x : U32) (i : Nat) (hi : i < 4) :
    (x.rotateLeft 8).extractLsb' (8 * i) 8 = x.extractLsb' (8 * ((i + 3) % 4)) 8 := by
  have : x.rotateLeft 8 = ((x.rotateRight 8).rotateRight 8).rotateRight 8 := by
    apply BitVec.eq_of_getLsbD_eq
    intro j hj
    simp [BitVec.getLsbD_rotateLeft, BitVec.getLsbD_rotateRight]
    grind
  rw [this, byte_rotateRight8 _ _ hi, byte_rotateRight8 _ _ (by omega), byte_rotateRight8 _ _ (by omega)]
  congr 1; omega
theorem wordOf_rotl8_be (x : U32) : wordOf .big (x.rotateLeft 8) = rotWord (wordOf .big x) := by
  funext j
  simp only [wordOf, rotWord, getElem_toNe4]
  rw [byte_rotateLeft8 _ _ (by omega)]
  match j with
  | 0 | 1 | 2 | 3 => rfl
theorem wordOf_RCON_shl (k : Nat) (hk : k < 10) : wordOf .big (RCON.toList.getD k 0 <<< 24) = rcon (k + 1) := by
  rw [RCON_rcon k hk]
  funext j
  simp only [wordOf, toNe, rcon, Nat.add_sub_cancel]
  generalize pow 0x02#8 k = b
  match j with
  | 0 | 1 | 2 | 3 => revert b; decide +kernel
theorem first_ok (old prev : U32) (k : Nat) (hk : k < 10) : wordOf .big (first old prev (RCON.toList.getD k 0)) =
    Word.add (wordOf .big old) (Word.add (subWord (rotWord (wordOf .big prev))) (rcon (k + 1))) := by
  unfold first
  rw [wordOf_xor, wordOf_xor, wordOf_rotl8_be, wordOf_sub_word, wordOf_RCON_shl k hk, Word.add_assoc]; rfl

theorem keygen_128_ok (key : Vector U8 16) :
    (columns_128 first .big key >>= fun c => pure (as_blocks .big (N := 11) c) : M (Vector (Bitslice.Block .big) 11)) =
    .ok (Vector.ofFn fun r => ⟨fromNe .big 128 (roundKeyBytes (keyExpansion 4 key) r)⟩) := by
  unfold as_blocks
  rw [columns_128_ok, bind_ok, blocks_std_128 .big (fun _ => first) _ key (fun _ _ _ _ h => first_ok _ _ _ h), pure_ok]
  refine congrArg Except.ok ?_
  apply Vector.ext; intro i hi; simp
theorem keygen_192_ok (key : Vector U8 24) :
    (columns_192 first .big key >>= fun c => pure (as_blocks .big (N := 13) c) : M (Vector (Bitslice.Block .big) 13)) =
    .ok (Vector.ofFn fun r => ⟨fromNe .big 128 (roundKeyBytes (keyExpansion 6 key) r)⟩) := by
  unfold as_blocks
  rw [columns_192_ok, bind_ok, blocks_std_192 .big (fun _ => first) _ key (fun _ _ _ _ h => first_ok _ _ _ h), pure_ok]
  refine congrArg Except.ok ?_
  apply Vector.ext; intro i hi; simp
theorem keygen_256_ok (key : Vector U8 32) :
    (columns_256 first fifth first .big key >>= fun c => pure (as_blocks .big (N := 15) c) : M (Vector (Bitslice.Block .big) 15)) =
    .ok (Vector.ofFn fun r => ⟨fromNe .big 128 (roundKeyBytes (keyExpansion 8 key) r)⟩) := by
  unfold as_blocks
  rw [columns_256_ok, bind_ok, blocks_std_256 .big (fun i => if i = 56 then first else first) fifth key
    (fun _ _ _ _ h => by rw [ite_self]; exact first_ok _ _ _ h) (fifth_ok _), pure_ok]
  refine congrArg Except.ok ?_
  apply Vector.ext; intro i hi; simp

instance : LawfulKeygen Block where
  keygen_128_eq := keygen_128_ok
  keygen_192_eq := keygen_192_ok
  keygen_256_eq := keygen_256_ok
end RepairBe

/-- C57: with these changes `src/aes_bitslice.rs` meets the contract on a big-endian target, so every program sees AES. -/
theorem C57_big_endian_repaired : Contract RepairBe.Block ∧
    ∀ (client : Client) (n : Nat), observe (Over.crate RepairBe.Block) client n = observe aes client n :=
  have h : Contract RepairBe.Block := Contract.of_lawful
  ⟨h, C57_any_backend RepairBe.Block h⟩

end Aes
