import Verif.Proofs.GenLeakColumns
import Verif.Gen.LeakLibStd
import Verif.Gen.LeakLibPre
import Verif.Model.LeakClient
/-
The leakage of the functions generated from src/lib.rs (Verif/Gen/LeakLibStd.lean, Verif/Gen/LeakLibPre.lean) is that of the
model, for any modules that provide `AesBlock`, `AesBlockX2` and `AesBlockX4`.
-/
set_option linter.unusedSectionVars false
set_option linter.unusedVariables false
namespace RustSrc.Leak
open Rust

theorem usub_quiet [Cfg] {a b : Nat} (h : b ≤ a) : quiet (Aes.Profile.usub Cfg.profile a b) = pure (a - b) := by
  rw [Aes.Profile.usub_ok _ h, quiet_ok]

/-- The keys are not empty after the assertion. -/
theorem assert_nonempty {α β : Type} (l : List α) (f g : Unit → Aes.Leak.L β) (h : 1 ≤ l.length → f () = g ()) :
    (Aes.Leak.assert (l.length != 0) >>= f) = (Aes.Leak.assert (l.length != 0) >>= g) := by
  cases l with
  | nil => rfl
  | cons a l => exact congrArg _ (funext fun _ => h (by simp))

section
variable {B X2 X4 : Type} [Cfg] [Aes.AesBlock B] [Aes.AesBlockX2 B X2] [Aes.AesBlockX4 B X2 X4]
  [Aes.Leak.LBlock B] [Aes.Leak.LVec X2 32] [Aes.Leak.LVec X4 64]

theorem Lib.Std.AesBlock.into_bytes_eq : (Lib.Std.AesBlock.into_bytes : B → _) = Aes.Leak.into_bytes := by
  funext v
  unfold Lib.Std.AesBlock.into_bytes Aes.Leak.into_bytes withSlice
  simp only [Vector.toList_replicate]
  rfl
theorem Lib.Std.AesBlock.try_from_eq : (Lib.Std.AesBlock.try_from : _ → Aes.Leak.L (Except Nat B)) = Aes.Leak.try_from :=
  Core.try_from_slice_eq 16 _
theorem Lib.Std.AesBlockX2.into_bytes_eq : (Lib.Std.AesBlockX2.into_bytes : X2 → _) = Aes.Leak.into_bytes := by
  funext v
  unfold Lib.Std.AesBlockX2.into_bytes Aes.Leak.into_bytes withSlice
  simp only [Vector.toList_replicate]
  rfl
theorem Lib.Std.AesBlockX2.try_from_eq : (Lib.Std.AesBlockX2.try_from : _ → Aes.Leak.L (Except Nat X2)) = Aes.Leak.try_from :=
  Core.try_from_slice_eq 32 _
theorem Lib.Std.AesBlockX4.into_bytes_eq : (Lib.Std.AesBlockX4.into_bytes : X4 → _) = Aes.Leak.into_bytes := by
  funext v
  unfold Lib.Std.AesBlockX4.into_bytes Aes.Leak.into_bytes withSlice
  simp only [Vector.toList_replicate]
  rfl
theorem Lib.Std.AesBlockX4.try_from_eq : (Lib.Std.AesBlockX4.try_from : _ → Aes.Leak.L (Except Nat X4)) = Aes.Leak.try_from :=
  Core.try_from_slice_eq 64 _
theorem Lib.Std.into_u128_eq : (Lib.Std.AesBlock.into_u128 : B → _) = Aes.Leak.into_u128 := by
  funext v
  unfold Lib.Std.AesBlock.into_u128 Aes.Leak.into_u128
  rw [Lib.Std.AesBlock.into_bytes_eq]
theorem Lib.Std.dec_round_keys_eq {N : Nat} (hN : 1 ≤ N) : (Lib.Std.dec_round_keys N : Vector B N → _) = Aes.Leak.dec_round_keys := by
  funext v
  unfold Lib.Std.dec_round_keys Aes.Leak.dec_round_keys
  refine congrArg _ (funext fun z => ?_)
  simp only [usub_quiet hN, pure_bind]
  refine congrArg _ (funext fun x => congrArg _ (funext fun d => ?_))
  refine congrArg (· >>= _) (forEach_congr _ _ _ (fun a i hi => ?_) d)
  have := rangeStep_lt hi (by omega)
  rw [usub_quiet (by omega)]
  rfl

theorem Lib.Std.enc_round_keys_eq {N : Nat} (hN : 1 ≤ N) : (Lib.Std.enc_round_keys N : Vector B N → _) = Aes.Leak.enc_round_keys := by
  funext v
  unfold Lib.Std.enc_round_keys Aes.Leak.enc_round_keys
  refine congrArg _ (funext fun z => ?_)
  simp only [usub_quiet hN, pure_bind]
  refine congrArg _ (funext fun x => congrArg _ (funext fun d => ?_))
  refine congrArg (· >>= _) (forEach_congr _ _ _ (fun a i hi => ?_) d)
  have := rangeStep_lt hi (by omega)
  rw [usub_quiet (by omega)]
  rfl

theorem Lib.Std.AesBlock.chain_enc_eq (h : (Aes.Leak.LVec.pre : Option (Aes.Leak.LPre B)) = none) :
    (Lib.Std.AesBlock.chain_enc : B → List B → _) = Aes.Leak.chain_enc := by
  funext v keys
  unfold Lib.Std.AesBlock.chain_enc Aes.Leak.chain_enc
  rw [h]
  unfold Aes.Leak.chain_enc_std
  rfl
theorem Lib.Std.AesBlock.chain_dec_eq (h : (Aes.Leak.LVec.pre : Option (Aes.Leak.LPre B)) = none) :
    (Lib.Std.AesBlock.chain_dec : B → List B → _) = Aes.Leak.chain_dec := by
  funext v keys
  unfold Lib.Std.AesBlock.chain_dec Aes.Leak.chain_dec
  rw [h]
  unfold Aes.Leak.chain_dec_std
  rfl
theorem Lib.Std.AesBlockX2.chain_enc_eq (h : (Aes.Leak.LVec.pre : Option (Aes.Leak.LPre X2)) = none) :
    (Lib.Std.AesBlockX2.chain_enc : X2 → List X2 → _) = Aes.Leak.chain_enc := by
  funext v keys
  unfold Lib.Std.AesBlockX2.chain_enc Aes.Leak.chain_enc
  rw [h]
  unfold Aes.Leak.chain_enc_std
  rfl
theorem Lib.Std.AesBlockX2.chain_dec_eq (h : (Aes.Leak.LVec.pre : Option (Aes.Leak.LPre X2)) = none) :
    (Lib.Std.AesBlockX2.chain_dec : X2 → List X2 → _) = Aes.Leak.chain_dec := by
  funext v keys
  unfold Lib.Std.AesBlockX2.chain_dec Aes.Leak.chain_dec
  rw [h]
  unfold Aes.Leak.chain_dec_std
  rfl
theorem Lib.Std.AesBlockX4.chain_enc_eq (h : (Aes.Leak.LVec.pre : Option (Aes.Leak.LPre X4)) = none) :
    (Lib.Std.AesBlockX4.chain_enc : X4 → List X4 → _) = Aes.Leak.chain_enc := by
  funext v keys
  unfold Lib.Std.AesBlockX4.chain_enc Aes.Leak.chain_enc
  rw [h]
  unfold Aes.Leak.chain_enc_std
  rfl
theorem Lib.Std.AesBlockX4.chain_dec_eq (h : (Aes.Leak.LVec.pre : Option (Aes.Leak.LPre X4)) = none) :
    (Lib.Std.AesBlockX4.chain_dec : X4 → List X4 → _) = Aes.Leak.chain_dec := by
  funext v keys
  unfold Lib.Std.AesBlockX4.chain_dec Aes.Leak.chain_dec
  rw [h]
  unfold Aes.Leak.chain_dec_std
  rfl
theorem Lib.Std.Aes128Enc.decrypter_eq : (Lib.Std.Aes128Enc.decrypter : Aes.AesEnc B 10 → _) = Aes.Leak.decrypter := by
  unfold Lib.Std.Aes128Enc.decrypter Aes.Leak.decrypter
  rw [Lib.Std.dec_round_keys_eq (by omega)]
theorem Lib.Std.Aes128Dec.encrypter_eq : (Lib.Std.Aes128Dec.encrypter : Aes.AesDec B 10 → _) = Aes.Leak.encrypter := by
  unfold Lib.Std.Aes128Dec.encrypter Aes.Leak.encrypter
  rw [Lib.Std.enc_round_keys_eq (by omega)]
theorem Lib.Std.Aes128Dec.from_eq : (Lib.Std.Aes128Dec.from : _ → Aes.Leak.L (Aes.AesDec B 10)) = Aes.Leak.dec_from_128 := by
  unfold Lib.Std.Aes128Dec.from Aes.Leak.dec_from_128
  rw [Lib.Std.Aes128Enc.decrypter_eq]
  rfl
theorem Lib.Std.Aes128Enc.encrypt_block_eq (h : (Aes.Leak.LVec.pre : Option (Aes.Leak.LPre B)) = none) :
    (Lib.Std.Aes128Enc.encrypt_block : Aes.AesEnc B 10 → B → _) = Aes.Leak.encrypt id := by
  funext e x
  unfold Lib.Std.Aes128Enc.encrypt_block Aes.Leak.encrypt
  rw [Lib.Std.AesBlock.chain_enc_eq h]
  simp only [Vector.map_id]
theorem Lib.Std.Aes128Dec.decrypt_block_eq (h : (Aes.Leak.LVec.pre : Option (Aes.Leak.LPre B)) = none) :
    (Lib.Std.Aes128Dec.decrypt_block : Aes.AesDec B 10 → B → _) = Aes.Leak.decrypt id := by
  funext e x
  unfold Lib.Std.Aes128Dec.decrypt_block Aes.Leak.decrypt
  rw [Lib.Std.AesBlock.chain_dec_eq h]
  simp only [Vector.map_id]
theorem Lib.Std.Aes128Enc.encrypt_2_blocks_eq (h : (Aes.Leak.LVec.pre : Option (Aes.Leak.LPre X2)) = none) :
    (Lib.Std.Aes128Enc.encrypt_2_blocks : Aes.AesEnc B 10 → X2 → _) = Aes.Leak.encrypt (Aes.AesBlockX2.from_block (T := X2)) := by
  funext e x
  unfold Lib.Std.Aes128Enc.encrypt_2_blocks Aes.Leak.encrypt
  rw [Lib.Std.AesBlockX2.chain_enc_eq h]
theorem Lib.Std.Aes128Dec.decrypt_2_blocks_eq (h : (Aes.Leak.LVec.pre : Option (Aes.Leak.LPre X2)) = none) :
    (Lib.Std.Aes128Dec.decrypt_2_blocks : Aes.AesDec B 10 → X2 → _) = Aes.Leak.decrypt (Aes.AesBlockX2.from_block (T := X2)) := by
  funext e x
  unfold Lib.Std.Aes128Dec.decrypt_2_blocks Aes.Leak.decrypt
  rw [Lib.Std.AesBlockX2.chain_dec_eq h]
theorem Lib.Std.Aes128Enc.encrypt_4_blocks_eq (h : (Aes.Leak.LVec.pre : Option (Aes.Leak.LPre X4)) = none) :
    (Lib.Std.Aes128Enc.encrypt_4_blocks : Aes.AesEnc B 10 → X4 → _) = Aes.Leak.encrypt (Aes.AesBlockX4.from_block (T := X4)) := by
  funext e x
  unfold Lib.Std.Aes128Enc.encrypt_4_blocks Aes.Leak.encrypt
  rw [Lib.Std.AesBlockX4.chain_enc_eq h]
theorem Lib.Std.Aes128Dec.decrypt_4_blocks_eq (h : (Aes.Leak.LVec.pre : Option (Aes.Leak.LPre X4)) = none) :
    (Lib.Std.Aes128Dec.decrypt_4_blocks : Aes.AesDec B 10 → X4 → _) = Aes.Leak.decrypt (Aes.AesBlockX4.from_block (T := X4)) := by
  funext e x
  unfold Lib.Std.Aes128Dec.decrypt_4_blocks Aes.Leak.decrypt
  rw [Lib.Std.AesBlockX4.chain_dec_eq h]
theorem Lib.Std.Aes192Enc.decrypter_eq : (Lib.Std.Aes192Enc.decrypter : Aes.AesEnc B 12 → _) = Aes.Leak.decrypter := by
  unfold Lib.Std.Aes192Enc.decrypter Aes.Leak.decrypter
  rw [Lib.Std.dec_round_keys_eq (by omega)]
theorem Lib.Std.Aes192Dec.encrypter_eq : (Lib.Std.Aes192Dec.encrypter : Aes.AesDec B 12 → _) = Aes.Leak.encrypter := by
  unfold Lib.Std.Aes192Dec.encrypter Aes.Leak.encrypter
  rw [Lib.Std.enc_round_keys_eq (by omega)]
theorem Lib.Std.Aes192Dec.from_eq : (Lib.Std.Aes192Dec.from : _ → Aes.Leak.L (Aes.AesDec B 12)) = Aes.Leak.dec_from_192 := by
  unfold Lib.Std.Aes192Dec.from Aes.Leak.dec_from_192
  rw [Lib.Std.Aes192Enc.decrypter_eq]
  rfl
theorem Lib.Std.Aes192Enc.encrypt_block_eq (h : (Aes.Leak.LVec.pre : Option (Aes.Leak.LPre B)) = none) :
    (Lib.Std.Aes192Enc.encrypt_block : Aes.AesEnc B 12 → B → _) = Aes.Leak.encrypt id := by
  funext e x
  unfold Lib.Std.Aes192Enc.encrypt_block Aes.Leak.encrypt
  rw [Lib.Std.AesBlock.chain_enc_eq h]
  simp only [Vector.map_id]
theorem Lib.Std.Aes192Dec.decrypt_block_eq (h : (Aes.Leak.LVec.pre : Option (Aes.Leak.LPre B)) = none) :
    (Lib.Std.Aes192Dec.decrypt_block : Aes.AesDec B 12 → B → _) = Aes.Leak.decrypt id := by
  funext e x
  unfold Lib.Std.Aes192Dec.decrypt_block Aes.Leak.decrypt
  rw [Lib.Std.AesBlock.chain_dec_eq h]
  simp only [Vector.map_id]
theorem Lib.Std.Aes192Enc.encrypt_2_blocks_eq (h : (Aes.Leak.LVec.pre : Option (Aes.Leak.LPre X2)) = none) :
    (Lib.Std.Aes192Enc.encrypt_2_blocks : Aes.AesEnc B 12 → X2 → _) = Aes.Leak.encrypt (Aes.AesBlockX2.from_block (T := X2)) := by
  funext e x
  unfold Lib.Std.Aes192Enc.encrypt_2_blocks Aes.Leak.encrypt
  rw [Lib.Std.AesBlockX2.chain_enc_eq h]
theorem Lib.Std.Aes192Dec.decrypt_2_blocks_eq (h : (Aes.Leak.LVec.pre : Option (Aes.Leak.LPre X2)) = none) :
    (Lib.Std.Aes192Dec.decrypt_2_blocks : Aes.AesDec B 12 → X2 → _) = Aes.Leak.decrypt (Aes.AesBlockX2.from_block (T := X2)) := by
  funext e x
  unfold Lib.Std.Aes192Dec.decrypt_2_blocks Aes.Leak.decrypt
  rw [Lib.Std.AesBlockX2.chain_dec_eq h]
theorem Lib.Std.Aes192Enc.encrypt_4_blocks_eq (h : (Aes.Leak.LVec.pre : Option (Aes.Leak.LPre X4)) = none) :
    (Lib.Std.Aes192Enc.encrypt_4_blocks : Aes.AesEnc B 12 → X4 → _) = Aes.Leak.encrypt (Aes.AesBlockX4.from_block (T := X4)) := by
  funext e x
  unfold Lib.Std.Aes192Enc.encrypt_4_blocks Aes.Leak.encrypt
  rw [Lib.Std.AesBlockX4.chain_enc_eq h]
theorem Lib.Std.Aes192Dec.decrypt_4_blocks_eq (h : (Aes.Leak.LVec.pre : Option (Aes.Leak.LPre X4)) = none) :
    (Lib.Std.Aes192Dec.decrypt_4_blocks : Aes.AesDec B 12 → X4 → _) = Aes.Leak.decrypt (Aes.AesBlockX4.from_block (T := X4)) := by
  funext e x
  unfold Lib.Std.Aes192Dec.decrypt_4_blocks Aes.Leak.decrypt
  rw [Lib.Std.AesBlockX4.chain_dec_eq h]
theorem Lib.Std.Aes256Enc.decrypter_eq : (Lib.Std.Aes256Enc.decrypter : Aes.AesEnc B 14 → _) = Aes.Leak.decrypter := by
  unfold Lib.Std.Aes256Enc.decrypter Aes.Leak.decrypter
  rw [Lib.Std.dec_round_keys_eq (by omega)]
theorem Lib.Std.Aes256Dec.encrypter_eq : (Lib.Std.Aes256Dec.encrypter : Aes.AesDec B 14 → _) = Aes.Leak.encrypter := by
  unfold Lib.Std.Aes256Dec.encrypter Aes.Leak.encrypter
  rw [Lib.Std.enc_round_keys_eq (by omega)]
theorem Lib.Std.Aes256Dec.from_eq : (Lib.Std.Aes256Dec.from : _ → Aes.Leak.L (Aes.AesDec B 14)) = Aes.Leak.dec_from_256 := by
  unfold Lib.Std.Aes256Dec.from Aes.Leak.dec_from_256
  rw [Lib.Std.Aes256Enc.decrypter_eq]
  rfl
theorem Lib.Std.Aes256Enc.encrypt_block_eq (h : (Aes.Leak.LVec.pre : Option (Aes.Leak.LPre B)) = none) :
    (Lib.Std.Aes256Enc.encrypt_block : Aes.AesEnc B 14 → B → _) = Aes.Leak.encrypt id := by
  funext e x
  unfold Lib.Std.Aes256Enc.encrypt_block Aes.Leak.encrypt
  rw [Lib.Std.AesBlock.chain_enc_eq h]
  simp only [Vector.map_id]
theorem Lib.Std.Aes256Dec.decrypt_block_eq (h : (Aes.Leak.LVec.pre : Option (Aes.Leak.LPre B)) = none) :
    (Lib.Std.Aes256Dec.decrypt_block : Aes.AesDec B 14 → B → _) = Aes.Leak.decrypt id := by
  funext e x
  unfold Lib.Std.Aes256Dec.decrypt_block Aes.Leak.decrypt
  rw [Lib.Std.AesBlock.chain_dec_eq h]
  simp only [Vector.map_id]
theorem Lib.Std.Aes256Enc.encrypt_2_blocks_eq (h : (Aes.Leak.LVec.pre : Option (Aes.Leak.LPre X2)) = none) :
    (Lib.Std.Aes256Enc.encrypt_2_blocks : Aes.AesEnc B 14 → X2 → _) = Aes.Leak.encrypt (Aes.AesBlockX2.from_block (T := X2)) := by
  funext e x
  unfold Lib.Std.Aes256Enc.encrypt_2_blocks Aes.Leak.encrypt
  rw [Lib.Std.AesBlockX2.chain_enc_eq h]
theorem Lib.Std.Aes256Dec.decrypt_2_blocks_eq (h : (Aes.Leak.LVec.pre : Option (Aes.Leak.LPre X2)) = none) :
    (Lib.Std.Aes256Dec.decrypt_2_blocks : Aes.AesDec B 14 → X2 → _) = Aes.Leak.decrypt (Aes.AesBlockX2.from_block (T := X2)) := by
  funext e x
  unfold Lib.Std.Aes256Dec.decrypt_2_blocks Aes.Leak.decrypt
  rw [Lib.Std.AesBlockX2.chain_dec_eq h]
theorem Lib.Std.Aes256Enc.encrypt_4_blocks_eq (h : (Aes.Leak.LVec.pre : Option (Aes.Leak.LPre X4)) = none) :
    (Lib.Std.Aes256Enc.encrypt_4_blocks : Aes.AesEnc B 14 → X4 → _) = Aes.Leak.encrypt (Aes.AesBlockX4.from_block (T := X4)) := by
  funext e x
  unfold Lib.Std.Aes256Enc.encrypt_4_blocks Aes.Leak.encrypt
  rw [Lib.Std.AesBlockX4.chain_enc_eq h]
theorem Lib.Std.Aes256Dec.decrypt_4_blocks_eq (h : (Aes.Leak.LVec.pre : Option (Aes.Leak.LPre X4)) = none) :
    (Lib.Std.Aes256Dec.decrypt_4_blocks : Aes.AesDec B 14 → X4 → _) = Aes.Leak.decrypt (Aes.AesBlockX4.from_block (T := X4)) := by
  funext e x
  unfold Lib.Std.Aes256Dec.decrypt_4_blocks Aes.Leak.decrypt
  rw [Lib.Std.AesBlockX4.chain_dec_eq h]

end

section
variable {B X2 X4 : Type} [Cfg] [Aes.AesBlock B] [Aes.AesBlockX2 B X2] [Aes.AesBlockX4 B X2 X4]
  [l1 : Aes.Leak.LBlock B] [l2 : Aes.Leak.LVec X2 32] [l4 : Aes.Leak.LVec X4 64] [LHasPre B]

theorem Lib.Pre.AesBlock.into_bytes_eq : (Lib.Pre.AesBlock.into_bytes : B → _) = Aes.Leak.into_bytes := by
  funext v
  unfold Lib.Pre.AesBlock.into_bytes Aes.Leak.into_bytes withSlice
  simp only [Vector.toList_replicate]
  rfl
theorem Lib.Pre.AesBlock.try_from_eq : (Lib.Pre.AesBlock.try_from : _ → Aes.Leak.L (Except Nat B)) = Aes.Leak.try_from :=
  Core.try_from_slice_eq 16 _
theorem Lib.Pre.AesBlockX2.into_bytes_eq : (Lib.Pre.AesBlockX2.into_bytes : X2 → _) = Aes.Leak.into_bytes := by
  funext v
  unfold Lib.Pre.AesBlockX2.into_bytes Aes.Leak.into_bytes withSlice
  simp only [Vector.toList_replicate]
  rfl
theorem Lib.Pre.AesBlockX2.try_from_eq : (Lib.Pre.AesBlockX2.try_from : _ → Aes.Leak.L (Except Nat X2)) = Aes.Leak.try_from :=
  Core.try_from_slice_eq 32 _
theorem Lib.Pre.AesBlockX4.into_bytes_eq : (Lib.Pre.AesBlockX4.into_bytes : X4 → _) = Aes.Leak.into_bytes := by
  funext v
  unfold Lib.Pre.AesBlockX4.into_bytes Aes.Leak.into_bytes withSlice
  simp only [Vector.toList_replicate]
  rfl
theorem Lib.Pre.AesBlockX4.try_from_eq : (Lib.Pre.AesBlockX4.try_from : _ → Aes.Leak.L (Except Nat X4)) = Aes.Leak.try_from :=
  Core.try_from_slice_eq 64 _
theorem Lib.Pre.into_u128_eq : (Lib.Pre.AesBlock.into_u128 : B → _) = Aes.Leak.into_u128 := by
  funext v
  unfold Lib.Pre.AesBlock.into_u128 Aes.Leak.into_u128
  rw [Lib.Pre.AesBlock.into_bytes_eq]
theorem Lib.Pre.dec_round_keys_eq {N : Nat} (hN : 1 ≤ N) : (Lib.Pre.dec_round_keys N : Vector B N → _) = Aes.Leak.dec_round_keys := by
  funext v
  unfold Lib.Pre.dec_round_keys Aes.Leak.dec_round_keys
  refine congrArg _ (funext fun z => ?_)
  simp only [usub_quiet hN, pure_bind]
  refine congrArg _ (funext fun x => congrArg _ (funext fun d => ?_))
  refine congrArg (· >>= _) (forEach_congr _ _ _ (fun a i hi => ?_) d)
  have := rangeStep_lt hi (by omega)
  rw [usub_quiet (by omega)]
  rfl

theorem Lib.Pre.enc_round_keys_eq {N : Nat} (hN : 1 ≤ N) : (Lib.Pre.enc_round_keys N : Vector B N → _) = Aes.Leak.enc_round_keys := by
  funext v
  unfold Lib.Pre.enc_round_keys Aes.Leak.enc_round_keys
  refine congrArg _ (funext fun z => ?_)
  simp only [usub_quiet hN, pure_bind]
  refine congrArg _ (funext fun x => congrArg _ (funext fun d => ?_))
  refine congrArg (· >>= _) (forEach_congr _ _ _ (fun a i hi => ?_) d)
  have := rangeStep_lt hi (by omega)
  rw [usub_quiet (by omega)]
  rfl

theorem Lib.Pre.AesBlock.chain_enc_eq (h : (Aes.Leak.LVec.pre : Option (Aes.Leak.LPre B)) = some ⟨LHasPre.pre_enc, LHasPre.pre_dec⟩) :
    (Lib.Pre.AesBlock.chain_enc : B → List B → _) = Aes.Leak.chain_enc := by
  funext v keys
  unfold Lib.Pre.AesBlock.chain_enc Aes.Leak.chain_enc
  rw [h]
  refine assert_nonempty keys _ _ fun hk => ?_
  simp only [usub_quiet hk, pure_bind]
theorem Lib.Pre.AesBlock.chain_dec_eq (h : (Aes.Leak.LVec.pre : Option (Aes.Leak.LPre B)) = some ⟨LHasPre.pre_enc, LHasPre.pre_dec⟩) :
    (Lib.Pre.AesBlock.chain_dec : B → List B → _) = Aes.Leak.chain_dec := by
  funext v keys
  unfold Lib.Pre.AesBlock.chain_dec Aes.Leak.chain_dec
  rw [h]
  refine assert_nonempty keys _ _ fun hk => ?_
  simp only [usub_quiet hk, pure_bind]
theorem Lib.Pre.AesBlockX2.chain_enc_eq (h : (Aes.Leak.LVec.pre : Option (Aes.Leak.LPre X2)) = some ⟨Lib.Pre.AesBlockX2.pre_enc, Lib.Pre.AesBlockX2.pre_dec⟩) :
    (Lib.Pre.AesBlockX2.chain_enc : X2 → List X2 → _) = Aes.Leak.chain_enc := by
  funext v keys
  unfold Lib.Pre.AesBlockX2.chain_enc Aes.Leak.chain_enc
  rw [h]
  refine assert_nonempty keys _ _ fun hk => ?_
  simp only [usub_quiet hk, pure_bind]
theorem Lib.Pre.AesBlockX2.chain_dec_eq (h : (Aes.Leak.LVec.pre : Option (Aes.Leak.LPre X2)) = some ⟨Lib.Pre.AesBlockX2.pre_enc, Lib.Pre.AesBlockX2.pre_dec⟩) :
    (Lib.Pre.AesBlockX2.chain_dec : X2 → List X2 → _) = Aes.Leak.chain_dec := by
  funext v keys
  unfold Lib.Pre.AesBlockX2.chain_dec Aes.Leak.chain_dec
  rw [h]
  refine assert_nonempty keys _ _ fun hk => ?_
  simp only [usub_quiet hk, pure_bind]
theorem Lib.Pre.AesBlockX4.chain_enc_eq (h : (Aes.Leak.LVec.pre : Option (Aes.Leak.LPre X4)) = some ⟨Lib.Pre.AesBlockX4.pre_enc, Lib.Pre.AesBlockX4.pre_dec⟩) :
    (Lib.Pre.AesBlockX4.chain_enc : X4 → List X4 → _) = Aes.Leak.chain_enc := by
  funext v keys
  unfold Lib.Pre.AesBlockX4.chain_enc Aes.Leak.chain_enc
  rw [h]
  refine assert_nonempty keys _ _ fun hk => ?_
  simp only [usub_quiet hk, pure_bind]
theorem Lib.Pre.AesBlockX4.chain_dec_eq (h : (Aes.Leak.LVec.pre : Option (Aes.Leak.LPre X4)) = some ⟨Lib.Pre.AesBlockX4.pre_enc, Lib.Pre.AesBlockX4.pre_dec⟩) :
    (Lib.Pre.AesBlockX4.chain_dec : X4 → List X4 → _) = Aes.Leak.chain_dec := by
  funext v keys
  unfold Lib.Pre.AesBlockX4.chain_dec Aes.Leak.chain_dec
  rw [h]
  refine assert_nonempty keys _ _ fun hk => ?_
  simp only [usub_quiet hk, pure_bind]
theorem Lib.Pre.Aes128Enc.decrypter_eq : (Lib.Pre.Aes128Enc.decrypter : Aes.AesEnc B 10 → _) = Aes.Leak.decrypter := by
  unfold Lib.Pre.Aes128Enc.decrypter Aes.Leak.decrypter
  rw [Lib.Pre.dec_round_keys_eq (by omega)]
theorem Lib.Pre.Aes128Dec.encrypter_eq : (Lib.Pre.Aes128Dec.encrypter : Aes.AesDec B 10 → _) = Aes.Leak.encrypter := by
  unfold Lib.Pre.Aes128Dec.encrypter Aes.Leak.encrypter
  rw [Lib.Pre.enc_round_keys_eq (by omega)]
theorem Lib.Pre.Aes128Dec.from_eq : (Lib.Pre.Aes128Dec.from : _ → Aes.Leak.L (Aes.AesDec B 10)) = Aes.Leak.dec_from_128 := by
  unfold Lib.Pre.Aes128Dec.from Aes.Leak.dec_from_128
  rw [Lib.Pre.Aes128Enc.decrypter_eq]
  rfl
theorem Lib.Pre.Aes128Enc.encrypt_block_eq (h : (Aes.Leak.LVec.pre : Option (Aes.Leak.LPre B)) = some ⟨LHasPre.pre_enc, LHasPre.pre_dec⟩) :
    (Lib.Pre.Aes128Enc.encrypt_block : Aes.AesEnc B 10 → B → _) = Aes.Leak.encrypt id := by
  funext e x
  unfold Lib.Pre.Aes128Enc.encrypt_block Aes.Leak.encrypt
  rw [Lib.Pre.AesBlock.chain_enc_eq h]
  simp only [Vector.map_id]
theorem Lib.Pre.Aes128Dec.decrypt_block_eq (h : (Aes.Leak.LVec.pre : Option (Aes.Leak.LPre B)) = some ⟨LHasPre.pre_enc, LHasPre.pre_dec⟩) :
    (Lib.Pre.Aes128Dec.decrypt_block : Aes.AesDec B 10 → B → _) = Aes.Leak.decrypt id := by
  funext e x
  unfold Lib.Pre.Aes128Dec.decrypt_block Aes.Leak.decrypt
  rw [Lib.Pre.AesBlock.chain_dec_eq h]
  simp only [Vector.map_id]
theorem Lib.Pre.Aes128Enc.encrypt_2_blocks_eq (h : (Aes.Leak.LVec.pre : Option (Aes.Leak.LPre X2)) = some ⟨Lib.Pre.AesBlockX2.pre_enc, Lib.Pre.AesBlockX2.pre_dec⟩) :
    (Lib.Pre.Aes128Enc.encrypt_2_blocks : Aes.AesEnc B 10 → X2 → _) = Aes.Leak.encrypt (Aes.AesBlockX2.from_block (T := X2)) := by
  funext e x
  unfold Lib.Pre.Aes128Enc.encrypt_2_blocks Aes.Leak.encrypt
  rw [Lib.Pre.AesBlockX2.chain_enc_eq h]
theorem Lib.Pre.Aes128Dec.decrypt_2_blocks_eq (h : (Aes.Leak.LVec.pre : Option (Aes.Leak.LPre X2)) = some ⟨Lib.Pre.AesBlockX2.pre_enc, Lib.Pre.AesBlockX2.pre_dec⟩) :
    (Lib.Pre.Aes128Dec.decrypt_2_blocks : Aes.AesDec B 10 → X2 → _) = Aes.Leak.decrypt (Aes.AesBlockX2.from_block (T := X2)) := by
  funext e x
  unfold Lib.Pre.Aes128Dec.decrypt_2_blocks Aes.Leak.decrypt
  rw [Lib.Pre.AesBlockX2.chain_dec_eq h]
theorem Lib.Pre.Aes128Enc.encrypt_4_blocks_eq (h : (Aes.Leak.LVec.pre : Option (Aes.Leak.LPre X4)) = some ⟨Lib.Pre.AesBlockX4.pre_enc, Lib.Pre.AesBlockX4.pre_dec⟩) :
    (Lib.Pre.Aes128Enc.encrypt_4_blocks : Aes.AesEnc B 10 → X4 → _) = Aes.Leak.encrypt (Aes.AesBlockX4.from_block (T := X4)) := by
  funext e x
  unfold Lib.Pre.Aes128Enc.encrypt_4_blocks Aes.Leak.encrypt
  rw [Lib.Pre.AesBlockX4.chain_enc_eq h]
theorem Lib.Pre.Aes128Dec.decrypt_4_blocks_eq (h : (Aes.Leak.LVec.pre : Option (Aes.Leak.LPre X4)) = some ⟨Lib.Pre.AesBlockX4.pre_enc, Lib.Pre.AesBlockX4.pre_dec⟩) :
    (Lib.Pre.Aes128Dec.decrypt_4_blocks : Aes.AesDec B 10 → X4 → _) = Aes.Leak.decrypt (Aes.AesBlockX4.from_block (T := X4)) := by
  funext e x
  unfold Lib.Pre.Aes128Dec.decrypt_4_blocks Aes.Leak.decrypt
  rw [Lib.Pre.AesBlockX4.chain_dec_eq h]
theorem Lib.Pre.Aes192Enc.decrypter_eq : (Lib.Pre.Aes192Enc.decrypter : Aes.AesEnc B 12 → _) = Aes.Leak.decrypter := by
  unfold Lib.Pre.Aes192Enc.decrypter Aes.Leak.decrypter
  rw [Lib.Pre.dec_round_keys_eq (by omega)]
theorem Lib.Pre.Aes192Dec.encrypter_eq : (Lib.Pre.Aes192Dec.encrypter : Aes.AesDec B 12 → _) = Aes.Leak.encrypter := by
  unfold Lib.Pre.Aes192Dec.encrypter Aes.Leak.encrypter
  rw [Lib.Pre.enc_round_keys_eq (by omega)]
theorem Lib.Pre.Aes192Dec.from_eq : (Lib.Pre.Aes192Dec.from : _ → Aes.Leak.L (Aes.AesDec B 12)) = Aes.Leak.dec_from_192 := by
  unfold Lib.Pre.Aes192Dec.from Aes.Leak.dec_from_192
  rw [Lib.Pre.Aes192Enc.decrypter_eq]
  rfl
theorem Lib.Pre.Aes192Enc.encrypt_block_eq (h : (Aes.Leak.LVec.pre : Option (Aes.Leak.LPre B)) = some ⟨LHasPre.pre_enc, LHasPre.pre_dec⟩) :
    (Lib.Pre.Aes192Enc.encrypt_block : Aes.AesEnc B 12 → B → _) = Aes.Leak.encrypt id := by
  funext e x
  unfold Lib.Pre.Aes192Enc.encrypt_block Aes.Leak.encrypt
  rw [Lib.Pre.AesBlock.chain_enc_eq h]
  simp only [Vector.map_id]
theorem Lib.Pre.Aes192Dec.decrypt_block_eq (h : (Aes.Leak.LVec.pre : Option (Aes.Leak.LPre B)) = some ⟨LHasPre.pre_enc, LHasPre.pre_dec⟩) :
    (Lib.Pre.Aes192Dec.decrypt_block : Aes.AesDec B 12 → B → _) = Aes.Leak.decrypt id := by
  funext e x
  unfold Lib.Pre.Aes192Dec.decrypt_block Aes.Leak.decrypt
  rw [Lib.Pre.AesBlock.chain_dec_eq h]
  simp only [Vector.map_id]
theorem Lib.Pre.Aes192Enc.encrypt_2_blocks_eq (h : (Aes.Leak.LVec.pre : Option (Aes.Leak.LPre X2)) = some ⟨Lib.Pre.AesBlockX2.pre_enc, Lib.Pre.AesBlockX2.pre_dec⟩) :
    (Lib.Pre.Aes192Enc.encrypt_2_blocks : Aes.AesEnc B 12 → X2 → _) = Aes.Leak.encrypt (Aes.AesBlockX2.from_block (T := X2)) := by
  funext e x
  unfold Lib.Pre.Aes192Enc.encrypt_2_blocks Aes.Leak.encrypt
  rw [Lib.Pre.AesBlockX2.chain_enc_eq h]
theorem Lib.Pre.Aes192Dec.decrypt_2_blocks_eq (h : (Aes.Leak.LVec.pre : Option (Aes.Leak.LPre X2)) = some ⟨Lib.Pre.AesBlockX2.pre_enc, Lib.Pre.AesBlockX2.pre_dec⟩) :
    (Lib.Pre.Aes192Dec.decrypt_2_blocks : Aes.AesDec B 12 → X2 → _) = Aes.Leak.decrypt (Aes.AesBlockX2.from_block (T := X2)) := by
  funext e x
  unfold Lib.Pre.Aes192Dec.decrypt_2_blocks Aes.Leak.decrypt
  rw [Lib.Pre.AesBlockX2.chain_dec_eq h]
theorem Lib.Pre.Aes192Enc.encrypt_4_blocks_eq (h : (Aes.Leak.LVec.pre : Option (Aes.Leak.LPre X4)) = some ⟨Lib.Pre.AesBlockX4.pre_enc, Lib.Pre.AesBlockX4.pre_dec⟩) :
    (Lib.Pre.Aes192Enc.encrypt_4_blocks : Aes.AesEnc B 12 → X4 → _) = Aes.Leak.encrypt (Aes.AesBlockX4.from_block (T := X4)) := by
  funext e x
  unfold Lib.Pre.Aes192Enc.encrypt_4_blocks Aes.Leak.encrypt
  rw [Lib.Pre.AesBlockX4.chain_enc_eq h]
theorem Lib.Pre.Aes192Dec.decrypt_4_blocks_eq (h : (Aes.Leak.LVec.pre : Option (Aes.Leak.LPre X4)) = some ⟨Lib.Pre.AesBlockX4.pre_enc, Lib.Pre.AesBlockX4.pre_dec⟩) :
    (Lib.Pre.Aes192Dec.decrypt_4_blocks : Aes.AesDec B 12 → X4 → _) = Aes.Leak.decrypt (Aes.AesBlockX4.from_block (T := X4)) := by
  funext e x
  unfold Lib.Pre.Aes192Dec.decrypt_4_blocks Aes.Leak.decrypt
  rw [Lib.Pre.AesBlockX4.chain_dec_eq h]
theorem Lib.Pre.Aes256Enc.decrypter_eq : (Lib.Pre.Aes256Enc.decrypter : Aes.AesEnc B 14 → _) = Aes.Leak.decrypter := by
  unfold Lib.Pre.Aes256Enc.decrypter Aes.Leak.decrypter
  rw [Lib.Pre.dec_round_keys_eq (by omega)]
theorem Lib.Pre.Aes256Dec.encrypter_eq : (Lib.Pre.Aes256Dec.encrypter : Aes.AesDec B 14 → _) = Aes.Leak.encrypter := by
  unfold Lib.Pre.Aes256Dec.encrypter Aes.Leak.encrypter
  rw [Lib.Pre.enc_round_keys_eq (by omega)]
theorem Lib.Pre.Aes256Dec.from_eq : (Lib.Pre.Aes256Dec.from : _ → Aes.Leak.L (Aes.AesDec B 14)) = Aes.Leak.dec_from_256 := by
  unfold Lib.Pre.Aes256Dec.from Aes.Leak.dec_from_256
  rw [Lib.Pre.Aes256Enc.decrypter_eq]
  rfl
theorem Lib.Pre.Aes256Enc.encrypt_block_eq (h : (Aes.Leak.LVec.pre : Option (Aes.Leak.LPre B)) = some ⟨LHasPre.pre_enc, LHasPre.pre_dec⟩) :
    (Lib.Pre.Aes256Enc.encrypt_block : Aes.AesEnc B 14 → B → _) = Aes.Leak.encrypt id := by
  funext e x
  unfold Lib.Pre.Aes256Enc.encrypt_block Aes.Leak.encrypt
  rw [Lib.Pre.AesBlock.chain_enc_eq h]
  simp only [Vector.map_id]
theorem Lib.Pre.Aes256Dec.decrypt_block_eq (h : (Aes.Leak.LVec.pre : Option (Aes.Leak.LPre B)) = some ⟨LHasPre.pre_enc, LHasPre.pre_dec⟩) :
    (Lib.Pre.Aes256Dec.decrypt_block : Aes.AesDec B 14 → B → _) = Aes.Leak.decrypt id := by
  funext e x
  unfold Lib.Pre.Aes256Dec.decrypt_block Aes.Leak.decrypt
  rw [Lib.Pre.AesBlock.chain_dec_eq h]
  simp only [Vector.map_id]
theorem Lib.Pre.Aes256Enc.encrypt_2_blocks_eq (h : (Aes.Leak.LVec.pre : Option (Aes.Leak.LPre X2)) = some ⟨Lib.Pre.AesBlockX2.pre_enc, Lib.Pre.AesBlockX2.pre_dec⟩) :
    (Lib.Pre.Aes256Enc.encrypt_2_blocks : Aes.AesEnc B 14 → X2 → _) = Aes.Leak.encrypt (Aes.AesBlockX2.from_block (T := X2)) := by
  funext e x
  unfold Lib.Pre.Aes256Enc.encrypt_2_blocks Aes.Leak.encrypt
  rw [Lib.Pre.AesBlockX2.chain_enc_eq h]
theorem Lib.Pre.Aes256Dec.decrypt_2_blocks_eq (h : (Aes.Leak.LVec.pre : Option (Aes.Leak.LPre X2)) = some ⟨Lib.Pre.AesBlockX2.pre_enc, Lib.Pre.AesBlockX2.pre_dec⟩) :
    (Lib.Pre.Aes256Dec.decrypt_2_blocks : Aes.AesDec B 14 → X2 → _) = Aes.Leak.decrypt (Aes.AesBlockX2.from_block (T := X2)) := by
  funext e x
  unfold Lib.Pre.Aes256Dec.decrypt_2_blocks Aes.Leak.decrypt
  rw [Lib.Pre.AesBlockX2.chain_dec_eq h]
theorem Lib.Pre.Aes256Enc.encrypt_4_blocks_eq (h : (Aes.Leak.LVec.pre : Option (Aes.Leak.LPre X4)) = some ⟨Lib.Pre.AesBlockX4.pre_enc, Lib.Pre.AesBlockX4.pre_dec⟩) :
    (Lib.Pre.Aes256Enc.encrypt_4_blocks : Aes.AesEnc B 14 → X4 → _) = Aes.Leak.encrypt (Aes.AesBlockX4.from_block (T := X4)) := by
  funext e x
  unfold Lib.Pre.Aes256Enc.encrypt_4_blocks Aes.Leak.encrypt
  rw [Lib.Pre.AesBlockX4.chain_enc_eq h]
theorem Lib.Pre.Aes256Dec.decrypt_4_blocks_eq (h : (Aes.Leak.LVec.pre : Option (Aes.Leak.LPre X4)) = some ⟨Lib.Pre.AesBlockX4.pre_enc, Lib.Pre.AesBlockX4.pre_dec⟩) :
    (Lib.Pre.Aes256Dec.decrypt_4_blocks : Aes.AesDec B 14 → X4 → _) = Aes.Leak.decrypt (Aes.AesBlockX4.from_block (T := X4)) := by
  funext e x
  unfold Lib.Pre.Aes256Dec.decrypt_4_blocks Aes.Leak.decrypt
  rw [Lib.Pre.AesBlockX4.chain_dec_eq h]

end
end RustSrc.Leak
