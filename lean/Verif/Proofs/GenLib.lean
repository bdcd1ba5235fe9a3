import Verif.Proofs.GenCore
import Verif.Gen.LibStd
import Verif.Gen.LibPre
import Verif.Model.Client
/-
The functions generated from src/lib.rs (Verif/Gen/LibStd.lean, Verif/Gen/LibPre.lean) are those of the model, for any modules
that provide `AesBlock`, `AesBlockX2` and `AesBlockX4`.
-/
set_option linter.unusedSectionVars false
namespace RustSrc
open Rust Aes.Fmt

theorem andThen_done (a : Action) : andThen a done = a := by
  cases a with
  | mk f =>
    unfold andThen done
    congr 1
    funext σ w s
    dsimp only
    cases f w s with
    | error e => rfl
    | ok r => obtain ⟨b, s⟩ := r; cases b <;> rfl

theorem idx_lit {T : Type} {nr : Nat} (v : Vector T (nr + 1)) : idx v nr = .ok (v[nr]) := by
  unfold idx
  rw [dif_pos (Nat.lt_succ_self nr)]

theorem ok_bind' {α β : Type} (a : α) (f : α → M β) : ((Except.ok a : M α) >>= f) = f a := rfl

namespace Lib.Std
variable [Cfg] {B X2 X4 : Type} [Aes.AesBlock B] [Aes.AesBlockX2 B X2] [Aes.AesBlockX4 B X2 X4]

theorem AesBlock.into_bytes_eq : (AesBlock.into_bytes : B → _) = Aes.into_bytes := by
  funext v
  unfold AesBlock.into_bytes Aes.into_bytes withSlice
  simp only [Vector.toList_replicate]
theorem AesBlock.default_eq : (AesBlock.default_ : B) = Aes.default_ := rfl
theorem AesBlock.from_ref_eq : (AesBlock.from_ref : _ → M B) = Aes.from_ref := rfl
theorem AesBlock.try_from_eq : (AesBlock.try_from : _ → M (Except Nat B)) = Aes.Profile.try_from Cfg.profile :=
  Core.try_from_slice_fun 16 _
theorem AesBlock.bitand_assign_eq : (AesBlock.bitand_assign : B → B → B) = Aes.bitand_assign := rfl
theorem AesBlock.bitor_assign_eq : (AesBlock.bitor_assign : B → B → B) = Aes.bitor_assign := rfl
theorem AesBlock.bitxor_assign_eq : (AesBlock.bitxor_assign : B → B → B) = Aes.bitxor_assign := rfl
theorem AesBlockX2.into_bytes_eq : (AesBlockX2.into_bytes : X2 → _) = Aes.into_bytes := by
  funext v
  unfold AesBlockX2.into_bytes Aes.into_bytes withSlice
  simp only [Vector.toList_replicate]
theorem AesBlockX2.default_eq : (AesBlockX2.default_ : X2) = Aes.default_ := rfl
theorem AesBlockX2.from_ref_eq : (AesBlockX2.from_ref : _ → M X2) = Aes.from_ref := rfl
theorem AesBlockX2.try_from_eq : (AesBlockX2.try_from : _ → M (Except Nat X2)) = Aes.Profile.try_from Cfg.profile :=
  Core.try_from_slice_fun 32 _
theorem AesBlockX2.bitand_assign_eq : (AesBlockX2.bitand_assign : X2 → X2 → X2) = Aes.bitand_assign := rfl
theorem AesBlockX2.bitor_assign_eq : (AesBlockX2.bitor_assign : X2 → X2 → X2) = Aes.bitor_assign := rfl
theorem AesBlockX2.bitxor_assign_eq : (AesBlockX2.bitxor_assign : X2 → X2 → X2) = Aes.bitxor_assign := rfl
theorem AesBlockX4.into_bytes_eq : (AesBlockX4.into_bytes : X4 → _) = Aes.into_bytes := by
  funext v
  unfold AesBlockX4.into_bytes Aes.into_bytes withSlice
  simp only [Vector.toList_replicate]
theorem AesBlockX4.default_eq : (AesBlockX4.default_ : X4) = Aes.default_ := rfl
theorem AesBlockX4.from_ref_eq : (AesBlockX4.from_ref : _ → M X4) = Aes.from_ref := rfl
theorem AesBlockX4.try_from_eq : (AesBlockX4.try_from : _ → M (Except Nat X4)) = Aes.Profile.try_from Cfg.profile :=
  Core.try_from_slice_fun 64 _
theorem AesBlockX4.bitand_assign_eq : (AesBlockX4.bitand_assign : X4 → X4 → X4) = Aes.bitand_assign := rfl
theorem AesBlockX4.bitor_assign_eq : (AesBlockX4.bitor_assign : X4 → X4 → X4) = Aes.bitor_assign := rfl
theorem AesBlockX4.bitxor_assign_eq : (AesBlockX4.bitxor_assign : X4 → X4 → X4) = Aes.bitxor_assign := rfl
theorem from_u128_eq : (AesBlock.from_u128 : U128 → M B) = Aes.from_u128 := rfl
theorem into_u128_eq : (AesBlock.into_u128 : B → M U128) = Aes.into_u128 := by
  funext v
  unfold AesBlock.into_u128 Aes.into_u128
  rw [AesBlock.into_bytes_eq]
theorem dec_round_keys_eq (N : Nat) : (dec_round_keys N : Vector B N → _) = Aes.Profile.dec_round_keys Cfg.profile := by
  funext v
  unfold dec_round_keys Aes.Profile.dec_round_keys
  rfl
theorem enc_round_keys_eq (N : Nat) : (enc_round_keys N : Vector B N → _) = Aes.Profile.enc_round_keys Cfg.profile := by
  funext v
  unfold enc_round_keys Aes.Profile.enc_round_keys
  rfl
theorem AesBlock.chain_enc_eq (h : (Aes.AesVec.pre : Option (Aes.Pre B)) = none) :
    (AesBlock.chain_enc : B → List B → M B) = Aes.Profile.chain_enc Cfg.profile := by
  funext v keys
  unfold Aes.Profile.chain_enc
  rw [h]
  rfl
theorem AesBlock.chain_dec_eq (h : (Aes.AesVec.pre : Option (Aes.Pre B)) = none) :
    (AesBlock.chain_dec : B → List B → M B) = Aes.Profile.chain_dec Cfg.profile := by
  funext v keys
  unfold Aes.Profile.chain_dec
  rw [h]
  rfl
theorem AesBlockX2.chain_enc_eq (h : (Aes.AesVec.pre : Option (Aes.Pre X2)) = none) :
    (AesBlockX2.chain_enc : X2 → List X2 → M X2) = Aes.Profile.chain_enc Cfg.profile := by
  funext v keys
  unfold Aes.Profile.chain_enc
  rw [h]
  rfl
theorem AesBlockX2.chain_dec_eq (h : (Aes.AesVec.pre : Option (Aes.Pre X2)) = none) :
    (AesBlockX2.chain_dec : X2 → List X2 → M X2) = Aes.Profile.chain_dec Cfg.profile := by
  funext v keys
  unfold Aes.Profile.chain_dec
  rw [h]
  rfl
theorem AesBlockX4.chain_enc_eq (h : (Aes.AesVec.pre : Option (Aes.Pre X4)) = none) :
    (AesBlockX4.chain_enc : X4 → List X4 → M X4) = Aes.Profile.chain_enc Cfg.profile := by
  funext v keys
  unfold Aes.Profile.chain_enc
  rw [h]
  rfl
theorem AesBlockX4.chain_dec_eq (h : (Aes.AesVec.pre : Option (Aes.Pre X4)) = none) :
    (AesBlockX4.chain_dec : X4 → List X4 → M X4) = Aes.Profile.chain_dec Cfg.profile := by
  funext v keys
  unfold Aes.Profile.chain_dec
  rw [h]
  rfl
theorem Aes128Enc.from_eq : (Aes128Enc.from : _ → M (Aes.AesEnc B 10)) = Aes.Aes128Enc.from := rfl
theorem Aes128Enc.decrypter_eq : (Aes128Enc.decrypter : Aes.AesEnc B 10 → _) = Aes.Profile.decrypter Cfg.profile := by
  funext e
  unfold Aes128Enc.decrypter Aes.Profile.decrypter
  rw [dec_round_keys_eq]
theorem Aes128Dec.from_eq : (Aes128Dec.from : _ → M (Aes.AesDec B 10)) = Aes.Profile.Aes128Dec.from Cfg.profile := by
  funext e
  unfold Aes128Dec.from Aes.Profile.Aes128Dec.from
  rw [Aes128Enc.decrypter_eq, Aes128Enc.from_eq]
theorem Aes128Dec.encrypter_eq : (Aes128Dec.encrypter : Aes.AesDec B 10 → _) = Aes.Profile.encrypter Cfg.profile := by
  funext e
  unfold Aes128Dec.encrypter Aes.Profile.encrypter
  rw [enc_round_keys_eq]
theorem Aes128Enc.encrypt_block_eq (h : (Aes.AesVec.pre : Option (Aes.Pre B)) = none) :
    (Aes128Enc.encrypt_block : Aes.AesEnc B 10 → B → M B) = Aes.Profile.encrypt_block Cfg.profile := by
  funext e x
  unfold Aes128Enc.encrypt_block Aes.Profile.encrypt_block
  rw [AesBlock.chain_enc_eq h]
  simp only [idx_lit, ok_bind']
theorem Aes128Enc.encrypt_2_blocks_eq (h : (Aes.AesVec.pre : Option (Aes.Pre X2)) = none) :
    (Aes128Enc.encrypt_2_blocks : Aes.AesEnc B 10 → X2 → M X2) = Aes.Profile.encrypt_2_blocks Cfg.profile := by
  funext e x
  unfold Aes128Enc.encrypt_2_blocks Aes.Profile.encrypt_2_blocks
  rw [AesBlockX2.chain_enc_eq h]
  simp only [idx_lit, ok_bind']
theorem Aes128Enc.encrypt_4_blocks_eq (h : (Aes.AesVec.pre : Option (Aes.Pre X4)) = none) :
    (Aes128Enc.encrypt_4_blocks : Aes.AesEnc B 10 → X4 → M X4) = Aes.Profile.encrypt_4_blocks Cfg.profile := by
  funext e x
  unfold Aes128Enc.encrypt_4_blocks Aes.Profile.encrypt_4_blocks
  rw [AesBlockX4.chain_enc_eq h]
  simp only [idx_lit, ok_bind']
theorem Aes128Dec.decrypt_block_eq (h : (Aes.AesVec.pre : Option (Aes.Pre B)) = none) :
    (Aes128Dec.decrypt_block : Aes.AesDec B 10 → B → M B) = Aes.Profile.decrypt_block Cfg.profile := by
  funext e x
  unfold Aes128Dec.decrypt_block Aes.Profile.decrypt_block
  rw [AesBlock.chain_dec_eq h]
  simp only [idx_lit, ok_bind']
theorem Aes128Dec.decrypt_2_blocks_eq (h : (Aes.AesVec.pre : Option (Aes.Pre X2)) = none) :
    (Aes128Dec.decrypt_2_blocks : Aes.AesDec B 10 → X2 → M X2) = Aes.Profile.decrypt_2_blocks Cfg.profile := by
  funext e x
  unfold Aes128Dec.decrypt_2_blocks Aes.Profile.decrypt_2_blocks
  rw [AesBlockX2.chain_dec_eq h]
  simp only [idx_lit, ok_bind']
theorem Aes128Dec.decrypt_4_blocks_eq (h : (Aes.AesVec.pre : Option (Aes.Pre X4)) = none) :
    (Aes128Dec.decrypt_4_blocks : Aes.AesDec B 10 → X4 → M X4) = Aes.Profile.decrypt_4_blocks Cfg.profile := by
  funext e x
  unfold Aes128Dec.decrypt_4_blocks Aes.Profile.decrypt_4_blocks
  rw [AesBlockX4.chain_dec_eq h]
  simp only [idx_lit, ok_bind']
theorem Aes192Enc.from_eq : (Aes192Enc.from : _ → M (Aes.AesEnc B 12)) = Aes.Aes192Enc.from := rfl
theorem Aes192Enc.decrypter_eq : (Aes192Enc.decrypter : Aes.AesEnc B 12 → _) = Aes.Profile.decrypter Cfg.profile := by
  funext e
  unfold Aes192Enc.decrypter Aes.Profile.decrypter
  rw [dec_round_keys_eq]
theorem Aes192Dec.from_eq : (Aes192Dec.from : _ → M (Aes.AesDec B 12)) = Aes.Profile.Aes192Dec.from Cfg.profile := by
  funext e
  unfold Aes192Dec.from Aes.Profile.Aes192Dec.from
  rw [Aes192Enc.decrypter_eq, Aes192Enc.from_eq]
theorem Aes192Dec.encrypter_eq : (Aes192Dec.encrypter : Aes.AesDec B 12 → _) = Aes.Profile.encrypter Cfg.profile := by
  funext e
  unfold Aes192Dec.encrypter Aes.Profile.encrypter
  rw [enc_round_keys_eq]
theorem Aes192Enc.encrypt_block_eq (h : (Aes.AesVec.pre : Option (Aes.Pre B)) = none) :
    (Aes192Enc.encrypt_block : Aes.AesEnc B 12 → B → M B) = Aes.Profile.encrypt_block Cfg.profile := by
  funext e x
  unfold Aes192Enc.encrypt_block Aes.Profile.encrypt_block
  rw [AesBlock.chain_enc_eq h]
  simp only [idx_lit, ok_bind']
theorem Aes192Enc.encrypt_2_blocks_eq (h : (Aes.AesVec.pre : Option (Aes.Pre X2)) = none) :
    (Aes192Enc.encrypt_2_blocks : Aes.AesEnc B 12 → X2 → M X2) = Aes.Profile.encrypt_2_blocks Cfg.profile := by
  funext e x
  unfold Aes192Enc.encrypt_2_blocks Aes.Profile.encrypt_2_blocks
  rw [AesBlockX2.chain_enc_eq h]
  simp only [idx_lit, ok_bind']
theorem Aes192Enc.encrypt_4_blocks_eq (h : (Aes.AesVec.pre : Option (Aes.Pre X4)) = none) :
    (Aes192Enc.encrypt_4_blocks : Aes.AesEnc B 12 → X4 → M X4) = Aes.Profile.encrypt_4_blocks Cfg.profile := by
  funext e x
  unfold Aes192Enc.encrypt_4_blocks Aes.Profile.encrypt_4_blocks
  rw [AesBlockX4.chain_enc_eq h]
  simp only [idx_lit, ok_bind']
theorem Aes192Dec.decrypt_block_eq (h : (Aes.AesVec.pre : Option (Aes.Pre B)) = none) :
    (Aes192Dec.decrypt_block : Aes.AesDec B 12 → B → M B) = Aes.Profile.decrypt_block Cfg.profile := by
  funext e x
  unfold Aes192Dec.decrypt_block Aes.Profile.decrypt_block
  rw [AesBlock.chain_dec_eq h]
  simp only [idx_lit, ok_bind']
theorem Aes192Dec.decrypt_2_blocks_eq (h : (Aes.AesVec.pre : Option (Aes.Pre X2)) = none) :
    (Aes192Dec.decrypt_2_blocks : Aes.AesDec B 12 → X2 → M X2) = Aes.Profile.decrypt_2_blocks Cfg.profile := by
  funext e x
  unfold Aes192Dec.decrypt_2_blocks Aes.Profile.decrypt_2_blocks
  rw [AesBlockX2.chain_dec_eq h]
  simp only [idx_lit, ok_bind']
theorem Aes192Dec.decrypt_4_blocks_eq (h : (Aes.AesVec.pre : Option (Aes.Pre X4)) = none) :
    (Aes192Dec.decrypt_4_blocks : Aes.AesDec B 12 → X4 → M X4) = Aes.Profile.decrypt_4_blocks Cfg.profile := by
  funext e x
  unfold Aes192Dec.decrypt_4_blocks Aes.Profile.decrypt_4_blocks
  rw [AesBlockX4.chain_dec_eq h]
  simp only [idx_lit, ok_bind']
theorem Aes256Enc.from_eq : (Aes256Enc.from : _ → M (Aes.AesEnc B 14)) = Aes.Aes256Enc.from := rfl
theorem Aes256Enc.decrypter_eq : (Aes256Enc.decrypter : Aes.AesEnc B 14 → _) = Aes.Profile.decrypter Cfg.profile := by
  funext e
  unfold Aes256Enc.decrypter Aes.Profile.decrypter
  rw [dec_round_keys_eq]
theorem Aes256Dec.from_eq : (Aes256Dec.from : _ → M (Aes.AesDec B 14)) = Aes.Profile.Aes256Dec.from Cfg.profile := by
  funext e
  unfold Aes256Dec.from Aes.Profile.Aes256Dec.from
  rw [Aes256Enc.decrypter_eq, Aes256Enc.from_eq]
theorem Aes256Dec.encrypter_eq : (Aes256Dec.encrypter : Aes.AesDec B 14 → _) = Aes.Profile.encrypter Cfg.profile := by
  funext e
  unfold Aes256Dec.encrypter Aes.Profile.encrypter
  rw [enc_round_keys_eq]
theorem Aes256Enc.encrypt_block_eq (h : (Aes.AesVec.pre : Option (Aes.Pre B)) = none) :
    (Aes256Enc.encrypt_block : Aes.AesEnc B 14 → B → M B) = Aes.Profile.encrypt_block Cfg.profile := by
  funext e x
  unfold Aes256Enc.encrypt_block Aes.Profile.encrypt_block
  rw [AesBlock.chain_enc_eq h]
  simp only [idx_lit, ok_bind']
theorem Aes256Enc.encrypt_2_blocks_eq (h : (Aes.AesVec.pre : Option (Aes.Pre X2)) = none) :
    (Aes256Enc.encrypt_2_blocks : Aes.AesEnc B 14 → X2 → M X2) = Aes.Profile.encrypt_2_blocks Cfg.profile := by
  funext e x
  unfold Aes256Enc.encrypt_2_blocks Aes.Profile.encrypt_2_blocks
  rw [AesBlockX2.chain_enc_eq h]
  simp only [idx_lit, ok_bind']
theorem Aes256Enc.encrypt_4_blocks_eq (h : (Aes.AesVec.pre : Option (Aes.Pre X4)) = none) :
    (Aes256Enc.encrypt_4_blocks : Aes.AesEnc B 14 → X4 → M X4) = Aes.Profile.encrypt_4_blocks Cfg.profile := by
  funext e x
  unfold Aes256Enc.encrypt_4_blocks Aes.Profile.encrypt_4_blocks
  rw [AesBlockX4.chain_enc_eq h]
  simp only [idx_lit, ok_bind']
theorem Aes256Dec.decrypt_block_eq (h : (Aes.AesVec.pre : Option (Aes.Pre B)) = none) :
    (Aes256Dec.decrypt_block : Aes.AesDec B 14 → B → M B) = Aes.Profile.decrypt_block Cfg.profile := by
  funext e x
  unfold Aes256Dec.decrypt_block Aes.Profile.decrypt_block
  rw [AesBlock.chain_dec_eq h]
  simp only [idx_lit, ok_bind']
theorem Aes256Dec.decrypt_2_blocks_eq (h : (Aes.AesVec.pre : Option (Aes.Pre X2)) = none) :
    (Aes256Dec.decrypt_2_blocks : Aes.AesDec B 14 → X2 → M X2) = Aes.Profile.decrypt_2_blocks Cfg.profile := by
  funext e x
  unfold Aes256Dec.decrypt_2_blocks Aes.Profile.decrypt_2_blocks
  rw [AesBlockX2.chain_dec_eq h]
  simp only [idx_lit, ok_bind']
theorem Aes256Dec.decrypt_4_blocks_eq (h : (Aes.AesVec.pre : Option (Aes.Pre X4)) = none) :
    (Aes256Dec.decrypt_4_blocks : Aes.AesDec B 14 → X4 → M X4) = Aes.Profile.decrypt_4_blocks Cfg.profile := by
  funext e x
  unfold Aes256Dec.decrypt_4_blocks Aes.Profile.decrypt_4_blocks
  rw [AesBlockX4.chain_dec_eq h]
  simp only [idx_lit, ok_bind']
theorem upperHex_eq : (AesBlock.UpperHex.fmt : B → _) = Aes.Fmt.upperHex := by
  funext v o
  unfold AesBlock.UpperHex.fmt Aes.Fmt.upperHex
  simp only [andThen_done, AesBlock.into_bytes_eq]
  rfl
theorem lowerHex_eq : (AesBlock.LowerHex.fmt : B → _) = Aes.Fmt.lowerHex := by
  funext v o
  unfold AesBlock.LowerHex.fmt Aes.Fmt.lowerHex
  simp only [andThen_done, AesBlock.into_bytes_eq]
  rfl
theorem binary_eq : (AesBlock.Binary.fmt : B → _) = Aes.Fmt.binary := by
  funext v o
  unfold AesBlock.Binary.fmt Aes.Fmt.binary
  simp only [andThen_done, AesBlock.into_bytes_eq]
  rfl
theorem display_eq : (AesBlock.Display.fmt : B → _) = Aes.Fmt.display := by
  funext v o
  unfold AesBlock.Display.fmt Aes.Fmt.display
  rw [upperHex_eq, lowerHex_eq]
theorem debug_eq : (AesBlock.Debug.fmt : B → _) = Aes.Fmt.debug := by
  funext v o
  unfold AesBlock.Debug.fmt Aes.Fmt.debug
  rw [display_eq]
theorem debugX2_eq : (AesBlockX2.Debug.fmt : X2 → _) = Aes.Fmt.debugX2 := by
  funext v o
  unfold AesBlockX2.Debug.fmt Aes.Fmt.debugX2
  rw [debug_eq]
theorem debugX4_eq : (AesBlockX4.Debug.fmt : X4 → _) = Aes.Fmt.debugX4 := by
  funext v o
  unfold AesBlockX4.Debug.fmt Aes.Fmt.debugX4
  rw [debug_eq]
theorem Aes128Enc.debug_eq : (Aes128Enc.Debug.fmt : Aes.AesEnc B 10 → _) = Aes.Fmt.debugEnc := by
  funext v o
  unfold Aes128Enc.Debug.fmt Aes.Fmt.debugEnc
  rw [Lib.Std.debug_eq]
  rfl
theorem Aes128Dec.debug_eq : (Aes128Dec.Debug.fmt : Aes.AesDec B 10 → _) = Aes.Fmt.debugDec := by
  funext v o
  unfold Aes128Dec.Debug.fmt Aes.Fmt.debugDec
  rw [Lib.Std.debug_eq]
  rfl
theorem Aes192Enc.debug_eq : (Aes192Enc.Debug.fmt : Aes.AesEnc B 12 → _) = Aes.Fmt.debugEnc := by
  funext v o
  unfold Aes192Enc.Debug.fmt Aes.Fmt.debugEnc
  rw [Lib.Std.debug_eq]
  rfl
theorem Aes192Dec.debug_eq : (Aes192Dec.Debug.fmt : Aes.AesDec B 12 → _) = Aes.Fmt.debugDec := by
  funext v o
  unfold Aes192Dec.Debug.fmt Aes.Fmt.debugDec
  rw [Lib.Std.debug_eq]
  rfl
theorem Aes256Enc.debug_eq : (Aes256Enc.Debug.fmt : Aes.AesEnc B 14 → _) = Aes.Fmt.debugEnc := by
  funext v o
  unfold Aes256Enc.Debug.fmt Aes.Fmt.debugEnc
  rw [Lib.Std.debug_eq]
  rfl
theorem Aes256Dec.debug_eq : (Aes256Dec.Debug.fmt : Aes.AesDec B 14 → _) = Aes.Fmt.debugDec := by
  funext v o
  unfold Aes256Dec.Debug.fmt Aes.Fmt.debugDec
  rw [Lib.Std.debug_eq]
  rfl
end Lib.Std

namespace Lib.Pre
variable [Cfg] {B X2 X4 : Type} [Aes.AesBlock B] [Aes.AesBlockX2 B X2] [Aes.AesBlockX4 B X2 X4] [HasPre B]

theorem AesBlock.into_bytes_eq : (AesBlock.into_bytes : B → _) = Aes.into_bytes := by
  funext v
  unfold AesBlock.into_bytes Aes.into_bytes withSlice
  simp only [Vector.toList_replicate]
theorem AesBlock.default_eq : (AesBlock.default_ : B) = Aes.default_ := rfl
theorem AesBlock.from_ref_eq : (AesBlock.from_ref : _ → M B) = Aes.from_ref := rfl
theorem AesBlock.try_from_eq : (AesBlock.try_from : _ → M (Except Nat B)) = Aes.Profile.try_from Cfg.profile :=
  Core.try_from_slice_fun 16 _
theorem AesBlock.bitand_assign_eq : (AesBlock.bitand_assign : B → B → B) = Aes.bitand_assign := rfl
theorem AesBlock.bitor_assign_eq : (AesBlock.bitor_assign : B → B → B) = Aes.bitor_assign := rfl
theorem AesBlock.bitxor_assign_eq : (AesBlock.bitxor_assign : B → B → B) = Aes.bitxor_assign := rfl
theorem AesBlockX2.into_bytes_eq : (AesBlockX2.into_bytes : X2 → _) = Aes.into_bytes := by
  funext v
  unfold AesBlockX2.into_bytes Aes.into_bytes withSlice
  simp only [Vector.toList_replicate]
theorem AesBlockX2.default_eq : (AesBlockX2.default_ : X2) = Aes.default_ := rfl
theorem AesBlockX2.from_ref_eq : (AesBlockX2.from_ref : _ → M X2) = Aes.from_ref := rfl
theorem AesBlockX2.try_from_eq : (AesBlockX2.try_from : _ → M (Except Nat X2)) = Aes.Profile.try_from Cfg.profile :=
  Core.try_from_slice_fun 32 _
theorem AesBlockX2.bitand_assign_eq : (AesBlockX2.bitand_assign : X2 → X2 → X2) = Aes.bitand_assign := rfl
theorem AesBlockX2.bitor_assign_eq : (AesBlockX2.bitor_assign : X2 → X2 → X2) = Aes.bitor_assign := rfl
theorem AesBlockX2.bitxor_assign_eq : (AesBlockX2.bitxor_assign : X2 → X2 → X2) = Aes.bitxor_assign := rfl
theorem AesBlockX4.into_bytes_eq : (AesBlockX4.into_bytes : X4 → _) = Aes.into_bytes := by
  funext v
  unfold AesBlockX4.into_bytes Aes.into_bytes withSlice
  simp only [Vector.toList_replicate]
theorem AesBlockX4.default_eq : (AesBlockX4.default_ : X4) = Aes.default_ := rfl
theorem AesBlockX4.from_ref_eq : (AesBlockX4.from_ref : _ → M X4) = Aes.from_ref := rfl
theorem AesBlockX4.try_from_eq : (AesBlockX4.try_from : _ → M (Except Nat X4)) = Aes.Profile.try_from Cfg.profile :=
  Core.try_from_slice_fun 64 _
theorem AesBlockX4.bitand_assign_eq : (AesBlockX4.bitand_assign : X4 → X4 → X4) = Aes.bitand_assign := rfl
theorem AesBlockX4.bitor_assign_eq : (AesBlockX4.bitor_assign : X4 → X4 → X4) = Aes.bitor_assign := rfl
theorem AesBlockX4.bitxor_assign_eq : (AesBlockX4.bitxor_assign : X4 → X4 → X4) = Aes.bitxor_assign := rfl
theorem from_u128_eq : (AesBlock.from_u128 : U128 → M B) = Aes.from_u128 := rfl
theorem into_u128_eq : (AesBlock.into_u128 : B → M U128) = Aes.into_u128 := by
  funext v
  unfold AesBlock.into_u128 Aes.into_u128
  rw [AesBlock.into_bytes_eq]
theorem dec_round_keys_eq (N : Nat) : (dec_round_keys N : Vector B N → _) = Aes.Profile.dec_round_keys Cfg.profile := by
  funext v
  unfold dec_round_keys Aes.Profile.dec_round_keys
  rfl
theorem enc_round_keys_eq (N : Nat) : (enc_round_keys N : Vector B N → _) = Aes.Profile.enc_round_keys Cfg.profile := by
  funext v
  unfold enc_round_keys Aes.Profile.enc_round_keys
  rfl
theorem AesBlock.chain_enc_eq (h : (Aes.AesVec.pre : Option (Aes.Pre B)) = some ⟨HasPre.pre_enc, HasPre.pre_dec⟩) :
    (AesBlock.chain_enc : B → List B → M B) = Aes.Profile.chain_enc Cfg.profile := by
  funext v keys
  unfold Aes.Profile.chain_enc
  rw [h]
  rfl
theorem AesBlock.chain_dec_eq (h : (Aes.AesVec.pre : Option (Aes.Pre B)) = some ⟨HasPre.pre_enc, HasPre.pre_dec⟩) :
    (AesBlock.chain_dec : B → List B → M B) = Aes.Profile.chain_dec Cfg.profile := by
  funext v keys
  unfold Aes.Profile.chain_dec
  rw [h]
  rfl
theorem AesBlockX2.chain_enc_eq (h : (Aes.AesVec.pre : Option (Aes.Pre X2)) = some ⟨AesBlockX2.pre_enc, AesBlockX2.pre_dec⟩) :
    (AesBlockX2.chain_enc : X2 → List X2 → M X2) = Aes.Profile.chain_enc Cfg.profile := by
  funext v keys
  unfold Aes.Profile.chain_enc
  rw [h]
  rfl
theorem AesBlockX2.chain_dec_eq (h : (Aes.AesVec.pre : Option (Aes.Pre X2)) = some ⟨AesBlockX2.pre_enc, AesBlockX2.pre_dec⟩) :
    (AesBlockX2.chain_dec : X2 → List X2 → M X2) = Aes.Profile.chain_dec Cfg.profile := by
  funext v keys
  unfold Aes.Profile.chain_dec
  rw [h]
  rfl
theorem AesBlockX4.chain_enc_eq (h : (Aes.AesVec.pre : Option (Aes.Pre X4)) = some ⟨AesBlockX4.pre_enc, AesBlockX4.pre_dec⟩) :
    (AesBlockX4.chain_enc : X4 → List X4 → M X4) = Aes.Profile.chain_enc Cfg.profile := by
  funext v keys
  unfold Aes.Profile.chain_enc
  rw [h]
  rfl
theorem AesBlockX4.chain_dec_eq (h : (Aes.AesVec.pre : Option (Aes.Pre X4)) = some ⟨AesBlockX4.pre_enc, AesBlockX4.pre_dec⟩) :
    (AesBlockX4.chain_dec : X4 → List X4 → M X4) = Aes.Profile.chain_dec Cfg.profile := by
  funext v keys
  unfold Aes.Profile.chain_dec
  rw [h]
  rfl
theorem Aes128Enc.from_eq : (Aes128Enc.from : _ → M (Aes.AesEnc B 10)) = Aes.Aes128Enc.from := rfl
theorem Aes128Enc.decrypter_eq : (Aes128Enc.decrypter : Aes.AesEnc B 10 → _) = Aes.Profile.decrypter Cfg.profile := by
  funext e
  unfold Aes128Enc.decrypter Aes.Profile.decrypter
  rw [dec_round_keys_eq]
theorem Aes128Dec.from_eq : (Aes128Dec.from : _ → M (Aes.AesDec B 10)) = Aes.Profile.Aes128Dec.from Cfg.profile := by
  funext e
  unfold Aes128Dec.from Aes.Profile.Aes128Dec.from
  rw [Aes128Enc.decrypter_eq, Aes128Enc.from_eq]
theorem Aes128Dec.encrypter_eq : (Aes128Dec.encrypter : Aes.AesDec B 10 → _) = Aes.Profile.encrypter Cfg.profile := by
  funext e
  unfold Aes128Dec.encrypter Aes.Profile.encrypter
  rw [enc_round_keys_eq]
theorem Aes128Enc.encrypt_block_eq (h : (Aes.AesVec.pre : Option (Aes.Pre B)) = some ⟨HasPre.pre_enc, HasPre.pre_dec⟩) :
    (Aes128Enc.encrypt_block : Aes.AesEnc B 10 → B → M B) = Aes.Profile.encrypt_block Cfg.profile := by
  funext e x
  unfold Aes128Enc.encrypt_block Aes.Profile.encrypt_block
  rw [AesBlock.chain_enc_eq h]
  simp only [idx_lit, ok_bind']
theorem Aes128Enc.encrypt_2_blocks_eq (h : (Aes.AesVec.pre : Option (Aes.Pre X2)) = some ⟨AesBlockX2.pre_enc, AesBlockX2.pre_dec⟩) :
    (Aes128Enc.encrypt_2_blocks : Aes.AesEnc B 10 → X2 → M X2) = Aes.Profile.encrypt_2_blocks Cfg.profile := by
  funext e x
  unfold Aes128Enc.encrypt_2_blocks Aes.Profile.encrypt_2_blocks
  rw [AesBlockX2.chain_enc_eq h]
  simp only [idx_lit, ok_bind']
theorem Aes128Enc.encrypt_4_blocks_eq (h : (Aes.AesVec.pre : Option (Aes.Pre X4)) = some ⟨AesBlockX4.pre_enc, AesBlockX4.pre_dec⟩) :
    (Aes128Enc.encrypt_4_blocks : Aes.AesEnc B 10 → X4 → M X4) = Aes.Profile.encrypt_4_blocks Cfg.profile := by
  funext e x
  unfold Aes128Enc.encrypt_4_blocks Aes.Profile.encrypt_4_blocks
  rw [AesBlockX4.chain_enc_eq h]
  simp only [idx_lit, ok_bind']
theorem Aes128Dec.decrypt_block_eq (h : (Aes.AesVec.pre : Option (Aes.Pre B)) = some ⟨HasPre.pre_enc, HasPre.pre_dec⟩) :
    (Aes128Dec.decrypt_block : Aes.AesDec B 10 → B → M B) = Aes.Profile.decrypt_block Cfg.profile := by
  funext e x
  unfold Aes128Dec.decrypt_block Aes.Profile.decrypt_block
  rw [AesBlock.chain_dec_eq h]
  simp only [idx_lit, ok_bind']
theorem Aes128Dec.decrypt_2_blocks_eq (h : (Aes.AesVec.pre : Option (Aes.Pre X2)) = some ⟨AesBlockX2.pre_enc, AesBlockX2.pre_dec⟩) :
    (Aes128Dec.decrypt_2_blocks : Aes.AesDec B 10 → X2 → M X2) = Aes.Profile.decrypt_2_blocks Cfg.profile := by
  funext e x
  unfold Aes128Dec.decrypt_2_blocks Aes.Profile.decrypt_2_blocks
  rw [AesBlockX2.chain_dec_eq h]
  simp only [idx_lit, ok_bind']
theorem Aes128Dec.decrypt_4_blocks_eq (h : (Aes.AesVec.pre : Option (Aes.Pre X4)) = some ⟨AesBlockX4.pre_enc, AesBlockX4.pre_dec⟩) :
    (Aes128Dec.decrypt_4_blocks : Aes.AesDec B 10 → X4 → M X4) = Aes.Profile.decrypt_4_blocks Cfg.profile := by
  funext e x
  unfold Aes128Dec.decrypt_4_blocks Aes.Profile.decrypt_4_blocks
  rw [AesBlockX4.chain_dec_eq h]
  simp only [idx_lit, ok_bind']
theorem Aes192Enc.from_eq : (Aes192Enc.from : _ → M (Aes.AesEnc B 12)) = Aes.Aes192Enc.from := rfl
theorem Aes192Enc.decrypter_eq : (Aes192Enc.decrypter : Aes.AesEnc B 12 → _) = Aes.Profile.decrypter Cfg.profile := by
  funext e
  unfold Aes192Enc.decrypter Aes.Profile.decrypter
  rw [dec_round_keys_eq]
theorem Aes192Dec.from_eq : (Aes192Dec.from : _ → M (Aes.AesDec B 12)) = Aes.Profile.Aes192Dec.from Cfg.profile := by
  funext e
  unfold Aes192Dec.from Aes.Profile.Aes192Dec.from
  rw [Aes192Enc.decrypter_eq, Aes192Enc.from_eq]
theorem Aes192Dec.encrypter_eq : (Aes192Dec.encrypter : Aes.AesDec B 12 → _) = Aes.Profile.encrypter Cfg.profile := by
  funext e
  unfold Aes192Dec.encrypter Aes.Profile.encrypter
  rw [enc_round_keys_eq]
theorem Aes192Enc.encrypt_block_eq (h : (Aes.AesVec.pre : Option (Aes.Pre B)) = some ⟨HasPre.pre_enc, HasPre.pre_dec⟩) :
    (Aes192Enc.encrypt_block : Aes.AesEnc B 12 → B → M B) = Aes.Profile.encrypt_block Cfg.profile := by
  funext e x
  unfold Aes192Enc.encrypt_block Aes.Profile.encrypt_block
  rw [AesBlock.chain_enc_eq h]
  simp only [idx_lit, ok_bind']
theorem Aes192Enc.encrypt_2_blocks_eq (h : (Aes.AesVec.pre : Option (Aes.Pre X2)) = some ⟨AesBlockX2.pre_enc, AesBlockX2.pre_dec⟩) :
    (Aes192Enc.encrypt_2_blocks : Aes.AesEnc B 12 → X2 → M X2) = Aes.Profile.encrypt_2_blocks Cfg.profile := by
  funext e x
  unfold Aes192Enc.encrypt_2_blocks Aes.Profile.encrypt_2_blocks
  rw [AesBlockX2.chain_enc_eq h]
  simp only [idx_lit, ok_bind']
theorem Aes192Enc.encrypt_4_blocks_eq (h : (Aes.AesVec.pre : Option (Aes.Pre X4)) = some ⟨AesBlockX4.pre_enc, AesBlockX4.pre_dec⟩) :
    (Aes192Enc.encrypt_4_blocks : Aes.AesEnc B 12 → X4 → M X4) = Aes.Profile.encrypt_4_blocks Cfg.profile := by
  funext e x
  unfold Aes192Enc.encrypt_4_blocks Aes.Profile.encrypt_4_blocks
  rw [AesBlockX4.chain_enc_eq h]
  simp only [idx_lit, ok_bind']
theorem Aes192Dec.decrypt_block_eq (h : (Aes.AesVec.pre : Option (Aes.Pre B)) = some ⟨HasPre.pre_enc, HasPre.pre_dec⟩) :
    (Aes192Dec.decrypt_block : Aes.AesDec B 12 → B → M B) = Aes.Profile.decrypt_block Cfg.profile := by
  funext e x
  unfold Aes192Dec.decrypt_block Aes.Profile.decrypt_block
  rw [AesBlock.chain_dec_eq h]
  simp only [idx_lit, ok_bind']
theorem Aes192Dec.decrypt_2_blocks_eq (h : (Aes.AesVec.pre : Option (Aes.Pre X2)) = some ⟨AesBlockX2.pre_enc, AesBlockX2.pre_dec⟩) :
    (Aes192Dec.decrypt_2_blocks : Aes.AesDec B 12 → X2 → M X2) = Aes.Profile.decrypt_2_blocks Cfg.profile := by
  funext e x
  unfold Aes192Dec.decrypt_2_blocks Aes.Profile.decrypt_2_blocks
  rw [AesBlockX2.chain_dec_eq h]
  simp only [idx_lit, ok_bind']
theorem Aes192Dec.decrypt_4_blocks_eq (h : (Aes.AesVec.pre : Option (Aes.Pre X4)) = some ⟨AesBlockX4.pre_enc, AesBlockX4.pre_dec⟩) :
    (Aes192Dec.decrypt_4_blocks : Aes.AesDec B 12 → X4 → M X4) = Aes.Profile.decrypt_4_blocks Cfg.profile := by
  funext e x
  unfold Aes192Dec.decrypt_4_blocks Aes.Profile.decrypt_4_blocks
  rw [AesBlockX4.chain_dec_eq h]
  simp only [idx_lit, ok_bind']
theorem Aes256Enc.from_eq : (Aes256Enc.from : _ → M (Aes.AesEnc B 14)) = Aes.Aes256Enc.from := rfl
theorem Aes256Enc.decrypter_eq : (Aes256Enc.decrypter : Aes.AesEnc B 14 → _) = Aes.Profile.decrypter Cfg.profile := by
  funext e
  unfold Aes256Enc.decrypter Aes.Profile.decrypter
  rw [dec_round_keys_eq]
theorem Aes256Dec.from_eq : (Aes256Dec.from : _ → M (Aes.AesDec B 14)) = Aes.Profile.Aes256Dec.from Cfg.profile := by
  funext e
  unfold Aes256Dec.from Aes.Profile.Aes256Dec.from
  rw [Aes256Enc.decrypter_eq, Aes256Enc.from_eq]
theorem Aes256Dec.encrypter_eq : (Aes256Dec.encrypter : Aes.AesDec B 14 → _) = Aes.Profile.encrypter Cfg.profile := by
  funext e
  unfold Aes256Dec.encrypter Aes.Profile.encrypter
  rw [enc_round_keys_eq]
theorem Aes256Enc.encrypt_block_eq (h : (Aes.AesVec.pre : Option (Aes.Pre B)) = some ⟨HasPre.pre_enc, HasPre.pre_dec⟩) :
    (Aes256Enc.encrypt_block : Aes.AesEnc B 14 → B → M B) = Aes.Profile.encrypt_block Cfg.profile := by
  funext e x
  unfold Aes256Enc.encrypt_block Aes.Profile.encrypt_block
  rw [AesBlock.chain_enc_eq h]
  simp only [idx_lit, ok_bind']
theorem Aes256Enc.encrypt_2_blocks_eq (h : (Aes.AesVec.pre : Option (Aes.Pre X2)) = some ⟨AesBlockX2.pre_enc, AesBlockX2.pre_dec⟩) :
    (Aes256Enc.encrypt_2_blocks : Aes.AesEnc B 14 → X2 → M X2) = Aes.Profile.encrypt_2_blocks Cfg.profile := by
  funext e x
  unfold Aes256Enc.encrypt_2_blocks Aes.Profile.encrypt_2_blocks
  rw [AesBlockX2.chain_enc_eq h]
  simp only [idx_lit, ok_bind']
theorem Aes256Enc.encrypt_4_blocks_eq (h : (Aes.AesVec.pre : Option (Aes.Pre X4)) = some ⟨AesBlockX4.pre_enc, AesBlockX4.pre_dec⟩) :
    (Aes256Enc.encrypt_4_blocks : Aes.AesEnc B 14 → X4 → M X4) = Aes.Profile.encrypt_4_blocks Cfg.profile := by
  funext e x
  unfold Aes256Enc.encrypt_4_blocks Aes.Profile.encrypt_4_blocks
  rw [AesBlockX4.chain_enc_eq h]
  simp only [idx_lit, ok_bind']
theorem Aes256Dec.decrypt_block_eq (h : (Aes.AesVec.pre : Option (Aes.Pre B)) = some ⟨HasPre.pre_enc, HasPre.pre_dec⟩) :
    (Aes256Dec.decrypt_block : Aes.AesDec B 14 → B → M B) = Aes.Profile.decrypt_block Cfg.profile := by
  funext e x
  unfold Aes256Dec.decrypt_block Aes.Profile.decrypt_block
  rw [AesBlock.chain_dec_eq h]
  simp only [idx_lit, ok_bind']
theorem Aes256Dec.decrypt_2_blocks_eq (h : (Aes.AesVec.pre : Option (Aes.Pre X2)) = some ⟨AesBlockX2.pre_enc, AesBlockX2.pre_dec⟩) :
    (Aes256Dec.decrypt_2_blocks : Aes.AesDec B 14 → X2 → M X2) = Aes.Profile.decrypt_2_blocks Cfg.profile := by
  funext e x
  unfold Aes256Dec.decrypt_2_blocks Aes.Profile.decrypt_2_blocks
  rw [AesBlockX2.chain_dec_eq h]
  simp only [idx_lit, ok_bind']
theorem Aes256Dec.decrypt_4_blocks_eq (h : (Aes.AesVec.pre : Option (Aes.Pre X4)) = some ⟨AesBlockX4.pre_enc, AesBlockX4.pre_dec⟩) :
    (Aes256Dec.decrypt_4_blocks : Aes.AesDec B 14 → X4 → M X4) = Aes.Profile.decrypt_4_blocks Cfg.profile := by
  funext e x
  unfold Aes256Dec.decrypt_4_blocks Aes.Profile.decrypt_4_blocks
  rw [AesBlockX4.chain_dec_eq h]
  simp only [idx_lit, ok_bind']
theorem upperHex_eq : (AesBlock.UpperHex.fmt : B → _) = Aes.Fmt.upperHex := by
  funext v o
  unfold AesBlock.UpperHex.fmt Aes.Fmt.upperHex
  simp only [andThen_done, AesBlock.into_bytes_eq]
  rfl
theorem lowerHex_eq : (AesBlock.LowerHex.fmt : B → _) = Aes.Fmt.lowerHex := by
  funext v o
  unfold AesBlock.LowerHex.fmt Aes.Fmt.lowerHex
  simp only [andThen_done, AesBlock.into_bytes_eq]
  rfl
theorem binary_eq : (AesBlock.Binary.fmt : B → _) = Aes.Fmt.binary := by
  funext v o
  unfold AesBlock.Binary.fmt Aes.Fmt.binary
  simp only [andThen_done, AesBlock.into_bytes_eq]
  rfl
theorem display_eq : (AesBlock.Display.fmt : B → _) = Aes.Fmt.display := by
  funext v o
  unfold AesBlock.Display.fmt Aes.Fmt.display
  rw [upperHex_eq, lowerHex_eq]
theorem debug_eq : (AesBlock.Debug.fmt : B → _) = Aes.Fmt.debug := by
  funext v o
  unfold AesBlock.Debug.fmt Aes.Fmt.debug
  rw [display_eq]
theorem debugX2_eq : (AesBlockX2.Debug.fmt : X2 → _) = Aes.Fmt.debugX2 := by
  funext v o
  unfold AesBlockX2.Debug.fmt Aes.Fmt.debugX2
  rw [debug_eq]
theorem debugX4_eq : (AesBlockX4.Debug.fmt : X4 → _) = Aes.Fmt.debugX4 := by
  funext v o
  unfold AesBlockX4.Debug.fmt Aes.Fmt.debugX4
  rw [debug_eq]
theorem Aes128Enc.debug_eq : (Aes128Enc.Debug.fmt : Aes.AesEnc B 10 → _) = Aes.Fmt.debugEnc := by
  funext v o
  unfold Aes128Enc.Debug.fmt Aes.Fmt.debugEnc
  rw [Lib.Pre.debug_eq]
  rfl
theorem Aes128Dec.debug_eq : (Aes128Dec.Debug.fmt : Aes.AesDec B 10 → _) = Aes.Fmt.debugDec := by
  funext v o
  unfold Aes128Dec.Debug.fmt Aes.Fmt.debugDec
  rw [Lib.Pre.debug_eq]
  rfl
theorem Aes192Enc.debug_eq : (Aes192Enc.Debug.fmt : Aes.AesEnc B 12 → _) = Aes.Fmt.debugEnc := by
  funext v o
  unfold Aes192Enc.Debug.fmt Aes.Fmt.debugEnc
  rw [Lib.Pre.debug_eq]
  rfl
theorem Aes192Dec.debug_eq : (Aes192Dec.Debug.fmt : Aes.AesDec B 12 → _) = Aes.Fmt.debugDec := by
  funext v o
  unfold Aes192Dec.Debug.fmt Aes.Fmt.debugDec
  rw [Lib.Pre.debug_eq]
  rfl
theorem Aes256Enc.debug_eq : (Aes256Enc.Debug.fmt : Aes.AesEnc B 14 → _) = Aes.Fmt.debugEnc := by
  funext v o
  unfold Aes256Enc.Debug.fmt Aes.Fmt.debugEnc
  rw [Lib.Pre.debug_eq]
  rfl
theorem Aes256Dec.debug_eq : (Aes256Dec.Debug.fmt : Aes.AesDec B 14 → _) = Aes.Fmt.debugDec := by
  funext v o
  unfold Aes256Dec.Debug.fmt Aes.Fmt.debugDec
  rw [Lib.Pre.debug_eq]
  rfl
end Lib.Pre

end RustSrc
