import Verif.Proofs.GenLib
import Verif.Proofs.GenTable
import Verif.Proofs.GenBitslice
import Verif.Proofs.GenX86
import Verif.Proofs.GenArm
import Verif.Proofs.GenRiscv64
import Verif.Proofs.GenRiscv32
import Verif.Proofs.GenDefault
import Verif.Proofs.GenNi
import Verif.Gen.Crate
/-
The crate assembled from the generated functions (Verif/Gen/Crate.lean) is the crate of the hand-written model, on every
target and in every build profile.
-/
set_option linter.unusedSectionVars false
namespace RustSrc
open Rust Aes Aes.Client Aes.Fmt Aes.Target

section
variable (t : Target) [Cfg] [b1 : Aes.AesBlock t.Block] [b2 : Aes.AesBlockX2 t.Block t.X2]
    [b4 : Aes.AesBlockX4 t.Block t.X2 t.X4]

theorem crateStd_eq (h1 : b1.pre = none) (h2 : b2.pre = none) (h4 : b4.pre = none) :
    crateStd t = Aes.Profile.crateOf Cfg.profile t := by
  unfold crateStd Aes.Profile.crateOf
  congr 1
  case e_new =>
    funext w; cases w <;> rfl
  case e_from_bytes =>
    funext w; cases w <;> rfl
  case e_from_ref =>
    funext w; cases w <;> rfl
  case e_try_from =>
    funext w; cases w
    · exact Lib.Std.AesBlock.try_from_eq
    · exact Lib.Std.AesBlockX2.try_from_eq
    · exact Lib.Std.AesBlockX4.try_from_eq
  case e_zero =>
    funext w; cases w <;> rfl
  case e_default_ =>
    funext w; cases w <;> rfl
  case e_into_bytes =>
    funext w; cases w
    · exact Lib.Std.AesBlock.into_bytes_eq
    · exact Lib.Std.AesBlockX2.into_bytes_eq
    · exact Lib.Std.AesBlockX4.into_bytes_eq
  case e_store_to =>
    funext w; cases w <;> rfl
  case e_is_zero =>
    funext w; cases w <;> rfl
  case e_eq =>
    funext w; cases w <;> rfl
  case e_bin =>
    funext w o; cases w <;> cases o <;> rfl
  case e_assign =>
    funext w o; cases w <;> cases o <;> rfl
  case e_not =>
    funext w; cases w <;> rfl
  case e_chain_enc =>
    funext w; cases w
    · exact Lib.Std.AesBlock.chain_enc_eq h1
    · exact Lib.Std.AesBlockX2.chain_enc_eq h2
    · exact Lib.Std.AesBlockX4.chain_enc_eq h4
  case e_chain_dec =>
    funext w; cases w
    · exact Lib.Std.AesBlock.chain_dec_eq h1
    · exact Lib.Std.AesBlockX2.chain_dec_eq h2
    · exact Lib.Std.AesBlockX4.chain_dec_eq h4
  case e_format1 =>
    funext st o x; cases st
    · exact congrArg (fun f : t.Block → Opts → Action => format (f x o)) Lib.Std.display_eq
    · exact congrArg (fun f : t.Block → Opts → Action => format (f x o)) Lib.Std.debug_eq
    · exact congrArg (fun f : t.Block → Opts → Action => format (f x o)) Lib.Std.lowerHex_eq
    · exact congrArg (fun f : t.Block → Opts → Action => format (f x o)) Lib.Std.upperHex_eq
    · exact congrArg (fun f : t.Block → Opts → Action => format (f x o)) Lib.Std.binary_eq
  case e_format2 =>
    exact congrArg (fun (f : t.X2 → Opts → Action) o x => format (f x o)) Lib.Std.debugX2_eq
  case e_format4 =>
    exact congrArg (fun (f : t.X4 → Opts → Action) o x => format (f x o)) Lib.Std.debugX4_eq
  case e_decrypter =>
    funext k; cases k
    · exact Lib.Std.Aes128Enc.decrypter_eq
    · exact Lib.Std.Aes192Enc.decrypter_eq
    · exact Lib.Std.Aes256Enc.decrypter_eq
  case e_encrypter =>
    funext k; cases k
    · exact Lib.Std.Aes128Dec.encrypter_eq
    · exact Lib.Std.Aes192Dec.encrypter_eq
    · exact Lib.Std.Aes256Dec.encrypter_eq
  case e_encrypt =>
    funext k w; cases k <;> cases w
    · exact Lib.Std.Aes128Enc.encrypt_block_eq h1
    · exact Lib.Std.Aes128Enc.encrypt_2_blocks_eq h2
    · exact Lib.Std.Aes128Enc.encrypt_4_blocks_eq h4
    · exact Lib.Std.Aes192Enc.encrypt_block_eq h1
    · exact Lib.Std.Aes192Enc.encrypt_2_blocks_eq h2
    · exact Lib.Std.Aes192Enc.encrypt_4_blocks_eq h4
    · exact Lib.Std.Aes256Enc.encrypt_block_eq h1
    · exact Lib.Std.Aes256Enc.encrypt_2_blocks_eq h2
    · exact Lib.Std.Aes256Enc.encrypt_4_blocks_eq h4
  case e_decrypt =>
    funext k w; cases k <;> cases w
    · exact Lib.Std.Aes128Dec.decrypt_block_eq h1
    · exact Lib.Std.Aes128Dec.decrypt_2_blocks_eq h2
    · exact Lib.Std.Aes128Dec.decrypt_4_blocks_eq h4
    · exact Lib.Std.Aes192Dec.decrypt_block_eq h1
    · exact Lib.Std.Aes192Dec.decrypt_2_blocks_eq h2
    · exact Lib.Std.Aes192Dec.decrypt_4_blocks_eq h4
    · exact Lib.Std.Aes256Dec.decrypt_block_eq h1
    · exact Lib.Std.Aes256Dec.decrypt_2_blocks_eq h2
    · exact Lib.Std.Aes256Dec.decrypt_4_blocks_eq h4
  case e_formatE =>
    funext k o e; cases k
    · exact congrArg (fun f => format (f e o)) Lib.Std.Aes128Enc.debug_eq
    · exact congrArg (fun f => format (f e o)) Lib.Std.Aes192Enc.debug_eq
    · exact congrArg (fun f => format (f e o)) Lib.Std.Aes256Enc.debug_eq
  case e_formatD =>
    funext k o e; cases k
    · exact congrArg (fun f => format (f e o)) Lib.Std.Aes128Dec.debug_eq
    · exact congrArg (fun f => format (f e o)) Lib.Std.Aes192Dec.debug_eq
    · exact congrArg (fun f => format (f e o)) Lib.Std.Aes256Dec.debug_eq

theorem cratePre_eq [HasPre t.Block]
    (h1 : b1.pre = some ⟨HasPre.pre_enc, HasPre.pre_dec⟩)
    (h2 : b2.pre = some ⟨Lib.Pre.AesBlockX2.pre_enc, Lib.Pre.AesBlockX2.pre_dec⟩)
    (h4 : b4.pre = some ⟨Lib.Pre.AesBlockX4.pre_enc, Lib.Pre.AesBlockX4.pre_dec⟩) :
    cratePre t = Aes.Profile.crateOf Cfg.profile t := by
  unfold cratePre Aes.Profile.crateOf
  congr 1
  case e_new =>
    funext w; cases w <;> rfl
  case e_from_bytes =>
    funext w; cases w <;> rfl
  case e_from_ref =>
    funext w; cases w <;> rfl
  case e_try_from =>
    funext w; cases w
    · exact Lib.Pre.AesBlock.try_from_eq
    · exact Lib.Pre.AesBlockX2.try_from_eq
    · exact Lib.Pre.AesBlockX4.try_from_eq
  case e_zero =>
    funext w; cases w <;> rfl
  case e_default_ =>
    funext w; cases w <;> rfl
  case e_into_bytes =>
    funext w; cases w
    · exact Lib.Pre.AesBlock.into_bytes_eq
    · exact Lib.Pre.AesBlockX2.into_bytes_eq
    · exact Lib.Pre.AesBlockX4.into_bytes_eq
  case e_store_to =>
    funext w; cases w <;> rfl
  case e_is_zero =>
    funext w; cases w <;> rfl
  case e_eq =>
    funext w; cases w <;> rfl
  case e_bin =>
    funext w o; cases w <;> cases o <;> rfl
  case e_assign =>
    funext w o; cases w <;> cases o <;> rfl
  case e_not =>
    funext w; cases w <;> rfl
  case e_chain_enc =>
    funext w; cases w
    · exact Lib.Pre.AesBlock.chain_enc_eq h1
    · exact Lib.Pre.AesBlockX2.chain_enc_eq h2
    · exact Lib.Pre.AesBlockX4.chain_enc_eq h4
  case e_chain_dec =>
    funext w; cases w
    · exact Lib.Pre.AesBlock.chain_dec_eq h1
    · exact Lib.Pre.AesBlockX2.chain_dec_eq h2
    · exact Lib.Pre.AesBlockX4.chain_dec_eq h4
  case e_format1 =>
    funext st o x; cases st
    · exact congrArg (fun f : t.Block → Opts → Action => format (f x o)) Lib.Pre.display_eq
    · exact congrArg (fun f : t.Block → Opts → Action => format (f x o)) Lib.Pre.debug_eq
    · exact congrArg (fun f : t.Block → Opts → Action => format (f x o)) Lib.Pre.lowerHex_eq
    · exact congrArg (fun f : t.Block → Opts → Action => format (f x o)) Lib.Pre.upperHex_eq
    · exact congrArg (fun f : t.Block → Opts → Action => format (f x o)) Lib.Pre.binary_eq
  case e_format2 =>
    exact congrArg (fun (f : t.X2 → Opts → Action) o x => format (f x o)) Lib.Pre.debugX2_eq
  case e_format4 =>
    exact congrArg (fun (f : t.X4 → Opts → Action) o x => format (f x o)) Lib.Pre.debugX4_eq
  case e_decrypter =>
    funext k; cases k
    · exact Lib.Pre.Aes128Enc.decrypter_eq
    · exact Lib.Pre.Aes192Enc.decrypter_eq
    · exact Lib.Pre.Aes256Enc.decrypter_eq
  case e_encrypter =>
    funext k; cases k
    · exact Lib.Pre.Aes128Dec.encrypter_eq
    · exact Lib.Pre.Aes192Dec.encrypter_eq
    · exact Lib.Pre.Aes256Dec.encrypter_eq
  case e_encrypt =>
    funext k w; cases k <;> cases w
    · exact Lib.Pre.Aes128Enc.encrypt_block_eq h1
    · exact Lib.Pre.Aes128Enc.encrypt_2_blocks_eq h2
    · exact Lib.Pre.Aes128Enc.encrypt_4_blocks_eq h4
    · exact Lib.Pre.Aes192Enc.encrypt_block_eq h1
    · exact Lib.Pre.Aes192Enc.encrypt_2_blocks_eq h2
    · exact Lib.Pre.Aes192Enc.encrypt_4_blocks_eq h4
    · exact Lib.Pre.Aes256Enc.encrypt_block_eq h1
    · exact Lib.Pre.Aes256Enc.encrypt_2_blocks_eq h2
    · exact Lib.Pre.Aes256Enc.encrypt_4_blocks_eq h4
  case e_decrypt =>
    funext k w; cases k <;> cases w
    · exact Lib.Pre.Aes128Dec.decrypt_block_eq h1
    · exact Lib.Pre.Aes128Dec.decrypt_2_blocks_eq h2
    · exact Lib.Pre.Aes128Dec.decrypt_4_blocks_eq h4
    · exact Lib.Pre.Aes192Dec.decrypt_block_eq h1
    · exact Lib.Pre.Aes192Dec.decrypt_2_blocks_eq h2
    · exact Lib.Pre.Aes192Dec.decrypt_4_blocks_eq h4
    · exact Lib.Pre.Aes256Dec.decrypt_block_eq h1
    · exact Lib.Pre.Aes256Dec.decrypt_2_blocks_eq h2
    · exact Lib.Pre.Aes256Dec.decrypt_4_blocks_eq h4
  case e_formatE =>
    funext k o e; cases k
    · exact congrArg (fun f => format (f e o)) Lib.Pre.Aes128Enc.debug_eq
    · exact congrArg (fun f => format (f e o)) Lib.Pre.Aes192Enc.debug_eq
    · exact congrArg (fun f => format (f e o)) Lib.Pre.Aes256Enc.debug_eq
  case e_formatD =>
    funext k o e; cases k
    · exact congrArg (fun f => format (f e o)) Lib.Pre.Aes128Dec.debug_eq
    · exact congrArg (fun f => format (f e o)) Lib.Pre.Aes192Dec.debug_eq
    · exact congrArg (fun f => format (f e o)) Lib.Pre.Aes256Dec.debug_eq

end

theorem block_eq (pf : Aes.Profile) (e : Endian) (t : Target) : block pf e t = Aes.Profile.block pf t := by
  cases t with
  | table => exact @Table.block_eq (cfg pf e .table)
  | bitslice e' => exact @Bitslice.block_eq (cfg pf e (.bitslice e'))
  | x86 => exact @X86.block_eq (cfg pf e .x86)
  | x86Vaes => exact @X86.block_eq (cfg pf e .x86Vaes)
  | x86Vaes512 => exact @X86.block_eq (cfg pf e .x86Vaes512)
  | arm b => exact @Arm.block_eq (cfg pf e (.arm b)) rfl
  | riscv64 => exact @Riscv64.block_eq (cfg pf e .riscv64) rfl
  | riscv32 => exact @Riscv32.block_eq (cfg pf e .riscv32) rfl

theorem withPre2_eq {B : Type} [Cfg] [b : Aes.AesBlock B] [HasPre B] (h : b.pre = some ⟨HasPre.pre_enc, HasPre.pre_dec⟩) :
    withPre2 (DefaultX2.vec (B := B)) = Aes.Profile.DefaultX2.vec Cfg.profile B := by
  have h2 : (Aes.Profile.DefaultX2.vec Cfg.profile B).pre =
      some ⟨@Lib.Pre.AesBlockX2.pre_enc _ _ (DefaultX2.vec (B := B)) _, @Lib.Pre.AesBlockX2.pre_dec _ _ (DefaultX2.vec (B := B)) _⟩ := by
    change (b.pre.map fun p => _) = _
    rw [h]
    rfl
  refine (DefaultX2.vec_eq _).trans ?_
  rw [← h2]
  rfl

theorem withPre4_eq {B X2 : Type} [Cfg] [Aes.AesBlock B] [b : Aes.AesBlockX2 B X2] [HasPre B]
    (h : b.pre = some ⟨Lib.Pre.AesBlockX2.pre_enc, Lib.Pre.AesBlockX2.pre_dec⟩) :
    withPre4 (DefaultX4.vec (B := B) (X2 := X2)) = Aes.Profile.DefaultX4.vec Cfg.profile B X2 := by
  have h2 : (Aes.Profile.DefaultX4.vec Cfg.profile B X2).pre =
      some ⟨@Lib.Pre.AesBlockX4.pre_enc _ _ _ _ (DefaultX4.vec (B := B) (X2 := X2)) _,
        @Lib.Pre.AesBlockX4.pre_dec _ _ _ _ (DefaultX4.vec (B := B) (X2 := X2)) _⟩ := by
    change (b.pre.map fun p => _) = _
    rw [h]
    rfl
  refine (DefaultX4.vec_eq _).trans ?_
  rw [← h2]
  rfl

theorem blockX2_eq (pf : Aes.Profile) (e : Endian) (t : Target) : blockX2 pf e t = Aes.Profile.blockX2 pf t := by
  cases t with
  | table => exact congrArg (@Aes.Profile.DefaultX2.vec pf _) (block_eq pf e .table)
  | bitslice e' => exact congrArg (@Aes.Profile.DefaultX2.vec pf _) (block_eq pf e (.bitslice e'))
  | x86 => exact congrArg (@Aes.Profile.DefaultX2.vec pf _) (block_eq pf e .x86)
  | x86Vaes => exact @NiX2.vec_eq (cfg pf e .x86Vaes)
  | x86Vaes512 => exact @NiX2.vec_eq (cfg pf e .x86Vaes512)
  | arm b =>
    exact (@withPre2_eq _ (cfg pf e (.arm b)) (block pf e (.arm b)) (armPre pf e b) rfl).trans
      (congrArg (@Aes.Profile.DefaultX2.vec pf _) (block_eq pf e (.arm b)))
  | riscv64 => exact congrArg (@Aes.Profile.DefaultX2.vec pf _) (block_eq pf e .riscv64)
  | riscv32 =>
    exact (@withPre2_eq _ (cfg pf e .riscv32) (block pf e .riscv32) (riscv32Pre pf e) rfl).trans
      (congrArg (@Aes.Profile.DefaultX2.vec pf _) (block_eq pf e .riscv32))

theorem blockX4_eq (pf : Aes.Profile) (e : Endian) (t : Target) : blockX4 pf e t = Aes.Profile.blockX4 pf t := by
  cases t with
  | table => exact congrArg (@Aes.Profile.DefaultX4.vec pf _ _) (blockX2_eq pf e .table)
  | bitslice e' => exact congrArg (@Aes.Profile.DefaultX4.vec pf _ _) (blockX2_eq pf e (.bitslice e'))
  | x86 => exact congrArg (@Aes.Profile.DefaultX4.vec pf _ _) (blockX2_eq pf e .x86)
  | x86Vaes => exact congrArg (@Aes.Profile.DefaultX4.vec pf _ _) (blockX2_eq pf e .x86Vaes)
  | x86Vaes512 => exact @NiX4.vec_eq (cfg pf e .x86Vaes512)
  | arm b =>
    exact (@withPre4_eq _ _ (cfg pf e (.arm b)) (block pf e (.arm b)) (blockX2 pf e (.arm b)) (armPre pf e b) rfl).trans
      (congrArg (@Aes.Profile.DefaultX4.vec pf _ _) (blockX2_eq pf e (.arm b)))
  | riscv64 => exact congrArg (@Aes.Profile.DefaultX4.vec pf _ _) (blockX2_eq pf e .riscv64)
  | riscv32 =>
    exact (@withPre4_eq _ _ (cfg pf e .riscv32) (block pf e .riscv32) (blockX2 pf e .riscv32) (riscv32Pre pf e) rfl).trans
      (congrArg (@Aes.Profile.DefaultX4.vec pf _ _) (blockX2_eq pf e .riscv32))

/-- Where the `AesBlock` module has no `pre_enc`, the wide types have none. -/
theorem std (pf : Aes.Profile) (e : Endian) (t : Target) (h1 : (block pf e t).pre = none) (h2 : (blockX2 pf e t).pre = none)
    (h4 : (blockX4 pf e t).pre = none) :
    @crateStd t (cfg pf e t) (block pf e t) (blockX2 pf e t) (blockX4 pf e t) =
      @Aes.Profile.crateOf (cfg pf e t).profile t (Aes.Profile.block pf t) (Aes.Profile.blockX2 pf t) (Aes.Profile.blockX4 pf t) := by
  rw [← block_eq pf e, ← blockX2_eq pf e, ← blockX4_eq pf e]
  exact @crateStd_eq t (cfg pf e t) (block pf e t) (blockX2 pf e t) (blockX4 pf e t) h1 h2 h4

/-- The crate printed from the source text is the crate of the hand-written model. -/
theorem crate_eq (pf : Aes.Profile) (e : Endian) (t : Target) : crate pf e t = Aes.Profile.crate pf t := by
  unfold Aes.Profile.crate
  cases t with
  | table => exact std pf e .table rfl rfl rfl
  | bitslice e' => exact std pf e (.bitslice e') rfl rfl rfl
  | x86 => exact std pf e .x86 rfl rfl rfl
  | x86Vaes => exact std pf e .x86Vaes rfl rfl rfl
  | x86Vaes512 => exact std pf e .x86Vaes512 rfl rfl rfl
  | riscv64 => exact std pf e .riscv64 rfl rfl rfl
  | arm b =>
    rw [← block_eq pf e, ← blockX2_eq pf e, ← blockX4_eq pf e]
    exact @cratePre_eq (.arm b) (cfg pf e (.arm b)) (block pf e (.arm b)) (blockX2 pf e (.arm b)) (blockX4 pf e (.arm b))
      (armPre pf e b) rfl rfl rfl
  | riscv32 =>
    rw [← block_eq pf e, ← blockX2_eq pf e, ← blockX4_eq pf e]
    exact @cratePre_eq .riscv32 (cfg pf e .riscv32) (block pf e .riscv32) (blockX2 pf e .riscv32) (blockX4 pf e .riscv32)
      (riscv32Pre pf e) rfl rfl rfl

end RustSrc
