import Verif.Proofs.GenLeakCore
import Verif.Proofs.GenTable
import Verif.Gen.LeakTable
import Verif.Model.LeakTable
/-
The leakage of the functions generated from src/aes_table_based.rs is that of the model.
-/
set_option linter.unusedSectionVars false
set_option linter.unusedVariables false
namespace RustSrc.Leak.Table
open Rust
variable [Cfg]

theorem te0_eq : te0 = Aes.Leak.Table.te0 := by unfold te0; rw [RustSrc.Table.TE0_eq]; rfl
theorem te1_eq : te1 = Aes.Leak.Table.te1 := by unfold te1; rw [RustSrc.Table.TE1_eq]; rfl
theorem te2_eq : te2 = Aes.Leak.Table.te2 := by unfold te2; rw [RustSrc.Table.TE2_eq]; rfl
theorem te3_eq : te3 = Aes.Leak.Table.te3 := by unfold te3; rw [RustSrc.Table.TE3_eq]; rfl
theorem te4_0_eq : te4_0 = Aes.Leak.Table.te4_0 := by unfold te4_0; rw [RustSrc.Table.TE4_eq]; rfl
theorem te4_1_eq : te4_1 = Aes.Leak.Table.te4_1 := by unfold te4_1; rw [RustSrc.Table.TE4_eq]; rfl
theorem te4_2_eq : te4_2 = Aes.Leak.Table.te4_2 := by unfold te4_2; rw [RustSrc.Table.TE4_eq]; rfl
theorem te4_3_eq : te4_3 = Aes.Leak.Table.te4_3 := by unfold te4_3; rw [RustSrc.Table.TE4_eq]; rfl
theorem td0_eq : td0 = Aes.Leak.Table.td0 := by unfold td0; rw [RustSrc.Table.TD0_eq]; rfl
theorem td1_eq : td1 = Aes.Leak.Table.td1 := by unfold td1; rw [RustSrc.Table.TD1_eq]; rfl
theorem td2_eq : td2 = Aes.Leak.Table.td2 := by unfold td2; rw [RustSrc.Table.TD2_eq]; rfl
theorem td3_eq : td3 = Aes.Leak.Table.td3 := by unfold td3; rw [RustSrc.Table.TD3_eq]; rfl
theorem td4_0_eq : td4_0 = Aes.Leak.Table.td4_0 := by unfold td4_0; rw [RustSrc.Table.TD4_eq]; rfl
theorem td4_1_eq : td4_1 = Aes.Leak.Table.td4_1 := by unfold td4_1; rw [RustSrc.Table.TD4_eq]; rfl
theorem td4_2_eq : td4_2 = Aes.Leak.Table.td4_2 := by unfold td4_2; rw [RustSrc.Table.TD4_eq]; rfl
theorem td4_3_eq : td4_3 = Aes.Leak.Table.td4_3 := by unfold td4_3; rw [RustSrc.Table.TD4_eq]; rfl
theorem enc_eq : enc = Aes.Leak.Table.enc := by
  unfold enc Aes.Leak.Table.enc; simp only [te0_eq, te1_eq, te2_eq, te3_eq]
theorem dec_eq : dec = Aes.Leak.Table.dec := by
  unfold dec Aes.Leak.Table.dec; simp only [td0_eq, td1_eq, td2_eq, td3_eq]
theorem enc_last_eq : enc_last = Aes.Leak.Table.enc_last := by
  unfold enc_last Aes.Leak.Table.enc_last; simp only [te4_0_eq, te4_1_eq, te4_2_eq, te4_3_eq]
theorem dec_last_eq : dec_last = Aes.Leak.Table.dec_last := by
  unfold dec_last Aes.Leak.Table.dec_last; simp only [td4_0_eq, td4_1_eq, td4_2_eq, td4_3_eq]
theorem mc_eq : mc = Aes.Leak.Table.mc := by
  unfold mc Aes.Leak.Table.mc; simp only [te0_eq, te1_eq, te2_eq, te3_eq, td4_3_eq]
theorem imc_eq : imc = Aes.Leak.Table.imc := by
  unfold imc Aes.Leak.Table.imc; simp only [td0_eq, td1_eq, td2_eq, td3_eq, te4_3_eq]
theorem sub_word_eq : sub_word = Aes.Leak.Table.sub_word := by
  unfold sub_word Aes.Leak.Table.sub_word; simp only [te4_0_eq, te4_1_eq, te4_2_eq, te4_3_eq]
theorem keyexp_128_eq : keyexp_128 = Aes.Leak.Table.keyexp_128 := by
  unfold keyexp_128 Aes.Leak.Table.keyexp_128; simp only [sub_word_eq]
theorem keyexp_192_eq : keyexp_192 = Aes.Leak.Table.keyexp_192 := by
  unfold keyexp_192 Aes.Leak.Table.keyexp_192; simp only [sub_word_eq]
theorem keyexp_256_1_eq : keyexp_256_1 = Aes.Leak.Table.keyexp_256_1 := by
  unfold keyexp_256_1 Aes.Leak.Table.keyexp_256_1; simp only [sub_word_eq]
theorem keyexp_256_2_eq : keyexp_256_2 = Aes.Leak.Table.keyexp_256_2 := by
  unfold keyexp_256_2 Aes.Leak.Table.keyexp_256_2; simp only [sub_word_eq]
theorem load_u32_be_eq (s : List U8) (o : Nat) (h : o + 3 < 65536) : load_u32_be s o = Aes.Leak.Table.load_u32_be s o := by
  unfold load_u32_be Aes.Leak.Table.load_u32_be
  simp only [Aes.Profile.uadd_ok Cfg.profile (show o + 0 < 65536 by omega), Aes.Profile.uadd_ok Cfg.profile (show o + 1 < 65536 by omega),
    Aes.Profile.uadd_ok Cfg.profile (show o + 2 < 65536 by omega), Aes.Profile.uadd_ok Cfg.profile h, quiet_ok, pure_bind]
theorem new_eq : new = Aes.Leak.Table.new := by
  funext v
  unfold new Aes.Leak.Table.new
  simp only [load_u32_be_eq _ 0 (by decide), load_u32_be_eq _ 4 (by decide), load_u32_be_eq _ 8 (by decide), load_u32_be_eq _ 12 (by decide)]
theorem from_bytes_eq : from_bytes = Aes.Leak.Table.from_bytes := new_eq
theorem store_to_eq : store_to = Aes.Leak.Table.store_to := rfl
theorem keygen_128_eq : keygen_128 = Aes.Leak.Table.keygen_128 := by
  unfold keygen_128 Aes.Leak.Table.keygen_128
  simp only [keyexp_128_eq, from_bytes_eq]
theorem keygen_192_eq : keygen_192 = Aes.Leak.Table.keygen_192 := by
  funext k
  unfold keygen_192 Aes.Leak.Table.keygen_192
  simp only [keyexp_192_eq, load_u32_be_eq _ 0 (by decide), load_u32_be_eq _ 4 (by decide), load_u32_be_eq _ 8 (by decide),
    load_u32_be_eq _ 12 (by decide), load_u32_be_eq _ 16 (by decide), load_u32_be_eq _ 20 (by decide)]
theorem keygen_256_eq : keygen_256 = Aes.Leak.Table.keygen_256 := by
  unfold keygen_256 Aes.Leak.Table.keygen_256 try_from
  simp only [keyexp_256_1_eq, keyexp_256_2_eq, from_bytes_eq, Core.try_from_slice_eq]
theorem block_eq : block = (inferInstance : Aes.Leak.LBlock Aes.Table.Block) := by
  unfold block
  rw [new_eq, from_bytes_eq, store_to_eq, enc_eq, dec_eq, enc_last_eq, dec_last_eq, mc_eq, imc_eq, keygen_128_eq, keygen_192_eq, keygen_256_eq]
  rfl

end RustSrc.Leak.Table
