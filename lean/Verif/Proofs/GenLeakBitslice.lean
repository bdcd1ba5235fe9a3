import Verif.Proofs.GenLeakColumns
import Verif.Proofs.GenBitslice
import Verif.Gen.LeakBitslice
import Verif.Model.LeakBitslice
/-
The leakage of the functions generated from src/aes_bitslice.rs is that of the model.
-/
set_option linter.unusedSectionVars false
set_option linter.unusedVariables false
namespace RustSrc.Leak.Bitslice
open Rust
variable [Cfg]

theorem ror1_eq : ror1 = Aes.Leak.Bitslice.ror1 := by
  unfold ror1 Aes.Leak.Bitslice.ror1; rw [RustSrc.Bitslice.rep_eq]; rfl
theorem swap2_eq : swap2 = Aes.Leak.Bitslice.swap2 := by
  unfold swap2 Aes.Leak.Bitslice.swap2; rw [RustSrc.Bitslice.rep_eq]; rfl
theorem step_a_eq : step_a = Aes.Leak.Bitslice.step_a := rfl
theorem step_b_eq : step_b = Aes.Leak.Bitslice.step_b := rfl
theorem subbytes_eq : subbytes = Aes.Leak.Bitslice.subbytes := by
  unfold subbytes Aes.Leak.Bitslice.subbytes
  rw [RustSrc.Bitslice.rep_eq, ror1_eq, swap2_eq, step_a_eq, step_b_eq]; rfl
theorem invsubbytes_eq : invsubbytes = Aes.Leak.Bitslice.invsubbytes := by
  unfold invsubbytes Aes.Leak.Bitslice.invsubbytes
  rw [RustSrc.Bitslice.rep_eq, ror1_eq, swap2_eq, step_a_eq, step_b_eq]; rfl
theorem sub_word_eq : sub_word = Aes.Leak.Bitslice.sub_word := by
  unfold sub_word Aes.Leak.Bitslice.sub_word; rw [subbytes_eq]
theorem xtime_eq : xtime = Aes.Leak.Bitslice.xtime := by
  unfold xtime Aes.Leak.Bitslice.xtime; rw [RustSrc.Bitslice.rep_eq]; rfl
theorem swap16_eq : swap16 = Aes.Leak.Bitslice.swap16 := rfl
theorem swap8_eq : swap8 = Aes.Leak.Bitslice.swap8 := rfl
theorem ror8_32_eq : ror8_32 = Aes.Leak.Bitslice.ror8_32 Cfg.endian := by
  unfold ror8_32 Aes.Leak.Bitslice.ror8_32
  cases h : Cfg.endian <;> rfl
theorem mixcolumns_eq : mixcolumns = Aes.Leak.Bitslice.mixcolumns Cfg.endian := by
  unfold mixcolumns Aes.Leak.Bitslice.mixcolumns; rw [xtime_eq, ror8_32_eq, swap16_eq, swap8_eq]
theorem invmixcolumns_eq : invmixcolumns = Aes.Leak.Bitslice.invmixcolumns Cfg.endian := by
  unfold invmixcolumns Aes.Leak.Bitslice.invmixcolumns; rw [xtime_eq, ror8_32_eq, swap16_eq, swap8_eq]
theorem shiftrows_eq : shiftrows = Aes.Leak.Bitslice.shiftrows Cfg.endian := by
  funext state
  unfold shiftrows Aes.Leak.Bitslice.shiftrows
  simp only [Aes.Leak.Bitslice.pick, bind_assoc, pure_bind]
  rfl
theorem invshiftrows_eq : invshiftrows = Aes.Leak.Bitslice.invshiftrows Cfg.endian := by
  funext state
  unfold invshiftrows Aes.Leak.Bitslice.invshiftrows
  simp only [Aes.Leak.Bitslice.pick, bind_assoc, pure_bind]
  rfl
theorem mc_eq : mc = Aes.Leak.Bitslice.mc := by
  unfold mc Aes.Leak.Bitslice.mc; rw [mixcolumns_eq]
theorem imc_eq : imc = Aes.Leak.Bitslice.imc := by
  unfold imc Aes.Leak.Bitslice.imc; rw [invmixcolumns_eq]
theorem enc_eq : enc = Aes.Leak.Bitslice.enc := by
  unfold enc Aes.Leak.Bitslice.enc; rw [mc_eq, subbytes_eq, shiftrows_eq]; rfl
theorem dec_eq : dec = Aes.Leak.Bitslice.dec := by
  unfold dec Aes.Leak.Bitslice.dec; rw [imc_eq, invsubbytes_eq, invshiftrows_eq]; rfl
theorem enc_last_eq : enc_last = Aes.Leak.Bitslice.enc_last := by
  unfold enc_last Aes.Leak.Bitslice.enc_last; rw [subbytes_eq, shiftrows_eq]; rfl
theorem dec_last_eq : dec_last = Aes.Leak.Bitslice.dec_last := by
  unfold dec_last Aes.Leak.Bitslice.dec_last; rw [invsubbytes_eq, invshiftrows_eq]; rfl
theorem store_to_eq : store_to = Aes.Leak.Bitslice.store_to := by
  funext self dst
  unfold store_to Aes.Leak.Bitslice.store_to
  rfl

theorem keygen_128_eq : keygen_128 = Aes.Leak.Bitslice.keygen_128 Cfg.endian := by
  funext key
  unfold keygen_128
  rw [sub_word_eq]
  refine (keygen_start 11 RustSrc.Bitslice.zeroed_bytes key.toList _).trans ?_
  unfold Aes.Leak.Bitslice.keygen_128 Aes.Leak.Columns.columns_128
  simp only [bind_assoc]
  refine congrArg _ (funext fun c => ?_)
  refine (congrArg (· >>= _) (forEach_congr _ _ (Aes.Leak.Columns.step_128 Aes.Leak.Bitslice.first) (fun a i hi => ?_) c)).trans ?_
  · have := rangeStep_lt hi (by omega)
    unfold Aes.Leak.Columns.step_128 Aes.Leak.Bitslice.first
    simp (disch := omega) only [uadd_quiet, bind_assoc, pure_bind]
    rfl
  refine congrArg _ (funext fun c => ?_)
  exact congrArg pure (RustSrc.Bitslice.as_blocks_eq (N := 11) _ c)

theorem keygen_192_eq : keygen_192 = Aes.Leak.Bitslice.keygen_192 Cfg.endian := by
  funext key
  unfold keygen_192
  rw [sub_word_eq]
  refine (keygen_start 13 RustSrc.Bitslice.zeroed_bytes key.toList _).trans ?_
  unfold Aes.Leak.Bitslice.keygen_192 Aes.Leak.Columns.columns_192
  simp only [bind_assoc]
  refine congrArg _ (funext fun c => ?_)
  refine (congrArg (· >>= _) (forEach_congr _ _ (Aes.Leak.Columns.step_192 Aes.Leak.Bitslice.first) (fun a i hi => ?_) c)).trans ?_
  · have := rangeStep_lt hi (by omega)
    unfold Aes.Leak.Columns.step_192 Aes.Leak.Bitslice.first
    simp (disch := omega) only [uadd_quiet, bind_assoc, pure_bind]
    rfl
  refine congrArg _ (funext fun c => ?_)
  unfold Aes.Leak.Bitslice.first
  simp only [bind_assoc, RustSrc.Bitslice.as_blocks_eq (N := 13)]
  rfl

theorem keygen_256_eq : keygen_256 = Aes.Leak.Bitslice.keygen_256 Cfg.endian := by
  funext key
  unfold keygen_256
  rw [sub_word_eq]
  refine (keygen_start 15 RustSrc.Bitslice.zeroed_bytes key.toList _).trans ?_
  unfold Aes.Leak.Bitslice.keygen_256 Aes.Leak.Columns.columns_256
  simp only [bind_assoc]
  refine congrArg _ (funext fun c => ?_)
  refine (congrArg (· >>= _) (forEach_congr _ _ (Aes.Leak.Columns.step_256 Aes.Leak.Bitslice.first Aes.Leak.Bitslice.fifth) (fun a i hi => ?_) c)).trans ?_
  · have := rangeStep_lt hi (by omega)
    unfold Aes.Leak.Columns.step_256 Aes.Leak.Bitslice.first Aes.Leak.Bitslice.fifth
    simp (disch := omega) only [uadd_quiet, bind_assoc, pure_bind]
    rfl
  refine congrArg _ (funext fun c => ?_)
  unfold Aes.Leak.Bitslice.first
  simp only [bind_assoc, RustSrc.Bitslice.as_blocks_eq (N := 15)]
  rfl

theorem block_eq : block = (inferInstance : Aes.Leak.LBlock (Aes.Bitslice.Block Cfg.endian)) := by
  unfold block
  rw [store_to_eq, enc_eq, dec_eq, enc_last_eq, dec_last_eq, mc_eq, imc_eq, keygen_128_eq, keygen_192_eq, keygen_256_eq]
  rfl

end RustSrc.Leak.Bitslice
