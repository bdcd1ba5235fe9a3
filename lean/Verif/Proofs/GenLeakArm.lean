import Verif.Proofs.GenLeakColumns
import Verif.Proofs.GenArm
import Verif.Gen.LeakArm
import Verif.Model.LeakHw
/-
The leakage of the functions generated from src/aes_arm.rs is that of the model.
-/
set_option linter.unusedSectionVars false
set_option linter.unusedVariables false
namespace RustSrc.Leak.Arm
open Rust
variable [Cfg]

theorem is_zero_eq : is_zero = Aes.Leak.Arm.is_zero := by
  funext a
  unfold is_zero Aes.Leak.Arm.is_zero
  generalize hb : (Cfg.is32 : Bool) = b at a
  cases b <;> rfl
theorem eq_eq : eq = Aes.Leak.Arm.eq := by
  unfold eq Aes.Leak.Arm.eq; rw [is_zero_eq]; rfl
theorem from_bytes_eq : from_bytes = Aes.Leak.Arm.from_bytes := rfl
theorem store_to_eq : store_to = Aes.Leak.Arm.store_to := rfl
theorem sub_word_eq : sub_word = Aes.Leak.Arm.sub_word := rfl

section
variable (he : (Cfg.endian : Endian) = .little)
include he

theorem keygen_128_eq : keygen_128 = Aes.Leak.Arm.keygen_128 Cfg.is32 := by
  funext key
  unfold keygen_128
  refine (keygen_start 11 RustSrc.Arm.zeroed_bytes key.toList _).trans ?_
  unfold Aes.Leak.Arm.keygen_128 Aes.Leak.Columns.columns_128
  simp only [bind_assoc, he]
  refine congrArg _ (funext fun c => ?_)
  refine (congrArg (· >>= _) (forEach_congr _ _ (Aes.Leak.Columns.step_128 Aes.Leak.Arm.first) (fun a i hi => ?_) c)).trans ?_
  · have := rangeStep_lt hi (by omega)
    unfold Aes.Leak.Columns.step_128 Aes.Leak.Arm.first
    simp (disch := omega) only [uadd_quiet, bind_assoc, pure_bind]
    rfl
  refine congrArg _ (funext fun c => ?_)
  exact congrArg pure (RustSrc.Arm.as_blocks_eq he (N := 11) _ c)

theorem keygen_192_eq : keygen_192 = Aes.Leak.Arm.keygen_192 Cfg.is32 := by
  funext key
  unfold keygen_192
  refine (keygen_start 13 RustSrc.Arm.zeroed_bytes key.toList _).trans ?_
  unfold Aes.Leak.Arm.keygen_192 Aes.Leak.Columns.columns_192
  simp only [bind_assoc, he]
  refine congrArg _ (funext fun c => ?_)
  refine (congrArg (· >>= _) (forEach_congr _ _ (Aes.Leak.Columns.step_192 Aes.Leak.Arm.first) (fun a i hi => ?_) c)).trans ?_
  · have := rangeStep_lt hi (by omega)
    unfold Aes.Leak.Columns.step_192 Aes.Leak.Arm.first
    simp (disch := omega) only [uadd_quiet, bind_assoc, pure_bind]
    rfl
  refine congrArg _ (funext fun c => ?_)
  unfold Aes.Leak.Arm.first
  simp only [bind_assoc, RustSrc.Arm.as_blocks_eq he (N := 13)]
  rfl

theorem keygen_256_eq : keygen_256 = Aes.Leak.Arm.keygen_256 Cfg.is32 := by
  funext key
  unfold keygen_256
  refine (keygen_start 15 RustSrc.Arm.zeroed_bytes key.toList _).trans ?_
  unfold Aes.Leak.Arm.keygen_256 Aes.Leak.Columns.columns_256
  simp only [bind_assoc, he]
  refine congrArg _ (funext fun c => ?_)
  refine (congrArg (· >>= _) (forEach_congr _ _ (Aes.Leak.Columns.step_256 Aes.Leak.Arm.first Aes.Leak.Arm.fifth) (fun a i hi => ?_) c)).trans ?_
  · have := rangeStep_lt hi (by omega)
    unfold Aes.Leak.Columns.step_256 Aes.Leak.Arm.first Aes.Leak.Arm.fifth
    simp (disch := omega) only [uadd_quiet, bind_assoc, pure_bind]
    rfl
  refine congrArg _ (funext fun c => ?_)
  unfold Aes.Leak.Arm.first
  simp only [bind_assoc, RustSrc.Arm.as_blocks_eq he (N := 15)]
  rfl

theorem block_eq : block = (inferInstance : Aes.Leak.LBlock (Aes.Arm.Block Cfg.is32)) := by
  unfold block
  rw [is_zero_eq, eq_eq, keygen_128_eq he, keygen_192_eq he, keygen_256_eq he]
  rfl
end

end RustSrc.Leak.Arm
