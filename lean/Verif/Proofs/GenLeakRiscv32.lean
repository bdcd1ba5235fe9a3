import Verif.Proofs.GenLeakColumns
import Verif.Proofs.GenRiscv32
import Verif.Gen.LeakRiscv32
import Verif.Model.LeakHw
/-
The leakage of the functions generated from src/aes_riscv32.rs is that of the model.
-/
set_option linter.unusedSectionVars false
set_option linter.unusedVariables false
namespace RustSrc.Leak.Riscv32
open Rust
variable [Cfg]

theorem pre_enc_eq : pre_enc = Aes.Leak.Riscv32.pre_enc := rfl
theorem pre_dec_eq : pre_dec = Aes.Leak.Riscv32.pre_dec := rfl
theorem sub_word_eq : sub_word = Aes.Leak.Riscv32.sub_word := rfl

section
variable (he : (Cfg.endian : Endian) = .little)
include he

theorem new_eq : new = Aes.Leak.Riscv32.new := by
  funext v; unfold Aes.Leak.Riscv32.new; rw [RustSrc.Riscv32.ofBytes_eq he]; rfl

theorem store_to_eq : store_to = Aes.Leak.Riscv32.store_to := by
  funext v d; unfold store_to Aes.Leak.Riscv32.store_to; rw [RustSrc.Riscv32.bytes_eq he]

theorem as_blocks_eq {N : Nat} (x : Vector Aes.Riscv32.Block N) (c : Vector U32 (4 * N)) :
    (pure (castBack x c) : Aes.Leak.L _) = Aes.Leak.Riscv32.as_blocks c := by
  unfold Aes.Leak.Riscv32.as_blocks
  rw [← RustSrc.Riscv32.as_blocks_eq he x c]
  rfl

theorem keygen_128_eq : keygen_128 = Aes.Leak.Riscv32.keygen_128 := by
  funext key
  unfold keygen_128
  refine (keygen_start 11 (RustSrc.Riscv32.zeroed_bytes he) key.toList _).trans ?_
  unfold Aes.Leak.Riscv32.keygen_128 Aes.Leak.Columns.columns_128
  simp only [bind_assoc, he]
  refine congrArg _ (funext fun c => ?_)
  refine (congrArg (· >>= _) (forEach_congr _ _ (Aes.Leak.Columns.step_128 Aes.Leak.Riscv32.first) (fun a i hi => ?_) c)).trans ?_
  · have := rangeStep_lt hi (by omega)
    unfold Aes.Leak.Columns.step_128 Aes.Leak.Riscv32.first
    simp (disch := omega) only [uadd_quiet, bind_assoc, pure_bind]
    rfl
  refine congrArg _ (funext fun c => ?_)
  exact as_blocks_eq he (N := 11) _ c

theorem keygen_192_eq : keygen_192 = Aes.Leak.Riscv32.keygen_192 := by
  funext key
  unfold keygen_192
  refine (keygen_start 13 (RustSrc.Riscv32.zeroed_bytes he) key.toList _).trans ?_
  unfold Aes.Leak.Riscv32.keygen_192 Aes.Leak.Columns.columns_192
  simp only [bind_assoc, he]
  refine congrArg _ (funext fun c => ?_)
  refine (congrArg (· >>= _) (forEach_congr _ _ (Aes.Leak.Columns.step_192 Aes.Leak.Riscv32.first) (fun a i hi => ?_) c)).trans ?_
  · have := rangeStep_lt hi (by omega)
    unfold Aes.Leak.Columns.step_192 Aes.Leak.Riscv32.first
    simp (disch := omega) only [uadd_quiet, bind_assoc, pure_bind]
    rfl
  refine congrArg _ (funext fun c => ?_)
  unfold Aes.Leak.Riscv32.first
  simp only [bind_assoc, as_blocks_eq he (N := 13)]
  rfl

theorem keygen_256_eq : keygen_256 = Aes.Leak.Riscv32.keygen_256 := by
  funext key
  unfold keygen_256
  refine (keygen_start 15 (RustSrc.Riscv32.zeroed_bytes he) key.toList _).trans ?_
  unfold Aes.Leak.Riscv32.keygen_256 Aes.Leak.Columns.columns_256
  simp only [bind_assoc, he]
  refine congrArg _ (funext fun c => ?_)
  refine (congrArg (· >>= _) (forEach_congr _ _ (Aes.Leak.Columns.step_256 Aes.Leak.Riscv32.first_256 Aes.Leak.Riscv32.fifth) (fun a i hi => ?_) c)).trans ?_
  · have := rangeStep_lt hi (by omega)
    unfold Aes.Leak.Columns.step_256 Aes.Leak.Riscv32.first_256 Aes.Leak.Riscv32.fifth
    simp (disch := omega) only [uadd_quiet, bind_assoc, pure_bind]
    rfl
  refine congrArg _ (funext fun c => ?_)
  unfold Aes.Leak.Riscv32.first
  simp only [bind_assoc, as_blocks_eq he (N := 15)]
  rfl

theorem block_eq : block = (inferInstance : Aes.Leak.LBlock Aes.Riscv32.Block) := by
  unfold block from_bytes
  rw [new_eq he, store_to_eq he, keygen_128_eq he, keygen_192_eq he, keygen_256_eq he]
  rfl
end

end RustSrc.Leak.Riscv32
