import Verif.Proofs.GenColumns
import Verif.Gen.Arm
/-
The functions generated from src/aes_arm.rs are those of the model, on a little-endian target (the only ones for which src/lib.rs
selects the file).
-/
set_option linter.unusedSectionVars false
set_option linter.unusedVariables false
namespace RustSrc.Arm
open Rust
variable [Cfg]

theorem is_zero_eq : is_zero = Aes.Arm.is_zero := by
  funext a
  unfold is_zero Aes.Arm.is_zero
  generalize hb : (Cfg.is32 : Bool) = b at a
  cases b <;> rfl

theorem eq_eq : eq = Aes.Arm.eq := by
  funext a b; unfold eq Aes.Arm.eq; rw [is_zero_eq]; rfl

theorem zeroed_bytes : Layout.bytes (zeroed : Aes.Arm.Block Cfg.is32) = Vector.replicate 16 0#8 := rfl

section
variable (he : (Cfg.endian : Endian) = .little)
include he

theorem as_blocks_eq {N : Nat} (x : Vector (Aes.Arm.Block Cfg.is32) N) (c : Vector U32 (4 * N)) :
    castBack x c = Aes.Arm.as_blocks Cfg.is32 c := by
  rw [castBack_columns, he]; rfl

theorem keygen_128_eq : keygen_128 = Aes.Profile.Arm.keygen_128 Cfg.profile Cfg.is32 := by
  funext key
  refine (keygen_128_text zeroed_bytes Aes.Arm.first key).trans ?_
  unfold Aes.Profile.Arm.keygen_128
  rw [he]
  exact congrArg _ (funext fun c => congrArg Except.ok (as_blocks_eq he (N := 11) _ c))

theorem keygen_192_eq : keygen_192 = Aes.Profile.Arm.keygen_192 Cfg.profile Cfg.is32 := by
  funext key
  refine (keygen_192_text zeroed_bytes Aes.Arm.first key).trans ?_
  unfold Aes.Profile.Arm.keygen_192
  rw [he]
  exact congrArg _ (funext fun c => congrArg Except.ok (as_blocks_eq he (N := 13) _ c))

theorem keygen_256_eq : keygen_256 = Aes.Profile.Arm.keygen_256 Cfg.profile Cfg.is32 := by
  funext key
  refine (keygen_256_text zeroed_bytes Aes.Arm.first Aes.Arm.fifth Aes.Arm.first key).trans ?_
  unfold Aes.Profile.Arm.keygen_256
  rw [he]
  exact congrArg _ (funext fun c => congrArg Except.ok (as_blocks_eq he (N := 15) _ c))

theorem block_eq : block = Aes.Profile.Arm.block Cfg.profile Cfg.is32 := by
  unfold block Aes.Profile.Arm.block
  rw [is_zero_eq, eq_eq, keygen_128_eq he, keygen_192_eq he, keygen_256_eq he]
  rfl
end

end RustSrc.Arm
