import Verif.Proofs.GenLeakX86
import Verif.Proofs.GenNi
import Verif.Gen.LeakNiX2
import Verif.Gen.LeakNiX4
/-
The leakage of the functions generated from src/aesni_x2.rs and src/aesni_x4.rs is that of the model.
-/
set_option linter.unusedSectionVars false
set_option linter.unusedVariables false
namespace RustSrc.Leak
open Rust
variable [Cfg]

namespace NiX2
theorem is_zero_eq : is_zero = Aes.Leak.NiX2.is_zero := by
  funext a
  unfold is_zero Aes.Leak.NiX2.is_zero
  show (⟨_, .ok (BitVec.ofNat 32 (IsaX86.testz a.val a.val) == 1#32)⟩ : Aes.Leak.L Bool) = ⟨_, .ok (IsaX86.testz a.val a.val == 1)⟩
  rw [RustSrc.X86.testz_eq]
  rfl
theorem eq_eq : eq = Aes.Leak.NiX2.eq := by
  unfold eq Aes.Leak.NiX2.eq; rw [is_zero_eq]; rfl
theorem not_eq : not = Aes.Leak.NiX2.not := by
  funext a; unfold not; rw [RustSrc.NiX2.set1_eq]; rfl
theorem vec_eq : vec = (inferInstance : Aes.Leak.LVec Aes.NiX2.X2 32) := by
  unfold vec
  rw [is_zero_eq, eq_eq, not_eq]
  rfl
end NiX2

namespace NiX4
theorem not_eq : not = Aes.Leak.NiX4.not := by
  funext a; unfold not; rw [RustSrc.NiX4.set1_eq]; rfl
theorem vec_eq : vec = (inferInstance : Aes.Leak.LVec Aes.NiX4.X4 64) := by
  unfold vec
  rw [not_eq]
  rfl
end NiX4

end RustSrc.Leak
