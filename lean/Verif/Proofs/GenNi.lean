import Verif.Proofs.GenX86
import Verif.Gen.NiX2
import Verif.Gen.NiX4
/-
The functions generated from src/aesni_x2.rs and src/aesni_x4.rs are those of the model.
-/
set_option linter.unusedSectionVars false
set_option linter.unusedVariables false
namespace RustSrc
open Rust
variable [Cfg]

namespace NiX2
theorem set1_eq : _mm256_set1_epi64x (-1#64) = IsaX86.set1_minus1 := by decide
theorem is_zero_eq : is_zero = Aes.NiX2.is_zero := funext fun a => X86.testz_eq a.val a.val
theorem eq_eq : eq = Aes.NiX2.eq := funext fun a => funext fun b => X86.testz_eq _ _
theorem not_eq : not = Aes.NiX2.not := by
  funext a; unfold not; rw [set1_eq]; rfl
theorem vec_eq : vec = (inferInstance : Aes.AesBlockX2 Aes.X86.Block Aes.NiX2.X2) := by
  unfold vec
  rw [is_zero_eq, eq_eq, not_eq]
  rfl
end NiX2

namespace NiX4
theorem set1_eq : _mm512_set1_epi64 (-1#64) = IsaX86.set1_minus1 := by decide
theorem not_eq : not = Aes.NiX4.not := by
  funext a; unfold not; rw [set1_eq]; rfl
theorem vec_eq : vec = (inferInstance : Aes.AesBlockX4 Aes.X86.Block Aes.NiX2.X2 Aes.NiX4.X4) := by
  unfold vec
  rw [not_eq]
  rfl
end NiX4

end RustSrc
