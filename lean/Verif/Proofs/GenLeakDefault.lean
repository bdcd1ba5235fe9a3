import Verif.Proofs.GenLeakCore
import Verif.Gen.LeakDefaultX2
import Verif.Gen.LeakDefaultX4
/-
The leakage of the functions generated from src/aesdefault_x2.rs and src/aesdefault_x4.rs is that of the model. (`pre` is not
a function of these files; src/lib.rs adds it.)
-/
set_option linter.unusedSectionVars false
namespace RustSrc.Leak
open Rust
variable [Cfg] {B X2 : Type}

theorem DefaultX2.new_eq [Aes.Leak.LBlock B] : DefaultX2.new (B := B) = (inferInstance : Aes.Leak.LVec (Aes.DefaultX2.X2 B) 32).new := by
  funext v
  unfold DefaultX2.new
  rw [Core.array_from_slice_eq _ _ _ (by simp), Core.array_from_slice_eq _ _ _ (by simp)]
  rfl
theorem DefaultX2.vec_eq [Aes.Leak.LBlock B] (p : Option (Aes.Leak.LPre (Aes.DefaultX2.X2 B))) :
    { DefaultX2.vec (B := B) with pre := p } = { (inferInstance : Aes.Leak.LVec (Aes.DefaultX2.X2 B) 32) with pre := p } := by
  unfold DefaultX2.vec DefaultX2.from_bytes
  rw [DefaultX2.new_eq]
  rfl

theorem DefaultX4.new_eq [Aes.Leak.LVec X2 32] : DefaultX4.new (X2 := X2) = (inferInstance : Aes.Leak.LVec (Aes.DefaultX4.X4 X2) 64).new := by
  funext v
  unfold DefaultX4.new
  rw [Core.array_from_slice_eq _ _ _ (by simp), Core.array_from_slice_eq _ _ _ (by simp)]
  rfl
theorem DefaultX4.vec_eq [Aes.Leak.LVec X2 32] (p : Option (Aes.Leak.LPre (Aes.DefaultX4.X4 X2))) :
    { DefaultX4.vec (X2 := X2) with pre := p } = { (inferInstance : Aes.Leak.LVec (Aes.DefaultX4.X4 X2) 64) with pre := p } := by
  unfold DefaultX4.vec DefaultX4.from_bytes
  rw [DefaultX4.new_eq]
  rfl

end RustSrc.Leak
