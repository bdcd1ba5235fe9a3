import Verif.Proofs.GenCore
import Verif.Gen.X86
/-
The functions generated from src/aes_x86.rs are those of the model.
-/
set_option linter.unusedSectionVars false
set_option linter.unusedVariables false
namespace RustSrc.X86
open Rust
variable [Cfg]

theorem set1_eq : _mm_set1_epi64x (-1#64) = IsaX86.set1_minus1 := by decide

theorem testz_eq {n : Nat} (a b : Vector U8 n) : (BitVec.ofNat 32 (IsaX86.testz a b) == 1#32) = (IsaX86.testz a b == 1) := by
  unfold IsaX86.testz; split <;> rfl

theorem is_zero_eq : is_zero = Aes.X86.is_zero := funext fun a => testz_eq a.val a.val
theorem eq_eq : eq = Aes.X86.eq := funext fun a => funext fun b => testz_eq _ _
theorem not_eq : not = Aes.X86.not := by
  funext a; unfold not; rw [set1_eq]; rfl
theorem store_to_eq : store_to = Aes.X86.store_to := by
  rfl

theorem keygen_128_eq : keygen_128 = Aes.X86.keygen_128 := rfl

theorem keygen_256_eq : keygen_256 = Aes.Profile.X86.keygen_256 Cfg.profile := by
  funext key; unfold keygen_256 try_from; simp only [Core.try_from_slice_eq]; rfl

theorem keygen_192_eq : keygen_192 = Aes.Profile.X86.keygen_192 Cfg.profile := by
  funext key
  unfold keygen_192 try_from Aes.Profile.X86.keygen_192
  simp only [Core.try_from_slice_eq, withSlice_bind]
  refine congrArg _ (funext fun p => congrArg _ (funext fun r => congrArg _ (funext fun key0 => ?_)))
  simp only [sliceFrom_ok key.toList 16 (by simp)]
  change (onTo (List.replicate 16 0#8) 8 _ >>= _) = (onTo (List.replicate 16 0#8) 8 _ >>= _)
  refine bind_congr_ok _ _ _ fun s hs => ?_
  have hl : s.length = 16 := by
    rw [onTo_length (fun a b h => copyFromSlice_length a _ b h) hs]; rfl
  exact arrayTryFrom_bind_toList s hl fun s => onFrom s 8 (fun s => fill s 0#8) >>= _

theorem block_eq : block = Aes.Profile.X86.block Cfg.profile := by
  unfold block Aes.Profile.X86.block
  rw [is_zero_eq, eq_eq, not_eq, store_to_eq, keygen_128_eq, keygen_192_eq, keygen_256_eq]
  rfl

end RustSrc.X86
