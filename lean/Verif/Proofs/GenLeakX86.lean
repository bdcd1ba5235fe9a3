import Verif.Proofs.GenLeakCore
import Verif.Gen.LeakX86
import Verif.Proofs.GenX86
import Verif.Proofs.LeakHw
/-
The leakage of the functions generated from src/aes_x86.rs is that of the model.
-/
set_option linter.unusedSectionVars false
set_option linter.unusedVariables false
namespace RustSrc.Leak.X86
open Rust
variable [Cfg]

theorem is_zero_eq : is_zero = Aes.Leak.X86.is_zero := by
  funext a
  unfold is_zero Aes.Leak.X86.is_zero
  show (⟨_, .ok (BitVec.ofNat 32 (IsaX86.testz a.val a.val) == 1#32)⟩ : Aes.Leak.L Bool) = ⟨_, .ok (IsaX86.testz a.val a.val == 1)⟩
  rw [RustSrc.X86.testz_eq]
  rfl
theorem eq_eq : eq = Aes.Leak.X86.eq := by
  unfold eq Aes.Leak.X86.eq; rw [is_zero_eq]; rfl
theorem not_eq : not = Aes.Leak.X86.not := by
  funext a; unfold not; rw [RustSrc.X86.set1_eq]; rfl
theorem from_bytes_eq : from_bytes = Aes.Leak.X86.from_bytes := rfl
theorem store_to_eq : store_to = Aes.Leak.X86.store_to := by
  rfl
theorem keyexp_128_eq (r : BitVec 32) : keyexp_128 r = Aes.Leak.X86.keyexp_128 (r.setWidth 8) := rfl
theorem keyexp_192_eq (r s : BitVec 32) : keyexp_192 r s = Aes.Leak.X86.keyexp_192 (r.setWidth 8) (s.setWidth 8) := rfl
theorem keyexp_256_1_eq (r : BitVec 32) : keyexp_256_1 r = Aes.Leak.X86.keyexp_256_1 (r.setWidth 8) := rfl
theorem keyexp_256_2_eq : keyexp_256_2 = Aes.Leak.X86.keyexp_256_2 := rfl

theorem keygen_128_eq : keygen_128 = Aes.Leak.X86.keygen_128 := by
  unfold keygen_128 Aes.Leak.X86.keygen_128
  simp only [keyexp_128_eq, from_bytes_eq]
  rfl
theorem keygen_256_eq : keygen_256 = Aes.Leak.X86.keygen_256 := by
  unfold keygen_256 Aes.Leak.X86.keygen_256 try_from
  simp only [keyexp_256_1_eq, keyexp_256_2_eq, from_bytes_eq, Core.try_from_slice_eq]
  rfl
omit [Cfg] in
theorem withSlice_bind {α β : Type} {n : Nat} (v : Vector α n) (f : List α → Aes.Leak.L (List α)) (k : Vector α n → Aes.Leak.L β) :
    (withSlice v f >>= k) = (f v.toList >>= fun s => quiet (arrayTryFrom n s) >>= k) := by
  unfold withSlice
  rw [bind_assoc]
omit [Cfg] in
theorem quiet_bind_toList {α β : Type} {n : Nat} (s : List α) (h : s.length = n) (k : List α → Aes.Leak.L β) :
    (quiet (arrayTryFrom n s) >>= fun v => k v.toList) = k s := by
  unfold arrayTryFrom
  rw [dif_pos h]
  rfl
theorem keygen_192_eq : keygen_192 = Aes.Leak.X86.keygen_192 := by
  funext key
  unfold keygen_192 Aes.Leak.X86.keygen_192 try_from
  simp only [keyexp_192_eq, from_bytes_eq, Core.try_from_slice_eq, withSlice_bind]
  refine congrArg _ (funext fun p => congrArg _ (funext fun r => congrArg _ (funext fun key0 => ?_)))
  change (Aes.Leak.onTo (List.replicate 16 0#8) 8 _ >>= _) = (Aes.Leak.onTo (List.replicate 16 0#8) 8 _ >>= _)
  refine bind_congr_out _ _ _ fun s hs => ?_
  have hl : s.length = 16 := by
    have hd : Rust.sliceFrom key.toList 16 = .ok (key.toList.drop 16) := if_pos (by simp)
    rw [Aes.Leak.out_onTo (g := fun s => Rust.copyFromSlice s (key.toList.drop 16)) (fun s => by
      simp only [Aes.Leak.out_bind, Aes.Leak.out_sliceFrom, hd, Aes.Profile.ok_bind, Aes.Leak.out_copyFromSlice])] at hs
    rw [onTo_length (fun a b h => copyFromSlice_length a _ b h) hs]; rfl
  exact quiet_bind_toList s hl fun s => Aes.Leak.onFrom s 8 (fun s => fill s 0#8) >>= _

theorem block_eq : block = (inferInstance : Aes.Leak.LBlock Aes.X86.Block) := by
  unfold block
  rw [is_zero_eq, eq_eq, not_eq, store_to_eq, keygen_128_eq, keygen_192_eq, keygen_256_eq]
  rfl

end RustSrc.Leak.X86
