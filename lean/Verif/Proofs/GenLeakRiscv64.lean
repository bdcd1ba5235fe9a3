import Verif.Proofs.GenLeakCore
import Verif.Proofs.GenRiscv64
import Verif.Gen.LeakRiscv64
import Verif.Model.LeakHw
/-
The leakage of the functions generated from src/aes_riscv64.rs is that of the model.
-/
set_option linter.unusedSectionVars false
set_option linter.unusedVariables false
namespace RustSrc.Leak.Riscv64
open Rust
variable [Cfg]

theorem keyexp_128_eq (r : U32) : keyexp_128 r = Aes.Leak.Riscv64.keyexp_128 r.toNat := by
  funext k
  unfold keyexp_128 Aes.Leak.Riscv64.keyexp_128 Aes.Leak.Riscv64.ks
  simp only [bind_assoc]; rfl
theorem keyexp_192_eq (r : U32) : keyexp_192 r = Aes.Leak.Riscv64.keyexp_192 r.toNat := by
  funext k
  unfold keyexp_192 Aes.Leak.Riscv64.keyexp_192 Aes.Leak.Riscv64.ks
  simp only [bind_assoc]; rfl
theorem keyexp_256_1_eq (r : U32) : keyexp_256_1 r = Aes.Leak.Riscv64.keyexp_256_1 r.toNat := by
  funext k l
  unfold keyexp_256_1 Aes.Leak.Riscv64.keyexp_256_1 Aes.Leak.Riscv64.ks
  simp only [bind_assoc]; rfl
theorem keyexp_256_2_eq : keyexp_256_2 = Aes.Leak.Riscv64.keyexp_256_2 := by
  funext k l
  unfold keyexp_256_2 Aes.Leak.Riscv64.keyexp_256_2 Aes.Leak.Riscv64.ks
  simp only [bind_assoc]; rfl
theorem ks1i_eq (a : U64) : llvm.riscv.aes64ks1i a 7#32 = Aes.Leak.ins "aes64ks1i" (IsaRiscv.aes64ks1i a 7) := rfl
theorem ks2_eq (a b : U64) : llvm.riscv.aes64ks2 a b = Aes.Leak.ins "aes64ks2" (IsaRiscv.aes64ks2 a b) := rfl

theorem keygen_192_eq : keygen_192 = Aes.Leak.Riscv64.keygen_192 := by
  funext key
  unfold keygen_192 Aes.Leak.Riscv64.keygen_192 Aes.Leak.Riscv64.load_u64 Aes.Leak.Riscv64.ks
  simp only [bind_assoc, RustSrc.Riscv64.transmute_192_eq, keyexp_192_eq, BitVec.toNat_ofNat, Nat.reducePow, Nat.reduceMod,
    Nat.reduceAdd, ks1i_eq, ks2_eq]

section
variable (he : (Cfg.endian : Endian) = .little)
include he

theorem new_eq : new = Aes.Leak.Riscv64.new := by
  funext v
  show Aes.Leak.emit .move (Layout.ofBytes v) = Aes.Leak.emit .move _
  exact congrArg (Aes.Leak.emit .move) (Except.ok.inj (RustSrc.Riscv64.ofBytes_eq he v)).symm

theorem store_to_eq : store_to = Aes.Leak.Riscv64.store_to := by
  funext v d; unfold store_to Aes.Leak.Riscv64.store_to; rw [RustSrc.Riscv64.bytes_eq he]

theorem from_bytes_eq : from_bytes = Aes.Leak.Riscv64.from_bytes := new_eq he

theorem keygen_128_eq : keygen_128 = Aes.Leak.Riscv64.keygen_128 := by
  unfold keygen_128 Aes.Leak.Riscv64.keygen_128
  simp only [from_bytes_eq he, keyexp_128_eq, BitVec.toNat_ofNat, Nat.reducePow, Nat.reduceMod]

theorem keygen_256_eq : keygen_256 = Aes.Leak.Riscv64.keygen_256 := by
  unfold keygen_256 Aes.Leak.Riscv64.keygen_256 try_from
  simp only [Core.try_from_slice_eq, from_bytes_eq he, keyexp_256_1_eq, keyexp_256_2_eq, BitVec.toNat_ofNat, Nat.reducePow,
    Nat.reduceMod]

theorem block_eq : block = (inferInstance : Aes.Leak.LBlock Aes.Riscv64.Block) := by
  unfold block
  rw [new_eq he, from_bytes_eq he, store_to_eq he, keygen_128_eq he, keygen_192_eq, keygen_256_eq he]
  rfl
end

end RustSrc.Leak.Riscv64
