import Verif.Proofs.GenColumns
import Verif.Gen.Riscv32
/-
The functions generated from src/aes_riscv32.rs are those of the model (RISC-V is little-endian).
-/
set_option linter.unusedSectionVars false
set_option linter.unusedVariables false
namespace RustSrc.Riscv32
open Rust
variable [Cfg]

/-- Two reads of arrays can be exchanged: when one of them does not succeed the outcome is the same panic. -/
theorem read_swap {β : Type} {n : Nat} (r : Vector U32 10) (c : Vector U32 n) (k i j : Nat) (F : U32 → U32 → M β) :
    (idx r k >>= fun x => Aes.Profile.uadd Cfg.profile i j >>= fun l => idx c l >>= fun y => F x y) =
      (Aes.Profile.uadd Cfg.profile i j >>= fun l => idx c l >>= fun y => idx r k >>= fun x => F x y) := by
  unfold idx Aes.Profile.uadd
  by_cases h1 : k < 10
  · simp only [dif_pos h1]
    rfl
  · simp only [dif_neg h1]
    split
    · simp only [bind, Except.bind]
      split <;> rename_i h2
      · split at h2 <;> simp_all
      · rfl
    · split
      · rfl
      · simp only [bind, Except.bind]
        split <;> rename_i h2
        · split at h2 <;> simp_all
        · rfl

theorem eq_eq : eq = fun a b => decide (a = b) := by
  funext a b
  obtain ⟨a0, a1, a2, a3⟩ := a
  obtain ⟨b0, b1, b2, b3⟩ := b
  unfold eq
  rw [Bool.eq_iff_iff]
  simp [and_assoc]

section
variable (he : (Cfg.endian : Endian) = .little)
include he

theorem ofBytes_eq (v : Vector U8 16) : Aes.Riscv32.new v = .ok (Layout.ofBytes v) := by
  simp only [Layout.ofBytes, he, fromNe, Aes.Riscv32.new, Vector.getElem_ofFn, ← Nat.add_assoc, Nat.reduceAdd]

theorem bytes_eq : (Layout.bytes : Aes.Riscv32.Block → _) = Aes.Riscv32.memory := by
  funext v
  simp only [Layout.bytes, he, toNe, Aes.Riscv32.memory]
  refine Vector.ext fun i hi => ?_
  have e : i - (4 + 4) = i - 4 - 4 := by omega
  simp only [Vector.getElem_append, e]
  by_cases h1 : i < 4
  · have h2 : i < 4 + 4 := by omega
    simp only [dif_pos h1, dif_pos h2]
  · by_cases h2 : i < 4 + 4
    · have h3 : i - 4 < 4 := by omega
      simp only [dif_neg h1, dif_pos h2, dif_pos h3]
    · have h3 : ¬ i - 4 < 4 := by omega
      simp only [dif_neg h1, dif_neg h2, dif_neg h3]

theorem new_eq : (fun a => pure (new a)) = Aes.Riscv32.new := by
  funext v; rw [ofBytes_eq he]; rfl

theorem store_to_eq : store_to = Aes.Riscv32.store_to := by
  funext v d; unfold store_to Aes.Riscv32.store_to; rw [bytes_eq he]

theorem zeroed_bytes : Layout.bytes (zeroed : Aes.Riscv32.Block) = Vector.replicate 16 0#8 := by
  have h := ofBytes_eq he (Vector.replicate 16 0#8)
  rw [bytes_eq he]
  unfold zeroed
  have h2 : Aes.Riscv32.new (Vector.replicate 16 0#8) = .ok ⟨0, 0, 0, 0⟩ := rfl
  rw [h2] at h
  rw [← Except.ok.inj h]
  decide

theorem as_blocks_eq {N : Nat} (x : Vector Aes.Riscv32.Block N) (c : Vector U32 (4 * N)) :
    .ok (castBack x c) = Aes.Riscv32.as_blocks c := by
  rw [castBack_columns, he]
  unfold Aes.Riscv32.as_blocks
  rw [funext (ofBytes_eq he)]
  exact (Vector.mapM_pure (m := M) _).symm

theorem keygen_128_eq : keygen_128 = Aes.Profile.Riscv32.keygen_128 Cfg.profile := by
  funext key
  unfold keygen_128
  simp only [read_swap]
  refine (keygen_128_text (zeroed_bytes he) Aes.Riscv32.first key).trans ?_
  unfold Aes.Profile.Riscv32.keygen_128
  rw [he]
  exact congrArg _ (funext fun c => as_blocks_eq he (N := 11) _ c)

theorem keygen_192_eq : keygen_192 = Aes.Profile.Riscv32.keygen_192 Cfg.profile := by
  funext key
  unfold keygen_192
  simp only [read_swap]
  refine (keygen_192_text (zeroed_bytes he) Aes.Riscv32.first key).trans ?_
  unfold Aes.Profile.Riscv32.keygen_192
  rw [he]
  exact congrArg _ (funext fun c => as_blocks_eq he (N := 13) _ c)

theorem keygen_256_eq : keygen_256 = Aes.Profile.Riscv32.keygen_256 Cfg.profile := by
  funext key
  unfold keygen_256
  simp only [read_swap]
  refine (keygen_256_text (zeroed_bytes he) Aes.Riscv32.first_256 Aes.Riscv32.fifth Aes.Riscv32.first key).trans ?_
  unfold Aes.Profile.Riscv32.keygen_256
  rw [he]
  exact congrArg _ (funext fun c => as_blocks_eq he (N := 15) _ c)

theorem block_eq : block = Aes.Profile.Riscv32.block Cfg.profile := by
  unfold block Aes.Profile.Riscv32.block from_bytes
  rw [eq_eq, new_eq he, store_to_eq he, keygen_128_eq he, keygen_192_eq he, keygen_256_eq he]
  rfl
end

end RustSrc.Riscv32
