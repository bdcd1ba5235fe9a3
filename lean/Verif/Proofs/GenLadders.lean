import Verif.Gen.Crate
/-
The conditional compilation translated from src/lib.rs (Verif/Gen/Ladders.lean) is that of the model
(Verif/Model/Config.lean).
-/
namespace RustSrc
open Aes.Config

theorem Ladders.AesBlock_eq : Ladders.AesBlock = blockMod := rfl
theorem Ladders.AesBlockX2_eq : Ladders.AesBlockX2 = x2Mod := rfl
theorem Ladders.AesBlockX4_eq : Ladders.AesBlockX4 = x4Mod := rfl
theorem Ladders.gates_eq : Ladders.gates = Aes.Config.gates := rfl
theorem Ladders.chain_eq (c : Aes.Config.Cfg) : Ladders.chain c = if chainPre c then 0 else 1 := rfl

theorem chainPre_of_arm {c : Aes.Config.Cfg} (h : blockMod c = .aes_arm) : chainPre c = true := by
  unfold blockMod at h
  split at h
  · cases h
  split at h
  · rename_i h'
    simp only [Bool.and_eq_true] at h'
    unfold chainPre
    simp only [h'.1.1, h'.1.2, Bool.and_self, Bool.true_or]
  all_goals (repeat' split at h) <;> cases h

theorem chainPre_of_riscv32 {c : Aes.Config.Cfg} (h : blockMod c = .aes_riscv32) : chainPre c = true := by
  unfold blockMod at h
  split at h
  · cases h
  split at h
  · cases h
  split at h
  · cases h
  split at h
  · rename_i h'
    unfold chainPre
    simp only [h', Bool.or_true]
  all_goals (repeat' split at h) <;> cases h

/-- The modules of the source are those of the model, in every configuration. -/
theorem selected_eq (c : Aes.Config.Cfg) : selected c = target c := by
  unfold selected target resolves
  rw [Ladders.AesBlock_eq, Ladders.AesBlockX2_eq, Ladders.AesBlockX4_eq, Ladders.chain_eq]
  have ha := @chainPre_of_arm c
  have hr := @chainPre_of_riscv32 c
  revert ha hr
  generalize blockMod c = b
  generalize x2Mod c = x2
  generalize x4Mod c = x4
  generalize chainPre c = p
  intro ha hr
  cases b <;> cases x2 <;> cases x4 <;> cases p <;>
    first
      | rfl
      | exact absurd (ha rfl) (by decide)
      | exact absurd (hr rfl) (by decide)

end RustSrc
