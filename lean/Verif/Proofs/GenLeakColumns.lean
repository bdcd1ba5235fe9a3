import Verif.Proofs.GenLeakCore
import Verif.Proofs.GenColumns
/-
What the leakage of the key expansions of src/aes_bitslice.rs, src/aes_arm.rs and src/aes_riscv32.rs have in common.
-/
set_option linter.unusedSectionVars false
namespace RustSrc.Leak
open Rust Aes.Leak
variable [Cfg]

omit [Cfg] in
theorem forEach_map {α β γ : Type} (l : List γ) (h : γ → β) (f : α → β → L α) (a : α) :
    forEach (l.map h) f a = forEach l (fun a x => f a (h x)) a := by
  induction l generalizing a with
  | nil => rfl
  | cons b l ih =>
    show (do branch true; forEach (l.map h) f (← f a (h b))) = (do branch true; forEach l (fun a x => f a (h x)) (← f a (h b)))
    exact congrArg _ (funext fun _ => congrArg _ (funext fun c => ih c))

/-- The beginning of the three key expansions. -/
theorem keygen_start {T β : Type} [Layout T 16] (N : Nat) (hz : Layout.bytes (zeroed : T) = Vector.replicate 16 0#8)
    (key : List U8) (G : Vector U32 (4 * N) → L β) :
    (quiet (castView (zeroed : Vector T N) (4 * N)) >>= fun columns =>
      forEach (enumerate (chunksExact 4 key)) (fun columns (x : Nat × List U8) => do
        upd .data columns x.1 (← emit .move (fromNe Cfg.endian 32 (← Aes.Leak.arrayTryFrom 4 x.2)))) columns >>= G) =
      (Columns.load_columns Cfg.endian key (Vector.replicate (4 * N) 0#32) >>= G) := by
  rw [castView_zeroed N hz, quiet_ok, pure_bind]
  unfold enumerate Columns.load_columns
  rw [forEach_map]

omit [Cfg] in
theorem rangeStep_lt {lo hi k i : Nat} (h : i ∈ rangeStep lo hi k) (hk : 0 < k) : i < hi := by
  unfold rangeStep at h
  obtain ⟨j, hj, rfl⟩ := List.mem_range'.mp h
  have h1 : j + 1 ≤ (hi - lo + k - 1) / k := hj
  have h2 : (j + 1) * k ≤ hi - lo + k - 1 := (Nat.le_div_iff_mul_le hk).mp h1
  rw [Nat.add_mul] at h2
  have : j * k = k * j := Nat.mul_comm _ _
  omega

/-- No overflow: the counters of the key expansions are small. -/
theorem uadd_quiet {i k : Nat} (h : i + k < 65536) : quiet (Aes.Profile.uadd Cfg.profile i k) = pure (i + k) := by
  rw [Aes.Profile.uadd_ok _ h, quiet_ok]

end RustSrc.Leak
