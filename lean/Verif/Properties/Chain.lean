import Verif.Proofs.EndToEnd
import Verif.Proofs.Decide
/-!
C16, C17, C40: `chain_enc` and `chain_dec`, for the three block types and key slices of any length.
riscv32 is excluded: there the documentation is violated (Verif/Properties/Riscv32.lean).
-/
namespace Aes
open Rust AesSpec Fips197 AesVec AesBlock

/-- The documentation of `chain_enc` (src/lib.rs:371,399):
"Computes `(self ^ keys[0]).enc(keys[1])...enc(keys[key.len() - 1])`", as a function of the type's `^` and
`enc`. `none` for the empty slice, where there is no `keys[0]`. -/
def chainDoc {T : Type} (xor round : T → T → T) (x : T) : List T → Option T
  | [] => none
  | k0 :: ks => some (ks.foldl (fun acc k => round acc k) (xor x k0))

/-- Where the documentation gives no value, a panic. -/
def orPanic {α : Type} : Option α → M α
  | some y => .ok y
  | none => .error .panic

section generic
variable {T : Type} {n : Nat} [AesVec T n]
theorem chain_enc_ok (x k : T) (ks : List T) : ∃ y, chain_enc x (k :: ks) = .ok y := by
  unfold chain_enc; split
  · exact ⟨_, chain_enc_pre_eq _ x k ks⟩
  · exact ⟨_, chain_enc_std_eq x k ks⟩
theorem chain_dec_ok (x k : T) (ks : List T) : ∃ y, chain_dec x (k :: ks) = .ok y := by
  unfold chain_dec; split
  · exact ⟨_, chain_dec_pre_eq _ x k ks⟩
  · exact ⟨_, chain_dec_std_eq x k ks⟩
variable [LawfulPre T]
theorem chain_enc_doc (x : T) (keys : List T) :
    chain_enc x keys = orPanic (chainDoc bitxor enc x keys) := by
  cases keys with
  | nil => exact chain_enc_nil x
  | cons k ks => exact chain_enc_cons x k ks
theorem chain_dec_doc (x : T) (keys : List T) :
    chain_dec x keys = orPanic (chainDoc bitxor dec x keys) := by
  cases keys with
  | nil => exact chain_dec_nil x
  | cons k ks => exact chain_dec_cons x k ks
end generic

variable (t : Target)

/-- C16, for `AesBlock`, `AesBlockX2` and `AesBlockX4` (`w`): `chain_enc` is its documentation, and panics
exactly where that makes no sense. -/
theorem C16_chain_enc (hrv : t ≠ .riscv32) (w : Target.Width) (x : t.Vec w) (keys : List (t.Vec w)) :
    chain_enc x keys = orPanic (chainDoc bitxor enc x keys) :=
  have := t.lawfulPreVec hrv w
  chain_enc_doc x keys
/-- C17, for `AesBlock`, `AesBlockX2` and `AesBlockX4`. -/
theorem C17_chain_dec (hrv : t ≠ .riscv32) (w : Target.Width) (x : t.Vec w) (keys : List (t.Vec w)) :
    chain_dec x keys = orPanic (chainDoc bitxor dec x keys) :=
  have := t.lawfulPreVec hrv w
  chain_dec_doc x keys

/-- C16/C17: the panic condition, on every target (riscv32 too): exactly the empty slice. -/
theorem C16_panics_iff_empty (w : Target.Width) (x : t.Vec w) (keys : List (t.Vec w)) :
    (chain_enc x keys = .error .panic ↔ keys = []) ∧ (chain_dec x keys = .error .panic ↔ keys = []) ∧
    chain_enc x keys ≠ .error .ub ∧ chain_dec x keys ≠ .error .ub := by
  cases keys with
  | nil => simp [chain_enc_nil, chain_dec_nil]
  | cons k ks =>
    obtain ⟨y, hy⟩ := chain_enc_ok x k ks
    obtain ⟨z, hz⟩ := chain_dec_ok x k ks
    simp [hy, hz]

/-! ### C40: composition -/

/-- C40: a chain over `a ++ b` continues the chain over `a` with one `enc` per key of `b`. -/
theorem C40_chain_enc_append (hrv : t ≠ .riscv32) (w : Target.Width) (x : t.Vec w) (a b : List (t.Vec w)) (ha : a ≠ []) :
    chain_enc x (a ++ b) = (do
      let y ← chain_enc x a
      pure (b.foldl (fun acc k => enc acc k) y)) := by
  have := t.lawfulPreVec hrv w
  cases a with
  | nil => exact absurd rfl ha
  | cons k ks => rw [List.cons_append, chain_enc_cons, chain_enc_cons, bind_ok, List.foldl_append]; rfl
/-- C40 for decryption. -/
theorem C40_chain_dec_append (hrv : t ≠ .riscv32) (w : Target.Width) (x : t.Vec w) (a b : List (t.Vec w)) (ha : a ≠ []) :
    chain_dec x (a ++ b) = (do
      let y ← chain_dec x a
      pure (b.foldl (fun acc k => dec acc k) y)) := by
  have := t.lawfulPreVec hrv w
  cases a with
  | nil => exact absurd rfl ha
  | cons k ks => rw [List.cons_append, chain_dec_cons, chain_dec_cons, bind_ok, List.foldl_append]; rfl

/-- C40: a chain can be split at any point by chaining over the rest with a zero key in front. -/
theorem C40_chain_enc_restart (hrv : t ≠ .riscv32) (w : Target.Width) (x : t.Vec w) (a b : List (t.Vec w)) (ha : a ≠ []) :
    chain_enc x (a ++ b) = (do
      let y ← chain_enc x a
      chain_enc y (zero :: b)) := by
  have := t.lawfulPreVec hrv w
  rw [C40_chain_enc_append t hrv w x a b ha]
  congr 1; funext y
  rw [chain_enc_cons]
  have h : bitxor y (zero : t.Vec w) = y := view_inj (by rw [LawfulVec.view_xor, LawfulVec.view_zero, xorB_zero])
  rw [h]; rfl
/-- C40 for decryption. -/
theorem C40_chain_dec_restart (hrv : t ≠ .riscv32) (w : Target.Width) (x : t.Vec w) (a b : List (t.Vec w)) (ha : a ≠ []) :
    chain_dec x (a ++ b) = (do
      let y ← chain_dec x a
      chain_dec y (zero :: b)) := by
  have := t.lawfulPreVec hrv w
  rw [C40_chain_dec_append t hrv w x a b ha]
  congr 1; funext y
  rw [chain_dec_cons]
  have h : bitxor y (zero : t.Vec w) = y := view_inj (by rw [LawfulVec.view_xor, LawfulVec.view_zero, xorB_zero])
  rw [h]; rfl

/-- C40: `encrypt_block` is a chain over all round keys but the last, then `enc_last` with the last, for any
round keys. -/
theorem C40_encrypt_block (hrv : t ≠ .riscv32) {nr : Nat} (hnr : 0 < nr) (e : AesEnc t.Block nr) (p : t.Block) :
    ∃ y, chainDoc bitxor enc p (e.round_keys.toList.dropLast) = some y ∧
      e.encrypt_block p = .ok (enc_last y (e.round_keys[nr])) := by
  have := t.lawfulPre hrv
  have hd : e.round_keys.toList.dropLast = e.round_keys.toList.take nr := by
    rw [List.dropLast_eq_take]; simp
  unfold AesEnc.encrypt_block
  rw [hd, take_keys hnr]
  refine ⟨_, rfl, ?_⟩
  rw [sliceTo, if_pos (by simp)]
  rw [bind_ok, take_keys hnr, chain_enc_cons, bind_ok, idx, dif_pos (by omega)]
  rfl
/-- C40 for decryption. -/
theorem C40_decrypt_block (hrv : t ≠ .riscv32) {nr : Nat} (hnr : 0 < nr) (d : AesDec t.Block nr) (c : t.Block) :
    ∃ y, chainDoc bitxor dec c (d.round_keys.toList.dropLast) = some y ∧
      d.decrypt_block c = .ok (dec_last y (d.round_keys[nr])) := by
  have := t.lawfulPre hrv
  have hd : d.round_keys.toList.dropLast = d.round_keys.toList.take nr := by
    rw [List.dropLast_eq_take]; simp
  unfold AesDec.decrypt_block
  rw [hd, take_keys hnr]
  refine ⟨_, rfl, ?_⟩
  rw [sliceTo, if_pos (by simp)]
  rw [bind_ok, take_keys hnr, chain_dec_cons, bind_ok, idx, dif_pos (by omega)]
  rfl

/-! ### Concrete instances -/
/-- A chain of three keys on Arm (which has the `pre_enc` loop), in terms of the doc formula. -/
example (x k0 k1 k2 : (Target.arm false).Block) :
    chain_enc x [k0, k1, k2] = .ok (enc (enc (bitxor x k0) k1) k2) := C16_chain_enc (.arm false) (by decide) .x1 x _
example (x k0 k1 : (Target.arm true).X4) :
    chain_dec x [k0, k1] = .ok (dec (bitxor x k0) k1) := C17_chain_dec (.arm true) (by decide) .x4 x _
example (x : (Target.table).Block) : chain_enc x [] = .error .panic := C16_chain_enc .table (by decide) .x1 x []

end Aes
