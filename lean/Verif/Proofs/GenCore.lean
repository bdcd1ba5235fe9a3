import Verif.Gen.Core
import Verif.Gen.Intrinsics
import Verif.Proofs.Profile
import Verif.Proofs.RustLemmas
/-
The generated slice helpers (Verif/Gen/Core.lean) are those of the model, and facts about the prelude of the generated
files that the other Gen* proofs share.
-/
set_option linter.unusedSectionVars false
namespace RustSrc
open Rust
variable [Cfg]

theorem Core.array_from_slice_eq (n : Nat) (value : List U8) (offset : Nat) :
    Core.array_from_slice n value offset = Aes.Profile.array_from_slice Cfg.profile n value offset := rfl

theorem Core.try_from_slice_eq (n : Nat) {T : Type} (f : Vector U8 n → M T) (value : List U8) :
    Core.try_from_slice n f value = Aes.Profile.try_from_slice Cfg.profile n f value := by
  unfold Core.try_from_slice Aes.Profile.try_from_slice
  by_cases h : value.length ≥ n
  · rw [if_pos h, if_pos (by simpa using h)]; rfl
  · rw [if_neg h, if_neg (by simpa using h)]

theorem Core.try_from_slice_fun (n : Nat) {T : Type} (f : Vector U8 n → M T) :
    Core.try_from_slice n f = Aes.Profile.try_from_slice Cfg.profile n f := funext (Core.try_from_slice_eq n f)

omit [Cfg] in
/-- Two operations on slices of the same array, one after the other. -/
theorem withSlice_bind {α β : Type} {n : Nat} (v : Vector α n) (f : List α → M (List α)) (k : Vector α n → M β) :
    (withSlice v f >>= k) = (f v.toList >>= fun s => arrayTryFrom n s >>= k) := by
  unfold withSlice
  rw [bind_assoc]

omit [Cfg] in
theorem arrayTryFrom_bind_toList {α β : Type} {n : Nat} (s : List α) (h : s.length = n) (k : List α → M β) :
    (arrayTryFrom n s >>= fun v => k v.toList) = k s := by
  unfold arrayTryFrom
  rw [dif_pos h]
  rfl

omit [Cfg] in
theorem bind_congr_ok {α β : Type} (x : M α) (f g : α → M β) (h : ∀ a, x = .ok a → f a = g a) : (x >>= f) = (x >>= g) := by
  cases x with
  | error e => rfl
  | ok a => exact h a rfl

omit [Cfg] in
theorem onTo_length {α : Type} {s t : List α} {k : Nat} {f : List α → M (List α)}
    (hf : ∀ a b, f a = .ok b → b.length = a.length) (h : onTo s k f = .ok t) : t.length = s.length := by
  unfold onTo sliceTo at h
  by_cases hk : k ≤ s.length
  · rw [if_pos hk] at h
    change (f (s.take k) >>= fun p => pure (p ++ s.drop k)) = .ok t at h
    cases hp : f (s.take k) with
    | error e => rw [hp] at h; cases h
    | ok p =>
      rw [hp] at h
      change Except.ok (p ++ s.drop k) = Except.ok t at h
      cases h
      have := hf _ _ hp
      simp only [List.length_append, List.length_drop, this, List.length_take]
      omega
  · rw [if_neg hk] at h; cases h

omit [Cfg] in
theorem copyFromSlice_length {α : Type} (d s t : List α) (h : copyFromSlice d s = .ok t) : t.length = d.length := by
  unfold copyFromSlice at h
  split at h
  · rename_i hl; cases h; exact hl.symm
  · cases h

omit [Cfg] in
/-- `from_ne_bytes` of equal bytes does not depend on the endianness. -/
theorem fromNe_replicate (e : Endian) (w n : Nat) (x : U8) :
    fromNe e w (Vector.replicate n x) = fromLe w (Vector.replicate n x) := by
  cases e with
  | little => rfl
  | big =>
    have : (Vector.replicate n x).reverse = Vector.replicate n x := by
      refine Vector.ext fun i hi => ?_
      rw [Vector.getElem_reverse, Vector.getElem_replicate, Vector.getElem_replicate]
    unfold fromNe fromBe
    simp only [this]

end RustSrc
