import Verif.Gen.LeakCore
import Verif.Gen.LeakIntrinsics
import Verif.Proofs.Profile
/-
Sequencing of `L` is associative, and the leakage of the generated slice helpers is that of the model.
-/
set_option linter.unusedSectionVars false

namespace Aes.Leak

theorem L.bind_pure' {α : Type} (m : L α) : L.bind m L.pure = m := by
  obtain ⟨t, o⟩ := m
  cases o with
  | ok a => show (⟨t ++ [], .ok a⟩ : L α) = _; rw [List.append_nil]
  | error e => rfl

theorem L.bind_assoc' {α β γ : Type} (m : L α) (f : α → L β) (g : β → L γ) :
    L.bind (L.bind m f) g = L.bind m fun a => L.bind (f a) g := by
  obtain ⟨t, o⟩ := m
  cases o with
  | error e => rfl
  | ok a =>
    show L.bind ⟨t ++ (f a).trace, (f a).out⟩ g = ⟨t ++ (L.bind (f a) g).trace, (L.bind (f a) g).out⟩
    generalize f a = m
    obtain ⟨u, p⟩ := m
    cases p with
    | error e => rfl
    | ok b =>
      show (⟨(t ++ u) ++ (g b).trace, (g b).out⟩ : L γ) = ⟨t ++ (u ++ (g b).trace), (g b).out⟩
      rw [List.append_assoc]

instance : LawfulMonad L := LawfulMonad.mk' L
  (id_map := L.bind_pure')
  (pure_bind := fun _ _ => rfl)
  (bind_assoc := L.bind_assoc')
  (bind_pure_comp := fun _ _ => rfl)

end Aes.Leak

namespace RustSrc.Leak
open Rust Aes.Leak
variable [Cfg]

omit [Cfg] in
theorem quiet_ok {α : Type} (a : α) : quiet (.ok a) = pure a := rfl

omit [Cfg] in
/-- Only the results that can arise matter. -/
theorem bind_congr_out {α β : Type} (m : L α) (f g : α → L β) (h : ∀ a, m.out = .ok a → f a = g a) : (m >>= f) = (m >>= g) := by
  show L.bind m f = L.bind m g
  unfold L.bind
  cases hm : m.out with
  | ok a => simp only [h a hm]
  | error e => rfl

omit [Cfg] in
theorem forEach_congr {α β : Type} (l : List β) (f g : α → β → L α) (h : ∀ a, ∀ b ∈ l, f a b = g a b) (a : α) :
    forEach l f a = forEach l g a := by
  induction l generalizing a with
  | nil => rfl
  | cons b l ih =>
    show (do branch true; forEach l f (← f a b)) = (do branch true; forEach l g (← g a b))
    rw [h a b List.mem_cons_self]
    refine congrArg _ (funext fun _ => congrArg _ (funext fun c => ih (fun a x hx => h a x (List.mem_cons_of_mem _ hx)) c))

theorem Core.array_from_slice_eq (n : Nat) (value : List U8) (offset : Nat) (h : offset + n ≤ value.length) :
    Core.array_from_slice n value offset = Aes.Leak.array_from_slice n value offset := by
  unfold Core.array_from_slice Aes.Leak.array_from_slice Aes.Profile.debugAssert
  rw [Aes.Profile.usub_ok _ (by omega), Aes.Profile.ok_bind]
  have : decide (value.length - offset ≥ n) = true := by simp; omega
  rw [this]
  cases (Cfg.profile).debugAssertions <;> rfl

theorem Core.try_from_slice_eq (n : Nat) {T : Type} (f : Vector U8 n → L T) :
    Core.try_from_slice n f = Aes.Leak.try_from_slice n f := by
  funext value
  unfold Core.try_from_slice Aes.Leak.try_from_slice
  refine congrArg (branch (decide (value.length ≥ n)) >>= ·) (funext fun _ => ?_)
  by_cases h : value.length ≥ n
  · rw [if_pos h, if_pos (by simpa using h), Core.array_from_slice_eq _ _ _ (by omega)]
  · rw [if_neg h, if_neg (by simpa using h)]

end RustSrc.Leak
