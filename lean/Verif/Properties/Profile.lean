import Verif.Proofs.Profile
import Verif.Properties.Client
/-
C58: debug and release builds, with or without overflow checks, on targets of any pointer width, behave alike: no
`debug_assert!` of the crate can fire, no `usize` arithmetic can overflow, and so no client can tell the profiles apart.
-/
namespace Aes
open Rust AesSpec Fips197 Target Client

/-- C58: no client can tell two build profiles (or pointer widths) of the same configuration apart. -/
theorem C58_profiles_agree (pf pf' : Profile) (t : Target) (client : Client) (n : Nat) :
    observe (Profile.crate pf t) client n = observe (Profile.crate pf' t) client n := by
  rw [Profile.crate_eq, Profile.crate_eq]

/-- C58: what every build shows a client is what the model without a profile shows it, so all other theorems of this
development about clients hold for every profile. -/
theorem C58_profile_free (pf : Profile) (t : Target) (client : Client) (n : Nat) :
    observe (Profile.crate pf t) client n = observe (crate t) client n := by
  rw [Profile.crate_eq]

/-- C58: in particular every build is AES (except on riscv32 and big-endian constant-time targets, C41 and C42). -/
theorem C58_is_aes (pf : Profile) (t : Target) (ht : t ≠ .riscv32) (hb : t ≠ .bitslice .big) (client : Client) (n : Nat) :
    observe (Profile.crate pf t) client n = observe aes client n := by
  rw [Profile.crate_eq, C29_refines_aes t ht hb]

/-- C58: in every state of every build a call faults only by a panic and only if it is a documented misuse. A debug build adds
no panic (no failing `debug_assert!`, no overflow), a release build no undefined behaviour. -/
theorem C58_fault_is_misuse (pf : Profile) (t : Target) (s : Store (Profile.crate pf t)) (c : Call) (f : Fault)
    (h : (step (Profile.crate pf t) s c).1 = .fault f) : f = .panic ∧ misuse c := by
  revert s h
  rw [Profile.crate_eq]
  exact fun s h => C44_fault_is_misuse t s c f h

/-- C58: and conversely a documented misuse is caught in every build: an empty key slice makes `chain_enc` and `chain_dec`
panic, a short buffer makes `store_to` panic, by `assert!` and not by `debug_assert!`. -/
theorem C58_misuse_panics (pf : Profile) (t : Target) (w : Width) (x : (Profile.crate pf t).V w) (dst : List U8)
    (hd : dst.length < w.size) : (Profile.crate pf t).chain_enc w x [] = .error .panic ∧
      (Profile.crate pf t).chain_dec w x [] = .error .panic ∧
      (Profile.crate pf t).store_to w x dst = .error .panic := by
  revert x
  rw [Profile.crate_eq]
  intro x
  refine ⟨?_, ?_, ?_⟩
  · show chain_enc (T := t.Vec w) x [] = _
    unfold chain_enc
    cases (AesVec.pre : Option (Pre (t.Vec w))) <;> rfl
  · show chain_dec (T := t.Vec w) x [] = _
    unfold chain_dec
    cases (AesVec.pre : Option (Pre (t.Vec w))) <;> rfl
  · exact LawfulVec.store_to_short (T := t.Vec w) x dst hd

/-- C58: the model is sensitive to the profile. Read out of bounds, `array_from_slice` would panic in a debug build and be
undefined behaviour in a release build; only its callers make the difference unobservable. -/
example : Profile.array_from_slice .dev 16 [] 0 = .error .panic ∧
    Profile.array_from_slice .release 16 [] 0 = .error .ub := by decide

/-- With debug assertions but without overflow checks an offset beyond the end would even pass the assertion. -/
example : Profile.array_from_slice ⟨true, false, 64, by decide⟩ 16 [] 1 = .error .ub := by decide

/-- `keys.len() - 1` of an empty slice would panic or be `usize::MAX`; the `assert_ne!` before it is what prevents this. -/
example : Profile.usub .dev 0 1 = .error .panic ∧ Profile.usub .release 0 1 = .ok (2 ^ 64 - 1) ∧
    Profile.usub ⟨false, false, 32, by decide⟩ 0 1 = .ok (2 ^ 32 - 1) := by decide

/-- A debug build on a 16-bit target encrypts. -/
example : observe (Profile.crate ⟨true, true, 16, by decide⟩ .table)
    (script [.encFrom .k128 ramp16, .try_from .x1 ramp16.toList, .encrypt .k128 .x1 0 1, .into_bytes .x1 2]) 4 =
    observe aes (script [.encFrom .k128 ramp16, .try_from .x1 ramp16.toList, .encrypt .k128 .x1 0 1, .into_bytes .x1 2]) 4 :=
  C58_is_aes _ _ (by decide) (by decide) _ _

end Aes
