import Verif.Gen.Prelude
/-
The slice helpers of src/lib.rs, which the modules use.
Generated by tools/rust2lean.py; do not edit.
-/
namespace RustSrc.Core
open Rust
variable [Cfg]

/-- src/lib.rs:137-140 `array_from_slice`. -/
def array_from_slice (N : Nat) (value : List U8) (offset : Nat) : M (Vector U8 N) := do
  Aes.Profile.debugAssert Cfg.profile (do pure (decide ((← Aes.Profile.usub Cfg.profile value.length offset) ≥ N)))
  rawRead value offset N

/-- src/lib.rs:127-133 `try_from_slice`. -/
def try_from_slice (N : Nat) {T : Type} (from_T : Vector U8 N → M T) (value : List U8) : M (Except Nat T) := do
  if (decide (value.length ≥ N)) then do
    pure (Except.ok (← from_T (← array_from_slice N value 0)))
  else do
    pure (Except.error value.length)

end RustSrc.Core
