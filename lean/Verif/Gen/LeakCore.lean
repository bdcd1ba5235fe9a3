import Verif.Gen.LeakPrelude
/-
The slice helpers of src/lib.rs, which the modules use, with the trace of every call.
Generated by tools/rust2lean.py; do not edit.
-/
namespace RustSrc.Leak.Core
open Rust
variable [Cfg]

/-- src/lib.rs:137-140 `array_from_slice`. -/
def array_from_slice (N : Nat) (value : List U8) (offset : Nat) : Aes.Leak.L (Vector U8 N) := do
  quiet (Aes.Profile.debugAssert Cfg.profile (do pure (decide ((← Aes.Profile.usub Cfg.profile value.length offset) ≥ N))))
  Aes.Leak.rawRead value offset N

/-- src/lib.rs:127-133 `try_from_slice`. -/
def try_from_slice (N : Nat) {T : Type} (from_T : Vector U8 N → Aes.Leak.L T) (value : List U8) : Aes.Leak.L (Except Nat T) := do
  let cond := decide (value.length ≥ N)
  Aes.Leak.branch cond
  if cond then do
    pure (Except.ok (← from_T (← array_from_slice N value 0)))
  else do
    pure (Except.error value.length)

end RustSrc.Leak.Core
