import Verif.Model.Fmt
/-
What is assumed of the sink a formatter writes to (C26, C28).
-/
namespace Aes.Fmt
open Rust

/-- A sink that appends what it accepts: on success everything, on failure some prefix. -/
def Appends {σ : Type} (w : Writer σ) (out : σ → List Char) : Prop :=
  ∀ c s, ∃ c', c' <+: c ∧ out (w.write_str c s).2 = out s ++ c' ∧ ((w.write_str c s).1 = true → c' = c)

end Aes.Fmt
