import Verif.Spec.Block
import Verif.Model.Threads
/-
What it means for threads to keep apart (C53): the statement of the claim, not part of the model.
-/
namespace Aes.Threads
open Rust AesSpec Fips197 Target Store

/-- A thread that loads only from `R` and stores only to `S`. -/
def Prog.Within (R S : Nat → Prop) : Prog → Prop
  | .done _ => True
  | .load a k => R a ∧ ∀ b, (k b).Within R S
  | .store w k => S w.1 ∧ k.Within R S

/-- The `n` bytes at address `p`. -/
def readMem (m : Memory) (p n : Nat) : Bytes n := Vector.ofFn fun i => m (p + i.val)

/-- The chunk reads the byte at this address. -/
def Chunk.reads (c : Chunk) (a : Nat) : Prop := c.src ≤ a ∧ a < c.src + c.w.size
/-- The chunk writes the byte at this address. -/
def Chunk.writes (c : Chunk) (a : Nat) : Prop := c.dst.ptr ≤ a ∧ a < c.dst.ptr + c.w.size
/-- Neither chunk writes what the other reads or writes. -/
def Apart (c d : Chunk) : Prop := ∀ a, (c.writes a → ¬ d.reads a ∧ ¬ d.writes a) ∧ (d.writes a → ¬ c.reads a ∧ ¬ c.writes a)

end Aes.Threads
