import Verif.Spec.Threads
/-
Executions of threads on a memory that need not be sequentially consistent (C67). What a load may return is bounded from above: every
memory model that is coherent (each single byte behaves as if its stores had an order that the threads' own orders are part of) allows
at most the executions below; so do TSO (store buffers), Arm, RISC-V and relaxed atomics of C11 and Rust. Nothing here looks at the crate.
-/
namespace Aes.Threads
open Rust Store

/-- What a thread does to the memory: it loads `v` from address `a`, or stores it there. -/
inductive Action where
  | load (a : Nat) (v : U8)
  | store (a : Nat) (v : U8)
  deriving DecidableEq

/-- The program `p` performs these actions, whatever the memory, and is at `q` then. -/
def Prog.does : Prog → List Action → Prog → Prop
  | p, [], q => p = q
  | .load a k, .load b v :: l, q => a = b ∧ (k v).does l q
  | .store w k, .store b v :: l, q => w = (b, v) ∧ k.does l q
  | _, _ :: _, _ => False

/-- The actions of thread `i`, in its order. -/
def actionsOf (i : Nat) (trace : List (Nat × Action)) : List Action := trace.filterMap fun e => if e.1 = i then some e.2 else none

/-- The last value that these actions store at address `a`. -/
def lastStore (a : Nat) : List Action → Option U8
  | [] => none
  | x :: l => match lastStore a l with
    | some v => some v
    | none => match x with
      | .store b v => if b = a then some v else none
      | .load _ _ => none

/-- A possible execution from memory `m` to memory `m'`. The trace has the actions of all threads, mixed in any way: only the order of the actions of each
single thread means anything. -/
structure Coherent (m : Memory) (trace : List (Nat × Action)) (m' : Memory) : Prop where
  /-- A load returns the value that the thread itself stored there last (at first: the initial one), or a value that another thread
  stores there, at any time: earlier, later, overwritten or not. -/
  loads : ∀ pre i a v post, trace = pre ++ (i, .load a v) :: post →
    v = (lastStore a (actionsOf i pre)).getD (m a) ∨ ∃ j, j ≠ i ∧ (j, .store a v) ∈ trace
  /-- In the end a byte that was stored to has a value that was the last one for some thread; the others are as they were. -/
  final : ∀ a, (m' a = m a ∧ ∀ j v, (j, .store a v) ∉ trace) ∨ ∃ j, lastStore a (actionsOf j trace) = some (m' a)

/-- The threads of `s` make these actions, and get to `s'`, on any coherent memory. -/
structure WeakRun (s : System) (trace : List (Nat × Action)) (s' : System) : Prop where
  does : ∀ i, (s.threads i).does (actionsOf i trace) (s'.threads i)
  coherent : Coherent s.memory trace s'.memory

/-- Two actions on the same byte, at least one of them a store. -/
def Conflict (x y : Action) : Prop := ∃ a v w, (x = .store a v ∧ (y = .load a w ∨ y = .store a w)) ∨ (y = .store a v ∧ x = .load a w)

end Aes.Threads
