import Verif.Rust
/-
Leakage: what an observer of timing, branch predictors and caches learns from a run, in the usual source-level
("constant-time programming") model: the sequence of operations executed (not their operands, except shift and rotate
amounts), the outcome of every branch, and the index of every memory access.

`L α` is a run: its trace and its result. The `Leak*` modules repeat the model of the code in this monad, one event per
operation of the source text; that they compute the same as the model they repeat is proved (Verif/Proofs/Leak*.lean).
-/
namespace Aes.Leak
open Rust

/-- Arrays that the code indexes. -/
inductive Arr where
  | TE0 | TE1 | TE2 | TE3 | TE4 | TD0 | TD1 | TD2 | TD3 | TD4
  | RCON
  /-- an array or slice of words, blocks or bytes -/
  | data
deriving DecidableEq, Repr

/-- Operations on words whose time does not depend on their operands (on the CPUs the usual model is about). -/
inductive Op where
  | and | or | xor | not | sub
  | shl (k : Nat) | shr (k : Nat) | rotr (k : Nat)
  /-- a cast between integer types -/
  | cast
  /-- `to_ne_bytes`, `from_ne_bytes`, `to_be_bytes`, `from_be_bytes`, transmute: a move -/
  | move
  /-- `==` on integers, as a value (a following `if` is a separate `branch`) -/
  | cmp
  /-- a hardware instruction on registers (an intrinsic), by name -/
  | instr (name : String)
deriving DecidableEq, Repr

/-- What is observed. -/
inductive Event where
  | op (o : Op)
  | read (a : Arr) (index : Nat)
  | write (a : Arr) (index : Nat)
  | branch (taken : Bool)
deriving DecidableEq, Repr

/-- A run: what was observed, and its result. -/
structure L (α : Type) where
  trace : List Event
  out : M α

namespace L
/-- Sequencing; a panic ends the run. -/
protected def bind {α β : Type} (m : L α) (f : α → L β) : L β :=
  match m.out with
  | .ok a => ⟨m.trace ++ (f a).trace, (f a).out⟩
  | .error e => ⟨m.trace, .error e⟩
/-- No event. -/
protected def pure {α : Type} (a : α) : L α := ⟨[], .ok a⟩
instance : Monad L where
  pure := L.pure
  bind := L.bind
end L

/-- One operation. -/
def emit {α : Type} (o : Op) (a : α) : L α := ⟨[.op o], .ok a⟩

section words
variable {w : Nat}
/-- `a & b` -/
def and (a b : BitVec w) : L (BitVec w) := emit .and (a &&& b)
/-- `a | b` -/
def or (a b : BitVec w) : L (BitVec w) := emit .or (a ||| b)
/-- `a ^ b` -/
def xor (a b : BitVec w) : L (BitVec w) := emit .xor (a ^^^ b)
/-- `!a` -/
def not (a : BitVec w) : L (BitVec w) := emit .not (~~~a)
/-- `a.wrapping_sub(b)` -/
def sub (a b : BitVec w) : L (BitVec w) := emit .sub (a - b)
/-- `a << k` for a constant `k` -/
def shl (a : BitVec w) (k : Nat) : L (BitVec w) := emit (.shl k) (a <<< k)
/-- `a >> k` for a constant `k` -/
def shr (a : BitVec w) (k : Nat) : L (BitVec w) := emit (.shr k) (a >>> k)
/-- `a.rotate_right(k)` for a constant `k` -/
def rotr (a : BitVec w) (k : Nat) : L (BitVec w) := emit (.rotr k) (a.rotateRight k)
/-- `a as uN` -/
def cast (v : Nat) (a : BitVec w) : L (BitVec v) := emit .cast (a.setWidth v)
/-- `a == b` -/
def eqw (a b : BitVec w) : L Bool := emit .cmp (a == b)
end words

/-- A branch on `b`. -/
def branch (b : Bool) : L Unit := ⟨[.branch b], .ok ()⟩
/-- A panic. -/
def panic {α : Type} : L α := ⟨[], .error .panic⟩
/-- Undefined behaviour. -/
def ub {α : Type} : L α := ⟨[], .error .ub⟩
/-- `assert!(b)`: a branch. -/
def assert (b : Bool) : L Unit := do
  branch b
  if b then pure () else panic

/-- `v[i]`: the bounds check is a branch, the access reveals the index. -/
def idx {α : Type} {n : Nat} (a : Arr) (v : Vector α n) (i : Nat) : L α :=
  if h : i < n then ⟨[.branch true, .read a i], .ok v[i]⟩ else ⟨[.branch false], .error .panic⟩
/-- `v[i] = x`. -/
def upd {α : Type} {n : Nat} (a : Arr) (v : Vector α n) (i : Nat) (x : α) : L (Vector α n) :=
  if h : i < n then ⟨[.branch true, .write a i], .ok (v.set i x)⟩ else ⟨[.branch false], .error .panic⟩
/-- `s[i]` on a slice. -/
def sidx {α : Type} (s : List α) (i : Nat) : L α :=
  if h : i < s.length then ⟨[.branch true, .read .data i], .ok s[i]⟩ else ⟨[.branch false], .error .panic⟩
/-- `s[i] = x` on a slice. -/
def supd {α : Type} (s : List α) (i : Nat) (x : α) : L (List α) :=
  if i < s.length then ⟨[.branch true, .write .data i], .ok (s.set i x)⟩ else ⟨[.branch false], .error .panic⟩
/-- `&s[..k]`. -/
def sliceTo {α : Type} (s : List α) (k : Nat) : L (List α) :=
  if k ≤ s.length then ⟨[.branch true], .ok (s.take k)⟩ else ⟨[.branch false], .error .panic⟩
/-- `&s[k..]`. -/
def sliceFrom {α : Type} (s : List α) (k : Nat) : L (List α) :=
  if k ≤ s.length then ⟨[.branch true], .ok (s.drop k)⟩ else ⟨[.branch false], .error .panic⟩
/-- `f(&mut s[..k])`. -/
def onTo {α : Type} (s : List α) (k : Nat) (f : List α → L (List α)) : L (List α) := do
  let p ← sliceTo s k
  let p ← f p
  pure (p ++ s.drop k)
/-- `f(&mut s[k..])`. -/
def onFrom {α : Type} (s : List α) (k : Nat) (f : List α → L (List α)) : L (List α) := do
  let t ← sliceFrom s k
  let t ← f t
  pure (s.take k ++ t)
/-- The writes of a copy of `n` elements, in order. -/
def writes (n : Nat) : List Event := (List.range n).map fun i => .write .data i
/-- The reads of a copy of `n` elements, in order. -/
def reads (lo n : Nat) : List Event := (List.range n).map fun i => .read .data (lo + i)
/-- `dst.copy_from_slice(src)`. -/
def copyFromSlice {α : Type} (dst src : List α) : L (List α) :=
  if dst.length = src.length then ⟨.branch true :: writes src.length, .ok src⟩ else ⟨[.branch false], .error .panic⟩
/-- `slice.try_into().unwrap()`. -/
def arrayTryFrom {α : Type} (n : Nat) (s : List α) : L (Vector α n) :=
  if h : s.length = n then ⟨[.branch true], .ok ⟨s.toArray, by simpa using h⟩⟩ else ⟨[.branch false], .error .panic⟩
/-- `Result::unwrap`. -/
def unwrap {ε α : Type} : Except ε α → L α
  | .ok a => ⟨[.branch true], .ok a⟩
  | .error _ => ⟨[.branch false], .error .panic⟩
/-- A raw read of `n` bytes from `offset`. -/
def rawRead (s : List U8) (offset n : Nat) : L (Vector U8 n) :=
  ⟨reads offset n, Rust.rawRead s offset n⟩

/-- A raw write of `n` bytes to the start of the slice. -/
def rawWrite {n : Nat} (s : List U8) (v : Vector U8 n) : L (List U8) :=
  ⟨writes n, Rust.rawWrite s v⟩
/-- An instruction on registers. -/
def ins {α : Type} (name : String) (a : α) : L α := emit (.instr name) a

/-- `for x in l { acc = f(acc, x) }`: one taken branch per element, and one not taken. -/
def forEach {α β : Type} (l : List β) (f : α → β → L α) (acc : α) : L α :=
  match l with
  | [] => do branch false; pure acc
  | x :: l => do branch true; forEach l f (← f acc x)

/-! ### Comparing two runs -/

/-- Two runs look the same to the observer, and their results are related by `R` (or both panic). -/
def Same {α β : Type} (R : α → β → Prop) (m : L α) (m' : L β) : Prop :=
  m.trace = m'.trace ∧
  match m.out, m'.out with
  | .ok a, .ok b => R a b
  | .error e, .error e' => e = e'
  | _, _ => False

/-- Any two values: nothing is public. -/
def Any {α β : Type} (_ : α) (_ : β) : Prop := True

end Aes.Leak
