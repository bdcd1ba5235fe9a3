import Verif.Rust
/-
Stacked Borrows (Jung, Dang, Kang and Dreyer, "Stacked Borrows: an aliasing model for Rust", POPL 2020; the rules as Miri implements
them), the part that concerns references and raw pointers to plain bytes: what it means for an access through a pointer to be undefined
behaviour because another pointer has been used in between. Independent of the crate.

Simplified: no interior mutability, no two-phase borrows (a `&mut` is taken when it is written), no unwinding. Stricter than Miri in one
point: removing or disabling an item with a protector is undefined behaviour whatever its permission.
-/
namespace Aes.Borrow
open Rust

/-- Every reference and pointer carries a tag, which is made when it is created. -/
abbrev Tag := Nat
abbrev CallId := Nat
/-- `unique`: `&mut T`; `sharedRW`: `*mut T`; `sharedRO`: `&T` and `*const T`; `disabled`: a `&mut T` that may no longer be used. -/
inductive Perm where
  | unique | sharedRW | sharedRO | disabled
  deriving DecidableEq
/-- The pointer with this tag may be used. While the call `protector` runs it must stay so: it is a reference argument of that call. -/
structure Item where
  perm : Perm
  tag : Tag
  protector : Option CallId := none
  deriving DecidableEq
/-- The pointers to one byte of memory that may be used, the most recent first. No pointer may be used on memory that is not allocated. -/
abbrev Stack := List Item
inductive Access where
  | read | write

def Perm.allows : Perm → Access → Bool
  | .unique, _ => true
  | .sharedRW, _ => true
  | .sharedRO, .read => true
  | _, _ => false

/-- The topmost item that lets the pointer tagged `t` make this access, with the items above and below. -/
def split (a : Access) (t : Tag) : Stack → Option (Stack × Item × Stack)
  | [] => none
  | i :: s => if i.tag = t ∧ i.perm.allows a then some ([], i, s) else (split a t s).map fun p => (i :: p.1, p.2.1, p.2.2)

/-- Is it an argument of a running call? -/
def guarded (active : List CallId) (i : Item) : Bool :=
  match i.protector with
  | some c => active.contains c
  | none => false
def isRW (i : Item) : Bool := i.perm = .sharedRW
/-- The items above an item `g` that a write through `g` leaves in place: raw pointers directly above a raw pointer. -/
def kept (g : Item) (above : Stack) : Stack := if isRW g then (above.reverse.takeWhile isRW).reverse else []
/-- The others. -/
def popped (g : Item) (above : Stack) : Stack := if isRW g then (above.reverse.dropWhile isRW).reverse else above
def disable (i : Item) : Item := if i.perm = .unique then { i with perm := .disabled } else i

/-- An access through the pointer tagged `t`. A write makes the pointers above unusable, a read the `&mut` among them; `none`: undefined
behaviour, because `t` may not be used or one of those is protected. -/
def access (active : List CallId) (a : Access) (t : Tag) (s : Stack) : Option Stack :=
  match split a t s with
  | none => none
  | some (above, g, below) =>
    match a with
    | .read =>
      if above.any fun i => i.perm = .unique && guarded active i then none else some (above.map disable ++ g :: below)
    | .write =>
      if (popped g above).any (guarded active) then none else some (kept g above ++ g :: below)

/-- A new pointer is made from the one tagged `t`. A reference counts as an access; a `*mut` does not. -/
def derive (active : List CallId) (t : Tag) (new : Item) (s : Stack) : Option Stack :=
  match new.perm with
  | .unique => (access active .write t s).map (new :: ·)
  | .sharedRO => (access active .read t s).map (new :: ·)
  | .sharedRW =>
    match split .write t s with
    | none => none
    | some (above, g, below) => some (popped g above ++ new :: kept g above ++ g :: below)
  | .disabled => none

/-- The memory of the process, the pointers that may be used on each byte, the running calls (for protectors), and what is fresh. -/
structure State where
  bytes : Nat → U8
  stacks : Nat → Stack
  active : List CallId
  nextTag : Tag
  nextCall : CallId

/-- May the pointer tagged `t` make this access to the byte at address `a`? -/
def State.allows (σ : State) (k : Access) (t : Tag) (a : Nat) : Bool := (access σ.active k t (σ.stacks a)).isSome

/-- Tags and names of calls are not used before they are made. Every state of a program is like this. -/
structure State.WellFormed (σ : State) : Prop where
  calls : ∀ c ∈ σ.active, c < σ.nextCall
  tags : ∀ a, ∀ i ∈ σ.stacks a, i.tag < σ.nextTag
  protectors : ∀ a, ∀ i ∈ σ.stacks a, ∀ c, i.protector = some c → c < σ.nextCall

/-- A program: it ends, in a state, or faults. -/
abbrev B (α : Type) := StateT State M α

/-- Do this to the `n` bytes at address `p`. -/
def onRange (p n : Nat) (f : Stack → Option Stack) : B Unit := fun σ =>
  if ∀ i < n, (f (σ.stacks (p + i))).isSome then
    .ok ((), { σ with stacks := fun a => if p ≤ a ∧ a < p + n then (f (σ.stacks a)).getD [] else σ.stacks a })
  else .error .ub

/-- Read `n` bytes at address `p` through the pointer tagged `t`. -/
def read (t : Tag) (p n : Nat) : B (Vector U8 n) := fun σ => do
  let (_, σ) ← onRange p n (access σ.active .read t) σ
  .ok (Vector.ofFn fun i => σ.bytes (p + i), σ)
/-- Write these bytes at address `p`. -/
def write {n : Nat} (t : Tag) (p : Nat) (v : Vector U8 n) : B Unit := fun σ => do
  let (_, σ) ← onRange p n (access σ.active .write t) σ
  .ok ((), { σ with bytes := fun a => if h : p ≤ a ∧ a < p + n then v[a - p]'(by omega) else σ.bytes a })
/-- Make a pointer of this kind to `n` bytes at `p` from the one tagged `t`. -/
def retag (perm : Perm) (protector : Option CallId) (t : Tag) (p n : Nat) : B Tag := fun σ => do
  let (_, σ') ← onRange p n (derive σ.active t ⟨perm, σ.nextTag, protector⟩) σ
  .ok (σ.nextTag, { σ' with nextTag := σ.nextTag + 1 })
/-- A call: `f` gets its name. -/
def call {α : Type} (f : CallId → B α) : B α := fun σ => do
  let (x, σ') ← f σ.nextCall { σ with active := σ.nextCall :: σ.active, nextCall := σ.nextCall + 1 }
  .ok (x, { σ' with active := σ.active })
/-- A local variable of `n` bytes comes to life at address `p`, with these bytes; the tag is that of its name. The memory must be free. -/
def allocate {n : Nat} (p : Nat) (v : Vector U8 n) : B Tag := fun σ =>
  if ∀ i < n, σ.stacks (p + i) = [] then
    .ok (σ.nextTag, { σ with
      stacks := fun a => if p ≤ a ∧ a < p + n then [⟨.unique, σ.nextTag, none⟩] else σ.stacks a
      bytes := fun a => if h : p ≤ a ∧ a < p + n then v[a - p]'(by omega) else σ.bytes a
      nextTag := σ.nextTag + 1 })
  else .error .ub
/-- It goes out of scope: a write through its name, after which no pointer to it may be used. -/
def deallocate (t : Tag) (p n : Nat) : B Unit := fun σ =>
  onRange p n (fun s => (access σ.active .write t s).map fun _ => []) σ

end Aes.Borrow
