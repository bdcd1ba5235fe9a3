/-
The fragment of Rust's semantics the model needs.

* `uN`            is `BitVec N` (wrapping arithmetic, logical shifts).
* `[T; N]`        is `Vector T N`.
* `&[T]`          is `List T` (no bound on its length); `&mut [T]` parameters are returned.
* a computation that may panic or have undefined behaviour is `Except Fault`.
-/
namespace Rust

abbrev U8 := BitVec 8
abbrev U32 := BitVec 32
abbrev U64 := BitVec 64
abbrev U128 := BitVec 128

/-- What can go wrong: a panic (failed `assert!`, index out of range, `unwrap` of `Err`), or
undefined behaviour (a raw pointer access outside its allocation). -/
inductive Fault where
  | panic
  | ub
deriving DecidableEq, Repr

/-- Computations of the model: a value, a panic or undefined behaviour. -/
abbrev M := Except Fault

/-- `target_endian`. -/
inductive Endian where
  | little
  | big
deriving DecidableEq, Repr

/-- `assert!(b)`. -/
def assert (b : Bool) : M Unit := if b then .ok () else .error .panic

/-- `v[i]` on an array: panics when out of range. -/
def idx {α n} (v : Vector α n) (i : Nat) : M α :=
  if h : i < n then .ok v[i] else .error .panic

/-- `v[i] = x` on an array: panics when out of range. -/
def upd {α n} (v : Vector α n) (i : Nat) (x : α) : M (Vector α n) :=
  if h : i < n then .ok (v.set i x) else .error .panic

/-- `s[i]` on a slice: panics when out of range. -/
def sidx {α} (s : List α) (i : Nat) : M α :=
  if h : i < s.length then .ok s[i] else .error .panic

/-- `s[i] = x` on a mutable slice: panics when out of range. -/
def supd {α} (s : List α) (i : Nat) (x : α) : M (List α) :=
  if i < s.length then .ok (s.set i x) else .error .panic

/-- `&s[..k]`: panics when `k > s.len()`. -/
def sliceTo {α} (s : List α) (k : Nat) : M (List α) :=
  if k ≤ s.length then .ok (s.take k) else .error .panic

/-- `&s[k..]`: panics when `k > s.len()`. -/
def sliceFrom {α} (s : List α) (k : Nat) : M (List α) :=
  if k ≤ s.length then .ok (s.drop k) else .error .panic

/-- `f(&mut s[..k])`: run `f` on the prefix, in place. -/
def onTo {α} (s : List α) (k : Nat) (f : List α → M (List α)) : M (List α) := do
  let p ← sliceTo s k
  let p ← f p
  pure (p ++ s.drop k)

/-- `f(&mut s[k..])`: run `f` on the suffix, in place. -/
def onFrom {α} (s : List α) (k : Nat) (f : List α → M (List α)) : M (List α) := do
  let t ← sliceFrom s k
  let t ← f t
  pure (s.take k ++ t)

/-- `dst.copy_from_slice(src)`: panics when the lengths differ. -/
def copyFromSlice {α} (dst src : List α) : M (List α) :=
  if dst.length = src.length then .ok src else .error .panic

/-- `<[T; N]>::try_from(slice).unwrap()` (`slice.try_into().unwrap()`): panics unless `slice.len() == N`. -/
def arrayTryFrom {α} (n : Nat) (s : List α) : M (Vector α n) :=
  if h : s.length = n then .ok ⟨s.toArray, by simpa using h⟩ else .error .panic

/-- `Result::unwrap`. -/
def unwrap {ε α} : Except ε α → M α
  | .ok a => .ok a
  | .error _ => .error .panic

/-- Raw read of `n` bytes at `slice.as_ptr().add(offset)`: undefined behaviour unless the whole range
lies inside the slice. -/
def rawRead (s : List U8) (offset n : Nat) : M (Vector U8 n) :=
  if h : offset + n ≤ s.length then
    .ok ⟨((s.drop offset).take n).toArray, by simp; omega⟩
  else .error .ub

/-- Raw write of the `n` bytes `v` at `slice.as_mut_ptr()`: undefined behaviour unless the slice
has at least `n` bytes. -/
def rawWrite {n : Nat} (s : List U8) (v : Vector U8 n) : M (List U8) :=
  if n ≤ s.length then .ok (v.toList ++ s.drop n) else .error .ub

/-- The values of `(lo..hi).step_by(step)`. -/
def rangeStep (lo hi step : Nat) : List Nat := List.range' lo ((hi - lo + step - 1) / step) step

/-- `slice.chunks_exact(k)` (for `k > 0`): the consecutive `k`-element chunks, remainder dropped. -/
def chunksExact {α} (k : Nat) (s : List α) : List (List α) :=
  (List.range (s.length / k)).map fun i => (s.drop (k * i)).take k

/-- Little-endian value of a byte string in `w` bits: byte `i` goes to bits `8i..8i+7`. -/
def fromLe (w : Nat) {n : Nat} (v : Vector U8 n) : BitVec w :=
  v.toList.foldr (fun b acc => (acc <<< 8) ||| b.setWidth w) 0

/-- The `n` little-endian bytes of a value: byte `i` is bits `8i..8i+7`. -/
def toLe (n : Nat) {w : Nat} (x : BitVec w) : Vector U8 n :=
  Vector.ofFn fun i => x.extractLsb' (8 * i.val) 8

/-- `uN::from_be_bytes`. -/
def fromBe (w : Nat) {n : Nat} (v : Vector U8 n) : BitVec w := fromLe w v.reverse
/-- `uN::to_be_bytes`. -/
def toBe (n : Nat) {w : Nat} (x : BitVec w) : Vector U8 n := (toLe n x).reverse

/-- `uN::from_ne_bytes` on a target of the given endianness (also: reinterpreting memory as an integer). -/
def fromNe (e : Endian) (w : Nat) {n : Nat} (v : Vector U8 n) : BitVec w :=
  match e with
  | .little => fromLe w v
  | .big => fromBe w v
/-- `uN::to_ne_bytes` on a target of the given endianness (also: the bytes of an integer in memory). -/
def toNe (e : Endian) (n : Nat) {w : Nat} (x : BitVec w) : Vector U8 n :=
  match e with
  | .little => toLe n x
  | .big => toBe n x

end Rust
