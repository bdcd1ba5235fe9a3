import Verif.Gen.LeakCore
import Verif.Gen.LeakIntrinsics
import Verif.Gen.Riscv64
/-
src/aes_riscv64.rs, function by function, with the trace of every call.
Generated by tools/rust2lean.py; do not edit.
-/
namespace RustSrc.Leak.Riscv64
open Rust
open RustSrc.Leak.Core
variable [Cfg]

/-- src/aes_riscv64.rs:21-24 `#[derive(PartialEq)]`. -/
def eq (self other : Aes.Riscv64.Block) : Aes.Leak.L Bool :=
  Aes.Leak.andAlso (Aes.Leak.eqw self.d0 other.d0) (Aes.Leak.eqw self.d1 other.d1)

/-- src/aes_riscv64.rs:71-73 `new`. -/
def new (value : Vector U8 16) : Aes.Leak.L Aes.Riscv64.Block :=
  Aes.Leak.emit .move (transmute value)

/-- src/aes_riscv64.rs:28-30 `from`. -/
def from_bytes (value : Vector U8 16) : Aes.Leak.L Aes.Riscv64.Block :=
  new value

/-- src/aes_riscv64.rs:37-39 `bitand`. -/
def bitand (self : Aes.Riscv64.Block) (rhs : Aes.Riscv64.Block) : Aes.Leak.L Aes.Riscv64.Block := do
  pure (⟨(← Aes.Leak.and self.d0 rhs.d0), (← Aes.Leak.and self.d1 rhs.d1)⟩ : Aes.Riscv64.Block)

/-- src/aes_riscv64.rs:46-48 `bitor`. -/
def bitor (self : Aes.Riscv64.Block) (rhs : Aes.Riscv64.Block) : Aes.Leak.L Aes.Riscv64.Block := do
  pure (⟨(← Aes.Leak.or self.d0 rhs.d0), (← Aes.Leak.or self.d1 rhs.d1)⟩ : Aes.Riscv64.Block)

/-- src/aes_riscv64.rs:55-57 `bitxor`. -/
def bitxor (self : Aes.Riscv64.Block) (rhs : Aes.Riscv64.Block) : Aes.Leak.L Aes.Riscv64.Block := do
  pure (⟨(← Aes.Leak.xor self.d0 rhs.d0), (← Aes.Leak.xor self.d1 rhs.d1)⟩ : Aes.Riscv64.Block)

/-- src/aes_riscv64.rs:64-66 `not`. -/
def not (self : Aes.Riscv64.Block) : Aes.Leak.L Aes.Riscv64.Block := do
  pure (⟨(← Aes.Leak.not self.d0), (← Aes.Leak.not self.d1)⟩ : Aes.Riscv64.Block)

/-- src/aes_riscv64.rs:76-81 `store_to`. -/
def store_to (self : Aes.Riscv64.Block) (dst : List U8) : Aes.Leak.L (List U8) := do
  Aes.Leak.assert (decide (dst.length ≥ 16))
  let dst ← Aes.Leak.rawWrite dst (Layout.bytes self)
  pure dst

/-- src/aes_riscv64.rs:84-86 `zero`. -/
def zero : Aes.Leak.L Aes.Riscv64.Block :=
  pure (⟨0#64, 0#64⟩ : Aes.Riscv64.Block)

/-- src/aes_riscv64.rs:90-92 `is_zero`. -/
def is_zero (self : Aes.Riscv64.Block) : Aes.Leak.L Bool := do
  Aes.Leak.eqw (← Aes.Leak.or self.d0 self.d1) 0#64

/-- src/aes_riscv64.rs:96-103 `enc`. -/
def enc (self : Aes.Riscv64.Block) (round_key : Aes.Riscv64.Block) : Aes.Leak.L Aes.Riscv64.Block := do
  pure (⟨(← Aes.Leak.xor (← llvm.riscv.aes64esm self.d0 self.d1) round_key.d0), (← Aes.Leak.xor (← llvm.riscv.aes64esm self.d1 self.d0) round_key.d1)⟩ : Aes.Riscv64.Block)

/-- src/aes_riscv64.rs:107-114 `dec`. -/
def dec (self : Aes.Riscv64.Block) (round_key : Aes.Riscv64.Block) : Aes.Leak.L Aes.Riscv64.Block := do
  pure (⟨(← Aes.Leak.xor (← llvm.riscv.aes64dsm self.d0 self.d1) round_key.d0), (← Aes.Leak.xor (← llvm.riscv.aes64dsm self.d1 self.d0) round_key.d1)⟩ : Aes.Riscv64.Block)

/-- src/aes_riscv64.rs:118-125 `enc_last`. -/
def enc_last (self : Aes.Riscv64.Block) (round_key : Aes.Riscv64.Block) : Aes.Leak.L Aes.Riscv64.Block := do
  pure (⟨(← Aes.Leak.xor (← llvm.riscv.aes64es self.d0 self.d1) round_key.d0), (← Aes.Leak.xor (← llvm.riscv.aes64es self.d1 self.d0) round_key.d1)⟩ : Aes.Riscv64.Block)

/-- src/aes_riscv64.rs:129-136 `dec_last`. -/
def dec_last (self : Aes.Riscv64.Block) (round_key : Aes.Riscv64.Block) : Aes.Leak.L Aes.Riscv64.Block := do
  pure (⟨(← Aes.Leak.xor (← llvm.riscv.aes64ds self.d0 self.d1) round_key.d0), (← Aes.Leak.xor (← llvm.riscv.aes64ds self.d1 self.d0) round_key.d1)⟩ : Aes.Riscv64.Block)

/-- src/aes_riscv64.rs:140-145 `mc`. -/
def mc (self : Aes.Riscv64.Block) : Aes.Leak.L Aes.Riscv64.Block := do
  let (tmp0, tmp1) := ((← llvm.riscv.aes64ds self.d0 self.d1), (← llvm.riscv.aes64ds self.d1 self.d0))
  pure (⟨(← llvm.riscv.aes64esm tmp0 tmp1), (← llvm.riscv.aes64esm tmp1 tmp0)⟩ : Aes.Riscv64.Block)

/-- src/aes_riscv64.rs:149-151 `imc`. -/
def imc (self : Aes.Riscv64.Block) : Aes.Leak.L Aes.Riscv64.Block := do
  pure (⟨(← llvm.riscv.aes64im self.d0), (← llvm.riscv.aes64im self.d1)⟩ : Aes.Riscv64.Block)

/-- src/aes_riscv64.rs:155-158 `keyexp_128`. -/
def keyexp_128 (RNUM : U32) (prev : Aes.Riscv64.Block) : Aes.Leak.L Aes.Riscv64.Block := do
  let tmp : U64 ← llvm.riscv.aes64ks2 (← llvm.riscv.aes64ks1i prev.d1 RNUM) prev.d0
  pure (⟨tmp, (← llvm.riscv.aes64ks2 tmp prev.d1)⟩ : Aes.Riscv64.Block)

/-- src/aes_riscv64.rs:161-166 `keyexp_192`. -/
def keyexp_192 (RNUM : U32) (state : U64 × U64 × U64) : Aes.Leak.L (U64 × U64 × U64) := do
  let state := ((← llvm.riscv.aes64ks2 (← llvm.riscv.aes64ks1i state.2.2 RNUM) state.1), state.2.1, state.2.2)
  let state := (state.1, (← llvm.riscv.aes64ks2 state.1 state.2.1), state.2.2)
  let state := (state.1, state.2.1, (← llvm.riscv.aes64ks2 state.2.1 state.2.2))
  pure state

/-- src/aes_riscv64.rs:169-172 `keyexp_256_1`. -/
def keyexp_256_1 (RNUM : U32) (prev0 : Aes.Riscv64.Block) (prev1 : Aes.Riscv64.Block) : Aes.Leak.L Aes.Riscv64.Block := do
  let tmp : U64 ← llvm.riscv.aes64ks2 (← llvm.riscv.aes64ks1i prev1.d1 RNUM) prev0.d0
  pure (⟨tmp, (← llvm.riscv.aes64ks2 tmp prev0.d1)⟩ : Aes.Riscv64.Block)

/-- src/aes_riscv64.rs:175-178 `keyexp_256_2`. -/
def keyexp_256_2 (prev0 : Aes.Riscv64.Block) (prev1 : Aes.Riscv64.Block) : Aes.Leak.L Aes.Riscv64.Block := do
  let tmp : U64 ← llvm.riscv.aes64ks2 (← llvm.riscv.aes64ks1i prev1.d1 0xa#32) prev0.d0
  pure (⟨tmp, (← llvm.riscv.aes64ks2 tmp prev0.d1)⟩ : Aes.Riscv64.Block)

/-- src/aes_riscv64.rs:180-198 `keygen_128`. -/
def keygen_128 (key : Vector U8 16) : Aes.Leak.L (Vector Aes.Riscv64.Block 11) := do
  let key0 : Aes.Riscv64.Block ← from_bytes key
  let key1 : Aes.Riscv64.Block ← keyexp_128 0#32 key0
  let key2 : Aes.Riscv64.Block ← keyexp_128 1#32 key1
  let key3 : Aes.Riscv64.Block ← keyexp_128 2#32 key2
  let key4 : Aes.Riscv64.Block ← keyexp_128 3#32 key3
  let key5 : Aes.Riscv64.Block ← keyexp_128 4#32 key4
  let key6 : Aes.Riscv64.Block ← keyexp_128 5#32 key5
  let key7 : Aes.Riscv64.Block ← keyexp_128 6#32 key6
  let key8 : Aes.Riscv64.Block ← keyexp_128 7#32 key7
  let key9 : Aes.Riscv64.Block ← keyexp_128 8#32 key8
  let key10 : Aes.Riscv64.Block ← keyexp_128 9#32 key9
  pure #v[key0, key1, key2, key3, key4, key5, key6, key7, key8, key9, key10]

/-- src/aes_riscv64.rs:201-223 `keygen_192`. -/
def keygen_192 (key : Vector U8 24) : Aes.Leak.L (Vector Aes.Riscv64.Block 13) := do
  let state0 : U64 × U64 × U64 := ((← Aes.Leak.emit .move (fromLe 64 (← Aes.Leak.arrayTryFrom 8 (← Aes.Leak.sliceFrom (← Aes.Leak.sliceTo key.toList 8) 0)))), (← Aes.Leak.emit .move (fromLe 64 (← Aes.Leak.arrayTryFrom 8 (← Aes.Leak.sliceFrom (← Aes.Leak.sliceTo key.toList 16) 8)))), (← Aes.Leak.emit .move (fromLe 64 (← Aes.Leak.arrayTryFrom 8 (← Aes.Leak.sliceFrom (← Aes.Leak.sliceTo key.toList 24) 16)))))
  let state1 : U64 × U64 × U64 ← keyexp_192 0#32 state0
  let state2 : U64 × U64 × U64 ← keyexp_192 1#32 state1
  let state3 : U64 × U64 × U64 ← keyexp_192 2#32 state2
  let state4 : U64 × U64 × U64 ← keyexp_192 3#32 state3
  let state5 : U64 × U64 × U64 ← keyexp_192 4#32 state4
  let state6 : U64 × U64 × U64 ← keyexp_192 5#32 state5
  let state7 : U64 × U64 × U64 ← keyexp_192 6#32 state6
  let state24 : U64 ← llvm.riscv.aes64ks2 (← llvm.riscv.aes64ks1i state7.2.2 7#32) state7.1
  let state25 : U64 ← llvm.riscv.aes64ks2 state24 state7.2.1
  Aes.Leak.emit .move (transmute (state0, state1, state2, state3, state4, state5, state6, state7, state24, state25))

/-- src/lib.rs:176-178,213 `try_from`. -/
def try_from (value : List U8) : Aes.Leak.L (Except Nat Aes.Riscv64.Block) :=
  try_from_slice 16 from_bytes value

/-- src/aes_riscv64.rs:225-249 `keygen_256`. -/
def keygen_256 (key : Vector U8 32) : Aes.Leak.L (Vector Aes.Riscv64.Block 15) := do
  let key0 : Aes.Riscv64.Block ← Aes.Leak.unwrap (← try_from (← Aes.Leak.sliceTo key.toList 16))
  let key1 : Aes.Riscv64.Block ← Aes.Leak.unwrap (← try_from (← Aes.Leak.sliceFrom key.toList 16))
  let key2 : Aes.Riscv64.Block ← keyexp_256_1 0#32 key0 key1
  let key3 : Aes.Riscv64.Block ← keyexp_256_2 key1 key2
  let key4 : Aes.Riscv64.Block ← keyexp_256_1 1#32 key2 key3
  let key5 : Aes.Riscv64.Block ← keyexp_256_2 key3 key4
  let key6 : Aes.Riscv64.Block ← keyexp_256_1 2#32 key4 key5
  let key7 : Aes.Riscv64.Block ← keyexp_256_2 key5 key6
  let key8 : Aes.Riscv64.Block ← keyexp_256_1 3#32 key6 key7
  let key9 : Aes.Riscv64.Block ← keyexp_256_2 key7 key8
  let key10 : Aes.Riscv64.Block ← keyexp_256_1 4#32 key8 key9
  let key11 : Aes.Riscv64.Block ← keyexp_256_2 key9 key10
  let key12 : Aes.Riscv64.Block ← keyexp_256_1 5#32 key10 key11
  let key13 : Aes.Riscv64.Block ← keyexp_256_2 key11 key12
  let key14 : Aes.Riscv64.Block ← keyexp_256_1 6#32 key12 key13
  pure #v[key0, key1, key2, key3, key4, key5, key6, key7, key8, key9, key10, key11, key12, key13, key14]

/-- What src/aes_riscv64.rs provides to the rest of the crate. -/
@[reducible] def block : Aes.Leak.LBlock Aes.Riscv64.Block where
  new := new
  from_bytes := from_bytes
  store_to := store_to
  zero := zero
  is_zero := is_zero
  eq := eq
  bitand := bitand
  bitor := bitor
  bitxor := bitxor
  not := not
  enc := enc
  dec := dec
  enc_last := enc_last
  dec_last := dec_last
  pre := none
  mc := mc
  imc := imc
  keygen_128 := keygen_128
  keygen_192 := keygen_192
  keygen_256 := keygen_256

end RustSrc.Leak.Riscv64
