import Verif.Gen.BorrowPrelude
import Verif.Gen.Bitslice
import Verif.Gen.Arm
import Verif.Gen.Riscv64
import Verif.Gen.Riscv32
/-
The functions of the crate that go through references and pointers, on the memory of Spec/Borrows.lean.
Generated by tools/rust2lean.py; do not edit.
-/
namespace RustSrc.Ptr
open Rust
open Aes.Borrow
set_option linter.unusedVariables false
variable [Cfg]

/-- src/lib.rs:137-140 `array_from_slice`. -/
def array_from_slice (N : Nat) (value : Ref) (offset : Nat) : B (Vector U8 N) := call fun c => do
  let value ← argument_shared c value
  liftM (Aes.Profile.debugAssert Cfg.profile (do pure (decide ((← (Aes.Profile.usub Cfg.profile value.len offset)) ≥ N))))
  pure (← read_bytes ((← const_ptr value).add offset) N)

/-- src/lib.rs:127-133 `try_from_slice`. -/
def try_from_slice (N : Nat) {T : Type} (from_T : Vector U8 N → M T) (value : Ref) : B (Except Nat T) := call fun c => do
  let value ← argument_shared c value
  if (decide (value.len ≥ N)) then do
    pure (Except.ok (← liftM (from_T (← array_from_slice N value 0))))
  else do
    pure (Except.error value.len)

/-- src/lib.rs:167-169,213 `from`. -/
def AesBlock.from_ref {T : Type} (from_T : Vector U8 16 → M T) (value : Ref) : B T := call fun c => do
  let value ← argument_shared c value
  pure (← liftM (from_T (← read value.tag value.ptr 16)))

/-- src/lib.rs:176-178,213 `try_from`. -/
def AesBlock.try_from {T : Type} (from_T : Vector U8 16 → M T) (value : Ref) : B (Except Nat T) := call fun c => do
  let value ← argument_shared c value
  pure (← try_from_slice 16 from_T value)

/-- src/lib.rs:183-187,213 `from`. -/
def AesBlock.into_bytes {T : Type} (store_to : T → Ref → B Unit) (dst_at : Nat) (value : T) : B (Vector U8 16) := do
  let dst : Ref := ⟨dst_at, 16, ← allocate dst_at (Vector.replicate 16 0#8)⟩
  store_to value (← reborrow dst)
  let result : (Vector U8 16) := (← read dst.tag dst.ptr 16)
  deallocate dst.tag dst.ptr dst.len
  pure result

/-- src/lib.rs:192-194,213 `bitand_assign`. -/
def AesBlock.bitand_assign {T : Type} [Layout T 16] (bitand bitor bitxor : T → T → T) (self : Ref) (rhs : T) : B Unit := call fun c => do
  let self ← argument c self
  let rhs := (bitand (← load self) rhs)
  store self rhs

/-- src/lib.rs:199-201,213 `bitor_assign`. -/
def AesBlock.bitor_assign {T : Type} [Layout T 16] (bitand bitor bitxor : T → T → T) (self : Ref) (rhs : T) : B Unit := call fun c => do
  let self ← argument c self
  let rhs := (bitor (← load self) rhs)
  store self rhs

/-- src/lib.rs:206-208,213 `bitxor_assign`. -/
def AesBlock.bitxor_assign {T : Type} [Layout T 16] (bitand bitor bitxor : T → T → T) (self : Ref) (rhs : T) : B Unit := call fun c => do
  let self ← argument c self
  let rhs := (bitxor (← load self) rhs)
  store self rhs

/-- src/lib.rs:167-169,213 `from`. -/
def AesBlockX2.from_ref {T : Type} (from_T : Vector U8 32 → M T) (value : Ref) : B T := call fun c => do
  let value ← argument_shared c value
  pure (← liftM (from_T (← read value.tag value.ptr 32)))

/-- src/lib.rs:176-178,213 `try_from`. -/
def AesBlockX2.try_from {T : Type} (from_T : Vector U8 32 → M T) (value : Ref) : B (Except Nat T) := call fun c => do
  let value ← argument_shared c value
  pure (← try_from_slice 32 from_T value)

/-- src/lib.rs:183-187,213 `from`. -/
def AesBlockX2.into_bytes {T : Type} (store_to : T → Ref → B Unit) (dst_at : Nat) (value : T) : B (Vector U8 32) := do
  let dst : Ref := ⟨dst_at, 32, ← allocate dst_at (Vector.replicate 32 0#8)⟩
  store_to value (← reborrow dst)
  let result : (Vector U8 32) := (← read dst.tag dst.ptr 32)
  deallocate dst.tag dst.ptr dst.len
  pure result

/-- src/lib.rs:192-194,213 `bitand_assign`. -/
def AesBlockX2.bitand_assign {T : Type} [Layout T 32] (bitand bitor bitxor : T → T → T) (self : Ref) (rhs : T) : B Unit := call fun c => do
  let self ← argument c self
  let rhs := (bitand (← load self) rhs)
  store self rhs

/-- src/lib.rs:199-201,213 `bitor_assign`. -/
def AesBlockX2.bitor_assign {T : Type} [Layout T 32] (bitand bitor bitxor : T → T → T) (self : Ref) (rhs : T) : B Unit := call fun c => do
  let self ← argument c self
  let rhs := (bitor (← load self) rhs)
  store self rhs

/-- src/lib.rs:206-208,213 `bitxor_assign`. -/
def AesBlockX2.bitxor_assign {T : Type} [Layout T 32] (bitand bitor bitxor : T → T → T) (self : Ref) (rhs : T) : B Unit := call fun c => do
  let self ← argument c self
  let rhs := (bitxor (← load self) rhs)
  store self rhs

/-- src/lib.rs:167-169,213 `from`. -/
def AesBlockX4.from_ref {T : Type} (from_T : Vector U8 64 → M T) (value : Ref) : B T := call fun c => do
  let value ← argument_shared c value
  pure (← liftM (from_T (← read value.tag value.ptr 64)))

/-- src/lib.rs:176-178,213 `try_from`. -/
def AesBlockX4.try_from {T : Type} (from_T : Vector U8 64 → M T) (value : Ref) : B (Except Nat T) := call fun c => do
  let value ← argument_shared c value
  pure (← try_from_slice 64 from_T value)

/-- src/lib.rs:183-187,213 `from`. -/
def AesBlockX4.into_bytes {T : Type} (store_to : T → Ref → B Unit) (dst_at : Nat) (value : T) : B (Vector U8 64) := do
  let dst : Ref := ⟨dst_at, 64, ← allocate dst_at (Vector.replicate 64 0#8)⟩
  store_to value (← reborrow dst)
  let result : (Vector U8 64) := (← read dst.tag dst.ptr 64)
  deallocate dst.tag dst.ptr dst.len
  pure result

/-- src/lib.rs:192-194,213 `bitand_assign`. -/
def AesBlockX4.bitand_assign {T : Type} [Layout T 64] (bitand bitor bitxor : T → T → T) (self : Ref) (rhs : T) : B Unit := call fun c => do
  let self ← argument c self
  let rhs := (bitand (← load self) rhs)
  store self rhs

/-- src/lib.rs:199-201,213 `bitor_assign`. -/
def AesBlockX4.bitor_assign {T : Type} [Layout T 64] (bitand bitor bitxor : T → T → T) (self : Ref) (rhs : T) : B Unit := call fun c => do
  let self ← argument c self
  let rhs := (bitor (← load self) rhs)
  store self rhs

/-- src/lib.rs:206-208,213 `bitxor_assign`. -/
def AesBlockX4.bitxor_assign {T : Type} [Layout T 64] (bitand bitor bitxor : T → T → T) (self : Ref) (rhs : T) : B Unit := call fun c => do
  let self ← argument c self
  let rhs := (bitxor (← load self) rhs)
  store self rhs

/-- src/aes_table_based.rs:18-23 `store_u32_be`. -/
def Table.store_u32_be (slice : Ref) (num : U32) : B Unit := call fun c => do
  let slice ← argument c slice
  let rhs := ((num >>> 24).setWidth 8)
  set slice 0 rhs
  let rhs := ((num >>> 16).setWidth 8)
  set slice 1 rhs
  let rhs := ((num >>> 8).setWidth 8)
  set slice 2 rhs
  let rhs := (num.setWidth 8)
  set slice 3 rhs

/-- src/aes_table_based.rs:95-101 `store_to`. -/
def Table.store_to (self : Aes.Table.Block) (dst : Ref) : B Unit := call fun c => do
  let dst ← argument c dst
  require (decide (dst.len ≥ 16))
  Table.store_u32_be (← reborrow dst) self.w0
  Table.store_u32_be (← index_mut dst 4 dst.len) self.w1
  Table.store_u32_be (← index_mut dst 8 dst.len) self.w2
  Table.store_u32_be (← index_mut dst 12 dst.len) self.w3

/-- src/aes_bitslice.rs:285-288 `store_to`. -/
def Bitslice.store_to (self : (Aes.Bitslice.Block Cfg.endian)) (dst : Ref) : B Unit := call fun c => do
  let dst ← argument c dst
  require (decide (dst.len ≥ 16))
  copy_from_slice (← index_mut dst 0 16) (toNe Cfg.endian 16 self.val)

/-- src/aes_bitslice.rs:340-356 `keygen_128`. -/
def Bitslice.keygen_128 (expanded_keys_at : Nat) (key : Vector U8 16) : B (Vector (Aes.Bitslice.Block Cfg.endian) 11) := do
  let expanded_keys : Ref := ⟨expanded_keys_at, (11 * 16), ← allocate expanded_keys_at (Vector.replicate (11 * 16) 0#8)⟩
  let columns ← from_raw_parts_mut (← mut_ptr expanded_keys) 44
  (enumerate (chunksExact 4 key.toList)).forM fun (i, chunk) => do
    let rhs := (fromNe Cfg.endian 32 (← liftM (arrayTryFrom 4 chunk)))
    put Cfg.endian columns i rhs
  (rangeStep 0 40 4).forM fun i => do
    let rhs := (((← get Cfg.endian columns (← liftM (Aes.Profile.uadd Cfg.profile i 0))) ^^^ ((RustSrc.Bitslice.sub_word (← get Cfg.endian columns (← liftM (Aes.Profile.uadd Cfg.profile i 3)))).rotateRight 8)) ^^^ (← liftM (idx RustSrc.Bitslice.RCON (i / 4))))
    put Cfg.endian columns (← liftM (Aes.Profile.uadd Cfg.profile i 4)) rhs
    let rhs := ((← get Cfg.endian columns (← liftM (Aes.Profile.uadd Cfg.profile i 1))) ^^^ (← get Cfg.endian columns (← liftM (Aes.Profile.uadd Cfg.profile i 4))))
    put Cfg.endian columns (← liftM (Aes.Profile.uadd Cfg.profile i 5)) rhs
    let rhs := ((← get Cfg.endian columns (← liftM (Aes.Profile.uadd Cfg.profile i 2))) ^^^ (← get Cfg.endian columns (← liftM (Aes.Profile.uadd Cfg.profile i 5))))
    put Cfg.endian columns (← liftM (Aes.Profile.uadd Cfg.profile i 6)) rhs
    let rhs := ((← get Cfg.endian columns (← liftM (Aes.Profile.uadd Cfg.profile i 3))) ^^^ (← get Cfg.endian columns (← liftM (Aes.Profile.uadd Cfg.profile i 6))))
    put Cfg.endian columns (← liftM (Aes.Profile.uadd Cfg.profile i 7)) rhs
  let result : (Vector (Aes.Bitslice.Block Cfg.endian) 11) := (Layout.ofBytes (← read expanded_keys.tag expanded_keys.ptr (11 * 16)))
  deallocate expanded_keys.tag expanded_keys.ptr expanded_keys.len
  pure result

/-- src/aes_bitslice.rs:358-381 `keygen_192`. -/
def Bitslice.keygen_192 (expanded_keys_at : Nat) (key : Vector U8 24) : B (Vector (Aes.Bitslice.Block Cfg.endian) 13) := do
  let expanded_keys : Ref := ⟨expanded_keys_at, (13 * 16), ← allocate expanded_keys_at (Vector.replicate (13 * 16) 0#8)⟩
  let columns ← from_raw_parts_mut (← mut_ptr expanded_keys) 52
  (enumerate (chunksExact 4 key.toList)).forM fun (i, chunk) => do
    let rhs := (fromNe Cfg.endian 32 (← liftM (arrayTryFrom 4 chunk)))
    put Cfg.endian columns i rhs
  (rangeStep 0 42 6).forM fun i => do
    let rhs := (((← get Cfg.endian columns (← liftM (Aes.Profile.uadd Cfg.profile i 0))) ^^^ ((RustSrc.Bitslice.sub_word (← get Cfg.endian columns (← liftM (Aes.Profile.uadd Cfg.profile i 5)))).rotateRight 8)) ^^^ (← liftM (idx RustSrc.Bitslice.RCON (i / 6))))
    put Cfg.endian columns (← liftM (Aes.Profile.uadd Cfg.profile i 6)) rhs
    let rhs := ((← get Cfg.endian columns (← liftM (Aes.Profile.uadd Cfg.profile i 1))) ^^^ (← get Cfg.endian columns (← liftM (Aes.Profile.uadd Cfg.profile i 6))))
    put Cfg.endian columns (← liftM (Aes.Profile.uadd Cfg.profile i 7)) rhs
    let rhs := ((← get Cfg.endian columns (← liftM (Aes.Profile.uadd Cfg.profile i 2))) ^^^ (← get Cfg.endian columns (← liftM (Aes.Profile.uadd Cfg.profile i 7))))
    put Cfg.endian columns (← liftM (Aes.Profile.uadd Cfg.profile i 8)) rhs
    let rhs := ((← get Cfg.endian columns (← liftM (Aes.Profile.uadd Cfg.profile i 3))) ^^^ (← get Cfg.endian columns (← liftM (Aes.Profile.uadd Cfg.profile i 8))))
    put Cfg.endian columns (← liftM (Aes.Profile.uadd Cfg.profile i 9)) rhs
    let rhs := ((← get Cfg.endian columns (← liftM (Aes.Profile.uadd Cfg.profile i 4))) ^^^ (← get Cfg.endian columns (← liftM (Aes.Profile.uadd Cfg.profile i 9))))
    put Cfg.endian columns (← liftM (Aes.Profile.uadd Cfg.profile i 10)) rhs
    let rhs := ((← get Cfg.endian columns (← liftM (Aes.Profile.uadd Cfg.profile i 5))) ^^^ (← get Cfg.endian columns (← liftM (Aes.Profile.uadd Cfg.profile i 10))))
    put Cfg.endian columns (← liftM (Aes.Profile.uadd Cfg.profile i 11)) rhs
  let rhs := (((← get Cfg.endian columns 42) ^^^ ((RustSrc.Bitslice.sub_word (← get Cfg.endian columns 47)).rotateRight 8)) ^^^ (← liftM (idx RustSrc.Bitslice.RCON 7)))
  put Cfg.endian columns 48 rhs
  let rhs := ((← get Cfg.endian columns 43) ^^^ (← get Cfg.endian columns 48))
  put Cfg.endian columns 49 rhs
  let rhs := ((← get Cfg.endian columns 44) ^^^ (← get Cfg.endian columns 49))
  put Cfg.endian columns 50 rhs
  let rhs := ((← get Cfg.endian columns 45) ^^^ (← get Cfg.endian columns 50))
  put Cfg.endian columns 51 rhs
  let result : (Vector (Aes.Bitslice.Block Cfg.endian) 13) := (Layout.ofBytes (← read expanded_keys.tag expanded_keys.ptr (13 * 16)))
  deallocate expanded_keys.tag expanded_keys.ptr expanded_keys.len
  pure result

/-- src/aes_bitslice.rs:383-408 `keygen_256`. -/
def Bitslice.keygen_256 (expanded_keys_at : Nat) (key : Vector U8 32) : B (Vector (Aes.Bitslice.Block Cfg.endian) 15) := do
  let expanded_keys : Ref := ⟨expanded_keys_at, (15 * 16), ← allocate expanded_keys_at (Vector.replicate (15 * 16) 0#8)⟩
  let columns ← from_raw_parts_mut (← mut_ptr expanded_keys) 60
  (enumerate (chunksExact 4 key.toList)).forM fun (i, chunk) => do
    let rhs := (fromNe Cfg.endian 32 (← liftM (arrayTryFrom 4 chunk)))
    put Cfg.endian columns i rhs
  (rangeStep 0 48 8).forM fun i => do
    let rhs := (((← get Cfg.endian columns (← liftM (Aes.Profile.uadd Cfg.profile i 0))) ^^^ ((RustSrc.Bitslice.sub_word (← get Cfg.endian columns (← liftM (Aes.Profile.uadd Cfg.profile i 7)))).rotateRight 8)) ^^^ (← liftM (idx RustSrc.Bitslice.RCON (i / 8))))
    put Cfg.endian columns (← liftM (Aes.Profile.uadd Cfg.profile i 8)) rhs
    let rhs := ((← get Cfg.endian columns (← liftM (Aes.Profile.uadd Cfg.profile i 1))) ^^^ (← get Cfg.endian columns (← liftM (Aes.Profile.uadd Cfg.profile i 8))))
    put Cfg.endian columns (← liftM (Aes.Profile.uadd Cfg.profile i 9)) rhs
    let rhs := ((← get Cfg.endian columns (← liftM (Aes.Profile.uadd Cfg.profile i 2))) ^^^ (← get Cfg.endian columns (← liftM (Aes.Profile.uadd Cfg.profile i 9))))
    put Cfg.endian columns (← liftM (Aes.Profile.uadd Cfg.profile i 10)) rhs
    let rhs := ((← get Cfg.endian columns (← liftM (Aes.Profile.uadd Cfg.profile i 3))) ^^^ (← get Cfg.endian columns (← liftM (Aes.Profile.uadd Cfg.profile i 10))))
    put Cfg.endian columns (← liftM (Aes.Profile.uadd Cfg.profile i 11)) rhs
    let rhs := ((← get Cfg.endian columns (← liftM (Aes.Profile.uadd Cfg.profile i 4))) ^^^ (RustSrc.Bitslice.sub_word (← get Cfg.endian columns (← liftM (Aes.Profile.uadd Cfg.profile i 11)))))
    put Cfg.endian columns (← liftM (Aes.Profile.uadd Cfg.profile i 12)) rhs
    let rhs := ((← get Cfg.endian columns (← liftM (Aes.Profile.uadd Cfg.profile i 5))) ^^^ (← get Cfg.endian columns (← liftM (Aes.Profile.uadd Cfg.profile i 12))))
    put Cfg.endian columns (← liftM (Aes.Profile.uadd Cfg.profile i 13)) rhs
    let rhs := ((← get Cfg.endian columns (← liftM (Aes.Profile.uadd Cfg.profile i 6))) ^^^ (← get Cfg.endian columns (← liftM (Aes.Profile.uadd Cfg.profile i 13))))
    put Cfg.endian columns (← liftM (Aes.Profile.uadd Cfg.profile i 14)) rhs
    let rhs := ((← get Cfg.endian columns (← liftM (Aes.Profile.uadd Cfg.profile i 7))) ^^^ (← get Cfg.endian columns (← liftM (Aes.Profile.uadd Cfg.profile i 14))))
    put Cfg.endian columns (← liftM (Aes.Profile.uadd Cfg.profile i 15)) rhs
  let rhs := (((← get Cfg.endian columns 48) ^^^ ((RustSrc.Bitslice.sub_word (← get Cfg.endian columns 55)).rotateRight 8)) ^^^ (← liftM (idx RustSrc.Bitslice.RCON 6)))
  put Cfg.endian columns 56 rhs
  let rhs := ((← get Cfg.endian columns 49) ^^^ (← get Cfg.endian columns 56))
  put Cfg.endian columns 57 rhs
  let rhs := ((← get Cfg.endian columns 50) ^^^ (← get Cfg.endian columns 57))
  put Cfg.endian columns 58 rhs
  let rhs := ((← get Cfg.endian columns 51) ^^^ (← get Cfg.endian columns 58))
  put Cfg.endian columns 59 rhs
  let result : (Vector (Aes.Bitslice.Block Cfg.endian) 15) := (Layout.ofBytes (← read expanded_keys.tag expanded_keys.ptr (15 * 16)))
  deallocate expanded_keys.tag expanded_keys.ptr expanded_keys.len
  pure result

/-- src/aes_x86.rs:23-25 `from`. -/
def X86.from_array (value_at : Nat) (value : Vector U8 16) : B Aes.X86.Block := do
  let value : Ref := ⟨value_at, 16, ← allocate value_at value⟩
  let result : Aes.X86.Block := (⟨(← _mm_loadu_si128 (← const_ptr (← borrow value)))⟩ : Aes.X86.Block)
  deallocate value.tag value.ptr value.len
  pure result

/-- src/aes_x86.rs:72-75 `store_to`. -/
def X86.store_to (self : Aes.X86.Block) (dst : Ref) : B Unit := call fun c => do
  let dst ← argument c dst
  require (decide (dst.len ≥ 16))
  _mm_storeu_si128 (← mut_ptr dst) self.val

/-- src/aes_arm.rs:24-26 `from`. -/
def Arm.from_array (value_at : Nat) (value : Vector U8 16) : B (Aes.Arm.Block Cfg.is32) := do
  let value : Ref := ⟨value_at, 16, ← allocate value_at value⟩
  let result : (Aes.Arm.Block Cfg.is32) := (⟨(← vld1q_u8 (← const_ptr (← borrow value)))⟩ : (Aes.Arm.Block Cfg.is32))
  deallocate value.tag value.ptr value.len
  pure result

/-- src/aes_arm.rs:73-76 `store_to`. -/
def Arm.store_to (self : (Aes.Arm.Block Cfg.is32)) (dst : Ref) : B Unit := call fun c => do
  let dst ← argument c dst
  require (decide (dst.len ≥ 16))
  vst1q_u8 (← mut_ptr dst) self.val

/-- src/aes_arm.rs:171-192 `keygen_128`. -/
def Arm.keygen_128 (expanded_keys_at : Nat) (key : Vector U8 16) : B (Vector (Aes.Arm.Block Cfg.is32) 11) := do
  let expanded_keys : Ref := ⟨expanded_keys_at, (11 * 16), ← allocate expanded_keys_at (Vector.replicate (11 * 16) 0#8)⟩
  let keys_ptr := (← mut_ptr expanded_keys)
  let columns ← from_raw_parts_mut keys_ptr 44
  (enumerate (chunksExact 4 key.toList)).forM fun (i, chunk) => do
    let rhs := (fromNe Cfg.endian 32 (← liftM (arrayTryFrom 4 chunk)))
    put Cfg.endian columns i rhs
  (rangeStep 0 40 4).forM fun i => do
    let rhs := (((← get Cfg.endian columns (← liftM (Aes.Profile.uadd Cfg.profile i 0))) ^^^ ((RustSrc.Arm.sub_word (← get Cfg.endian columns (← liftM (Aes.Profile.uadd Cfg.profile i 3)))).rotateRight 8)) ^^^ (← liftM (idx RustSrc.Arm.RCON (i / 4))))
    put Cfg.endian columns (← liftM (Aes.Profile.uadd Cfg.profile i 4)) rhs
    let rhs := ((← get Cfg.endian columns (← liftM (Aes.Profile.uadd Cfg.profile i 1))) ^^^ (← get Cfg.endian columns (← liftM (Aes.Profile.uadd Cfg.profile i 4))))
    put Cfg.endian columns (← liftM (Aes.Profile.uadd Cfg.profile i 5)) rhs
    let rhs := ((← get Cfg.endian columns (← liftM (Aes.Profile.uadd Cfg.profile i 2))) ^^^ (← get Cfg.endian columns (← liftM (Aes.Profile.uadd Cfg.profile i 5))))
    put Cfg.endian columns (← liftM (Aes.Profile.uadd Cfg.profile i 6)) rhs
    let rhs := ((← get Cfg.endian columns (← liftM (Aes.Profile.uadd Cfg.profile i 3))) ^^^ (← get Cfg.endian columns (← liftM (Aes.Profile.uadd Cfg.profile i 6))))
    put Cfg.endian columns (← liftM (Aes.Profile.uadd Cfg.profile i 7)) rhs
  let result : (Vector (Aes.Arm.Block Cfg.is32) 11) := (Layout.ofBytes (← read expanded_keys.tag expanded_keys.ptr (11 * 16)))
  deallocate expanded_keys.tag expanded_keys.ptr expanded_keys.len
  pure result

/-- src/aes_arm.rs:194-222 `keygen_192`. -/
def Arm.keygen_192 (expanded_keys_at : Nat) (key : Vector U8 24) : B (Vector (Aes.Arm.Block Cfg.is32) 13) := do
  let expanded_keys : Ref := ⟨expanded_keys_at, (13 * 16), ← allocate expanded_keys_at (Vector.replicate (13 * 16) 0#8)⟩
  let keys_ptr := (← mut_ptr expanded_keys)
  let columns ← from_raw_parts_mut keys_ptr 52
  (enumerate (chunksExact 4 key.toList)).forM fun (i, chunk) => do
    let rhs := (fromNe Cfg.endian 32 (← liftM (arrayTryFrom 4 chunk)))
    put Cfg.endian columns i rhs
  (rangeStep 0 42 6).forM fun i => do
    let rhs := (((← get Cfg.endian columns (← liftM (Aes.Profile.uadd Cfg.profile i 0))) ^^^ ((RustSrc.Arm.sub_word (← get Cfg.endian columns (← liftM (Aes.Profile.uadd Cfg.profile i 5)))).rotateRight 8)) ^^^ (← liftM (idx RustSrc.Arm.RCON (i / 6))))
    put Cfg.endian columns (← liftM (Aes.Profile.uadd Cfg.profile i 6)) rhs
    let rhs := ((← get Cfg.endian columns (← liftM (Aes.Profile.uadd Cfg.profile i 1))) ^^^ (← get Cfg.endian columns (← liftM (Aes.Profile.uadd Cfg.profile i 6))))
    put Cfg.endian columns (← liftM (Aes.Profile.uadd Cfg.profile i 7)) rhs
    let rhs := ((← get Cfg.endian columns (← liftM (Aes.Profile.uadd Cfg.profile i 2))) ^^^ (← get Cfg.endian columns (← liftM (Aes.Profile.uadd Cfg.profile i 7))))
    put Cfg.endian columns (← liftM (Aes.Profile.uadd Cfg.profile i 8)) rhs
    let rhs := ((← get Cfg.endian columns (← liftM (Aes.Profile.uadd Cfg.profile i 3))) ^^^ (← get Cfg.endian columns (← liftM (Aes.Profile.uadd Cfg.profile i 8))))
    put Cfg.endian columns (← liftM (Aes.Profile.uadd Cfg.profile i 9)) rhs
    let rhs := ((← get Cfg.endian columns (← liftM (Aes.Profile.uadd Cfg.profile i 4))) ^^^ (← get Cfg.endian columns (← liftM (Aes.Profile.uadd Cfg.profile i 9))))
    put Cfg.endian columns (← liftM (Aes.Profile.uadd Cfg.profile i 10)) rhs
    let rhs := ((← get Cfg.endian columns (← liftM (Aes.Profile.uadd Cfg.profile i 5))) ^^^ (← get Cfg.endian columns (← liftM (Aes.Profile.uadd Cfg.profile i 10))))
    put Cfg.endian columns (← liftM (Aes.Profile.uadd Cfg.profile i 11)) rhs
  let rhs := (((← get Cfg.endian columns 42) ^^^ ((RustSrc.Arm.sub_word (← get Cfg.endian columns 47)).rotateRight 8)) ^^^ (← liftM (idx RustSrc.Arm.RCON 7)))
  put Cfg.endian columns 48 rhs
  let rhs := ((← get Cfg.endian columns 43) ^^^ (← get Cfg.endian columns 48))
  put Cfg.endian columns 49 rhs
  let rhs := ((← get Cfg.endian columns 44) ^^^ (← get Cfg.endian columns 49))
  put Cfg.endian columns 50 rhs
  let rhs := ((← get Cfg.endian columns 45) ^^^ (← get Cfg.endian columns 50))
  put Cfg.endian columns 51 rhs
  let result : (Vector (Aes.Arm.Block Cfg.is32) 13) := (Layout.ofBytes (← read expanded_keys.tag expanded_keys.ptr (13 * 16)))
  deallocate expanded_keys.tag expanded_keys.ptr expanded_keys.len
  pure result

/-- src/aes_arm.rs:224-254 `keygen_256`. -/
def Arm.keygen_256 (expanded_keys_at : Nat) (key : Vector U8 32) : B (Vector (Aes.Arm.Block Cfg.is32) 15) := do
  let expanded_keys : Ref := ⟨expanded_keys_at, (15 * 16), ← allocate expanded_keys_at (Vector.replicate (15 * 16) 0#8)⟩
  let keys_ptr := (← mut_ptr expanded_keys)
  let columns ← from_raw_parts_mut keys_ptr 60
  (enumerate (chunksExact 4 key.toList)).forM fun (i, chunk) => do
    let rhs := (fromNe Cfg.endian 32 (← liftM (arrayTryFrom 4 chunk)))
    put Cfg.endian columns i rhs
  (rangeStep 0 48 8).forM fun i => do
    let rhs := (((← get Cfg.endian columns (← liftM (Aes.Profile.uadd Cfg.profile i 0))) ^^^ ((RustSrc.Arm.sub_word (← get Cfg.endian columns (← liftM (Aes.Profile.uadd Cfg.profile i 7)))).rotateRight 8)) ^^^ (← liftM (idx RustSrc.Arm.RCON (i / 8))))
    put Cfg.endian columns (← liftM (Aes.Profile.uadd Cfg.profile i 8)) rhs
    let rhs := ((← get Cfg.endian columns (← liftM (Aes.Profile.uadd Cfg.profile i 1))) ^^^ (← get Cfg.endian columns (← liftM (Aes.Profile.uadd Cfg.profile i 8))))
    put Cfg.endian columns (← liftM (Aes.Profile.uadd Cfg.profile i 9)) rhs
    let rhs := ((← get Cfg.endian columns (← liftM (Aes.Profile.uadd Cfg.profile i 2))) ^^^ (← get Cfg.endian columns (← liftM (Aes.Profile.uadd Cfg.profile i 9))))
    put Cfg.endian columns (← liftM (Aes.Profile.uadd Cfg.profile i 10)) rhs
    let rhs := ((← get Cfg.endian columns (← liftM (Aes.Profile.uadd Cfg.profile i 3))) ^^^ (← get Cfg.endian columns (← liftM (Aes.Profile.uadd Cfg.profile i 10))))
    put Cfg.endian columns (← liftM (Aes.Profile.uadd Cfg.profile i 11)) rhs
    let rhs := ((← get Cfg.endian columns (← liftM (Aes.Profile.uadd Cfg.profile i 4))) ^^^ (RustSrc.Arm.sub_word (← get Cfg.endian columns (← liftM (Aes.Profile.uadd Cfg.profile i 11)))))
    put Cfg.endian columns (← liftM (Aes.Profile.uadd Cfg.profile i 12)) rhs
    let rhs := ((← get Cfg.endian columns (← liftM (Aes.Profile.uadd Cfg.profile i 5))) ^^^ (← get Cfg.endian columns (← liftM (Aes.Profile.uadd Cfg.profile i 12))))
    put Cfg.endian columns (← liftM (Aes.Profile.uadd Cfg.profile i 13)) rhs
    let rhs := ((← get Cfg.endian columns (← liftM (Aes.Profile.uadd Cfg.profile i 6))) ^^^ (← get Cfg.endian columns (← liftM (Aes.Profile.uadd Cfg.profile i 13))))
    put Cfg.endian columns (← liftM (Aes.Profile.uadd Cfg.profile i 14)) rhs
    let rhs := ((← get Cfg.endian columns (← liftM (Aes.Profile.uadd Cfg.profile i 7))) ^^^ (← get Cfg.endian columns (← liftM (Aes.Profile.uadd Cfg.profile i 14))))
    put Cfg.endian columns (← liftM (Aes.Profile.uadd Cfg.profile i 15)) rhs
  let rhs := (((← get Cfg.endian columns 48) ^^^ ((RustSrc.Arm.sub_word (← get Cfg.endian columns 55)).rotateRight 8)) ^^^ (← liftM (idx RustSrc.Arm.RCON 6)))
  put Cfg.endian columns 56 rhs
  let rhs := ((← get Cfg.endian columns 49) ^^^ (← get Cfg.endian columns 56))
  put Cfg.endian columns 57 rhs
  let rhs := ((← get Cfg.endian columns 50) ^^^ (← get Cfg.endian columns 57))
  put Cfg.endian columns 58 rhs
  let rhs := ((← get Cfg.endian columns 51) ^^^ (← get Cfg.endian columns 58))
  put Cfg.endian columns 59 rhs
  let result : (Vector (Aes.Arm.Block Cfg.is32) 15) := (Layout.ofBytes (← read expanded_keys.tag expanded_keys.ptr (15 * 16)))
  deallocate expanded_keys.tag expanded_keys.ptr expanded_keys.len
  pure result

/-- src/aes_riscv64.rs:76-81 `store_to`. -/
def Riscv64.store_to (self : Aes.Riscv64.Block) (dst : Ref) : B Unit := call fun c => do
  let dst ← argument c dst
  require (decide (dst.len ≥ 16))
  write_unaligned (← mut_ptr dst) self

/-- src/aes_riscv32.rs:107-112 `store_to`. -/
def Riscv32.store_to (self : Aes.Riscv32.Block) (dst : Ref) : B Unit := call fun c => do
  let dst ← argument c dst
  require (decide (dst.len ≥ 16))
  write_unaligned (← mut_ptr dst) self

/-- src/aes_riscv32.rs:196-214 `keygen_128`. -/
def Riscv32.keygen_128 (expanded_keys_at : Nat) (key : Vector U8 16) : B (Vector Aes.Riscv32.Block 11) := do
  let expanded_keys : Ref := ⟨expanded_keys_at, (11 * 16), ← allocate expanded_keys_at (Vector.replicate (11 * 16) 0#8)⟩
  let keys_ptr := (← mut_ptr expanded_keys)
  let columns ← from_raw_parts_mut keys_ptr 44
  (enumerate (chunksExact 4 key.toList)).forM fun (i, chunk) => do
    let rhs := (fromNe Cfg.endian 32 (← liftM (arrayTryFrom 4 chunk)))
    put Cfg.endian columns i rhs
  (rangeStep 0 40 4).forM fun i => do
    let rhs := (RustSrc.Riscv32.sub_word ((← get Cfg.endian columns (← liftM (Aes.Profile.uadd Cfg.profile i 0))) ^^^ (← liftM (idx RustSrc.Riscv32.RCON (i / 4)))) (← get Cfg.endian columns (← liftM (Aes.Profile.uadd Cfg.profile i 3))))
    put Cfg.endian columns (← liftM (Aes.Profile.uadd Cfg.profile i 4)) rhs
    let rhs := ((← get Cfg.endian columns (← liftM (Aes.Profile.uadd Cfg.profile i 1))) ^^^ (← get Cfg.endian columns (← liftM (Aes.Profile.uadd Cfg.profile i 4))))
    put Cfg.endian columns (← liftM (Aes.Profile.uadd Cfg.profile i 5)) rhs
    let rhs := ((← get Cfg.endian columns (← liftM (Aes.Profile.uadd Cfg.profile i 2))) ^^^ (← get Cfg.endian columns (← liftM (Aes.Profile.uadd Cfg.profile i 5))))
    put Cfg.endian columns (← liftM (Aes.Profile.uadd Cfg.profile i 6)) rhs
    let rhs := ((← get Cfg.endian columns (← liftM (Aes.Profile.uadd Cfg.profile i 3))) ^^^ (← get Cfg.endian columns (← liftM (Aes.Profile.uadd Cfg.profile i 6))))
    put Cfg.endian columns (← liftM (Aes.Profile.uadd Cfg.profile i 7)) rhs
  let result : (Vector Aes.Riscv32.Block 11) := (Layout.ofBytes (← read expanded_keys.tag expanded_keys.ptr (11 * 16)))
  deallocate expanded_keys.tag expanded_keys.ptr expanded_keys.len
  pure result

/-- src/aes_riscv32.rs:216-241 `keygen_192`. -/
def Riscv32.keygen_192 (expanded_keys_at : Nat) (key : Vector U8 24) : B (Vector Aes.Riscv32.Block 13) := do
  let expanded_keys : Ref := ⟨expanded_keys_at, (13 * 16), ← allocate expanded_keys_at (Vector.replicate (13 * 16) 0#8)⟩
  let keys_ptr := (← mut_ptr expanded_keys)
  let columns ← from_raw_parts_mut keys_ptr 52
  (enumerate (chunksExact 4 key.toList)).forM fun (i, chunk) => do
    let rhs := (fromNe Cfg.endian 32 (← liftM (arrayTryFrom 4 chunk)))
    put Cfg.endian columns i rhs
  (rangeStep 0 42 6).forM fun i => do
    let rhs := (RustSrc.Riscv32.sub_word ((← get Cfg.endian columns (← liftM (Aes.Profile.uadd Cfg.profile i 0))) ^^^ (← liftM (idx RustSrc.Riscv32.RCON (i / 6)))) (← get Cfg.endian columns (← liftM (Aes.Profile.uadd Cfg.profile i 5))))
    put Cfg.endian columns (← liftM (Aes.Profile.uadd Cfg.profile i 6)) rhs
    let rhs := ((← get Cfg.endian columns (← liftM (Aes.Profile.uadd Cfg.profile i 1))) ^^^ (← get Cfg.endian columns (← liftM (Aes.Profile.uadd Cfg.profile i 6))))
    put Cfg.endian columns (← liftM (Aes.Profile.uadd Cfg.profile i 7)) rhs
    let rhs := ((← get Cfg.endian columns (← liftM (Aes.Profile.uadd Cfg.profile i 2))) ^^^ (← get Cfg.endian columns (← liftM (Aes.Profile.uadd Cfg.profile i 7))))
    put Cfg.endian columns (← liftM (Aes.Profile.uadd Cfg.profile i 8)) rhs
    let rhs := ((← get Cfg.endian columns (← liftM (Aes.Profile.uadd Cfg.profile i 3))) ^^^ (← get Cfg.endian columns (← liftM (Aes.Profile.uadd Cfg.profile i 8))))
    put Cfg.endian columns (← liftM (Aes.Profile.uadd Cfg.profile i 9)) rhs
    let rhs := ((← get Cfg.endian columns (← liftM (Aes.Profile.uadd Cfg.profile i 4))) ^^^ (← get Cfg.endian columns (← liftM (Aes.Profile.uadd Cfg.profile i 9))))
    put Cfg.endian columns (← liftM (Aes.Profile.uadd Cfg.profile i 10)) rhs
    let rhs := ((← get Cfg.endian columns (← liftM (Aes.Profile.uadd Cfg.profile i 5))) ^^^ (← get Cfg.endian columns (← liftM (Aes.Profile.uadd Cfg.profile i 10))))
    put Cfg.endian columns (← liftM (Aes.Profile.uadd Cfg.profile i 11)) rhs
  let rhs := (RustSrc.Riscv32.sub_word ((← get Cfg.endian columns 42) ^^^ (← liftM (idx RustSrc.Riscv32.RCON 7))) (← get Cfg.endian columns 47))
  put Cfg.endian columns 48 rhs
  let rhs := ((← get Cfg.endian columns 43) ^^^ (← get Cfg.endian columns 48))
  put Cfg.endian columns 49 rhs
  let rhs := ((← get Cfg.endian columns 44) ^^^ (← get Cfg.endian columns 49))
  put Cfg.endian columns 50 rhs
  let rhs := ((← get Cfg.endian columns 45) ^^^ (← get Cfg.endian columns 50))
  put Cfg.endian columns 51 rhs
  let result : (Vector Aes.Riscv32.Block 13) := (Layout.ofBytes (← read expanded_keys.tag expanded_keys.ptr (13 * 16)))
  deallocate expanded_keys.tag expanded_keys.ptr expanded_keys.len
  pure result

/-- src/aes_riscv32.rs:243-270 `keygen_256`. -/
def Riscv32.keygen_256 (expanded_keys_at : Nat) (key : Vector U8 32) : B (Vector Aes.Riscv32.Block 15) := do
  let expanded_keys : Ref := ⟨expanded_keys_at, (15 * 16), ← allocate expanded_keys_at (Vector.replicate (15 * 16) 0#8)⟩
  let keys_ptr := (← mut_ptr expanded_keys)
  let columns ← from_raw_parts_mut keys_ptr 60
  (enumerate (chunksExact 4 key.toList)).forM fun (i, chunk) => do
    let rhs := (fromNe Cfg.endian 32 (← liftM (arrayTryFrom 4 chunk)))
    put Cfg.endian columns i rhs
  (rangeStep 0 48 8).forM fun i => do
    let rhs := (RustSrc.Riscv32.sub_word ((← get Cfg.endian columns (← liftM (Aes.Profile.uadd Cfg.profile i 0))) ^^^ (← liftM (idx RustSrc.Riscv32.RCON (i / 8)))) ((← get Cfg.endian columns (← liftM (Aes.Profile.uadd Cfg.profile i 7))).rotateRight 8))
    put Cfg.endian columns (← liftM (Aes.Profile.uadd Cfg.profile i 8)) rhs
    let rhs := ((← get Cfg.endian columns (← liftM (Aes.Profile.uadd Cfg.profile i 1))) ^^^ (← get Cfg.endian columns (← liftM (Aes.Profile.uadd Cfg.profile i 8))))
    put Cfg.endian columns (← liftM (Aes.Profile.uadd Cfg.profile i 9)) rhs
    let rhs := ((← get Cfg.endian columns (← liftM (Aes.Profile.uadd Cfg.profile i 2))) ^^^ (← get Cfg.endian columns (← liftM (Aes.Profile.uadd Cfg.profile i 9))))
    put Cfg.endian columns (← liftM (Aes.Profile.uadd Cfg.profile i 10)) rhs
    let rhs := ((← get Cfg.endian columns (← liftM (Aes.Profile.uadd Cfg.profile i 3))) ^^^ (← get Cfg.endian columns (← liftM (Aes.Profile.uadd Cfg.profile i 10))))
    put Cfg.endian columns (← liftM (Aes.Profile.uadd Cfg.profile i 11)) rhs
    let rhs := (RustSrc.Riscv32.sub_word (← get Cfg.endian columns (← liftM (Aes.Profile.uadd Cfg.profile i 4))) (← get Cfg.endian columns (← liftM (Aes.Profile.uadd Cfg.profile i 11))))
    put Cfg.endian columns (← liftM (Aes.Profile.uadd Cfg.profile i 12)) rhs
    let rhs := ((← get Cfg.endian columns (← liftM (Aes.Profile.uadd Cfg.profile i 5))) ^^^ (← get Cfg.endian columns (← liftM (Aes.Profile.uadd Cfg.profile i 12))))
    put Cfg.endian columns (← liftM (Aes.Profile.uadd Cfg.profile i 13)) rhs
    let rhs := ((← get Cfg.endian columns (← liftM (Aes.Profile.uadd Cfg.profile i 6))) ^^^ (← get Cfg.endian columns (← liftM (Aes.Profile.uadd Cfg.profile i 13))))
    put Cfg.endian columns (← liftM (Aes.Profile.uadd Cfg.profile i 14)) rhs
    let rhs := ((← get Cfg.endian columns (← liftM (Aes.Profile.uadd Cfg.profile i 7))) ^^^ (← get Cfg.endian columns (← liftM (Aes.Profile.uadd Cfg.profile i 14))))
    put Cfg.endian columns (← liftM (Aes.Profile.uadd Cfg.profile i 15)) rhs
  let rhs := (RustSrc.Riscv32.sub_word ((← get Cfg.endian columns 48) ^^^ (← liftM (idx RustSrc.Riscv32.RCON 6))) (← get Cfg.endian columns 55))
  put Cfg.endian columns 56 rhs
  let rhs := ((← get Cfg.endian columns 49) ^^^ (← get Cfg.endian columns 56))
  put Cfg.endian columns 57 rhs
  let rhs := ((← get Cfg.endian columns 50) ^^^ (← get Cfg.endian columns 57))
  put Cfg.endian columns 58 rhs
  let rhs := ((← get Cfg.endian columns 51) ^^^ (← get Cfg.endian columns 58))
  put Cfg.endian columns 59 rhs
  let result : (Vector Aes.Riscv32.Block 15) := (Layout.ofBytes (← read expanded_keys.tag expanded_keys.ptr (15 * 16)))
  deallocate expanded_keys.tag expanded_keys.ptr expanded_keys.len
  pure result

/-- src/aesdefault_x2.rs:76-81 `new`. -/
def DefaultX2.new {T : Type} (new : Vector U8 16 → M T) (value_at : Nat) (value : Vector U8 32) : B (Aes.DefaultX2.X2 T) := do
  let value : Ref := ⟨value_at, 32, ← allocate value_at value⟩
  let result : (Aes.DefaultX2.X2 T) := (⟨(← liftM (new (← array_from_slice 16 (← borrow value) 0))), (← liftM (new (← array_from_slice 16 (← borrow value) 16)))⟩ : (Aes.DefaultX2.X2 T))
  deallocate value.tag value.ptr value.len
  pure result

/-- src/aesdefault_x2.rs:84-88 `store_to`. -/
def DefaultX2.store_to {T : Type} (store_to : T → Ref → B Unit) (self : (Aes.DefaultX2.X2 T)) (dst : Ref) : B Unit := call fun c => do
  let dst ← argument c dst
  require (decide (dst.len ≥ 32))
  store_to self.f0 (← index_mut dst 0 16)
  store_to self.f1 (← index_mut dst 16 dst.len)

/-- src/aesdefault_x4.rs:99-104 `new`. -/
def DefaultX4.new {T : Type} (new : Vector U8 32 → M T) (value_at : Nat) (value : Vector U8 64) : B (Aes.DefaultX4.X4 T) := do
  let value : Ref := ⟨value_at, 64, ← allocate value_at value⟩
  let result : (Aes.DefaultX4.X4 T) := (⟨(← liftM (new (← array_from_slice 32 (← borrow value) 0))), (← liftM (new (← array_from_slice 32 (← borrow value) 32)))⟩ : (Aes.DefaultX4.X4 T))
  deallocate value.tag value.ptr value.len
  pure result

/-- src/aesdefault_x4.rs:107-111 `store_to`. -/
def DefaultX4.store_to {T : Type} (store_to : T → Ref → B Unit) (self : (Aes.DefaultX4.X4 T)) (dst : Ref) : B Unit := call fun c => do
  let dst ← argument c dst
  require (decide (dst.len ≥ 64))
  store_to self.f0 (← index_mut dst 0 32)
  store_to self.f1 (← index_mut dst 32 dst.len)

/-- src/aesni_x2.rs:25-27 `from`. -/
def NiX2.from_array (value_at : Nat) (value : Vector U8 32) : B Aes.NiX2.X2 := do
  let value : Ref := ⟨value_at, 32, ← allocate value_at value⟩
  let result : Aes.NiX2.X2 := (⟨(← _mm256_loadu_si256 (← const_ptr (← borrow value)))⟩ : Aes.NiX2.X2)
  deallocate value.tag value.ptr value.len
  pure result

/-- src/aesni_x2.rs:98-101 `store_to`. -/
def NiX2.store_to (self : Aes.NiX2.X2) (dst : Ref) : B Unit := call fun c => do
  let dst ← argument c dst
  require (decide (dst.len ≥ 32))
  _mm256_storeu_si256 (← mut_ptr dst) self.val

/-- src/aesni_x4.rs:26-28 `from`. -/
def NiX4.from_array (value_at : Nat) (value : Vector U8 64) : B Aes.NiX4.X4 := do
  let value : Ref := ⟨value_at, 64, ← allocate value_at value⟩
  let result : Aes.NiX4.X4 := (⟨(← _mm512_loadu_si512 (← const_ptr (← borrow value)))⟩ : Aes.NiX4.X4)
  deallocate value.tag value.ptr value.len
  pure result

/-- src/aesni_x4.rs:134-137 `store_to`. -/
def NiX4.store_to (self : Aes.NiX4.X4) (dst : Ref) : B Unit := call fun c => do
  let dst ← argument c dst
  require (decide (dst.len ≥ 64))
  _mm512_storeu_si512 (← mut_ptr dst) self.val

end RustSrc.Ptr
