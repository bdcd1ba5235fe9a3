import Verif.Model.LeakLib
/-
The leakage version of src/aes_x86.rs, src/aesni_x2.rs, src/aesni_x4.rs, src/aes_arm.rs, src/aes_riscv64.rs and
src/aes_riscv32.rs (see the models of these files, and Verif/Model/Leak.lean). An intrinsic on registers is one event that
carries its name and nothing of its operands: that the CPU executes these instructions in a time that does not depend on
their operands is an assumption about the CPU (for the AES instructions, documented by the vendors: Intel DOIT, Arm DIT, the
RISC-V Zkt extension). Constants (`setzero`, `set1(-1)`, immediates) are no events; moves between registers and `transmute`
are `move`s.
-/
namespace Aes.Leak

namespace X86
open Rust IsaX86
open Aes.X86 (Block)

/-- src/aes_x86.rs:66-69 `new`. -/
def new (value : Vector U8 16) : L Block := emit .move ⟨value⟩
/-- src/aes_x86.rs:21-26 `From<[u8; 16]>`. -/
def from_bytes (value : Vector U8 16) : L Block := do pure ⟨← Leak.rawRead value.toList 0 16⟩
/-- src/aes_x86.rs:28-35 `BitAnd`. -/
def bitand (self rhs : Block) : L Block := ins "pand" ⟨IsaX86.and self.val rhs.val⟩
/-- src/aes_x86.rs:37-44 `BitOr`. -/
def bitor (self rhs : Block) : L Block := ins "por" ⟨IsaX86.or self.val rhs.val⟩
/-- src/aes_x86.rs:46-53 `BitXor`. -/
def bitxor (self rhs : Block) : L Block := ins "pxor" ⟨IsaX86.xor self.val rhs.val⟩
/-- src/aes_x86.rs:55-62 `Not`. -/
def not (self : Block) : L Block := ins "pxor" ⟨IsaX86.xor self.val set1_minus1⟩
/-- src/aes_x86.rs:72-75 `store_to`. -/
def store_to (self : Block) (dst : List U8) : L (List U8) := do
  Leak.assert (dst.length ≥ 16)
  Leak.rawWrite dst self.val
/-- src/aes_x86.rs:78-80 `zero`. -/
def zero : L Block := pure ⟨setzero⟩
/-- src/aes_x86.rs:84-86 `is_zero`. -/
def is_zero (self : Block) : L Bool := do
  let z ← ins "ptest" (testz self.val self.val)
  emit .cmp (z == 1)
/-- src/aes_x86.rs:12-17 `PartialEq`. -/
def eq (self other : Block) : L Bool := do is_zero (← bitxor self other)
/-- src/aes_x86.rs:90-92 `enc`. -/
def enc (self round_key : Block) : L Block := ins "aesenc" ⟨aesenc self.val round_key.val⟩
/-- src/aes_x86.rs:96-98 `dec`. -/
def dec (self round_key : Block) : L Block := ins "aesdec" ⟨aesdec self.val round_key.val⟩
/-- src/aes_x86.rs:102-104 `enc_last`. -/
def enc_last (self round_key : Block) : L Block := ins "aesenclast" ⟨aesenclast self.val round_key.val⟩
/-- src/aes_x86.rs:108-110 `dec_last`. -/
def dec_last (self round_key : Block) : L Block := ins "aesdeclast" ⟨aesdeclast self.val round_key.val⟩
/-- src/aes_x86.rs:114-121 `mc`. -/
def mc (self : Block) : L Block := do
  let x ← ins "aesdeclast" (aesdeclast self.val setzero)
  ins "aesenc" ⟨aesenc x setzero⟩
/-- src/aes_x86.rs:125-127 `imc`. -/
def imc (self : Block) : L Block := ins "aesimc" ⟨aesimc self.val⟩
/-- src/aes_x86.rs:130-134 `mix`. -/
def mix (vector : M128i) : L M128i := do
  let x ← ins "pslldq" (bslli 4 vector)
  let temp ← ins "pxor" (IsaX86.xor vector x)
  let y ← ins "pslldq" (bslli 8 temp)
  ins "pxor" (IsaX86.xor temp y)
/-- `_mm_shuffle_epi32::<IMM>(_mm_aeskeygenassist_si128::<RCON>(key))`, as in all the `keyexp_*`. -/
def assist (IMM RCON : U8) (key : M128i) : L M128i := do
  let x ← ins "aeskeygenassist" (aeskeygenassist RCON key)
  ins "pshufd" (shuffle_epi32 IMM x)
/-- src/aes_x86.rs:138-145 `keyexp_128`. -/
def keyexp_128 (RCON : U8) (prev_rkey : Block) : L Block := do
  let a ← mix prev_rkey.val
  let b ← assist 0xff RCON prev_rkey.val
  ins "pxor" ⟨IsaX86.xor a b⟩
/-- src/aes_x86.rs:151-158 `fwd`. -/
def fwd (RCON : U8) (state1 state2 : Block) : L (Block × Block) := do
  let a ← mix state1.val
  let b ← assist 0x55 RCON state2.val
  let state1 ← ins "pxor" (IsaX86.xor a b)
  let c ← ins "pslldq" (bslli 4 state2.val)
  let state2 ← ins "pxor" (IsaX86.xor state2.val c)
  let d ← ins "pshufd" (shuffle_epi32 0xff state1)
  let state2 ← ins "pxor" (IsaX86.xor state2 d)
  pure (⟨state1⟩, ⟨state2⟩)
/-- src/aes_x86.rs:147-171 `keyexp_192`. -/
def keyexp_192 (RCON1 RCON2 : U8) (state : Block × Block) : L ((Block × Block) × (Block × Block × Block)) := do
  let s ← fwd RCON1 state.1 state.2
  let key1 ← ins "punpcklqdq" (unpacklo_epi64 state.2.val s.1.val)
  let key2 ← ins "palignr" (alignr_epi8 8 s.2.val s.1.val)
  let s ← fwd RCON2 s.1 s.2
  pure (s, (⟨key1⟩, ⟨key2⟩, s.1))
/-- src/aes_x86.rs:173-180 `keyexp_256_1`. -/
def keyexp_256_1 (RCON : U8) (prev0 prev1 : Block) : L Block := do
  let a ← mix prev0.val
  let b ← assist 0xff RCON prev1.val
  ins "pxor" ⟨IsaX86.xor a b⟩
/-- src/aes_x86.rs:182-189 `keyexp_256_2`. -/
def keyexp_256_2 (prev0 prev1 : Block) : L Block := do
  let a ← mix prev0.val
  let b ← assist 0xaa 0 prev1.val
  ins "pxor" ⟨IsaX86.xor a b⟩
/-- src/aes_x86.rs:191-207 `keygen_128`. -/
def keygen_128 (key : Vector U8 16) : L (Vector Block 11) := do
  let key0 ← from_bytes key
  let key1 ← keyexp_128 0x01 key0
  let key2 ← keyexp_128 0x02 key1
  let key3 ← keyexp_128 0x04 key2
  let key4 ← keyexp_128 0x08 key3
  let key5 ← keyexp_128 0x10 key4
  let key6 ← keyexp_128 0x20 key5
  let key7 ← keyexp_128 0x40 key6
  let key8 ← keyexp_128 0x80 key7
  let key9 ← keyexp_128 0x1b key8
  let key10 ← keyexp_128 0x36 key9
  pure #v[key0, key1, key2, key3, key4, key5, key6, key7, key8, key9, key10]
/-- src/aes_x86.rs:209-225 `keygen_192` (`fill(0)` writes zeros). -/
def keygen_192 (key : Vector U8 24) : L (Vector Block 13) := do
  let key0 ← Leak.unwrap (← Leak.try_from_slice 16 from_bytes (← Leak.sliceTo key.toList 16))
  let key_block : List U8 := List.replicate 16 0
  let key_block ← Leak.onTo key_block 8 fun s => do Leak.copyFromSlice s (← Leak.sliceFrom key.toList 16)
  let key_block ← Leak.onFrom key_block 8 fun s => ⟨writes s.length, .ok (List.replicate s.length 0)⟩
  let b ← from_bytes (← ⟨[], Rust.arrayTryFrom 16 key_block⟩)
  let r1 ← keyexp_192 0x01 0x02 (key0, b)
  let r2 ← keyexp_192 0x04 0x08 r1.1
  let r3 ← keyexp_192 0x10 0x20 r2.1
  let r4 ← keyexp_192 0x40 0x80 r3.1
  pure #v[key0, r1.2.1, r1.2.2.1, r1.2.2.2, r2.2.1, r2.2.2.1, r2.2.2.2, r3.2.1, r3.2.2.1, r3.2.2.2, r4.2.1, r4.2.2.1, r4.2.2.2]
/-- src/aes_x86.rs:227-249 `keygen_256`. -/
def keygen_256 (key : Vector U8 32) : L (Vector Block 15) := do
  let key0 ← Leak.unwrap (← Leak.try_from_slice 16 from_bytes (← Leak.sliceTo key.toList 16))
  let key1 ← Leak.unwrap (← Leak.try_from_slice 16 from_bytes (← Leak.sliceFrom key.toList 16))
  let key2 ← keyexp_256_1 0x01 key0 key1
  let key3 ← keyexp_256_2 key1 key2
  let key4 ← keyexp_256_1 0x02 key2 key3
  let key5 ← keyexp_256_2 key3 key4
  let key6 ← keyexp_256_1 0x04 key4 key5
  let key7 ← keyexp_256_2 key5 key6
  let key8 ← keyexp_256_1 0x08 key6 key7
  let key9 ← keyexp_256_2 key7 key8
  let key10 ← keyexp_256_1 0x10 key8 key9
  let key11 ← keyexp_256_2 key9 key10
  let key12 ← keyexp_256_1 0x20 key10 key11
  let key13 ← keyexp_256_2 key11 key12
  let key14 ← keyexp_256_1 0x40 key12 key13
  pure #v[key0, key1, key2, key3, key4, key5, key6, key7, key8, key9, key10, key11, key12, key13, key14]
/-- The API of the module. -/
instance : LBlock Block where
  new := new
  from_bytes := from_bytes
  store_to := store_to
  zero := zero
  is_zero := is_zero
  eq := eq
  bitand := bitand
  bitor := bitor
  bitxor := bitxor
  not := not
  enc := enc
  dec := dec
  enc_last := enc_last
  dec_last := dec_last
  pre := none
  mc := mc
  imc := imc
  keygen_128 := keygen_128
  keygen_192 := keygen_192
  keygen_256 := keygen_256
end X86

namespace NiX2
open Rust IsaX86
open Aes.NiX2 (X2)

/-- src/aesni_x2.rs:23-28 `From<[u8; 32]>`. -/
def from_bytes (value : Vector U8 32) : L X2 := do pure ⟨← Leak.rawRead value.toList 0 32⟩
/-- src/aesni_x2.rs:56-63 `BitAnd`. -/
def bitand (self rhs : X2) : L X2 := ins "vpand ymm" ⟨IsaX86.and self.val rhs.val⟩
/-- src/aesni_x2.rs:64-71 `BitOr`. -/
def bitor (self rhs : X2) : L X2 := ins "vpor ymm" ⟨IsaX86.or self.val rhs.val⟩
/-- src/aesni_x2.rs:73-80 `BitXor`. -/
def bitxor (self rhs : X2) : L X2 := ins "vpxor ymm" ⟨IsaX86.xor self.val rhs.val⟩
/-- src/aesni_x2.rs:82-89 `Not`. -/
def not (self : X2) : L X2 := ins "vpxor ymm" ⟨IsaX86.xor self.val set1_minus1⟩
/-- src/aesni_x2.rs:93-95 `new`. -/
def new (value : Vector U8 32) : L X2 := emit .move ⟨value⟩
/-- src/aesni_x2.rs:98-101 `store_to`. -/
def store_to (self : X2) (dst : List U8) : L (List U8) := do
  Leak.assert (dst.length ≥ 32)
  Leak.rawWrite dst self.val
/-- src/aesni_x2.rs:104-106 `zero`. -/
def zero : L X2 := pure ⟨setzero⟩
/-- src/aesni_x2.rs:110-112 `is_zero`. -/
def is_zero (self : X2) : L Bool := do
  let z ← ins "vptest ymm" (testz self.val self.val)
  emit .cmp (z == 1)
/-- src/aesni_x2.rs:14-19 `PartialEq`. -/
def eq (self other : X2) : L Bool := do is_zero (← bitxor self other)
/-- src/aesni_x2.rs:116-118 `enc`. -/
def enc (self round_key : X2) : L X2 := ins "vaesenc ymm" ⟨lanewise2 aesenc self.val round_key.val⟩
/-- src/aesni_x2.rs:122-124 `dec`. -/
def dec (self round_key : X2) : L X2 := ins "vaesdec ymm" ⟨lanewise2 aesdec self.val round_key.val⟩
/-- src/aesni_x2.rs:128-130 `enc_last`. -/
def enc_last (self round_key : X2) : L X2 := ins "vaesenclast ymm" ⟨lanewise2 aesenclast self.val round_key.val⟩
/-- src/aesni_x2.rs:134-136 `dec_last`. -/
def dec_last (self round_key : X2) : L X2 := ins "vaesdeclast ymm" ⟨lanewise2 aesdeclast self.val round_key.val⟩
/-- The API of the module. -/
instance : LVec X2 32 where
  new := new
  from_bytes := from_bytes
  store_to := store_to
  zero := zero
  is_zero := is_zero
  eq := eq
  bitand := bitand
  bitor := bitor
  bitxor := bitxor
  not := not
  enc := enc
  dec := dec
  enc_last := enc_last
  dec_last := dec_last
  pre := none
end NiX2

namespace NiX4
open Rust IsaX86
open Aes.NiX4 (X4)

/-- src/aesni_x4.rs:24-29 `From<[u8; 64]>`. -/
def from_bytes (value : Vector U8 64) : L X4 := do pure ⟨← Leak.rawRead value.toList 0 64⟩
/-- src/aesni_x4.rs:91-98 `BitAnd`. -/
def bitand (self rhs : X4) : L X4 := ins "vpandq zmm" ⟨IsaX86.and self.val rhs.val⟩
/-- src/aesni_x4.rs:100-107 `BitOr`. -/
def bitor (self rhs : X4) : L X4 := ins "vporq zmm" ⟨IsaX86.or self.val rhs.val⟩
/-- src/aesni_x4.rs:109-116 `BitXor`. -/
def bitxor (self rhs : X4) : L X4 := ins "vpxorq zmm" ⟨IsaX86.xor self.val rhs.val⟩
/-- src/aesni_x4.rs:118-125 `Not`. -/
def not (self : X4) : L X4 := ins "vpxorq zmm" ⟨IsaX86.xor self.val set1_minus1⟩
/-- src/aesni_x4.rs:129-131 `new`. -/
def new (value : Vector U8 64) : L X4 := emit .move ⟨value⟩
/-- src/aesni_x4.rs:134-137 `store_to`. -/
def store_to (self : X4) (dst : List U8) : L (List U8) := do
  Leak.assert (dst.length ≥ 64)
  Leak.rawWrite dst self.val
/-- src/aesni_x4.rs:140-142 `zero`. -/
def zero : L X4 := pure ⟨setzero⟩
/-- src/aesni_x4.rs:146-148 `is_zero`. -/
def is_zero (self : X4) : L Bool := do
  let z ← ins "vptestmq zmm" (test_epi64_mask self.val self.val)
  emit .cmp (z == 0#8)
/-- src/aesni_x4.rs:15-20 `PartialEq`. -/
def eq (self other : X4) : L Bool := do
  let m ← ins "vpcmpeqq zmm" (cmpeq_epi64_mask self.val other.val)
  emit .cmp (m == 0b11111111#8)
/-- src/aesni_x4.rs:152-154 `enc`. -/
def enc (self round_key : X4) : L X4 := ins "vaesenc zmm" ⟨lanewise4 aesenc self.val round_key.val⟩
/-- src/aesni_x4.rs:158-160 `dec`. -/
def dec (self round_key : X4) : L X4 := ins "vaesdec zmm" ⟨lanewise4 aesdec self.val round_key.val⟩
/-- src/aesni_x4.rs:164-166 `enc_last`. -/
def enc_last (self round_key : X4) : L X4 := ins "vaesenclast zmm" ⟨lanewise4 aesenclast self.val round_key.val⟩
/-- src/aesni_x4.rs:170-172 `dec_last`. -/
def dec_last (self round_key : X4) : L X4 := ins "vaesdeclast zmm" ⟨lanewise4 aesdeclast self.val round_key.val⟩
/-- The API of the module. -/
instance : LVec X4 64 where
  new := new
  from_bytes := from_bytes
  store_to := store_to
  zero := zero
  is_zero := is_zero
  eq := eq
  bitand := bitand
  bitor := bitor
  bitxor := bitxor
  not := not
  enc := enc
  dec := dec
  enc_last := enc_last
  dec_last := dec_last
  pre := none
end NiX4

namespace Arm
open Rust IsaArm
open Aes.Arm (Block)

section
variable {is32 : Bool}

/-- src/aes_arm.rs:67-70 `new`. -/
def new (value : Vector U8 16) : L (Block is32) := emit .move ⟨value⟩
/-- src/aes_arm.rs:22-27 `From<[u8; 16]>`. -/
def from_bytes (value : Vector U8 16) : L (Block is32) := do pure ⟨← Leak.rawRead value.toList 0 16⟩
/-- src/aes_arm.rs:29-36 `BitAnd`. -/
def bitand (self rhs : Block is32) : L (Block is32) := ins "and" ⟨vandq self.val rhs.val⟩
/-- src/aes_arm.rs:38-45 `BitOr`. -/
def bitor (self rhs : Block is32) : L (Block is32) := ins "orr" ⟨vorrq self.val rhs.val⟩
/-- src/aes_arm.rs:47-54 `BitXor`. -/
def bitxor (self rhs : Block is32) : L (Block is32) := ins "eor" ⟨veorq self.val rhs.val⟩
/-- src/aes_arm.rs:56-63 `Not`. -/
def not (self : Block is32) : L (Block is32) := ins "mvn" ⟨vmvnq self.val⟩
/-- src/aes_arm.rs:73-76 `store_to`. -/
def store_to (self : Block is32) (dst : List U8) : L (List U8) := do
  Leak.assert (dst.length ≥ 16)
  Leak.rawWrite dst self.val
/-- src/aes_arm.rs:79-81 `zero`. -/
def zero : L (Block is32) := pure ⟨vdupq_n_u8 0⟩
/-- src/aes_arm.rs:85-100 `is_zero`, both `cfg` branches. -/
def is_zero (self : Block is32) : L Bool :=
  match is32 with
  | false => do
    Leak.eqw (← Leak.or (← ins "umov" (lane_u64 0 self.val)) (← ins "umov" (lane_u64 1 self.val))) 0
  | true => do
    Leak.eqw (← Leak.or (← Leak.or (← Leak.or (← ins "umov" (lane_u32 0 self.val)) (← ins "umov" (lane_u32 1 self.val)))
      (← ins "umov" (lane_u32 2 self.val))) (← ins "umov" (lane_u32 3 self.val))) 0
/-- src/aes_arm.rs:13-18 `PartialEq`. -/
def eq (self other : Block is32) : L Bool := do is_zero (← bitxor self other)
/-- src/aes_arm.rs:103-105 `aese`. -/
def aese (self round_key : Block is32) : L (Block is32) := ins "aese" ⟨vaeseq self.val round_key.val⟩
/-- src/aes_arm.rs:119-121 `aesd`. -/
def aesd (self round_key : Block is32) : L (Block is32) := ins "aesd" ⟨vaesdq self.val round_key.val⟩
/-- src/aes_arm.rs:148-150 `mc`. -/
def mc (self : Block is32) : L (Block is32) := ins "aesmc" ⟨vaesmcq self.val⟩
/-- src/aes_arm.rs:154-156 `imc`. -/
def imc (self : Block is32) : L (Block is32) := ins "aesimc" ⟨vaesimcq self.val⟩
/-- src/aes_arm.rs:108-110 `pre_enc`. -/
def pre_enc (self round_key : Block is32) : L (Block is32) := do mc (← aese self round_key)
/-- src/aes_arm.rs:114-116 `enc`. -/
def enc (self round_key : Block is32) : L (Block is32) := do bitxor (← pre_enc self (← zero)) round_key
/-- src/aes_arm.rs:124-126 `pre_dec`. -/
def pre_dec (self round_key : Block is32) : L (Block is32) := do imc (← aesd self round_key)
/-- src/aes_arm.rs:130-132 `dec`. -/
def dec (self round_key : Block is32) : L (Block is32) := do bitxor (← pre_dec self (← zero)) round_key
/-- src/aes_arm.rs:136-138 `enc_last`. -/
def enc_last (self round_key : Block is32) : L (Block is32) := do bitxor (← aese self (← zero)) round_key
/-- src/aes_arm.rs:142-144 `dec_last`. -/
def dec_last (self round_key : Block is32) : L (Block is32) := do bitxor (← aesd self (← zero)) round_key
end

/-- src/aes_arm.rs:159-167 `sub_word`. -/
def sub_word (input : U32) : L U32 := do
  let input ← ins "dup" (vdupq_n_u32_bytes input)
  let sub_input ← ins "aese" (vaeseq input (vdupq_n_u8 0))
  ins "umov" (lane_u32 0 sub_input)
/-- src/aes_arm.rs:183-184 (206-207, 215, 236-237, 247). -/
def first {n : Nat} (columns : Vector U32 n) (i j r : Nat) : L U32 := do
  Leak.xor (← Leak.xor (← idx .data columns i) (← Leak.rotr (← sub_word (← idx .data columns j)) 8)) (← idx .RCON Aes.Columns.RCON r)
/-- src/aes_arm.rs:241. -/
def fifth {n : Nat} (columns : Vector U32 n) (i j : Nat) : L U32 := do Leak.xor (← idx .data columns i) (← sub_word (← idx .data columns j))
/-- src/aes_arm.rs:171-192 `keygen_128`. -/
def keygen_128 (is32 : Bool) (key : Vector U8 16) : L (Vector (Block is32) 11) := do
  pure (Aes.Arm.as_blocks is32 (N := 11) (← Columns.columns_128 first .little key))
/-- src/aes_arm.rs:194-222 `keygen_192`. -/
def keygen_192 (is32 : Bool) (key : Vector U8 24) : L (Vector (Block is32) 13) := do
  pure (Aes.Arm.as_blocks is32 (N := 13) (← Columns.columns_192 first .little key))
/-- src/aes_arm.rs:224-254 `keygen_256`. -/
def keygen_256 (is32 : Bool) (key : Vector U8 32) : L (Vector (Block is32) 15) := do
  pure (Aes.Arm.as_blocks is32 (N := 15) (← Columns.columns_256 first fifth first .little key))
/-- The API of the module. -/
instance (is32 : Bool) : LBlock (Block is32) where
  new := new
  from_bytes := from_bytes
  store_to := store_to
  zero := zero
  is_zero := is_zero
  eq := eq
  bitand := bitand
  bitor := bitor
  bitxor := bitxor
  not := not
  enc := enc
  dec := dec
  enc_last := enc_last
  dec_last := dec_last
  pre := some ⟨pre_enc, pre_dec⟩
  mc := mc
  imc := imc
  keygen_128 := keygen_128 is32
  keygen_192 := keygen_192 is32
  keygen_256 := keygen_256 is32
end Arm

namespace Riscv64
open Rust IsaRiscv
open Aes.Riscv64 (Block memory)

/-- src/aes_riscv64.rs:71-73 `new`. -/
def new (value : Vector U8 16) : L Block :=
  emit .move ⟨fromLe 64 (Vector.ofFn fun i : Fin 8 => value[i.val]), fromLe 64 (Vector.ofFn fun i : Fin 8 => value[8 + i.val])⟩
/-- src/aes_riscv64.rs:26-31 `From<[u8; 16]>`. -/
def from_bytes (value : Vector U8 16) : L Block := new value
/-- src/aes_riscv64.rs:33-40 `BitAnd`. -/
def bitand (self rhs : Block) : L Block := do pure ⟨← Leak.and self.d0 rhs.d0, ← Leak.and self.d1 rhs.d1⟩
/-- src/aes_riscv64.rs:42-49 `BitOr`. -/
def bitor (self rhs : Block) : L Block := do pure ⟨← Leak.or self.d0 rhs.d0, ← Leak.or self.d1 rhs.d1⟩
/-- src/aes_riscv64.rs:51-58 `BitXor`. -/
def bitxor (self rhs : Block) : L Block := do pure ⟨← Leak.xor self.d0 rhs.d0, ← Leak.xor self.d1 rhs.d1⟩
/-- src/aes_riscv64.rs:60-67 `Not`. -/
def not (self : Block) : L Block := do pure ⟨← Leak.not self.d0, ← Leak.not self.d1⟩
/-- src/aes_riscv64.rs:76-81 `store_to`. -/
def store_to (self : Block) (dst : List U8) : L (List U8) := do
  Leak.assert (dst.length ≥ 16)
  Leak.rawWrite dst (memory self)
/-- src/aes_riscv64.rs:84-86 `zero`. -/
def zero : L Block := pure ⟨0, 0⟩
/-- src/aes_riscv64.rs:90-92 `is_zero`. -/
def is_zero (self : Block) : L Bool := do Leak.eqw (← Leak.or self.d0 self.d1) 0
/-- src/aes_riscv64.rs:21 derived `PartialEq`: field by field, stopping at the first difference. -/
def eq (self other : Block) : L Bool := andAlso (Leak.eqw self.d0 other.d0) (Leak.eqw self.d1 other.d1)
/-- src/aes_riscv64.rs:96-103 `enc`. -/
def enc (self round_key : Block) : L Block := do
  pure ⟨← Leak.xor (← ins "aes64esm" (aes64esm self.d0 self.d1)) round_key.d0,
    ← Leak.xor (← ins "aes64esm" (aes64esm self.d1 self.d0)) round_key.d1⟩
/-- src/aes_riscv64.rs:107-114 `dec`. -/
def dec (self round_key : Block) : L Block := do
  pure ⟨← Leak.xor (← ins "aes64dsm" (aes64dsm self.d0 self.d1)) round_key.d0,
    ← Leak.xor (← ins "aes64dsm" (aes64dsm self.d1 self.d0)) round_key.d1⟩
/-- src/aes_riscv64.rs:118-125 `enc_last`. -/
def enc_last (self round_key : Block) : L Block := do
  pure ⟨← Leak.xor (← ins "aes64es" (aes64es self.d0 self.d1)) round_key.d0,
    ← Leak.xor (← ins "aes64es" (aes64es self.d1 self.d0)) round_key.d1⟩
/-- src/aes_riscv64.rs:129-136 `dec_last`. -/
def dec_last (self round_key : Block) : L Block := do
  pure ⟨← Leak.xor (← ins "aes64ds" (aes64ds self.d0 self.d1)) round_key.d0,
    ← Leak.xor (← ins "aes64ds" (aes64ds self.d1 self.d0)) round_key.d1⟩
/-- src/aes_riscv64.rs:140-145 `mc`. -/
def mc (self : Block) : L Block := do
  let tmp0 ← ins "aes64ds" (aes64ds self.d0 self.d1)
  let tmp1 ← ins "aes64ds" (aes64ds self.d1 self.d0)
  pure ⟨← ins "aes64esm" (aes64esm tmp0 tmp1), ← ins "aes64esm" (aes64esm tmp1 tmp0)⟩
/-- src/aes_riscv64.rs:149-151 `imc`. -/
def imc (self : Block) : L Block := do pure ⟨← ins "aes64im" (aes64im self.d0), ← ins "aes64im" (aes64im self.d1)⟩
/-- `aes64ks1i` followed by `aes64ks2`, as in all the `keyexp_*`. -/
def ks (rnum : Nat) (a b : U64) : L U64 := do
  let x ← ins "aes64ks1i" (aes64ks1i a rnum)
  ins "aes64ks2" (aes64ks2 x b)
/-- src/aes_riscv64.rs:155-158 `keyexp_128`. -/
def keyexp_128 (RNUM : Nat) (prev : Block) : L Block := do
  let tmp ← ks RNUM prev.d1 prev.d0
  pure ⟨tmp, ← ins "aes64ks2" (aes64ks2 tmp prev.d1)⟩
/-- src/aes_riscv64.rs:161-166 `keyexp_192`. -/
def keyexp_192 (RNUM : Nat) (state : U64 × U64 × U64) : L (U64 × U64 × U64) := do
  let s0 ← ks RNUM state.2.2 state.1
  let s1 ← ins "aes64ks2" (aes64ks2 s0 state.2.1)
  let s2 ← ins "aes64ks2" (aes64ks2 s1 state.2.2)
  pure (s0, s1, s2)
/-- src/aes_riscv64.rs:169-172 `keyexp_256_1`. -/
def keyexp_256_1 (RNUM : Nat) (prev0 prev1 : Block) : L Block := do
  let tmp ← ks RNUM prev1.d1 prev0.d0
  pure ⟨tmp, ← ins "aes64ks2" (aes64ks2 tmp prev0.d1)⟩
/-- src/aes_riscv64.rs:175-178 `keyexp_256_2`. -/
def keyexp_256_2 (prev0 prev1 : Block) : L Block := do
  let tmp ← ks 10 prev1.d1 prev0.d0
  pure ⟨tmp, ← ins "aes64ks2" (aes64ks2 tmp prev0.d1)⟩
/-- `u64::from_le_bytes(key[lo..lo+8].try_into().unwrap())`, src/aes_riscv64.rs:204-206. -/
def load_u64 (key : List U8) (lo : Nat) : L U64 := do
  let s ← Leak.sliceFrom (← Leak.sliceTo key (lo + 8)) lo
  emit .move (fromLe 64 (← Leak.arrayTryFrom 8 s))
/-- src/aes_riscv64.rs:180-198 `keygen_128`. -/
def keygen_128 (key : Vector U8 16) : L (Vector Block 11) := do
  let key0 ← from_bytes key
  let key1 ← keyexp_128 0 key0
  let key2 ← keyexp_128 1 key1
  let key3 ← keyexp_128 2 key2
  let key4 ← keyexp_128 3 key3
  let key5 ← keyexp_128 4 key4
  let key6 ← keyexp_128 5 key5
  let key7 ← keyexp_128 6 key6
  let key8 ← keyexp_128 7 key7
  let key9 ← keyexp_128 8 key8
  let key10 ← keyexp_128 9 key9
  pure #v[key0, key1, key2, key3, key4, key5, key6, key7, key8, key9, key10]
/-- src/aes_riscv64.rs:201-223 `keygen_192`. The final `mem::transmute` of a nested tuple of `u64`s is
modelled with the tuple laid out in declaration order (Rust leaves tuple layout unspecified; for tuples of
equal `u64`s rustc uses declaration order — an assumption recorded in DESIGN.md). -/
def keygen_192 (key : Vector U8 24) : L (Vector Block 13) := do
  let state0 : U64 × U64 × U64 := (← load_u64 key.toList 0, ← load_u64 key.toList 8, ← load_u64 key.toList 16)
  let state1 ← keyexp_192 0 state0
  let state2 ← keyexp_192 1 state1
  let state3 ← keyexp_192 2 state2
  let state4 ← keyexp_192 3 state3
  let state5 ← keyexp_192 4 state4
  let state6 ← keyexp_192 5 state5
  let state7 ← keyexp_192 6 state6
  let state24 ← ks 7 state7.2.2 state7.1
  let state25 ← ins "aes64ks2" (aes64ks2 state24 state7.2.1)
  emit .move #v[⟨state0.1, state0.2.1⟩, ⟨state0.2.2, state1.1⟩, ⟨state1.2.1, state1.2.2⟩,
    ⟨state2.1, state2.2.1⟩, ⟨state2.2.2, state3.1⟩, ⟨state3.2.1, state3.2.2⟩,
    ⟨state4.1, state4.2.1⟩, ⟨state4.2.2, state5.1⟩, ⟨state5.2.1, state5.2.2⟩,
    ⟨state6.1, state6.2.1⟩, ⟨state6.2.2, state7.1⟩, ⟨state7.2.1, state7.2.2⟩,
    ⟨state24, state25⟩]
/-- src/aes_riscv64.rs:225-249 `keygen_256`. -/
def keygen_256 (key : Vector U8 32) : L (Vector Block 15) := do
  let key0 ← Leak.unwrap (← Leak.try_from_slice 16 from_bytes (← Leak.sliceTo key.toList 16))
  let key1 ← Leak.unwrap (← Leak.try_from_slice 16 from_bytes (← Leak.sliceFrom key.toList 16))
  let key2 ← keyexp_256_1 0 key0 key1
  let key3 ← keyexp_256_2 key1 key2
  let key4 ← keyexp_256_1 1 key2 key3
  let key5 ← keyexp_256_2 key3 key4
  let key6 ← keyexp_256_1 2 key4 key5
  let key7 ← keyexp_256_2 key5 key6
  let key8 ← keyexp_256_1 3 key6 key7
  let key9 ← keyexp_256_2 key7 key8
  let key10 ← keyexp_256_1 4 key8 key9
  let key11 ← keyexp_256_2 key9 key10
  let key12 ← keyexp_256_1 5 key10 key11
  let key13 ← keyexp_256_2 key11 key12
  let key14 ← keyexp_256_1 6 key12 key13
  pure #v[key0, key1, key2, key3, key4, key5, key6, key7, key8, key9, key10, key11, key12, key13, key14]
/-- The API of the module. -/
instance : LBlock Block where
  new := new
  from_bytes := from_bytes
  store_to := store_to
  zero := zero
  is_zero := is_zero
  eq := eq
  bitand := bitand
  bitor := bitor
  bitxor := bitxor
  not := not
  enc := enc
  dec := dec
  enc_last := enc_last
  dec_last := dec_last
  pre := none
  mc := mc
  imc := imc
  keygen_128 := keygen_128
  keygen_192 := keygen_192
  keygen_256 := keygen_256
end Riscv64

namespace Riscv32
open Rust IsaRiscv
open Aes.Riscv32 (Block memory)

/-- src/aes_riscv32.rs:22-32 `inner` of the macro `outer!`. -/
def inner (s : String) (name : U32 → U32 → Nat → U32) (t0 t1 t2 t3 rk : U32) : L U32 := do
  let value ← ins s (name rk t0 0)
  let value ← ins s (name value t1 1)
  let value ← ins s (name value t2 2)
  ins s (name value t3 3)
/-- src/aes_riscv32.rs:20-40 macro `outer!`. -/
def outer (s : String) (name : U32 → U32 → Nat → U32) (msg rk : Block) : L Block := do
  pure ⟨← inner s name msg.w0 msg.w1 msg.w2 msg.w3 rk.w0,
   ← inner s name msg.w1 msg.w2 msg.w3 msg.w0 rk.w1,
   ← inner s name msg.w2 msg.w3 msg.w0 msg.w1 rk.w2,
   ← inner s name msg.w3 msg.w0 msg.w1 msg.w2 rk.w3⟩
/-- src/aes_riscv32.rs:102-104 `new`. -/
def new (value : Vector U8 16) : L Block := ⟨[.op .move], Aes.Riscv32.new value⟩
/-- src/aes_riscv32.rs:42-47 `From<[u8; 16]>`. -/
def from_bytes (value : Vector U8 16) : L Block := new value
/-- src/aes_riscv32.rs:49-61. -/
def bitand (self rhs : Block) : L Block := do
  pure ⟨← Leak.and self.w0 rhs.w0, ← Leak.and self.w1 rhs.w1, ← Leak.and self.w2 rhs.w2, ← Leak.and self.w3 rhs.w3⟩
/-- src/aes_riscv32.rs:63-75. -/
def bitor (self rhs : Block) : L Block := do
  pure ⟨← Leak.or self.w0 rhs.w0, ← Leak.or self.w1 rhs.w1, ← Leak.or self.w2 rhs.w2, ← Leak.or self.w3 rhs.w3⟩
/-- src/aes_riscv32.rs:77-89. -/
def bitxor (self rhs : Block) : L Block := do
  pure ⟨← Leak.xor self.w0 rhs.w0, ← Leak.xor self.w1 rhs.w1, ← Leak.xor self.w2 rhs.w2, ← Leak.xor self.w3 rhs.w3⟩
/-- src/aes_riscv32.rs:91-98 `Not`. -/
def not (self : Block) : L Block := do
  pure ⟨← Leak.not self.w0, ← Leak.not self.w1, ← Leak.not self.w2, ← Leak.not self.w3⟩
/-- src/aes_riscv32.rs:107-112 `store_to`. -/
def store_to (self : Block) (dst : List U8) : L (List U8) := do
  Leak.assert (dst.length ≥ 16)
  Leak.rawWrite dst (memory self)
/-- src/aes_riscv32.rs:115-117 `zero`. -/
def zero : L Block := pure ⟨0, 0, 0, 0⟩
/-- src/aes_riscv32.rs:121-123 `is_zero`. -/
def is_zero (self : Block) : L Bool := do
  Leak.eqw (← Leak.or (← Leak.or (← Leak.or self.w0 self.w1) self.w2) self.w3) 0
/-- src/aes_riscv32.rs:4 derived `PartialEq`: field by field, stopping at the first difference. -/
def eq (self other : Block) : L Bool :=
  andAlso (Leak.eqw self.w0 other.w0) (andAlso (Leak.eqw self.w1 other.w1) (andAlso (Leak.eqw self.w2 other.w2) (Leak.eqw self.w3 other.w3)))
/-- src/aes_riscv32.rs:126-128 `pre_enc`. -/
def pre_enc (self round_key : Block) : L Block := outer "aes32esmi" aes32esmi self round_key
/-- src/aes_riscv32.rs:132-134 `enc`. -/
def enc (self round_key : Block) : L Block := do bitxor (← pre_enc self (← zero)) round_key
/-- src/aes_riscv32.rs:137-139 `pre_enc_last`. -/
def pre_enc_last (self round_key : Block) : L Block := outer "aes32esi" aes32esi self round_key
/-- src/aes_riscv32.rs:143-145 `enc_last`. -/
def enc_last (self round_key : Block) : L Block := do bitxor (← pre_enc_last self (← zero)) round_key
/-- src/aes_riscv32.rs:148-150 `pre_dec`. -/
def pre_dec (self round_key : Block) : L Block := outer "aes32dsmi" aes32dsmi self round_key
/-- src/aes_riscv32.rs:154-156 `dec`. -/
def dec (self round_key : Block) : L Block := do bitxor (← pre_dec self (← zero)) round_key
/-- src/aes_riscv32.rs:159-161 `pre_dec_last`. -/
def pre_dec_last (self round_key : Block) : L Block := outer "aes32dsi" aes32dsi self round_key
/-- src/aes_riscv32.rs:165-167 `dec_last`. -/
def dec_last (self round_key : Block) : L Block := do bitxor (← pre_dec_last self (← zero)) round_key
/-- src/aes_riscv32.rs:171-173 `mc`. -/
def mc (self : Block) : L Block := do enc (← pre_dec_last self (← zero)) (← zero)
/-- src/aes_riscv32.rs:177-179 `imc`. -/
def imc (self : Block) : L Block := do dec (← pre_enc_last self (← zero)) (← zero)
/-- src/aes_riscv32.rs:185-194 `sub_word`. -/
def sub_word (xor word : U32) : L U32 := inner "aes32esi" aes32esi word word word word xor
/-- src/aes_riscv32.rs:207 (227, 235, 264). -/
def first {n : Nat} (columns : Vector U32 n) (i j r : Nat) : L U32 := do
  sub_word (← Leak.xor (← idx .data columns i) (← idx .RCON Aes.Columns.RCON r)) (← idx .data columns j)
/-- src/aes_riscv32.rs:254. -/
def first_256 {n : Nat} (columns : Vector U32 n) (i j r : Nat) : L U32 := do
  sub_word (← Leak.xor (← idx .data columns i) (← idx .RCON Aes.Columns.RCON r)) (← Leak.rotr (← idx .data columns j) 8)
/-- src/aes_riscv32.rs:258. -/
def fifth {n : Nat} (columns : Vector U32 n) (i j : Nat) : L U32 := do sub_word (← idx .data columns i) (← idx .data columns j)
/-- Reading the columns as blocks is no operation. -/
def as_blocks {N : Nat} (columns : Vector U32 (4 * N)) : L (Vector Block N) := ⟨[], Aes.Riscv32.as_blocks columns⟩
/-- src/aes_riscv32.rs:196-214 `keygen_128`. -/
def keygen_128 (key : Vector U8 16) : L (Vector Block 11) := do
  as_blocks (N := 11) (← Columns.columns_128 first .little key)
/-- src/aes_riscv32.rs:216-241 `keygen_192`. -/
def keygen_192 (key : Vector U8 24) : L (Vector Block 13) := do
  as_blocks (N := 13) (← Columns.columns_192 first .little key)
/-- src/aes_riscv32.rs:243-270 `keygen_256`. -/
def keygen_256 (key : Vector U8 32) : L (Vector Block 15) := do
  as_blocks (N := 15) (← Columns.columns_256 first_256 fifth first .little key)
/-- The API of the module. -/
instance : LBlock Block where
  new := new
  from_bytes := from_bytes
  store_to := store_to
  zero := zero
  is_zero := is_zero
  eq := eq
  bitand := bitand
  bitor := bitor
  bitxor := bitxor
  not := not
  enc := enc
  dec := dec
  enc_last := enc_last
  dec_last := dec_last
  pre := some ⟨pre_enc, pre_dec⟩
  mc := mc
  imc := imc
  keygen_128 := keygen_128
  keygen_192 := keygen_192
  keygen_256 := keygen_256
end Riscv32
end Aes.Leak
