import Verif.Gen.LeakCore
import Verif.Gen.LeakIntrinsics
import Verif.Gen.X86
/-
src/aes_x86.rs, function by function, with the trace of every call.
Generated by tools/rust2lean.py; do not edit.
-/
namespace RustSrc.Leak.X86
open Rust
open RustSrc.Leak.Core
variable [Cfg]

/-- src/aes_x86.rs:50-52 `bitxor`. -/
def bitxor (self : Aes.X86.Block) (rhs : Aes.X86.Block) : Aes.Leak.L Aes.X86.Block := do
  pure (⟨(← _mm_xor_si128 self.val rhs.val)⟩ : Aes.X86.Block)

/-- src/aes_x86.rs:84-86 `is_zero`. -/
def is_zero (self : Aes.X86.Block) : Aes.Leak.L Bool := do
  Aes.Leak.eqw (← _mm_testz_si128 self.val self.val) 1#32

/-- src/aes_x86.rs:14-16 `eq`. -/
def eq (self : Aes.X86.Block) (other : Aes.X86.Block) : Aes.Leak.L Bool := do
  is_zero (← bitxor self other)

/-- src/aes_x86.rs:23-25 `from`. -/
def from_bytes (value : Vector U8 16) : Aes.Leak.L Aes.X86.Block := do
  pure (⟨(← _mm_loadu_si128 value.toList)⟩ : Aes.X86.Block)

/-- src/aes_x86.rs:32-34 `bitand`. -/
def bitand (self : Aes.X86.Block) (rhs : Aes.X86.Block) : Aes.Leak.L Aes.X86.Block := do
  pure (⟨(← _mm_and_si128 self.val rhs.val)⟩ : Aes.X86.Block)

/-- src/aes_x86.rs:41-43 `bitor`. -/
def bitor (self : Aes.X86.Block) (rhs : Aes.X86.Block) : Aes.Leak.L Aes.X86.Block := do
  pure (⟨(← _mm_or_si128 self.val rhs.val)⟩ : Aes.X86.Block)

/-- src/aes_x86.rs:59-61 `not`. -/
def not (self : Aes.X86.Block) : Aes.Leak.L Aes.X86.Block := do
  pure (⟨(← _mm_xor_si128 self.val (_mm_set1_epi64x (-1#64)))⟩ : Aes.X86.Block)

/-- src/aes_x86.rs:66-69 `new`. -/
def new (value : Vector U8 16) : Aes.Leak.L Aes.X86.Block :=
  Aes.Leak.emit .move (transmute value)

/-- src/aes_x86.rs:72-75 `store_to`. -/
def store_to (self : Aes.X86.Block) (dst : List U8) : Aes.Leak.L (List U8) := do
  Aes.Leak.assert (decide (dst.length ≥ 16))
  let dst ← _mm_storeu_si128 dst self.val
  pure dst

/-- src/aes_x86.rs:78-80 `zero`. -/
def zero : Aes.Leak.L Aes.X86.Block :=
  pure (⟨_mm_setzero_si128⟩ : Aes.X86.Block)

/-- src/aes_x86.rs:90-92 `enc`. -/
def enc (self : Aes.X86.Block) (round_key : Aes.X86.Block) : Aes.Leak.L Aes.X86.Block := do
  pure (⟨(← _mm_aesenc_si128 self.val round_key.val)⟩ : Aes.X86.Block)

/-- src/aes_x86.rs:96-98 `dec`. -/
def dec (self : Aes.X86.Block) (round_key : Aes.X86.Block) : Aes.Leak.L Aes.X86.Block := do
  pure (⟨(← _mm_aesdec_si128 self.val round_key.val)⟩ : Aes.X86.Block)

/-- src/aes_x86.rs:102-104 `enc_last`. -/
def enc_last (self : Aes.X86.Block) (round_key : Aes.X86.Block) : Aes.Leak.L Aes.X86.Block := do
  pure (⟨(← _mm_aesenclast_si128 self.val round_key.val)⟩ : Aes.X86.Block)

/-- src/aes_x86.rs:108-110 `dec_last`. -/
def dec_last (self : Aes.X86.Block) (round_key : Aes.X86.Block) : Aes.Leak.L Aes.X86.Block := do
  pure (⟨(← _mm_aesdeclast_si128 self.val round_key.val)⟩ : Aes.X86.Block)

/-- src/aes_x86.rs:114-121 `mc`. -/
def mc (self : Aes.X86.Block) : Aes.Leak.L Aes.X86.Block := do
  pure (⟨(← _mm_aesenc_si128 (← _mm_aesdeclast_si128 self.val _mm_setzero_si128) _mm_setzero_si128)⟩ : Aes.X86.Block)

/-- src/aes_x86.rs:125-127 `imc`. -/
def imc (self : Aes.X86.Block) : Aes.Leak.L Aes.X86.Block := do
  pure (⟨(← _mm_aesimc_si128 self.val)⟩ : Aes.X86.Block)

/-- src/aes_x86.rs:131-134 `mix`. -/
def mix (vector : IsaX86.M128i) : Aes.Leak.L IsaX86.M128i := do
  let temp : IsaX86.M128i ← _mm_xor_si128 vector (← _mm_bslli_si128 4#32 vector)
  _mm_xor_si128 temp (← _mm_bslli_si128 8#32 temp)

/-- src/aes_x86.rs:138-145 `keyexp_128`. -/
def keyexp_128 (RCON : BitVec 32) (prev_rkey : Aes.X86.Block) : Aes.Leak.L Aes.X86.Block := do
  pure (⟨(← _mm_xor_si128 (← mix prev_rkey.val) (← _mm_shuffle_epi32 0xff#32 (← _mm_aeskeygenassist_si128 RCON prev_rkey.val)))⟩ : Aes.X86.Block)

/-- src/aes_x86.rs:151-158 `fwd`. -/
def keyexp_192_fwd (RCON : BitVec 32) (state1 : Aes.X86.Block) (state2 : Aes.X86.Block) : Aes.Leak.L (Aes.X86.Block × Aes.X86.Block) := do
  let state1 : Aes.X86.Block := ⟨(← _mm_xor_si128 (← mix state1.val) (← _mm_shuffle_epi32 0x55#32 (← _mm_aeskeygenassist_si128 RCON state2.val)))⟩
  let state2 : Aes.X86.Block := ⟨(← _mm_xor_si128 state2.val (← _mm_bslli_si128 4#32 state2.val))⟩
  let state2 : Aes.X86.Block := ⟨(← _mm_xor_si128 state2.val (← _mm_shuffle_epi32 0xff#32 state1.val))⟩
  pure (state1, state2)

/-- src/aes_x86.rs:147-171 `keyexp_192`. -/
def keyexp_192 (RCON1 : BitVec 32) (RCON2 : BitVec 32) (p0 : Aes.X86.Block × Aes.X86.Block) : Aes.Leak.L ((Aes.X86.Block × Aes.X86.Block) × (Aes.X86.Block × Aes.X86.Block × Aes.X86.Block)) := do
  let (state1, state2) := p0
  let prev_state : IsaX86.M128i := state2.val
  let (state1, state2) ← keyexp_192_fwd RCON1 state1 state2
  let key1 : IsaX86.M128i ← _mm_unpacklo_epi64 prev_state state1.val
  let key2 : IsaX86.M128i ← _mm_alignr_epi8 8#32 state2.val state1.val
  let (state1, state2) ← keyexp_192_fwd RCON2 state1 state2
  pure ((state1, state2), ((⟨key1⟩ : Aes.X86.Block), (⟨key2⟩ : Aes.X86.Block), state1))

/-- src/aes_x86.rs:173-180 `keyexp_256_1`. -/
def keyexp_256_1 (RCON : BitVec 32) (prev0 : Aes.X86.Block) (prev1 : Aes.X86.Block) : Aes.Leak.L Aes.X86.Block := do
  pure (⟨(← _mm_xor_si128 (← mix prev0.val) (← _mm_shuffle_epi32 0xff#32 (← _mm_aeskeygenassist_si128 RCON prev1.val)))⟩ : Aes.X86.Block)

/-- src/aes_x86.rs:182-189 `keyexp_256_2`. -/
def keyexp_256_2 (prev0 : Aes.X86.Block) (prev1 : Aes.X86.Block) : Aes.Leak.L Aes.X86.Block := do
  pure (⟨(← _mm_xor_si128 (← mix prev0.val) (← _mm_shuffle_epi32 0xaa#32 (← _mm_aeskeygenassist_si128 0#32 prev1.val)))⟩ : Aes.X86.Block)

/-- src/aes_x86.rs:191-207 `keygen_128`. -/
def keygen_128 (key : Vector U8 16) : Aes.Leak.L (Vector Aes.X86.Block 11) := do
  let key0 : Aes.X86.Block ← from_bytes key
  let key1 : Aes.X86.Block ← keyexp_128 1#32 key0
  let key2 : Aes.X86.Block ← keyexp_128 2#32 key1
  let key3 : Aes.X86.Block ← keyexp_128 4#32 key2
  let key4 : Aes.X86.Block ← keyexp_128 8#32 key3
  let key5 : Aes.X86.Block ← keyexp_128 0x10#32 key4
  let key6 : Aes.X86.Block ← keyexp_128 0x20#32 key5
  let key7 : Aes.X86.Block ← keyexp_128 0x40#32 key6
  let key8 : Aes.X86.Block ← keyexp_128 0x80#32 key7
  let key9 : Aes.X86.Block ← keyexp_128 0x1b#32 key8
  let key10 : Aes.X86.Block ← keyexp_128 0x36#32 key9
  pure #v[key0, key1, key2, key3, key4, key5, key6, key7, key8, key9, key10]

/-- src/lib.rs:176-178,213 `try_from`. -/
def try_from (value : List U8) : Aes.Leak.L (Except Nat Aes.X86.Block) :=
  try_from_slice 16 from_bytes value

/-- src/aes_x86.rs:209-225 `keygen_192`. -/
def keygen_192 (key : Vector U8 24) : Aes.Leak.L (Vector Aes.X86.Block 13) := do
  let key0 : Aes.X86.Block ← Aes.Leak.unwrap (← try_from (← Aes.Leak.sliceTo key.toList 16))
  let key_block : Vector U8 16 := Vector.replicate 16 0#8
  let key_block ← withSlice key_block (fun a => Aes.Leak.onTo a 8 (fun s => do Aes.Leak.copyFromSlice s (← Aes.Leak.sliceFrom key.toList 16)))
  let key_block ← withSlice key_block (fun a => Aes.Leak.onFrom a 8 (fun s => do fill s 0#8))
  let state : Aes.X86.Block × Aes.X86.Block := (key0, (← from_bytes key_block))
  let (state, (key1, key2, key3)) ← keyexp_192 1#32 2#32 state
  let (state, (key4, key5, key6)) ← keyexp_192 4#32 8#32 state
  let (state, (key7, key8, key9)) ← keyexp_192 0x10#32 0x20#32 state
  let (state, (key10, key11, key12)) ← keyexp_192 0x40#32 0x80#32 state
  pure #v[key0, key1, key2, key3, key4, key5, key6, key7, key8, key9, key10, key11, key12]

/-- src/aes_x86.rs:227-249 `keygen_256`. -/
def keygen_256 (key : Vector U8 32) : Aes.Leak.L (Vector Aes.X86.Block 15) := do
  let key0 : Aes.X86.Block ← Aes.Leak.unwrap (← try_from (← Aes.Leak.sliceTo key.toList 16))
  let key1 : Aes.X86.Block ← Aes.Leak.unwrap (← try_from (← Aes.Leak.sliceFrom key.toList 16))
  let key2 : Aes.X86.Block ← keyexp_256_1 1#32 key0 key1
  let key3 : Aes.X86.Block ← keyexp_256_2 key1 key2
  let key4 : Aes.X86.Block ← keyexp_256_1 2#32 key2 key3
  let key5 : Aes.X86.Block ← keyexp_256_2 key3 key4
  let key6 : Aes.X86.Block ← keyexp_256_1 4#32 key4 key5
  let key7 : Aes.X86.Block ← keyexp_256_2 key5 key6
  let key8 : Aes.X86.Block ← keyexp_256_1 8#32 key6 key7
  let key9 : Aes.X86.Block ← keyexp_256_2 key7 key8
  let key10 : Aes.X86.Block ← keyexp_256_1 0x10#32 key8 key9
  let key11 : Aes.X86.Block ← keyexp_256_2 key9 key10
  let key12 : Aes.X86.Block ← keyexp_256_1 0x20#32 key10 key11
  let key13 : Aes.X86.Block ← keyexp_256_2 key11 key12
  let key14 : Aes.X86.Block ← keyexp_256_1 0x40#32 key12 key13
  pure #v[key0, key1, key2, key3, key4, key5, key6, key7, key8, key9, key10, key11, key12, key13, key14]

/-- What src/aes_x86.rs provides to the rest of the crate. -/
@[reducible] def block : Aes.Leak.LBlock Aes.X86.Block where
  new := new
  from_bytes := from_bytes
  store_to := store_to
  zero := zero
  is_zero := is_zero
  eq := eq
  bitand := bitand
  bitor := bitor
  bitxor := bitxor
  not := not
  enc := enc
  dec := dec
  enc_last := enc_last
  dec_last := dec_last
  pre := none
  mc := mc
  imc := imc
  keygen_128 := keygen_128
  keygen_192 := keygen_192
  keygen_256 := keygen_256

end RustSrc.Leak.X86
