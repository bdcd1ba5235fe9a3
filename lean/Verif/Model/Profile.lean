import Verif.Model.Client
/-
Build profiles. What `cargo build` and `cargo build --release` compile differs in two switches, and targets differ in the
width of `usize`:

* `debug_assertions`: whether `debug_assert!` (src/lib.rs:138, the only one in the crate) is compiled;
* `overflow-checks`: whether an overflowing `+`/`-` panics or wraps;
* `target_pointer_width`: where `usize` overflows.

The functions of the crate that contain a `debug_assert!` or do `usize` arithmetic, and their callers, are modelled here
with both switches and the width as parameters; the rest of the model does not depend on them. (Not dependent on the
profile: shifts, whose amounts are literals smaller than the width; `as` casts; `wrapping_sub` of src/aes_bitslice.rs:181;
`/`; the compile-time constants `$nr + 1` of src/lib.rs:432,447.)
-/
namespace Aes

/-- A build profile and target width. Rust's `usize` has at least 16 bits. -/
structure Profile where
  /-- `cfg(debug_assertions)` -/
  debugAssertions : Bool
  /-- `-C overflow-checks` -/
  overflowChecks : Bool
  /-- `target_pointer_width` -/
  usizeBits : Nat
  usize_ge : 16 ≤ usizeBits

namespace Profile
open Rust

/-- `cargo build` on a 64-bit target. -/
def dev : Profile := ⟨true, true, 64, by decide⟩
/-- `cargo build --release` on a 64-bit target. -/
def release : Profile := ⟨false, false, 64, by decide⟩

/-- `a - b` on `usize`: an underflow panics with overflow checks and wraps without. -/
def usub (pf : Profile) (a b : Nat) : M Nat :=
  if b ≤ a then .ok (a - b)
  else if pf.overflowChecks then .error .panic else .ok (2 ^ pf.usizeBits + a - b)

/-- `a + b` on `usize`: an overflow panics with overflow checks and wraps without. -/
def uadd (pf : Profile) (a b : Nat) : M Nat :=
  if a + b < 2 ^ pf.usizeBits then .ok (a + b)
  else if pf.overflowChecks then .error .panic else .ok ((a + b) % 2 ^ pf.usizeBits)

/-- `debug_assert!(c)`: without debug assertions `c` is not even evaluated. -/
def debugAssert (pf : Profile) (c : M Bool) : M Unit :=
  if pf.debugAssertions then do assert (← c) else pure ()

/-- src/lib.rs:137-140 `array_from_slice`, with the `debug_assert!(value.len() - offset >= N)` of line 138. -/
def array_from_slice (pf : Profile) (n : Nat) (value : List U8) (offset : Nat) : M (Vector U8 n) := do
  debugAssert pf (do pure (decide ((← usub pf value.length offset) ≥ n)))
  rawRead value offset n

/-- src/lib.rs:127-133 `try_from_slice`; the `From<[u8; N]>` impl of the target type is a parameter,
as the trait bound is in the code. -/
def try_from_slice (pf : Profile) {T : Type} (n : Nat) (from_ : Vector U8 n → M T) (value : List U8) :
    M (Except Nat T) :=
  if value.length ≥ n then do
    let t ← from_ (← array_from_slice pf n value 0)
    pure (.ok t)
  else
    pure (.error value.length)

section common
variable {T : Type} {n : Nat} [AesVec T n]
open AesVec

/-- src/lib.rs:172-179 `impl TryFrom<&[u8]>`. -/
def try_from (pf : Profile) (value : List U8) : M (Except Nat T) := try_from_slice pf n from_bytes value

/-- src/lib.rs:372-380: `chain_enc` on targets with `pre_enc`. `assert_ne!`, then
`pre_enc` with every key but the last (`&keys[..keys.len() - 1]`), then `^ keys[keys.len() - 1]`. -/
def chain_enc_pre (pf : Profile) (p : Pre T) (self : T) (keys : List T) : M T := do
  assert (keys.length != 0)
  let ks ← sliceTo keys (← usub pf keys.length 1)
  let acc := ks.foldl (fun acc key => p.pre_enc acc key) self
  let last ← sidx keys (← usub pf keys.length 1)
  pure (bitxor acc last)

/-- src/lib.rs:383-391: `chain_dec` on targets with `pre_dec`. -/
def chain_dec_pre (pf : Profile) (p : Pre T) (self : T) (keys : List T) : M T := do
  assert (keys.length != 0)
  let ks ← sliceTo keys (← usub pf keys.length 1)
  let acc := ks.foldl (fun acc key => p.pre_dec acc key) self
  let last ← sidx keys (← usub pf keys.length 1)
  pure (bitxor acc last)

/-- `chain_enc` as the configuration provides it (src/lib.rs:333-426): the `cfg` of lines 334-347
picks the `pre_enc` version. In a configuration that compiles this is exactly where the selected
`AesBlock` has `pre_enc` (see theorem `C33_chain_pre` for the comparison of the two cfg conditions). -/
def chain_enc (pf : Profile) (self : T) (keys : List T) : M T :=
  match (pre : Option (Pre T)) with
  | some p => chain_enc_pre pf p self keys
  | none => chain_enc_std self keys

/-- `chain_dec` as the configuration provides it (src/lib.rs:333-426). -/
def chain_dec (pf : Profile) (self : T) (keys : List T) : M T :=
  match (pre : Option (Pre T)) with
  | some p => chain_dec_pre pf p self keys
  | none => chain_dec_std self keys

end common

section block
variable {B : Type} [AesBlock B]
open AesVec AesBlock

/-- src/lib.rs:312-320 `dec_round_keys`. -/
def dec_round_keys (pf : Profile) {N : Nat} (enc_round_keys : Vector B N) : M (Vector B N) := do
  let drk : Vector B N := Vector.replicate N zero
  let drk ← upd drk 0 (← idx enc_round_keys (← usub pf N 1))
  let drk ← (rangeStep 1 (← usub pf N 1) 1).foldlM (fun drk i => do
    upd drk i (imc (← idx enc_round_keys (← usub pf (← usub pf N 1) i)))) drk
  upd drk (← usub pf N 1) (← idx enc_round_keys 0)

/-- src/lib.rs:323-331 `enc_round_keys`. -/
def enc_round_keys (pf : Profile) {N : Nat} (dec_round_keys : Vector B N) : M (Vector B N) := do
  let rk : Vector B N := Vector.replicate N zero
  let rk ← upd rk 0 (← idx dec_round_keys (← usub pf N 1))
  let rk ← (rangeStep 1 (← usub pf N 1) 1).foldlM (fun rk i => do
    upd rk i (mc (← idx dec_round_keys (← usub pf (← usub pf N 1) i)))) rk
  upd rk (← usub pf N 1) (← idx dec_round_keys 0)

/-- src/lib.rs:461-465 `decrypter`. -/
def decrypter (pf : Profile) {nr} (self : AesEnc B nr) : M (AesDec B nr) := do
  pure ⟨← dec_round_keys pf self.round_keys⟩

/-- src/lib.rs:491-495 `encrypter`. -/
def encrypter (pf : Profile) {nr} (self : AesDec B nr) : M (AesEnc B nr) := do
  pure ⟨← enc_round_keys pf self.round_keys⟩

/-- src/lib.rs:467-471 `encrypt_block`. -/
def encrypt_block (pf : Profile) {nr} (self : AesEnc B nr) (plaintext : B) : M B := do
  let acc ← chain_enc pf plaintext (← sliceTo self.round_keys.toList nr)
  pure (enc_last acc (← idx self.round_keys nr))

/-- src/lib.rs:497-501 `decrypt_block`. -/
def decrypt_block (pf : Profile) {nr} (self : AesDec B nr) (ciphertext : B) : M B := do
  let acc ← chain_dec pf ciphertext (← sliceTo self.round_keys.toList nr)
  pure (dec_last acc (← idx self.round_keys nr))

section x2
variable {X2 : Type} [AesBlockX2 B X2]

/-- src/lib.rs:473-478 `encrypt_2_blocks`: `self.round_keys.map(Into::into)` broadcasts every round key. -/
def encrypt_2_blocks (pf : Profile) {nr} (self : AesEnc B nr) (plaintext : X2) : M X2 := do
  let round_keys : Vector X2 (nr + 1) := self.round_keys.map AesBlockX2.from_block
  let acc ← chain_enc pf plaintext (← sliceTo round_keys.toList nr)
  pure (enc_last acc (← idx round_keys nr))

/-- src/lib.rs:503-508 `decrypt_2_blocks`. -/
def decrypt_2_blocks (pf : Profile) {nr} (self : AesDec B nr) (ciphertext : X2) : M X2 := do
  let round_keys : Vector X2 (nr + 1) := self.round_keys.map AesBlockX2.from_block
  let acc ← chain_dec pf ciphertext (← sliceTo round_keys.toList nr)
  pure (dec_last acc (← idx round_keys nr))

end x2

section x4
variable {X2 X4 : Type} [AesBlockX4 B X2 X4]

/-- src/lib.rs:480-485 `encrypt_4_blocks`. -/
def encrypt_4_blocks (pf : Profile) {nr} (self : AesEnc B nr) (plaintext : X4) : M X4 := do
  let round_keys : Vector X4 (nr + 1) := self.round_keys.map AesBlockX4.from_block
  let acc ← chain_enc pf plaintext (← sliceTo round_keys.toList nr)
  pure (enc_last acc (← idx round_keys nr))

/-- src/lib.rs:510-515 `decrypt_4_blocks`. -/
def decrypt_4_blocks (pf : Profile) {nr} (self : AesDec B nr) (ciphertext : X4) : M X4 := do
  let round_keys : Vector X4 (nr + 1) := self.round_keys.map AesBlockX4.from_block
  let acc ← chain_dec pf ciphertext (← sliceTo round_keys.toList nr)
  pure (dec_last acc (← idx round_keys nr))

end x4

/-- src/lib.rs:452-456,520 `Aes128Dec::from`. -/
def Aes128Dec.from (pf : Profile) (value : Vector U8 16) : M (AesDec B 10) := do decrypter pf (← Aes128Enc.from value)

/-- src/lib.rs:452-456,521 `Aes192Dec::from`. -/
def Aes192Dec.from (pf : Profile) (value : Vector U8 24) : M (AesDec B 12) := do decrypter pf (← Aes192Enc.from value)

/-- src/lib.rs:452-456,522 `Aes256Dec::from`. -/
def Aes256Dec.from (pf : Profile) (value : Vector U8 32) : M (AesDec B 14) := do decrypter pf (← Aes256Enc.from value)

end block

/-! ### The modules -/

namespace Table
open Aes.Table hiding new from_bytes load_u32_be keygen_128 keygen_192 keygen_256

/-- src/aes_table_based.rs:10-15 `load_u32_be` (slice indexing panics when out of range). -/
def load_u32_be (pf : Profile) (slice : List U8) (offset : Nat) : M U32 := do
  pure <| ((← sidx slice (← uadd pf offset 0)).setWidth 32 <<< 24)
    ||| ((← sidx slice (← uadd pf offset 1)).setWidth 32 <<< 16)
    ||| ((← sidx slice (← uadd pf offset 2)).setWidth 32 <<< 8)
    ||| (← sidx slice (← uadd pf offset 3)).setWidth 32

/-- src/aes_table_based.rs:84-91 `AesBlock::new`. -/
def new (pf : Profile) (value : Vector U8 16) : M Block := do
  pure ⟨← load_u32_be pf value.toList 0, ← load_u32_be pf value.toList 4,
    ← load_u32_be pf value.toList 8, ← load_u32_be pf value.toList 12⟩

/-- src/aes_table_based.rs:25-30 `From<[u8; 16]>`. -/
def from_bytes (pf : Profile) (value : Vector U8 16) : M Block := new pf value

/-- src/aes_table_based.rs:277-293 `keygen_128`. -/
def keygen_128 (pf : Profile) (key : Vector U8 16) : M (Vector Block 11) := do
  let key0 ← from_bytes pf key
  let key1 := keyexp_128 0x01000000#32 key0
  let key2 := keyexp_128 0x02000000#32 key1
  let key3 := keyexp_128 0x04000000#32 key2
  let key4 := keyexp_128 0x08000000#32 key3
  let key5 := keyexp_128 0x10000000#32 key4
  let key6 := keyexp_128 0x20000000#32 key5
  let key7 := keyexp_128 0x40000000#32 key6
  let key8 := keyexp_128 0x80000000#32 key7
  let key9 := keyexp_128 0x1b000000#32 key8
  let key10 := keyexp_128 0x36000000#32 key9
  pure #v[key0, key1, key2, key3, key4, key5, key6, key7, key8, key9, key10]

/-- src/aes_table_based.rs:295-329 `keygen_192`. -/
def keygen_192 (pf : Profile) (key : Vector U8 24) : M (Vector Block 13) := do
  let k : Vector U32 6 := #v[← load_u32_be pf key.toList 0, ← load_u32_be pf key.toList 4,
    ← load_u32_be pf key.toList 8, ← load_u32_be pf key.toList 12, ← load_u32_be pf key.toList 16,
    ← load_u32_be pf key.toList 20]
  let key0 : Block := ⟨k[0], k[1], k[2], k[3]⟩
  let p := keyexp_192 0x01000000#32 k
  let key1 : Block := ⟨k[4], k[5], p[0], p[1]⟩
  let key2 : Block := ⟨p[2], p[3], p[4], p[5]⟩
  let k := keyexp_192 0x02000000#32 p
  let key3 : Block := ⟨k[0], k[1], k[2], k[3]⟩
  let p := keyexp_192 0x04000000#32 k
  let key4 : Block := ⟨k[4], k[5], p[0], p[1]⟩
  let key5 : Block := ⟨p[2], p[3], p[4], p[5]⟩
  let k := keyexp_192 0x08000000#32 p
  let key6 : Block := ⟨k[0], k[1], k[2], k[3]⟩
  let p := keyexp_192 0x10000000#32 k
  let key7 : Block := ⟨k[4], k[5], p[0], p[1]⟩
  let key8 : Block := ⟨p[2], p[3], p[4], p[5]⟩
  let k := keyexp_192 0x20000000#32 p
  let key9 : Block := ⟨k[0], k[1], k[2], k[3]⟩
  let p := keyexp_192 0x40000000#32 k
  let key10 : Block := ⟨k[4], k[5], p[0], p[1]⟩
  let key11 : Block := ⟨p[2], p[3], p[4], p[5]⟩
  let k := keyexp_192 0x80000000#32 p
  let key12 : Block := ⟨k[0], k[1], k[2], k[3]⟩
  pure #v[key0, key1, key2, key3, key4, key5, key6, key7, key8, key9, key10, key11, key12]

/-- src/aes_table_based.rs:331-353 `keygen_256`; `AesBlock::try_from(..).unwrap()` is src/lib.rs:172-179
followed by `Result::unwrap`. -/
def keygen_256 (pf : Profile) (key : Vector U8 32) : M (Vector Block 15) := do
  let key0 ← unwrap (← Profile.try_from_slice pf 16 (from_bytes pf) (← sliceTo key.toList 16))
  let key1 ← unwrap (← Profile.try_from_slice pf 16 (from_bytes pf) (← sliceFrom key.toList 16))
  let key2 := keyexp_256_1 0x01000000#32 key0 key1
  let key3 := keyexp_256_2 key1 key2
  let key4 := keyexp_256_1 0x02000000#32 key2 key3
  let key5 := keyexp_256_2 key3 key4
  let key6 := keyexp_256_1 0x04000000#32 key4 key5
  let key7 := keyexp_256_2 key5 key6
  let key8 := keyexp_256_1 0x08000000#32 key6 key7
  let key9 := keyexp_256_2 key7 key8
  let key10 := keyexp_256_1 0x10000000#32 key8 key9
  let key11 := keyexp_256_2 key9 key10
  let key12 := keyexp_256_1 0x20000000#32 key10 key11
  let key13 := keyexp_256_2 key11 key12
  let key14 := keyexp_256_1 0x40000000#32 key12 key13
  pure #v[key0, key1, key2, key3, key4, key5, key6, key7, key8, key9, key10, key11, key12, key13, key14]

/-- The module src/aes_table_based.rs under the profile. -/
@[reducible] def block (pf : Profile) : AesBlock Block :=
  { (inferInstance : AesBlock Block) with
    new := new pf
    from_bytes := from_bytes pf
    keygen_128 := keygen_128 pf
    keygen_192 := keygen_192 pf
    keygen_256 := keygen_256 pf }

end Table

namespace X86
open Aes.X86 hiding keygen_192 keygen_256

/-- src/aes_x86.rs:209-225 `keygen_192` (`try_from` is src/lib.rs:172-179; `fill(0)` writes zeros). -/
def keygen_192 (pf : Profile) (key : Vector U8 24) : M (Vector Block 13) := do
  let key0 ← unwrap (← Profile.try_from_slice pf 16 from_bytes (← sliceTo key.toList 16))
  let key_block : List U8 := List.replicate 16 0
  let tail ← sliceFrom key.toList 16
  let key_block ← onTo key_block 8 fun s => copyFromSlice s tail
  let key_block ← onFrom key_block 8 fun s => pure (List.replicate s.length 0)
  let state := (key0, ← from_bytes (← arrayTryFrom 16 key_block))
  let (state, (key1, key2, key3)) := keyexp_192 0x01 0x02 state
  let (state, (key4, key5, key6)) := keyexp_192 0x04 0x08 state
  let (state, (key7, key8, key9)) := keyexp_192 0x10 0x20 state
  let (_, (key10, key11, key12)) := keyexp_192 0x40 0x80 state
  pure #v[key0, key1, key2, key3, key4, key5, key6, key7, key8, key9, key10, key11, key12]

/-- src/aes_x86.rs:227-249 `keygen_256`. -/
def keygen_256 (pf : Profile) (key : Vector U8 32) : M (Vector Block 15) := do
  let key0 ← unwrap (← Profile.try_from_slice pf 16 from_bytes (← sliceTo key.toList 16))
  let key1 ← unwrap (← Profile.try_from_slice pf 16 from_bytes (← sliceFrom key.toList 16))
  let key2 := keyexp_256_1 0x01 key0 key1
  let key3 := keyexp_256_2 key1 key2
  let key4 := keyexp_256_1 0x02 key2 key3
  let key5 := keyexp_256_2 key3 key4
  let key6 := keyexp_256_1 0x04 key4 key5
  let key7 := keyexp_256_2 key5 key6
  let key8 := keyexp_256_1 0x08 key6 key7
  let key9 := keyexp_256_2 key7 key8
  let key10 := keyexp_256_1 0x10 key8 key9
  let key11 := keyexp_256_2 key9 key10
  let key12 := keyexp_256_1 0x20 key10 key11
  let key13 := keyexp_256_2 key11 key12
  let key14 := keyexp_256_1 0x40 key12 key13
  pure #v[key0, key1, key2, key3, key4, key5, key6, key7, key8, key9, key10, key11, key12, key13, key14]

/-- The module src/aes_x86.rs under the profile. -/
@[reducible] def block (pf : Profile) : AesBlock Block :=
  { (inferInstance : AesBlock Block) with
    keygen_192 := keygen_192 pf
    keygen_256 := keygen_256 pf }

end X86

namespace Riscv64
open Aes.Riscv64 hiding keygen_256

/-- src/aes_riscv64.rs:225-249 `keygen_256`. -/
def keygen_256 (pf : Profile) (key : Vector U8 32) : M (Vector Block 15) := do
  let key0 ← unwrap (← Profile.try_from_slice pf 16 from_bytes (← sliceTo key.toList 16))
  let key1 ← unwrap (← Profile.try_from_slice pf 16 from_bytes (← sliceFrom key.toList 16))
  let key2 := keyexp_256_1 0 key0 key1
  let key3 := keyexp_256_2 key1 key2
  let key4 := keyexp_256_1 1 key2 key3
  let key5 := keyexp_256_2 key3 key4
  let key6 := keyexp_256_1 2 key4 key5
  let key7 := keyexp_256_2 key5 key6
  let key8 := keyexp_256_1 3 key6 key7
  let key9 := keyexp_256_2 key7 key8
  let key10 := keyexp_256_1 4 key8 key9
  let key11 := keyexp_256_2 key9 key10
  let key12 := keyexp_256_1 5 key10 key11
  let key13 := keyexp_256_2 key11 key12
  let key14 := keyexp_256_1 6 key12 key13
  pure #v[key0, key1, key2, key3, key4, key5, key6, key7, key8, key9, key10, key11, key12, key13, key14]

/-- The module src/aes_riscv64.rs under the profile. -/
@[reducible] def block (pf : Profile) : AesBlock Block :=
  { (inferInstance : AesBlock Block) with
    keygen_256 := keygen_256 pf }

end Riscv64

namespace Columns
section
variable (pf : Profile) (first : U32 → U32 → U32 → U32) (fifth : U32 → U32 → U32)

/-- Body of the loop src/aes_bitslice.rs:348-353, src/aes_arm.rs:182-188, src/aes_riscv32.rs:206-211. -/
def step_128 (columns : Vector U32 44) (i : Nat) : M (Vector U32 44) := do
  let columns ← upd columns (← uadd pf i 4)
    (first (← idx columns (← uadd pf i 0)) (← idx columns (← uadd pf i 3)) (← idx Columns.RCON (i / 4)))
  let columns ← upd columns (← uadd pf i 5) ((← idx columns (← uadd pf i 1)) ^^^ (← idx columns (← uadd pf i 4)))
  let columns ← upd columns (← uadd pf i 6) ((← idx columns (← uadd pf i 2)) ^^^ (← idx columns (← uadd pf i 5)))
  let columns ← upd columns (← uadd pf i 7) ((← idx columns (← uadd pf i 3)) ^^^ (← idx columns (← uadd pf i 6)))
  pure columns

/-- src/aes_bitslice.rs:340-356, src/aes_arm.rs:171-192, src/aes_riscv32.rs:196-214. -/
def columns_128 (e : Endian) (key : Vector U8 16) : M (Vector U32 44) := do
  let columns : Vector U32 44 := Vector.replicate 44 0
  let columns ← Columns.load_columns e key.toList columns
  (rangeStep 0 40 4).foldlM (step_128 pf first) columns

/-- Body of the loop src/aes_bitslice.rs:366-373, src/aes_arm.rs:205-213, src/aes_riscv32.rs:226-233. -/
def step_192 (columns : Vector U32 52) (i : Nat) : M (Vector U32 52) := do
  let columns ← upd columns (← uadd pf i 6)
    (first (← idx columns (← uadd pf i 0)) (← idx columns (← uadd pf i 5)) (← idx Columns.RCON (i / 6)))
  let columns ← upd columns (← uadd pf i 7) ((← idx columns (← uadd pf i 1)) ^^^ (← idx columns (← uadd pf i 6)))
  let columns ← upd columns (← uadd pf i 8) ((← idx columns (← uadd pf i 2)) ^^^ (← idx columns (← uadd pf i 7)))
  let columns ← upd columns (← uadd pf i 9) ((← idx columns (← uadd pf i 3)) ^^^ (← idx columns (← uadd pf i 8)))
  let columns ← upd columns (← uadd pf i 10) ((← idx columns (← uadd pf i 4)) ^^^ (← idx columns (← uadd pf i 9)))
  let columns ← upd columns (← uadd pf i 11) ((← idx columns (← uadd pf i 5)) ^^^ (← idx columns (← uadd pf i 10)))
  pure columns

/-- src/aes_bitslice.rs:358-381, src/aes_arm.rs:194-222, src/aes_riscv32.rs:216-241. -/
def columns_192 (e : Endian) (key : Vector U8 24) : M (Vector U32 52) := do
  let columns : Vector U32 52 := Vector.replicate 52 0
  let columns ← Columns.load_columns e key.toList columns
  let columns ← (rangeStep 0 42 6).foldlM (step_192 pf first) columns
  let columns ← upd columns 48 (first (← idx columns 42) (← idx columns 47) (← idx Columns.RCON 7))
  let columns ← upd columns 49 ((← idx columns 43) ^^^ (← idx columns 48))
  let columns ← upd columns 50 ((← idx columns 44) ^^^ (← idx columns 49))
  let columns ← upd columns 51 ((← idx columns 45) ^^^ (← idx columns 50))
  pure columns

/-- Body of the loop src/aes_bitslice.rs:391-400, src/aes_arm.rs:235-245, src/aes_riscv32.rs:253-262. -/
def step_256 (columns : Vector U32 60) (i : Nat) : M (Vector U32 60) := do
  let columns ← upd columns (← uadd pf i 8)
    (first (← idx columns (← uadd pf i 0)) (← idx columns (← uadd pf i 7)) (← idx Columns.RCON (i / 8)))
  let columns ← upd columns (← uadd pf i 9) ((← idx columns (← uadd pf i 1)) ^^^ (← idx columns (← uadd pf i 8)))
  let columns ← upd columns (← uadd pf i 10) ((← idx columns (← uadd pf i 2)) ^^^ (← idx columns (← uadd pf i 9)))
  let columns ← upd columns (← uadd pf i 11) ((← idx columns (← uadd pf i 3)) ^^^ (← idx columns (← uadd pf i 10)))
  let columns ← upd columns (← uadd pf i 12) (fifth (← idx columns (← uadd pf i 4)) (← idx columns (← uadd pf i 11)))
  let columns ← upd columns (← uadd pf i 13) ((← idx columns (← uadd pf i 5)) ^^^ (← idx columns (← uadd pf i 12)))
  let columns ← upd columns (← uadd pf i 14) ((← idx columns (← uadd pf i 6)) ^^^ (← idx columns (← uadd pf i 13)))
  let columns ← upd columns (← uadd pf i 15) ((← idx columns (← uadd pf i 7)) ^^^ (← idx columns (← uadd pf i 14)))
  pure columns

/-- src/aes_bitslice.rs:383-408, src/aes_arm.rs:224-254, src/aes_riscv32.rs:243-270; `tail` is the
expression of the last group (`columns[56]`), which differs from `first` on riscv32. -/
def columns_256 (tail : U32 → U32 → U32 → U32) (e : Endian) (key : Vector U8 32) :
    M (Vector U32 60) := do
  let columns : Vector U32 60 := Vector.replicate 60 0
  let columns ← Columns.load_columns e key.toList columns
  let columns ← (rangeStep 0 48 8).foldlM (step_256 pf first fifth) columns
  let columns ← upd columns 56 (tail (← idx columns 48) (← idx columns 55) (← idx Columns.RCON 6))
  let columns ← upd columns 57 ((← idx columns 49) ^^^ (← idx columns 56))
  let columns ← upd columns 58 ((← idx columns 50) ^^^ (← idx columns 57))
  let columns ← upd columns 59 ((← idx columns 51) ^^^ (← idx columns 58))
  pure columns

end
end Columns

namespace Bitslice
open Aes.Bitslice hiding keygen_128 keygen_192 keygen_256

/-- src/aes_bitslice.rs:340-356 `keygen_128`. -/
def keygen_128 (pf : Profile) (e : Endian) (key : Vector U8 16) : M (Vector (Block e) 11) := do
  pure (as_blocks e (N := 11) (← Columns.columns_128 pf first e key))

/-- src/aes_bitslice.rs:358-381 `keygen_192`. -/
def keygen_192 (pf : Profile) (e : Endian) (key : Vector U8 24) : M (Vector (Block e) 13) := do
  pure (as_blocks e (N := 13) (← Columns.columns_192 pf first e key))

/-- src/aes_bitslice.rs:383-408 `keygen_256`. -/
def keygen_256 (pf : Profile) (e : Endian) (key : Vector U8 32) : M (Vector (Block e) 15) := do
  pure (as_blocks e (N := 15) (← Columns.columns_256 pf first fifth first e key))

/-- The module src/aes_bitslice.rs under the profile. -/
@[reducible] def block (pf : Profile) (e : Endian) : AesBlock (Block e) :=
  { (inferInstance : AesBlock (Block e)) with
    keygen_128 := keygen_128 pf e
    keygen_192 := keygen_192 pf e
    keygen_256 := keygen_256 pf e }

end Bitslice

namespace Arm
open Aes.Arm hiding keygen_128 keygen_192 keygen_256

/-- src/aes_arm.rs:171-192 `keygen_128`. -/
def keygen_128 (pf : Profile) (is32 : Bool) (key : Vector U8 16) : M (Vector (Block is32) 11) := do
  pure (as_blocks is32 (N := 11) (← Columns.columns_128 pf first .little key))

/-- src/aes_arm.rs:194-222 `keygen_192`. -/
def keygen_192 (pf : Profile) (is32 : Bool) (key : Vector U8 24) : M (Vector (Block is32) 13) := do
  pure (as_blocks is32 (N := 13) (← Columns.columns_192 pf first .little key))

/-- src/aes_arm.rs:224-254 `keygen_256`. -/
def keygen_256 (pf : Profile) (is32 : Bool) (key : Vector U8 32) : M (Vector (Block is32) 15) := do
  pure (as_blocks is32 (N := 15) (← Columns.columns_256 pf first fifth first .little key))

/-- The module src/aes_arm.rs under the profile. -/
@[reducible] def block (pf : Profile) (is32 : Bool) : AesBlock (Block is32) :=
  { (inferInstance : AesBlock (Block is32)) with
    keygen_128 := keygen_128 pf is32
    keygen_192 := keygen_192 pf is32
    keygen_256 := keygen_256 pf is32 }

end Arm

namespace Riscv32
open Aes.Riscv32 hiding keygen_128 keygen_192 keygen_256

/-- src/aes_riscv32.rs:196-214 `keygen_128`. -/
def keygen_128 (pf : Profile) (key : Vector U8 16) : M (Vector Block 11) := do
  as_blocks (N := 11) (← Columns.columns_128 pf first .little key)

/-- src/aes_riscv32.rs:216-241 `keygen_192`. -/
def keygen_192 (pf : Profile) (key : Vector U8 24) : M (Vector Block 13) := do
  as_blocks (N := 13) (← Columns.columns_192 pf first .little key)

/-- src/aes_riscv32.rs:243-270 `keygen_256`. -/
def keygen_256 (pf : Profile) (key : Vector U8 32) : M (Vector Block 15) := do
  as_blocks (N := 15) (← Columns.columns_256 pf first_256 fifth first .little key)

/-- The module src/aes_riscv32.rs under the profile. -/
@[reducible] def block (pf : Profile) : AesBlock Block :=
  { (inferInstance : AesBlock Block) with
    keygen_128 := keygen_128 pf
    keygen_192 := keygen_192 pf
    keygen_256 := keygen_256 pf }

end Riscv32

namespace DefaultX2
open Aes.DefaultX2 hiding new from_bytes
variable {B : Type} [AesBlock B]

/-- src/aesdefault_x2.rs:76-81 `new`. -/
def new (pf : Profile) (value : Vector U8 32) : M (X2 B) := do
  pure ⟨← AesVec.new (← array_from_slice pf 16 value.toList 0),
    ← AesVec.new (← array_from_slice pf 16 value.toList 16)⟩

/-- src/aesdefault_x2.rs:10-15 `From<[u8; 32]>`. -/
def from_bytes (pf : Profile) (value : Vector U8 32) : M (X2 B) := new pf value

/-- The module src/aesdefault_x2.rs under the profile. -/
@[reducible] def vec (pf : Profile) (B : Type) [AesBlock B] : AesBlockX2 B (X2 B) :=
  { (inferInstance : AesBlockX2 B (X2 B)) with
    new := new pf
    from_bytes := from_bytes pf }

end DefaultX2

namespace DefaultX4
open Aes.DefaultX4 hiding new from_bytes
variable {B X2 : Type} [AesBlockX2 B X2]

/-- src/aesdefault_x4.rs:99-104 `new`. -/
def new (pf : Profile) (value : Vector U8 64) : M (X4 X2) := do
  pure ⟨← AesVec.new (← array_from_slice pf 32 value.toList 0),
    ← AesVec.new (← array_from_slice pf 32 value.toList 32)⟩

/-- src/aesdefault_x4.rs:10-15 `From<[u8; 64]>`. -/
def from_bytes (pf : Profile) (value : Vector U8 64) : M (X4 X2) := new pf value

/-- The module src/aesdefault_x4.rs under the profile. -/
@[reducible] def vec (pf : Profile) (B X2 : Type) [AesBlockX2 B X2] : AesBlockX4 B X2 (X4 X2) :=
  { (inferInstance : AesBlockX4 B X2 (X4 X2)) with
    new := new pf
    from_bytes := from_bytes pf }

end DefaultX4

/-! ### The crate -/

/-- The selected `AesBlock` module (src/lib.rs:44-92) under the profile. -/
@[reducible] def block (pf : Profile) (t : Target) : AesBlock t.Block :=
  match t with
  | .table => Table.block pf
  | .bitslice e => Bitslice.block pf e
  | .x86 | .x86Vaes | .x86Vaes512 => X86.block pf
  | .arm is32 => Arm.block pf is32
  | .riscv64 => Riscv64.block pf
  | .riscv32 => Riscv32.block pf

/-- The selected `AesBlockX2` module (src/lib.rs:94-106) under the profile (src/aesni_x2.rs does not depend on it). -/
@[reducible] def blockX2 (pf : Profile) (t : Target) : AesBlockX2 t.Block t.X2 :=
  match t with
  | .table => @DefaultX2.vec pf _ (Table.block pf)
  | .bitslice e => @DefaultX2.vec pf _ (Bitslice.block pf e)
  | .x86 => @DefaultX2.vec pf _ (X86.block pf)
  | .x86Vaes => (inferInstance : AesBlockX2 Target.x86Vaes.Block Target.x86Vaes.X2)
  | .x86Vaes512 => (inferInstance : AesBlockX2 Target.x86Vaes512.Block Target.x86Vaes512.X2)
  | .arm is32 => @DefaultX2.vec pf _ (Arm.block pf is32)
  | .riscv64 => @DefaultX2.vec pf _ (Riscv64.block pf)
  | .riscv32 => @DefaultX2.vec pf _ (Riscv32.block pf)

/-- The selected `AesBlockX4` module (src/lib.rs:108-121) under the profile (src/aesni_x4.rs does not depend on it). -/
@[reducible] def blockX4 (pf : Profile) (t : Target) : AesBlockX4 t.Block t.X2 t.X4 :=
  match t with
  | .table => @DefaultX4.vec pf _ _ (blockX2 pf .table)
  | .bitslice e => @DefaultX4.vec pf _ _ (blockX2 pf (.bitslice e))
  | .x86 => @DefaultX4.vec pf _ _ (blockX2 pf .x86)
  | .x86Vaes => @DefaultX4.vec pf _ _ (blockX2 pf .x86Vaes)
  | .x86Vaes512 => (inferInstance : AesBlockX4 Target.x86Vaes512.Block Target.x86Vaes512.X2 Target.x86Vaes512.X4)
  | .arm is32 => @DefaultX4.vec pf _ _ (blockX2 pf (.arm is32))
  | .riscv64 => @DefaultX4.vec pf _ _ (blockX2 pf .riscv64)
  | .riscv32 => @DefaultX4.vec pf _ _ (blockX2 pf .riscv32)

section
open Client Target Fmt
variable (pf : Profile) (t : Target) [b1 : AesBlock t.Block] [b2 : AesBlockX2 t.Block t.X2]
  [b4 : AesBlockX4 t.Block t.X2 t.X4]

/-- The operations of the public block type of the given width. -/
@[reducible] def vecOf (w : Width) : AesVec (t.Vec w) w.size :=
  match w with
  | .x1 => b1.toAesVec
  | .x2 => b2.toAesVec
  | .x4 => b4.toAesVec

/-- src/lib.rs:452-456,520-522 `From<[u8; $key_len]>` of the decrypters. -/
def decFromOf (B : Type) [AesBlock B] : (k : KeySize) → Vector U8 k.bytes → M (AesDec B k.rounds)
  | .k128 => Aes128Dec.from pf
  | .k192 => Aes192Dec.from pf
  | .k256 => Aes256Dec.from pf
/-- src/lib.rs:467-485 `encrypt_block`, `encrypt_2_blocks`, `encrypt_4_blocks`. -/
def encryptOf {nr : Nat} (e : AesEnc t.Block nr) : (w : Width) → t.Vec w → M (t.Vec w)
  | .x1 => encrypt_block (B := t.Block) pf e
  | .x2 => encrypt_2_blocks (X2 := t.X2) pf e
  | .x4 => encrypt_4_blocks (X4 := t.X4) pf e
/-- src/lib.rs:497-515 `decrypt_block`, `decrypt_2_blocks`, `decrypt_4_blocks`. -/
def decryptOf {nr : Nat} (d : AesDec t.Block nr) : (w : Width) → t.Vec w → M (t.Vec w)
  | .x1 => decrypt_block (B := t.Block) pf d
  | .x2 => decrypt_2_blocks (X2 := t.X2) pf d
  | .x4 => decrypt_4_blocks (X4 := t.X4) pf d

/-- src/lib.rs under the profile, over the given modules; as `Client.crate`. -/
def crateOf : Impl :=
  letI v := vecOf t
  { V := t.Vec
    E := fun k => AesEnc t.Block k.rounds
    D := fun k => AesDec t.Block k.rounds
    new := fun w => (v w).new
    from_bytes := fun w => (v w).from_bytes
    from_ref := fun w => @Aes.from_ref _ _ (v w)
    try_from := fun w => @try_from _ _ (v w) pf
    zero := fun w => (v w).zero
    default_ := fun w => @Aes.default_ _ _ (v w)
    into_bytes := fun w => @Aes.into_bytes _ _ (v w)
    store_to := fun w => (v w).store_to
    is_zero := fun w => (v w).is_zero
    eq := fun w => (v w).eq
    bin := fun w => @binOf _ _ (v w)
    assign := fun w => @assignOf _ _ (v w)
    not := fun w => (v w).not
    chain_enc := fun w => @chain_enc _ _ (v w) pf
    chain_dec := fun w => @chain_dec _ _ (v w) pf
    mc := b1.mc
    imc := b1.imc
    from_u128 := Aes.from_u128 (B := t.Block)
    into_u128 := Aes.into_u128 (B := t.Block)
    from_pair := b2.from_pair
    to_pair := b2.to_pair
    from_block2 := b2.from_block
    from_quad := b4.from_quad
    to_quad := b4.to_quad
    from_x2_pair := b4.from_x2_pair
    to_x2_pair := b4.to_x2_pair
    from_block4 := b4.from_block
    from_x2 := b4.from_x2
    format1 := fun st o x => format (styleOf (B := t.Block) st x o)
    format2 := fun o x => format (debugX2 (X2 := t.X2) x o)
    format4 := fun o x => format (debugX4 (X4 := t.X4) x o)
    encFrom := encFromOf t.Block
    decFrom := decFromOf pf t.Block
    decrypter := fun _ e => decrypter pf e
    encrypter := fun _ d => encrypter pf d
    encrypt := fun _ w e => encryptOf pf t e w
    decrypt := fun _ w d => decryptOf pf t d w
    formatE := fun _ o e => format (debugEnc e o)
    formatD := fun _ o d => format (debugDec d o) }

end

/-- The crate on target `t`, built with the given profile. -/
def crate (pf : Profile) (t : Target) : Client.Impl :=
  @crateOf pf t (block pf t) (blockX2 pf t) (blockX4 pf t)

end Profile
end Aes
