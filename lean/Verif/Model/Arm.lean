import Verif.Model.Columns
import Verif.Model.IsaArm
/-
Model of src/aes_arm.rs (little-endian Arm with the AES extension). `is32` is `target_arch = "arm"`.
-/
namespace Aes.Arm
open Rust IsaArm

/-- src/aes_arm.rs:8-11 `struct AesBlock(uint8x16_t)`; indexed by `target_arch = "arm"` (true) versus
AArch64/Arm64EC (false). -/
structure Block (is32 : Bool) where
  val : U8x16
deriving DecidableEq, Repr

section
variable {is32 : Bool}

/-- src/aes_arm.rs:67-70 `new`: transmute. -/
def new (value : Vector U8 16) : M (Block is32) := .ok ⟨value⟩
/-- src/aes_arm.rs:22-27 `From<[u8; 16]>`. -/
def from_bytes (value : Vector U8 16) : M (Block is32) := do pure ⟨← vld1q_u8 value.toList⟩
/-- src/aes_arm.rs:29-36 `BitAnd`. -/
def bitand (self rhs : Block is32) : Block is32 := ⟨vandq self.val rhs.val⟩
/-- src/aes_arm.rs:38-45 `BitOr`. -/
def bitor (self rhs : Block is32) : Block is32 := ⟨vorrq self.val rhs.val⟩
/-- src/aes_arm.rs:47-54 `BitXor`. -/
def bitxor (self rhs : Block is32) : Block is32 := ⟨veorq self.val rhs.val⟩
/-- src/aes_arm.rs:56-63 `Not`. -/
def not (self : Block is32) : Block is32 := ⟨vmvnq self.val⟩
/-- src/aes_arm.rs:73-76 `store_to`. -/
def store_to (self : Block is32) (dst : List U8) : M (List U8) := do
  assert (dst.length ≥ 16)
  vst1q_u8 dst self.val
/-- src/aes_arm.rs:79-81 `zero`. -/
def zero : Block is32 := ⟨vdupq_n_u8 0⟩
/-- src/aes_arm.rs:85-100 `is_zero`, both `cfg` branches. -/
def is_zero (self : Block is32) : Bool :=
  match is32 with
  | false => (lane_u64 0 self.val ||| lane_u64 1 self.val) == 0
  | true => (lane_u32 0 self.val ||| lane_u32 1 self.val ||| lane_u32 2 self.val
      ||| lane_u32 3 self.val) == 0
/-- src/aes_arm.rs:13-18 `PartialEq`. -/
def eq (self other : Block is32) : Bool := is_zero (bitxor self other)
/-- src/aes_arm.rs:103-105 `aese`. -/
def aese (self round_key : Block is32) : Block is32 := ⟨vaeseq self.val round_key.val⟩
/-- src/aes_arm.rs:119-121 `aesd`. -/
def aesd (self round_key : Block is32) : Block is32 := ⟨vaesdq self.val round_key.val⟩
/-- src/aes_arm.rs:148-150 `mc`. -/
def mc (self : Block is32) : Block is32 := ⟨vaesmcq self.val⟩
/-- src/aes_arm.rs:154-156 `imc`. -/
def imc (self : Block is32) : Block is32 := ⟨vaesimcq self.val⟩
/-- src/aes_arm.rs:108-110 `pre_enc`. -/
def pre_enc (self round_key : Block is32) : Block is32 := mc (aese self round_key)
/-- src/aes_arm.rs:114-116 `enc`. -/
def enc (self round_key : Block is32) : Block is32 := bitxor (pre_enc self zero) round_key
/-- src/aes_arm.rs:124-126 `pre_dec`. -/
def pre_dec (self round_key : Block is32) : Block is32 := imc (aesd self round_key)
/-- src/aes_arm.rs:130-132 `dec`. -/
def dec (self round_key : Block is32) : Block is32 := bitxor (pre_dec self zero) round_key
/-- src/aes_arm.rs:136-138 `enc_last`. -/
def enc_last (self round_key : Block is32) : Block is32 := bitxor (aese self zero) round_key
/-- src/aes_arm.rs:142-144 `dec_last`. -/
def dec_last (self round_key : Block is32) : Block is32 := bitxor (aesd self zero) round_key

end

/-- src/aes_arm.rs:159-167 `sub_word`. -/
def sub_word (input : U32) : U32 :=
  let input := vdupq_n_u32_bytes input
  let sub_input := vaeseq input (vdupq_n_u8 0)
  lane_u32 0 sub_input

/-- src/aes_arm.rs:183-184 (206-207, 215, 236-237, 247): first word of a group. -/
def first (old prev rcon : U32) : U32 := old ^^^ (sub_word prev).rotateRight 8 ^^^ rcon
/-- src/aes_arm.rs:241: fifth word of a group of 8. -/
def fifth (old prev : U32) : U32 := old ^^^ sub_word prev

/-- The `[AesBlock; N]` whose memory the columns are (src/aes_arm.rs:173-176,190 etc.). -/
def as_blocks (is32 : Bool) {N : Nat} (columns : Vector U32 (4 * N)) : Vector (Block is32) N :=
  (Columns.block_bytes .little columns).map fun b => ⟨b⟩

/-- src/aes_arm.rs:171-192 `keygen_128`. -/
def keygen_128 (is32 : Bool) (key : Vector U8 16) : M (Vector (Block is32) 11) := do
  pure (as_blocks is32 (N := 11) (← Columns.columns_128 first .little key))
/-- src/aes_arm.rs:194-222 `keygen_192`. -/
def keygen_192 (is32 : Bool) (key : Vector U8 24) : M (Vector (Block is32) 13) := do
  pure (as_blocks is32 (N := 13) (← Columns.columns_192 first .little key))
/-- src/aes_arm.rs:224-254 `keygen_256`. -/
def keygen_256 (is32 : Bool) (key : Vector U8 32) : M (Vector (Block is32) 15) := do
  pure (as_blocks is32 (N := 15) (← Columns.columns_256 first fifth first .little key))

/-- The API of the module. -/
instance (is32 : Bool) : AesBlock (Block is32) where
  new := new
  from_bytes := from_bytes
  store_to := store_to
  zero := zero
  is_zero := is_zero
  eq := eq
  bitand := bitand
  bitor := bitor
  bitxor := bitxor
  not := not
  enc := enc
  dec := dec
  enc_last := enc_last
  dec_last := dec_last
  pre := some ⟨pre_enc, pre_dec⟩
  mc := mc
  imc := imc
  keygen_128 := keygen_128 is32
  keygen_192 := keygen_192 is32
  keygen_256 := keygen_256 is32

end Aes.Arm
