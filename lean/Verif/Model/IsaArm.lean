import Verif.Rust
import Verif.Spec.Fips197
/-
Semantics of the Arm NEON/AES intrinsics src/aes_arm.rs uses, as documented in the Arm ACLE / Arm ARM.
Part of the trusted base. Only little-endian Arm is modelled: src/lib.rs selects src/aes_arm.rs only when
`target_endian = "little"`. A `uint8x16_t` is its sixteen byte lanes.
-/
namespace IsaArm
open Rust Fips197

/-- `uint8x16_t`. -/
abbrev U8x16 := Vector U8 16

/-- `vandq_u8`. -/
def vandq (a b : U8x16) : U8x16 := Vector.zipWith (· &&& ·) a b
/-- `vorrq_u8`. -/
def vorrq (a b : U8x16) : U8x16 := Vector.zipWith (· ||| ·) a b
/-- `veorq_u8`. -/
def veorq (a b : U8x16) : U8x16 := Vector.zipWith (· ^^^ ·) a b
/-- `vmvnq_u8`. -/
def vmvnq (a : U8x16) : U8x16 := a.map (~~~ ·)
/-- `vdupq_n_u8`. -/
def vdupq_n_u8 (x : U8) : U8x16 := Vector.replicate 16 x
/-- `vreinterpretq_u8_u32(vdupq_n_u32(x))` on a little-endian target: four copies of the bytes of `x`. -/
def vdupq_n_u32_bytes (x : U32) : U8x16 := Vector.ofFn fun i => (toLe 4 x)[i.val % 4]
/-- `vld1q_u8(ptr)`, `ptr` the start of `src`. -/
def vld1q_u8 (src : List U8) : M U8x16 := rawRead src 0 16
/-- `vst1q_u8(ptr, v)`, `ptr` the start of `dst`. -/
def vst1q_u8 (dst : List U8) (v : U8x16) : M (List U8) := rawWrite dst v
/-- `vgetq_lane_u32::<I>(vreinterpretq_u32_u8(a))` on a little-endian target (`I < 4`). -/
def lane_u32 (i : Fin 4) (a : U8x16) : U32 := fromLe 32 (Vector.ofFn fun j : Fin 4 => a[4 * i.val + j.val])
/-- `vgetq_lane_u64::<I>(vreinterpretq_u64_u8(a))` on a little-endian target (`I < 2`). -/
def lane_u64 (i : Fin 2) (a : U8x16) : U64 := fromLe 64 (Vector.ofFn fun j : Fin 8 => a[8 * i.val + j.val])
/-- `vaeseq_u8(data, key)`: SubBytes(ShiftRows(data ^ key)). -/
def vaeseq (data key : U8x16) : U8x16 :=
  State.toBytes (subBytes (shiftRows (State.ofBytes (veorq data key))))
/-- `vaesdq_u8(data, key)`: InvSubBytes(InvShiftRows(data ^ key)). -/
def vaesdq (data key : U8x16) : U8x16 :=
  State.toBytes (invSubBytes (invShiftRows (State.ofBytes (veorq data key))))
/-- `vaesmcq_u8`. -/
def vaesmcq (a : U8x16) : U8x16 := State.toBytes (mixColumns (State.ofBytes a))
/-- `vaesimcq_u8`. -/
def vaesimcq (a : U8x16) : U8x16 := State.toBytes (invMixColumns (State.ofBytes a))

end IsaArm
