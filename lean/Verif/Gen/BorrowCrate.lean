import Verif.Gen.Borrow
import Verif.Gen.Crate
/-
Which of the functions of Gen/Borrow.lean a build has. Hand-written.
-/
namespace RustSrc.Ptr
open Rust Aes.Borrow
open Aes.Target (Width)
open Aes (Target)

section
variable (pf : Aes.Profile) (e : Endian)

/-- `AesBlock::store_to` of the selected module (src/lib.rs:44-92). -/
def store1 (t : Target) : t.Block → Ref → B Unit :=
  match t with
  | .table => letI := cfg pf e .table; Table.store_to
  | .bitslice e' => letI := cfg pf e (.bitslice e'); Bitslice.store_to
  | .x86 => letI := cfg pf e .x86; X86.store_to
  | .x86Vaes => letI := cfg pf e .x86Vaes; X86.store_to
  | .x86Vaes512 => letI := cfg pf e .x86Vaes512; X86.store_to
  | .arm b => letI := cfg pf e (.arm b); Arm.store_to
  | .riscv64 => letI := cfg pf e .riscv64; Riscv64.store_to
  | .riscv32 => letI := cfg pf e .riscv32; Riscv32.store_to
/-- `AesBlockX2::store_to` (src/lib.rs:94-106). -/
def store2 (t : Target) : t.X2 → Ref → B Unit :=
  match t with
  | .table => letI := cfg pf e .table; DefaultX2.store_to (store1 pf e .table)
  | .bitslice e' => letI := cfg pf e (.bitslice e'); DefaultX2.store_to (store1 pf e (.bitslice e'))
  | .x86 => letI := cfg pf e .x86; DefaultX2.store_to (store1 pf e .x86)
  | .x86Vaes => letI := cfg pf e .x86Vaes; NiX2.store_to
  | .x86Vaes512 => letI := cfg pf e .x86Vaes512; NiX2.store_to
  | .arm b => letI := cfg pf e (.arm b); DefaultX2.store_to (store1 pf e (.arm b))
  | .riscv64 => letI := cfg pf e .riscv64; DefaultX2.store_to (store1 pf e .riscv64)
  | .riscv32 => letI := cfg pf e .riscv32; DefaultX2.store_to (store1 pf e .riscv32)
/-- `AesBlockX4::store_to` (src/lib.rs:108-121). -/
def store4 (t : Target) : t.X4 → Ref → B Unit :=
  match t with
  | .table => letI := cfg pf e .table; DefaultX4.store_to (store2 pf e .table)
  | .bitslice e' => letI := cfg pf e (.bitslice e'); DefaultX4.store_to (store2 pf e (.bitslice e'))
  | .x86 => letI := cfg pf e .x86; DefaultX4.store_to (store2 pf e .x86)
  | .x86Vaes => letI := cfg pf e .x86Vaes; DefaultX4.store_to (store2 pf e .x86Vaes)
  | .x86Vaes512 => letI := cfg pf e .x86Vaes512; NiX4.store_to
  | .arm b => letI := cfg pf e (.arm b); DefaultX4.store_to (store2 pf e (.arm b))
  | .riscv64 => letI := cfg pf e .riscv64; DefaultX4.store_to (store2 pf e .riscv64)
  | .riscv32 => letI := cfg pf e .riscv32; DefaultX4.store_to (store2 pf e .riscv32)
/-- `store_to` of the type of this width. -/
def store_to (t : Target) (w : Width) : t.Vec w → Ref → B Unit :=
  match w with
  | .x1 => store1 pf e t
  | .x2 => store2 pf e t
  | .x4 => store4 pf e t

/-- `try_from(&[u8])` (src/lib.rs:172-179); the conversion of the array is that of Gen/Crate.lean. -/
def try_from (t : Target) (w : Width) : Ref → B (Except Nat (t.Vec w)) :=
  match w with
  | .x1 => letI := cfg pf e t; AesBlock.try_from (block pf e t).from_bytes
  | .x2 => letI := cfg pf e t; AesBlockX2.try_from (blockX2 pf e t).from_bytes
  | .x4 => letI := cfg pf e t; AesBlockX4.try_from (blockX4 pf e t).from_bytes
/-- `from(&[u8; N])` (src/lib.rs:165-170). -/
def from_ref (t : Target) (w : Width) : Ref → B (t.Vec w) :=
  match w with
  | .x1 => letI := cfg pf e t; AesBlock.from_ref (block pf e t).from_bytes
  | .x2 => letI := cfg pf e t; AesBlockX2.from_ref (blockX2 pf e t).from_bytes
  | .x4 => letI := cfg pf e t; AesBlockX4.from_ref (blockX4 pf e t).from_bytes
/-- `<[u8; N]>::from` (src/lib.rs:181-188), with its local array at address `p`. -/
def into_bytes (t : Target) (w : Width) (p : Nat) : t.Vec w → B (Vector U8 w.size) :=
  match w with
  | .x1 => letI := cfg pf e t; AesBlock.into_bytes (store1 pf e t) p
  | .x2 => letI := cfg pf e t; AesBlockX2.into_bytes (store2 pf e t) p
  | .x4 => letI := cfg pf e t; AesBlockX4.into_bytes (store4 pf e t) p
/-- `from([u8; N])` with its argument at address `p`: in the narrow types of x86 and Arm, in the AES-NI wide types (src/aes_x86.rs:23-25, src/aes_arm.rs:24-26,
src/aesni_x2.rs:25-27, src/aesni_x4.rs:26-28) and in the default wide types, where it is `new` (src/aesdefault_x2.rs:12-14,76-81,
src/aesdefault_x4.rs:12-14,99-104), it is read through a pointer; in the others no pointer is made. Simplified: of the default wide types, only
the array of the outermost type is in this memory; the `new` of the narrower type is that of Gen/Crate.lean. -/
def from_array (t : Target) (w : Width) (p : Nat) : Vector U8 w.size → B (t.Vec w) :=
  match w, t with
  | .x1, .table => fun v => liftM ((block pf e .table).from_bytes v)
  | .x1, .bitslice e' => fun v => liftM ((block pf e (.bitslice e')).from_bytes v)
  | .x1, .x86 => letI := cfg pf e .x86; X86.from_array p
  | .x1, .x86Vaes => letI := cfg pf e .x86Vaes; X86.from_array p
  | .x1, .x86Vaes512 => letI := cfg pf e .x86Vaes512; X86.from_array p
  | .x1, .arm b => letI := cfg pf e (.arm b); Arm.from_array p
  | .x1, .riscv64 => fun v => liftM ((block pf e .riscv64).from_bytes v)
  | .x1, .riscv32 => fun v => liftM ((block pf e .riscv32).from_bytes v)
  | .x2, .table => letI := cfg pf e .table; DefaultX2.new (block pf e .table).new p
  | .x2, .bitslice e' => letI := cfg pf e (.bitslice e'); DefaultX2.new (block pf e (.bitslice e')).new p
  | .x2, .x86 => letI := cfg pf e .x86; DefaultX2.new (block pf e .x86).new p
  | .x2, .x86Vaes => letI := cfg pf e .x86Vaes; NiX2.from_array p
  | .x2, .x86Vaes512 => letI := cfg pf e .x86Vaes512; NiX2.from_array p
  | .x2, .arm b => letI := cfg pf e (.arm b); DefaultX2.new (block pf e (.arm b)).new p
  | .x2, .riscv64 => letI := cfg pf e .riscv64; DefaultX2.new (block pf e .riscv64).new p
  | .x2, .riscv32 => letI := cfg pf e .riscv32; DefaultX2.new (block pf e .riscv32).new p
  | .x4, .table => letI := cfg pf e .table; DefaultX4.new (blockX2 pf e .table).new p
  | .x4, .bitslice e' => letI := cfg pf e (.bitslice e'); DefaultX4.new (blockX2 pf e (.bitslice e')).new p
  | .x4, .x86 => letI := cfg pf e .x86; DefaultX4.new (blockX2 pf e .x86).new p
  | .x4, .x86Vaes => letI := cfg pf e .x86Vaes; DefaultX4.new (blockX2 pf e .x86Vaes).new p
  | .x4, .x86Vaes512 => letI := cfg pf e .x86Vaes512; NiX4.from_array p
  | .x4, .arm b => letI := cfg pf e (.arm b); DefaultX4.new (blockX2 pf e (.arm b)).new p
  | .x4, .riscv64 => letI := cfg pf e .riscv64; DefaultX4.new (blockX2 pf e .riscv64).new p
  | .x4, .riscv32 => letI := cfg pf e .riscv32; DefaultX4.new (blockX2 pf e .riscv32).new p

/-- `keygen_128` with its array at address `p` (src/aes_bitslice.rs:340-356, src/aes_arm.rs:171-192, src/aes_riscv32.rs:196-214); on the other targets
no pointer is made. -/
def keygen_128 (t : Target) (p : Nat) : Vector U8 16 → B (Vector t.Block 11) :=
  match t with
  | .bitslice e' => letI := cfg pf e (.bitslice e'); Bitslice.keygen_128 p
  | .arm b => letI := cfg pf e (.arm b); Arm.keygen_128 p
  | .riscv32 => letI := cfg pf e .riscv32; Riscv32.keygen_128 p
  | t => fun k => liftM ((block pf e t).keygen_128 k)
/-- `keygen_192` (src/aes_bitslice.rs:358-381, src/aes_arm.rs:194-222, src/aes_riscv32.rs:216-241). -/
def keygen_192 (t : Target) (p : Nat) : Vector U8 24 → B (Vector t.Block 13) :=
  match t with
  | .bitslice e' => letI := cfg pf e (.bitslice e'); Bitslice.keygen_192 p
  | .arm b => letI := cfg pf e (.arm b); Arm.keygen_192 p
  | .riscv32 => letI := cfg pf e .riscv32; Riscv32.keygen_192 p
  | t => fun k => liftM ((block pf e t).keygen_192 k)
/-- `keygen_256` (src/aes_bitslice.rs:383-408, src/aes_arm.rs:224-254, src/aes_riscv32.rs:243-270). -/
def keygen_256 (t : Target) (p : Nat) : Vector U8 32 → B (Vector t.Block 15) :=
  match t with
  | .bitslice e' => letI := cfg pf e (.bitslice e'); Bitslice.keygen_256 p
  | .arm b => letI := cfg pf e (.arm b); Arm.keygen_256 p
  | .riscv32 => letI := cfg pf e .riscv32; Riscv32.keygen_256 p
  | t => fun k => liftM ((block pf e t).keygen_256 k)
end
end RustSrc.Ptr
