import Verif.Model.Table
import Verif.Model.Bitslice
import Verif.Model.X86
import Verif.Model.Arm
import Verif.Model.Riscv64
import Verif.Model.Riscv32
import Verif.Model.DefaultX2
import Verif.Model.DefaultX4
import Verif.Model.NiX2
import Verif.Model.NiX4
/-
The combinations of modules that the `cfg_if!` ladders of src/lib.rs:44-121 can select, and the three
public types of each. `Verif/Model/Config.lean` models the ladders themselves and shows that every
configuration selects one of these.
-/
namespace Aes
open Rust

/-- A combination of modules. -/
inductive Target where
  /-- `aes_table_based` (no dependence on endianness), src/lib.rs:87-91 -/
  | table
  /-- `aes_bitslice` on a target of the given endianness, src/lib.rs:83-86 -/
  | bitslice (e : Endian)
  /-- `aes_x86` with `aesdefault_x2`, `aesdefault_x4`, src/lib.rs:45-52 -/
  | x86
  /-- `aes_x86` with `aesni_x2`, `aesdefault_x4`, src/lib.rs:95-101 -/
  | x86Vaes
  /-- `aes_x86` with `aesni_x2`, `aesni_x4`, src/lib.rs:108-116 -/
  | x86Vaes512
  /-- `aes_arm` on 64-bit (`is32 = false`) or 32-bit (`is32 = true`) Arm, src/lib.rs:53-64 -/
  | arm (is32 : Bool)
  /-- `aes_riscv64`, src/lib.rs:65-73 -/
  | riscv64
  /-- `aes_riscv32`, src/lib.rs:74-82 -/
  | riscv32
deriving DecidableEq, Repr

namespace Target

/-- `AesBlock` of the target (src/lib.rs:44-92). -/
def Block : Target → Type
  | table => Table.Block
  | bitslice e => Bitslice.Block e
  | x86 | x86Vaes | x86Vaes512 => X86.Block
  | arm is32 => Arm.Block is32
  | riscv64 => Riscv64.Block
  | riscv32 => Riscv32.Block

/-- `AesBlockX2` of the target (src/lib.rs:94-106). -/
def X2 : Target → Type
  | table => DefaultX2.X2 Table.Block
  | bitslice e => DefaultX2.X2 (Bitslice.Block e)
  | x86 => DefaultX2.X2 X86.Block
  | x86Vaes | x86Vaes512 => NiX2.X2
  | arm is32 => DefaultX2.X2 (Arm.Block is32)
  | riscv64 => DefaultX2.X2 Riscv64.Block
  | riscv32 => DefaultX2.X2 Riscv32.Block

/-- `AesBlockX4` of the target (src/lib.rs:108-121). -/
def X4 : Target → Type
  | table => DefaultX4.X4 (DefaultX2.X2 Table.Block)
  | bitslice e => DefaultX4.X4 (DefaultX2.X2 (Bitslice.Block e))
  | x86 => DefaultX4.X4 (DefaultX2.X2 X86.Block)
  | x86Vaes => DefaultX4.X4 NiX2.X2
  | x86Vaes512 => NiX4.X4
  | arm is32 => DefaultX4.X4 (DefaultX2.X2 (Arm.Block is32))
  | riscv64 => DefaultX4.X4 (DefaultX2.X2 Riscv64.Block)
  | riscv32 => DefaultX4.X4 (DefaultX2.X2 Riscv32.Block)

/-- The selected `AesBlock` module's functions. -/
instance (t : Target) : AesBlock t.Block :=
  match t with
  | table => inferInstanceAs (AesBlock Table.Block)
  | bitslice e => inferInstanceAs (AesBlock (Bitslice.Block e))
  | x86 | x86Vaes | x86Vaes512 => inferInstanceAs (AesBlock X86.Block)
  | arm is32 => inferInstanceAs (AesBlock (Arm.Block is32))
  | riscv64 => inferInstanceAs (AesBlock Riscv64.Block)
  | riscv32 => inferInstanceAs (AesBlock Riscv32.Block)

/-- The selected `AesBlockX2` module's functions. -/
instance (t : Target) : AesBlockX2 t.Block t.X2 :=
  match t with
  | table => inferInstanceAs (AesBlockX2 Table.Block (DefaultX2.X2 Table.Block))
  | bitslice e => inferInstanceAs (AesBlockX2 (Bitslice.Block e) (DefaultX2.X2 (Bitslice.Block e)))
  | x86 => inferInstanceAs (AesBlockX2 X86.Block (DefaultX2.X2 X86.Block))
  | x86Vaes | x86Vaes512 => inferInstanceAs (AesBlockX2 X86.Block NiX2.X2)
  | arm is32 => inferInstanceAs (AesBlockX2 (Arm.Block is32) (DefaultX2.X2 (Arm.Block is32)))
  | riscv64 => inferInstanceAs (AesBlockX2 Riscv64.Block (DefaultX2.X2 Riscv64.Block))
  | riscv32 => inferInstanceAs (AesBlockX2 Riscv32.Block (DefaultX2.X2 Riscv32.Block))

/-- The selected `AesBlockX4` module's functions. -/
instance (t : Target) : AesBlockX4 t.Block t.X2 t.X4 :=
  match t with
  | table => inferInstanceAs (AesBlockX4 Table.Block (DefaultX2.X2 Table.Block) (DefaultX4.X4 (DefaultX2.X2 Table.Block)))
  | bitslice e => inferInstanceAs (AesBlockX4 (Bitslice.Block e) (DefaultX2.X2 (Bitslice.Block e))
      (DefaultX4.X4 (DefaultX2.X2 (Bitslice.Block e))))
  | x86 => inferInstanceAs (AesBlockX4 X86.Block (DefaultX2.X2 X86.Block) (DefaultX4.X4 (DefaultX2.X2 X86.Block)))
  | x86Vaes => inferInstanceAs (AesBlockX4 X86.Block NiX2.X2 (DefaultX4.X4 NiX2.X2))
  | x86Vaes512 => inferInstanceAs (AesBlockX4 X86.Block NiX2.X2 NiX4.X4)
  | arm is32 => inferInstanceAs (AesBlockX4 (Arm.Block is32) (DefaultX2.X2 (Arm.Block is32))
      (DefaultX4.X4 (DefaultX2.X2 (Arm.Block is32))))
  | riscv64 => inferInstanceAs (AesBlockX4 Riscv64.Block (DefaultX2.X2 Riscv64.Block)
      (DefaultX4.X4 (DefaultX2.X2 Riscv64.Block)))
  | riscv32 => inferInstanceAs (AesBlockX4 Riscv32.Block (DefaultX2.X2 Riscv32.Block)
      (DefaultX4.X4 (DefaultX2.X2 Riscv32.Block)))

/-- Which of the three public block types (src/lib.rs:213 `impl_common_ops!(AesBlock, 16, AesBlockX2, 32, AesBlockX4, 64)`). -/
inductive Width where
  /-- `AesBlock` -/
  | x1
  /-- `AesBlockX2` -/
  | x2
  /-- `AesBlockX4` -/
  | x4
deriving DecidableEq, Repr

/-- Size in bytes (src/lib.rs:213). -/
def Width.size : Width → Nat
  | x1 => 16
  | x2 => 32
  | x4 => 64

/-- The public block type of the given width. -/
def Vec (t : Target) : Width → Type
  | .x1 => t.Block
  | .x2 => t.X2
  | .x4 => t.X4

/-- Its operations. -/
instance (t : Target) (w : Width) : AesVec (t.Vec w) w.size :=
  match w with
  | .x1 => inferInstanceAs (AesVec t.Block 16)
  | .x2 => inferInstanceAs (AesVec t.X2 32)
  | .x4 => inferInstanceAs (AesVec t.X4 64)

end Target
end Aes
