import Verif.Model.Target
import Verif.Proofs.Table
import Verif.Proofs.Bitslice
import Verif.Proofs.Arm
import Verif.Proofs.Riscv64
import Verif.Proofs.Riscv32
import Verif.Proofs.NiWide
import Verif.Proofs.CipherProofs
import Verif.Spec.KeyVariants
/-! Which laws hold on which target. -/
namespace Aes.Target
open Rust AesSpec Fips197

instance (t : Target) : LawfulVec t.Block :=
  match t with
  | table => inferInstanceAs (LawfulVec Table.Block)
  | bitslice e => inferInstanceAs (LawfulVec (Bitslice.Block e))
  | x86 | x86Vaes | x86Vaes512 => inferInstanceAs (LawfulVec X86.Block)
  | arm is32 => inferInstanceAs (LawfulVec (Arm.Block is32))
  | riscv64 => inferInstanceAs (LawfulVec Riscv64.Block)
  | riscv32 => inferInstanceAs (LawfulVec Riscv32.Block)

instance (t : Target) : LawfulVec t.X2 :=
  match t with
  | table => inferInstanceAs (LawfulVec (DefaultX2.X2 Table.Block))
  | bitslice e => inferInstanceAs (LawfulVec (DefaultX2.X2 (Bitslice.Block e)))
  | x86 => inferInstanceAs (LawfulVec (DefaultX2.X2 X86.Block))
  | x86Vaes | x86Vaes512 => inferInstanceAs (LawfulVec NiX2.X2)
  | arm is32 => inferInstanceAs (LawfulVec (DefaultX2.X2 (Arm.Block is32)))
  | riscv64 => inferInstanceAs (LawfulVec (DefaultX2.X2 Riscv64.Block))
  | riscv32 => inferInstanceAs (LawfulVec (DefaultX2.X2 Riscv32.Block))

instance (t : Target) : LawfulVec t.X4 :=
  match t with
  | table => inferInstanceAs (LawfulVec (DefaultX4.X4 (DefaultX2.X2 Table.Block)))
  | bitslice e => inferInstanceAs (LawfulVec (DefaultX4.X4 (DefaultX2.X2 (Bitslice.Block e))))
  | x86 => inferInstanceAs (LawfulVec (DefaultX4.X4 (DefaultX2.X2 X86.Block)))
  | x86Vaes => inferInstanceAs (LawfulVec (DefaultX4.X4 NiX2.X2))
  | x86Vaes512 => inferInstanceAs (LawfulVec NiX4.X4)
  | arm is32 => inferInstanceAs (LawfulVec (DefaultX4.X4 (DefaultX2.X2 (Arm.Block is32))))
  | riscv64 => inferInstanceAs (LawfulVec (DefaultX4.X4 (DefaultX2.X2 Riscv64.Block)))
  | riscv32 => inferInstanceAs (LawfulVec (DefaultX4.X4 (DefaultX2.X2 Riscv32.Block)))

instance (t : Target) : LawfulX2 t.X2 :=
  match t with
  | table => inferInstanceAs (LawfulX2 (DefaultX2.X2 Table.Block))
  | bitslice e => inferInstanceAs (LawfulX2 (DefaultX2.X2 (Bitslice.Block e)))
  | x86 => inferInstanceAs (LawfulX2 (DefaultX2.X2 X86.Block))
  | x86Vaes | x86Vaes512 => inferInstanceAs (LawfulX2 NiX2.X2)
  | arm is32 => inferInstanceAs (LawfulX2 (DefaultX2.X2 (Arm.Block is32)))
  | riscv64 => inferInstanceAs (LawfulX2 (DefaultX2.X2 Riscv64.Block))
  | riscv32 => inferInstanceAs (LawfulX2 (DefaultX2.X2 Riscv32.Block))

instance (t : Target) : LawfulX4 t.X4 :=
  match t with
  | table => inferInstanceAs (LawfulX4 (DefaultX4.X4 (DefaultX2.X2 Table.Block)))
  | bitslice e => inferInstanceAs (LawfulX4 (DefaultX4.X4 (DefaultX2.X2 (Bitslice.Block e))))
  | x86 => inferInstanceAs (LawfulX4 (DefaultX4.X4 (DefaultX2.X2 X86.Block)))
  | x86Vaes => inferInstanceAs (LawfulX4 (DefaultX4.X4 NiX2.X2))
  | x86Vaes512 => inferInstanceAs (LawfulX4 NiX4.X4)
  | arm is32 => inferInstanceAs (LawfulX4 (DefaultX4.X4 (DefaultX2.X2 (Arm.Block is32))))
  | riscv64 => inferInstanceAs (LawfulX4 (DefaultX4.X4 (DefaultX2.X2 Riscv64.Block)))
  | riscv32 => inferInstanceAs (LawfulX4 (DefaultX4.X4 (DefaultX2.X2 Riscv32.Block)))

instance (t : Target) : LawfulEnc t.Block :=
  match t with
  | table => inferInstanceAs (LawfulEnc Table.Block)
  | bitslice e => inferInstanceAs (LawfulEnc (Bitslice.Block e))
  | x86 | x86Vaes | x86Vaes512 => inferInstanceAs (LawfulEnc X86.Block)
  | arm is32 => inferInstanceAs (LawfulEnc (Arm.Block is32))
  | riscv64 => inferInstanceAs (LawfulEnc Riscv64.Block)
  | riscv32 => inferInstanceAs (LawfulEnc Riscv32.Block)

theorem lawfulDec (t : Target) (ht : t ≠ riscv32) : LawfulDec t.Block :=
  match t, ht with
  | table, _ => inferInstanceAs (LawfulDec Table.Block)
  | bitslice e, _ => inferInstanceAs (LawfulDec (Bitslice.Block e))
  | x86, _ | x86Vaes, _ | x86Vaes512, _ => inferInstanceAs (LawfulDec X86.Block)
  | arm is32, _ => inferInstanceAs (LawfulDec (Arm.Block is32))
  | riscv64, _ => inferInstanceAs (LawfulDec Riscv64.Block)

theorem lawfulPre (t : Target) (ht : t ≠ riscv32) : LawfulPre t.Block :=
  match t, ht with
  | table, _ => inferInstanceAs (LawfulPre Table.Block)
  | bitslice e, _ => inferInstanceAs (LawfulPre (Bitslice.Block e))
  | x86, _ | x86Vaes, _ | x86Vaes512, _ => inferInstanceAs (LawfulPre X86.Block)
  | arm is32, _ => inferInstanceAs (LawfulPre (Arm.Block is32))
  | riscv64, _ => inferInstanceAs (LawfulPre Riscv64.Block)

theorem lawfulKeygen (t : Target) (ht : t ≠ riscv32) (hb : t ≠ bitslice .big) : LawfulKeygen t.Block :=
  match t, ht, hb with
  | table, _, _ => inferInstanceAs (LawfulKeygen Table.Block)
  | bitslice .little, _, _ => inferInstanceAs (LawfulKeygen (Bitslice.Block .little))
  | x86, _, _ | x86Vaes, _, _ | x86Vaes512, _, _ => inferInstanceAs (LawfulKeygen X86.Block)
  | arm is32, _, _ => inferInstanceAs (LawfulKeygen (Arm.Block is32))
  | riscv64, _, _ => inferInstanceAs (LawfulKeygen Riscv64.Block)

instance (t : Target) (w : Width) : LawfulVec (t.Vec w) :=
  match w with
  | .x1 => inferInstanceAs (LawfulVec t.Block)
  | .x2 => inferInstanceAs (LawfulVec t.X2)
  | .x4 => inferInstanceAs (LawfulVec t.X4)

theorem lawfulPreVec (t : Target) (ht : t ≠ riscv32) (w : Width) : LawfulPre (t.Vec w) :=
  have := t.lawfulPre ht
  match w with
  | .x1 => inferInstanceAs (LawfulPre t.Block)
  | .x2 => inferInstanceAs (LawfulPre t.X2)
  | .x4 => inferInstanceAs (LawfulPre t.X4)

/-- What each target does to `temp` in the key expansion (`nk` words of key). -/
def temp : Target → (nk : Nat) → Nat → Word → Word
  | bitslice .big, nk => bigTemp nk
  | riscv32, nk => if nk = 8 then norotTemp256 else norotTemp nk
  | _, nk => stdTemp nk

theorem keyExpansionWith_std' (nk : Nat) {n : Nat} (key : Vector Byte n) :
    keyExpansionWith (stdTemp nk) nk key = keyExpansion nk key := funext (keyExpansionWith_std nk key)

theorem temp_std (t : Target) (ht : t ≠ riscv32) (hb : t ≠ bitslice .big) (nk : Nat) : t.temp nk = stdTemp nk := by
  cases t with
  | bitslice e => cases e <;> first | rfl | exact absurd rfl hb
  | riscv32 => exact absurd rfl ht
  | _ => rfl

/-- Key setup on every target. -/
theorem keygen_128_all (t : Target) (key : Vector U8 16) : (AesBlock.keygen_128 key : M (Vector t.Block 11)) =
    .ok (Vector.ofFn fun r => ofB (roundKeyBytes (keyExpansionWith (t.temp 4) 4 key) r)) := by
  by_cases ht : t = riscv32
  · subst ht; exact Riscv32.keygen_128_ok key
  · by_cases hb : t = bitslice .big
    · subst hb; exact Bitslice.keygen_128_be key
    · have := lawfulKeygen t ht hb
      rw [LawfulKeygen.keygen_128_eq, temp_std t ht hb, keyExpansionWith_std']
theorem keygen_192_all (t : Target) (key : Vector U8 24) : (AesBlock.keygen_192 key : M (Vector t.Block 13)) =
    .ok (Vector.ofFn fun r => ofB (roundKeyBytes (keyExpansionWith (t.temp 6) 6 key) r)) := by
  by_cases ht : t = riscv32
  · subst ht; exact Riscv32.keygen_192_ok key
  · by_cases hb : t = bitslice .big
    · subst hb; exact Bitslice.keygen_192_be key
    · have := lawfulKeygen t ht hb
      rw [LawfulKeygen.keygen_192_eq, temp_std t ht hb, keyExpansionWith_std']
theorem keygen_256_all (t : Target) (key : Vector U8 32) : (AesBlock.keygen_256 key : M (Vector t.Block 15)) =
    .ok (Vector.ofFn fun r => ofB (roundKeyBytes (keyExpansionWith (t.temp 8) 8 key) r)) := by
  by_cases ht : t = riscv32
  · subst ht; exact Riscv32.keygen_256_ok key
  · by_cases hb : t = bitslice .big
    · subst hb; exact Bitslice.keygen_256_be key
    · have := lawfulKeygen t ht hb
      rw [LawfulKeygen.keygen_256_eq, temp_std t ht hb, keyExpansionWith_std']

end Aes.Target
