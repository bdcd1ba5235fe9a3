import Verif.Proofs.Mem
import Verif.Properties.KeySchedule
/-!
C48: the `unsafe` key expansions on raw memory. In `Verif/Model/Mem.lean` the array of round keys is an allocation of bytes at
an address `base` that the compiler chose, the `&mut [u32]` made by `slice::from_raw_parts_mut` is an address and a length,
and every access outside the allocation or at a misaligned address is undefined behaviour (`.error .ub`).

The compiler aligns `[AesBlock; N]` as `AesBlock`, whose alignment is a multiple of 4 on every target (`align(16)` on riscv32, that of
`uint8x16_t` on Arm, that of `u128` in the bit-sliced code), so `base % 4 = 0`.
-/
namespace Aes
open Rust AesSpec Fips197 AesVec AesBlock Target

/-- C48, bit-sliced code: wherever the array of round keys is placed, key expansion accesses only its memory, aligned, and gives
what the API-level key expansion gives (which C09 and C42 relate to FIPS-197). Every key, both endiannesses. -/
theorem C48_bitslice (e : Endian) (base : Nat) (hb : base % 4 = 0) (k16 : Bytes 16) (k24 : Bytes 24) (k32 : Bytes 32) :
    (Mem.bitslice_128 e base k16 = keygen_128 (B := (Target.bitslice e).Block) k16 ∧ ∃ r, Mem.bitslice_128 e base k16 = .ok r) ∧
    (Mem.bitslice_192 e base k24 = keygen_192 (B := (Target.bitslice e).Block) k24 ∧ ∃ r, Mem.bitslice_192 e base k24 = .ok r) ∧
    (Mem.bitslice_256 e base k32 = keygen_256 (B := (Target.bitslice e).Block) k32 ∧ ∃ r, Mem.bitslice_256 e base k32 = .ok r) := by
  have h1 : Mem.bitslice_128 e base k16 = keygen_128 (B := (Target.bitslice e).Block) k16 := by
    unfold Mem.bitslice_128
    simp only [Mem.expand_128_image hb, bind_assoc, pure_bind, Mem.blocks_image (N := 11)]; rfl
  have h2 : Mem.bitslice_192 e base k24 = keygen_192 (B := (Target.bitslice e).Block) k24 := by
    unfold Mem.bitslice_192
    simp only [Mem.expand_192_image hb, bind_assoc, pure_bind, Mem.blocks_image (N := 13)]; rfl
  have h3 : Mem.bitslice_256 e base k32 = keygen_256 (B := (Target.bitslice e).Block) k32 := by
    unfold Mem.bitslice_256
    simp only [Mem.expand_256_image hb, bind_assoc, pure_bind, Mem.blocks_image (N := 15)]; rfl
  exact ⟨⟨h1, _, h1.trans (Target.keygen_128_all _ _)⟩, ⟨h2, _, h2.trans (Target.keygen_192_all _ _)⟩,
    ⟨h3, _, h3.trans (Target.keygen_256_all _ _)⟩⟩
/-- C48, Arm. -/
theorem C48_arm (is32 : Bool) (base : Nat) (hb : base % 4 = 0) (k16 : Bytes 16) (k24 : Bytes 24) (k32 : Bytes 32) :
    (Mem.arm_128 is32 base k16 = keygen_128 (B := (Target.arm is32).Block) k16 ∧ ∃ r, Mem.arm_128 is32 base k16 = .ok r) ∧
    (Mem.arm_192 is32 base k24 = keygen_192 (B := (Target.arm is32).Block) k24 ∧ ∃ r, Mem.arm_192 is32 base k24 = .ok r) ∧
    (Mem.arm_256 is32 base k32 = keygen_256 (B := (Target.arm is32).Block) k32 ∧ ∃ r, Mem.arm_256 is32 base k32 = .ok r) := by
  have h1 : Mem.arm_128 is32 base k16 = keygen_128 (B := (Target.arm is32).Block) k16 := by
    unfold Mem.arm_128
    simp only [Mem.expand_128_image hb, bind_assoc, pure_bind, Mem.blocks_image (N := 11)]; rfl
  have h2 : Mem.arm_192 is32 base k24 = keygen_192 (B := (Target.arm is32).Block) k24 := by
    unfold Mem.arm_192
    simp only [Mem.expand_192_image hb, bind_assoc, pure_bind, Mem.blocks_image (N := 13)]; rfl
  have h3 : Mem.arm_256 is32 base k32 = keygen_256 (B := (Target.arm is32).Block) k32 := by
    unfold Mem.arm_256
    simp only [Mem.expand_256_image hb, bind_assoc, pure_bind, Mem.blocks_image (N := 15)]; rfl
  exact ⟨⟨h1, _, h1.trans (Target.keygen_128_all _ _)⟩, ⟨h2, _, h2.trans (Target.keygen_192_all _ _)⟩,
    ⟨h3, _, h3.trans (Target.keygen_256_all _ _)⟩⟩
/-- C48, riscv32. (The key schedule is wrong there, C41, but memory-safe.) -/
theorem C48_riscv32 (base : Nat) (hb : base % 4 = 0) (k16 : Bytes 16) (k24 : Bytes 24) (k32 : Bytes 32) :
    (Mem.riscv32_128 base k16 = keygen_128 (B := Target.riscv32.Block) k16 ∧ ∃ r, Mem.riscv32_128 base k16 = .ok r) ∧
    (Mem.riscv32_192 base k24 = keygen_192 (B := Target.riscv32.Block) k24 ∧ ∃ r, Mem.riscv32_192 base k24 = .ok r) ∧
    (Mem.riscv32_256 base k32 = keygen_256 (B := Target.riscv32.Block) k32 ∧ ∃ r, Mem.riscv32_256 base k32 = .ok r) := by
  have h1 : Mem.riscv32_128 base k16 = keygen_128 (B := Target.riscv32.Block) k16 := by
    unfold Mem.riscv32_128
    simp only [Mem.expand_128_image hb, bind_assoc, pure_bind, Mem.blocks_image (N := 11)]; rfl
  have h2 : Mem.riscv32_192 base k24 = keygen_192 (B := Target.riscv32.Block) k24 := by
    unfold Mem.riscv32_192
    simp only [Mem.expand_192_image hb, bind_assoc, pure_bind, Mem.blocks_image (N := 13)]; rfl
  have h3 : Mem.riscv32_256 base k32 = keygen_256 (B := Target.riscv32.Block) k32 := by
    unfold Mem.riscv32_256
    simp only [Mem.expand_256_image hb, bind_assoc, pure_bind, Mem.blocks_image (N := 15)]; rfl
  exact ⟨⟨h1, _, h1.trans (Target.keygen_128_all _ _)⟩, ⟨h2, _, h2.trans (Target.keygen_192_all _ _)⟩,
    ⟨h3, _, h3.trans (Target.keygen_256_all _ _)⟩⟩

/-- C48: the alignment is needed: a slice of `u32` at an address that is not a multiple of 4 is undefined behaviour, for any
formulas, endianness and key. So is a slice longer than the memory of the array. -/
theorem C48_needs_alignment (first tail : U32 → U32 → U32 → U32) (fifth : U32 → U32 → U32) (e : Endian) (base : Nat)
    (hb : base % 4 ≠ 0) (k16 : Bytes 16) (k24 : Bytes 24) (k32 : Bytes 32) :
    Mem.expand_128 first e base k16 = .error .ub ∧ Mem.expand_192 first e base k24 = .error .ub ∧
    Mem.expand_256 first tail fifth e base k32 = .error .ub := by
  have h : ∀ N len, Mem.from_raw_parts_mut (Mem.zeroed base N) len = .error .ub := by
    intro N len
    unfold Mem.from_raw_parts_mut
    rw [if_neg]
    rintro ⟨_, h⟩
    exact hb h
  refine ⟨?_, ?_, ?_⟩
  · unfold Mem.expand_128; simp only [h]; rfl
  · unfold Mem.expand_192; simp only [h]; rfl
  · unfold Mem.expand_256; simp only [h]; rfl
/-- C48: the lengths given in the code (44, 52, 60) are exactly the number of words in the arrays; one more would be undefined
behaviour. -/
theorem C48_exact_length (base : Nat) (hb : base % 4 = 0) (N len : Nat) :
    (∃ s, Mem.from_raw_parts_mut (Mem.zeroed base N) len = .ok s) ↔ len ≤ 4 * N := by
  unfold Mem.from_raw_parts_mut Mem.Alloc.covers
  simp only [Mem.zeroed, List.length_replicate]
  by_cases h : len ≤ 4 * N
  · rw [if_pos (by omega)]; exact ⟨fun _ => h, fun _ => ⟨_, rfl⟩⟩
  · rw [if_neg (by omega)]; exact ⟨fun ⟨_, h'⟩ => (by cases h'), fun h' => absurd h' h⟩

/-- Concrete: addresses the hypothesis admits, and one it does not. -/
example : (0x7ffc3a10 % 4 = 0) ∧ (0x7ffc3a12 % 4 ≠ 0) := by decide
/-- Concrete: the memory after expanding the key of FIPS-197 A.1 at address 16 ends with the last round key of A.1. -/
example : (Mem.expand_128 Bitslice.first .little 16 #v[0x2b, 0x7e, 0x15, 0x16, 0x28, 0xae, 0xd2, 0xa6, 0xab, 0xf7, 0x15, 0x88,
    0x09, 0xcf, 0x4f, 0x3c]).map (fun m => m.bytes.drop 160) =
    .ok [0xd0, 0x14, 0xf9, 0xa8, 0xc9, 0xee, 0x25, 0x89, 0xe1, 0x3f, 0x0c, 0xc8, 0xb6, 0x63, 0x0c, 0xa6] := by decide +kernel
end Aes
