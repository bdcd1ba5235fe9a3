import Verif.Properties.Types
import Verif.Properties.Mem
/-!
C69 and C48 together: the alignment that key expansion through raw memory needs (C48) is what the declarations give (C69), on every plausible ABI.
-/
namespace Aes
open Rust AesSpec AesVec AesBlock RustTypes RustSrc

/-- C69 with C48: the compiler puts the array of round keys at any address that its layout allows. The array is as large as the columns that key expansion
writes into it, and there key expansion through raw memory neither faults nor does anything but what C09 says. -/
theorem C69_key_expansion_in_memory (abi : Abi) (hp : abi.Plausible) (n s a base : Nat)
    (h : HasLayout abi structs (.array (.named "AesBlock") n) s a) (hb : a ∣ base) (e : Endian) (is32 : Bool)
    (k16 : Bytes 16) (k24 : Bytes 24) (k32 : Bytes 32) :
    s = 4 * (4 * n) ∧ (∃ r, Mem.from_raw_parts_mut (Mem.zeroed base n) (4 * n) = .ok r) ∧
    (∃ r11 r13 r15, Mem.bitslice_128 e base k16 = .ok r11 ∧ keygen_128 k16 = .ok r11 ∧
      Mem.bitslice_192 e base k24 = .ok r13 ∧ keygen_192 k24 = .ok r13 ∧ Mem.bitslice_256 e base k32 = .ok r15 ∧ keygen_256 k32 = .ok r15) ∧
    (∃ r11 r13 r15, Mem.arm_128 is32 base k16 = .ok r11 ∧ keygen_128 k16 = .ok r11 ∧
      Mem.arm_192 is32 base k24 = .ok r13 ∧ keygen_192 k24 = .ok r13 ∧ Mem.arm_256 is32 base k32 = .ok r15 ∧ keygen_256 k32 = .ok r15) ∧
    (∃ r11 r13 r15, Mem.riscv32_128 base k16 = .ok r11 ∧ keygen_128 k16 = .ok r11 ∧
      Mem.riscv32_192 base k24 = .ok r13 ∧ keygen_192 k24 = .ok r13 ∧ Mem.riscv32_256 base k32 = .ok r15 ∧ keygen_256 k32 = .ok r15) := by
  obtain ⟨hs, h4, -⟩ := (C69_layout abi hp s a).2.2.2.1 n h
  have hb4 : base % 4 = 0 := Nat.mod_eq_zero_of_dvd (Nat.dvd_trans h4 hb)
  refine ⟨by omega, (C48_exact_length base hb4 n (4 * n)).mpr (Nat.le_refl _), ?_, ?_, ?_⟩
  · obtain ⟨⟨e1, r1, h1⟩, ⟨e2, r2, h2⟩, ⟨e3, r3, h3⟩⟩ := C48_bitslice e base hb4 k16 k24 k32
    exact ⟨r1, r2, r3, h1, e1.symm.trans h1, h2, e2.symm.trans h2, h3, e3.symm.trans h3⟩
  · obtain ⟨⟨e1, r1, h1⟩, ⟨e2, r2, h2⟩, ⟨e3, r3, h3⟩⟩ := C48_arm is32 base hb4 k16 k24 k32
    exact ⟨r1, r2, r3, h1, e1.symm.trans h1, h2, e2.symm.trans h2, h3, e3.symm.trans h3⟩
  · obtain ⟨⟨e1, r1, h1⟩, ⟨e2, r2, h2⟩, ⟨e3, r3, h3⟩⟩ := C48_riscv32 base hb4 k16 k24 k32
    exact ⟨r1, r2, r3, h1, e1.symm.trans h1, h2, e2.symm.trans h2, h3, e3.symm.trans h3⟩

/-- The hypotheses are met: eleven blocks of one `u128` each, where a `u128` is aligned to 8 bytes (older compilers), at address 1000, which is not a multiple of 16. -/
example : ∃ abi : Abi, abi.Plausible ∧ HasLayout abi structs (.array (.named "AesBlock") 11) (11 * 16) 8 ∧ 8 ∣ 1000 := by
  refine ⟨fun p => if p = "u128" then (16, 8) else exAbi p, ⟨by decide, by decide, by decide, by decide, by decide, by decide, by decide⟩, ?_, by decide⟩
  have := HasLayout.prim (abi := fun p => if p = "u128" then (16, 8) else exAbi p) (structs := structs) (p := "u128")
  exact .array (.transparent (d := ⟨"AesBlock", "src/aes_bitslice.rs", 233, ["Copy", "Clone", "PartialEq", "Eq"], .transparent, [.prim "u128"]⟩)
    (by simp [structs]) rfl rfl rfl this)
end Aes
