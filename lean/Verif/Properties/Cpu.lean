import Verif.Proofs.InstrClient
import Verif.Properties.SourceLeak
import Verif.Gen.Calls
/-
C63: the binary only executes instructions that the CPU knows (README.md:30-40, "Unknown Instruction"). The instructions that a
run executes are the `instr` events of the translated source (C61); `AesSpec.available` says which CPU knows which instruction.
-/
namespace Aes
open Rust AesSpec Target Client Config
open Leak (silent Event)

/-- The instructions that the first `n` calls of a client execute, when it is linked against the source text compiled for target
`t`. -/
def executes (pf : Profile) (e : Endian) (t : Target) (client : Client) (n : Nat) (instr : String) : Prop :=
  Event.op (.instr instr) ∈ RustSrc.Leak.leakage pf e t client n

/-- What README.md:6-25 asks for, per implementation: the extensions that the CPU must implement. -/
def required : Target → List Feature
  | .table | .bitslice _ => []
  | .x86 => [.sse2, .ssse3, .sse41, .aes]
  | .x86Vaes => [.sse2, .ssse3, .sse41, .aes, .avx, .avx2, .vaes]
  | .x86Vaes512 => [.sse2, .ssse3, .sse41, .aes, .avx, .avx2, .vaes, .avx512f]
  | .arm _ => [.neon, .aes]
  | .riscv64 | .riscv32 => [.zkne, .zknd]

theorem names_extensions (t : Target) : ∀ n ∈ Leak.names t, ∃ fs ∈ extensions n, ∀ f ∈ fs, f ∈ required t := by
  cases t with
  | table => intro s h; cases h
  | bitslice _ => intro s h; cases h
  | arm b => cases b <;> decide +kernel
  | x86 => decide +kernel
  | x86Vaes => decide +kernel
  | x86Vaes512 => decide +kernel
  | riscv64 => decide +kernel
  | riscv32 => decide +kernel
theorem names_available (t : Target) (cpu : Cpu) (h : ∀ f ∈ required t, cpu f = true) : ∀ n ∈ Leak.names t, available cpu n = true := by
  intro n hn
  have hs : ∃ fs ∈ extensions n, ∀ f ∈ fs, f ∈ required t := names_extensions t n hn
  obtain ⟨fs, h1, h2⟩ := hs
  exact List.any_eq_true.mpr ⟨fs, h1, List.all_eq_true.mpr fun f hf => h f (h2 f hf)⟩

/-- C63: the portable implementations execute no instruction outside the base instruction set: they run on every CPU of the
architecture, whatever the client does. -/
theorem C63_portable (pf : Profile) (e : Endian) (t : Target) (ht : t = .table ∨ ∃ e', t = .bitslice e') (client : Client) (n : Nat)
    (instr : String) : ¬ executes pf e t client n instr := by
  unfold executes
  rw [C61_leakage]
  intro h
  refine Leak.only_run (ok := fun _ => False) t (fun n hn => ?_) client n _ h
  rcases ht with rfl | ⟨_, rfl⟩ <;> cases hn

/-- A client that uses every kind of instruction. -/
def demo : List Call := [.encFrom .k192 (Vector.replicate _ 0), .zero .x1, .zero .x2, .zero .x4, .is_zero .x1 1, .is_zero .x2 2, .bin .x1 .xor 1 1,
  .bin .x2 .xor 2 2, .bin .x4 .xor 3 3, .bin .x1 .enc 1 1, .bin .x1 .dec 1 1, .bin .x2 .enc 2 2]

/-- Instructions of `demo` that show each requirement. -/
def shows : Target → List String
  | .table | .bitslice _ => []
  | .x86 => ["pxor", "palignr", "ptest", "aesenc"]
  | .x86Vaes => ["pxor", "palignr", "ptest", "aesenc", "vptest ymm", "vpxor ymm", "vaesenc ymm"]
  | .x86Vaes512 => ["pxor", "palignr", "ptest", "aesenc", "vptest ymm", "vpxor ymm", "vaesenc ymm", "vpxorq zmm"]
  | .arm _ => ["eor", "aese"]
  | .riscv64 => ["aes64esm", "aes64dsm"]
  | .riscv32 => ["aes32esmi", "aes32dsmi"]

theorem demo_shows (t : Target) : ∀ s ∈ shows t, Event.op (.instr s) ∈ Leak.leakage t (script demo) 12 := by
  cases t with
  | table => intro s h; cases h
  | bitslice _ => intro s h; cases h
  | arm b => cases b <;> decide +kernel
  | x86 => decide +kernel
  | x86Vaes => decide +kernel
  | x86Vaes512 => decide +kernel
  | riscv64 => decide +kernel
  | riscv32 => decide +kernel

theorem shows_required (t : Target) : ∀ f ∈ required t, ∃ s ∈ shows t, extensions s = [[f]] := by
  cases t with
  | table => intro s h; cases h
  | bitslice _ => intro s h; cases h
  | arm b => cases b <;> decide +kernel
  | x86 => decide +kernel
  | x86Vaes => decide +kernel
  | x86Vaes512 => decide +kernel
  | riscv64 => decide +kernel
  | riscv32 => decide +kernel
theorem available_single {cpu : Cpu} {s : String} {f : Feature} (h : extensions s = [[f]]) : available cpu s = cpu f := by
  simp [available, h]

/-- C63: exactly which CPUs run the crate compiled for target `t`: those that implement the required extensions. On any other CPU
some program that uses the crate reaches an instruction that the CPU does not know. -/
theorem C63_runs_iff (pf : Profile) (e : Endian) (t : Target) (cpu : Cpu) :
    (∀ client n instr, executes pf e t client n instr → available cpu instr = true) ↔ ∀ f ∈ required t, cpu f = true := by
  unfold executes
  simp only [C61_leakage]
  constructor
  · intro h
    have hs := fun s hs => h (script demo) 12 s (demo_shows t s hs)
    intro f hf
    obtain ⟨s, h1, h2⟩ := shows_required t f hf
    exact (available_single (cpu := cpu) h2).symm.trans (hs s h1)
  · intro h client n instr hi
    exact Leak.only_run t (names_available t cpu h) client n _ hi

theorem required_enabled (c : Cfg) (h : c.Valid) (t : Target) (ht : target c = some t) : ∀ f ∈ required t, c.has f = true := by
  have hn := C33_features_enabled c h
  unfold target at ht
  revert ht hn
  generalize blockMod c = b
  generalize x2Mod c = x2
  generalize x4Mod c = x4
  generalize (c.arch == .arm) = is32
  split
  · intro ht hn f hf
    refine hn f ?_
    have ht := Option.some.inj ht
    subst ht
    revert hf
    cases b <;> cases x2 <;> cases x4 <;> cases f <;> simp [required, BlockMod.needs, X2Mod.needs, X4Mod.needs]
  · intro ht; cases ht

/-- C63: no "Unknown Instruction" (README.md:30-38). In every valid configuration that compiles, in every build profile: on a CPU that
implements the `target_feature`s that the configuration has, whatever the client does with the crate, every instruction that the
crate executes is known to the CPU. -/
theorem C63_no_unknown_instruction (pf : Profile) (c : Cfg) (h : c.Valid) (t : Target) (ht : RustSrc.selected c = some t) (cpu : Cpu)
    (hcpu : cpu.Supports c) (client : Client) (n : Nat) (instr : String) (hi : executes pf c.endian t client n instr) :
    available cpu instr = true := by
  rw [RustSrc.selected_eq] at ht
  exact (C63_runs_iff pf c.endian t cpu).2 (fun f hf => hcpu f (required_enabled c h t ht f hf)) client n instr hi

/-- The extension with the round instructions of each direction. -/
def roundExtension : Target → Option (Feature × Feature)
  | .table | .bitslice _ => none
  | .x86 | .x86Vaes | .x86Vaes512 | .arm _ => some (.aes, .aes)
  | .riscv64 | .riscv32 => some (.zkne, .zknd)

/-- Does the run execute an instruction that only exists with the extension? -/
def uses (t : Target) (f : Feature) (l : List Call) : Bool :=
  (Leak.leakage t (script l) 3).any fun
    | .op (.instr s) => extensions s == [[f]]
    | _ => false
theorem uses_all (t : Target) (k : KeySize) (w : Width) (f g : Feature) (h : roundExtension t = some (f, g)) :
    uses t f (encryptProgram k w (Vector.replicate _ 0) (Vector.replicate _ 0)) = true ∧
      uses t g (decryptProgram k w (Vector.replicate _ 0) (Vector.replicate _ 0)) = true := by
  cases t with
  | table => cases h
  | bitslice _ => cases h
  | arm b => cases h; cases b <;> cases k <;> cases w <;> decide +kernel
  | x86 => cases h; cases k <;> cases w <;> decide +kernel
  | x86Vaes => cases h; cases k <;> cases w <;> decide +kernel
  | x86Vaes512 => cases h; cases k <;> cases w <;> decide +kernel
  | riscv64 => cases h; cases k <;> cases w <;> decide +kernel
  | riscv32 => cases h; cases k <;> cases w <;> decide +kernel

theorem of_uses {pf : Profile} {e : Endian} {t : Target} {f : Feature} {l l' : List Call} (h : uses t f l' = true) {cpu : Cpu} (hf : cpu f = false)
    (hl : ∀ c ∈ l, silent t c = true) (hl' : ∀ c ∈ l', silent t c = true) (he : l.map Call.blank = l'.map Call.blank) :
    ∃ instr, executes pf e t (script l) 3 instr ∧ available cpu instr = false := by
  obtain ⟨ev, h1, h2⟩ := List.any_eq_true.mp h
  have hs : ∃ s, ev = .op (.instr s) ∧ extensions s = [[f]] := by
    split at h2
    · exact ⟨_, rfl, eq_of_beq h2⟩
    · cases h2
  obtain ⟨s, rfl, h3⟩ := hs
  refine ⟨s, ?_, (available_single h3).trans hf⟩
  unfold executes
  rw [C61_leakage, C34_blank t l hl, he, ← C34_blank t l' hl']
  exact h1

/-- C63: the crash that README.md:30-38 warns of is certain. On a CPU without the AES extension for which the crate was compiled, every
program that sets up a key of any size and encrypts one value of any width reaches an instruction that the CPU does not know,
whatever the key and the data; and so does every program that sets up a key and decrypts. -/
theorem C63_wrong_cpu_crashes (pf : Profile) (e : Endian) (t : Target) (f g : Feature) (ht : roundExtension t = some (f, g)) (cpu : Cpu)
    (k : KeySize) (w : Width) (key : Vector U8 k.bytes) (b : Vector U8 w.size) :
    (cpu f = false → ∃ instr, executes pf e t (script (encryptProgram k w key b)) 3 instr ∧ available cpu instr = false) ∧
    (cpu g = false → ∃ instr, executes pf e t (script (decryptProgram k w key b)) 3 instr ∧ available cpu instr = false) := by
  have hne : t ≠ .table := fun h => by subst h; cases ht
  have hs : ∀ k w key b, (∀ c ∈ encryptProgram k w key b, silent t c = true) ∧ (∀ c ∈ decryptProgram k w key b, silent t c = true) := by
    intro k w key b
    simp [encryptProgram, decryptProgram, silent, hne]
  have hu := uses_all t k w f g ht
  exact ⟨fun hf => of_uses hu.1 hf (hs ..).1 (hs ..).1 rfl, fun hg => of_uses hu.2 hg (hs ..).2 (hs ..).2 rfl⟩

/-- The family for which a module is written. -/
def family : BlockMod → Family
  | .aes_arm => .arm
  | .aes_riscv64 => .riscv64
  | .aes_riscv32 => .riscv32
  | _ => .x86
/-- The declaration matches the family and asks for no more than `fs`. -/
def within (fam : Family) (fs : List Feature) (i : String) : Bool :=
  match declared i with
  | some (fam', sets) => fam' == fam && sets.any fun s => s.all fun f => fs.contains f
  | none => false
theorem within_callable {c : Cfg} {fam : Family} {fs : List Feature} {i : String} (h : within fam fs i = true) (hf : fam.matches c = true)
    (hfs : ∀ f ∈ fs, c.has f = true) : callable c i = true := by
  unfold within at h
  unfold callable
  cases hd : declared i with
  | none => rw [hd] at h; cases h
  | some p =>
    obtain ⟨fam', sets⟩ := p
    rw [hd] at h
    have h := (Bool.and_eq_true _ _).mp h
    obtain rfl : fam' = fam := eq_of_beq h.1
    obtain ⟨s, h1, h2⟩ := List.any_eq_true.mp h.2
    refine (Bool.and_eq_true _ _).mpr ⟨hf, List.any_eq_true.mpr ⟨s, h1, List.all_eq_true.mpr fun f hff => hfs f ?_⟩⟩
    exact List.contains_iff_mem.mp (List.all_eq_true.mp h2 f hff)
theorem block_within : ∀ m : BlockMod, ∀ i ∈ RustSrc.Calls.block m, within (family m) m.needs i = true := by
  intro m
  cases m <;> decide +kernel
theorem x2_within : ∀ m : X2Mod, ∀ i ∈ RustSrc.Calls.x2 m, within .x86 m.needs i = true := by
  intro m
  cases m <;> decide +kernel
theorem x4_within : ∀ m : X4Mod, ∀ i ∈ RustSrc.Calls.x4 m, within .x86 m.needs i = true := by
  intro m
  cases m <;> decide +kernel
theorem block_family (c : Cfg) : RustSrc.Calls.block (blockMod c) = [] ∨ (family (blockMod c)).matches c = true := by
  obtain ⟨arch, endian, has, nightly, ct⟩ := c
  simp only [blockMod, Cfg.isX86, Cfg.armFamily]
  (repeat' split) <;> simp_all [family, Family.matches, RustSrc.Calls.block] <;> grind
theorem x2_family (c : Cfg) : RustSrc.Calls.x2 (x2Mod c) = [] ∨ Family.x86.matches c = true := by
  by_cases hc : (c.nightly && c.isX86 && c.has .vaes) = true
  · refine .inr ?_
    simp only [Bool.and_eq_true] at hc
    exact hc.1.2
  · refine .inl ?_
    unfold x2Mod
    rw [if_neg hc]
    rfl
theorem x4_family (c : Cfg) : RustSrc.Calls.x4 (x4Mod c) = [] ∨ Family.x86.matches c = true := by
  by_cases hc : (c.nightly && c.isX86 && c.has .avx512f && c.has .vaes) = true
  · refine .inr ?_
    simp only [Bool.and_eq_true] at hc
    exact hc.1.1.2
  · refine .inl ?_
    unfold x4Mod
    rw [if_neg hc]
    rfl

/-- C63: in every valid configuration, every intrinsic that the text of a selected module names (also the loads, stores, constants and
register moves, which are no events) exists for the architecture, and its target features are enabled: calling it is defined on every
CPU that the configuration is for. -/
theorem C63_intrinsics_callable (c : Cfg) (h : c.Valid) :
    (∀ i ∈ RustSrc.Calls.block (RustSrc.Ladders.AesBlock c), callable c i = true) ∧
    (∀ i ∈ RustSrc.Calls.x2 (RustSrc.Ladders.AesBlockX2 c), callable c i = true) ∧
    (∀ i ∈ RustSrc.Calls.x4 (RustSrc.Ladders.AesBlockX4 c), callable c i = true) := by
  have hn := C33_features_enabled c h
  refine ⟨fun i hi => ?_, fun i hi => ?_, fun i hi => ?_⟩
  · change i ∈ RustSrc.Calls.block (blockMod c) at hi
    refine within_callable (block_within _ i hi) ?_ fun f hf => hn f (by simp [hf])
    rcases block_family c with h0 | h0
    · rw [h0] at hi; cases hi
    · exact h0
  · change i ∈ RustSrc.Calls.x2 (x2Mod c) at hi
    refine within_callable (x2_within _ i hi) ?_ fun f hf => hn f (by simp [hf])
    rcases x2_family c with h0 | h0
    · rw [h0] at hi; cases hi
    · exact h0
  · change i ∈ RustSrc.Calls.x4 (x4Mod c) at hi
    refine within_callable (x4_within _ i hi) ?_ fun f hf => hn f (by simp [hf])
    rcases x4_family c with h0 | h0
    · rw [h0] at hi; cases hi
    · exact h0

/-! ### Concrete instances -/

/-- A CPU with AES-NI but without the 256-bit instructions (Westmere). -/
def westmere : Cpu
  | .sse2 | .ssse3 | .sse41 | .aes => true
  | _ => false
/-- It supports the build for AES-NI, and knows the `palignr` of the AES-192 key setup, ... -/
example : RustSrc.selected (sample .x86) = some .x86 ∧ (∀ f, (sample .x86).has f = true → westmere f = true) ∧
    (RustSrc.Leak.leakage .dev .little .x86 (script demo) 12).any (· == .op (.instr "palignr")) = true ∧
    available westmere "palignr" = true := by
  refine ⟨by decide +kernel, fun f => by cases f <;> decide +kernel, by decide +kernel, by decide +kernel⟩
/-- ... but not the build for VAES: some instruction of the demo program is unknown to it. -/
example : ∃ instr, executes .release .little .x86Vaes (script demo) 12 instr ∧ available westmere instr = false := by
  refine ⟨"vaesenc ymm", ?_, by decide +kernel⟩
  show _ ∈ _
  decide +kernel
/-- A CPU without any extension: the AES-NI build crashes on every encryption (`C63_wrong_cpu_crashes` applies). -/
example (key : Vector U8 16) (b : Vector U8 16) : ∃ instr, executes .release .little .x86 (script (encryptProgram .k128 .x1 key b)) 3 instr ∧
    available (fun _ => false) instr = false :=
  (C63_wrong_cpu_crashes .release .little .x86 .aes .aes rfl (fun _ => false) .k128 .x1 key b).1 rfl
/-- The instructions that the AES-256 key setup of the Arm build executes: 13 `dup`, `aese`, `umov` triples, and nothing else. -/
example : ((RustSrc.Leak.leakage .release .little (.arm false) (script [.encFrom .k256 (Vector.replicate _ 7)]) 1).filterMap fun
    | .op (.instr s) => some s
    | _ => none) = (List.replicate 13 ["dup", "aese", "umov"]).flatten := by
  decide +kernel
/-- The VAES build names an intrinsic that is not callable without AVX2. -/
example : "_mm256_and_si256" ∈ RustSrc.Calls.x2 (RustSrc.Ladders.AesBlockX2 (sample .x86Vaes)) ∧ callable (sample .x86Vaes) "_mm256_and_si256" = true ∧
    callable { sample .x86Vaes with has := westmere } "_mm256_and_si256" = false := by
  decide +kernel
end Aes
