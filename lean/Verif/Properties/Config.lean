import Verif.Model.Config
import Verif.Properties.Cipher
/-!
C33: which implementation a configuration gets, and that the selected modules fit together, except on big-endian
AArch64/Arm with `aes`, where they do not (the refuted case).
-/
set_option linter.unusedSimpArgs false
namespace Aes
open Rust Config AesSpec Fips197

/-- The configurations in which the crate does not compile: Arm family with `aes`, big-endian. -/
def Config.Cfg.BigEndianArmAes (c : Cfg) : Prop :=
  c.endian = .big ∧ c.has .aes = true ∧
    (c.arch = .aarch64 ∨ c.arch = .arm64ec ∨ (c.arch = .arm ∧ c.nightly = true ∧ c.has .v8 = true))

/-- The README's requirements (README.md, "The implementations and their requirements"), read as a decision list in
the order of the README. -/
def Config.readme (c : Cfg) : Target :=
  let x86 := c.arch = .x86 ∨ c.arch = .x86_64
  if x86 ∧ c.nightly ∧ c.has .avx512f ∧ c.has .vaes then .x86Vaes512
  else if x86 ∧ c.nightly ∧ c.has .vaes then .x86Vaes
  else if x86 ∧ c.has .sse41 ∧ c.has .aes then .x86
  else if c.endian = .little ∧ c.has .aes ∧ (c.arch = .aarch64 ∨ c.arch = .arm64ec) then .arm false
  else if c.endian = .little ∧ c.has .aes ∧ c.arch = .arm ∧ c.has .v8 ∧ c.nightly then .arm true
  else if c.nightly ∧ c.arch = .riscv64 ∧ c.has .zkne ∧ c.has .zknd then .riscv64
  else if c.nightly ∧ c.arch = .riscv32 ∧ c.has .zkne ∧ c.has .zknd then .riscv32
  else if c.constantTime then .bitslice c.endian
  else .table

/-- C33: in every configuration other than big-endian Arm with `aes`, exactly the implementation the README
announces is selected, and the selected modules fit together. -/
theorem C33_readme (c : Cfg) (h : c.Valid) (hbe : ¬ c.BigEndianArmAes) : target c = some (readme c) := by
  obtain ⟨h1, h2, h3, h4, h5, h6, h7, h8⟩ := h
  obtain ⟨arch, endian, has, nightly, ct⟩ := c
  unfold Cfg.BigEndianArmAes at hbe
  unfold target resolves blockMod x2Mod x4Mod chainPre BlockMod.hasPre readme Cfg.isX86 Cfg.armFamily
  cases arch <;> cases endian <;> cases nightly <;>
    simp only [reduceCtorEq, beq_self_eq_true, Bool.true_and, Bool.false_and, Bool.or_true, Bool.or_false, Bool.and_true, Bool.and_false,
      Bool.false_or, Bool.true_or, if_true, if_false, true_and, and_true, false_and, and_false, true_or, or_true, false_or, or_false,
      not_true, not_false_eq_true, true_implies, false_implies] at * <;>
    grind

/-- C33: the modules fit together exactly outside big-endian Arm with `aes`. In that case the software `AesBlock` is selected
(it is the little-endian condition of src/lib.rs:59 that rejects `aes_arm`) but lib.rs:334-347 still selects the chain
functions that call `AesBlock::pre_enc`, which the software modules do not have. -/
theorem C33_unresolved_iff (c : Cfg) (h : c.Valid) : target c = none ↔ c.BigEndianArmAes := by
  constructor
  · intro hn
    apply Classical.byContradiction
    intro hbe
    rw [C33_readme c h hbe] at hn
    exact absurd hn (by simp)
  · rintro ⟨he, ha, hf⟩
    obtain ⟨arch, endian, has, nightly, ct⟩ := c
    simp only at he ha hf
    unfold target resolves blockMod x2Mod x4Mod chainPre BlockMod.hasPre Cfg.isX86 Cfg.armFamily
    rcases hf with hf | hf | ⟨hf, hn, hv⟩ <;> subst hf <;> subst he <;> cases ct <;> simp_all

/-- Big-endian AArch64 with `aes` (`aarch64_be-*` with `-C target-feature=+aes`). -/
def Config.aarch64be : Cfg :=
  { arch := .aarch64, endian := .big, has := fun f => f == .aes || f == .neon, nightly := false, constantTime := false }

/-- C33, refutation: the README promises the software implementation on big-endian AArch64 with `aes`, but the crate
does not compile there. -/
theorem C33_big_endian_arm_refuted : aarch64be.Valid ∧ readme aarch64be = .table ∧ target aarch64be = none := by
  refine ⟨⟨?_, ?_, ?_, ?_, ?_, ?_, ?_, ?_⟩, ?_, ?_⟩ <;> simp [aarch64be] <;> decide

/-- C33: the chain functions selected by src/lib.rs:334-347 are the `pre_enc` ones exactly when the selected
`AesBlock`, `AesBlockX2` and `AesBlockX4` have `pre_enc`, so the model of the chains (which looks at the latter) is right. -/
theorem C33_chain_pre (c : Cfg) (h : c.Valid) (t : Target) (ht : target c = some t) (w : Target.Width) :
    chainPre c = (AesVec.pre (T := t.Vec w)).isSome := by
  have hbe : ¬ c.BigEndianArmAes := fun hb => by
    rw [(C33_unresolved_iff c h).2 hb] at ht; exact absurd ht (by simp)
  have hp : chainPre c = (match readme c with | .arm _ | .riscv32 => true | _ => false) := by
    obtain ⟨h1, h2, h3, h4, h5, h6, h7, h8⟩ := h
    clear ht
    obtain ⟨arch, endian, has, nightly, ct⟩ := c
    unfold Cfg.BigEndianArmAes at hbe
    unfold chainPre readme Cfg.armFamily
    cases arch <;> cases endian <;> cases nightly <;>
      simp only [reduceCtorEq, beq_self_eq_true, Bool.true_and, Bool.false_and, Bool.or_true, Bool.or_false, Bool.and_true, Bool.and_false,
        Bool.false_or, Bool.true_or, if_true, if_false, true_and, and_true, false_and, and_false, true_or, or_true, false_or, or_false,
        not_true, not_false_eq_true, true_implies, false_implies] at * <;>
      grind
  rw [hp, ← Option.some.inj ((C33_readme c h hbe).symm.trans ht)]
  generalize readme c = r
  cases r <;> cases w <;> rfl

/-- C33: every instruction set extension that the selected modules use is enabled in the configuration, so no selected
module contains an instruction the target may lack. -/
theorem C33_features_enabled (c : Cfg) (h : c.Valid) :
    ∀ f ∈ (blockMod c).needs ++ (x2Mod c).needs ++ (x4Mod c).needs, c.has f = true := by
  obtain ⟨h1, h2, h3, h4, h5, h6, h7, h8⟩ := h
  obtain ⟨arch, endian, has, nightly, ct⟩ := c
  simp only at *
  intro f hf
  simp only [List.mem_append, or_assoc] at hf
  rcases hf with hf | hf | hf
  · simp only [blockMod, Cfg.isX86, Cfg.armFamily, BlockMod.needs] at hf
    split at hf
    · simp at hf
      grind
    · grind
    · grind
    · grind
    · simp at hf
    · simp at hf
  · simp only [x2Mod, Cfg.isX86, X2Mod.needs] at hf
    grind
  · simp only [x4Mod, Cfg.isX86, X4Mod.needs] at hf
    grind

/-- C33: every unstable compiler feature the selected modules rely on is switched on, and none is ever switched on
without the `nightly` cargo feature (so a stable compiler accepts the crate without it). -/
theorem C33_gates (c : Cfg) : (∀ g ∈ neededGates c, g ∈ gates c) ∧ (c.nightly = false → gates c = []) := by
  obtain ⟨arch, endian, has, nightly, ct⟩ := c
  unfold neededGates gates blockMod x2Mod x4Mod Cfg.isX86 Cfg.armFamily
  constructor
  · intro g hg
    simp only [List.mem_append, or_assoc] at hg ⊢
    rcases hg with hg | hg | hg
    · split at hg
      · grind
      · rename_i heq
        have : nightly = true ∧ arch = .riscv64 ∧ has .zkne = true ∧ has .zknd = true := by grind
        simp [this, hg]
      · rename_i heq
        have : nightly = true ∧ arch = .riscv32 ∧ has .zkne = true ∧ has .zknd = true := by grind
        simp [this, hg]
      all_goals simp at hg
    · grind
    · grind
  · intro hn
    simp only at hn
    subst hn
    simp

/-- C33: `constant-time` "has no effect if another implementation is selected" (Cargo.toml:14): switching it changes the
target only between `table` and `bitslice`. -/
theorem C33_constant_time_only_software (c : Cfg) (h : c.Valid) (t : Target)
    (ht : target { c with constantTime := false } = some t) :
    target { c with constantTime := true } = some (if t = .table then .bitslice c.endian else t) := by
  have hv : ∀ b, Cfg.Valid { c with constantTime := b } := fun b => ⟨h.1, h.2, h.3, h.4, h.5, h.6, h.7, h.8⟩
  have hbe : ¬ c.BigEndianArmAes := fun hb => by
    rw [(C33_unresolved_iff _ (hv false)).2 hb] at ht; exact absurd ht (by simp)
  rw [C33_readme _ (hv false) hbe] at ht
  rw [C33_readme _ (hv true) hbe, ← Option.some.inj ht]
  refine congrArg some ?_
  simp only [readme]
  grind

/-- A configuration for each target. -/
def Config.sample : Target → Cfg
  | .table => ⟨.other, .big, fun _ => false, false, false⟩
  | .bitslice e => ⟨.other, e, fun _ => false, false, true⟩
  | .x86 => ⟨.x86_64, .little, fun f => f == .sse2 || f == .ssse3 || f == .sse41 || f == .aes, false, false⟩
  | .x86Vaes => ⟨.x86_64, .little, fun f => f != .avx512f, true, false⟩
  | .x86Vaes512 => ⟨.x86, .little, fun _ => true, true, true⟩
  | .arm false => ⟨.aarch64, .little, fun f => f == .aes || f == .neon, false, false⟩
  | .arm true => ⟨.arm, .little, fun f => f == .aes || f == .neon || f == .v8, true, false⟩
  | .riscv64 => ⟨.riscv64, .little, fun f => f == .zkne || f == .zknd, true, false⟩
  | .riscv32 => ⟨.riscv32, .little, fun f => f == .zkne || f == .zknd, true, false⟩

/-- C33: every target of the model is selected by some valid configuration (none is vacuous). -/
theorem C33_every_target (t : Target) : (sample t).Valid ∧ target (sample t) = some t := by
  refine ⟨⟨?_, ?_, ?_, ?_, ?_, ?_, ?_, ?_⟩, ?_⟩ <;> rcases t with _ | e | _ | _ | _ | is32 | _ | _ <;>
    (try cases is32) <;> (try cases e) <;> simp [sample] <;> decide

/-- C33 with C01: on every configuration that compiles, other than RISC-V-32 with `zkne`/`zknd` under `nightly` and big-endian
software with `constant-time`, AES-128 encryption through the API is FIPS-197 AES-128. -/
theorem C33_configuration_encrypts (c : Cfg) (h : c.Valid) (hbe : ¬ c.BigEndianArmAes)
    (hrv : ¬ (c.arch = .riscv32 ∧ c.nightly = true ∧ c.has .zkne = true ∧ c.has .zknd = true))
    (hct : ¬ (c.endian = .big ∧ c.constantTime = true)) :
    ∃ t, target c = some t ∧ ∀ key pt : Bytes 16,
      (do
        let e : AesEnc t.Block 10 ← Aes128Enc.from key
        let ct ← e.encrypt_block (← AesVec.from_bytes pt)
        into_bytes ct) = .ok (Fips197.aes128 key pt) := by
  refine ⟨_, C33_readme c h hbe, fun key pt => C01_aes128_encrypt _ ?_ ?_ key pt⟩
  · simp only [readme]; grind
  · simp only [readme]; grind

end Aes
