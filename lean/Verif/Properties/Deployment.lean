import Verif.Properties.Client
import Verif.Properties.Config
import Verif.Properties.Tests
/-!
C33 with C29: from a compilation configuration (architecture, endianness, target features, cargo features) to everything a
client program can see.
-/
namespace Aes
open Rust Config Client Target Fips197

/-- RISC-V 32 with `zkne`, `zknd` and `nightly`. -/
def Config.Cfg.Rv32Zk (c : Cfg) : Prop := c.arch = .riscv32 ∧ c.nightly = true ∧ c.has .zkne = true ∧ c.has .zknd = true
/-- Big-endian with `constant-time`. -/
def Config.Cfg.BigConstantTime (c : Cfg) : Prop := c.endian = .big ∧ c.constantTime = true

open Classical in
/-- What a configuration gets, on plain bytes. -/
noncomputable def Config.behaviour (c : Cfg) : Impl :=
  if c.Rv32Zk then rv32
  else if c.BigConstantTime then reference fun k => keyExpansionWith (bigTemp k.words) k.words
  else aes

theorem readme_rv32 (c : Cfg) : readme c = .riscv32 ↔ c.Rv32Zk := by
  simp only [readme, Cfg.Rv32Zk]; grind
theorem readme_big (c : Cfg) (h : c.Valid) (hbe : ¬ c.BigEndianArmAes) : readme c = .bitslice .big ↔ c.BigConstantTime := by
  have h1 := h.littleOnly
  obtain ⟨arch, endian, has, nightly, ct⟩ := c
  simp only [readme, Cfg.BigConstantTime, Cfg.BigEndianArmAes] at *
  cases endian <;> cases arch <;> simp_all <;> grind

/-- C33: every valid configuration but those of `BigEndianArmAes` (which do not compile, `C33_unresolved_iff`) selects a target,
and what any client sees of it is decided by `behaviour`. -/
theorem C33_every_configuration (c : Cfg) (h : c.Valid) (hbe : ¬ c.BigEndianArmAes) :
    ∃ t, target c = some t ∧ ∀ client n, observe (crate t) client n = observe (behaviour c) client n := by
  refine ⟨_, C33_readme c h hbe, fun client n => ?_⟩
  unfold behaviour
  by_cases h1 : c.Rv32Zk
  · rw [if_pos h1, (readme_rv32 c).2 h1]; exact C29_riscv32 client n
  · rw [if_neg h1]
    by_cases h2 : c.BigConstantTime
    · rw [if_pos h2, (readme_big c h hbe).2 h2]; exact C29_big_endian client n
    · rw [if_neg h2]
      exact C29_refines_aes _ (fun e => h1 ((readme_rv32 c).1 e)) (fun e => h2 ((readme_big c h hbe).1 e)) client n

/-- C33: a valid configuration compiles and is AES for every client, exactly if it is none of the three exceptions. -/
theorem C33_is_aes_iff (c : Cfg) (h : c.Valid) :
    (∃ t, target c = some t ∧ ∀ client n, observe (crate t) client n = observe aes client n) ↔
      ¬ c.BigEndianArmAes ∧ ¬ c.Rv32Zk ∧ ¬ c.BigConstantTime := by
  by_cases hbe : c.BigEndianArmAes
  · constructor
    · rintro ⟨t, ht, _⟩
      rw [(C33_unresolved_iff c h).2 hbe] at ht; cases ht
    · exact fun hh => absurd hbe hh.1
  · have ht := C33_readme c h hbe
    constructor
    · rintro ⟨t, ht', hc⟩
      obtain rfl := Option.some.inj (ht.symm.trans ht')
      obtain ⟨h1, h2⟩ := (C29_is_aes_iff _).1 hc
      exact ⟨hbe, fun e => h1 ((readme_rv32 c).2 e), fun e => h2 ((readme_big c h hbe).2 e)⟩
    · rintro ⟨_, h1, h2⟩
      exact ⟨_, ht, (C29_is_aes_iff _).2 ⟨fun e => h1 ((readme_rv32 c).1 e), fun e => h2 ((readme_big c h hbe).1 e)⟩⟩

/-- C33: the cargo features do not matter to a client: any two ways of setting `nightly` and `constant-time` on the same machine
that compile and are not exceptions show it the same. -/
theorem C33_cargo_features_invisible (c : Cfg) (h : c.Valid) (nightly ct nightly' ct' : Bool) (t t' : Target)
    (ht : target { c with nightly := nightly, constantTime := ct } = some t)
    (ht' : target { c with nightly := nightly', constantTime := ct' } = some t')
    (hrv : ¬ c.arch = .riscv32 ∨ ¬ c.has .zkne ∨ ¬ c.has .zknd) (hbe : c.endian = .little) (client : Client) (n : Nat) :
    observe (crate t) client n = observe (crate t') client n := by
  have key : ∀ (a b : Bool) (u : Target), target { c with nightly := a, constantTime := b } = some u →
      observe (crate u) client n = observe aes client n := by
    intro a b u hu
    have hv : Cfg.Valid { c with nightly := a, constantTime := b } := ⟨h.1, h.2, h.3, h.4, h.5, h.6, h.7, h.8⟩
    obtain ⟨w, hw, hc⟩ := (C33_is_aes_iff _ hv).2 ⟨fun hb => by have := hb.1; simp [hbe] at this,
      fun hz => by obtain ⟨z1, _, z3, z4⟩ := hz; rcases hrv with e | e | e <;> exact e (by first | exact z1 | exact z3 | exact z4),
      fun hz => by have := hz.1; simp [hbe] at this⟩
    rw [hu] at hw
    cases hw
    exact hc client n
  rw [key _ _ _ ht, key _ _ _ ht']

/-- C51 with C29: the crate's own test suite passes on exactly those targets on which no client can ever see anything but
AES. (Eight targets, of course: that the suite separates them says nothing about other programs.) -/
theorem C51_suite_iff_aes (t : Target) : (∀ r ∈ Tests.all t, r = .ok ()) ↔
    ∀ client n, observe (crate t) client n = observe aes client n := by
  rw [C51_suite_decides, C29_is_aes_iff]

/-- A configuration as rustc makes it for `x86_64-unknown-linux-gnu` with `-C target-cpu=haswell`, default cargo features. -/
def exHaswell : Cfg := ⟨.x86_64, .little, fun f => [.sse2, .ssse3, .sse41, .aes, .avx, .avx2].contains f, false, false⟩
/-- It meets the hypotheses of the theorems above. -/
example : exHaswell.Valid ∧ ¬ exHaswell.BigEndianArmAes ∧ ¬ exHaswell.Rv32Zk ∧ ¬ exHaswell.BigConstantTime ∧
    target exHaswell = some .x86 := by
  refine ⟨⟨?_, ?_, ?_, ?_, ?_, ?_, ?_, ?_⟩, ?_, ?_, ?_, ?_⟩ <;>
    (try simp only [Cfg.BigEndianArmAes, Cfg.Rv32Zk, Cfg.BigConstantTime]) <;> decide
/-- With `nightly` and `constant-time` it still compiles, to the same target. -/
example : target { exHaswell with nightly := true, constantTime := true } = some .x86 := by decide
/-- Without `aes`, the cargo feature chooses between the two software implementations. -/
example : (Config.target ⟨.x86_64, .little, fun f => f == .sse2, false, false⟩ = some .table) ∧
    (Config.target ⟨.x86_64, .little, fun f => f == .sse2, false, true⟩ = some (.bitslice .little)) := by decide

end Aes
