import Verif.Properties.Config
import Verif.Properties.Leak
/-!
C34 with C33: which compilation configurations are constant time. README.md: "all the accelerated AES implementations are
constant-time", and the `constant-time` feature makes the software implementation so.
-/
namespace Aes
open Rust AesSpec Config Client Target
open Leak (leakage)

/-- README.md, "The implementations and their requirements": an accelerated implementation is found. -/
def Config.Cfg.Accelerated (c : Cfg) : Prop :=
  ((c.arch = .x86 ∨ c.arch = .x86_64) ∧ c.has .sse41 = true ∧ c.has .aes = true) ∨
  (c.endian = .little ∧ c.has .aes = true ∧
    (c.arch = .aarch64 ∨ c.arch = .arm64ec ∨ (c.arch = .arm ∧ c.has .v8 = true ∧ c.nightly = true))) ∨
  (c.nightly = true ∧ (c.arch = .riscv64 ∨ c.arch = .riscv32) ∧ c.has .zkne = true ∧ c.has .zknd = true)

/-- The table-based implementation is what is left when neither an accelerated implementation is found nor `constant-time` is
on. -/
theorem target_table_iff (c : Cfg) (h : c.Valid) (t : Target) (ht : target c = some t) :
    t = .table ↔ ¬ (c.constantTime = true ∨ c.Accelerated) := by
  have hbe : ¬ c.BigEndianArmAes := fun hb => by
    rw [(C33_unresolved_iff c h).2 hb] at ht; exact absurd ht (by simp)
  rw [C33_readme c h hbe] at ht
  obtain rfl := Option.some.inj ht
  obtain ⟨h1, h2, h3, h4, h5, h6, h7, h8⟩ := h
  obtain ⟨arch, endian, has, nightly, ct⟩ := c
  simp only [readme, Cfg.Accelerated] at *
  cases arch <;> cases endian <;> cases nightly <;> cases ct <;> simp at * <;> grind

/-- Key setup and encryption leak the same for all keys and plaintexts, for every key size and width; and so do key setup and
decryption. -/
def ConstantTime (t : Target) : Prop :=
  ∀ (k : KeySize) (w : Width) (key key' : Vector U8 k.bytes) (x x' : t.Vec w),
    (do let e ← Leak.encFromOf t.Block k key; Leak.encryptOf t e w x : Leak.L _).trace =
      (do let e ← Leak.encFromOf t.Block k key'; Leak.encryptOf t e w x' : Leak.L _).trace ∧
    (do let d ← Leak.decFromOf t.Block k key; Leak.decryptOf t d w x : Leak.L _).trace =
      (do let d ← Leak.decFromOf t.Block k key'; Leak.decryptOf t d w x' : Leak.L _).trace

/-- C34: a configuration that compiles is constant time exactly if the `constant-time` feature is on or an accelerated
implementation is found. -/
theorem C34_every_configuration (c : Cfg) (h : c.Valid) (t : Target) (ht : target c = some t) :
    ConstantTime t ↔ (c.constantTime = true ∨ c.Accelerated) := by
  have hi := target_table_iff c h t ht
  constructor
  · intro hc
    apply Classical.byContradiction
    intro hn
    obtain rfl := hi.2 hn
    have := (hc .k128 .x1 (Vector.replicate _ 0) (oneAt _ 15) (AesVec.zero : Table.Block) (AesVec.zero : Table.Block)).1
    revert this
    decide +kernel
  · intro hc k w key key' x x'
    have hne : t ≠ .table := fun e => hi.1 e hc
    exact ⟨C34_encrypt t hne k w key key' x x', C34_decrypt t hne k w key key' x x'⟩

/-- The calls whose leakage is not covered at all: formatting. -/
def Client.Call.formats : Call → Bool
  | .format1 .. | .format2 .. | .format4 .. | .formatE .. | .formatD .. => true
  | _ => false
/-- `==`. -/
def Client.Call.compares : Call → Bool
  | .eq .. => true
  | _ => false

/-- C34: with the `constant-time` feature or an accelerated implementation, whole programs: two programs that make the same
calls (with data of the same lengths), none of them formatting or `==`, leak the same. -/
theorem C34_programs (c : Cfg) (h : c.Valid) (t : Target) (ht : target c = some t) (hc : c.constantTime = true ∨ c.Accelerated)
    (client client' : Client) (n : Nat)
    (hshape : ∀ k, k < n →
      (client (observe (crate t) client k)).map Call.blank = (client' (observe (crate t) client' k)).map Call.blank)
    (hquiet : ∀ k, k < n → ∀ call, client (observe (crate t) client k) = some call →
      call.formats = false ∧ call.compares = false) :
    leakage t client n = leakage t client' n := by
  have hne : t ≠ .table := fun e => (target_table_iff c h t ht).1 e hc
  refine C34_constant_time t client client' n hshape fun k hk call hcall => ?_
  obtain ⟨h1, h2⟩ := hquiet k hk call hcall
  cases call <;> simp_all [Call.formats, Call.compares, Leak.silent]

/-- Both sides occur: the default build for a CPU without AES instructions is not constant time, with the feature it is, and a
build for Haswell is without. -/
example : (Config.target ⟨.x86_64, .little, fun f => f == .sse2, false, false⟩ = some .table) ∧ ¬ ConstantTime .table ∧
    ConstantTime (.bitslice .little) ∧ ConstantTime .x86 := by
  have h1 := C33_every_target .table
  have h2 := C33_every_target (.bitslice .little)
  have h3 := C33_every_target .x86
  refine ⟨by decide, fun h => ?_, ?_, ?_⟩
  · rcases (C34_every_configuration _ h1.1 _ h1.2).1 h with e | e
    · exact absurd e (by decide)
    · rcases e with ⟨e, _⟩ | ⟨e, _⟩ | ⟨e, _⟩ <;> revert e <;> decide
  · exact (C34_every_configuration _ h2.1 _ h2.2).2 (.inl (by decide))
  · exact (C34_every_configuration _ h3.1 _ h3.2).2 (.inr (.inl (by decide)))

end Aes
