import Verif.Gen.Items
import Verif.Proofs.GenLadders
import Verif.Properties.Config
/-!
C71: whatever the compilation flags, a user finds the same functions, with the same signatures, and the same trait implementations; except that on some
configurations, but not on others, a constant can be used as a pattern.
-/
namespace Aes
open RustTypes RustSrc
open Config (BlockMod X2Mod X4Mod)

namespace SameApi
/-- The file of each module; src/lib.rs:44-121 (`mod` declarations without `#[path]`). -/
def blockFile : BlockMod → String
  | .aes_x86 => "src/aes_x86.rs" | .aes_arm => "src/aes_arm.rs" | .aes_riscv64 => "src/aes_riscv64.rs"
  | .aes_riscv32 => "src/aes_riscv32.rs" | .aes_bitslice => "src/aes_bitslice.rs" | .aes_table_based => "src/aes_table_based.rs"
def x2File : X2Mod → String
  | .aesni_x2 => "src/aesni_x2.rs" | .aesdefault_x2 => "src/aesdefault_x2.rs"
def x4File : X4Mod → String
  | .aesni_x4 => "src/aesni_x4.rs" | .aesdefault_x4 => "src/aesdefault_x4.rs"
/-- What each module gives to users (generated: Gen/Items.lean); src/lib.rs:44-121 re-export the block types. -/
def blockApi : BlockMod → List (String × String)
  | .aes_x86 => api_aes_x86 | .aes_arm => api_aes_arm | .aes_riscv64 => api_aes_riscv64
  | .aes_riscv32 => api_aes_riscv32 | .aes_bitslice => api_aes_bitslice | .aes_table_based => api_aes_table_based
def x2Api : X2Mod → List (String × String)
  | .aesni_x2 => api_aesni_x2 | .aesdefault_x2 => api_aesdefault_x2
def x4Api : X4Mod → List (String × String)
  | .aesni_x4 => api_aesni_x4 | .aesdefault_x4 => api_aesdefault_x4
/-- src/lib.rs:333-424: what either branch of the chains gives to users. -/
def chainApi : Nat → List (String × String)
  | 0 => api_chain0 | _ => api_chain1
/-- What a configuration gives to users: the public functions (with signatures) and trait implementations of the modules its ladders select (src/lib.rs:44-121)
and of src/lib.rs itself. -/
def publicApi (c : Config.Cfg) : List (String × String) :=
  blockApi (Ladders.AesBlock c) ++ x2Api (Ladders.AesBlockX2 c) ++ x4Api (Ladders.AesBlockX4 c) ++ chainApi (Ladders.chain c) ++ api_lib
/-- The struct declarations a configuration compiles. -/
def compiled (c : Config.Cfg) : List Struct :=
  structs.filter fun d => d.file = blockFile (Ladders.AesBlock c) ∨ d.file = x2File (Ladders.AesBlockX2 c) ∨ d.file = x4File (Ladders.AesBlockX4 c) ∨
    d.file = "src/lib.rs"

theorem blocks_same (m m' : BlockMod) : blockApi m = blockApi m' := by cases m <;> cases m' <;> rfl
theorem x2s_same (m m' : X2Mod) : x2Api m = x2Api m' := by cases m <;> cases m' <;> rfl
theorem x4s_same (m m' : X4Mod) : x4Api m = x4Api m' := by cases m <;> cases m' <;> rfl
theorem chains_same (n m : Nat) : chainApi n = chainApi m := by
  rcases n with _ | n <;> rcases m with _ | m <;> rfl
end SameApi
open SameApi

/-- C71: two configurations offer the same functions, with the same signatures, and the same trait implementations. -/
theorem C71_same_api (c c' : Config.Cfg) : publicApi c = publicApi c' := by
  simp only [publicApi, blocks_same (Ladders.AesBlock c) (Ladders.AesBlock c'), x2s_same (Ladders.AesBlockX2 c) (Ladders.AesBlockX2 c'),
    x4s_same (Ladders.AesBlockX4 c) (Ladders.AesBlockX4 c'), chains_same (Ladders.chain c) (Ladders.chain c')]

namespace SameApi
/-- The declarations compiled with these modules. -/
def compiledOf (b : BlockMod) (x2 : X2Mod) (x4 : X4Mod) : List Struct :=
  structs.filter fun d => d.file = blockFile b ∨ d.file = x2File x2 ∨ d.file = x4File x4 ∨ d.file = "src/lib.rs"
def isInt : Ty → Bool
  | .prim p => integers.contains p
  | _ => false
set_option maxRecDepth 40000 in
theorem block_only (b : BlockMod) (x2 : X2Mod) (x4 : X4Mod) : ∀ d ∈ compiledOf b x2 x4, d.name = "AesBlock" → "PartialEq" ∈ d.derives →
    b ≠ .aes_x86 ∧ b ≠ .aes_arm := by
  cases b <;> cases x2 <;> cases x4 <;> decide
set_option maxRecDepth 40000 in
theorem block_some (b : BlockMod) (x2 : X2Mod) (x4 : X4Mod) : b ≠ .aes_x86 → b ≠ .aes_arm →
    ∃ d ∈ compiledOf b x2 x4, d.name = "AesBlock" ∧ "PartialEq" ∈ d.derives ∧ d.fields.all isInt = true := by
  cases b <;> cases x2 <;> cases x4 <;> decide
set_option maxRecDepth 40000 in
theorem x2_only (b : BlockMod) (x2 : X2Mod) (x4 : X4Mod) : ∀ d ∈ compiledOf b x2 x4, d.name = "AesBlockX2" → "PartialEq" ∈ d.derives →
    x2 = .aesdefault_x2 ∧ .named "AesBlock" ∈ d.fields := by
  cases b <;> cases x2 <;> cases x4 <;> decide
set_option maxRecDepth 40000 in
theorem x2_some (b : BlockMod) (x2 : X2Mod) (x4 : X4Mod) : x2 = .aesdefault_x2 →
    ∃ d ∈ compiledOf b x2 x4, d.name = "AesBlockX2" ∧ "PartialEq" ∈ d.derives ∧ ∀ f ∈ d.fields, f = .named "AesBlock" := by
  cases b <;> cases x2 <;> cases x4 <;> decide
set_option maxRecDepth 40000 in
theorem x4_only (b : BlockMod) (x2 : X2Mod) (x4 : X4Mod) : ∀ d ∈ compiledOf b x2 x4, d.name = "AesBlockX4" → "PartialEq" ∈ d.derives →
    x4 = .aesdefault_x4 ∧ .named "AesBlockX2" ∈ d.fields := by
  cases b <;> cases x2 <;> cases x4 <;> decide
set_option maxRecDepth 40000 in
theorem x4_some (b : BlockMod) (x2 : X2Mod) (x4 : X4Mod) : x4 = .aesdefault_x4 →
    ∃ d ∈ compiledOf b x2 x4, d.name = "AesBlockX4" ∧ "PartialEq" ∈ d.derives ∧ ∀ f ∈ d.fields, f = .named "AesBlockX2" := by
  cases b <;> cases x2 <;> cases x4 <;> decide
theorem isInt_pattern {ds : List Struct} : ∀ {f : Ty}, isInt f = true → AsPattern ds f
  | .prim _, h => .prim (List.contains_iff_mem.1 h)
end SameApi

/-- C71: a constant of type `AesBlock` can be a pattern except with the x86 and the Arm instructions (there `PartialEq` is written by hand); a constant of
type `AesBlockX2` or `AesBlockX4` if moreover the wide types are pairs and pairs of pairs. -/
theorem C71_patterns (c : Config.Cfg) :
    (AsPattern (compiled c) (.named "AesBlock") ↔ Config.blockMod c ≠ .aes_x86 ∧ Config.blockMod c ≠ .aes_arm) ∧
    (AsPattern (compiled c) (.named "AesBlockX2") ↔
      Config.x2Mod c = .aesdefault_x2 ∧ Config.blockMod c ≠ .aes_x86 ∧ Config.blockMod c ≠ .aes_arm) ∧
    (AsPattern (compiled c) (.named "AesBlockX4") ↔ Config.x4Mod c = .aesdefault_x4 ∧
      Config.x2Mod c = .aesdefault_x2 ∧ Config.blockMod c ≠ .aes_x86 ∧ Config.blockMod c ≠ .aes_arm) := by
  rw [← Ladders.AesBlock_eq, ← Ladders.AesBlockX2_eq, ← Ladders.AesBlockX4_eq]
  have h1 : AsPattern (compiled c) (.named "AesBlock") ↔ Ladders.AesBlock c ≠ .aes_x86 ∧ Ladders.AesBlock c ≠ .aes_arm := by
    constructor
    · rintro (_ | _ | ⟨hd, hn, he, _⟩)
      exact block_only _ _ _ _ hd hn he
    · rintro ⟨h, h'⟩
      obtain ⟨d, hd, hn, he, hf⟩ := block_some _ (Ladders.AesBlockX2 c) (Ladders.AesBlockX4 c) h h'
      exact .struct hd hn he fun f hm => isInt_pattern (List.all_eq_true.1 hf f hm)
  have h2 : AsPattern (compiled c) (.named "AesBlockX2") ↔
      Ladders.AesBlockX2 c = .aesdefault_x2 ∧ AsPattern (compiled c) (.named "AesBlock") := by
    constructor
    · rintro (_ | _ | ⟨hd, hn, he, hf⟩)
      have h := x2_only _ _ _ _ hd hn he
      exact ⟨h.1, hf _ h.2⟩
    · rintro ⟨h, h'⟩
      obtain ⟨d, hd, hn, he, hf⟩ := x2_some (Ladders.AesBlock c) _ (Ladders.AesBlockX4 c) h
      exact .struct hd hn he fun f hm => hf f hm ▸ h'
  have h4 : AsPattern (compiled c) (.named "AesBlockX4") ↔
      Ladders.AesBlockX4 c = .aesdefault_x4 ∧ AsPattern (compiled c) (.named "AesBlockX2") := by
    constructor
    · rintro (_ | _ | ⟨hd, hn, he, hf⟩)
      have h := x4_only _ _ _ _ hd hn he
      exact ⟨h.1, hf _ h.2⟩
    · rintro ⟨h, h'⟩
      obtain ⟨d, hd, hn, he, hf⟩ := x4_some (Ladders.AesBlock c) (Ladders.AesBlockX2 c) _ h
      exact .struct hd hn he fun f hm => hf f hm ▸ h'
  exact ⟨h1, h2.trans (and_congr_right fun _ => h1), h4.trans (and_congr_right fun _ => h2.trans (and_congr_right fun _ => h1))⟩

/-- C71: so a program that matches on a constant block can compile on a machine and no longer with another flag for the same machine: x86-64 without and with
`aes`, `sse4.1`. -/
theorem C71_flag_breaks_pattern : ∃ c c' : Config.Cfg, c.Valid ∧ c'.Valid ∧ c.arch = c'.arch ∧ c.endian = c'.endian ∧
    c.nightly = c'.nightly ∧ c.constantTime = c'.constantTime ∧ (∀ f, c.has f = true → c'.has f = true) ∧
    AsPattern (compiled c) (.named "AesBlock") ∧ ¬ AsPattern (compiled c') (.named "AesBlock") := by
  refine ⟨⟨.x86_64, .little, fun f => f == .sse2, false, false⟩, Config.sample .x86, ?_, (C33_every_target _).1, rfl, rfl, rfl, rfl, ?_,
    (C71_patterns _).1.2 (by decide), fun h => ((C71_patterns _).1.1 h).1 (by decide)⟩
  · refine ⟨?_, ?_, ?_, ?_, ?_, ?_, ?_, ?_⟩ <;> simp
  · intro f hf
    simp only [beq_iff_eq] at hf
    subst hf; decide

/-- The API is not empty, and it is a real list: 19 items of the block types, 20 of the pairs, 23 of the quadruples, 2 chains, 26 of `lib.rs`. -/
example (c : Config.Cfg) : (publicApi c).length = 90 ∧ ("AesBlock", "pub fn store_to ( self , dst : & mut [ u8 ] )") ∈ publicApi c := by
  rw [C71_same_api c (Config.sample .table)]; decide
end Aes
