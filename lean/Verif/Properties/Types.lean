import Verif.Gen.Items
/-!
C69: what the declared types promise, from the list of all items of the crate (`Gen/Items.lean`, generated from the source text).
-/
namespace Aes
open RustTypes RustSrc

namespace Types
/-- Made of primitives, structs of the crate, and arrays of such. -/
def plain : Ty → Bool
  | .prim _ => true
  | .named _ => true
  | .array t _ => plain t
  | .other _ => false
set_option maxRecDepth 20000 in
theorem no_drop_impl : ∀ i ∈ impls, i.trait ≠ some "Drop" := by decide
theorem fields_plain : ∀ d ∈ structs, ∀ f ∈ d.fields, plain f = true := by decide
theorem no_drop {t : Ty} (h : NeedsDrop items t) : plain t = true → False := by
  induction h with
  | impl hi ht _ => exact fun _ => no_drop_impl _ hi ht
  | field hd _ hf _ ih => exact fun _ => ih (fields_plain _ hd _ hf)
  | element _ ih => exact ih
  | other => exact nofun
set_option maxRecDepth 20000 in
theorem sober : ∀ i ∈ impls, i.isUnsafe = false ∧ i.negative = false := by decide
set_option maxRecDepth 40000 in
theorem no_copy_impl : ∀ i ∈ impls, i.trait ≠ some "Copy" ∧ i.trait ≠ some "Clone" := by decide
theorem block_decl : ∀ d ∈ structs, d.name = "AesBlock" →
    (d.repr = .transparent ∧ (d.fields = [.prim "uint8x16_t"] ∨ d.fields = [.prim "u128"] ∨ d.fields = [.prim "__m128i"])) ∨
    (d.repr = .c 16 ∧ (d.fields = [.prim "u32", .prim "u32", .prim "u32", .prim "u32"] ∨ d.fields = [.prim "u64", .prim "u64"])) := by decide
theorem x2_decl : ∀ d ∈ structs, d.name = "AesBlockX2" →
    (d.repr = .transparent ∧ d.fields = [.prim "__m256i"]) ∨ (d.repr = .c 32 ∧ d.fields = [.named "AesBlock", .named "AesBlock"]) := by decide
theorem x4_decl : ∀ d ∈ structs, d.name = "AesBlockX4" →
    (d.repr = .transparent ∧ d.fields = [.prim "__m512i"]) ∨ (d.repr = .c 32 ∧ d.fields = [.named "AesBlockX2", .named "AesBlockX2"]) := by decide
/-- The number of round keys. -/
def keysOf (name : String) : Option Nat :=
  if name = "Aes128Enc" ∨ name = "Aes128Dec" then some 11 else if name = "Aes192Enc" ∨ name = "Aes192Dec" then some 13
  else if name = "Aes256Enc" ∨ name = "Aes256Dec" then some 15 else none
theorem cipher_decl : ∀ d ∈ structs, d.name = "AesBlock" ∨ d.name = "AesBlockX2" ∨ d.name = "AesBlockX4" ∨
    (d.repr = .rust ∧ d.fields = [.array (.named "AesBlock") ((keysOf d.name).getD 0)] ∧ (keysOf d.name).isSome = true) := by decide
theorem named_of {abi : Abi} {n : String} {s a : Nat} (h : HasLayout abi structs (.named n) s a) :
    ∃ d ∈ structs, d.name = n ∧
      ((d.repr = .transparent ∧ ∃ f, d.fields = [f] ∧ HasLayout abi structs f s a) ∨
       (∃ align ls, d.repr = .c align ∧ ls.length = d.fields.length ∧ (∀ fl ∈ d.fields.zip ls, HasLayout abi structs fl.1 fl.2.1 fl.2.2) ∧
        a = cAlign align ls ∧ s = roundUp (cEnd 0 ls) (cAlign align ls)) ∨
       (d.repr = .rust ∧ ∃ f s' a', d.fields = [f] ∧ HasLayout abi structs f s' a' ∧ s' ≤ s ∧ a' ∣ a ∧ a ∣ s)) := by
  cases h with
  | transparent hd hn hr hf h => exact ⟨_, hd, hn, .inl ⟨hr, _, hf, h⟩⟩
  | c ls hd hn hr hl hz ha hs => exact ⟨_, hd, hn, .inr (.inl ⟨_, ls, hr, hl, hz, ha, hs⟩)⟩
  | rust hd hn hr hf h h1 h2 h3 => exact ⟨_, hd, hn, .inr (.inr ⟨hr, _, _, _, hf, h, h1, h2, h3⟩)⟩
theorem prim_of {abi : Abi} {p : String} {s a : Nat} (h : HasLayout abi structs (.prim p) s a) : s = (abi p).1 ∧ a = (abi p).2 := by
  cases h; exact ⟨rfl, rfl⟩
theorem array_of {abi : Abi} {t : Ty} {n s a : Nat} (h : HasLayout abi structs (.array t n) s a) :
    ∃ s', s = n * s' ∧ HasLayout abi structs t s' a := by
  cases h with | array h => exact ⟨_, rfl, h⟩
theorem pair_of {P : Ty → Nat × Nat → Prop} {f : Ty} {ls : List (Nat × Nat)} (hl : ls.length = [f, f].length)
    (h : ∀ fl ∈ [f, f].zip ls, P fl.1 fl.2) : ∃ l l', ls = [l, l'] ∧ P f l ∧ P f l' := by
  match ls, hl with
  | [l, l'], _ => exact ⟨l, l', rfl, h (f, l) (by simp), h (f, l') (by simp)⟩
theorem quad_of {P : Ty → Nat × Nat → Prop} {f : Ty} {ls : List (Nat × Nat)} (hl : ls.length = [f, f, f, f].length)
    (h : ∀ fl ∈ [f, f, f, f].zip ls, P fl.1 fl.2) : ∃ l1 l2 l3 l4, ls = [l1, l2, l3, l4] ∧ P f l1 ∧ P f l2 ∧ P f l3 ∧ P f l4 := by
  match ls, hl with
  | [l1, l2, l3, l4], _ => exact ⟨l1, l2, l3, l4, rfl, h (f, l1) (by simp), h (f, l2) (by simp), h (f, l3) (by simp), h (f, l4) (by simp)⟩

theorem block_layout {abi : Abi} (hp : abi.Plausible) {s a : Nat} (h : HasLayout abi structs (.named "AesBlock") s a) :
    s = 16 ∧ (a = 4 ∨ a = 8 ∨ a = 16) := by
  obtain ⟨d, hd, hn, h⟩ := named_of h
  have hdecl := block_decl d hd hn
  rcases h with ⟨hr, f, hf, h⟩ | ⟨align, ls, hr, hl, hz, ha, hs⟩ | ⟨hr, -⟩
  · rcases hdecl with ⟨-, h' | h' | h'⟩ | ⟨h', -⟩
    · rw [hf] at h'; cases h'; obtain ⟨rfl, rfl⟩ := prim_of h; exact ⟨hp.neon.1, .inr hp.neon.2⟩
    · rw [hf] at h'; cases h'; obtain ⟨rfl, rfl⟩ := prim_of h; exact hp.u128
    · rw [hf] at h'; cases h'; obtain ⟨rfl, rfl⟩ := prim_of h; rw [hp.m128]; exact ⟨rfl, .inr (.inr rfl)⟩
    · rw [hr] at h'; cases h'
  · rcases hdecl with ⟨h', -⟩ | ⟨h', h2 | h2⟩
    · rw [hr] at h'; cases h'
    · rw [hr] at h'; cases h'
      rw [h2] at hl hz
      obtain ⟨l1, l2, l3, l4, rfl, h1, h2, h3, h4⟩ := quad_of (P := fun f l => HasLayout abi structs f l.1 l.2) hl hz
      obtain ⟨e1, e1'⟩ := prim_of h1
      obtain ⟨e2, e2'⟩ := prim_of h2
      obtain ⟨e3, e3'⟩ := prim_of h3
      obtain ⟨e4, e4'⟩ := prim_of h4
      rw [hp.u32] at e1 e2 e3 e4 e1' e2' e3' e4'
      simp only [cAlign, List.foldl_cons, List.foldl_nil, cEnd, e1, e2, e3, e4, e1', e2', e3', e4'] at ha hs
      subst ha hs
      decide
    · rw [hr] at h'; cases h'
      rw [h2] at hl hz
      obtain ⟨l1, l2, rfl, h1, h2⟩ := pair_of (P := fun f l => HasLayout abi structs f l.1 l.2) hl hz
      obtain ⟨e1, e1'⟩ := prim_of h1
      obtain ⟨e2, e2'⟩ := prim_of h2
      obtain ⟨x, y | y⟩ := hp.u64 <;> rw [x] at e1 e2 <;> rw [y] at e1' e2' <;>
        simp only [cAlign, List.foldl_cons, List.foldl_nil, cEnd, e1, e2, e1', e2'] at ha hs <;> subst ha hs <;> decide
  · rcases hdecl with ⟨h', -⟩ | ⟨h', -⟩ <;> rw [hr] at h' <;> cases h'
theorem x2_layout {abi : Abi} (hp : abi.Plausible) {s a : Nat} (h : HasLayout abi structs (.named "AesBlockX2") s a) : s = 32 ∧ a = 32 := by
  obtain ⟨d, hd, hn, h⟩ := named_of h
  have hdecl := x2_decl d hd hn
  rcases h with ⟨hr, f, hf, h⟩ | ⟨align, ls, hr, hl, hz, ha, hs⟩ | ⟨hr, -⟩
  · rcases hdecl with ⟨-, h'⟩ | ⟨h', -⟩
    · rw [hf] at h'; cases h'; obtain ⟨rfl, rfl⟩ := prim_of h; rw [hp.m256]; exact ⟨rfl, rfl⟩
    · rw [hr] at h'; cases h'
  · rcases hdecl with ⟨h', -⟩ | ⟨h', h2⟩
    · rw [hr] at h'; cases h'
    · rw [hr] at h'; cases h'
      rw [h2] at hl hz
      obtain ⟨l1, l2, rfl, h1, h2⟩ := pair_of (P := fun f l => HasLayout abi structs f l.1 l.2) hl hz
      obtain ⟨e1, e1'⟩ := block_layout hp h1
      obtain ⟨e2, e2'⟩ := block_layout hp h2
      rcases e1' with y | y | y <;> rcases e2' with z | z | z <;>
        simp only [cAlign, List.foldl_cons, List.foldl_nil, cEnd, e1, e2, y, z] at ha hs <;> subst ha hs <;> decide
  · rcases hdecl with ⟨h', -⟩ | ⟨h', -⟩ <;> rw [hr] at h' <;> cases h'
theorem x4_layout {abi : Abi} (hp : abi.Plausible) {s a : Nat} (h : HasLayout abi structs (.named "AesBlockX4") s a) :
    s = 64 ∧ (a = 32 ∨ a = 64) := by
  obtain ⟨d, hd, hn, h⟩ := named_of h
  have hdecl := x4_decl d hd hn
  rcases h with ⟨hr, f, hf, h⟩ | ⟨align, ls, hr, hl, hz, ha, hs⟩ | ⟨hr, -⟩
  · rcases hdecl with ⟨-, h'⟩ | ⟨h', -⟩
    · rw [hf] at h'; cases h'; obtain ⟨rfl, rfl⟩ := prim_of h; rw [hp.m512]; exact ⟨rfl, .inr rfl⟩
    · rw [hr] at h'; cases h'
  · rcases hdecl with ⟨h', -⟩ | ⟨h', h2⟩
    · rw [hr] at h'; cases h'
    · rw [hr] at h'; cases h'
      rw [h2] at hl hz
      obtain ⟨l1, l2, rfl, h1, h2⟩ := pair_of (P := fun f l => HasLayout abi structs f l.1 l.2) hl hz
      obtain ⟨e1, y⟩ := x2_layout hp h1
      obtain ⟨e2, z⟩ := x2_layout hp h2
      simp only [cAlign, List.foldl_cons, List.foldl_nil, cEnd, e1, e2, y, z] at ha hs
      subst ha hs
      decide
  · rcases hdecl with ⟨h', -⟩ | ⟨h', -⟩ <;> rw [hr] at h' <;> cases h'
end Types
open Types

/-- C69: dropping a value of any type of the crate runs no code, in any configuration. -/
theorem C69_no_drop : ∀ d ∈ structs, ¬ NeedsDrop items (.named d.name) := fun _ _ h => Types.no_drop h rfl

/-- C69: every type of the crate may be sent to and shared between threads, moved, and used across a caught panic, because all that it is made of may;
the crate itself asserts none of this. -/
theorem C69_send_sync : (∀ trait ∈ ["Send", "Sync", "Unpin", "UnwindSafe", "RefUnwindSafe"], ∀ d ∈ structs, Auto items trait (.named d.name)) ∧
    ∀ i ∈ impls, i.isUnsafe = false ∧ i.negative = false := by
  refine ⟨fun trait _ => ?_, sober⟩
  have hn : ∀ n, ∀ i ∈ items.impls, i.trait = some trait → i.negative = true → ¬ i.isFor n := fun n i hi _ h => by
    rw [(sober i hi).2] at h; cases h
  have h1 : Auto items trait (.named "AesBlock") := .struct (by decide) (hn _) fun d hd e f hf => by
    rcases block_decl d hd e with ⟨-, h | h | h⟩ | ⟨-, h | h⟩ <;> rw [h] at hf <;> simp at hf <;> subst hf <;> exact .prim
  have h2 : Auto items trait (.named "AesBlockX2") := .struct (by decide) (hn _) fun d hd e f hf => by
    rcases x2_decl d hd e with ⟨-, h⟩ | ⟨-, h⟩ <;> rw [h] at hf <;> simp at hf <;> subst hf
    · exact .prim
    · exact h1
  have h4 : Auto items trait (.named "AesBlockX4") := .struct (by decide) (hn _) fun d hd e f hf => by
    rcases x4_decl d hd e with ⟨-, h⟩ | ⟨-, h⟩ <;> rw [h] at hf <;> simp at hf <;> subst hf
    · exact .prim
    · exact h2
  intro d hd
  rcases cipher_decl d hd with h | h | h | ⟨-, -, h⟩
  · rw [h]; exact h1
  · rw [h]; exact h2
  · rw [h]; exact h4
  · refine .struct ⟨d, hd, rfl⟩ (hn _) fun d' hd' e f hf => ?_
    rcases cipher_decl d' hd' with h' | h' | h' | ⟨-, h', -⟩
    · rw [← e, h'] at h; cases h
    · rw [← e, h'] at h; cases h
    · rw [← e, h'] at h; cases h
    · rw [h'] at hf; simp at hf; subst hf; exact .array h1

/-- C69: blocks are values (`Copy`); encrypters and decrypters are duplicated only where the program says `clone`. -/
theorem C69_copy : ∀ d ∈ structs, "Clone" ∈ d.derives ∧ ("Copy" ∈ d.derives ↔ d.name ∈ ["AesBlock", "AesBlockX2", "AesBlockX4"]) ∧
    ∀ i ∈ impls, i.trait ≠ some "Copy" ∧ i.trait ≠ some "Clone" := by
  have h : ∀ d ∈ structs, "Clone" ∈ d.derives ∧ ("Copy" ∈ d.derives ↔ d.name ∈ ["AesBlock", "AesBlockX2", "AesBlockX4"]) := by decide
  exact fun d hd => ⟨(h d hd).1, (h d hd).2, no_copy_impl⟩

/-- C69: the crate has no state of its own: its only statics are immutable tables of 256 integers. -/
theorem C69_no_global_state : ∀ s ∈ statics, s.mutable = false ∧ s.type = "[u32; 256]" := by decide

/-- C69: layout, in every configuration and for every plausible ABI. A block has 16 bytes and may be seen as columns of four bytes
(alignment 4, 8 or 16); pairs 32 and quadruples 64 bytes; an array of blocks has no gaps; an encrypter or decrypter has room for its round keys, as an array. -/
theorem C69_layout (abi : Abi) (hp : abi.Plausible) (s a : Nat) :
    (HasLayout abi structs (.named "AesBlock") s a → s = 16 ∧ (a = 4 ∨ a = 8 ∨ a = 16)) ∧
    (HasLayout abi structs (.named "AesBlockX2") s a → s = 32 ∧ a = 32) ∧
    (HasLayout abi structs (.named "AesBlockX4") s a → s = 64 ∧ (a = 32 ∨ a = 64)) ∧
    (∀ n, HasLayout abi structs (.array (.named "AesBlock") n) s a → s = 16 * n ∧ 4 ∣ a ∧ a ∣ 16) ∧
    (∀ c ∈ [("Aes128Enc", 11), ("Aes128Dec", 11), ("Aes192Enc", 13), ("Aes192Dec", 13), ("Aes256Enc", 15), ("Aes256Dec", 15)],
      HasLayout abi structs (.named c.1) s a → 16 * c.2 ≤ s ∧ 4 ∣ a ∧ a ∣ s) := by
  have harr : ∀ n s a, HasLayout abi structs (.array (.named "AesBlock") n) s a → s = 16 * n ∧ 4 ∣ a ∧ a ∣ 16 := by
    intro n s a h
    obtain ⟨s', e, h2⟩ := array_of h
    obtain ⟨rfl, h3⟩ := block_layout hp h2
    exact ⟨e.trans (Nat.mul_comm ..), by rcases h3 with rfl | rfl | rfl <;> decide⟩
  have hcip : ∀ name k, keysOf name = some k → HasLayout abi structs (.named name) s a → 16 * k ≤ s ∧ 4 ∣ a ∧ a ∣ s := by
    intro name k hk h
    obtain ⟨d, hd, rfl, hd'⟩ := named_of h
    rcases cipher_decl d hd with e | e | e | ⟨hr, hf, -⟩
    · rw [e] at hk; cases hk
    · rw [e] at hk; cases hk
    · rw [e] at hk; cases hk
    · rcases hd' with ⟨hr', -⟩ | ⟨align, ls, hr', -⟩ | ⟨-, f, s', a', hf', h0, h1, h2, h3⟩
      · rw [hr] at hr'; cases hr'
      · rw [hr] at hr'; cases hr'
      · rw [hf, hk] at hf'
        cases hf'
        obtain ⟨rfl, h4, -⟩ := harr _ _ _ h0
        exact ⟨h1, Nat.dvd_trans h4 h2, h3⟩
  refine ⟨block_layout hp, x2_layout hp, x4_layout hp, fun n => harr n s a, fun c hc => ?_⟩
  simp only [List.mem_cons, List.not_mem_nil, or_false] at hc
  rcases hc with rfl | rfl | rfl | rfl | rfl | rfl <;> exact hcip _ _ (by decide)

/-! ### The hypotheses are met -/

/-- x86-64. -/
def exAbi : Abi := fun p => match p with
  | "u32" => (4, 4)
  | "u64" => (8, 8)
  | "u128" => (16, 16)
  | "__m128i" => (16, 16)
  | "__m256i" => (32, 32)
  | "__m512i" => (64, 64)
  | _ => (16, 16)
example : exAbi.Plausible := ⟨by decide, by decide, by decide, by decide, by decide, by decide, by decide⟩
/-- An encrypter of the table-based build has a layout: four words, eleven times. -/
example : HasLayout exAbi structs (.named "Aes128Enc") 176 16 := by
  have hb : HasLayout exAbi structs (.named "AesBlock") 16 16 :=
    .c (d := ⟨"AesBlock", "src/aes_table_based.rs", 7, ["Copy", "Clone", "PartialEq", "Eq"], .c 16, [.prim "u32", .prim "u32", .prim "u32", .prim "u32"]⟩)
      [(4, 4), (4, 4), (4, 4), (4, 4)] (by simp [structs]) rfl rfl rfl (by
        intro fl hfl
        simp at hfl
        subst hfl
        exact .prim) (by decide) (by decide)
  exact .rust (d := ⟨"Aes128Enc", "src/lib.rs", 520, ["Debug", "Clone"], .rust, [.array (.named "AesBlock") 11]⟩)
    (by simp [structs]) rfl rfl rfl (.array hb) (by decide) (by decide) (by decide)
/-- With a `Drop` impl the first theorem would be false. -/
example : NeedsDrop { items with impls := ⟨some "Drop", false, false, "AesBlock", "src/lib.rs", 1⟩ :: impls } (.named "Aes128Enc") :=
  .field (d := ⟨"Aes128Enc", "src/lib.rs", 520, ["Debug", "Clone"], .rust, [.array (.named "AesBlock") 11]⟩) (by simp [items, structs]) rfl
    (by simp; rfl) (.element (.impl List.mem_cons_self rfl (.inl rfl)))
/-- A struct with a raw pointer is neither. -/
example : ¬ Auto ⟨[⟨"P", "", 0, [], .rust, [.other "*const u8"]⟩], [], []⟩ "Send" (.named "P") := by
  intro h
  cases h with
  | struct _ _ h =>
    have := h _ (List.mem_singleton.mpr rfl) rfl _ (List.mem_singleton.mpr rfl)
    cases this
end Aes
