import Verif.Proofs.GenCore
import Verif.Gen.Table
/-
The functions generated from src/aes_table_based.rs are those of the model.
-/
set_option linter.unusedSectionVars false
namespace RustSrc.Table
open Rust
variable [Cfg]

theorem eq_eq : eq = fun a b => decide (a = b) := by
  funext a b
  obtain ⟨a0, a1, a2, a3⟩ := a
  obtain ⟨b0, b1, b2, b3⟩ := b
  unfold eq
  rw [Bool.eq_iff_iff]
  simp [and_assoc]

/-! The ten tables, entry by entry as literals. -/
theorem TE0_eq : TE0 = Aes.Table.TE0 := rfl
theorem TE1_eq : TE1 = Aes.Table.TE1 := rfl
theorem TE2_eq : TE2 = Aes.Table.TE2 := rfl
theorem TE3_eq : TE3 = Aes.Table.TE3 := rfl
theorem TE4_eq : TE4 = Aes.Table.TE4 := rfl
theorem TD0_eq : TD0 = Aes.Table.TD0 := rfl
theorem TD1_eq : TD1 = Aes.Table.TD1 := rfl
theorem TD2_eq : TD2 = Aes.Table.TD2 := rfl
theorem TD3_eq : TD3 = Aes.Table.TD3 := rfl
theorem TD4_eq : TD4 = Aes.Table.TD4 := rfl

theorem te0_eq : te0 = Aes.Table.te0 := by funext x; unfold te0; simp only [TE0_eq]; rfl
theorem te1_eq : te1 = Aes.Table.te1 := by funext x; unfold te1; simp only [TE1_eq]; rfl
theorem te2_eq : te2 = Aes.Table.te2 := by funext x; unfold te2; simp only [TE2_eq]; rfl
theorem te3_eq : te3 = Aes.Table.te3 := by funext x; unfold te3; simp only [TE3_eq]; rfl
theorem td0_eq : td0 = Aes.Table.td0 := by funext x; unfold td0; simp only [TD0_eq]; rfl
theorem td1_eq : td1 = Aes.Table.td1 := by funext x; unfold td1; simp only [TD1_eq]; rfl
theorem td2_eq : td2 = Aes.Table.td2 := by funext x; unfold td2; simp only [TD2_eq]; rfl
theorem td3_eq : td3 = Aes.Table.td3 := by funext x; unfold td3; simp only [TD3_eq]; rfl
theorem te4_0_eq : te4_0 = Aes.Table.te4_0 := by funext x; unfold te4_0; simp only [TE4_eq]; rfl
theorem te4_1_eq : te4_1 = Aes.Table.te4_1 := by funext x; unfold te4_1; simp only [TE4_eq]; rfl
theorem te4_2_eq : te4_2 = Aes.Table.te4_2 := by funext x; unfold te4_2; simp only [TE4_eq]; rfl
theorem te4_3_eq : te4_3 = Aes.Table.te4_3 := by funext x; unfold te4_3; simp only [TE4_eq]; rfl
theorem td4_0_eq : td4_0 = Aes.Table.td4_0 := by funext x; unfold td4_0; simp only [TD4_eq]; rfl
theorem td4_1_eq : td4_1 = Aes.Table.td4_1 := by funext x; unfold td4_1; simp only [TD4_eq]; rfl
theorem td4_2_eq : td4_2 = Aes.Table.td4_2 := by funext x; unfold td4_2; simp only [TD4_eq]; rfl
theorem td4_3_eq : td4_3 = Aes.Table.td4_3 := by funext x; unfold td4_3; simp only [TD4_eq]; rfl

theorem enc_eq : enc = Aes.Table.enc := by
  funext x k; unfold enc; rw [te0_eq, te1_eq, te2_eq, te3_eq]; rfl
theorem dec_eq : dec = Aes.Table.dec := by
  funext x k; unfold dec; rw [td0_eq, td1_eq, td2_eq, td3_eq]; rfl
theorem enc_last_eq : enc_last = Aes.Table.enc_last := by
  funext x k; unfold enc_last; rw [te4_0_eq, te4_1_eq, te4_2_eq, te4_3_eq]; rfl
theorem dec_last_eq : dec_last = Aes.Table.dec_last := by
  funext x k; unfold dec_last; rw [td4_0_eq, td4_1_eq, td4_2_eq, td4_3_eq]; rfl
theorem mc_eq : mc = Aes.Table.mc := by
  funext x; unfold mc; rw [te0_eq, te1_eq, te2_eq, te3_eq, td4_3_eq]; rfl
theorem imc_eq : imc = Aes.Table.imc := by
  funext x; unfold imc; rw [td0_eq, td1_eq, td2_eq, td3_eq, te4_3_eq]; rfl
theorem sub_word_eq : sub_word = Aes.Table.sub_word := by
  funext x; unfold sub_word; rw [te4_0_eq, te4_1_eq, te4_2_eq, te4_3_eq]; rfl

theorem keyexp_128_eq : keyexp_128 = Aes.Table.keyexp_128 := by
  funext r p; unfold keyexp_128; rewrite [sub_word_eq]; rfl
theorem keyexp_192_eq : keyexp_192 = Aes.Table.keyexp_192 :=
  congrArg (fun (sub_word : U32 → U32) (RCON : U32) (prev : Vector U32 6) =>
      let k0 : U32 := (prev[0] ^^^ (sub_word prev[5])) ^^^ RCON
      let k1 : U32 := prev[1] ^^^ k0
      let k2 : U32 := prev[2] ^^^ k1
      let k3 : U32 := prev[3] ^^^ k2
      let k4 : U32 := prev[4] ^^^ k3
      let k5 : U32 := prev[5] ^^^ k4
      #v[k0, k1, k2, k3, k4, k5]) sub_word_eq
theorem keyexp_256_1_eq : keyexp_256_1 = Aes.Table.keyexp_256_1 := by
  funext r p q; unfold keyexp_256_1; rewrite [sub_word_eq]; rfl
theorem keyexp_256_2_eq : keyexp_256_2 = Aes.Table.keyexp_256_2 := by
  funext p q; unfold keyexp_256_2; rewrite [sub_word_eq]; rfl

theorem load_u32_be_eq : load_u32_be = Aes.Profile.Table.load_u32_be Cfg.profile := rfl
theorem new_eq : new = Aes.Profile.Table.new Cfg.profile := rfl
theorem store_to_eq : store_to = Aes.Table.store_to := rfl

theorem keygen_128_eq : keygen_128 = Aes.Profile.Table.keygen_128 Cfg.profile :=
  congrArg (fun (keyexp_128 : U32 → Aes.Table.Block → Aes.Table.Block) (key : Vector U8 16) =>
    show M (Vector Aes.Table.Block 11) from do
      let key0 : Aes.Table.Block ← from_bytes key
      let key1 : Aes.Table.Block := keyexp_128 0x1000000#32 key0
      let key2 : Aes.Table.Block := keyexp_128 0x2000000#32 key1
      let key3 : Aes.Table.Block := keyexp_128 0x4000000#32 key2
      let key4 : Aes.Table.Block := keyexp_128 0x8000000#32 key3
      let key5 : Aes.Table.Block := keyexp_128 0x10000000#32 key4
      let key6 : Aes.Table.Block := keyexp_128 0x20000000#32 key5
      let key7 : Aes.Table.Block := keyexp_128 0x40000000#32 key6
      let key8 : Aes.Table.Block := keyexp_128 0x80000000#32 key7
      let key9 : Aes.Table.Block := keyexp_128 0x1b000000#32 key8
      let key10 : Aes.Table.Block := keyexp_128 0x36000000#32 key9
      pure #v[key0, key1, key2, key3, key4, key5, key6, key7, key8, key9, key10]) keyexp_128_eq
theorem keygen_192_eq : keygen_192 = Aes.Profile.Table.keygen_192 Cfg.profile :=
  congrArg (fun (keyexp_192 : U32 → Vector U32 6 → Vector U32 6) (key : Vector U8 24) =>
    show M (Vector Aes.Table.Block 13) from do
      let k : Vector U32 6 := #v[(← load_u32_be key.toList 0), (← load_u32_be key.toList 4), (← load_u32_be key.toList 8), (← load_u32_be key.toList 12), (← load_u32_be key.toList 16), (← load_u32_be key.toList 20)]
      let key0 : Aes.Table.Block := (⟨k[0], k[1], k[2], k[3]⟩ : Aes.Table.Block)
      let p : Vector U32 6 := keyexp_192 0x1000000#32 k
      let key1 : Aes.Table.Block := (⟨k[4], k[5], p[0], p[1]⟩ : Aes.Table.Block)
      let key2 : Aes.Table.Block := (⟨p[2], p[3], p[4], p[5]⟩ : Aes.Table.Block)
      let k : Vector U32 6 := keyexp_192 0x2000000#32 p
      let key3 : Aes.Table.Block := (⟨k[0], k[1], k[2], k[3]⟩ : Aes.Table.Block)
      let p : Vector U32 6 := keyexp_192 0x4000000#32 k
      let key4 : Aes.Table.Block := (⟨k[4], k[5], p[0], p[1]⟩ : Aes.Table.Block)
      let key5 : Aes.Table.Block := (⟨p[2], p[3], p[4], p[5]⟩ : Aes.Table.Block)
      let k : Vector U32 6 := keyexp_192 0x8000000#32 p
      let key6 : Aes.Table.Block := (⟨k[0], k[1], k[2], k[3]⟩ : Aes.Table.Block)
      let p : Vector U32 6 := keyexp_192 0x10000000#32 k
      let key7 : Aes.Table.Block := (⟨k[4], k[5], p[0], p[1]⟩ : Aes.Table.Block)
      let key8 : Aes.Table.Block := (⟨p[2], p[3], p[4], p[5]⟩ : Aes.Table.Block)
      let k : Vector U32 6 := keyexp_192 0x20000000#32 p
      let key9 : Aes.Table.Block := (⟨k[0], k[1], k[2], k[3]⟩ : Aes.Table.Block)
      let p : Vector U32 6 := keyexp_192 0x40000000#32 k
      let key10 : Aes.Table.Block := (⟨k[4], k[5], p[0], p[1]⟩ : Aes.Table.Block)
      let key11 : Aes.Table.Block := (⟨p[2], p[3], p[4], p[5]⟩ : Aes.Table.Block)
      let k : Vector U32 6 := keyexp_192 0x80000000#32 p
      let key12 : Aes.Table.Block := (⟨k[0], k[1], k[2], k[3]⟩ : Aes.Table.Block)
      pure #v[key0, key1, key2, key3, key4, key5, key6, key7, key8, key9, key10, key11, key12]) keyexp_192_eq
theorem try_from_eq : try_from = Aes.Profile.try_from_slice Cfg.profile 16 (Aes.Profile.Table.from_bytes Cfg.profile) := by
  funext v; unfold try_from; rw [Core.try_from_slice_eq]; rfl

theorem keygen_256_eq : keygen_256 = Aes.Profile.Table.keygen_256 Cfg.profile := by
  let text := fun (keyexp_256_1 : U32 → Aes.Table.Block → Aes.Table.Block → Aes.Table.Block)
    (keyexp_256_2 : Aes.Table.Block → Aes.Table.Block → Aes.Table.Block)
    (try_from : List U8 → M (Except Nat Aes.Table.Block)) (key : Vector U8 32) =>
    show M (Vector Aes.Table.Block 15) from do
      let key0 : Aes.Table.Block ← unwrap (← try_from (← sliceTo key.toList 16))
      let key1 : Aes.Table.Block ← unwrap (← try_from (← sliceFrom key.toList 16))
      let key2 : Aes.Table.Block := keyexp_256_1 0x1000000#32 key0 key1
      let key3 : Aes.Table.Block := keyexp_256_2 key1 key2
      let key4 : Aes.Table.Block := keyexp_256_1 0x2000000#32 key2 key3
      let key5 : Aes.Table.Block := keyexp_256_2 key3 key4
      let key6 : Aes.Table.Block := keyexp_256_1 0x4000000#32 key4 key5
      let key7 : Aes.Table.Block := keyexp_256_2 key5 key6
      let key8 : Aes.Table.Block := keyexp_256_1 0x8000000#32 key6 key7
      let key9 : Aes.Table.Block := keyexp_256_2 key7 key8
      let key10 : Aes.Table.Block := keyexp_256_1 0x10000000#32 key8 key9
      let key11 : Aes.Table.Block := keyexp_256_2 key9 key10
      let key12 : Aes.Table.Block := keyexp_256_1 0x20000000#32 key10 key11
      let key13 : Aes.Table.Block := keyexp_256_2 key11 key12
      let key14 : Aes.Table.Block := keyexp_256_1 0x40000000#32 key12 key13
      pure #v[key0, key1, key2, key3, key4, key5, key6, key7, key8, key9, key10, key11, key12, key13, key14]
  show text keyexp_256_1 keyexp_256_2 try_from = text Aes.Table.keyexp_256_1 Aes.Table.keyexp_256_2 _
  rw [keyexp_256_1_eq, keyexp_256_2_eq, try_from_eq]

theorem block_eq : block = Aes.Profile.Table.block Cfg.profile := by
  unfold block Aes.Profile.Table.block
  rw [eq_eq, store_to_eq, enc_eq, dec_eq, enc_last_eq, dec_last_eq, mc_eq, imc_eq, keygen_128_eq, keygen_192_eq, keygen_256_eq]
  rfl

end RustSrc.Table
