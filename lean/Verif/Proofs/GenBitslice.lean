import Verif.Proofs.GenColumns
import Verif.Gen.Bitslice
/-
The functions generated from src/aes_bitslice.rs are those of the model.
-/
set_option linter.unusedSectionVars false
set_option linter.unusedVariables false
namespace RustSrc.Bitslice
open Rust
variable [Cfg]

theorem rep_eq : rep = Aes.Bitslice.rep := funext fun x => fromNe_replicate Cfg.endian 128 16 x
theorem ror1_eq : ror1 = Aes.Bitslice.ror1 := by
  funext x; unfold ror1; rw [rep_eq]; rfl
theorem swap2_eq : swap2 = Aes.Bitslice.swap2 := by
  funext x; unfold swap2; rw [rep_eq]; rfl
theorem subbytes_eq : subbytes = Aes.Bitslice.subbytes := by
  funext x; unfold subbytes; rw [rep_eq, ror1_eq, swap2_eq]; rfl
theorem invsubbytes_eq : invsubbytes = Aes.Bitslice.invsubbytes := by
  funext x; unfold invsubbytes; rw [rep_eq, ror1_eq, swap2_eq]; rfl
theorem sub_word_eq : sub_word = Aes.Bitslice.sub_word := by
  funext x; unfold sub_word; rw [subbytes_eq]; rfl
theorem xtime_eq : xtime = Aes.Bitslice.xtime := by
  funext x; unfold xtime; rw [rep_eq]; rfl
theorem ror8_32_eq : ror8_32 = Aes.Bitslice.ror8_32 Cfg.endian := by
  funext x; unfold ror8_32 Aes.Bitslice.ror8_32
  cases h : (Cfg.endian : Endian) with
  | little => rw [if_neg (by decide)]
  | big => rw [if_pos rfl]
theorem mixcolumns_eq : mixcolumns = Aes.Bitslice.mixcolumns Cfg.endian := by
  funext x; unfold mixcolumns; rw [xtime_eq, ror8_32_eq]; rfl
theorem invmixcolumns_eq : invmixcolumns = Aes.Bitslice.invmixcolumns Cfg.endian := by
  funext x; unfold invmixcolumns; rw [xtime_eq, ror8_32_eq]; rfl

theorem eq_eq : eq = fun a b => decide (a = b) := by
  funext a b
  cases a; cases b
  unfold eq
  rw [Bool.eq_iff_iff]
  simp

theorem mc_eq : mc = Aes.Bitslice.mc := by
  funext x; unfold mc; rw [mixcolumns_eq]; rfl
theorem imc_eq : imc = Aes.Bitslice.imc := by
  funext x; unfold imc; rw [invmixcolumns_eq]; rfl
theorem enc_eq : enc = Aes.Bitslice.enc := by
  funext x k; unfold enc; rw [mc_eq, subbytes_eq]; rfl
theorem dec_eq : dec = Aes.Bitslice.dec := by
  funext x k; unfold dec; rw [imc_eq, invsubbytes_eq]; rfl
theorem enc_last_eq : enc_last = Aes.Bitslice.enc_last := by
  funext x k; unfold enc_last; rw [subbytes_eq]; rfl
theorem dec_last_eq : dec_last = Aes.Bitslice.dec_last := by
  funext x k; unfold dec_last; rw [invsubbytes_eq]; rfl

theorem zeroed_bytes : Layout.bytes (zeroed : Aes.Bitslice.Block Cfg.endian) = Vector.replicate 16 0#8 := by
  show toNe Cfg.endian 16 (fromNe Cfg.endian 128 (Vector.replicate 16 0#8)) = _
  rw [fromNe_replicate, show fromLe 128 (Vector.replicate 16 0#8) = 0#128 by decide]
  cases Cfg.endian with
  | little => decide
  | big =>
    refine Vector.ext fun i hi => ?_
    show (toLe 16 (0#128)).reverse[i] = _
    rw [show toLe 16 (0#128) = Vector.replicate 16 0#8 by decide, Vector.getElem_reverse, Vector.getElem_replicate,
      Vector.getElem_replicate]

theorem as_blocks_eq {N : Nat} (x : Vector (Aes.Bitslice.Block Cfg.endian) N) (c : Vector U32 (4 * N)) :
    castBack x c = Aes.Bitslice.as_blocks Cfg.endian c := by
  rw [castBack_columns]; rfl

theorem keygen_128_eq : keygen_128 = Aes.Profile.Bitslice.keygen_128 Cfg.profile Cfg.endian := by
  funext key
  unfold keygen_128
  rw [sub_word_eq]
  refine (keygen_128_text zeroed_bytes Aes.Bitslice.first key).trans ?_
  unfold Aes.Profile.Bitslice.keygen_128
  exact congrArg _ (funext fun c => congrArg Except.ok (as_blocks_eq (N := 11) _ c))

theorem keygen_192_eq : keygen_192 = Aes.Profile.Bitslice.keygen_192 Cfg.profile Cfg.endian := by
  funext key
  unfold keygen_192
  rw [sub_word_eq]
  refine (keygen_192_text zeroed_bytes Aes.Bitslice.first key).trans ?_
  unfold Aes.Profile.Bitslice.keygen_192
  exact congrArg _ (funext fun c => congrArg Except.ok (as_blocks_eq (N := 13) _ c))

theorem keygen_256_eq : keygen_256 = Aes.Profile.Bitslice.keygen_256 Cfg.profile Cfg.endian := by
  funext key
  unfold keygen_256
  rw [sub_word_eq]
  refine (keygen_256_text zeroed_bytes Aes.Bitslice.first Aes.Bitslice.fifth Aes.Bitslice.first key).trans ?_
  unfold Aes.Profile.Bitslice.keygen_256
  exact congrArg _ (funext fun c => congrArg Except.ok (as_blocks_eq (N := 15) _ c))

theorem block_eq : block = Aes.Profile.Bitslice.block Cfg.profile Cfg.endian := by
  unfold block Aes.Profile.Bitslice.block
  rw [eq_eq, enc_eq, dec_eq, enc_last_eq, dec_last_eq, mc_eq, imc_eq, keygen_128_eq, keygen_192_eq, keygen_256_eq]
  rfl

end RustSrc.Bitslice
