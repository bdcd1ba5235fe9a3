import Verif.Properties.Cipher
import Verif.Properties.Wide
import Verif.Properties.Riscv32
import Verif.Properties.Data
import Verif.Properties.NoFault
/-!
C31 on every target: RISC-V-32 and big-endian constant-time are not AES (C41, C42) but still permutations, so ciphertexts stay
distinguishable even there; and the same for the wide types.
-/
namespace Aes
open Rust AesSpec Fips197 AesVec AesBlock

/-- `f` never fails and hits every value exactly once. -/
def Permutes {α : Type} (f : α → M α) : Prop := (∀ x, ∃ y, f x = .ok y) ∧ (∀ x x', f x = f x' → x = x') ∧ ∀ y, ∃ x, f x = .ok y

namespace Permutation

theorem of_inverse {α : Type} {f : α → M α} (g h : α → α) (hf : ∀ x, f x = .ok (g x)) (hg : ∀ x, h (g x) = x) (gh : ∀ y, g (h y) = y) :
    Permutes f := by
  refine ⟨fun x => ⟨_, hf x⟩, fun x x' e => ?_, fun y => ⟨h y, by rw [hf, gh]⟩⟩
  rw [hf, hf] at e
  rw [← hg x, Except.ok.inj e, hg]

/-- Inverse of `encRound · k`. -/
def unEnc (s k : Bytes 16) : Bytes 16 :=
  State.toBytes (invSubBytes (invShiftRows (invMixColumns (State.ofBytes (xorB s k)))))
/-- Inverse of `encLastRound · k`. -/
def unEncLast (s k : Bytes 16) : Bytes 16 := State.toBytes (invSubBytes (invShiftRows (State.ofBytes (xorB s k))))
/-- Inverse of `rv32DecRound · k`. -/
def unDec (s k : Bytes 16) : Bytes 16 :=
  State.toBytes (invShiftRows (subBytes (mixColumns (State.ofBytes (xorB s k)))))
/-- Inverse of `rv32DecLastRound · k`. -/
def unDecLast (s k : Bytes 16) : Bytes 16 := State.toBytes (invShiftRows (subBytes (State.ofBytes (xorB s k))))

theorem unEnc_enc (s k : Bytes 16) : unEnc (encRound s k) k = s := by
  simp only [unEnc, encRound_eq, xorB_cancel, ofBytes_toBytes, invMixColumns_mixColumns, invShiftRows_shiftRows, invSubBytes_subBytes,
    toBytes_ofBytes]
theorem enc_unEnc (s k : Bytes 16) : encRound (unEnc s k) k = s := by
  simp only [unEnc, encRound_eq, ofBytes_toBytes, mixColumns_invMixColumns, shiftRows_invShiftRows, subBytes_invSubBytes,
    toBytes_ofBytes, xorB_cancel]
theorem unEncLast_enc (s k : Bytes 16) : unEncLast (encLastRound s k) k = s := by
  simp only [unEncLast, encLastRound_eq, xorB_cancel, ofBytes_toBytes, invShiftRows_shiftRows, invSubBytes_subBytes,
    toBytes_ofBytes]
theorem enc_unEncLast (s k : Bytes 16) : encLastRound (unEncLast s k) k = s := by
  simp only [unEncLast, encLastRound_eq, ofBytes_toBytes, shiftRows_invShiftRows, subBytes_invSubBytes,
    toBytes_ofBytes, xorB_cancel]
theorem unDec_dec (s k : Bytes 16) : unDec (rv32DecRound s k) k = s := by
  simp only [unDec, rv32DecRound, toBytes_addRoundKey, xorB_cancel, ofBytes_toBytes, mixColumns_invMixColumns, invShiftRows_shiftRows,
    subBytes_invSubBytes, toBytes_ofBytes]
theorem dec_unDec (s k : Bytes 16) : rv32DecRound (unDec s k) k = s := by
  simp only [unDec, rv32DecRound, toBytes_addRoundKey, ofBytes_toBytes, invMixColumns_mixColumns, shiftRows_invShiftRows,
    invSubBytes_subBytes, toBytes_ofBytes, xorB_cancel]
theorem unDecLast_dec (s k : Bytes 16) : unDecLast (rv32DecLastRound s k) k = s := by
  simp only [unDecLast, rv32DecLastRound, toBytes_addRoundKey, xorB_cancel, ofBytes_toBytes, invShiftRows_shiftRows,
    subBytes_invSubBytes, toBytes_ofBytes]
theorem dec_unDecLast (s k : Bytes 16) : rv32DecLastRound (unDecLast s k) k = s := by
  simp only [unDecLast, rv32DecLastRound, toBytes_addRoundKey, ofBytes_toBytes, shiftRows_invShiftRows,
    invSubBytes_subBytes, toBytes_ofBytes, xorB_cancel]

section fold
variable {α κ : Type} {f g : α → κ → α}
theorem fold_undo (h : ∀ x k, g (f x k) k = x) (ks : List κ) (x : α) : ks.reverse.foldl g (ks.foldl f x) = x := by
  induction ks generalizing x with
  | nil => rfl
  | cons k ks ih => simp only [List.reverse_cons, List.foldl_append, List.foldl_cons, List.foldl_nil, ih, h]
theorem fold_redo (h : ∀ x k, f (g x k) k = x) (ks : List κ) (x : α) : ks.foldl f (ks.reverse.foldl g x) = x := by
  induction ks generalizing x with
  | nil => rfl
  | cons k ks ih => simp only [List.reverse_cons, List.foldl_append, List.foldl_cons, List.foldl_nil, ih, h]
end fold

/-- Undoing `rv32Cipher`. -/
def unCipher (nr : Nat) (rk : Nat → Bytes 16) (c : Bytes 16) : Bytes 16 :=
  ((List.range (nr - 1)).map rk).reverse.foldl unEnc (xorB (unEncLast c (rk nr)) (rk (nr - 1)))
/-- Undoing `rv32Decipher`. -/
def unDecipher (nr : Nat) (rk : Nat → Bytes 16) (c : Bytes 16) : Bytes 16 :=
  ((List.range (nr - 1)).map rk).reverse.foldl unDec (xorB (unDecLast c (rk nr)) (rk (nr - 1)))

theorem unCipher_cipher (nr : Nat) (rk : Nat → Bytes 16) (p : Bytes 16) : unCipher nr rk (rv32Cipher nr rk p) = p := by
  simp only [unCipher, rv32Cipher, unEncLast_enc, xorB_cancel, fold_undo unEnc_enc]
theorem cipher_unCipher (nr : Nat) (rk : Nat → Bytes 16) (c : Bytes 16) : rv32Cipher nr rk (unCipher nr rk c) = c := by
  simp only [unCipher, rv32Cipher, fold_redo enc_unEnc, xorB_cancel, enc_unEncLast]
theorem unDecipher_decipher (nr : Nat) (rk : Nat → Bytes 16) (p : Bytes 16) : unDecipher nr rk (rv32Decipher nr rk p) = p := by
  simp only [unDecipher, rv32Decipher, unDecLast_dec, xorB_cancel, fold_undo unDec_dec]
theorem decipher_unDecipher (nr : Nat) (rk : Nat → Bytes 16) (c : Bytes 16) : rv32Decipher nr rk (unDecipher nr rk c) = c := by
  simp only [unDecipher, rv32Decipher, fold_redo dec_unDec, xorB_cancel, dec_unDecLast]

theorem rv32_encrypt {nr : Nat} (hnr : 0 < nr) (e : AesEnc Riscv32.Block nr) : Permutes e.encrypt_block := by
  refine of_inverse _ (fun c => LawfulVec.ofB (unCipher nr (keysOf e.round_keys) (view c))) (Riscv32.encrypt_rv hnr e) ?_ ?_
  · intro p; rw [LawfulVec.view_ofB, unCipher_cipher, LawfulVec.ofB_view]
  · intro p; rw [LawfulVec.view_ofB, cipher_unCipher, LawfulVec.ofB_view]
theorem rv32_decrypt {nr : Nat} (hnr : 0 < nr) (d : AesDec Riscv32.Block nr) : Permutes d.decrypt_block := by
  refine of_inverse _ (fun c => LawfulVec.ofB (unDecipher nr (keysOf d.round_keys) (view c))) (Riscv32.decrypt_rv hnr d) ?_ ?_
  · intro p; rw [LawfulVec.view_ofB, unDecipher_decipher, LawfulVec.ofB_view]
  · intro p; rw [LawfulVec.view_ofB, decipher_unDecipher, LawfulVec.ofB_view]

/-- Two permutations side by side. -/
theorem pair {α β : Type} {f : α → M α} {F : β → M β} (mk : α → α → β) (hmk : ∀ a b a' b', mk a b = mk a' b' → a = a' ∧ b = b')
    (surj : ∀ y, ∃ a b, y = mk a b) (hF : ∀ a b, F (mk a b) = (do let x ← f a; let y ← f b; pure (mk x y))) (hf : Permutes f) :
    Permutes F := by
  obtain ⟨h1, h2, h3⟩ := hf
  have go (a b x y : α) (ha : f a = .ok x) (hb : f b = .ok y) : F (mk a b) = .ok (mk x y) := by
    rw [hF, ha, bind_ok, hb, bind_ok, pure_ok]
  refine ⟨fun z => ?_, fun z z' e => ?_, fun z => ?_⟩
  · obtain ⟨a, b, rfl⟩ := surj z
    obtain ⟨x, hx⟩ := h1 a
    obtain ⟨y, hy⟩ := h1 b
    exact ⟨_, go a b x y hx hy⟩
  · obtain ⟨a, b, rfl⟩ := surj z
    obtain ⟨a', b', rfl⟩ := surj z'
    obtain ⟨x, hx⟩ := h1 a
    obtain ⟨y, hy⟩ := h1 b
    obtain ⟨x', hx'⟩ := h1 a'
    obtain ⟨y', hy'⟩ := h1 b'
    rw [go a b x y hx hy, go a' b' x' y' hx' hy'] at e
    obtain ⟨rfl, rfl⟩ := hmk _ _ _ _ (Except.ok.inj e)
    rw [h2 a a' (hx.trans hx'.symm), h2 b b' (hy.trans hy'.symm)]
  · obtain ⟨x, y, rfl⟩ := surj z
    obtain ⟨a, ha⟩ := h3 x
    obtain ⟨b, hb⟩ := h3 y
    exact ⟨_, go a b x y ha hb⟩

/-- Four permutations side by side. -/
theorem quad {α β : Type} {f : α → M α} {F : β → M β} (mk : α → α → α → α → β)
    (hmk : ∀ a b c d a' b' c' d', mk a b c d = mk a' b' c' d' → a = a' ∧ b = b' ∧ c = c' ∧ d = d')
    (surj : ∀ y, ∃ a b c d, y = mk a b c d)
    (hF : ∀ a b c d, F (mk a b c d) = (do let w ← f a; let x ← f b; let y ← f c; let z ← f d; pure (mk w x y z))) (hf : Permutes f) :
    Permutes F := by
  obtain ⟨h1, h2, h3⟩ := hf
  have go (a b c d w x y z : α) (ha : f a = .ok w) (hb : f b = .ok x) (hc : f c = .ok y) (hd : f d = .ok z) :
      F (mk a b c d) = .ok (mk w x y z) := by
    rw [hF, ha, bind_ok, hb, bind_ok, hc, bind_ok, hd, bind_ok, pure_ok]
  refine ⟨fun u => ?_, fun u u' e => ?_, fun u => ?_⟩
  · obtain ⟨a, b, c, d, rfl⟩ := surj u
    obtain ⟨w, hw⟩ := h1 a
    obtain ⟨x, hx⟩ := h1 b
    obtain ⟨y, hy⟩ := h1 c
    obtain ⟨z, hz⟩ := h1 d
    exact ⟨_, go a b c d w x y z hw hx hy hz⟩
  · obtain ⟨a, b, c, d, rfl⟩ := surj u
    obtain ⟨a', b', c', d', rfl⟩ := surj u'
    obtain ⟨w, hw⟩ := h1 a
    obtain ⟨x, hx⟩ := h1 b
    obtain ⟨y, hy⟩ := h1 c
    obtain ⟨z, hz⟩ := h1 d
    obtain ⟨w', hw'⟩ := h1 a'
    obtain ⟨x', hx'⟩ := h1 b'
    obtain ⟨y', hy'⟩ := h1 c'
    obtain ⟨z', hz'⟩ := h1 d'
    rw [go a b c d w x y z hw hx hy hz, go a' b' c' d' w' x' y' z' hw' hx' hy' hz'] at e
    obtain ⟨rfl, rfl, rfl, rfl⟩ := hmk _ _ _ _ _ _ _ _ (Except.ok.inj e)
    rw [h2 a a' (hw.trans hw'.symm), h2 b b' (hx.trans hx'.symm), h2 c c' (hy.trans hy'.symm), h2 d d' (hz.trans hz'.symm)]
  · obtain ⟨w, x, y, z, rfl⟩ := surj u
    obtain ⟨a, ha⟩ := h3 w
    obtain ⟨b, hb⟩ := h3 x
    obtain ⟨c, hc⟩ := h3 y
    obtain ⟨d, hd⟩ := h3 z
    exact ⟨_, go a b c d w x y z ha hb hc hd⟩

theorem pair_inj (t : Target) (a b a' b' : t.Block) (h : (AesBlockX2.from_pair (a, b) : t.X2) = AesBlockX2.from_pair (a', b')) :
    a = a' ∧ b = b' := by
  have := congrArg AesBlockX2.to_pair h
  rw [LawfulX2.to_pair_from_pair, LawfulX2.to_pair_from_pair] at this
  exact Prod.mk.inj this
theorem quad_inj (t : Target) (a b c d a' b' c' d' : t.Block)
    (h : (AesBlockX4.from_quad (a, b, c, d) : t.X4) = AesBlockX4.from_quad (a', b', c', d')) : a = a' ∧ b = b' ∧ c = c' ∧ d = d' := by
  have := congrArg AesBlockX4.to_quad h
  rw [LawfulX4.to_quad_from_quad, LawfulX4.to_quad_from_quad] at this
  simpa using this

end Permutation

/-- C31, every target (RISC-V-32 and big-endian constant-time included): any encrypter, made from a key or not, never fails and
permutes the blocks. -/
theorem C31_encrypt_every_target (t : Target) {nr : Nat} (hnr : 0 < nr) (e : AesEnc t.Block nr) : Permutes e.encrypt_block := by
  by_cases hrv : t = .riscv32
  · subst hrv; exact Permutation.rv32_encrypt hnr e
  · obtain ⟨h1, h2⟩ := C31_encrypt_permutation t hrv hnr e
    exact ⟨fun x => (C32_one_block t hnr e ⟨e.round_keys⟩ x).1, h1, h2⟩
/-- C31, every target: any decrypter permutes the blocks. -/
theorem C31_decrypt_every_target (t : Target) {nr : Nat} (hnr : 0 < nr) (d : AesDec t.Block nr) : Permutes d.decrypt_block := by
  by_cases hrv : t = .riscv32
  · subst hrv; exact Permutation.rv32_decrypt hnr d
  · obtain ⟨h1, h2⟩ := C31_decrypt_permutation t hrv hnr d
    exact ⟨fun x => (C32_one_block t hnr ⟨d.round_keys⟩ d x).2, h1, h2⟩
/-- C31, every target: so do the functions on two and on four blocks, on their types. -/
theorem C31_wide (t : Target) {nr : Nat} (hnr : 0 < nr) (e : AesEnc t.Block nr) (d : AesDec t.Block nr) :
    Permutes (e.encrypt_2_blocks : t.X2 → M t.X2) ∧ Permutes (e.encrypt_4_blocks : t.X4 → M t.X4) ∧
    Permutes (d.decrypt_2_blocks : t.X2 → M t.X2) ∧ Permutes (d.decrypt_4_blocks : t.X4 → M t.X4) :=
  ⟨Permutation.pair _ (Permutation.pair_inj t) (C07_every_x2_is_a_pair t) (C07_encrypt_2_blocks t e) (C31_encrypt_every_target t hnr e),
   Permutation.quad _ (Permutation.quad_inj t) (C07_every_x4_is_a_quad t) (C07_encrypt_4_blocks t e) (C31_encrypt_every_target t hnr e),
   Permutation.pair _ (Permutation.pair_inj t) (C07_every_x2_is_a_pair t) (C08_decrypt_2_blocks t d) (C31_decrypt_every_target t hnr d),
   Permutation.quad _ (Permutation.quad_inj t) (C07_every_x4_is_a_quad t) (C08_decrypt_4_blocks t d) (C31_decrypt_every_target t hnr d)⟩

/-- A permutation that is not AES: RISC-V-32 with the key of src/tests.rs. -/
example : ∃ e : AesEnc Target.riscv32.Block 10, Aes128Enc.from exKey128 = .ok e ∧ Permutes e.encrypt_block := by
  obtain ⟨e, he, _⟩ := C41_key_schedule_128 exKey128
  exact ⟨e, he, C31_encrypt_every_target .riscv32 (by omega) e⟩

end Aes
