import Verif.Proofs.Target
/-! From a key to ciphertext bytes, on every target. -/
namespace Aes
open Rust AesSpec Fips197

theorem cipher_congr {nr : Nat} {w w' : Nat → Word} (h : ∀ r, r ≤ nr → roundKeyBytes w r = roundKeyBytes w' r)
    (inp : Bytes 16) : cipher nr w inp = cipher nr w' inp := by
  rw [cipher_eq_foldl, cipher_eq_foldl, h 0 (by omega), h nr (by omega)]
  rw [List.map_congr_left (f := fun i => roundKeyBytes w (i + 1)) (g := fun i => roundKeyBytes w' (i + 1))
    (fun i hi => by
      by_cases h0 : nr = 0
      · subst h0; simp at hi
      · rw [List.mem_range] at hi; exact h _ (by omega))]
theorem invCipher_congr {nr : Nat} {w w' : Nat → Word} (h : ∀ r, r ≤ nr → roundKeyBytes w r = roundKeyBytes w' r)
    (inp : Bytes 16) : invCipher nr w inp = invCipher nr w' inp := by
  rw [invCipher_eq_foldl, invCipher_eq_foldl, h 0 (by omega), h nr (by omega)]
  rw [List.map_congr_left (f := fun i => invMixCols (roundKeyBytes w (nr - (i + 1))))
    (g := fun i => invMixCols (roundKeyBytes w' (nr - (i + 1))))
    (fun i hi => by rw [h _ (by omega)])]

section
variable {B : Type} [AesBlock B] [LawfulVec B]

/-- Round keys that are a given schedule. -/
def rkVec (B : Type) [AesBlock B] [LawfulVec B] (nr : Nat) (w : Nat → Word) : Vector B (nr + 1) :=
  Vector.ofFn fun r => ofB (roundKeyBytes w r)

theorem sched_rkVec (nr : Nat) (w : Nat → Word) (r : Nat) (h : r ≤ nr) :
    roundKeyBytes (sched (rkVec B nr w)) r = roundKeyBytes w r := by
  rw [rkb_sched _ _ (by omega)]
  simp only [rkVec, Vector.getElem_ofFn, LawfulVec.view_ofB]

theorem encrypt_rkVec [LawfulEnc B] [LawfulPre B] {nr : Nat} (hnr : 0 < nr) (w : Nat → Word) (p : B) :
    (⟨rkVec B nr w⟩ : AesEnc B nr).encrypt_block p = .ok (ofB (cipher nr w (view p))) := by
  rw [encrypt_block_ok hnr, cipher_congr (sched_rkVec nr w)]
theorem decrypt_rkVec [LawfulDec B] [LawfulPre B] {nr : Nat} (hnr : 0 < nr) (w : Nat → Word) (c : B) :
    (⟨decKeys (rkVec B nr w)⟩ : AesDec B nr).decrypt_block c = .ok (ofB (invCipher nr w (view c))) := by
  rw [decrypt_block_decKeys hnr, invCipher_congr (sched_rkVec nr w)]
end

namespace Target
variable (t : Target)

theorem enc128_from (key : Vector U8 16) : (Aes128Enc.from key : M (AesEnc t.Block 10)) =
    .ok ⟨rkVec t.Block 10 (keyExpansionWith (t.temp 4) 4 key)⟩ := by
  unfold Aes128Enc.from; rw [keygen_128_all]; rfl
theorem enc192_from (key : Vector U8 24) : (Aes192Enc.from key : M (AesEnc t.Block 12)) =
    .ok ⟨rkVec t.Block 12 (keyExpansionWith (t.temp 6) 6 key)⟩ := by
  unfold Aes192Enc.from; rw [keygen_192_all]; rfl
theorem enc256_from (key : Vector U8 32) : (Aes256Enc.from key : M (AesEnc t.Block 14)) =
    .ok ⟨rkVec t.Block 14 (keyExpansionWith (t.temp 8) 8 key)⟩ := by
  unfold Aes256Enc.from; rw [keygen_256_all]; rfl
theorem dec128_from (key : Vector U8 16) : (Aes128Dec.from key : M (AesDec t.Block 10)) =
    .ok ⟨decKeys (rkVec t.Block 10 (keyExpansionWith (t.temp 4) 4 key))⟩ := by
  unfold Aes128Dec.from; rw [enc128_from, bind_ok, decrypter_ok (by omega)]
theorem dec192_from (key : Vector U8 24) : (Aes192Dec.from key : M (AesDec t.Block 12)) =
    .ok ⟨decKeys (rkVec t.Block 12 (keyExpansionWith (t.temp 6) 6 key))⟩ := by
  unfold Aes192Dec.from; rw [enc192_from, bind_ok, decrypter_ok (by omega)]
theorem dec256_from (key : Vector U8 32) : (Aes256Dec.from key : M (AesDec t.Block 14)) =
    .ok ⟨decKeys (rkVec t.Block 14 (keyExpansionWith (t.temp 8) 8 key))⟩ := by
  unfold Aes256Dec.from; rw [enc256_from, bind_ok, decrypter_ok (by omega)]
end Target
end Aes
