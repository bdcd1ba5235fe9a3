import Verif.Proofs.Eval
import Verif.Spec.Rv32
/-! What `lib.rs` computes on top of the riscv32 module. -/
namespace Aes.Riscv32
open Rust AesSpec Fips197 AesVec AesBlock

theorem chain_enc_rv (x k : Block) (ks : List Block) : Aes.chain_enc x (k :: ks) =
    .ok (AesVec.bitxor ((k :: ks).dropLast.foldl AesVec.enc x) ((k :: ks).getLast (by simp))) := by
  have h : (AesVec.enc : Block → Block → Block) = pre_enc := funext fun a => funext fun k => enc_eq a k
  rw [h]
  exact chain_enc_pre_eq ⟨pre_enc, pre_dec⟩ x k ks
theorem chain_dec_rv (x k : Block) (ks : List Block) : Aes.chain_dec x (k :: ks) =
    .ok (AesVec.bitxor ((k :: ks).dropLast.foldl AesVec.dec x) ((k :: ks).getLast (by simp))) := by
  have h : (AesVec.dec : Block → Block → Block) = pre_dec := funext fun a => funext fun k => dec_eq a k
  rw [h]
  exact chain_dec_pre_eq ⟨pre_enc, pre_dec⟩ x k ks

theorem take_dropLast {α : Type} {nr : Nat} (hnr : 0 < nr) (rk : Vector α (nr + 1)) (k : α) (ks : List α) (h : rk.toList.take nr = k :: ks) :
    (k :: ks).dropLast = (List.range (nr - 1)).attach.map
      (fun i => rk[i.val]'(by have := i.property; simp only [List.mem_range] at this; omega)) ∧
    (k :: ks).getLast (by simp) = rk[nr - 1] := by
  constructor
  · rw [← h]
    apply List.ext_getElem
    · simp
    · intro i h1 h2; simp
  · have : (rk.toList.take nr) ≠ [] := by rw [h]; simp
    have e : (k :: ks).getLast (by simp) = (rk.toList.take nr).getLast this := by simp only [h]
    rw [e, List.getLast_eq_getElem]
    simp [Nat.min_eq_left (show nr ≤ nr + 1 by omega)]

theorem encrypt_rv {nr : Nat} (hnr : 0 < nr) (e : AesEnc Block nr) (p : Block) :
    e.encrypt_block p = .ok (ofB (rv32Cipher nr (keysOf e.round_keys) (view p))) := by
  unfold AesEnc.encrypt_block
  rw [sliceTo_ok _ _ (by simp), bind_ok]
  obtain ⟨k, ks, hk⟩ : ∃ k ks, e.round_keys.toList.take nr = k :: ks := ⟨_, _, take_keys hnr _⟩
  obtain ⟨h1, h2⟩ := take_dropLast hnr e.round_keys k ks hk
  rw [hk, chain_enc_rv, bind_ok, idx_ok _ _ (by omega), bind_ok, pure_ok]
  refine congrArg Except.ok (view_inj ?_)
  rw [LawfulVec.view_ofB, LawfulEnc.view_enc_last, LawfulVec.view_xor, foldl_view _ encRound LawfulEnc.view_enc, h1, h2, List.map_map,
    rv32Cipher, keysOf_lt _ _ (by omega), keysOf_lt _ _ (by omega)]
  rw [attach_map_eq _ _ (fun i => keysOf e.round_keys i)
    (fun x => by have := x.property; simp only [List.mem_range] at this; rw [keysOf_lt _ _ (by omega)]; rfl)]

theorem decrypt_rv {nr : Nat} (hnr : 0 < nr) (d : AesDec Block nr) (c : Block) :
    d.decrypt_block c = .ok (ofB (rv32Decipher nr (keysOf d.round_keys) (view c))) := by
  unfold AesDec.decrypt_block
  rw [sliceTo_ok _ _ (by simp), bind_ok]
  obtain ⟨k, ks, hk⟩ : ∃ k ks, d.round_keys.toList.take nr = k :: ks := ⟨_, _, take_keys hnr _⟩
  obtain ⟨h1, h2⟩ := take_dropLast hnr d.round_keys k ks hk
  rw [hk, chain_dec_rv, bind_ok, idx_ok _ _ (by omega), bind_ok, pure_ok]
  refine congrArg Except.ok (view_inj ?_)
  rw [LawfulVec.view_ofB, show view (AesVec.dec_last (AesVec.bitxor _ _) _) = _ from view_dec_last _ _, LawfulVec.view_xor,
    foldl_view AesVec.dec rv32DecRound view_dec, h1, h2, List.map_map,
    rv32Decipher, keysOf_lt _ _ (by omega), keysOf_lt _ _ (by omega)]
  rw [attach_map_eq _ _ (fun i => keysOf d.round_keys i)
    (fun x => by have := x.property; simp only [List.mem_range] at this; rw [keysOf_lt _ _ (by omega)]; rfl)]

theorem rv32Cipher_congr {nr : Nat} (hnr : 0 < nr) {f g : Nat → Bytes 16} (h : ∀ r, r ≤ nr → f r = g r) (p : Bytes 16) :
    rv32Cipher nr f p = rv32Cipher nr g p := by
  unfold rv32Cipher
  rw [h nr (by omega), h (nr - 1) (by omega), List.map_congr_left (f := f) (g := g) (fun i hi => h i (by
    rw [List.mem_range] at hi; omega))]
theorem rv32Decipher_congr {nr : Nat} (hnr : 0 < nr) {f g : Nat → Bytes 16} (h : ∀ r, r ≤ nr → f r = g r) (p : Bytes 16) :
    rv32Decipher nr f p = rv32Decipher nr g p := by
  unfold rv32Decipher
  rw [h nr (by omega), h (nr - 1) (by omega), List.map_congr_left (f := f) (g := g) (fun i hi => h i (by
    rw [List.mem_range] at hi; omega))]

theorem keysOf_rkVec (nr : Nat) (w : Nat → Word) (r : Nat) (h : r ≤ nr) : keysOf (rkVec Block nr w) r = roundKeyBytes w r := by
  rw [keysOf_lt _ _ (by omega)]
  simp only [rkVec, Vector.getElem_ofFn, LawfulVec.view_ofB]

theorem keysOf_decKeys (nr : Nat) (rk : Vector Block (nr + 1)) (r : Nat) (h : r ≤ nr) :
    keysOf (decKeys rk) r = rv32DecKeys nr (keysOf rk) r := by
  rw [keysOf_lt _ _ (by omega), rv32DecKeys]
  simp only [decKeys, Vector.getElem_ofFn]
  rw [keysOf_lt rk _ (by omega)]
  split
  · rfl
  · exact view_imc _

end Aes.Riscv32
