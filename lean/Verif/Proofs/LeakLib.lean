import Verif.Proofs.Leak
import Verif.Model.Target
/-! The leakage version of lib.rs computes what the model does, and leaks nothing if the block operations do not. -/
namespace Aes.Leak
open Rust

/-- The same `pre_enc` and `pre_dec`, if the type has them. -/
def PreRel {T : Type} : Option (LPre T) → Option (Pre T) → Prop
  | none, none => True
  | some p, some q => ∀ x y : T, (p.pre_enc x y).out = .ok (q.pre_enc x y) ∧ (p.pre_dec x y).out = .ok (q.pre_dec x y)
  | _, _ => False
/-- The operations with leakage compute what the ones of the model do. -/
class Erases (T : Type) {n : outParam Nat} [AesVec T n] [LVec T n] : Prop where
  new : ∀ b : Vector U8 n, (LVec.new b : L T).out = AesVec.new b
  from_bytes : ∀ b : Vector U8 n, (LVec.from_bytes b : L T).out = AesVec.from_bytes b
  store_to : ∀ (x : T) d, (LVec.store_to x d).out = AesVec.store_to x d
  zero : (LVec.zero : L T).out = .ok AesVec.zero
  is_zero : ∀ x : T, (LVec.is_zero x).out = .ok (AesVec.is_zero x)
  eq : ∀ x y : T, (LVec.eq x y).out = .ok (AesVec.eq x y)
  bitand : ∀ x y : T, (LVec.bitand x y).out = .ok (AesVec.bitand x y)
  bitor : ∀ x y : T, (LVec.bitor x y).out = .ok (AesVec.bitor x y)
  bitxor : ∀ x y : T, (LVec.bitxor x y).out = .ok (AesVec.bitxor x y)
  not : ∀ x : T, (LVec.not x).out = .ok (AesVec.not x)
  enc : ∀ x y : T, (LVec.enc x y).out = .ok (AesVec.enc x y)
  dec : ∀ x y : T, (LVec.dec x y).out = .ok (AesVec.dec x y)
  enc_last : ∀ x y : T, (LVec.enc_last x y).out = .ok (AesVec.enc_last x y)
  dec_last : ∀ x y : T, (LVec.dec_last x y).out = .ok (AesVec.dec_last x y)
  pre : PreRel (LVec.pre : Option (LPre T)) (AesVec.pre : Option (Pre T))
/-- The same for `AesBlock`. -/
class ErasesBlock (B : Type) [AesBlock B] [LBlock B] : Prop extends Erases B where
  mc : ∀ x : B, (LBlock.mc x).out = .ok (AesBlock.mc x)
  imc : ∀ x : B, (LBlock.imc x).out = .ok (AesBlock.imc x)
  keygen_128 : ∀ k, (LBlock.keygen_128 k : L (Vector B 11)).out = AesBlock.keygen_128 k
  keygen_192 : ∀ k, (LBlock.keygen_192 k : L (Vector B 13)).out = AesBlock.keygen_192 k
  keygen_256 : ∀ k, (LBlock.keygen_256 k : L (Vector B 15)).out = AesBlock.keygen_256 k

/-- What the conversions and the bit operators leak does not depend on the blocks and bytes involved. (`==` is not in the
list.) -/
class QuietData (T : Type) {n : outParam Nat} [LVec T n] : Prop where
  new : ∀ b b' : Vector U8 n, Same Any (LVec.new b : L T) (LVec.new b' : L T)
  from_bytes : ∀ b b' : Vector U8 n, Same Any (LVec.from_bytes b : L T) (LVec.from_bytes b' : L T)
  store_to : ∀ (x x' : T) (d d' : List U8), SameLen d d' → Same SameLen (LVec.store_to x d) (LVec.store_to x' d')
  is_zero : ∀ x x' : T, Same Any (LVec.is_zero x) (LVec.is_zero x')
  bitand : ∀ x y x' y' : T, Same Any (LVec.bitand x y) (LVec.bitand x' y')
  bitor : ∀ x y x' y' : T, Same Any (LVec.bitor x y) (LVec.bitor x' y')
  bitxor : ∀ x y x' y' : T, Same Any (LVec.bitxor x y) (LVec.bitxor x' y')
  not : ∀ x x' : T, Same Any (LVec.not x) (LVec.not x')
/-- The same for the round functions. -/
class Quiet (T : Type) {n : outParam Nat} [LVec T n] : Prop extends QuietData T where
  enc : ∀ x y x' y' : T, Same Any (LVec.enc x y) (LVec.enc x' y')
  dec : ∀ x y x' y' : T, Same Any (LVec.dec x y) (LVec.dec x' y')
  enc_last : ∀ x y x' y' : T, Same Any (LVec.enc_last x y) (LVec.enc_last x' y')
  dec_last : ∀ x y x' y' : T, Same Any (LVec.dec_last x y) (LVec.dec_last x' y')
  pre : ∀ p : LPre T, LVec.pre = some p → ∀ x y x' y' : T,
    Same Any (p.pre_enc x y) (p.pre_enc x' y') ∧ Same Any (p.pre_dec x y) (p.pre_dec x' y')
/-- The same for the operations that only `AesBlock` has. -/
class QuietBlock (B : Type) [LBlock B] : Prop extends Quiet B where
  mc : ∀ x x' : B, Same Any (LBlock.mc x) (LBlock.mc x')
  imc : ∀ x x' : B, Same Any (LBlock.imc x) (LBlock.imc x')
  keygen_128 : ∀ k k', Same Any (LBlock.keygen_128 k : L (Vector B 11)) (LBlock.keygen_128 k' : L (Vector B 11))
  keygen_192 : ∀ k k', Same Any (LBlock.keygen_192 k : L (Vector B 13)) (LBlock.keygen_192 k' : L (Vector B 13))
  keygen_256 : ∀ k k', Same Any (LBlock.keygen_256 k : L (Vector B 15)) (LBlock.keygen_256 k' : L (Vector B 15))

/-! ### Results -/

theorem out_try_from_slice {T : Type} {n : Nat} {f : Vector U8 n → L T} {g : Vector U8 n → M T} (h : ∀ b, (f b).out = g b)
    (s : List U8) : (try_from_slice n f s).out = Aes.try_from_slice n g s := by
  unfold try_from_slice Aes.try_from_slice
  rw [out_bind, out_branch]
  by_cases hl : s.length ≥ n
  · simp only [if_pos hl, ok_bind, out_bind, array_from_slice, out_rawRead, h, out_pure]; rfl
  · simp only [if_neg hl, ok_bind, out_pure]; rfl

section vec
variable {T : Type} {n : Nat} [AesVec T n] [LVec T n] [Erases T]

theorem out_try_from (s : List U8) : (try_from s : L (Except Nat T)).out = Aes.try_from s :=
  out_try_from_slice Erases.from_bytes s
theorem out_into_bytes (x : T) : (into_bytes x).out = Aes.into_bytes x := by
  unfold into_bytes Aes.into_bytes
  simp only [out_bind, Erases.store_to]
theorem out_chain_enc (x : T) (ks : List T) : (chain_enc x ks).out = Aes.chain_enc x ks := by
  unfold chain_enc Aes.chain_enc
  have hp := Erases.pre (T := T)
  revert hp
  cases (LVec.pre : Option (LPre T)) <;> cases (AesVec.pre : Option (Pre T)) <;> intro hp
  · show (chain_enc_std x ks).out = Aes.chain_enc_std x ks
    unfold chain_enc_std Aes.chain_enc_std
    simp only [out_bind, out_assert, out_sidx, Erases.bitxor, out_sliceFrom, ok_bind, out_forEach_ok _ Erases.enc]
    rfl
  · exact hp.elim
  · exact hp.elim
  · rename_i p q
    show (chain_enc_pre p x ks).out = Aes.chain_enc_pre q x ks
    unfold chain_enc_pre Aes.chain_enc_pre
    simp only [out_bind, out_assert, out_sidx, Erases.bitxor, out_sliceTo, ok_bind, out_forEach_ok _ (fun a b => (hp a b).1)]
    rfl
theorem out_chain_dec (x : T) (ks : List T) : (chain_dec x ks).out = Aes.chain_dec x ks := by
  unfold chain_dec Aes.chain_dec
  have hp := Erases.pre (T := T)
  revert hp
  cases (LVec.pre : Option (LPre T)) <;> cases (AesVec.pre : Option (Pre T)) <;> intro hp
  · show (chain_dec_std x ks).out = Aes.chain_dec_std x ks
    unfold chain_dec_std Aes.chain_dec_std
    simp only [out_bind, out_assert, out_sidx, Erases.bitxor, out_sliceFrom, ok_bind, out_forEach_ok _ Erases.dec]
    rfl
  · exact hp.elim
  · exact hp.elim
  · rename_i p q
    show (chain_dec_pre p x ks).out = Aes.chain_dec_pre q x ks
    unfold chain_dec_pre Aes.chain_dec_pre
    simp only [out_bind, out_assert, out_sidx, Erases.bitxor, out_sliceTo, ok_bind, out_forEach_ok _ (fun a b => (hp a b).2)]
    rfl
end vec

section block
variable {B : Type} [AesBlock B] [LBlock B] [ErasesBlock B]

theorem out_from_u128 (v : U128) : (from_u128 v : L B).out = Aes.from_u128 v := by
  unfold from_u128 Aes.from_u128
  simp only [out_bind, out_emit, ok_bind, Erases.from_bytes]
theorem out_into_u128 (x : B) : (into_u128 x).out = Aes.into_u128 x := by
  unfold into_u128 Aes.into_u128
  simp only [out_bind, out_emit, out_into_bytes]; rfl
theorem out_dec_round_keys {N : Nat} (k : Vector B N) : (dec_round_keys k).out = Aes.dec_round_keys k := by
  unfold dec_round_keys Aes.dec_round_keys
  simp only [out_bind, Erases.zero, ok_bind, out_idx, out_upd]
  congr 1; funext i
  congr 1; funext d
  rw [out_forEach (g := fun drk i => do Rust.upd drk i (AesBlock.imc (← Rust.idx k (N - 1 - i))))]
  intro a x
  simp only [out_bind, out_idx, out_upd, ErasesBlock.imc, ok_bind]
theorem out_enc_round_keys {N : Nat} (k : Vector B N) : (enc_round_keys k).out = Aes.enc_round_keys k := by
  unfold enc_round_keys Aes.enc_round_keys
  simp only [out_bind, Erases.zero, ok_bind, out_idx, out_upd]
  congr 1; funext i
  congr 1; funext d
  rw [out_forEach (g := fun drk i => do Rust.upd drk i (AesBlock.mc (← Rust.idx k (N - 1 - i))))]
  intro a x
  simp only [out_bind, out_idx, out_upd, ErasesBlock.mc, ok_bind]
theorem out_decrypter {nr : Nat} (x : AesEnc B nr) : (decrypter x).out = x.decrypter := by
  unfold decrypter AesEnc.decrypter
  simp only [out_bind, out_dec_round_keys]; rfl
theorem out_encrypter {nr : Nat} (x : AesDec B nr) : (encrypter x).out = x.encrypter := by
  unfold encrypter AesDec.encrypter
  simp only [out_bind, out_enc_round_keys]; rfl
theorem out_enc_from_128 (k : Vector U8 16) : (enc_from_128 k : L (AesEnc B 10)).out = Aes128Enc.from k := by
  unfold enc_from_128 Aes128Enc.from
  simp only [out_bind, ErasesBlock.keygen_128]; rfl
theorem out_enc_from_192 (k : Vector U8 24) : (enc_from_192 k : L (AesEnc B 12)).out = Aes192Enc.from k := by
  unfold enc_from_192 Aes192Enc.from
  simp only [out_bind, ErasesBlock.keygen_192]; rfl
theorem out_enc_from_256 (k : Vector U8 32) : (enc_from_256 k : L (AesEnc B 14)).out = Aes256Enc.from k := by
  unfold enc_from_256 Aes256Enc.from
  simp only [out_bind, ErasesBlock.keygen_256]; rfl
theorem out_dec_from_128 (k : Vector U8 16) : (dec_from_128 k : L (AesDec B 10)).out = Aes128Dec.from k := by
  unfold dec_from_128 Aes128Dec.from
  simp only [out_bind, out_enc_from_128, out_decrypter]
theorem out_dec_from_192 (k : Vector U8 24) : (dec_from_192 k : L (AesDec B 12)).out = Aes192Dec.from k := by
  unfold dec_from_192 Aes192Dec.from
  simp only [out_bind, out_enc_from_192, out_decrypter]
theorem out_dec_from_256 (k : Vector U8 32) : (dec_from_256 k : L (AesDec B 14)).out = Aes256Dec.from k := by
  unfold dec_from_256 Aes256Dec.from
  simp only [out_bind, out_enc_from_256, out_decrypter]
theorem out_encrypt_1 {nr : Nat} (e : AesEnc B nr) (x : B) : (encrypt id e x).out = e.encrypt_block x := by
  unfold encrypt AesEnc.encrypt_block
  simp only [out_bind, out_sliceTo, out_chain_enc, out_idx, Erases.enc_last, Vector.map_id]; rfl
theorem out_decrypt_1 {nr : Nat} (e : AesDec B nr) (x : B) : (decrypt id e x).out = e.decrypt_block x := by
  unfold decrypt AesDec.decrypt_block
  simp only [out_bind, out_sliceTo, out_chain_dec, out_idx, Erases.dec_last, Vector.map_id]; rfl
end block

section wide
variable {B : Type}
theorem out_encrypt_2 {X2 : Type} [AesBlockX2 B X2] [LVec X2 32] [Erases X2] {nr : Nat} (e : AesEnc B nr) (x : X2) :
    (encrypt AesBlockX2.from_block e x).out = e.encrypt_2_blocks x := by
  unfold encrypt AesEnc.encrypt_2_blocks
  simp only [out_bind, out_sliceTo, out_chain_enc, out_idx, Erases.enc_last]; rfl
theorem out_decrypt_2 {X2 : Type} [AesBlockX2 B X2] [LVec X2 32] [Erases X2] {nr : Nat} (e : AesDec B nr) (x : X2) :
    (decrypt AesBlockX2.from_block e x).out = e.decrypt_2_blocks x := by
  unfold decrypt AesDec.decrypt_2_blocks
  simp only [out_bind, out_sliceTo, out_chain_dec, out_idx, Erases.dec_last]; rfl
theorem out_encrypt_4 {X2 X4 : Type} [AesBlockX4 B X2 X4] [LVec X4 64] [Erases X4] {nr : Nat} (e : AesEnc B nr) (x : X4) :
    (encrypt (AesBlockX4.from_block : B → X4) e x).out = e.encrypt_4_blocks x := by
  unfold encrypt AesEnc.encrypt_4_blocks
  simp only [out_bind, out_sliceTo, out_chain_enc, out_idx, Erases.enc_last]; rfl
theorem out_decrypt_4 {X2 X4 : Type} [AesBlockX4 B X2 X4] [LVec X4 64] [Erases X4] {nr : Nat} (e : AesDec B nr) (x : X4) :
    (decrypt (AesBlockX4.from_block : B → X4) e x).out = e.decrypt_4_blocks x := by
  unfold decrypt AesDec.decrypt_4_blocks
  simp only [out_bind, out_sliceTo, out_chain_dec, out_idx, Erases.dec_last]; rfl
end wide

/-! ### Leakage -/

section quietData
variable {T : Type} {n : Nat} [LVec T n] [QuietData T]

theorem same_into_bytes (x x' : T) : Same Any (into_bytes x) (into_bytes x') :=
  Same.bind (QuietData.store_to x x' _ _ rfl) fun _ _ h => Same.quietArray h n
end quietData

section quiet
variable {T : Type} {n : Nat} [LVec T n] [Quiet T]

theorem same_chain_enc (x x' : T) {ks ks' : List T} (h : SameLen ks ks') : Same Any (chain_enc x ks) (chain_enc x' ks') := by
  have h' : ks.length = ks'.length := h
  unfold chain_enc
  have hp := Quiet.pre (T := T)
  revert hp
  cases (LVec.pre : Option (LPre T)) <;> intro hp
  · show Same Any (chain_enc_std x ks) (chain_enc_std x' ks')
    unfold chain_enc_std
    rw [h']
    exact Same.bind_any (Same.assert _) fun _ _ => Same.bind_any (Same.sidx h 0) fun k k' =>
      Same.bind_any (QuietData.bitxor x k x' k') fun _ _ => Same.bind (Same.sliceFrom h 1) fun _ _ hl =>
      Same.forEach (all2_any hl) (fun a b x y _ _ => Quiet.enc a x b y) trivial
  · rename_i p
    show Same Any (chain_enc_pre p x ks) (chain_enc_pre p x' ks')
    unfold chain_enc_pre
    rw [h']
    exact Same.bind_any (Same.assert _) fun _ _ => Same.bind (Same.sliceTo h _) fun _ _ hl =>
      Same.bind_any (Same.forEach (all2_any hl) (fun a b x y _ _ => (hp p rfl a x b y).1) trivial) fun a b =>
      Same.bind_any (Same.sidx h _) fun k k' => QuietData.bitxor a k b k'
theorem same_chain_dec (x x' : T) {ks ks' : List T} (h : SameLen ks ks') : Same Any (chain_dec x ks) (chain_dec x' ks') := by
  have h' : ks.length = ks'.length := h
  unfold chain_dec
  have hp := Quiet.pre (T := T)
  revert hp
  cases (LVec.pre : Option (LPre T)) <;> intro hp
  · show Same Any (chain_dec_std x ks) (chain_dec_std x' ks')
    unfold chain_dec_std
    rw [h']
    exact Same.bind_any (Same.assert _) fun _ _ => Same.bind_any (Same.sidx h 0) fun k k' =>
      Same.bind_any (QuietData.bitxor x k x' k') fun _ _ => Same.bind (Same.sliceFrom h 1) fun _ _ hl =>
      Same.forEach (all2_any hl) (fun a b x y _ _ => Quiet.dec a x b y) trivial
  · rename_i p
    show Same Any (chain_dec_pre p x ks) (chain_dec_pre p x' ks')
    unfold chain_dec_pre
    rw [h']
    exact Same.bind_any (Same.assert _) fun _ _ => Same.bind (Same.sliceTo h _) fun _ _ hl =>
      Same.bind_any (Same.forEach (all2_any hl) (fun a b x y _ _ => (hp p rfl a x b y).2) trivial) fun a b =>
      Same.bind_any (Same.sidx h _) fun k k' => QuietData.bitxor a k b k'
theorem same_encrypt {B : Type} (into : B → T) {nr : Nat} (e e' : AesEnc B nr) (x x' : T) :
    Same Any (encrypt into e x) (encrypt into e' x') :=
  Same.bind (Same.sliceTo (by simp [SameLen]) nr) fun _ _ h => Same.bind_any (same_chain_enc x x' h) fun a b =>
    Same.bind_any (Same.idx _ _ nr) fun k k' => Quiet.enc_last a k b k'
theorem same_decrypt {B : Type} (into : B → T) {nr : Nat} (e e' : AesDec B nr) (x x' : T) :
    Same Any (decrypt into e x) (decrypt into e' x') :=
  Same.bind (Same.sliceTo (by simp [SameLen]) nr) fun _ _ h => Same.bind_any (same_chain_dec x x' h) fun a b =>
    Same.bind_any (Same.idx _ _ nr) fun k k' => Quiet.dec_last a k b k'
end quiet

section quietBlockData
variable {B : Type} [LBlock B] [QuietData B]

theorem same_from_u128 (v v' : U128) : Same Any (from_u128 v : L B) (from_u128 v' : L B) :=
  Same.bind_any (Same.emit _ _) fun a b => QuietData.from_bytes a b
theorem same_into_u128 (x x' : B) : Same Any (into_u128 x) (into_u128 x') :=
  Same.bind_any (same_into_bytes x x') fun _ _ => Same.emit _ _
end quietBlockData

section quietBlock
variable {B : Type} [LBlock B] [QuietBlock B]

theorem same_refl {α : Type} (m : L α) : Same Any m m := by
  refine ⟨rfl, ?_⟩
  cases m.out
  · rfl
  · trivial
theorem same_dec_round_keys {N : Nat} (k k' : Vector B N) : Same Any (dec_round_keys k) (dec_round_keys k') :=
  Same.bind_any (same_refl _) fun _ _ => Same.bind_any (Same.idx _ _ _) fun _ _ => Same.bind_any (Same.upd _ _ _ _ _) fun _ _ =>
    Same.bind_any (Same.forEach (R := Any) (all2_refl _) (fun _ _ _ _ _ hij => hij ▸
      Same.bind_any (Same.idx _ _ _) fun x y => Same.bind_any (QuietBlock.imc x y) fun _ _ => Same.upd _ _ _ _ _) trivial) fun _ _ =>
    Same.bind_any (Same.idx _ _ _) fun _ _ => Same.upd _ _ _ _ _
theorem same_enc_round_keys {N : Nat} (k k' : Vector B N) : Same Any (enc_round_keys k) (enc_round_keys k') :=
  Same.bind_any (same_refl _) fun _ _ => Same.bind_any (Same.idx _ _ _) fun _ _ => Same.bind_any (Same.upd _ _ _ _ _) fun _ _ =>
    Same.bind_any (Same.forEach (R := Any) (all2_refl _) (fun _ _ _ _ _ hij => hij ▸
      Same.bind_any (Same.idx _ _ _) fun x y => Same.bind_any (QuietBlock.mc x y) fun _ _ => Same.upd _ _ _ _ _) trivial) fun _ _ =>
    Same.bind_any (Same.idx _ _ _) fun _ _ => Same.upd _ _ _ _ _
theorem same_decrypter {nr : Nat} (e e' : AesEnc B nr) : Same Any (decrypter e) (decrypter e') :=
  Same.bind_any (same_dec_round_keys _ _) fun _ _ => Same.pure trivial
theorem same_encrypter {nr : Nat} (e e' : AesDec B nr) : Same Any (encrypter e) (encrypter e') :=
  Same.bind_any (same_enc_round_keys _ _) fun _ _ => Same.pure trivial
theorem same_enc_from_128 (k k' : Vector U8 16) : Same Any (enc_from_128 k : L (AesEnc B 10)) (enc_from_128 k' : L (AesEnc B 10)) :=
  Same.bind_any (QuietBlock.keygen_128 k k') fun _ _ => Same.pure trivial
theorem same_enc_from_192 (k k' : Vector U8 24) : Same Any (enc_from_192 k : L (AesEnc B 12)) (enc_from_192 k' : L (AesEnc B 12)) :=
  Same.bind_any (QuietBlock.keygen_192 k k') fun _ _ => Same.pure trivial
theorem same_enc_from_256 (k k' : Vector U8 32) : Same Any (enc_from_256 k : L (AesEnc B 14)) (enc_from_256 k' : L (AesEnc B 14)) :=
  Same.bind_any (QuietBlock.keygen_256 k k') fun _ _ => Same.pure trivial
theorem same_dec_from_128 (k k' : Vector U8 16) : Same Any (dec_from_128 k : L (AesDec B 10)) (dec_from_128 k' : L (AesDec B 10)) :=
  Same.bind_any (same_enc_from_128 k k') fun e e' => same_decrypter e e'
theorem same_dec_from_192 (k k' : Vector U8 24) : Same Any (dec_from_192 k : L (AesDec B 12)) (dec_from_192 k' : L (AesDec B 12)) :=
  Same.bind_any (same_enc_from_192 k k') fun e e' => same_decrypter e e'
theorem same_dec_from_256 (k k' : Vector U8 32) : Same Any (dec_from_256 k : L (AesDec B 14)) (dec_from_256 k' : L (AesDec B 14)) :=
  Same.bind_any (same_enc_from_256 k k') fun e e' => same_decrypter e e'
end quietBlock

/-! ### Pairs -/

section pair
variable {U T : Type} {n N : Nat} [LVec U n] (mk : U → U → T) (f0 f1 : T → U) (into : T → U × U) (from_ : U × U → T)

theorem same_pair {α β : Type} {m1 m1' m2 m2' : L α} {g g' : α → α → β} (h1 : Same Any m1 m1') (h2 : Same Any m2 m2') :
    Same Any (do let a ← m1; let b ← m2; pure (g a b)) (do let a ← m1'; let b ← m2'; pure (g' a b)) :=
  Same.bind_any h1 fun _ _ => Same.bind_any h2 fun _ _ => Same.pure trivial

theorem quietData_pair [QuietData U] : @QuietData T N (pairVec (U := U) T mk f0 f1 N into from_) := by
  letI := pairVec (U := U) T mk f0 f1 N into from_
  have hnew : ∀ b b' : Vector U8 N, Same Any (LVec.new b : L T) (LVec.new b' : L T) := fun b b' =>
    Same.bind_any (Same.rawRead (by simp [SameLen]) 0 n) fun _ _ => Same.bind_any (QuietData.new _ _) fun _ _ =>
      Same.bind_any (Same.rawRead (by simp [SameLen]) n n) fun _ _ => Same.bind_any (QuietData.new _ _) fun _ _ => Same.pure trivial
  exact {
    new := hnew
    from_bytes := hnew
    store_to := fun x x' d d' h => by
      have h' : d.length = d'.length := h
      show Same SameLen (do
        assert (d.length ≥ N)
        let dst ← onTo d n fun s => LVec.store_to (f0 x) s
        let dst ← onFrom dst n fun s => LVec.store_to (f1 x) s
        pure dst) (do
        assert (d'.length ≥ N)
        let dst ← onTo d' n fun s => LVec.store_to (f0 x') s
        let dst ← onFrom dst n fun s => LVec.store_to (f1 x') s
        pure dst)
      rw [h']
      exact Same.bind_any (Same.assert _) fun _ _ =>
        Same.bind (Same.onTo h n fun s s' hs => QuietData.store_to (f0 x) (f0 x') s s' hs) fun _ _ h =>
        Same.onFrom h n fun s s' hs => QuietData.store_to (f1 x) (f1 x') s s' hs
    is_zero := fun x x' => Same.bind_any (QuietData.is_zero _ _) fun _ _ => Same.bind_any (QuietData.is_zero _ _) fun _ _ => Same.emit _ _
    bitand := fun x y x' y' => same_pair (QuietData.bitand _ _ _ _) (QuietData.bitand _ _ _ _)
    bitor := fun x y x' y' => same_pair (QuietData.bitor _ _ _ _) (QuietData.bitor _ _ _ _)
    bitxor := fun x y x' y' => same_pair (QuietData.bitxor _ _ _ _) (QuietData.bitxor _ _ _ _)
    not := fun x x' => same_pair (QuietData.not _ _) (QuietData.not _ _) }
theorem quiet_pair [Quiet U] : @Quiet T N (pairVec (U := U) T mk f0 f1 N into from_) := by
  letI := pairVec (U := U) T mk f0 f1 N into from_
  exact {
    toQuietData := quietData_pair mk f0 f1 into from_
    enc := fun x y x' y' => same_pair (Quiet.enc _ _ _ _) (Quiet.enc _ _ _ _)
    dec := fun x y x' y' => same_pair (Quiet.dec _ _ _ _) (Quiet.dec _ _ _ _)
    enc_last := fun x y x' y' => same_pair (Quiet.enc_last _ _ _ _) (Quiet.enc_last _ _ _ _)
    dec_last := fun x y x' y' => same_pair (Quiet.dec_last _ _ _ _) (Quiet.dec_last _ _ _ _)
    pre := fun p hp x y x' y' => by
      have hp' : (LVec.pre (T := U)).map (impl_pre_encdec into from_) = some p := hp
      cases hq : (LVec.pre : Option (LPre U)) with
      | none => rw [hq] at hp'; cases hp'
      | some q =>
        rw [hq] at hp'
        cases hp'
        exact ⟨same_pair (Quiet.pre q hq _ _ _ _).1 (Quiet.pre q hq _ _ _ _).1,
          same_pair (Quiet.pre q hq _ _ _ _).2 (Quiet.pre q hq _ _ _ _).2⟩ }
end pair

instance {B : Type} [LBlock B] [QuietData B] : QuietData (DefaultX2.X2 B) := quietData_pair ..
instance {X2 : Type} [LVec X2 32] [QuietData X2] : QuietData (DefaultX4.X4 X2) := quietData_pair ..
instance {B : Type} [LBlock B] [QuietBlock B] : Quiet (DefaultX2.X2 B) := quiet_pair ..
instance {X2 : Type} [LVec X2 32] [Quiet X2] : Quiet (DefaultX4.X4 X2) := quiet_pair ..

theorem out_pair {α β : Type} {m1 m2 : L α} {x y : α} {g : α → α → β} (h1 : m1.out = .ok x) (h2 : m2.out = .ok y) :
    (do let a ← m1; let b ← m2; pure (g a b) : L β).out = .ok (g x y) := by
  rw [out_bind_ok h1, out_bind_ok h2]; rfl
theorem out_andAlso {a b : L Bool} {x y : Bool} (h1 : a.out = .ok x) (h2 : b.out = .ok y) : (andAlso a b).out = .ok (x && y) := by
  unfold andAlso
  rw [out_bind_ok h1, out_bind_ok (out_branch x)]
  cases x
  · rfl
  · simpa using h2
theorem out_andBoth {a b : L Bool} {x y : Bool} (h1 : a.out = .ok x) (h2 : b.out = .ok y) : (andBoth a b).out = .ok (x && y) := by
  unfold andBoth
  rw [out_bind_ok h1, out_bind_ok h2]; rfl

instance {B : Type} [AesBlock B] [LBlock B] [ErasesBlock B] : Erases (DefaultX2.X2 B) := by
  have hnew : ∀ b : Vector U8 32, (LVec.new b : L (DefaultX2.X2 B)).out = AesVec.new b := fun b => by
    show _ = DefaultX2.new b
    unfold DefaultX2.new
    show (do
      let a ← array_from_slice 16 b.toList 0
      let x ← LVec.new a
      let a ← array_from_slice 16 b.toList 16
      let y ← LVec.new a
      pure (DefaultX2.X2.mk x y) : L (DefaultX2.X2 B)).out = _
    simp only [out_bind, array_from_slice, out_rawRead, Erases.new, out_pure]; rfl
  exact {
    new := hnew
    from_bytes := hnew
    store_to := fun x d => by
      show (do
        assert (d.length ≥ 32)
        let dst ← onTo d 16 fun s => LVec.store_to x.f0 s
        let dst ← onFrom dst 16 fun s => LVec.store_to x.f1 s
        pure dst : L (List U8)).out = DefaultX2.store_to x d
      unfold DefaultX2.store_to
      simp only [out_bind, out_assert, out_onTo (Erases.store_to x.f0), out_onFrom (Erases.store_to x.f1)]
    zero := out_pair Erases.zero Erases.zero
    is_zero := fun x => out_andBoth (Erases.is_zero _) (Erases.is_zero _)
    eq := fun x y => out_andAlso (Erases.eq _ _) (Erases.eq _ _)
    bitand := fun x y => out_pair (Erases.bitand _ _) (Erases.bitand _ _)
    bitor := fun x y => out_pair (Erases.bitor _ _) (Erases.bitor _ _)
    bitxor := fun x y => out_pair (Erases.bitxor _ _) (Erases.bitxor _ _)
    not := fun x => out_pair (Erases.not _) (Erases.not _)
    enc := fun x y => out_pair (Erases.enc _ _) (Erases.enc _ _)
    dec := fun x y => out_pair (Erases.dec _ _) (Erases.dec _ _)
    enc_last := fun x y => out_pair (Erases.enc_last _ _) (Erases.enc_last _ _)
    dec_last := fun x y => out_pair (Erases.dec_last _ _) (Erases.dec_last _ _)
    pre := by
      show PreRel ((LVec.pre (T := B)).map (impl_pre_encdec _ _)) ((AesVec.pre (T := B)).map (Aes.impl_pre_encdec _ _))
      have hp := Erases.pre (T := B)
      revert hp
      cases (LVec.pre : Option (LPre B)) <;> cases (AesVec.pre : Option (Pre B)) <;> intro hp
      · exact hp
      · exact hp
      · exact hp
      · exact fun x y => ⟨out_pair (hp _ _).1 (hp _ _).1, out_pair (hp _ _).2 (hp _ _).2⟩ }

instance {B X2 : Type} [AesBlockX2 B X2] [LVec X2 32] [Erases X2] : Erases (DefaultX4.X4 X2) := by
  have hnew : ∀ b : Vector U8 64, (LVec.new b : L (DefaultX4.X4 X2)).out = AesVec.new b := fun b => by
    show _ = DefaultX4.new b
    unfold DefaultX4.new
    show (do
      let a ← array_from_slice 32 b.toList 0
      let x ← LVec.new a
      let a ← array_from_slice 32 b.toList 32
      let y ← LVec.new a
      pure (DefaultX4.X4.mk x y) : L (DefaultX4.X4 X2)).out = _
    simp only [out_bind, array_from_slice, out_rawRead, Erases.new, out_pure]; rfl
  exact {
    new := hnew
    from_bytes := hnew
    store_to := fun x d => by
      show (do
        assert (d.length ≥ 64)
        let dst ← onTo d 32 fun s => LVec.store_to x.f0 s
        let dst ← onFrom dst 32 fun s => LVec.store_to x.f1 s
        pure dst : L (List U8)).out = DefaultX4.store_to x d
      unfold DefaultX4.store_to
      simp only [out_bind, out_assert, out_onTo (Erases.store_to x.f0), out_onFrom (Erases.store_to x.f1)]
    zero := out_pair Erases.zero Erases.zero
    is_zero := fun x => out_andBoth (Erases.is_zero _) (Erases.is_zero _)
    eq := fun x y => out_andAlso (Erases.eq _ _) (Erases.eq _ _)
    bitand := fun x y => out_pair (Erases.bitand _ _) (Erases.bitand _ _)
    bitor := fun x y => out_pair (Erases.bitor _ _) (Erases.bitor _ _)
    bitxor := fun x y => out_pair (Erases.bitxor _ _) (Erases.bitxor _ _)
    not := fun x => out_pair (Erases.not _) (Erases.not _)
    enc := fun x y => out_pair (Erases.enc _ _) (Erases.enc _ _)
    dec := fun x y => out_pair (Erases.dec _ _) (Erases.dec _ _)
    enc_last := fun x y => out_pair (Erases.enc_last _ _) (Erases.enc_last _ _)
    dec_last := fun x y => out_pair (Erases.dec_last _ _) (Erases.dec_last _ _)
    pre := by
      show PreRel ((LVec.pre (T := X2)).map (impl_pre_encdec _ _)) ((AesVec.pre (T := X2)).map (Aes.impl_pre_encdec _ _))
      have hp := Erases.pre (T := X2)
      revert hp
      cases (LVec.pre : Option (LPre X2)) <;> cases (AesVec.pre : Option (Pre X2)) <;> intro hp
      · exact hp
      · exact hp
      · exact hp
      · exact fun x y => ⟨out_pair (hp _ _).1 (hp _ _).1, out_pair (hp _ _).2 (hp _ _).2⟩ }

/-! ### Key-expansion loops -/

namespace Columns

theorem out_load_columns (e : Endian) {n : Nat} (key : List U8) (c : Vector U32 n) :
    (load_columns e key c).out = Aes.Columns.load_columns e key c := by
  unfold load_columns Aes.Columns.load_columns
  refine out_forEach _ (fun a x => ?_) c
  simp only [out_bind, out_arrayTryFrom, out_emit, out_upd]; rfl

theorem out_xor {w : Nat} (a b : BitVec w) : (xor a b).out = .ok (a ^^^ b) := rfl

/-- What `first` computes. -/
abbrev FirstIs {n : Nat} (first : First n) (first' : U32 → U32 → U32 → U32) : Prop :=
  ∀ c i j r, (first c i j r).out = (do
    let a ← Rust.idx c i
    let b ← Rust.idx c j
    let d ← Rust.idx Aes.Columns.RCON r
    .ok (first' a b d))
/-- What `fifth` computes. -/
abbrev FifthIs {n : Nat} (fifth : Vector U32 n → Nat → Nat → L U32) (fifth' : U32 → U32 → U32) : Prop :=
  ∀ c i j, (fifth c i j).out = (do
    let a ← Rust.idx c i
    let b ← Rust.idx c j
    .ok (fifth' a b))

theorem idx_cases {α : Type} {n : Nat} (c : Vector α n) (i : Nat) :
    (∃ x, Rust.idx c i = .ok x) ∨ Rust.idx c i = .error .panic := by
  unfold Rust.idx
  by_cases h : i < n
  · exact .inl ⟨_, dif_pos h⟩
  · exact .inr (dif_neg h)

theorem out_columns_128 {first : First 44} {first' : U32 → U32 → U32 → U32} (h1 : FirstIs first first')
    (e : Endian) (key : Vector U8 16) :
    (columns_128 first e key).out = Aes.Columns.columns_128 first' e key := by
  unfold columns_128 Aes.Columns.columns_128
  simp only [out_bind, out_load_columns]
  congr 1; funext c
  refine out_forEach _ (fun a x => ?_) c
  unfold step_128 Aes.Columns.step_128
  simp only [out_bind, out_idx, out_upd, h1, out_xor, ok_bind, bind_assoc]
theorem out_columns_192 {first : First 52} {first' : U32 → U32 → U32 → U32} (h1 : FirstIs first first')
    (e : Endian) (key : Vector U8 24) :
    (columns_192 first e key).out = Aes.Columns.columns_192 first' e key := by
  unfold columns_192 Aes.Columns.columns_192
  simp only [out_bind, out_load_columns, out_idx, out_upd, h1, out_xor, ok_bind, bind_assoc]
  congr 1; funext c
  rw [out_forEach (g := Aes.Columns.step_192 first')]
  intro a x
  unfold step_192 Aes.Columns.step_192
  simp only [out_bind, out_idx, out_upd, h1, out_xor, ok_bind, bind_assoc]
theorem out_columns_256 {first tail : First 60} {fifth : Vector U32 60 → Nat → Nat → L U32}
    {first' tail' : U32 → U32 → U32 → U32} {fifth' : U32 → U32 → U32}
    (h1 : FirstIs first first') (h5 : FifthIs fifth fifth') (ht : FirstIs tail tail') (e : Endian) (key : Vector U8 32) :
    (columns_256 first fifth tail e key).out = Aes.Columns.columns_256 first' fifth' tail' e key := by
  unfold columns_256 Aes.Columns.columns_256
  simp only [out_bind, out_load_columns, out_idx, out_upd, ht, out_xor, ok_bind, bind_assoc]
  congr 1; funext c
  rw [out_forEach (g := Aes.Columns.step_256 first' fifth')]
  intro a x
  unfold step_256 Aes.Columns.step_256
  simp only [out_bind, out_idx, out_upd, h1, h5, out_xor, ok_bind, bind_assoc]

theorem all2_zipIdx {α β : Type} {S : α → β → Prop} {l : List α} {l' : List β} (h : All2 S l l') (k : Nat) :
    All2 (fun (x : α × Nat) (y : β × Nat) => S x.1 y.1 ∧ x.2 = y.2) (l.zipIdx k) (l'.zipIdx k) := by
  induction h generalizing k with
  | nil => exact .nil
  | cons h _ ih => exact .cons ⟨h, rfl⟩ (ih (k + 1))
theorem all2_map {α β γ : Type} {S : α → β → Prop} (l : List γ) {f : γ → α} {g : γ → β} (h : ∀ x, S (f x) (g x)) :
    All2 S (l.map f) (l.map g) := by
  induction l with
  | nil => exact .nil
  | cons x l ih => exact .cons (h x) ih
theorem all2_chunks {α β : Type} {s : List α} {s' : List β} (h : SameLen s s') (k : Nat) :
    All2 SameLen (chunksExact k s) (chunksExact k s') := by
  have h' : s.length = s'.length := h
  unfold chunksExact
  rw [h']
  exact all2_map _ fun i => by show ((s.drop _).take k).length = ((s'.drop _).take k).length; simp [h']
theorem same_load_columns (e : Endian) {n : Nat} {key key' : List U8} (h : SameLen key key') (c c' : Vector U32 n) :
    Same Any (load_columns e key c) (load_columns e key' c') :=
  Same.forEach (R := Any) (all2_zipIdx (all2_chunks h 4) 0) (fun _ _ x y _ hxy => by
    rw [hxy.2]
    exact Same.bind_any (Same.arrayTryFrom hxy.1 4) fun _ _ => Same.bind_any (Same.emit _ _) fun _ _ => Same.upd _ _ _ _ _) trivial

/-- `first` reveals nothing but the indices. -/
abbrev FirstSame {n : Nat} (first : First n) : Prop := ∀ c c' i j r, Same Any (first c i j r) (first c' i j r)
/-- `fifth` reveals nothing but the indices. -/
abbrev FifthSame {n : Nat} (fifth : Vector U32 n → Nat → Nat → L U32) : Prop := ∀ c c' i j, Same Any (fifth c i j) (fifth c' i j)

theorem same_xor {w : Nat} (a b a' b' : BitVec w) : Same Any (xor a b) (xor a' b') := Same.emit _ _
/-- `columns[j] = columns[k] ^ columns[l]`. -/
theorem same_xor_upd {n : Nat} {δ : Type} {f f' : Vector U32 n → L δ} (c c' : Vector U32 n) (j k l : Nat) (hf : ∀ c c', Same Any (f c) (f' c')) :
    Same Any (do
      let a ← idx .data c k
      let b ← idx .data c l
      let x ← xor a b
      let c ← upd .data c j x
      f c) (do
      let a ← idx .data c' k
      let b ← idx .data c' l
      let x ← xor a b
      let c ← upd .data c' j x
      f' c) :=
  Same.bind_any (Same.idx _ _ _) fun _ _ => Same.bind_any (Same.idx _ _ _) fun _ _ => Same.bind_any (same_xor _ _ _ _) fun _ _ =>
    Same.bind_any (Same.upd _ _ _ _ _) hf
/-- The last one. -/
theorem same_xor_upd' {n : Nat} (c c' : Vector U32 n) (j k l : Nat) :
    Same Any (do
      let a ← idx .data c k
      let b ← idx .data c l
      let x ← xor a b
      upd .data c j x) (do
      let a ← idx .data c' k
      let b ← idx .data c' l
      let x ← xor a b
      upd .data c' j x) :=
  Same.bind_any (Same.idx _ _ _) fun _ _ => Same.bind_any (Same.idx _ _ _) fun _ _ => Same.bind_any (same_xor _ _ _ _) fun _ _ =>
    Same.upd _ _ _ _ _
/-- `columns[j] = first(columns, k, l, r)`. -/
theorem same_first_upd {n : Nat} {first : First n} (h1 : FirstSame first) {δ : Type} {f f' : Vector U32 n → L δ} (c c' : Vector U32 n) (j k l r : Nat) (hf : ∀ c c', Same Any (f c) (f' c')) :
    Same Any (do
      let x ← first c k l r
      let c ← upd .data c j x
      f c) (do
      let x ← first c' k l r
      let c ← upd .data c' j x
      f' c) :=
  Same.bind_any (h1 _ _ _ _ _) fun _ _ => Same.bind_any (Same.upd _ _ _ _ _) hf
theorem same_step_128 {first : First 44} (h1 : FirstSame first) (c c' : Vector U32 44) (i : Nat) : Same Any (step_128 first c i) (step_128 first c' i) := by
  unfold step_128
  refine same_first_upd h1 _ _ _ _ _ _ fun _ _ => ?_
  refine same_xor_upd _ _ _ _ _ fun _ _ => ?_
  refine same_xor_upd _ _ _ _ _ fun _ _ => ?_
  exact same_xor_upd' _ _ _ _ _
theorem same_step_192 {first : First 52} (h1 : FirstSame first) (c c' : Vector U32 52) (i : Nat) : Same Any (step_192 first c i) (step_192 first c' i) := by
  unfold step_192
  refine same_first_upd h1 _ _ _ _ _ _ fun _ _ => ?_
  refine same_xor_upd _ _ _ _ _ fun _ _ => ?_
  refine same_xor_upd _ _ _ _ _ fun _ _ => ?_
  refine same_xor_upd _ _ _ _ _ fun _ _ => ?_
  refine same_xor_upd _ _ _ _ _ fun _ _ => ?_
  exact same_xor_upd' _ _ _ _ _
theorem same_columns_128 {first : First 44} (h1 : FirstSame first) (e : Endian) (k k' : Vector U8 16) : Same Any (columns_128 first e k) (columns_128 first e k') := by
  unfold columns_128
  refine Same.bind_any (same_load_columns e (by simp [SameLen]) _ _) fun _ _ => ?_
  exact Same.forEach (R := Any) (all2_refl _) (fun a b i j _ hij => by rw [hij]; exact same_step_128 h1 a b j) trivial
theorem same_columns_192 {first : First 52} (h1 : FirstSame first) (e : Endian) (k k' : Vector U8 24) : Same Any (columns_192 first e k) (columns_192 first e k') := by
  unfold columns_192
  refine Same.bind_any (same_load_columns e (by simp [SameLen]) _ _) fun _ _ => ?_
  refine Same.bind_any (Same.forEach (R := Any) (all2_refl _) (fun a b i j _ hij => by rw [hij]; exact same_step_192 h1 a b j) trivial) fun _ _ => ?_
  refine same_first_upd h1 _ _ _ _ _ _ fun _ _ => ?_
  refine same_xor_upd _ _ _ _ _ fun _ _ => ?_
  refine same_xor_upd _ _ _ _ _ fun _ _ => ?_
  exact same_xor_upd' _ _ _ _ _
theorem same_step_256 {first : First 60} {fifth : Vector U32 60 → Nat → Nat → L U32} (h1 : FirstSame first) (h5 : FifthSame fifth)
    (c c' : Vector U32 60) (i : Nat) : Same Any (step_256 first fifth c i) (step_256 first fifth c' i) := by
  unfold step_256
  refine same_first_upd h1 _ _ _ _ _ _ fun _ _ => ?_
  refine same_xor_upd _ _ _ _ _ fun _ _ => ?_
  refine same_xor_upd _ _ _ _ _ fun _ _ => ?_
  refine same_xor_upd _ _ _ _ _ fun _ _ => ?_
  refine Same.bind_any (h5 _ _ _ _) fun _ _ => ?_
  refine Same.bind_any (Same.upd _ _ _ _ _) fun _ _ => ?_
  refine same_xor_upd _ _ _ _ _ fun _ _ => ?_
  refine same_xor_upd _ _ _ _ _ fun _ _ => ?_
  exact same_xor_upd' _ _ _ _ _
theorem same_columns_256 {first tail : First 60} {fifth : Vector U32 60 → Nat → Nat → L U32} (h1 : FirstSame first) (h5 : FifthSame fifth) (ht : FirstSame tail)
    (e : Endian) (k k' : Vector U8 32) :
    Same Any (columns_256 first fifth tail e k) (columns_256 first fifth tail e k') := by
  unfold columns_256
  refine Same.bind_any (same_load_columns e (by simp [SameLen]) _ _) fun _ _ => ?_
  refine Same.bind_any (Same.forEach (R := Any) (all2_refl _) (fun a b i j _ hij => by rw [hij]; exact same_step_256 h1 h5 a b j) trivial) fun _ _ => ?_
  refine same_first_upd ht _ _ _ _ _ _ fun _ _ => ?_
  refine same_xor_upd _ _ _ _ _ fun _ _ => ?_
  refine same_xor_upd _ _ _ _ _ fun _ _ => ?_
  exact same_xor_upd' _ _ _ _ _
end Columns
end Aes.Leak
