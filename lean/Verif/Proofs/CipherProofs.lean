import Verif.Proofs.LibProofs
/-! Block encryption and decryption of src/lib.rs, generically over the laws of the selected modules. -/
namespace Aes
open Rust AesSpec Fips197

section
variable {B : Type} [AesBlock B] [LawfulVec B]

/-- Round keys as bytes (zero past the end). -/
def keysOf {nr : Nat} (rk : Vector B (nr + 1)) (r : Nat) : Bytes 16 :=
  if h : r < nr + 1 then view rk[r] else zeroB 16
/-- The key schedule that an array of round keys amounts to. -/
def sched {nr : Nat} (rk : Vector B (nr + 1)) : Nat → Word := scheduleOf (keysOf rk)

theorem keysOf_lt {nr : Nat} (rk : Vector B (nr + 1)) (r : Nat) (h : r < nr + 1) : keysOf rk r = view rk[r] := by
  rw [keysOf, dif_pos h]
theorem rkb_sched {nr : Nat} (rk : Vector B (nr + 1)) (r : Nat) (h : r < nr + 1) :
    roundKeyBytes (sched rk) r = view rk[r] := by
  rw [sched, roundKeyBytes_scheduleOf, keysOf_lt rk r h]

theorem take_keys {nr : Nat} (hnr : 0 < nr) {α : Type} (rk : Vector α (nr + 1)) :
    rk.toList.take nr = rk[0] :: (List.range (nr - 1)).attach.map
      (fun i => rk[i.val + 1]'(by have := i.property; simp only [List.mem_range] at this; omega)) := by
  apply List.ext_getElem
  · simp; omega
  · intro i h1 h2
    cases i with
    | zero => simp
    | succ i => simp

theorem foldl_view {T : Type} {n : Nat} [AesVec T n] [LawfulVec T] (r : T → T → T) (s : Bytes n → Bytes n → Bytes n)
    (h : ∀ a k, view (r a k) = s (view a) (view k)) (ks : List T) :
    ∀ x, view (ks.foldl r x) = (ks.map view).foldl s (view x) := by
  induction ks with
  | nil => intro x; rfl
  | cons k ks ih => intro x; rw [List.foldl_cons, ih, h]; rfl

theorem attach_map_eq {α β} (l : List α) (f : {x // x ∈ l} → β) (g : α → β) (h : ∀ x, f x = g x.val) :
    l.attach.map f = l.map g := by
  rw [show f = fun x => g x.val from funext h]; exact List.attach_map_val

section enc
variable [LawfulEnc B] [LawfulPre B]

theorem encrypt_block_ok {nr : Nat} (hnr : 0 < nr) (e : AesEnc B nr) (p : B) :
    e.encrypt_block p = .ok (ofB (cipher nr (sched e.round_keys) (view p))) := by
  unfold AesEnc.encrypt_block
  rw [sliceTo_ok _ _ (by simp), bind_ok, take_keys hnr, chain_enc_cons, bind_ok, idx_ok _ _ (by omega), bind_ok, pure_ok]
  refine congrArg Except.ok (view_inj ?_)
  rw [LawfulVec.view_ofB, LawfulEnc.view_enc_last, foldl_view _ encRound LawfulEnc.view_enc, LawfulVec.view_xor,
    cipher_eq_foldl, rkb_sched _ _ (by omega), rkb_sched _ _ (by omega), List.map_map]
  rw [attach_map_eq _ _ (fun i => roundKeyBytes (sched e.round_keys) (i + 1))
    (fun x => by have := x.property; simp only [List.mem_range] at this; rw [rkb_sched _ _ (by omega)]; rfl)]
end enc

section dec
variable [LawfulDec B] [LawfulPre B]

/-- What `decrypt_block` computes from its own round keys. -/
theorem decrypt_block_ok {nr : Nat} (hnr : 0 < nr) (d : AesDec B nr) (c : B) :
    d.decrypt_block c = .ok (ofB (decLastRound
      (((List.range (nr - 1)).map fun i => keysOf d.round_keys (i + 1)).foldl decRound (xorB (view c) (keysOf d.round_keys 0)))
      (keysOf d.round_keys nr))) := by
  unfold AesDec.decrypt_block
  rw [sliceTo_ok _ _ (by simp), bind_ok, take_keys hnr, chain_dec_cons, bind_ok, idx_ok _ _ (by omega), bind_ok, pure_ok]
  refine congrArg Except.ok (view_inj ?_)
  rw [LawfulVec.view_ofB, LawfulDec.view_dec_last, foldl_view _ decRound LawfulDec.view_dec, LawfulVec.view_xor,
    keysOf_lt _ _ (by omega), keysOf_lt _ _ (by omega), List.map_map]
  rw [attach_map_eq _ _ (fun i => keysOf d.round_keys (i + 1))
    (fun x => by have := x.property; simp only [List.mem_range] at this; rw [keysOf_lt _ _ (by omega)]; rfl)]
end dec

/-- The round keys of `e.decrypter()`. -/
def decKeys {nr : Nat} (rk : Vector B (nr + 1)) : Vector B (nr + 1) :=
  Vector.ofFn fun i : Fin (nr + 1) => if i.val = 0 ∨ i.val = nr then rk[nr - i.val] else AesBlock.imc (rk[nr - i.val])
/-- The round keys of `d.encrypter()`. -/
def encKeys {nr : Nat} (rk : Vector B (nr + 1)) : Vector B (nr + 1) :=
  Vector.ofFn fun i : Fin (nr + 1) => if i.val = 0 ∨ i.val = nr then rk[nr - i.val] else AesBlock.mc (rk[nr - i.val])

omit [LawfulVec B] in
theorem decrypter_ok {nr : Nat} (hnr : 0 < nr) (e : AesEnc B nr) : e.decrypter = .ok ⟨decKeys e.round_keys⟩ := by
  unfold AesEnc.decrypter; rw [dec_round_keys_ok hnr]; rfl
omit [LawfulVec B] in
theorem encrypter_ok {nr : Nat} (hnr : 0 < nr) (d : AesDec B nr) : d.encrypter = .ok ⟨encKeys d.round_keys⟩ := by
  unfold AesDec.encrypter; rw [enc_round_keys_ok hnr]; rfl

theorem mc_imc [LawfulDec B] (x : B) : AesBlock.mc (AesBlock.imc x) = x := view_inj (by
  rw [LawfulDec.view_mc, LawfulDec.view_imc, mixCols, invMixCols, ofBytes_toBytes, mixColumns_invMixColumns, toBytes_ofBytes])
theorem imc_mc [LawfulDec B] (x : B) : AesBlock.imc (AesBlock.mc x) = x := view_inj (by
  rw [LawfulDec.view_imc, LawfulDec.view_mc, mixCols, invMixCols, ofBytes_toBytes, invMixColumns_mixColumns, toBytes_ofBytes])

theorem encKeys_decKeys [LawfulDec B] {nr : Nat} (rk : Vector B (nr + 1)) : encKeys (decKeys rk) = rk := by
  apply Vector.ext; intro i hi
  simp only [encKeys, decKeys, Vector.getElem_ofFn]
  have h : nr - (nr - i) = i := by omega
  by_cases hc : i = 0 ∨ i = nr
  · rw [if_pos hc, if_pos (by omega)]; simp only [h]
  · rw [if_neg hc, if_neg (by omega), mc_imc]; simp only [h]
theorem decKeys_encKeys [LawfulDec B] {nr : Nat} (rk : Vector B (nr + 1)) : decKeys (encKeys rk) = rk := by
  apply Vector.ext; intro i hi
  simp only [encKeys, decKeys, Vector.getElem_ofFn]
  have h : nr - (nr - i) = i := by omega
  by_cases hc : i = 0 ∨ i = nr
  · rw [if_pos hc, if_pos (by omega)]; simp only [h]
  · rw [if_neg hc, if_neg (by omega), imc_mc]; simp only [h]

/-- A decrypter derived from an encrypter computes INVCIPHER under the encrypter's schedule. -/
theorem decrypt_block_decKeys [LawfulDec B] [LawfulPre B] {nr : Nat} (hnr : 0 < nr) (rk : Vector B (nr + 1)) (c : B) :
    (⟨decKeys rk⟩ : AesDec B nr).decrypt_block c = .ok (ofB (invCipher nr (sched rk) (view c))) := by
  rw [decrypt_block_ok hnr, invCipher_eq_foldl]
  refine congrArg (fun v => Except.ok (ofB v)) ?_
  have h0 : keysOf (decKeys rk) 0 = roundKeyBytes (sched rk) nr := by
    rw [keysOf_lt _ _ (by omega), rkb_sched _ _ (by omega)]
    simp [decKeys]
  have hn : keysOf (decKeys rk) nr = roundKeyBytes (sched rk) 0 := by
    rw [keysOf_lt _ _ (by omega), rkb_sched _ _ (by omega)]
    simp [decKeys]
  have hm : (List.range (nr - 1)).map (fun i => keysOf (decKeys rk) (i + 1)) =
      (List.range (nr - 1)).map (fun i => invMixCols (roundKeyBytes (sched rk) (nr - (i + 1)))) := by
    apply List.map_congr_left
    intro i hi
    rw [List.mem_range] at hi
    rw [keysOf_lt _ _ (by omega), rkb_sched _ _ (by omega)]
    simp only [decKeys, Vector.getElem_ofFn]
    rw [if_neg (by omega), LawfulDec.view_imc]
  simp only [h0, hn, hm]

end

/-! ### several blocks at once -/
section wide
variable {B X2 : Type} [AesBlock B] [LawfulVec B] [AesBlockX2 B X2] [LawfulVec X2] [LawfulX2 X2]

theorem encrypt_2_blocks_ok {nr : Nat} (e : AesEnc B nr) (a b : B) :
    e.encrypt_2_blocks (AesBlockX2.from_pair (a, b) : X2) = (do
      let x ← e.encrypt_block a
      let y ← e.encrypt_block b
      pure (AesBlockX2.from_pair (x, y))) := by
  unfold AesEnc.encrypt_2_blocks AesEnc.encrypt_block
  simp only []
  rw [sliceTo_ok _ _ (by simp), sliceTo_ok _ _ (by simp), idx_ok _ _ (by omega), idx_ok _ _ (by omega)]
  simp only [bind_ok]
  have hk : List.take nr (Vector.map (AesBlockX2.from_block (T := X2)) e.round_keys).toList =
      ((e.round_keys.toList.take nr).map fun a => (a, a)).map AesBlockX2.from_pair := by
    rw [Vector.toList_map, ← List.map_take, List.map_map]
    exact List.map_congr_left fun a _ => LawfulX2.from_block_eq a
  rw [hk, lanes_x2.chain_enc, List.map_map, List.map_map]
  have h1 : List.map (Prod.fst ∘ fun a : B => (a, a)) (List.take nr e.round_keys.toList) = List.take nr e.round_keys.toList :=
    List.map_id _
  have h2 : List.map (Prod.snd ∘ fun a : B => (a, a)) (List.take nr e.round_keys.toList) = List.take nr e.round_keys.toList :=
    List.map_id _
  rw [h1, h2]
  cases chain_enc a (List.take nr e.round_keys.toList) with
  | error => rfl
  | ok x =>
    cases chain_enc b (List.take nr e.round_keys.toList) with
    | error => rfl
    | ok y =>
      simp only [bind_ok, pure_ok, Vector.getElem_map, LawfulX2.from_block_eq, LawfulX2.enc_last_eq]

theorem decrypt_2_blocks_ok {nr : Nat} (d : AesDec B nr) (a b : B) :
    d.decrypt_2_blocks (AesBlockX2.from_pair (a, b) : X2) = (do
      let x ← d.decrypt_block a
      let y ← d.decrypt_block b
      pure (AesBlockX2.from_pair (x, y))) := by
  unfold AesDec.decrypt_2_blocks AesDec.decrypt_block
  simp only []
  rw [sliceTo_ok _ _ (by simp), sliceTo_ok _ _ (by simp), idx_ok _ _ (by omega), idx_ok _ _ (by omega)]
  simp only [bind_ok]
  have hk : List.take nr (Vector.map (AesBlockX2.from_block (T := X2)) d.round_keys).toList =
      ((d.round_keys.toList.take nr).map fun a => (a, a)).map AesBlockX2.from_pair := by
    rw [Vector.toList_map, ← List.map_take, List.map_map]
    exact List.map_congr_left fun a _ => LawfulX2.from_block_eq a
  rw [hk, lanes_x2.chain_dec, List.map_map, List.map_map]
  have h1 : List.map (Prod.fst ∘ fun a : B => (a, a)) (List.take nr d.round_keys.toList) = List.take nr d.round_keys.toList :=
    List.map_id _
  have h2 : List.map (Prod.snd ∘ fun a : B => (a, a)) (List.take nr d.round_keys.toList) = List.take nr d.round_keys.toList :=
    List.map_id _
  rw [h1, h2]
  cases chain_dec a (List.take nr d.round_keys.toList) with
  | error => rfl
  | ok x =>
    cases chain_dec b (List.take nr d.round_keys.toList) with
    | error => rfl
    | ok y =>
      simp only [bind_ok, pure_ok, Vector.getElem_map, LawfulX2.from_block_eq, LawfulX2.dec_last_eq]

variable {X4 : Type} [AesBlockX4 B X2 X4] [LawfulVec X4] [LawfulX4 X4]

theorem from_block_x4 (b : B) : (AesBlockX4.from_block b : X4) =
    AesBlockX4.from_x2_pair (AesBlockX2.from_block b, AesBlockX2.from_block b) := by
  rw [LawfulX4.from_block_eq, LawfulX4.from_quad_eq, LawfulX2.from_block_eq]

theorem encrypt_4_blocks_ok2 {nr : Nat} (e : AesEnc B nr) (a b : X2) :
    e.encrypt_4_blocks (AesBlockX4.from_x2_pair (a, b) : X4) = (do
      let x ← e.encrypt_2_blocks a
      let y ← e.encrypt_2_blocks b
      pure (AesBlockX4.from_x2_pair (x, y))) := by
  unfold AesEnc.encrypt_4_blocks AesEnc.encrypt_2_blocks
  simp only []
  rw [sliceTo_ok _ _ (by simp), sliceTo_ok _ _ (by simp), idx_ok _ _ (by omega), idx_ok _ _ (by omega)]
  simp only [bind_ok]
  have hk : List.take nr (Vector.map (AesBlockX4.from_block (T := X4)) e.round_keys).toList =
      (((Vector.map (AesBlockX2.from_block (T := X2)) e.round_keys).toList.take nr).map fun a => (a, a)).map
        AesBlockX4.from_x2_pair := by
    rw [Vector.toList_map, Vector.toList_map, ← List.map_take, ← List.map_take, List.map_map, List.map_map]
    exact List.map_congr_left fun a _ => from_block_x4 a
  rw [hk, lanes_x4.chain_enc, List.map_map, List.map_map]
  generalize (Vector.map (AesBlockX2.from_block (T := X2)) e.round_keys).toList = l
  have h1 : List.map (Prod.fst ∘ fun a : X2 => (a, a)) (List.take nr l) = List.take nr l := List.map_id _
  have h2 : List.map (Prod.snd ∘ fun a : X2 => (a, a)) (List.take nr l) = List.take nr l := List.map_id _
  rw [h1, h2]
  cases chain_enc a (List.take nr l) with
  | error => rfl
  | ok x =>
    cases chain_enc b (List.take nr l) with
    | error => rfl
    | ok y =>
      simp only [bind_ok, pure_ok, Vector.getElem_map, from_block_x4, LawfulX4.enc_last_eq]

theorem decrypt_4_blocks_ok2 {nr : Nat} (e : AesDec B nr) (a b : X2) :
    e.decrypt_4_blocks (AesBlockX4.from_x2_pair (a, b) : X4) = (do
      let x ← e.decrypt_2_blocks a
      let y ← e.decrypt_2_blocks b
      pure (AesBlockX4.from_x2_pair (x, y))) := by
  unfold AesDec.decrypt_4_blocks AesDec.decrypt_2_blocks
  simp only []
  rw [sliceTo_ok _ _ (by simp), sliceTo_ok _ _ (by simp), idx_ok _ _ (by omega), idx_ok _ _ (by omega)]
  simp only [bind_ok]
  have hk : List.take nr (Vector.map (AesBlockX4.from_block (T := X4)) e.round_keys).toList =
      (((Vector.map (AesBlockX2.from_block (T := X2)) e.round_keys).toList.take nr).map fun a => (a, a)).map
        AesBlockX4.from_x2_pair := by
    rw [Vector.toList_map, Vector.toList_map, ← List.map_take, ← List.map_take, List.map_map, List.map_map]
    exact List.map_congr_left fun a _ => from_block_x4 a
  rw [hk, lanes_x4.chain_dec, List.map_map, List.map_map]
  generalize (Vector.map (AesBlockX2.from_block (T := X2)) e.round_keys).toList = l
  have h1 : List.map (Prod.fst ∘ fun a : X2 => (a, a)) (List.take nr l) = List.take nr l := List.map_id _
  have h2 : List.map (Prod.snd ∘ fun a : X2 => (a, a)) (List.take nr l) = List.take nr l := List.map_id _
  rw [h1, h2]
  cases chain_dec a (List.take nr l) with
  | error => rfl
  | ok x =>
    cases chain_dec b (List.take nr l) with
    | error => rfl
    | ok y =>
      simp only [bind_ok, pure_ok, Vector.getElem_map, from_block_x4, LawfulX4.dec_last_eq]

theorem encrypt_4_blocks_ok {nr : Nat} (e : AesEnc B nr) (a b c d : B) :
    e.encrypt_4_blocks (AesBlockX4.from_quad (a, b, c, d) : X4) = (do
      let w ← e.encrypt_block a
      let x ← e.encrypt_block b
      let y ← e.encrypt_block c
      let z ← e.encrypt_block d
      pure (AesBlockX4.from_quad (w, x, y, z))) := by
  rw [LawfulX4.from_quad_eq, encrypt_4_blocks_ok2, encrypt_2_blocks_ok, encrypt_2_blocks_ok]
  simp only [bind_assoc, pure_bind]
  cases e.encrypt_block a <;> cases e.encrypt_block b <;> cases e.encrypt_block c <;> cases e.encrypt_block d <;>
    simp only [bind_ok, bind_error, pure_ok, LawfulX4.from_quad_eq]
theorem decrypt_4_blocks_ok {nr : Nat} (e : AesDec B nr) (a b c d : B) :
    e.decrypt_4_blocks (AesBlockX4.from_quad (a, b, c, d) : X4) = (do
      let w ← e.decrypt_block a
      let x ← e.decrypt_block b
      let y ← e.decrypt_block c
      let z ← e.decrypt_block d
      pure (AesBlockX4.from_quad (w, x, y, z))) := by
  rw [LawfulX4.from_quad_eq, decrypt_4_blocks_ok2, decrypt_2_blocks_ok, decrypt_2_blocks_ok]
  simp only [bind_assoc, pure_bind]
  cases e.decrypt_block a <;> cases e.decrypt_block b <;> cases e.decrypt_block c <;> cases e.decrypt_block d <;>
    simp only [bind_ok, bind_error, pure_ok, LawfulX4.from_quad_eq]
end wide
end Aes
