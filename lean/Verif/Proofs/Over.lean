import Verif.Model.Over
import Verif.Proofs.ClientHom
import Verif.Proofs.ClientProofs
/-! src/lib.rs over any lawful backend is AES, for every client. -/
namespace Aes.Over
open Rust AesSpec Fips197 Target Client Fmt TextSpec

variable {B : Type} [AesBlock B] [LawfulVec B]

instance (w : Width) : LawfulVec (Vec B w) :=
  match w with
  | .x1 => inferInstanceAs (LawfulVec B)
  | .x2 => inferInstanceAs (LawfulVec (X2 B))
  | .x4 => inferInstanceAs (LawfulVec (X4 B))
instance [LawfulPre B] (w : Width) : LawfulPre (Vec B w) :=
  match w with
  | .x1 => inferInstanceAs (LawfulPre B)
  | .x2 => inferInstanceAs (LawfulPre (X2 B))
  | .x4 => inferInstanceAs (LawfulPre (X4 B))

theorem view_enc_w [LawfulEnc B] (w : Width) (x y : Vec B w) : view (AesVec.enc x y) = eachBlock2 encRound (view x) (view y) := by
  cases w
  · exact (LawfulEnc.view_enc (B := B) x y).trans (eachBlock2_one _ _ _).symm
  · exact view_round2 (X2 := X2 B) LawfulX2.enc_eq LawfulEnc.view_enc x y
  · exact view_round4 (X4 := X4 B) LawfulX4.enc_eq (view_round2 (X2 := X2 B) LawfulX2.enc_eq LawfulEnc.view_enc) x y
theorem view_enc_last_w [LawfulEnc B] (w : Width) (x y : Vec B w) : view (AesVec.enc_last x y) = eachBlock2 encLastRound (view x) (view y) := by
  cases w
  · exact (LawfulEnc.view_enc_last (B := B) x y).trans (eachBlock2_one _ _ _).symm
  · exact view_round2 (X2 := X2 B) LawfulX2.enc_last_eq LawfulEnc.view_enc_last x y
  · exact view_round4 (X4 := X4 B) LawfulX4.enc_last_eq (view_round2 (X2 := X2 B) LawfulX2.enc_last_eq LawfulEnc.view_enc_last) x y
theorem view_dec_w [LawfulDec B] (w : Width) (x y : Vec B w) : view (AesVec.dec x y) = eachBlock2 decRound (view x) (view y) := by
  cases w
  · exact (LawfulDec.view_dec (B := B) x y).trans (eachBlock2_one _ _ _).symm
  · exact view_round2 (X2 := X2 B) LawfulX2.dec_eq LawfulDec.view_dec x y
  · exact view_round4 (X4 := X4 B) LawfulX4.dec_eq (view_round2 (X2 := X2 B) LawfulX2.dec_eq LawfulDec.view_dec) x y
theorem view_dec_last_w [LawfulDec B] (w : Width) (x y : Vec B w) : view (AesVec.dec_last x y) = eachBlock2 decLastRound (view x) (view y) := by
  cases w
  · exact (LawfulDec.view_dec_last (B := B) x y).trans (eachBlock2_one _ _ _).symm
  · exact view_round2 (X2 := X2 B) LawfulX2.dec_last_eq LawfulDec.view_dec_last x y
  · exact view_round4 (X4 := X4 B) LawfulX4.dec_last_eq (view_round2 (X2 := X2 B) LawfulX2.dec_last_eq LawfulDec.view_dec_last) x y

/-! ### encryption and decryption -/

theorem encrypt_w {nr : Nat} (e : AesEnc B nr) (f : Bytes 16 → Bytes 16)
    (h : ∀ p, e.encrypt_block p = .ok (ofB (f (view p)))) (w : Width) (x : Vec B w) :
    encryptOf e w x = .ok (ofB (eachBlock f (view x))) := by
  have h2 : ∀ x : X2 B, e.encrypt_2_blocks x = .ok (ofB (eachBlock f (view x))) := by
    intro x
    obtain ⟨a, b, rfl⟩ := x2_surj (X2 := X2 B) x
    rw [encrypt_2_blocks_ok, h, h, bind_ok, bind_ok, pure_ok]
    refine congrArg Except.ok (view_inj ?_)
    rw [LawfulX2.view_from_pair, LawfulVec.view_ofB, LawfulVec.view_ofB, LawfulVec.view_ofB, LawfulX2.view_from_pair,
      ← eachBlock_one f, ← eachBlock_one f]
    exact (eachBlock_append (m := 1) f _ _).symm
  have h1 : ∀ x : B, e.encrypt_block x = .ok (ofB (eachBlock f (view x))) := by
    intro x; rw [h, eachBlock_one]
  have h4 : ∀ x : X4 B, e.encrypt_4_blocks x = .ok (ofB (eachBlock f (view x))) := by
    intro x
    obtain ⟨a, b, rfl⟩ := x4_surj (X4 := X4 B) x
    rw [encrypt_4_blocks_ok2, h2, h2, bind_ok, bind_ok, pure_ok]
    refine congrArg Except.ok (view_inj ?_)
    rw [LawfulX4.view_from_x2_pair, LawfulVec.view_ofB, LawfulVec.view_ofB, LawfulVec.view_ofB, LawfulX4.view_from_x2_pair]
    exact (eachBlock_append (m := 2) f _ _).symm
  cases w
  · exact h1 x
  · exact h2 x
  · exact h4 x
theorem decrypt_w {nr : Nat} (e : AesDec B nr) (f : Bytes 16 → Bytes 16)
    (h : ∀ p, e.decrypt_block p = .ok (ofB (f (view p)))) (w : Width) (x : Vec B w) :
    decryptOf e w x = .ok (ofB (eachBlock f (view x))) := by
  have h2 : ∀ x : X2 B, e.decrypt_2_blocks x = .ok (ofB (eachBlock f (view x))) := by
    intro x
    obtain ⟨a, b, rfl⟩ := x2_surj (X2 := X2 B) x
    rw [decrypt_2_blocks_ok, h, h, bind_ok, bind_ok, pure_ok]
    refine congrArg Except.ok (view_inj ?_)
    rw [LawfulX2.view_from_pair, LawfulVec.view_ofB, LawfulVec.view_ofB, LawfulVec.view_ofB, LawfulX2.view_from_pair,
      ← eachBlock_one f, ← eachBlock_one f]
    exact (eachBlock_append (m := 1) f _ _).symm
  have h1 : ∀ x : B, e.decrypt_block x = .ok (ofB (eachBlock f (view x))) := by
    intro x; rw [h, eachBlock_one]
  have h4 : ∀ x : X4 B, e.decrypt_4_blocks x = .ok (ofB (eachBlock f (view x))) := by
    intro x
    obtain ⟨a, b, rfl⟩ := x4_surj (X4 := X4 B) x
    rw [decrypt_4_blocks_ok2, h2, h2, bind_ok, bind_ok, pure_ok]
    refine congrArg Except.ok (view_inj ?_)
    rw [LawfulX4.view_from_x2_pair, LawfulVec.view_ofB, LawfulVec.view_ofB, LawfulVec.view_ofB, LawfulX4.view_from_x2_pair]
    exact (eachBlock_append (m := 2) f _ _).symm
  cases w
  · exact h1 x
  · exact h2 x
  · exact h4 x

theorem into_bytes_ofB (w : Width) (b : Bytes w.size) : into_bytes (ofB b : Vec B w) = .ok b := by
  rw [into_bytes_eq, LawfulVec.view_ofB]
theorem try_from_conc (w : Width) (s : List U8) : (Aes.try_from s : M (Except Nat (Vec B w))) =
    .ok (if w.size ≤ s.length then .ok (ofB (Vector.ofFn fun i => s.getD i.val 0#8)) else .error s.length) := by
  unfold Aes.try_from try_from_slice array_from_slice rawRead
  by_cases h : w.size ≤ s.length
  · rw [if_pos h, if_pos h, dif_pos (by omega), bind_ok, LawfulVec.from_bytes_eq, bind_ok]
    refine congrArg (fun v => Except.ok (Except.ok (ofB v))) ?_
    apply Vector.ext; intro i hi
    simp only [Vector.getElem_ofFn, Vector.getElem_mk, List.getElem_toArray, List.getElem_take, List.drop_zero]
    rw [List.getD_eq_getElem?_getD, List.getElem?_eq_getElem (by omega), Option.getD_some]
  · rw [if_neg (by omega), if_neg h]; rfl
theorem store_to_conc (w : Width) (b : Bytes w.size) (dst : List U8) : AesVec.store_to (ofB b : Vec B w) dst =
    if w.size ≤ dst.length then .ok (b.toList ++ dst.drop w.size) else .error .panic := by
  by_cases h : w.size ≤ dst.length
  · rw [if_pos h, LawfulVec.store_to_ok _ _ h, LawfulVec.view_ofB]
  · rw [if_neg h, LawfulVec.store_to_short _ _ (by omega)]

theorem bin_conc [LawfulEnc B] [LawfulDec B] (w : Width) (op : BinOp) (a b : Bytes w.size) :
    (binOf op (ofB a) (ofB b) : Vec B w) = ofB (refBin op a b) := by
  apply eq_ofB_of_view
  cases op with
  | and => exact (LawfulVec.view_and _ _).trans (by rw [LawfulVec.view_ofB, LawfulVec.view_ofB]; rfl)
  | or => exact (LawfulVec.view_or _ _).trans (by rw [LawfulVec.view_ofB, LawfulVec.view_ofB]; rfl)
  | xor => exact (LawfulVec.view_xor _ _).trans (by rw [LawfulVec.view_ofB, LawfulVec.view_ofB]; rfl)
  | enc => exact (view_enc_w w _ _).trans (by rw [LawfulVec.view_ofB, LawfulVec.view_ofB]; rfl)
  | encLast => exact (view_enc_last_w w _ _).trans (by rw [LawfulVec.view_ofB, LawfulVec.view_ofB]; rfl)
  | dec =>

    exact (view_dec_w w _ _).trans (by rw [LawfulVec.view_ofB, LawfulVec.view_ofB]; rfl)
  | decLast =>

    exact (view_dec_last_w w _ _).trans (by rw [LawfulVec.view_ofB, LawfulVec.view_ofB]; rfl)
theorem assign_conc [LawfulEnc B] [LawfulDec B] (w : Width) (op : AssignOp) (a b : Bytes w.size) :
    (assignOf op (ofB a) (ofB b) : Vec B w) = ofB (refAssign op a b) := by
  cases op
  · exact bin_conc w .and a b
  · exact bin_conc w .or a b
  · exact bin_conc w .xor a b

theorem foldl_conc (w : Width) (r : Vec B w → Vec B w → Vec B w) (f : Bytes w.size → Bytes w.size → Bytes w.size)
    (h : ∀ x y, view (r x y) = f (view x) (view y)) (ks : List (Bytes w.size)) : ∀ x : Bytes w.size,
    (ks.map fun b => ofB (T := Vec B w) b).foldl r (ofB x) = ofB (ks.foldl f x) := by
  induction ks with
  | nil => intro x; rfl
  | cons k ks ih =>
    intro x
    rw [List.map_cons, List.foldl_cons, List.foldl_cons, ← ih]
    congr 1
    exact eq_ofB_of_view (by rw [h, LawfulVec.view_ofB, LawfulVec.view_ofB])

theorem chain_enc_conc [LawfulEnc B] [LawfulDec B] [LawfulPre B] (w : Width) (x : Bytes w.size) (ks : List (Bytes w.size)) :
    Aes.chain_enc (ofB x : Vec B w) (ks.map fun b => ofB b) = (refChain (eachBlock2 encRound) x ks).map ofB := by
  cases ks with
  | nil => exact chain_enc_nil _
  | cons k ks =>
    rw [List.map_cons, chain_enc_cons, show AesVec.bitxor (ofB x : Vec B w) (ofB k) = ofB (xorB x k) from
      bin_conc w .xor x k, foldl_conc w _ _ (view_enc_w w)]
    rfl
theorem chain_dec_conc [LawfulEnc B] [LawfulDec B] [LawfulPre B] (w : Width) (x : Bytes w.size) (ks : List (Bytes w.size)) :
    Aes.chain_dec (ofB x : Vec B w) (ks.map fun b => ofB b) = (refChain (eachBlock2 decRound) x ks).map ofB := by
  cases ks with
  | nil => exact chain_dec_nil _
  | cons k ks =>
    rw [List.map_cons, chain_dec_cons, show AesVec.bitxor (ofB x : Vec B w) (ofB k) = ofB (xorB x k) from
      bin_conc w .xor x k, foldl_conc w _ _ (view_dec_w w)]
    rfl

theorem from_u128_conc (n : U128) : (Aes.from_u128 n : M B) =
    .ok (ofB (Vector.ofFn fun i : Fin 16 => (n >>> (8 * (15 - i.val))).setWidth 8)) := by
  unfold Aes.from_u128
  rw [LawfulVec.from_bytes_eq]
  refine congrArg (fun v => Except.ok (ofB v)) (Vector.ext fun i hi => ?_)
  simp only [toBe, Vector.getElem_reverse, getElem_toLe, Vector.getElem_ofFn, shr_setWidth]
theorem into_u128_conc (b : Bytes 16) : Aes.into_u128 (ofB b : B) =
    .ok (BitVec.ofNat 128 (b.toList.foldl (fun acc x => 256 * acc + x.toNat) 0)) := by
  unfold Aes.into_u128
  rw [into_bytes_eq, bind_ok, LawfulVec.view_ofB, pure_ok]
  refine congrArg Except.ok (BitVec.eq_of_toNat_eq ?_)
  have h := beVal_toBe 16 (fromBe 128 b)
  rw [toBe_fromBe 128 b (by omega)] at h
  rw [BitVec.toNat_ofNat]
  change _ = beVal b.toList % _
  rw [h, Nat.mod_eq_of_lt (b := 256 ^ 16) (by have := (fromBe 128 b).isLt; omega), Nat.mod_eq_of_lt (BitVec.isLt _)]

theorem from_pair_conc (a b : Bytes 16) : (AesBlockX2.from_pair (ofB a, ofB b) : X2 B) = ofB (a ++ b : Bytes (16 + 16)) :=
  eq_ofB_of_view (by rw [LawfulX2.view_from_pair, LawfulVec.view_ofB, LawfulVec.view_ofB])
theorem from_x2_pair_conc (a b : Bytes 32) : (AesBlockX4.from_x2_pair (ofB a, ofB b) : X4 B) = ofB (a ++ b : Bytes (32 + 32)) :=
  eq_ofB_of_view (by rw [LawfulX4.view_from_x2_pair, LawfulVec.view_ofB, LawfulVec.view_ofB])
theorem from_quad_conc (a b c d : Bytes 16) : (AesBlockX4.from_quad (ofB a, ofB b, ofB c, ofB d) : X4 B) =
    ofB (a ++ b ++ c ++ d : Bytes (16 + 16 + 16 + 16)) := by
  rw [LawfulX4.from_quad_eq, from_pair_conc, from_pair_conc, from_x2_pair_conc]
  refine congrArg ofB ?_
  apply Vector.toList_inj.mp
  refine (Vector.toList_append).trans ?_
  refine Eq.trans ?_ Vector.toList_append.symm
  simp only [Vector.toList_append, List.append_assoc]
theorem to_pair_conc (x : Bytes 32) : AesBlockX2.to_pair (ofB x : X2 B) = (ofB (part x 0 16), ofB (part x 16 16)) := by
  have h : (ofB x : X2 B) = AesBlockX2.from_pair (ofB (part x 0 16), ofB (part x 16 16)) := by
    rw [from_pair_conc]; exact congrArg ofB (append_parts (h := 16) (k := 16) x).symm
  rw [h, LawfulX2.to_pair_from_pair]
theorem to_x2_pair_conc (x : Bytes 64) : AesBlockX4.to_x2_pair (ofB x : X4 B) = (ofB (part x 0 32), ofB (part x 32 32)) := by
  have h : (ofB x : X4 B) = AesBlockX4.from_x2_pair (ofB (part x 0 32), ofB (part x 32 32)) := by
    rw [from_x2_pair_conc]; exact congrArg ofB (append_parts (h := 32) (k := 32) x).symm
  rw [h, LawfulX4.to_x2_pair_from_x2_pair]
theorem to_quad_conc (x : Bytes 64) : AesBlockX4.to_quad (ofB x : X4 B) =
    (ofB (part x 0 16), ofB (part x 16 16), ofB (part x 32 16), ofB (part x 48 16)) := by
  have h : (ofB x : X4 B) = AesBlockX4.from_quad (ofB (part x 0 16), ofB (part x 16 16), ofB (part x 32 16), ofB (part x 48 16)) := by
    rw [from_quad_conc]
    refine congrArg ofB ?_
    apply Vector.ext; intro i hi
    rcases (by omega : i < 16 ∨ (16 ≤ i ∧ i < 32) ∨ (32 ≤ i ∧ i < 48) ∨ (48 ≤ i ∧ i < 64)) with h | h | h | h
    · rw [Vector.getElem_append_left (by omega), Vector.getElem_append_left (by omega), Vector.getElem_append_left (by omega),
        getElem_part _ _ _ _ _ (by omega)]; congr 1; omega
    · rw [Vector.getElem_append_left (by omega), Vector.getElem_append_left (by omega), Vector.getElem_append_right _ (by omega),
        getElem_part _ _ _ _ _ (by omega)]; congr 1; omega
    · rw [Vector.getElem_append_left (by omega), Vector.getElem_append_right _ (by omega),
        getElem_part _ _ _ _ _ (by omega)]; congr 1; omega
    · rw [Vector.getElem_append_right _ (by omega),
        getElem_part _ _ _ _ (by omega) (by omega)]; congr 1; omega
  rw [h, LawfulX4.to_quad_from_quad]

theorem emits_blocks (o : Opts) (l : List B) (hl : l ≠ []) :
    Emits (debugTuple o (l.map Fmt.debug))
      (if o.alternate then ['(', '\n'] ++ lines 4 (l.map fun x => hexBytes true (view x).toList) ++ [')']
        else ['('] ++ commaSep (l.map fun x => hexBytes false (view x).toList) ++ [')']) := by
  have h := emits_debugTuple l Fmt.debug (fun x => hexBytes o.alternate (view x).toList) o hl
    (fun x _ => emits_debug (into_bytes_eq x) o) (fun x _ => oneLine_hexBytes _ _)
  cases ho : o.alternate
  · rw [ho] at h; simp only [Bool.false_eq_true, if_false] at h ⊢; exact h
  · rw [ho] at h; simp only [if_true] at h ⊢; exact h
theorem emits_cipher (o : Opts) (name : List Char) {n : Nat} (rk : Vector B (n + 1)) :
    Emits (debugStruct1 o name fieldName fun o => debugList o (rk.toList.map fun k => Fmt.debug k))
      (cipherText o.alternate name (rk.toList.map fun k => (view k).toList)) := by
  have hne : rk.toList ≠ [] := by
    intro h; have := congrArg List.length h; simp at this
  have h := emits_debugStruct rk.toList Fmt.debug (fun x => hexBytes o.alternate (view x).toList) o name fieldName
    (by unfold OneLine; decide) hne (fun x _ => emits_debug (into_bytes_eq x) o) (fun x _ => oneLine_hexBytes _ _)
  refine emits_cast h ?_
  unfold cipherText
  cases ho : o.alternate
  · simp [fieldName, List.map_map, Function.comp_def]
  · simp [fieldName, List.map_map, Function.comp_def, List.replicate]

theorem format1_conc (st : Style) (o : Opts) (b : Bytes 16) :
    format (styleOf st (ofB b : B) o) = .ok (refText o.alternate b.toList st) := by
  have hb : into_bytes (ofB b : B) = .ok b := into_bytes_ofB .x1 b
  cases st with
  | display => exact emits_format (emits_debug hb o)
  | debug => exact emits_format (emits_debug hb o)
  | lowerHex => exact emits_format (emits_lowerHex hb o)
  | upperHex => exact emits_format (emits_upperHex hb o)
  | binary => exact emits_format (emits_binary hb o)
theorem tuple_text (o : Opts) (l : List (Bytes 16)) (hl : l ≠ []) :
    format (debugTuple o ((l.map fun b => (ofB b : B)).map Fmt.debug)) = .ok (tupleText o.alternate (l.map (·.toList))) := by
  rw [emits_format (emits_blocks o (l.map fun b => ofB b) (by simpa using hl))]
  simp only [List.map_map, Function.comp_def, LawfulVec.view_ofB, tupleText]
theorem format2_conc (o : Opts) (x : Bytes 32) : format (debugX2 (ofB x : X2 B) o) =
    .ok (tupleText o.alternate [(part x 0 16).toList, (part x 16 16).toList]) := by
  unfold debugX2
  rw [show AesBlockX2.to_pair (ofB x : X2 B) = _ from to_pair_conc x]
  exact tuple_text o [part x 0 16, part x 16 16] (by simp)
theorem format4_conc (o : Opts) (x : Bytes 64) : format (debugX4 (ofB x : X4 B) o) =
    .ok (tupleText o.alternate [(part x 0 16).toList, (part x 16 16).toList, (part x 32 16).toList, (part x 48 16).toList]) := by
  unfold debugX4
  rw [show AesBlockX4.to_quad (ofB x : X4 B) = _ from to_quad_conc x]
  exact tuple_text o [part x 0 16, part x 16 16, part x 32 16, part x 48 16] (by simp)

theorem encFrom_conc [LawfulKeygen B] (k : KeySize) (key : Bytes k.bytes) : encFromOf B k key =
    .ok ⟨rkVec B k.rounds (keyExpansion k.words key)⟩ := by
  cases k
  · exact congrArg (fun m => m >>= fun v => (pure ⟨v⟩ : M (AesEnc B 10))) (LawfulKeygen.keygen_128_eq (B := B) key)
  · exact congrArg (fun m => m >>= fun v => (pure ⟨v⟩ : M (AesEnc B 12))) (LawfulKeygen.keygen_192_eq (B := B) key)
  · exact congrArg (fun m => m >>= fun v => (pure ⟨v⟩ : M (AesEnc B 14))) (LawfulKeygen.keygen_256_eq (B := B) key)
theorem decFrom_conc [LawfulKeygen B] (k : KeySize) (key : Bytes k.bytes) : decFromOf B k key =
    .ok ⟨decKeys (rkVec B k.rounds (keyExpansion k.words key))⟩ := by
  have h : decFromOf B k key = (encFromOf B k key >>= fun e => AesEnc.decrypter e) := by cases k <;> rfl
  rw [h, encFrom_conc, bind_ok, decrypter_ok (rounds_pos k)]

theorem toList_rkVec (nr : Nat) (w : Nat → Word) : (rkVec B nr w).toList.map (fun k => (view k).toList) =
    (List.range (nr + 1)).map fun r => (roundKeyBytes w r).toList := by
  apply List.ext_getElem
  · simp
  · intro i h1 h2
    simp [rkVec, LawfulVec.view_ofB]
theorem toList_decKeys [LawfulDec B] (nr : Nat) (w : Nat → Word) :
    (decKeys (rkVec B nr w)).toList.map (fun k => (view k).toList) =
    (List.range (nr + 1)).map fun r => (roundKeyEIC nr w (nr - r)).toList := by

  apply List.ext_getElem
  · simp
  · intro i h1 h2
    simp only [List.length_map, Vector.length_toList] at h1
    simp only [List.getElem_map, Vector.getElem_toList, List.getElem_range, decKeys, Vector.getElem_ofFn, rkVec, roundKeyEIC]
    by_cases h : i = 0 ∨ i = nr
    · rw [if_pos h, if_pos (by omega), LawfulVec.view_ofB]
    · rw [if_neg h, if_neg (by omega), LawfulDec.view_imc, LawfulVec.view_ofB]
theorem formatE_conc (k : KeySize) (o : Opts) (key : Bytes k.bytes) :
    format (debugEnc (⟨rkVec B k.rounds (keyExpansion k.words key)⟩ : AesEnc B k.rounds) o) =
    .ok (cipherText o.alternate (typeName k.rounds ['E', 'n', 'c'])
      ((List.range (k.rounds + 1)).map fun r => (roundKeyBytes (keyExpansion k.words key) r).toList)) := by
  have h := emits_format (emits_cipher o (encName (bitsName k.rounds)) (rkVec B k.rounds (keyExpansion k.words key)))
  rw [toList_rkVec, (typeName_eq (rounds_cases k)).1] at h
  rw [← h, ← (typeName_eq (rounds_cases k)).1]; rfl
theorem formatD_conc [LawfulDec B] (k : KeySize) (o : Opts) (key : Bytes k.bytes) :
    format (debugDec (⟨decKeys (rkVec B k.rounds (keyExpansion k.words key))⟩ : AesDec B k.rounds) o) =
    .ok (cipherText o.alternate (typeName k.rounds ['D', 'e', 'c'])
      ((List.range (k.rounds + 1)).map fun r => (roundKeyEIC k.rounds (keyExpansion k.words key) (k.rounds - r)).toList)) := by
  have h := emits_format (emits_cipher o (decName (bitsName k.rounds)) (decKeys (rkVec B k.rounds (keyExpansion k.words key))))
  rw [toList_decKeys, (typeName_eq (rounds_cases k)).2] at h
  rw [← h, ← (typeName_eq (rounds_cases k)).2]; rfl

theorem try_from_map (w : Width) (s : List U8) : (Aes.try_from s : M (Except Nat (Vec B w))) =
    (aes.try_from w s).map (·.map fun b => ofB (T := Vec B w) b) := by
  rw [try_from_conc]
  simp only [aes, reference]
  by_cases h : w.size ≤ s.length
  · rw [if_pos h, if_pos h]; rfl
  · rw [if_neg h, if_neg h]; rfl
theorem is_zero_conc (w : Width) (x : Bytes w.size) : AesVec.is_zero (ofB x : Vec B w) = decide (x = zeroB w.size) := by
  rw [LawfulVec.is_zero_eq, LawfulVec.view_ofB]
theorem eq_conc (w : Width) (x y : Bytes w.size) : AesVec.eq (ofB x : Vec B w) (ofB y) = decide (x = y) := by
  rw [LawfulVec.eq_eq, LawfulVec.view_ofB, LawfulVec.view_ofB]
theorem not_conc (w : Width) (x : Bytes w.size) : AesVec.not (ofB x : Vec B w) = ofB (notB x) :=
  eq_ofB_of_view (by rw [LawfulVec.view_not, LawfulVec.view_ofB])
theorem encrypt_conc [LawfulEnc B] [LawfulPre B] (k : KeySize) (w : Width) (key : Bytes k.bytes) (y : Bytes w.size) :
    encryptOf (⟨rkVec B k.rounds (keyExpansion k.words key)⟩ : AesEnc B k.rounds) w (ofB y) =
    .ok (ofB (eachBlock (cipher k.rounds (keyExpansion k.words key)) y)) := by
  rw [encrypt_w _ _ (fun p => encrypt_rkVec (rounds_pos k) _ p) w (ofB y), LawfulVec.view_ofB]
theorem decrypt_conc [LawfulDec B] [LawfulPre B] (k : KeySize) (w : Width) (key : Bytes k.bytes) (y : Bytes w.size) :
    decryptOf (⟨decKeys (rkVec B k.rounds (keyExpansion k.words key))⟩ : AesDec B k.rounds) w (ofB y) =
    .ok (ofB (eachBlock (invCipher k.rounds (keyExpansion k.words key)) y)) := by
  rw [decrypt_w _ _ (fun p => decrypt_rkVec (rounds_pos k) _ p) w (ofB y), LawfulVec.view_ofB]

variable (B) [LawfulEnc B] [LawfulDec B] [LawfulPre B] [LawfulKeygen B]
/-- The crate over a lawful backend is AES in another representation. -/
def hom : Hom aes (crate B) where
  v w b := ofB (T := Vec B w) b
  e k key := ⟨rkVec B k.rounds (keyExpansion k.words key)⟩
  d k key := ⟨decKeys (rkVec B k.rounds (keyExpansion k.words key))⟩
  new w b := LawfulVec.new_eq b
  from_bytes w b := LawfulVec.from_bytes_eq b
  from_ref w b := LawfulVec.from_bytes_eq b
  try_from w b := try_from_map w b
  zero w := eq_ofB_of_view (T := Vec B w) LawfulVec.view_zero
  default_ w := eq_ofB_of_view (T := Vec B w) LawfulVec.view_zero
  into_bytes w x := into_bytes_ofB (B := B) w x
  store_to w x dst := store_to_conc (B := B) w x dst
  is_zero w x := is_zero_conc w x
  eq w x y := eq_conc w x y
  bin w op x y := bin_conc w op x y
  assign w op x y := assign_conc w op x y
  not w x := not_conc w x
  chain_enc w x ks := chain_enc_conc w x ks
  chain_dec w x ks := chain_dec_conc w x ks
  mc x := eq_ofB_of_view (T := B) ((LawfulDec.view_mc _).trans (congrArg mixCols (LawfulVec.view_ofB (T := B) _)))
  imc x := eq_ofB_of_view (T := B) ((LawfulDec.view_imc _).trans (congrArg invMixCols (LawfulVec.view_ofB (T := B) _)))
  from_u128 n := from_u128_conc (B := B) n
  into_u128 x := by
    have h := into_u128_conc (B := B) x
    simp only [crate, aes, reference]
    exact h
  from_pair x y := from_pair_conc (B := B) x y
  to_pair x := to_pair_conc (B := B) x
  from_block2 x := (LawfulX2.from_block_eq (X2 := X2 B) _).trans (from_pair_conc (B := B) x x)
  from_quad x y z u := from_quad_conc (B := B) x y z u
  to_quad x := to_quad_conc (B := B) x
  from_x2_pair x y := from_x2_pair_conc (B := B) x y
  to_x2_pair x := to_x2_pair_conc (B := B) x
  from_block4 x := (LawfulX4.from_block_eq (X4 := X4 B) _).trans (from_quad_conc (B := B) x x x x)
  from_x2 x := (LawfulX4.from_x2_eq (X4 := X4 B) _).trans (from_x2_pair_conc (B := B) x x)
  format1 st o x := format1_conc (B := B) st o x
  format2 o x := format2_conc (B := B) o x
  format4 o x := format4_conc (B := B) o x
  encFrom k key := encFrom_conc k key
  decFrom k key := decFrom_conc k key
  decrypter k x := decrypter_ok (rounds_pos k) _
  encrypter k x := (encrypter_ok (rounds_pos k) _).trans (congrArg (fun v => Except.ok (AesEnc.mk v)) (encKeys_decKeys _))
  encrypt k w x y := encrypt_conc k w x y
  decrypt k w x y := decrypt_conc k w x y
  formatE k o x := formatE_conc k o x
  formatD k o x := formatD_conc k o x

/-- No client can tell the crate over a lawful backend from AES. -/
theorem observe_aes (client : Client) (n : Nat) : observe (crate B) client n = observe aes client n := (hom B).observe client n

end Aes.Over
