import Verif.Spec.Rv32Reference
import Verif.Proofs.ClientHom
import Verif.Proofs.ClientProofs
import Verif.Proofs.Riscv32Cipher
/-! The riscv32 crate is the reference of Spec/Rv32Reference.lean, call by call. -/
namespace Aes.Client
open Rust AesSpec Fips197 Target TextSpec Fmt


theorem rv_view_dec_w (w : Width) (x y : Target.riscv32.Vec w) : view (AesVec.dec x y) = eachBlock2 rv32DecRound (view x) (view y) := by
  cases w
  · exact (Riscv32.view_dec x y).trans (eachBlock2_one _ _ _).symm
  · exact view_round2 (X2 := Target.riscv32.X2) LawfulX2.dec_eq Riscv32.view_dec x y
  · exact view_round4 (X4 := Target.riscv32.X4) LawfulX4.dec_eq (view_round2 (X2 := Target.riscv32.X2) LawfulX2.dec_eq Riscv32.view_dec) x y
theorem rv_view_dec_last_w (w : Width) (x y : Target.riscv32.Vec w) :
    view (AesVec.dec_last x y) = eachBlock2 rv32DecLastRound (view x) (view y) := by
  cases w
  · exact (Riscv32.view_dec_last x y).trans (eachBlock2_one _ _ _).symm
  · exact view_round2 (X2 := Target.riscv32.X2) LawfulX2.dec_last_eq Riscv32.view_dec_last x y
  · exact view_round4 (X4 := Target.riscv32.X4) LawfulX4.dec_last_eq (view_round2 (X2 := Target.riscv32.X2) LawfulX2.dec_last_eq Riscv32.view_dec_last) x y

theorem rv_bin (w : Width) (op : BinOp) (a b : Bytes w.size) : (binOf op (ofB a) (ofB b) : Target.riscv32.Vec w) = ofB (rv32Bin op a b) := by
  cases op with
  | dec => exact eq_ofB_of_view ((rv_view_dec_w w _ _).trans (by rw [LawfulVec.view_ofB, LawfulVec.view_ofB]; rfl))
  | decLast => exact eq_ofB_of_view ((rv_view_dec_last_w w _ _).trans (by rw [LawfulVec.view_ofB, LawfulVec.view_ofB]; rfl))
  | and => exact bin_conc w .and (.inr rfl) a b
  | or => exact bin_conc w .or (.inr rfl) a b
  | xor => exact bin_conc w .xor (.inr rfl) a b
  | enc => exact bin_conc w .enc (.inr rfl) a b
  | encLast => exact bin_conc w .encLast (.inr rfl) a b

theorem rv_pre2 : (AesVec.pre (T := Target.riscv32.X2)) = some (impl_pre_encdec DefaultX2.to_pair DefaultX2.from_pair ⟨Riscv32.pre_enc, Riscv32.pre_dec⟩) := rfl
theorem rv_pre4 : (AesVec.pre (T := Target.riscv32.X4)) = some (impl_pre_encdec DefaultX4.to_x2_pair DefaultX4.from_x2_pair
  (impl_pre_encdec DefaultX2.to_pair DefaultX2.from_pair ⟨Riscv32.pre_enc, Riscv32.pre_dec⟩)) := rfl

theorem rv_pre (w : Width) : ∃ p : Pre (Target.riscv32.Vec w), AesVec.pre = some p ∧
    (∀ x y, view (p.pre_enc x y) = eachBlock2 encRound (view x) (view y)) ∧
    (∀ x y, view (p.pre_dec x y) = eachBlock2 rv32DecRound (view x) (view y)) := by
  have h1e : ∀ x y : Riscv32.Block, view (Riscv32.pre_enc x y) = encRound (view x) (view y) := fun x y => by
    rw [← Riscv32.enc_eq]; exact LawfulEnc.view_enc (B := Riscv32.Block) x y
  have h1d : ∀ x y : Riscv32.Block, view (Riscv32.pre_dec x y) = rv32DecRound (view x) (view y) := fun x y => by
    rw [← Riscv32.dec_eq]; exact Riscv32.view_dec x y
  cases w with
  | x1 => exact ⟨⟨Riscv32.pre_enc, Riscv32.pre_dec⟩, rfl, fun x y => (h1e x y).trans (eachBlock2_one _ _ _).symm,
      fun x y => (h1d x y).trans (eachBlock2_one _ _ _).symm⟩
  | x2 => exact ⟨_, rv_pre2, view_round2 (B := Riscv32.Block) (X2 := Target.riscv32.X2) (r := Riscv32.pre_enc) (fun a b c d => rfl) h1e,
      view_round2 (B := Riscv32.Block) (X2 := Target.riscv32.X2) (r := Riscv32.pre_dec) (fun a b c d => rfl) h1d⟩
  | x4 => exact ⟨_, rv_pre4, view_round4 (B := Riscv32.Block) (X2 := Target.riscv32.X2) (X4 := Target.riscv32.X4) (fun a b c d => rfl)
        (view_round2 (B := Riscv32.Block) (X2 := Target.riscv32.X2) (r := Riscv32.pre_enc) (fun a b c d => rfl) h1e),
      view_round4 (B := Riscv32.Block) (X2 := Target.riscv32.X2) (X4 := Target.riscv32.X4) (fun a b c d => rfl)
        (view_round2 (B := Riscv32.Block) (X2 := Target.riscv32.X2) (r := Riscv32.pre_dec) (fun a b c d => rfl) h1d)⟩

theorem rv_chain_step (w : Width) (r : Target.riscv32.Vec w → Target.riscv32.Vec w → Target.riscv32.Vec w) (f : Bytes w.size → Bytes w.size → Bytes w.size)
    (h : ∀ x y, view (r x y) = f (view x) (view y)) (x k : Bytes w.size) (ks : List (Bytes w.size)) :
    AesVec.bitxor ((((k :: ks).map fun b => ofB (T := Target.riscv32.Vec w) b)).dropLast.foldl r (ofB x))
      (((k :: ks).map fun b => ofB (T := Target.riscv32.Vec w) b).getLast (by simp)) =
    ofB (xorB ((k :: ks).dropLast.foldl f x) ((k :: ks).getLast (by simp))) := by
  rw [← List.map_dropLast, foldl_conc w r f h, List.getLast_map]
  exact bin_conc w .xor (.inr rfl) _ _
theorem rv_chain_enc (w : Width) (x : Bytes w.size) (ks : List (Bytes w.size)) :
    Aes.chain_enc (ofB x : Target.riscv32.Vec w) (ks.map fun b => ofB b) = (rv32Chain (eachBlock2 encRound) x ks).map ofB := by
  cases ks with
  | nil => exact chain_enc_nil _
  | cons k ks =>
    obtain ⟨p, hp, he, _⟩ := rv_pre w
    unfold Aes.chain_enc
    rw [hp]
    exact (chain_enc_pre_eq p _ _ _).trans (congrArg Except.ok (rv_chain_step w _ _ he x k ks))
theorem rv_chain_dec (w : Width) (x : Bytes w.size) (ks : List (Bytes w.size)) :
    Aes.chain_dec (ofB x : Target.riscv32.Vec w) (ks.map fun b => ofB b) = (rv32Chain (eachBlock2 rv32DecRound) x ks).map ofB := by
  cases ks with
  | nil => exact chain_dec_nil _
  | cons k ks =>
    obtain ⟨p, hp, _, he⟩ := rv_pre w
    unfold Aes.chain_dec
    rw [hp]
    exact (chain_dec_pre_eq p _ _ _).trans (congrArg Except.ok (rv_chain_step w _ _ he x k ks))

/-! ### round keys -/

/-- Round keys of the reference as round keys of the crate. -/
def rvKeys {n : Nat} (ks : Vector (Bytes 16) n) : Vector Target.riscv32.Block n := ks.map fun b => ofB b

theorem keyAt_lt {n : Nat} (ks : Vector (Bytes 16) n) (r : Nat) (h : r < n) : keyAt ks r = ks[r] := by
  unfold keyAt
  rw [List.getD_eq_getElem?_getD, Vector.getElem?_toList, Vector.getElem?_eq_getElem h, Option.getD_some]
theorem keysOf_rvKeys {nr : Nat} (ks : Vector (Bytes 16) (nr + 1)) (r : Nat) (h : r ≤ nr) :
    keysOf (B := Target.riscv32.Block) (rvKeys ks) r = keyAt ks r := by
  rw [keysOf_lt _ _ (by omega), keyAt_lt _ _ (by omega)]
  simp only [rvKeys, Vector.getElem_map, LawfulVec.view_ofB]
theorem decKeys_rvKeys {nr : Nat} (ks : Vector (Bytes 16) (nr + 1)) : decKeys (rvKeys ks) = rvKeys (turned rv32Imc ks) := by
  apply Vector.ext; intro i hi
  simp only [decKeys, turned, rvKeys, Vector.getElem_ofFn, Vector.getElem_map]
  rw [keyAt_lt _ _ (by omega)]
  split
  · rfl
  · exact eq_ofB_of_view (T := Target.riscv32.Block) ((Riscv32.view_imc _).trans (congrArg rv32Imc (LawfulVec.view_ofB (T := Target.riscv32.Block) _)))
theorem encKeys_rvKeys {nr : Nat} (ks : Vector (Bytes 16) (nr + 1)) : encKeys (rvKeys ks) = rvKeys (turned rv32Mc ks) := by
  apply Vector.ext; intro i hi
  simp only [encKeys, turned, rvKeys, Vector.getElem_ofFn, Vector.getElem_map]
  rw [keyAt_lt _ _ (by omega)]
  split
  · rfl
  · exact eq_ofB_of_view (T := Target.riscv32.Block) ((Riscv32.view_mc _).trans (congrArg rv32Mc (LawfulVec.view_ofB (T := Target.riscv32.Block) _)))
theorem rvKeys_rv32Keys (k : KeySize) (key : Bytes k.bytes) : rkVec Target.riscv32.Block k.rounds (tsched Target.riscv32 k key) = rvKeys (rv32Keys k key) := by
  apply Vector.ext; intro i hi
  simp only [rkVec, rvKeys, rv32Keys, Vector.getElem_ofFn, Vector.getElem_map]
  cases k <;> rfl
theorem toList_rvKeys {n : Nat} (ks : Vector (Bytes 16) n) : (rvKeys ks).toList.map (fun k => (view k).toList) = ks.toList.map (·.toList) := by
  simp only [rvKeys, Vector.toList_map, List.map_map]
  exact List.map_congr_left fun b _ => congrArg Vector.toList (LawfulVec.view_ofB (T := Target.riscv32.Block) b)

theorem rv_is_zero (w : Width) (x : Bytes w.size) : AesVec.is_zero (ofB x : Target.riscv32.Vec w) = decide (x = zeroB w.size) := by
  rw [LawfulVec.is_zero_eq, LawfulVec.view_ofB]
theorem rv_eq (w : Width) (x y : Bytes w.size) : AesVec.eq (ofB x : Target.riscv32.Vec w) (ofB y) = decide (x = y) := by
  rw [LawfulVec.eq_eq, LawfulVec.view_ofB, LawfulVec.view_ofB]
theorem rv_not (w : Width) (x : Bytes w.size) : AesVec.not (ofB x : Target.riscv32.Vec w) = ofB (notB x) :=
  eq_ofB_of_view (by rw [LawfulVec.view_not, LawfulVec.view_ofB])
theorem rv_encrypt (k : KeySize) (w : Width) (x : Vector (Bytes 16) (k.rounds + 1)) (y : Bytes w.size) :
    encryptOf .riscv32 (⟨rvKeys x⟩ : AesEnc _ k.rounds) w (ofB y) = .ok (ofB (eachBlock (rv32Cipher k.rounds (keyAt x)) y)) := by
  have h := encrypt_w Target.riscv32 (⟨rvKeys x⟩ : AesEnc _ k.rounds) (rv32Cipher k.rounds (keyAt x)) (fun p =>
    (Riscv32.encrypt_rv (rounds_pos k) (⟨rvKeys x⟩ : AesEnc _ k.rounds) p).trans
    (congrArg (fun v => Except.ok (ofB v)) (Riscv32.rv32Cipher_congr (rounds_pos k) (keysOf_rvKeys x) _))) w (ofB y)
  rw [h, LawfulVec.view_ofB]
theorem rv_decrypt (k : KeySize) (w : Width) (x : Vector (Bytes 16) (k.rounds + 1)) (y : Bytes w.size) :
    decryptOf .riscv32 (⟨rvKeys x⟩ : AesDec _ k.rounds) w (ofB y) = .ok (ofB (eachBlock (rv32Decipher k.rounds (keyAt x)) y)) := by
  have h := decrypt_w Target.riscv32 (⟨rvKeys x⟩ : AesDec _ k.rounds) (rv32Decipher k.rounds (keyAt x)) (fun p =>
    (Riscv32.decrypt_rv (rounds_pos k) (⟨rvKeys x⟩ : AesDec _ k.rounds) p).trans
    (congrArg (fun v => Except.ok (ofB v)) (Riscv32.rv32Decipher_congr (rounds_pos k) (keysOf_rvKeys x) _))) w (ofB y)
  rw [h, LawfulVec.view_ofB]
theorem rv_try_from (w : Width) (s : List U8) : (Aes.try_from s : M (Except Nat (Target.riscv32.Vec w))) =
    (aes.try_from w s).map (·.map fun b => ofB (T := Target.riscv32.Vec w) b) := by
  rw [try_from_conc]
  simp only [aes, reference]
  by_cases h : w.size ≤ s.length
  · rw [if_pos h, if_pos h]; rfl
  · rw [if_neg h, if_neg h]; rfl
theorem rv_formatE (k : KeySize) (o : Opts) (x : Vector (Bytes 16) (k.rounds + 1)) :
    format (debugEnc (⟨rvKeys x⟩ : AesEnc Target.riscv32.Block k.rounds) o) =
    .ok (cipherText o.alternate (typeName k.rounds ['E', 'n', 'c']) (x.toList.map (·.toList))) := by
  have h := emits_format (emits_cipher Target.riscv32 o (encName (bitsName k.rounds)) (rvKeys x))
  rw [toList_rvKeys, (typeName_eq (rounds_cases k)).1] at h
  rw [← h, ← (typeName_eq (rounds_cases k)).1]; rfl
theorem rv_formatD (k : KeySize) (o : Opts) (x : Vector (Bytes 16) (k.rounds + 1)) :
    format (debugDec (⟨rvKeys x⟩ : AesDec Target.riscv32.Block k.rounds) o) =
    .ok (cipherText o.alternate (typeName k.rounds ['D', 'e', 'c']) (x.toList.map (·.toList))) := by
  have h := emits_format (emits_cipher Target.riscv32 o (decName (bitsName k.rounds)) (rvKeys x))
  rw [toList_rvKeys, (typeName_eq (rounds_cases k)).2] at h
  rw [← h, ← (typeName_eq (rounds_cases k)).2]; rfl

/-- `crate .riscv32` is `rv32` in another representation. -/
def rvHom : Hom rv32 (crate Target.riscv32) where
  v w b := ofB (T := Target.riscv32.Vec w) b
  e k ks := ⟨rvKeys ks⟩
  d k ks := ⟨rvKeys ks⟩
  new w b := LawfulVec.new_eq b
  from_bytes w b := LawfulVec.from_bytes_eq b
  from_ref w b := LawfulVec.from_bytes_eq b
  try_from w b := rv_try_from w b
  zero w := eq_ofB_of_view (T := Target.riscv32.Vec w) LawfulVec.view_zero
  default_ w := eq_ofB_of_view (T := Target.riscv32.Vec w) LawfulVec.view_zero
  into_bytes w x := into_bytes_ofB (t := Target.riscv32) w x
  store_to w x dst := store_to_conc (t := Target.riscv32) w x dst
  is_zero w x := rv_is_zero w x
  eq w x y := rv_eq w x y
  bin w op x y := rv_bin w op x y
  assign w op x y := assign_conc (t := Target.riscv32) w op x y
  not w x := rv_not w x
  chain_enc w x ks := rv_chain_enc w x ks
  chain_dec w x ks := rv_chain_dec w x ks
  mc x := eq_ofB_of_view (T := Target.riscv32.Block) ((Riscv32.view_mc _).trans (congrArg rv32Mc (LawfulVec.view_ofB (T := Target.riscv32.Block) _)))
  imc x := eq_ofB_of_view (T := Target.riscv32.Block) ((Riscv32.view_imc _).trans (congrArg rv32Imc (LawfulVec.view_ofB (T := Target.riscv32.Block) _)))
  from_u128 n := from_u128_conc (t := Target.riscv32) n
  into_u128 x := by
    have h := into_u128_conc (t := Target.riscv32) x
    simp only [crate, rv32, aes, reference]
    exact h
  from_pair x y := from_pair_conc (t := Target.riscv32) x y
  to_pair x := to_pair_conc (t := Target.riscv32) x
  from_block2 x := (LawfulX2.from_block_eq (X2 := Target.riscv32.X2) _).trans (from_pair_conc (t := Target.riscv32) x x)
  from_quad x y z u := from_quad_conc (t := Target.riscv32) x y z u
  to_quad x := to_quad_conc (t := Target.riscv32) x
  from_x2_pair x y := from_x2_pair_conc (t := Target.riscv32) x y
  to_x2_pair x := to_x2_pair_conc (t := Target.riscv32) x
  from_block4 x := (LawfulX4.from_block_eq (X4 := Target.riscv32.X4) _).trans (from_quad_conc (t := Target.riscv32) x x x x)
  from_x2 x := (LawfulX4.from_x2_eq (X4 := Target.riscv32.X4) _).trans (from_x2_pair_conc (t := Target.riscv32) x x)
  format1 st o x := format1_conc (t := Target.riscv32) st o x
  format2 o x := format2_conc (t := Target.riscv32) o x
  format4 o x := format4_conc (t := Target.riscv32) o x
  encFrom k key := (encFrom_conc (t := Target.riscv32) k key).trans (by rw [rvKeys_rv32Keys]; rfl)
  decFrom k key := (decFrom_conc (t := Target.riscv32) k key).trans (by rw [rvKeys_rv32Keys, decKeys_rvKeys]; rfl)
  decrypter k x := (decrypter_ok (rounds_pos k) _).trans (congrArg (fun v => Except.ok (AesDec.mk v)) (decKeys_rvKeys x))
  encrypter k x := (encrypter_ok (rounds_pos k) _).trans (congrArg (fun v => Except.ok (AesEnc.mk v)) (encKeys_rvKeys x))
  encrypt k w x y := rv_encrypt k w x y
  decrypt k w x y := rv_decrypt k w x y
  formatE k o x := rv_formatE k o x
  formatD k o x := rv_formatD k o x
end Aes.Client
