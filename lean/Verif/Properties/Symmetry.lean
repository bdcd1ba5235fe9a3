import Verif.Spec.Symmetry
import Verif.Properties.Trail
import Verif.Properties.Chain
import Verif.Properties.KeySchedule
/-!
C66: the rounds do not tell the columns of a block from each other. Rotating the columns of the block and of the keys rotates the columns
of what a round, `mc`, `imc`, `chain_enc` and `chain_dec` return, and does nothing else; so a block of four equal columns stays one as
long as the keys are. The key schedules make sure that the keys are not: of any three (AES-128), four (AES-192) or five (AES-256) round
keys in a row, at least one has columns that differ, for every key. On every target.
-/
namespace Aes
open Rust AesSpec Fips197 AesVec AesBlock Target

/-- `f` on bytes, with the blocks and keys rotated first, is the rotated result of `f`; and it does return one. -/
def RotatesWith (f : Bytes 16 → Bytes 16 → M (Bytes 16)) : Prop :=
  ∀ x k, ∃ y, f x k = .ok y ∧ f (rotateColumns x) (rotateColumns k) = .ok (rotateColumns y)
/-- The same for a function of one block. -/
def Rotates (f : Bytes 16 → M (Bytes 16)) : Prop :=
  ∀ x, ∃ y, f x = .ok y ∧ f (rotateColumns x) = .ok (rotateColumns y)

/-- The bytes of `x.enc_last(k)`. -/
def encLastBytes (t : Target) (x k : Bytes 16) : M (Bytes 16) := do
  let x : t.Block ← from_bytes x
  let k : t.Block ← from_bytes k
  into_bytes (enc_last x k)
/-- The bytes of `x.dec_last(k)`. -/
def decLastBytes (t : Target) (x k : Bytes 16) : M (Bytes 16) := do
  let x : t.Block ← from_bytes x
  let k : t.Block ← from_bytes k
  into_bytes (dec_last x k)
/-- The bytes of `x.chain_enc(keys)`. -/
def chainEncBytes (t : Target) (x : Bytes 16) (keys : List (Bytes 16)) : M (Bytes 16) := do
  let x : t.Block ← from_bytes x
  let keys : List t.Block ← keys.mapM from_bytes
  into_bytes (← chain_enc x keys)
/-- The bytes of `x.chain_dec(keys)`. -/
def chainDecBytes (t : Target) (x : Bytes 16) (keys : List (Bytes 16)) : M (Bytes 16) := do
  let x : t.Block ← from_bytes x
  let keys : List t.Block ← keys.mapM from_bytes
  into_bytes (← chain_dec x keys)

namespace Symmetry

/-- The rotation, on the state. -/
def rot (s : State) : State := fun r c => s r (c + 1)

theorem ofBytes_rot (b : Bytes 16) : State.ofBytes (rotateColumns b) = rot (State.ofBytes b) := by
  funext r c
  show (rotateColumns b)[r.val + 4 * c.val] = b[r.val + 4 * (c + 1).val]
  simp only [rotateColumns, Vector.getElem_ofFn]
  congr 1
  revert r c; decide
theorem toBytes_rot (s : State) : State.toBytes (rot s) = rotateColumns (State.toBytes s) := by
  apply ofBytes_inj
  rw [ofBytes_rot, ofBytes_toBytes, ofBytes_toBytes]
theorem sub_rot (s : State) : subBytes (rot s) = rot (subBytes s) := rfl
theorem invSub_rot (s : State) : invSubBytes (rot s) = rot (invSubBytes s) := rfl
theorem mix_rot (s : State) : mixColumns (rot s) = rot (mixColumns s) := rfl
theorem invMix_rot (s : State) : invMixColumns (rot s) = rot (invMixColumns s) := rfl
theorem shift_rot (s : State) : shiftRows (rot s) = rot (shiftRows s) := by
  funext r c
  have h : ∀ r c : Fin 4, c + r + 1 = c + 1 + r := by decide
  show s r (c + r + 1) = s r (c + 1 + r)
  rw [h]
theorem invShift_rot (s : State) : invShiftRows (rot s) = rot (invShiftRows s) := by
  funext r c
  have h : ∀ r c : Fin 4, c - r + 1 = c + 1 - r := by decide
  show s r (c - r + 1) = s r (c + 1 - r)
  rw [h]
theorem key_rot (k : Bytes 16) (s : State) :
    addRoundKey (keyWords (rotateColumns k)) (rot s) = rot (addRoundKey (keyWords k) s) := by
  have h := ofBytes_rot k
  funext r c
  have h := congrFun (congrFun h r) c
  have e (b : Bytes 16) (c : Fin 4) : keyWords b c r = State.ofBytes b r c := by simp only [keyWords, State.ofBytes, Nat.add_comm]
  show s r (c + 1) ^^^ keyWords (rotateColumns k) c r = s r (c + 1) ^^^ keyWords k (c + 1) r
  rw [e, e, h]; rfl
theorem xor_rot (a b : Bytes 16) : xorB (rotateColumns a) (rotateColumns b) = rotateColumns (xorB a b) := by
  ext i hi
  simp [xorB, rotateColumns]

theorem enc_rot (x k : Bytes 16) : encRound (rotateColumns x) (rotateColumns k) = rotateColumns (encRound x k) := by
  simp only [encRound, ofBytes_rot, sub_rot, shift_rot, mix_rot, key_rot, toBytes_rot]
theorem encLast_rot (x k : Bytes 16) : encLastRound (rotateColumns x) (rotateColumns k) = rotateColumns (encLastRound x k) := by
  simp only [encLastRound, ofBytes_rot, sub_rot, shift_rot, key_rot, toBytes_rot]
theorem dec_rot (x k : Bytes 16) : decRound (rotateColumns x) (rotateColumns k) = rotateColumns (decRound x k) := by
  simp only [decRound, ofBytes_rot, invSub_rot, invShift_rot, invMix_rot, key_rot, toBytes_rot]
theorem decLast_rot (x k : Bytes 16) : decLastRound (rotateColumns x) (rotateColumns k) = rotateColumns (decLastRound x k) := by
  simp only [decLastRound, ofBytes_rot, invSub_rot, invShift_rot, key_rot, toBytes_rot]
theorem rv32Dec_rot (x k : Bytes 16) : rv32DecRound (rotateColumns x) (rotateColumns k) = rotateColumns (rv32DecRound x k) := by
  simp only [rv32DecRound, ofBytes_rot, invSub_rot, shift_rot, invMix_rot, key_rot, toBytes_rot]
theorem rv32DecLast_rot (x k : Bytes 16) : rv32DecLastRound (rotateColumns x) (rotateColumns k) = rotateColumns (rv32DecLastRound x k) := by
  simp only [rv32DecLastRound, ofBytes_rot, invSub_rot, shift_rot, key_rot, toBytes_rot]
theorem mc_rot (x : Bytes 16) : mixCols (rotateColumns x) = rotateColumns (mixCols x) := by
  simp only [mixCols, ofBytes_rot, mix_rot, toBytes_rot]
theorem imc_rot (x : Bytes 16) : invMixCols (rotateColumns x) = rotateColumns (invMixCols x) := by
  simp only [invMixCols, ofBytes_rot, invMix_rot, toBytes_rot]
theorem rv32Mc_rot (x : Bytes 16) : rv32Mc (rotateColumns x) = rotateColumns (rv32Mc x) := by
  simp only [rv32Mc, ofBytes_rot, shift_rot, mix_rot, toBytes_rot]
theorem rv32Imc_rot (x : Bytes 16) : rv32Imc (rotateColumns x) = rotateColumns (rv32Imc x) := by
  simp only [rv32Imc, ofBytes_rot, shift_rot, invMix_rot, toBytes_rot]

theorem rotates {f : Bytes 16 → M (Bytes 16)} {g : Bytes 16 → Bytes 16} (h : ∀ x, f x = .ok (g x))
    (hg : ∀ x, g (rotateColumns x) = rotateColumns (g x)) : Rotates f := fun x => ⟨g x, h x, by rw [h, hg]⟩
theorem rotatesWith {f : Bytes 16 → Bytes 16 → M (Bytes 16)} {g : Bytes 16 → Bytes 16 → Bytes 16} (h : ∀ x k, f x k = .ok (g x k))
    (hg : ∀ x k, g (rotateColumns x) (rotateColumns k) = rotateColumns (g x k)) : RotatesWith f := fun x k => ⟨g x k, h x k, by rw [h, hg]⟩

theorem fixed_iff (b : Bytes 16) : rotateColumns b = b ↔ FourEqualColumns b := by
  constructor
  · intro h i hi
    have := congrArg (fun v : Bytes 16 => v[i]'(by omega)) h
    simp only [rotateColumns, Vector.getElem_ofFn] at this
    rw [← this]
    congr 1
    omega
  · intro h
    ext i hi
    simp only [rotateColumns, Vector.getElem_ofFn]
    by_cases h12 : i < 12
    · have e : (i + 4) % 16 = i + 4 := by omega
      simp only [e, h i h12]
    · have h0 := h (i - 12) (by omega)
      have h1 := h (i - 8) (by omega)
      have h2 := h (i - 4) (by omega)
      have e : (i + 4) % 16 = i - 12 := by omega
      simp only [e, h0, show i - 12 + 4 = i - 8 by omega, h1, show i - 8 + 4 = i - 4 by omega, h2, show i - 4 + 4 = i by omega]

end Symmetry

/-- C66: the rounds, `mc` and `imc` commute with the rotation of the columns. -/
theorem C66_rounds (t : Target) : RotatesWith (encBytes t) ∧ RotatesWith (encLastBytes t) ∧ RotatesWith (decBytes t) ∧
    RotatesWith (decLastBytes t) ∧ Rotates (mcBytes t) ∧ Rotates (imcBytes t) := by
  refine ⟨Symmetry.rotatesWith (C12_enc t) Symmetry.enc_rot, Symmetry.rotatesWith (C12_enc_last t) Symmetry.encLast_rot, ?_⟩
  by_cases hrv : t = .riscv32
  · subst hrv
    exact ⟨Symmetry.rotatesWith C41_dec Symmetry.rv32Dec_rot, Symmetry.rotatesWith C41_dec_last Symmetry.rv32DecLast_rot,
      Symmetry.rotates C41_mc Symmetry.rv32Mc_rot, Symmetry.rotates C41_imc Symmetry.rv32Imc_rot⟩
  · exact ⟨Symmetry.rotatesWith (C13_dec t hrv) Symmetry.dec_rot, Symmetry.rotatesWith (C13_dec_last t hrv) Symmetry.decLast_rot,
      Symmetry.rotates (C14_mc t hrv) Symmetry.mc_rot, Symmetry.rotates (C14_imc t hrv) Symmetry.imc_rot⟩

namespace Symmetry

theorem mapM_from_bytes {B : Type} [AesBlock B] [LawfulVec B] (ks : List (Bytes 16)) :
    ks.mapM (from_bytes : Bytes 16 → M B) = .ok (ks.map LawfulVec.ofB) := by
  induction ks with
  | nil => rfl
  | cons k ks ih => rw [List.mapM_cons, LawfulVec.from_bytes_eq, bind_ok, ih, bind_ok]; rfl

theorem foldl_rot {f : Bytes 16 → Bytes 16 → Bytes 16} (h : ∀ x k, f (rotateColumns x) (rotateColumns k) = rotateColumns (f x k))
    (ks : List (Bytes 16)) : ∀ x, (ks.map rotateColumns).foldl f (rotateColumns x) = rotateColumns (ks.foldl f x) := by
  induction ks with
  | nil => intro x; rfl
  | cons k ks ih => intro x; rw [List.map_cons, List.foldl_cons, h, ih, List.foldl_cons]

theorem chain_bytes {B : Type} [AesBlock B] [LawfulVec B] (x : Bytes 16) (keys : List (Bytes 16)) (f : B → List B → M B) {y : Bytes 16}
    (h : ∃ z, f (LawfulVec.ofB x) (keys.map LawfulVec.ofB) = .ok z ∧ view z = y) :
    (do
      let x : B ← from_bytes x
      let keys : List B ← keys.mapM from_bytes
      into_bytes (← f x keys)) = .ok y := by
  obtain ⟨z, hz, rfl⟩ := h
  rw [LawfulVec.from_bytes_eq, bind_ok, mapM_from_bytes, bind_ok, hz, bind_ok, into_bytes_eq]

theorem view_map {B : Type} [AesBlock B] [LawfulVec B] (ks : List (Bytes 16)) :
    (ks.map (LawfulVec.ofB : Bytes 16 → B)).map view = ks := by
  rw [List.map_map]
  refine Eq.trans (List.map_congr_left fun k _ => ?_) (List.map_id ks)
  exact LawfulVec.view_ofB k

/-- What the chains return, on every target but RISC-V-32. -/
theorem chain_doc {B : Type} [AesBlock B] [LawfulVec B] (op : B → B → B) (f : Bytes 16 → Bytes 16 → Bytes 16)
    (hf : ∀ a k, view (op a k) = f (view a) (view k)) (x k : Bytes 16) (ks : List (Bytes 16)) :
    ∃ z, orPanic (chainDoc bitxor op (LawfulVec.ofB x) ((k :: ks).map LawfulVec.ofB)) = .ok z ∧ view z = ks.foldl f (xorB x k) := by
  refine ⟨_, rfl, ?_⟩
  rw [foldl_view _ f hf, LawfulVec.view_xor, LawfulVec.view_ofB, LawfulVec.view_ofB, view_map]

theorem chain_rv (op : Riscv32.Block → Riscv32.Block → Riscv32.Block) (f : Bytes 16 → Bytes 16 → Bytes 16)
    (hf : ∀ a k, view (op a k) = f (view a) (view k)) (x k : Bytes 16) (ks : List (Bytes 16))
    (h : (k :: ks).map (LawfulVec.ofB : Bytes 16 → Riscv32.Block) ≠ []) :
    view (AesVec.bitxor (((k :: ks).map (LawfulVec.ofB : Bytes 16 → Riscv32.Block)).dropLast.foldl op (LawfulVec.ofB x))
      (((k :: ks).map (LawfulVec.ofB : Bytes 16 → Riscv32.Block)).getLast h)) =
    xorB ((k :: ks).dropLast.foldl f x) ((k :: ks).getLast (by simp)) := by
  rw [LawfulVec.view_xor, foldl_view _ f hf, LawfulVec.view_ofB, ← List.map_dropLast, view_map, List.getLast_map, LawfulVec.view_ofB]

end Symmetry

/-- C66: so do `chain_enc` and `chain_dec`, with any keys (at least one: with none they panic, C16). -/
theorem C66_chains (t : Target) (x : Bytes 16) (keys : List (Bytes 16)) (h : keys ≠ []) :
    (∃ y, chainEncBytes t x keys = .ok y ∧ chainEncBytes t (rotateColumns x) (keys.map rotateColumns) = .ok (rotateColumns y)) ∧
    ∃ y, chainDecBytes t x keys = .ok y ∧ chainDecBytes t (rotateColumns x) (keys.map rotateColumns) = .ok (rotateColumns y) := by
  obtain ⟨k, ks, rfl⟩ := List.exists_cons_of_ne_nil h
  by_cases hrv : t = .riscv32
  · subst hrv
    have e (f : Bytes 16 → Bytes 16 → Bytes 16) (hf : ∀ x k, f (rotateColumns x) (rotateColumns k) = rotateColumns (f x k)) :
        xorB (((k :: ks).map rotateColumns).dropLast.foldl f (rotateColumns x)) (((k :: ks).map rotateColumns).getLast (by simp)) =
        rotateColumns (xorB ((k :: ks).dropLast.foldl f x) ((k :: ks).getLast (by simp))) := by
      rw [← List.map_dropLast, Symmetry.foldl_rot hf, List.getLast_map, Symmetry.xor_rot]
    refine ⟨⟨_, Symmetry.chain_bytes x _ _ ⟨_, Riscv32.chain_enc_rv _ _ _, Symmetry.chain_rv _ _ LawfulEnc.view_enc x k ks (by simp)⟩, ?_⟩,
      ⟨_, Symmetry.chain_bytes x _ _ ⟨_, Riscv32.chain_dec_rv _ _ _, Symmetry.chain_rv _ _ Riscv32.view_dec x k ks (by simp)⟩, ?_⟩⟩
    · rw [← e _ Symmetry.enc_rot]
      exact Symmetry.chain_bytes _ _ _ ⟨_, Riscv32.chain_enc_rv _ _ _, Symmetry.chain_rv _ _ LawfulEnc.view_enc _ _ _ (by simp)⟩
    · rw [← e _ Symmetry.rv32Dec_rot]
      exact Symmetry.chain_bytes _ _ _ ⟨_, Riscv32.chain_dec_rv _ _ _, Symmetry.chain_rv _ _ Riscv32.view_dec _ _ _ (by simp)⟩
  · have := t.lawfulDec hrv
    have he (x : t.Block) (ks : List t.Block) : chain_enc x ks = orPanic (chainDoc bitxor enc x ks) := C16_chain_enc t hrv .x1 x ks
    have hd (x : t.Block) (ks : List t.Block) : chain_dec x ks = orPanic (chainDoc bitxor dec x ks) := C17_chain_dec t hrv .x1 x ks
    refine ⟨⟨_, Symmetry.chain_bytes x _ _ ((he _ _).symm ▸ Symmetry.chain_doc _ _ LawfulEnc.view_enc x k ks), ?_⟩,
      ⟨_, Symmetry.chain_bytes x _ _ ((hd _ _).symm ▸ Symmetry.chain_doc _ _ LawfulDec.view_dec x k ks), ?_⟩⟩
    · rw [← Symmetry.foldl_rot Symmetry.enc_rot, ← Symmetry.xor_rot]
      exact Symmetry.chain_bytes _ _ _ ((he _ _).symm ▸ Symmetry.chain_doc _ _ LawfulEnc.view_enc _ _ _)
    · rw [← Symmetry.foldl_rot Symmetry.dec_rot, ← Symmetry.xor_rot]
      exact Symmetry.chain_bytes _ _ _ ((hd _ _).symm ▸ Symmetry.chain_doc _ _ LawfulDec.view_dec _ _ _)

/-- C66: a block of four equal columns stays one, as long as the round keys are. -/
theorem C66_equal_columns (t : Target) (x k : Bytes 16) (hx : FourEqualColumns x) (hk : FourEqualColumns k) :
    (∃ y, encBytes t x k = .ok y ∧ FourEqualColumns y) ∧ (∃ y, encLastBytes t x k = .ok y ∧ FourEqualColumns y) ∧
    (∃ y, decBytes t x k = .ok y ∧ FourEqualColumns y) ∧ (∃ y, decLastBytes t x k = .ok y ∧ FourEqualColumns y) ∧
    (∃ y, mcBytes t x = .ok y ∧ FourEqualColumns y) ∧ ∃ y, imcBytes t x = .ok y ∧ FourEqualColumns y := by
  have two {f : Bytes 16 → Bytes 16 → M (Bytes 16)} (hf : RotatesWith f) : ∃ y, f x k = .ok y ∧ FourEqualColumns y := by
    obtain ⟨y, e, e'⟩ := hf x k
    rw [(Symmetry.fixed_iff x).2 hx, (Symmetry.fixed_iff k).2 hk, e] at e'
    exact ⟨y, e, (Symmetry.fixed_iff y).1 (Except.ok.inj e').symm⟩
  have one {f : Bytes 16 → M (Bytes 16)} (hf : Rotates f) : ∃ y, f x = .ok y ∧ FourEqualColumns y := by
    obtain ⟨y, e, e'⟩ := hf x
    rw [(Symmetry.fixed_iff x).2 hx, e] at e'
    exact ⟨y, e, (Symmetry.fixed_iff y).1 (Except.ok.inj e').symm⟩
  obtain ⟨h1, h2, h3, h4, h5, h6⟩ := C66_rounds t
  exact ⟨two h1, two h2, two h3, two h4, one h5, one h6⟩

namespace Symmetry

/-- What all the key schedules have in common: words with an odd index are the sum of two words, and zero words do not stay zero. -/
structure Mixing (nk : Nat) (t : Nat → Word → Word) : Prop where
  odd : ∀ i x, i % 2 = 1 → t i x = x
  step : ∀ i, i % nk = 0 ∨ (nk = 8 ∧ i % 8 = 4) → t i (fun _ => 0#8) 1 = 0x63#8

theorem mixing_std {nk : Nat} (h : nk = 4 ∨ nk = 6 ∨ nk = 8) : Mixing nk (stdTemp nk) where
  odd i x hi := by
    unfold stdTemp
    rw [if_neg (by rcases h with rfl | rfl | rfl <;> omega), if_neg (by rcases h with rfl | rfl | rfl <;> omega)]
  step i hi := by
    unfold stdTemp
    by_cases h0 : i % nk = 0
    · rw [if_pos h0]
      show sbox 0#8 ^^^ (if (1 : Fin 4) = 0 then _ else 0#8) = _
      rw [if_neg (by decide)]; decide +kernel
    · rcases hi with hi | ⟨rfl, hi⟩
      · exact absurd hi h0
      rw [if_neg h0, if_pos (by omega)]
      show sbox 0#8 = _
      decide +kernel
theorem mixing_big {nk : Nat} (h : nk = 4 ∨ nk = 6 ∨ nk = 8) : Mixing nk (bigTemp nk) where
  odd i x hi := by
    unfold bigTemp
    rw [if_neg (by rcases h with rfl | rfl | rfl <;> omega), if_neg (by rcases h with rfl | rfl | rfl <;> omega)]
  step i hi := by
    unfold bigTemp
    by_cases h0 : i % nk = 0
    · rw [if_pos h0]
      show sbox 0#8 ^^^ (if (1 : Fin 4) = 3 then _ else 0#8) = _
      rw [if_neg (by decide)]; decide +kernel
    · rcases hi with hi | ⟨rfl, hi⟩
      · exact absurd hi h0
      rw [if_neg h0, if_pos (by omega)]
      show sbox 0#8 = _
      decide +kernel
theorem mixing_norot {nk : Nat} (h : nk = 4 ∨ nk = 6) : Mixing nk (norotTemp nk) where
  odd i x hi := by
    unfold norotTemp
    rw [if_neg (by rcases h with rfl | rfl <;> omega)]
  step i hi := by
    unfold norotTemp
    rw [if_pos (by omega)]
    show sbox 0#8 ^^^ (if (1 : Fin 4) = 0 then _ else 0#8) = _
    rw [if_neg (by decide)]; decide +kernel
theorem mixing_norot256 : Mixing 8 norotTemp256 where
  odd i x hi := by
    unfold norotTemp256
    rw [if_neg (by omega), (mixing_std (.inr (.inr rfl))).odd i x hi]
  step i hi := by
    unfold norotTemp256
    by_cases h0 : i = 56
    · rw [if_pos h0]
      show sbox 0#8 ^^^ (if (1 : Fin 4) = 0 then _ else 0#8) = _
      rw [if_neg (by decide)]; decide +kernel
    · rw [if_neg h0, (mixing_std (.inr (.inr rfl))).step i hi]
theorem mixing (t : Target) {nk : Nat} (h : nk = 4 ∨ nk = 6 ∨ nk = 8) : Mixing nk (t.temp nk) := by
  by_cases hrv : t = .riscv32
  · subst hrv
    show Mixing nk (if nk = 8 then norotTemp256 else norotTemp nk)
    by_cases h8 : nk = 8
    · subst h8; exact mixing_norot256
    · rw [if_neg h8]; exact mixing_norot (by omega)
  by_cases hbe : t = .bitslice .big
  · subst hbe; exact mixing_big h
  · rw [temp_std t hrv hbe]; exact mixing_std h

theorem columns_words (w : Nat → Word) (r : Nat) (h : FourEqualColumns (roundKeyBytes w r)) (i j : Nat) (hi : i / 4 = r) (hj : j / 4 = r) :
    w i = w j := by
  have step (c : Nat) (hc : c < 3) : w (4 * r + c) = w (4 * r + c + 1) := by
    funext b
    have := h (4 * c + b.val) (by omega)
    simp only [roundKeyBytes, Vector.getElem_ofFn] at this
    simp only [show (4 * c + b.val) / 4 = c by omega, show (4 * c + b.val + 4) / 4 = c + 1 by omega,
      show (4 * c + b.val) % 4 = b.val by omega, show (4 * c + b.val + 4) % 4 = b.val by omega] at this
    exact this
  have first (i : Nat) (hi : i / 4 = r) : w i = w (4 * r) := by
    have h0 := step 0 (by omega)
    have h1 := step 1 (by omega)
    have h2 := step 2 (by omega)
    have : i = 4 * r ∨ i = 4 * r + 1 ∨ i = 4 * r + 2 ∨ i = 4 * r + 3 := by omega
    rcases this with rfl | rfl | rfl | rfl
    · rfl
    · exact h0.symm
    · exact (h0.trans h1).symm
    · exact (h0.trans (h1.trans h2)).symm
  rw [first i hi, first j hj]

theorem schedule {nk n : Nat} {T : Nat → Word → Word} (hT : Mixing nk T) (hnk : nk = 4 ∨ nk = 6 ∨ nk = 8) (key : Vector Byte n) (r : Nat) :
    ∃ i, i ≤ nk / 2 ∧ ¬ FourEqualColumns (roundKeyBytes (keyExpansionWith T nk key) (r + i)) := by
  apply Classical.byContradiction
  intro hno
  have hs : ∀ i, i ≤ nk / 2 → FourEqualColumns (roundKeyBytes (keyExpansionWith T nk key) (r + i)) := fun i hi =>
    Classical.byContradiction fun h => hno ⟨i, hi, h⟩
  have rec_ (i : Nat) (hi : nk ≤ i) : keyExpansionWith T nk key i =
      Word.add (keyExpansionWith T nk key (i - nk)) (T i (keyExpansionWith T nk key (i - 1))) := by
    rw [keyExpansionWith, dif_neg (by omega)]
  generalize keyExpansionWith T nk key = w at hs rec_
  have same (i j : Nat) (hi : 4 * r ≤ i) (hij : i / 4 = j / 4) (hj : i / 4 ≤ r + nk / 2) : w i = w j := by
    have := hs (i / 4 - r) (by omega)
    rw [show r + (i / 4 - r) = i / 4 by omega] at this
    exact columns_words w _ this i j rfl hij.symm
  have zeroOdd (m : Nat) (h2 : m % 2 = 1) (h1 : 4 * r ≤ m) (h3 : m ≤ 4 * r + nk + 3) : w m = fun _ => 0#8 := by
    have e := rec_ (m + nk) (by omega)
    rw [hT.odd _ _ (by rcases hnk with rfl | rfl | rfl <;> omega), Nat.add_sub_cancel,
      same (m + nk) (m + nk - 1) (by omega) (by rcases hnk with rfl | rfl | rfl <;> omega) (by rcases hnk with rfl | rfl | rfl <;> omega)] at e
    funext b
    have := congrFun e b
    simp only [Word.add] at this
    have h := congrArg (· ^^^ w (m + nk - 1) b) this
    simpa [BitVec.xor_assoc] using h.symm
  have zero (m : Nat) (h1 : 4 * r ≤ m) (h3 : 4 * (m / 4) + 1 ≤ 4 * r + nk + 3) : w m = fun _ => 0#8 := by
    rw [same m (4 * (m / 4) + 1) h1 (by omega) (by rcases hnk with rfl | rfl | rfl <;> omega)]
    exact zeroOdd _ (by omega) (by omega) h3
  have last (i : Nat) (h0 : i % nk = 0 ∨ (nk = 8 ∧ i % 8 = 4)) (h1 : 4 * r + nk ≤ i) (h2 : 4 * (i / 4) + 1 ≤ 4 * r + nk + 3) : False := by
    have e := rec_ i (by omega)
    rw [zero i (by omega) h2, zero (i - nk) (by omega) (by omega), zero (i - 1) (by omega) (by omega)] at e
    have := congrFun e 1
    simp only [Word.add, hT.step i h0] at this
    exact absurd this (by decide)
  rcases hnk with rfl | rfl | rfl
  · exact last (4 * r + 4) (.inl (by omega)) (by omega) (by omega)
  · exact last (6 * ((4 * r + 11) / 6)) (.inl (by omega)) (by omega) (by omega)
  · exact last (4 * r + 8) (by omega) (by omega) (by omega)

end Symmetry

/-- C66: for every key, of any three round keys in a row of AES-128, four of AES-192 and five of AES-256, one does not consist of
four equal columns. -/
theorem C66_round_keys (t : Target) (k16 : Bytes 16) (k24 : Bytes 24) (k32 : Bytes 32) :
    (∃ e : AesEnc t.Block 10, Aes128Enc.from k16 = .ok e ∧ ∀ r, (h : r + 2 ≤ 10) → ∃ i b, ∃ hi : i ≤ 2,
      into_bytes e.round_keys[r + i] = .ok b ∧ ¬ FourEqualColumns b) ∧
    (∃ e : AesEnc t.Block 12, Aes192Enc.from k24 = .ok e ∧ ∀ r, (h : r + 3 ≤ 12) → ∃ i b, ∃ hi : i ≤ 3,
      into_bytes e.round_keys[r + i] = .ok b ∧ ¬ FourEqualColumns b) ∧
    (∃ e : AesEnc t.Block 14, Aes256Enc.from k32 = .ok e ∧ ∀ r, (h : r + 4 ≤ 14) → ∃ i b, ∃ hi : i ≤ 4,
      into_bytes e.round_keys[r + i] = .ok b ∧ ¬ FourEqualColumns b) := by
  refine ⟨⟨_, t.enc128_from k16, fun r h => ?_⟩, ⟨_, t.enc192_from k24, fun r h => ?_⟩, ⟨_, t.enc256_from k32, fun r h => ?_⟩⟩
  · obtain ⟨i, hi, hb⟩ := Symmetry.schedule (Symmetry.mixing t (.inl rfl)) (.inl rfl) k16 r
    refine ⟨i, _, hi, ?_, hb⟩
    rw [into_bytes_eq]; simp only [rkVec, Vector.getElem_ofFn, LawfulVec.view_ofB]
  · obtain ⟨i, hi, hb⟩ := Symmetry.schedule (Symmetry.mixing t (.inr (.inl rfl))) (.inr (.inl rfl)) k24 r
    refine ⟨i, _, hi, ?_, hb⟩
    rw [into_bytes_eq]; simp only [rkVec, Vector.getElem_ofFn, LawfulVec.view_ofB]
  · obtain ⟨i, hi, hb⟩ := Symmetry.schedule (Symmetry.mixing t (.inr (.inr rfl))) (.inr (.inr rfl)) k32 r
    refine ⟨i, _, hi, ?_, hb⟩
    rw [into_bytes_eq]; simp only [rkVec, Vector.getElem_ofFn, LawfulVec.view_ofB]

/-! ### Concrete instances -/

instance (b : Bytes 16) : Decidable (FourEqualColumns b) := by unfold FourEqualColumns; infer_instance

/-- The rotation moves the state of `aesenc_test` and its result, -/
example : rotateColumns exState = #v[0x04, 0x05, 0x06, 0x07, 0x08, 0x09, 0x0a, 0x0b, 0x0c, 0x0d, 0x0e, 0x0f, 0x00, 0x01, 0x02, 0x03] ∧
    rotateColumns exEnc ≠ exEnc := by decide
/-- ... and has to be applied to the key too. -/
example (t : Target) : encBytes t (rotateColumns exState) exRk ≠ .ok (rotateColumns exEnc) := by
  have h : encBytes t (rotateColumns exState) exRk = .ok (encRound (rotateColumns exState) exRk) := C12_enc t _ _
  rw [h]
  intro h
  exact absurd (Except.ok.inj h) (by decide +kernel)
/-- Blocks of four equal columns that are not zero. -/
example : FourEqualColumns (Vector.ofFn fun i : Fin 16 => BitVec.ofNat 8 (i.val % 4)) ∧ ¬ FourEqualColumns exState := by decide
/-- Three in a row are needed: with the zero key the first two round keys of AES-128 both consist of four equal columns. -/
example (t : Target) (hrv : t ≠ .riscv32) (hbe : t ≠ .bitslice .big) : ∃ e : AesEnc t.Block 10, ∃ a b : Bytes 16,
    Aes128Enc.from (zeroB 16) = .ok e ∧ into_bytes e.round_keys[0] = .ok a ∧ into_bytes e.round_keys[1] = .ok b ∧
    FourEqualColumns a ∧ FourEqualColumns b ∧ b ≠ zeroB 16 := by
  obtain ⟨e, he, hk⟩ := C09_aes128 t hrv hbe (zeroB 16)
  refine ⟨e, _, _, he, hk 0 (by omega), hk 1 (by omega), ?_⟩
  rw [← Target.keyExpansionWith_std', rkOf_ok _ _ (by omega) _ 8 _ (by omega), rkOf_ok _ _ (by omega) _ 8 _ (by omega)]
  decide +kernel

end Aes
