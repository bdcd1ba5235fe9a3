import Verif.Properties.SharedKeys
import Verif.Properties.Types
/-!
C70: nothing in the crate erases a key. Dropping runs no code (C69), no call changes the encrypter (C67), and the key is read off from the bytes that an
encrypter or a decrypter occupied, by a function fixed in advance.
-/
namespace Aes
open Rust AesSpec Fips197 AesVec AesBlock Target Client Store Threads

/-- What the reader of an encrypter does: the first 16, 24 or 32 bytes of its round keys. -/
def keyInEnc (t : Target) (k : KeySize) (e : AesEnc t.Block k.rounds) : Bytes k.bytes :=
  Vector.ofFn fun i => (view (e.round_keys[i.val / 16]'(by have := i.isLt; cases k <;> simp only [KeySize.bytes, KeySize.rounds] at * <;> omega)))[i.val % 16]'(by omega)
/-- What the reader of a decrypter does: its last round key, and if that is not all the key, MixColumns of the one before. -/
def keyInDec (t : Target) (k : KeySize) (d : AesDec t.Block k.rounds) : Bytes k.bytes :=
  Vector.ofFn fun i => if i.val < 16 then (view d.round_keys[k.rounds])[i.val % 16]'(by omega)
    else (mixCols (view (d.round_keys[k.rounds - 1]'(by omega))))[i.val % 16]'(by omega)

namespace Remains
theorem wordAt_key {n : Nat} (key : Bytes n) (i : Nat) (h : i < n) : wordAt key (i / 4) ⟨i % 4, by omega⟩ = key[i] := by
  simp only [wordAt]
  rw [show 4 * (i / 4) + i % 4 = i by omega, List.getD_eq_getElem?_getD, List.getElem?_eq_getElem (by simpa using h)]
  simp
theorem round_key {k : KeySize} {t : Target} (key : Bytes k.bytes) (i : Nat) (h : i < k.bytes) :
    (roundKeyBytes (tsched t k key) (i / 16))[i % 16]'(by omega) = key[i] := by
  unfold roundKeyBytes tsched
  rw [Vector.getElem_ofFn]
  have hw : 4 * (i / 16) + i % 16 / 4 = i / 4 := by omega
  have hm : i % 16 % 4 = i % 4 := by omega
  simp only [hw, hm]
  rw [keyExpansionWith, dif_pos (Or.inl (by cases k <;> simp only [KeySize.bytes, KeySize.words] at * <;> omega))]
  exact wordAt_key key i h
theorem dec_last (t : Target) {nr : Nat} (w : Nat → Word) : view (decKeys (rkVec t.Block nr w))[nr] = roundKeyBytes w 0 := by
  have : (decKeys (rkVec t.Block nr w))[nr] = ofB (roundKeyBytes w 0) := by
    simp only [decKeys, Vector.getElem_ofFn, or_true, if_true, rkVec, Nat.sub_self]
  rw [this, LawfulVec.view_ofB]
theorem dec_before (t : Target) (hrv : t ≠ .riscv32) {nr : Nat} (h : 2 ≤ nr) (w : Nat → Word) :
    mixCols (view ((decKeys (rkVec t.Block nr w))[nr - 1]'(by omega))) = roundKeyBytes w 1 := by
  have := t.lawfulDec hrv
  have e : (decKeys (rkVec t.Block nr w))[nr - 1]'(by omega) = imc (ofB (roundKeyBytes w 1)) := by
    have h1 : ¬ (nr - 1 = 0 ∨ nr - 1 = nr) := by omega
    have h2 : nr - (nr - 1) = 1 := by omega
    simp only [decKeys, Vector.getElem_ofFn, if_neg h1, rkVec, h2]
  rw [e, LawfulDec.view_imc, LawfulVec.view_ofB]
  unfold mixCols invMixCols
  rw [ofBytes_toBytes, mixColumns_invMixColumns, toBytes_ofBytes]
end Remains
open Remains

/-- C70: the key can be read off every encrypter, on every target. -/
theorem C70_encrypter_is_key (t : Target) (k : KeySize) (key : Bytes k.bytes) (e : AesEnc t.Block k.rounds)
    (h : encFromOf t.Block k key = .ok e) : keyInEnc t k e = key := by
  rw [encFrom_conc] at h
  cases h
  apply Vector.ext; intro i hi
  simp only [keyInEnc, Vector.getElem_ofFn, rkVec, LawfulVec.view_ofB]
  exact round_key key i hi
/-- C70: and off every decrypter. -/
theorem C70_decrypter_is_key (t : Target) (hrv : t ≠ .riscv32) (k : KeySize) (key : Bytes k.bytes) (d : AesDec t.Block k.rounds)
    (h : decFromOf t.Block k key = .ok d) : keyInDec t k d = key := by
  rw [decFrom_conc] at h
  cases h
  apply Vector.ext; intro i hi
  simp only [keyInDec, Vector.getElem_ofFn]
  rw [← round_key (t := t) key i hi]
  split
  · next h16 =>
    have e : i / 16 = 0 := by omega
    simp only [e]
    exact congrArg (fun b : Bytes 16 => b[i % 16]) (dec_last t _)
  · next h16 =>
    have e : i / 16 = 1 := by
      have : i < 32 := by cases k <;> simp only [KeySize.bytes] at hi <;> omega
      omega
    simp only [e]
    exact congrArg (fun b : Bytes 16 => b[i % 16]) (dec_before t hrv (by cases k <;> decide) _)

/-- C70: after the work is done. Whatever the layout of an encrypter in memory, however many threads have used it for however long, under every schedule and
on every coherent memory, at every moment: whoever reads its bytes has the key. (Dropping it then changes nothing: C69.) -/
theorem C70_after_use (t : Target) (hrv : t ≠ .riscv32) (hbe : t ≠ .bitslice .big) (k : KeySize) (n : Nat)
    (repr : AesEnc t.Block k.rounds → Bytes n) (load : Bytes n → AesEnc t.Block k.rounds) (hl : ∀ e, load (repr e) = e) :
    ∀ (key : Bytes k.bytes) (e : AesEnc t.Block k.rounds), encFromOf t.Block k key = .ok e →
    ∀ (self : Nat) (work : List (List Chunk)) (m : Memory), readMem m self n = repr e → (∀ c ∈ work.flatten, c.w.size ≤ c.dst.len) →
      work.flatten.Pairwise Apart → (∀ c ∈ work.flatten, KeepsOff self n c) →
      (∀ schedule, keyInEnc t k (load (readMem ((startShared t self n (fun b => encryptBytes (load b)) work m).exec schedule).memory self n)) = key) ∧
      ∀ trace s, WeakRun (startShared t self n (fun b => encryptBytes (load b)) work m) trace s →
        keyInEnc t k (load (readMem s.memory self n)) = key := by
  intro key e he self work m hm hlen hap hoff
  obtain ⟨e', he', h⟩ := C67_shared_encrypter t hrv hbe k key
  cases he.symm.trans he'
  obtain ⟨h1, h2⟩ := h n repr load (hl e) self work m hm hlen hap hoff
  refine ⟨fun schedule => ?_, fun trace s hr => ?_⟩
  · have : readMem ((startShared t self n (fun b => encryptBytes (load b)) work m).exec schedule).memory self n = repr e := by
      rw [← hm]
      apply Vector.ext; intro i hi
      simp only [readMem, Vector.getElem_ofFn]
      exact h1.untouched _ _ fun c hc hw => hoff c hc _ hw ⟨by omega, by omega⟩
    rw [this, hl]; exact C70_encrypter_is_key t k key e he
  · rw [(h2 trace s hr).2, hl]; exact C70_encrypter_is_key t k key e he

/-- C70: the same of a decrypter. -/
theorem C70_after_use_dec (t : Target) (hrv : t ≠ .riscv32) (hbe : t ≠ .bitslice .big) (k : KeySize) (n : Nat)
    (repr : AesDec t.Block k.rounds → Bytes n) (load : Bytes n → AesDec t.Block k.rounds) (hl : ∀ e, load (repr e) = e) :
    ∀ (key : Bytes k.bytes) (e : AesDec t.Block k.rounds), decFromOf t.Block k key = .ok e →
    ∀ (self : Nat) (work : List (List Chunk)) (m : Memory), readMem m self n = repr e → (∀ c ∈ work.flatten, c.w.size ≤ c.dst.len) →
      work.flatten.Pairwise Apart → (∀ c ∈ work.flatten, KeepsOff self n c) →
      (∀ schedule, keyInDec t k (load (readMem ((startShared t self n (fun b => decryptBytes (load b)) work m).exec schedule).memory self n)) = key) ∧
      ∀ trace s, WeakRun (startShared t self n (fun b => decryptBytes (load b)) work m) trace s →
        keyInDec t k (load (readMem s.memory self n)) = key := by
  intro key e he self work m hm hlen hap hoff
  obtain ⟨e', he', h⟩ := C67_shared_decrypter t hrv hbe k key
  cases he.symm.trans he'
  obtain ⟨h1, h2⟩ := h n repr load (hl e) self work m hm hlen hap hoff
  refine ⟨fun schedule => ?_, fun trace s hr => ?_⟩
  · have : readMem ((startShared t self n (fun b => decryptBytes (load b)) work m).exec schedule).memory self n = repr e := by
      rw [← hm]
      apply Vector.ext; intro i hi
      simp only [readMem, Vector.getElem_ofFn]
      exact h1.untouched _ _ fun c hc hw => hoff c hc _ hw ⟨by omega, by omega⟩
    rw [this, hl]; exact C70_decrypter_is_key t hrv k key e he
  · rw [(h2 trace s hr).2, hl]; exact C70_decrypter_is_key t hrv k key e he

/-! ### The hypotheses are met -/

example (t : Target) (k : KeySize) (e : AesEnc t.Block k.rounds) : keysLoad (keysRepr e) = e := keysLoad_repr e
example (t : Target) : ∃ e, encFromOf t.Block .k192 exKey192 = .ok e ∧ keyInEnc t .k192 e = exKey192 :=
  ⟨_, encFrom_conc .k192 exKey192, C70_encrypter_is_key t .k192 _ _ (encFrom_conc .k192 exKey192)⟩
end Aes
