import Verif.Proofs.SpecLemmas
import Verif.Proofs.KeySched
/-! FIPS-197 CIPHER and INVCIPHER: mutually inverse for every key schedule, and as loops over byte blocks. -/
namespace Fips197

/-- Section 5.1.1: the multiplicative inverse used by the specification is one. -/
theorem mul_inv : ∀ b : Byte, b ≠ 0 → mul b (inv b) = 1 := by decide +kernel
theorem inv_zero : inv 0 = 0 := by decide +kernel

theorem addRoundKey_cancel (k : Fin 4 → Word) (s : State) : addRoundKey k (addRoundKey k s) = s := by
  rw [addRoundKey_eq, addRoundKey_eq, add_self_cancel]

/-- INVMIXCOLUMNS moves through ADDROUNDKEY (section 5.3.5). -/
theorem invMixColumns_addRoundKey (k : Fin 4 → Word) (s : State) :
    invMixColumns (addRoundKey k s) = (invMixColumns s).add (invMixColumns (keyState k)) := by
  rw [addRoundKey_eq, invMixColumns_add]

theorem invCipherRounds_cipher (nr : Nat) (w : Nat → Word) (inp : Vector Byte 16) (k : Nat) (hk : k ≤ nr - 1) :
    invCipherRounds nr w (State.ofBytes (cipher nr w inp)) k =
      shiftRows (subBytes (cipherRounds w (State.ofBytes inp) (nr - 1 - k))) := by
  induction k with
  | zero => simp only [invCipherRounds, cipher, ofBytes_toBytes, addRoundKey_cancel, Nat.sub_zero]
  | succ k ih =>
    rw [invCipherRounds, ih (by omega), invShiftRows_shiftRows, invSubBytes_subBytes,
      show nr - 1 - k = (nr - 1 - (k + 1)) + 1 by omega, cipherRounds,
      show nr - 1 - (k + 1) + 1 = nr - (k + 1) by omega, addRoundKey_cancel, invMixColumns_mixColumns]

/-- INVCIPHER inverts CIPHER, for every key schedule and number of rounds. -/
theorem invCipher_cipher (nr : Nat) (w : Nat → Word) (inp : Vector Byte 16) :
    invCipher nr w (cipher nr w inp) = inp := by
  rw [invCipher, invCipherRounds_cipher nr w inp (nr - 1) (Nat.le_refl _), Nat.sub_self, cipherRounds]
  simp only [invShiftRows_shiftRows, invSubBytes_subBytes, addRoundKey_cancel, toBytes_ofBytes]

theorem cipherRounds_invCipher (nr : Nat) (w : Nat → Word) (inp : Vector Byte 16) (k : Nat) (hk : k ≤ nr - 1) :
    cipherRounds w (State.ofBytes (invCipher nr w inp)) k =
      invSubBytes (invShiftRows (invCipherRounds nr w (State.ofBytes inp) (nr - 1 - k))) := by
  induction k with
  | zero => simp only [cipherRounds, invCipher, ofBytes_toBytes, addRoundKey_cancel, Nat.sub_zero]
  | succ k ih =>
    rw [cipherRounds, ih (by omega), subBytes_invSubBytes, shiftRows_invShiftRows,
      show nr - 1 - k = (nr - 1 - (k + 1)) + 1 by omega, invCipherRounds,
      show nr - (nr - 1 - (k + 1) + 1) = k + 1 by omega, mixColumns_invMixColumns, addRoundKey_cancel]

/-- CIPHER inverts INVCIPHER, for every key schedule and number of rounds. -/
theorem cipher_invCipher (nr : Nat) (w : Nat → Word) (inp : Vector Byte 16) :
    cipher nr w (invCipher nr w inp) = inp := by
  rw [cipher, cipherRounds_invCipher nr w inp (nr - 1) (Nat.le_refl _), Nat.sub_self, invCipherRounds]
  simp only [subBytes_invSubBytes, shiftRows_invShiftRows, addRoundKey_cancel, toBytes_ofBytes]

end Fips197

namespace Aes
open AesSpec Fips197

theorem roundKey_eq (w : Nat → Word) (r : Nat) : roundKey w r = keyWords (roundKeyBytes w r) := by
  funext c; rw [keyWords_roundKeyBytes]; rfl

theorem toBytes_cipherRounds (w : Nat → Word) (inp : Bytes 16) (r : Nat) :
    State.toBytes (cipherRounds w (State.ofBytes inp) r) =
      ((List.range r).map fun i => roundKeyBytes w (i + 1)).foldl encRound (xorB inp (roundKeyBytes w 0)) := by
  induction r with
  | zero => rw [cipherRounds, roundKey_eq, toBytes_addRoundKey, toBytes_ofBytes]; rfl
  | succ r ih =>
    rw [List.range_succ, List.map_append, List.foldl_append, ← ih, cipherRounds, roundKey_eq]
    simp only [List.map_cons, List.map_nil, List.foldl_cons, List.foldl_nil, encRound, ofBytes_toBytes]

/-- CIPHER as the loop the crate runs. -/
theorem cipher_eq_foldl (nr : Nat) (w : Nat → Word) (inp : Bytes 16) :
    cipher nr w inp = encLastRound
      (((List.range (nr - 1)).map fun i => roundKeyBytes w (i + 1)).foldl encRound (xorB inp (roundKeyBytes w 0)))
      (roundKeyBytes w nr) := by
  rw [← toBytes_cipherRounds, cipher, encLastRound, roundKey_eq, ofBytes_toBytes]

theorem keyState_keyWords (k : Bytes 16) : keyState (keyWords k) = State.ofBytes k := by
  funext r c
  simp only [keyState, keyWords, State.ofBytes]
  congr 1; omega

theorem toBytes_invCipherRounds (nr : Nat) (w : Nat → Word) (inp : Bytes 16) (k : Nat) :
    State.toBytes (invCipherRounds nr w (State.ofBytes inp) k) =
      ((List.range k).map fun i => invMixCols (roundKeyBytes w (nr - (i + 1)))).foldl decRound
        (xorB inp (roundKeyBytes w nr)) := by
  induction k with
  | zero => rw [invCipherRounds, roundKey_eq, toBytes_addRoundKey, toBytes_ofBytes]; rfl
  | succ k ih =>
    rw [List.range_succ, List.map_append, List.foldl_append, ← ih, invCipherRounds, roundKey_eq]
    simp only [List.map_cons, List.map_nil, List.foldl_cons, List.foldl_nil]
    rw [decRound_eq, ofBytes_toBytes, invMixColumns_addRoundKey, toBytes_add, keyState_keyWords,
      invMixCols]

/-- INVCIPHER as the loop the crate runs (the equivalent inverse cipher, section 5.3.5). -/
theorem invCipher_eq_foldl (nr : Nat) (w : Nat → Word) (inp : Bytes 16) :
    invCipher nr w inp = decLastRound
      (((List.range (nr - 1)).map fun i => invMixCols (roundKeyBytes w (nr - (i + 1)))).foldl decRound
        (xorB inp (roundKeyBytes w nr)))
      (roundKeyBytes w 0) := by
  rw [← toBytes_invCipherRounds, invCipher, decLastRound, roundKey_eq, ofBytes_toBytes]

/-- The key schedule whose round keys are the given byte blocks. -/
def scheduleOf (rk : Nat → Bytes 16) : Nat → Word := fun i j => (rk (i / 4))[4 * (i % 4) + j.val]

theorem roundKeyBytes_scheduleOf (rk : Nat → Bytes 16) (r : Nat) : roundKeyBytes (scheduleOf rk) r = rk r := by
  apply Vector.ext; intro i hi
  rw [getElem_roundKeyBytes]
  simp only [scheduleOf]
  have h1 : (4 * r + i / 4) / 4 = r := by omega
  have h2 : 4 * ((4 * r + i / 4) % 4) + i % 4 = i := by omega
  simp only [h1, h2]

end Aes
