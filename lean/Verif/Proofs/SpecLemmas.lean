import Verif.Proofs.Lawful
/-! Facts about the byte-level specification. -/
namespace AesSpec
open Fips197

theorem getElem_xorB {n} (a b : Bytes n) (i : Nat) (h : i < n) : (xorB a b)[i] = a[i] ^^^ b[i] := by
  simp [xorB]

theorem toBytes_addRoundKey (s : State) (k : Bytes 16) :
    State.toBytes (addRoundKey (keyWords k) s) = xorB (State.toBytes s) k := by
  apply Vector.ext; intro i hi
  simp only [getElem_xorB, State.toBytes, addRoundKey, Vector.getElem_ofFn, keyWords]
  congr 2; omega

theorem ofBytes_xorB (a b : Bytes 16) : State.ofBytes (xorB a b) = (State.ofBytes a).add (State.ofBytes b) := by
  funext r c; simp [State.ofBytes, State.add, getElem_xorB]
theorem toBytes_add (a b : State) : State.toBytes (a.add b) = xorB (State.toBytes a) (State.toBytes b) := by
  apply Vector.ext; intro i hi; simp [State.toBytes, State.add, getElem_xorB]

theorem xorB_zero {n} (a : Bytes n) : xorB a (zeroB n) = a := by
  apply Vector.ext; intro i hi; simp [getElem_xorB, zeroB]
theorem zero_xorB {n} (a : Bytes n) : xorB (zeroB n) a = a := by
  apply Vector.ext; intro i hi; simp [getElem_xorB, zeroB]
theorem xorB_self {n} (a : Bytes n) : xorB a a = zeroB n := by
  apply Vector.ext; intro i hi; simp [getElem_xorB, zeroB]
theorem xorB_comm {n} (a b : Bytes n) : xorB a b = xorB b a := by
  apply Vector.ext; intro i hi; simp [getElem_xorB, BitVec.xor_comm]
theorem xorB_assoc {n} (a b c : Bytes n) : xorB (xorB a b) c = xorB a (xorB b c) := by
  apply Vector.ext; intro i hi; simp [getElem_xorB, BitVec.xor_assoc]
theorem xorB_cancel {n} (a b : Bytes n) : xorB (xorB a b) b = a := by
  rw [xorB_assoc, xorB_self, xorB_zero]

theorem xorB_eq_zero {n} (a b : Bytes n) : xorB a b = zeroB n ↔ a = b := by
  constructor
  · intro h
    rw [← xorB_cancel a b, h, zero_xorB]
  · rintro rfl; exact xorB_self a

theorem encRound_eq (s k : Bytes 16) : encRound s k =
    xorB (State.toBytes (mixColumns (shiftRows (subBytes (State.ofBytes s))))) k := toBytes_addRoundKey _ _
theorem encLastRound_eq (s k : Bytes 16) : encLastRound s k =
    xorB (State.toBytes (shiftRows (subBytes (State.ofBytes s)))) k := toBytes_addRoundKey _ _
theorem decRound_eq (s k : Bytes 16) : decRound s k =
    xorB (State.toBytes (invMixColumns (invSubBytes (invShiftRows (State.ofBytes s))))) k := toBytes_addRoundKey _ _
theorem decLastRound_eq (s k : Bytes 16) : decLastRound s k =
    xorB (State.toBytes (invSubBytes (invShiftRows (State.ofBytes s)))) k := toBytes_addRoundKey _ _

end AesSpec
