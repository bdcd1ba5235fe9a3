import Verif.Proofs.EndToEnd
import Verif.Proofs.Decide
/-!
C12-C15, C36, C37: the single-round operations of `AesBlock`.
Bytes go in through `From<[u8; 16]>` and come out through `From<AesBlock> for [u8; 16]`.
-/
namespace Aes
open Rust AesSpec Fips197 AesVec AesBlock

section
variable {B : Type} [AesBlock B] [LawfulVec B]
/-- A two-operand program on bytes, given what the operation does to bytes. -/
theorem bytes2 (op : B → B → B) (f : Bytes 16 → Bytes 16 → Bytes 16) (h : ∀ a k, view (op a k) = f (view a) (view k))
    (s k : Bytes 16) : (do
      let x : B ← from_bytes s
      let rk : B ← from_bytes k
      into_bytes (op x rk)) = .ok (f s k) := by
  rw [LawfulVec.from_bytes_eq, bind_ok, LawfulVec.from_bytes_eq, bind_ok, into_bytes_eq, h, LawfulVec.view_ofB,
    LawfulVec.view_ofB]
/-- A one-operand program on bytes. -/
theorem bytes1 (op : B → B) (f : Bytes 16 → Bytes 16) (h : ∀ a, view (op a) = f (view a)) (s : Bytes 16) : (do
      let x : B ← from_bytes s
      into_bytes (op x)) = .ok (f s) := by
  rw [LawfulVec.from_bytes_eq, bind_ok, into_bytes_eq, h, LawfulVec.view_ofB]
end

/-- C12: `x.enc(k)` is the FIPS-197 encryption round, on every target. -/
theorem C12_enc (t : Target) (s k : Bytes 16) :
    (do
      let x : t.Block ← from_bytes s
      let rk : t.Block ← from_bytes k
      into_bytes (enc x rk)) = .ok (encRound s k) := bytes2 _ _ LawfulEnc.view_enc s k
/-- C12: `x.enc_last(k)` is the final FIPS-197 encryption round, on every target. -/
theorem C12_enc_last (t : Target) (s k : Bytes 16) :
    (do
      let x : t.Block ← from_bytes s
      let rk : t.Block ← from_bytes k
      into_bytes (enc_last x rk)) = .ok (encLastRound s k) := bytes2 _ _ LawfulEnc.view_enc_last s k

/-- C13: `x.dec(k)` is the round of the FIPS-197 equivalent inverse cipher. -/
theorem C13_dec (t : Target) (hrv : t ≠ .riscv32) (s k : Bytes 16) :
    (do
      let x : t.Block ← from_bytes s
      let rk : t.Block ← from_bytes k
      into_bytes (dec x rk)) = .ok (decRound s k) :=
  have := t.lawfulDec hrv
  bytes2 _ _ LawfulDec.view_dec s k
/-- C13: `x.dec_last(k)` is the final round of the FIPS-197 equivalent inverse cipher. -/
theorem C13_dec_last (t : Target) (hrv : t ≠ .riscv32) (s k : Bytes 16) :
    (do
      let x : t.Block ← from_bytes s
      let rk : t.Block ← from_bytes k
      into_bytes (dec_last x rk)) = .ok (decLastRound s k) :=
  have := t.lawfulDec hrv
  bytes2 _ _ LawfulDec.view_dec_last s k

/-- C14: `x.mc()` is MIXCOLUMNS. -/
theorem C14_mc (t : Target) (hrv : t ≠ .riscv32) (s : Bytes 16) :
    (do
      let x : t.Block ← from_bytes s
      into_bytes (mc x)) = .ok (mixCols s) :=
  have := t.lawfulDec hrv
  bytes1 _ _ LawfulDec.view_mc s
/-- C14: `x.imc()` is INVMIXCOLUMNS. -/
theorem C14_imc (t : Target) (hrv : t ≠ .riscv32) (s : Bytes 16) :
    (do
      let x : t.Block ← from_bytes s
      into_bytes (imc x)) = .ok (invMixCols s) :=
  have := t.lawfulDec hrv
  bytes1 _ _ LawfulDec.view_imc s
/-- C14: `mc` and `imc` undo each other. -/
theorem C14_inverse (t : Target) (hrv : t ≠ .riscv32) (x : t.Block) : imc (mc x) = x ∧ mc (imc x) = x :=
  have := t.lawfulDec hrv
  ⟨imc_mc x, mc_imc x⟩

/-- MIXCOLUMNS twice: `({03}x³ + x² + x + {02})² = {04}x² + {05}` modulo `x⁴ + 1`. -/
theorem mixColumns_twice (s : State) : mixColumns (mixColumns s) = fun r c =>
    xtimes (xtimes (s r c)) ^^^ s r c ^^^ xtimes (xtimes (s (r + 2) c)) := by
  funext r c
  obtain ⟨h1, h2, h3, h4, h5, h6, h7, h8, h9⟩ := fin4_add r
  simp only [mixColumns, h1, h2, h3, h4, h5, h6, h7, h8, h9, mul_02, mul_03, xtimes_xor]
  generalize s r c = a; generalize s (r + 1) c = b; generalize s (r + 2) c = d; generalize s (r + 3) c = e
  generalize ha : xtimes a = a1; generalize xtimes a1 = a2
  generalize hb : xtimes b = b1; generalize xtimes b1 = b2
  generalize hd : xtimes d = d1; generalize xtimes d1 = d2
  generalize he : xtimes e = e1; generalize xtimes e1 = e2
  clear ha hb hd he
  xor_norm
theorem mixColumns_four (s : State) : mixColumns (mixColumns (mixColumns (mixColumns s))) = s := by
  rw [mixColumns_twice, mixColumns_twice]
  funext r c
  simp only [(fin4_add r).2.2.2.2.1, xtimes_xor]
  generalize s r c = a; generalize s (r + 2) c = d
  generalize ha : xtimes a = a1; generalize xtimes a1 = a2; generalize xtimes a2 = a3; generalize xtimes a3 = a4
  generalize hd : xtimes d = d1; generalize xtimes d1 = d2; generalize xtimes d2 = d3; generalize xtimes d3 = d4
  clear ha hd
  xor_norm
/-- C14: four times `mc` is the identity, so `imc` is three times `mc` and `mc` three times `imc`. -/
theorem C14_order (t : Target) (hrv : t ≠ .riscv32) (x : t.Block) :
    mc (mc (mc (mc x))) = x ∧ imc x = mc (mc (mc x)) ∧ mc x = imc (imc (imc x)) := by
  have := t.lawfulDec hrv
  have four (x : t.Block) : mc (mc (mc (mc x))) = x := by
    apply view_inj
    simp only [LawfulDec.view_mc, mixCols, ofBytes_toBytes, mixColumns_four, toBytes_ofBytes]
  have one (x : t.Block) : imc (mc x) = x := imc_mc x
  refine ⟨four x, ?_, ?_⟩
  · conv => lhs; rw [← four x]
    exact one _
  · have h := four x
    have h := congrArg (fun y => imc (imc (imc y))) h
    simpa only [one] using h

/-! ### Laws between API calls, on values of any origin -/
section laws
variable (t : Target) (hrv : t ≠ .riscv32)
include hrv

/-- C15: each single round is undone by public operations. -/
theorem C15_undo_enc (x k : t.Block) : dec_last (imc (bitxor (enc x k) k)) zero = x := by
  have := t.lawfulDec hrv
  apply view_inj
  simp only [LawfulDec.view_dec_last, LawfulDec.view_imc, LawfulVec.view_xor, LawfulEnc.view_enc, LawfulVec.view_zero,
    decLastRound_eq, encRound_eq, xorB_cancel, xorB_zero, invMixCols, ofBytes_toBytes, invMixColumns_mixColumns,
    invShiftRows_shiftRows, invSubBytes_subBytes, toBytes_ofBytes]
/-- C15 for `enc_last`. -/
theorem C15_undo_enc_last (x k : t.Block) : dec_last (bitxor (enc_last x k) k) zero = x := by
  have := t.lawfulDec hrv
  apply view_inj
  simp only [LawfulDec.view_dec_last, LawfulVec.view_xor, LawfulEnc.view_enc_last, LawfulVec.view_zero,
    decLastRound_eq, encLastRound_eq, xorB_cancel, xorB_zero, ofBytes_toBytes,
    invShiftRows_shiftRows, invSubBytes_subBytes, toBytes_ofBytes]
/-- C15 for `dec`. -/
theorem C15_undo_dec (x k : t.Block) : enc_last (mc (bitxor (dec x k) k)) zero = x := by
  have := t.lawfulDec hrv
  apply view_inj
  simp only [LawfulDec.view_dec, LawfulDec.view_mc, LawfulVec.view_xor, LawfulEnc.view_enc_last, LawfulVec.view_zero,
    decRound_eq, encLastRound_eq, xorB_cancel, xorB_zero, mixCols, ofBytes_toBytes, mixColumns_invMixColumns,
    shiftRows_invShiftRows, subBytes_invSubBytes, toBytes_ofBytes]
/-- C15 for `dec_last`. -/
theorem C15_undo_dec_last (x k : t.Block) : enc_last (bitxor (dec_last x k) k) zero = x := by
  have := t.lawfulDec hrv
  apply view_inj
  simp only [LawfulDec.view_dec_last, LawfulVec.view_xor, LawfulEnc.view_enc_last, LawfulVec.view_zero,
    decLastRound_eq, encLastRound_eq, xorB_cancel, xorB_zero, ofBytes_toBytes,
    shiftRows_invShiftRows, subBytes_invSubBytes, toBytes_ofBytes]

omit hrv in
theorem rv32_mc_linear (a b : Riscv32.Block) : Riscv32.mc (bitxor a b) = bitxor (Riscv32.mc a) (Riscv32.mc b) := by
  apply view_inj
  simp only [LawfulVec.view_xor, Riscv32.view_mc, rv32Mc, ofBytes_xorB, shiftRows_add, mixColumns_add, toBytes_add]
omit hrv in
theorem rv32_imc_linear (a b : Riscv32.Block) : Riscv32.imc (bitxor a b) = bitxor (Riscv32.imc a) (Riscv32.imc b) := by
  apply view_inj
  simp only [LawfulVec.view_xor, Riscv32.view_imc, rv32Imc, ofBytes_xorB, shiftRows_add, invMixColumns_add, toBytes_add]
omit hrv in
/-- C36: `mc` is linear over `^`, on every target (RISC-V-32 included, although `mc` is not MIXCOLUMNS there). -/
theorem C36_mc_linear (a b : t.Block) : mc (bitxor a b) = bitxor (mc a) (mc b) := by
  by_cases hrv : t = .riscv32
  · subst hrv; exact rv32_mc_linear a b
  have := t.lawfulDec hrv
  apply view_inj
  simp only [LawfulDec.view_mc, LawfulVec.view_xor, mixCols, ofBytes_xorB, mixColumns_add, toBytes_add]
omit hrv in
/-- C36: `imc` is linear over `^`, on every target. -/
theorem C36_imc_linear (a b : t.Block) : imc (bitxor a b) = bitxor (imc a) (imc b) := by
  by_cases hrv : t = .riscv32
  · subst hrv; exact rv32_imc_linear a b
  have := t.lawfulDec hrv
  apply view_inj
  simp only [LawfulDec.view_imc, LawfulVec.view_xor, invMixCols, ofBytes_xorB, invMixColumns_add, toBytes_add]
omit hrv in
theorem xor_self (a : t.Block) : bitxor a a = (zero : t.Block) := by
  apply view_inj; rw [LawfulVec.view_xor, xorB_self, LawfulVec.view_zero]
omit hrv in
/-- C36: `mc` and `imc` fix zero, on every target. -/
theorem C36_zero : mc (zero : t.Block) = zero ∧ imc (zero : t.Block) = zero := by
  constructor
  · rw [← xor_self t zero, C36_mc_linear t, xor_self, xor_self]
  · rw [← xor_self t zero, C36_imc_linear t, xor_self, xor_self]

/-- C37: INVMIXCOLUMNS moves through the decryption round, as the equivalent inverse cipher needs. -/
theorem C37_dec_imc (x k : t.Block) : dec x (imc k) = imc (dec_last x k) := by
  have := t.lawfulDec hrv
  apply view_inj
  simp only [LawfulDec.view_dec, LawfulDec.view_imc, LawfulDec.view_dec_last, decRound_eq, decLastRound_eq, invMixCols,
    ofBytes_xorB, invMixColumns_add, toBytes_add, ofBytes_toBytes]
/-- C37: MIXCOLUMNS moves through the encryption round. -/
theorem C37_enc_mc (x k : t.Block) : enc x (mc k) = mc (enc_last x k) := by
  have := t.lawfulDec hrv
  apply view_inj
  simp only [LawfulEnc.view_enc, LawfulDec.view_mc, LawfulEnc.view_enc_last, encRound_eq, encLastRound_eq, mixCols,
    ofBytes_xorB, mixColumns_add, toBytes_add, ofBytes_toBytes]
/-- C37: one decryption round with the transformed key is `dec_last` followed by `imc`, so a whole
straightforward inverse round of FIPS-197 section 5.3 can be written with `dec_last` and `imc`. -/
theorem C37_enc_dec (x k : t.Block) : dec (enc x k) (imc k) = bitxor (imc (dec_last (enc x k) zero)) (imc k) := by
  have := t.lawfulDec hrv
  rw [C37_dec_imc t hrv, ← C36_imc_linear t]
  refine congrArg imc (view_inj ?_)
  simp only [LawfulDec.view_dec_last, LawfulVec.view_xor, decLastRound_eq, LawfulVec.view_zero, xorB_zero]

end laws

/-! ### Concrete instances -/

/-- The state, round key and result of `aesenc_test` (src/tests.rs:16-25). -/
def exState : Bytes 16 := #v[0x00, 0x01, 0x02, 0x03, 0x04, 0x05, 0x06, 0x07, 0x08, 0x09, 0x0a, 0x0b, 0x0c, 0x0d, 0x0e, 0x0f]
/-- Its round key. -/
def exRk : Bytes 16 := #v[0x10, 0x11, 0x12, 0x13, 0x14, 0x15, 0x16, 0x17, 0x18, 0x19, 0x1a, 0x1b, 0x1c, 0x1d, 0x1e, 0x1f]
/-- Its result. -/
def exEnc : Bytes 16 := #v[0x7a, 0x7b, 0x4e, 0x56, 0x38, 0x78, 0x25, 0x46, 0xa8, 0xc0, 0x47, 0x7a, 0x3b, 0x81, 0x3f, 0x43]

/-- The specification gives the value the repository's test expects. -/
theorem encRound_ex : encRound exState exRk = exEnc := by decide +kernel

/-- `aesenc_test`, on every target. -/
example (t : Target) : (do
      let x : t.Block ← from_bytes exState
      let rk : t.Block ← from_bytes exRk
      into_bytes (enc x rk)) = .ok exEnc := by rw [C12_enc, encRound_ex]

example : Target.x86 ≠ .riscv32 ∧ Target.bitslice .big ≠ .riscv32 := by decide
/-- The specifications of the rounds are different functions, and move this state. -/
example : encRound exState exRk ≠ encLastRound exState exRk ∧ decRound exState exRk ≠ encRound exState exRk ∧
    decRound exState exRk ≠ decLastRound exState exRk ∧
    mixCols exState ≠ exState ∧ mixCols exState ≠ invMixCols exState := by
  decide +kernel

end Aes
