import Verif.Spec.Modes
import Verif.Properties.Bulk
import Verif.Properties.Permutation
/-!
C72: modes of operation built from the public API. CBC decryption and counter mode are what the functions on two and four blocks are for; whatever widths a
program uses, it computes the mode of the standard, and what one machine encrypts every other decrypts.
-/
namespace Aes
open Rust AesSpec Fips197 AesVec AesBlock Target Client

/-! ### The programs -/

/-- Encrypt in CBC mode under an encrypter: a client that combines each block with the ciphertext before it, one block at a time. -/
def cbcEncryptWith {t : Target} {nr : Nat} (e : AesEnc t.Block nr) (previous : Bytes 16) : List (Bytes 16) → M (List U8)
  | [] => pure []
  | b :: bs => do
    let x : t.Block ← from_bytes b
    let v : t.Block ← from_bytes previous
    let c ← into_bytes (← e.encrypt_block (bitxor x v))
    let rest ← cbcEncryptWith e c bs
    pure (c.toList ++ rest)
/-- The 16 bytes before a piece, then the piece without its last 16 bytes. -/
def shifted {n : Nat} (previous : Bytes 16) (b : Bytes n) : Bytes n :=
  Vector.ofFn fun i => if h : i.val < 16 then previous[i.val] else b[i.val - 16]
/-- Decrypt in CBC mode under a decrypter: pieces of one, two or four blocks are decrypted at once and combined at once. -/
def cbcDecryptWith {t : Target} {nr : Nat} (d : AesDec t.Block nr) (previous : Bytes 16) : List Piece → M (List U8)
  | [] => pure []
  | p :: ps => do
    let x : t.Vec p.w ← from_bytes p.bytes
    let v : t.Vec p.w ← from_bytes (shifted previous p.bytes)
    let out ← into_bytes (bitxor (← decryptOf t d p.w x) v)
    let rest ← cbcDecryptWith d (part p.bytes (p.w.size - 16) 16) ps
    pure (out.toList ++ rest)
/-- The counters of a piece, one behind the other. -/
def counters {n : Nat} (counter : Nat → Bytes 16) (i : Nat) : Bytes n := Vector.ofFn fun j => (counter (i + j.val / 16))[j.val % 16]
/-- Encrypt or decrypt in counter mode under an encrypter, in pieces of one, two or four blocks. -/
def ctrWith {t : Target} {nr : Nat} (e : AesEnc t.Block nr) (counter : Nat → Bytes 16) (i : Nat) : List Piece → M (List U8)
  | [] => pure []
  | p :: ps => do
    let x : t.Vec p.w ← from_bytes p.bytes
    let v : t.Vec p.w ← from_bytes (counters counter i)
    let out ← into_bytes (bitxor x (← encryptOf t e p.w v))
    let rest ← ctrWith e counter (i + p.w.size / 16) ps
    pure (out.toList ++ rest)

/-- The whole programs, from the key. -/
def cbcEncryptMessage (t : Target) (k : KeySize) (key : Bytes k.bytes) (iv : Bytes 16) (blocks : List (Bytes 16)) : M (List U8) := do
  let e ← encFromOf t.Block k key
  cbcEncryptWith e iv blocks
def cbcDecryptMessage (t : Target) (k : KeySize) (key : Bytes k.bytes) (iv : Bytes 16) (pieces : List Piece) : M (List U8) := do
  let d ← decFromOf t.Block k key
  cbcDecryptWith d iv pieces
def ctrMessage (t : Target) (k : KeySize) (key : Bytes k.bytes) (counter : Nat → Bytes 16) (pieces : List Piece) : M (List U8) := do
  let e ← encFromOf t.Block k key
  ctrWith e counter 0 pieces

namespace Modes
open _root_.Modes

theorem cbc_inverse {f g : Bytes 16 → Bytes 16} (h : ∀ b, g (f b) = b) : ∀ (v : Bytes 16) (l : List (Bytes 16)),
    cbcDecrypt g v (cbcEncrypt f v l) = l
  | _, [] => rfl
  | v, b :: l => by rw [cbcEncrypt, cbcDecrypt, h, xorB_cancel, cbc_inverse h]
theorem ctr_inverse (f : Bytes 16 → Bytes 16) (counter : Nat → Bytes 16) : ∀ (i : Nat) (l : List (Bytes 16)),
    ctr f counter i (ctr f counter i l) = l
  | _, [] => rfl
  | i, b :: l => by rw [ctr, ctr, xorB_cancel, ctr_inverse]
theorem cbcDecrypt_append (g : Bytes 16 → Bytes 16) : ∀ (l l' : List (Bytes 16)) (v : Bytes 16) ,
    cbcDecrypt g v (l ++ l') = cbcDecrypt g v l ++ cbcDecrypt g (l.getLastD v) l'
  | [], _, _ => rfl
  | [c], _, _ => rfl
  | c :: c' :: l, l', v => by
    rw [List.cons_append, cbcDecrypt, cbcDecrypt_append g (c' :: l) l' c, cbcDecrypt, List.cons_append]; rfl
theorem ctr_append (f : Bytes 16 → Bytes 16) (counter : Nat → Bytes 16) : ∀ (l l' : List (Bytes 16)) (i : Nat),
    ctr f counter i (l ++ l') = ctr f counter i l ++ ctr f counter (i + l.length) l'
  | [], _, _ => rfl
  | b :: l, l', i => by
    rw [List.cons_append, ctr, ctr_append, ctr, List.cons_append, List.length_cons, Nat.add_right_comm, Nat.add_assoc]

theorem getElem_xorB {n : Nat} (a b : Bytes n) (i : Nat) (h : i < n) : (xorB a b)[i] = a[i] ^^^ b[i] := by simp [xorB]
theorem getElem_part (p : Piece) (i j : Nat) (h : 16 * i + j < p.w.size) (hj : j < 16) : (part p.bytes (16 * i) 16)[j] = p.bytes[16 * i + j] := by
  simp only [part, Vector.getElem_ofFn]
  rw [List.getD_eq_getElem?_getD, List.getElem?_eq_getElem (by simp; omega), Option.getD_some, Vector.getElem_toList]

/-- The numbers of the blocks of a piece. -/
theorem range_w (w : Width) : List.range (w.size / 16) = match w with
    | .x1 => [0]
    | .x2 => [0, 1]
    | .x4 => [0, 1, 2, 3] := by cases w <;> rfl
/-- What a piece of CBC gives, as a list of blocks. -/
theorem cbc_piece (g : Bytes 16 → Bytes 16) (v : Bytes 16) (p : Piece) :
    (xorB (eachBlock g p.bytes) (shifted v p.bytes)).toList = flat (cbcDecrypt g v p.blocks) := by
  have h : xorB (eachBlock g p.bytes) (shifted v p.bytes) = Vector.ofFn fun i : Fin p.w.size =>
      ((fun j => xorB (g (part p.bytes (16 * j) 16)) (if j = 0 then v else part p.bytes (16 * (j - 1)) 16)) (i.val / 16))[i.val % 16] := by
    apply Vector.ext
    intro i hi
    rw [getElem_xorB]
    simp only [Vector.getElem_ofFn, getElem_xorB, eachBlock, shifted]
    rw [Nat.mul_comm (i / 16) 16]
    refine congrArg _ ?_
    by_cases h : i < 16
    · have h0 : i / 16 = 0 := by omega
      have h1 : i % 16 = i := by omega
      simp only [h, h0, h1, dif_pos, if_pos]
    · have h0 : i / 16 ≠ 0 := by omega
      simp only [h, h0, dif_neg, if_neg, not_false_eq_true]
      have h2 : 16 * (i / 16 - 1) + i % 16 = i - 16 := by omega
      have h3 := getElem_part p (i / 16 - 1) (i % 16) (by omega) (by omega)
      simp only [h2] at h3
      exact h3.symm
  rw [h, toList_ofFn16 (size_eq p.w) (fun j => xorB (g (part p.bytes (16 * j) 16)) (if j = 0 then v else part p.bytes (16 * (j - 1)) 16))]
  refine congrArg flat ?_
  obtain ⟨w, b⟩ := p
  unfold Piece.blocks
  rw [range_w]
  cases w <;> simp [cbcDecrypt]
theorem cbc_last (v : Bytes 16) (p : Piece) : p.blocks.getLastD v = part p.bytes (p.w.size - 16) 16 := by
  obtain ⟨w, b⟩ := p
  unfold Piece.blocks
  rw [range_w]
  cases w <;> simp [Width.size]
/-- What a piece of counter mode gives. -/
theorem ctr_piece (f : Bytes 16 → Bytes 16) (counter : Nat → Bytes 16) (i : Nat) (p : Piece) :
    (xorB p.bytes (eachBlock f (counters counter i))).toList = flat (ctr f counter i p.blocks) := by
  have hc : ∀ j, j < p.w.size / 16 → part (counters counter i : Bytes p.w.size) (j * 16) 16 = counter (i + j) := by
    intro j hj
    apply Vector.ext
    intro m hm
    have hs := size_eq p.w
    simp only [part, Vector.getElem_ofFn]
    rw [List.getD_eq_getElem?_getD, List.getElem?_eq_getElem (by simp; omega), Option.getD_some, Vector.getElem_toList]
    simp only [counters, Vector.getElem_ofFn]
    have h1 : (j * 16 + m) / 16 = j := by omega
    have h2 : (j * 16 + m) % 16 = m := by omega
    simp only [h1, h2]
  have h : xorB p.bytes (eachBlock f (counters counter i)) = Vector.ofFn fun m : Fin p.w.size =>
      ((fun j => xorB (part p.bytes (16 * j) 16) (f (counter (i + j)))) (m.val / 16))[m.val % 16] := by
    apply Vector.ext
    intro m hm
    have hs := size_eq p.w
    rw [getElem_xorB]
    simp only [Vector.getElem_ofFn, getElem_xorB, eachBlock]
    rw [hc _ (by omega)]
    have h2 : 16 * (m / 16) + m % 16 = m := by omega
    have h3 := getElem_part p (m / 16) (m % 16) (by omega) (by omega)
    simp only [h2] at h3
    rw [h3]
  rw [h, toList_ofFn16 (size_eq p.w) (fun j => xorB (part p.bytes (16 * j) 16) (f (counter (i + j))))]
  refine congrArg flat ?_
  obtain ⟨w, b⟩ := p
  unfold Piece.blocks
  rw [range_w]
  cases w <;> simp [ctr, Nat.add_assoc]
theorem blocks_length (p : Piece) : p.blocks.length = p.w.size / 16 := by simp [Piece.blocks]

variable {t : Target} {nr : Nat}
theorem cbcEncryptWith_eq (e : AesEnc t.Block nr) (f : Bytes 16 → Bytes 16) (h : ∀ p, e.encrypt_block p = .ok (ofB (f (view p)))) :
    ∀ (v : Bytes 16) (l : List (Bytes 16)), cbcEncryptWith e v l = .ok (flat (cbcEncrypt f v l))
  | _, [] => rfl
  | v, b :: l => by
    rw [cbcEncryptWith, LawfulVec.from_bytes_eq, bind_ok, LawfulVec.from_bytes_eq, bind_ok, h, bind_ok, LawfulVec.view_xor, LawfulVec.view_ofB,
      LawfulVec.view_ofB]
    refine (congrArg (fun m : M (Bytes 16) => m >>= fun c => cbcEncryptWith e c l >>= fun rest => pure (c.toList ++ rest))
      (into_bytes_ofB (t := t) .x1 (f (xorB b v)))).trans ?_
    show (cbcEncryptWith e (f (xorB b v)) l >>= fun rest => pure ((f (xorB b v)).toList ++ rest)) = _
    rw [cbcEncryptWith_eq e f h, bind_ok]; rfl
theorem cbcDecryptWith_eq (d : AesDec t.Block nr) (g : Bytes 16 → Bytes 16) (h : ∀ p, d.decrypt_block p = .ok (ofB (g (view p)))) :
    ∀ (v : Bytes 16) (l : List Piece), cbcDecryptWith d v l = .ok (flat (cbcDecrypt g v (l.flatMap Piece.blocks)))
  | _, [] => rfl
  | v, p :: l => by
    rw [cbcDecryptWith, LawfulVec.from_bytes_eq, bind_ok, LawfulVec.from_bytes_eq, bind_ok, decrypt_w t d g h, bind_ok, into_bytes_eq, bind_ok,
      cbcDecryptWith_eq d g h, bind_ok, LawfulVec.view_xor, LawfulVec.view_ofB, LawfulVec.view_ofB, LawfulVec.view_ofB, cbc_piece, List.flatMap_cons,
      cbcDecrypt_append, flat_append, cbc_last, pure_ok]
theorem ctrWith_eq (e : AesEnc t.Block nr) (f : Bytes 16 → Bytes 16) (h : ∀ p, e.encrypt_block p = .ok (ofB (f (view p)))) (counter : Nat → Bytes 16) :
    ∀ (i : Nat) (l : List Piece), ctrWith e counter i l = .ok (flat (ctr f counter i (l.flatMap Piece.blocks)))
  | _, [] => rfl
  | i, p :: l => by
    rw [ctrWith, LawfulVec.from_bytes_eq, bind_ok, LawfulVec.from_bytes_eq, bind_ok, encrypt_w t e f h, bind_ok, into_bytes_eq, bind_ok,
      ctrWith_eq e f h counter, bind_ok, LawfulVec.view_xor, LawfulVec.view_ofB, LawfulVec.view_ofB, LawfulVec.view_ofB, ctr_piece, List.flatMap_cons,
      ctr_append, flat_append, blocks_length, pure_ok]
end Modes

/-! ### CBC -/

/-- C72: encrypting a message of any length in CBC mode block by block gives what the standard says. -/
theorem C72_cbc_encrypt (t : Target) (hrv : t ≠ .riscv32) (hbe : t ≠ .bitslice .big) (k : KeySize) (key : Bytes k.bytes) (iv : Bytes 16)
    (blocks : List (Bytes 16)) :
    cbcEncryptMessage t k key iv blocks = .ok (flat (_root_.Modes.cbcEncrypt (aesOf k key) iv blocks)) := by
  have := t.lawfulPre hrv
  unfold cbcEncryptMessage
  rw [encFrom_conc, bind_ok, Modes.cbcEncryptWith_eq _ _ (encrypt_rkVec (rounds_pos k) _), (cipher_aesOf t hrv hbe k key).1]
/-- C72: decrypting one, in pieces of one, two and four blocks cut in any way, gives what the standard says. -/
theorem C72_cbc_decrypt (t : Target) (hrv : t ≠ .riscv32) (hbe : t ≠ .bitslice .big) (k : KeySize) (key : Bytes k.bytes) (iv : Bytes 16)
    (blocks : List (Bytes 16)) (pieces : List Piece) (h : message pieces = flat blocks) :
    cbcDecryptMessage t k key iv pieces = .ok (flat (_root_.Modes.cbcDecrypt (aesInvOf k key) iv blocks)) := by
  have := t.lawfulPre hrv
  have := t.lawfulDec hrv
  unfold cbcDecryptMessage
  rw [decFrom_conc, bind_ok, Modes.cbcDecryptWith_eq _ _ (decrypt_rkVec (rounds_pos k) _), (cipher_aesOf t hrv hbe k key).2,
    flat_inj ((message_eq pieces).symm.trans h)]
/-- C72: what one machine encrypts in CBC mode, every other decrypts, whatever pieces it uses. -/
theorem C72_cbc_interop (t t' : Target) (hrv : t ≠ .riscv32) (hbe : t ≠ .bitslice .big) (hrv' : t' ≠ .riscv32) (hbe' : t' ≠ .bitslice .big)
    (k : KeySize) (key : Bytes k.bytes) (iv : Bytes 16) (blocks : List (Bytes 16)) (ct : List U8)
    (hct : cbcEncryptMessage t k key iv blocks = .ok ct) (pieces : List Piece) (h : message pieces = ct) :
    cbcDecryptMessage t' k key iv pieces = .ok (flat blocks) := by
  rw [C72_cbc_encrypt t hrv hbe] at hct
  rw [C72_cbc_decrypt t' hrv' hbe' k key iv _ pieces (h.trans (Except.ok.inj hct).symm), Modes.cbc_inverse]
  intro b
  cases k <;> exact invCipher_cipher ..
/-- C72: and on every target but RISC-V-32 (big-endian bit-slicing included) an encrypter and its decrypter, whatever their history, invert each other. -/
theorem C72_cbc_self (t : Target) (hrv : t ≠ .riscv32) {nr : Nat} (hnr : 0 < nr) (e : AesEnc t.Block nr) (d : AesDec t.Block nr)
    (hd : e.decrypter = .ok d) (iv : Bytes 16) (blocks : List (Bytes 16)) (ct : List U8) (hct : cbcEncryptWith e iv blocks = .ok ct)
    (pieces : List Piece) (h : message pieces = ct) : cbcDecryptWith d iv pieces = .ok (flat blocks) := by
  have := t.lawfulPre hrv
  have := t.lawfulDec hrv
  have h0 := fun p => C05_decrypt_encrypt t hrv hnr e p
  obtain ⟨he, -, -⟩ := C31_encrypt_every_target t hnr e
  obtain ⟨hdd, -, -⟩ := C31_decrypt_every_target t hnr d
  have hf : ∀ p, e.encrypt_block p = .ok (ofB (view (he (ofB (view p))).choose)) := fun p => by
    rw [LawfulVec.ofB_view, LawfulVec.ofB_view]; exact (he p).choose_spec
  have hg : ∀ p, d.decrypt_block p = .ok (ofB (view (hdd (ofB (view p))).choose)) := fun p => by
    rw [LawfulVec.ofB_view, LawfulVec.ofB_view]; exact (hdd p).choose_spec
  rw [Modes.cbcEncryptWith_eq e (fun b => view (he (ofB b)).choose) hf] at hct
  rw [Modes.cbcDecryptWith_eq d (fun b => view (hdd (ofB b)).choose) hg, flat_inj ((message_eq pieces).symm.trans (h.trans (Except.ok.inj hct).symm)),
    Modes.cbc_inverse]
  intro b
  have h1 := h0 (ofB b)
  rw [hd, bind_ok, hf, bind_ok, hg, LawfulVec.view_ofB, LawfulVec.view_ofB] at h1
  have h2 := congrArg (fun m : t.Block => view m) (Except.ok.inj h1)
  simpa only [LawfulVec.view_ofB] using h2

/-! ### Counter mode -/

/-- C72: counter mode in pieces of one, two and four blocks, cut in any way, is what the standard says. -/
theorem C72_ctr (t : Target) (hrv : t ≠ .riscv32) (hbe : t ≠ .bitslice .big) (k : KeySize) (key : Bytes k.bytes) (counter : Nat → Bytes 16)
    (blocks : List (Bytes 16)) (pieces : List Piece) (h : message pieces = flat blocks) :
    ctrMessage t k key counter pieces = .ok (flat (_root_.Modes.ctr (aesOf k key) counter 0 blocks)) := by
  have := t.lawfulPre hrv
  unfold ctrMessage
  rw [encFrom_conc, bind_ok, Modes.ctrWith_eq _ _ (encrypt_rkVec (rounds_pos k) _), (cipher_aesOf t hrv hbe k key).1,
    flat_inj ((message_eq pieces).symm.trans h)]
/-- C72: what one machine encrypts in counter mode, every other decrypts, whatever pieces either uses. -/
theorem C72_ctr_interop (t t' : Target) (hrv : t ≠ .riscv32) (hbe : t ≠ .bitslice .big) (hrv' : t' ≠ .riscv32) (hbe' : t' ≠ .bitslice .big)
    (k : KeySize) (key : Bytes k.bytes) (counter : Nat → Bytes 16) (pieces : List Piece) (ct : List U8)
    (hct : ctrMessage t k key counter pieces = .ok ct) (pieces' : List Piece) (h : message pieces' = ct) :
    ctrMessage t' k key counter pieces' = .ok (message pieces) := by
  rw [C72_ctr t hrv hbe k key counter _ pieces (message_eq pieces)] at hct
  rw [C72_ctr t' hrv' hbe' k key counter _ pieces' (h.trans (Except.ok.inj hct).symm), Modes.ctr_inverse, message_eq]
/-- C72: on every target without exception an encrypter, whatever its history, undoes its own counter mode. -/
theorem C72_ctr_self (t : Target) {nr : Nat} (hnr : 0 < nr) (e : AesEnc t.Block nr) (counter : Nat → Bytes 16) (i : Nat) (pieces : List Piece)
    (ct : List U8) (hct : ctrWith e counter i pieces = .ok ct) (pieces' : List Piece) (h : message pieces' = ct) :
    ctrWith e counter i pieces' = .ok (message pieces) := by
  obtain ⟨he, -, -⟩ := C31_encrypt_every_target t hnr e
  have hf : ∀ p, e.encrypt_block p = .ok (ofB (view (he (ofB (view p))).choose)) := fun p => by
    rw [LawfulVec.ofB_view, LawfulVec.ofB_view]; exact (he p).choose_spec
  rw [Modes.ctrWith_eq e (fun b => view (he (ofB b)).choose) hf] at hct
  rw [Modes.ctrWith_eq e (fun b => view (he (ofB b)).choose) hf, flat_inj ((message_eq pieces').symm.trans (h.trans (Except.ok.inj hct).symm)),
    Modes.ctr_inverse, message_eq]

/-- The block that a 128-bit counter contributes to the key stream. -/
def keystream {t : Target} {nr : Nat} (e : AesEnc t.Block nr) (n : U128) : M (Bytes 16) := do
  let x : t.Block ← from_u128 n
  into_bytes (← e.encrypt_block x)
/-- C72: with a counter of 128 bits (`AesBlock::from(n)`) that starts anywhere and wraps around, no two of the first 2^128 blocks of the key stream are equal.
Every target, every encrypter. -/
theorem C72_keystream_never_repeats (t : Target) {nr : Nat} (hnr : 0 < nr) (e : AesEnc t.Block nr) (start : U128) (i j : Nat) (hi : i < 2 ^ 128)
    (hj : j < 2 ^ 128) (h : keystream e (start + BitVec.ofNat 128 i) = keystream e (start + BitVec.ofNat 128 j)) :
    i = j ∧ ∃ b, keystream e (start + BitVec.ofNat 128 i) = .ok b := by
  obtain ⟨he, hinj, -⟩ := C31_encrypt_every_target t hnr e
  have hk : ∀ n : U128, ∃ x y : t.Block, from_u128 n = .ok x ∧ e.encrypt_block x = .ok y ∧ keystream e n = .ok (view y) := by
    intro n
    obtain ⟨y, hy⟩ := he (ofB (Vector.ofFn fun i : Fin 16 => (n >>> (8 * (15 - i.val))).setWidth 8))
    refine ⟨_, y, from_u128_conc n, hy, ?_⟩
    rw [keystream, from_u128_conc, bind_ok, hy, bind_ok]
    exact into_bytes_eq y
  obtain ⟨x, y, hx, hy, hkx⟩ := hk (start + BitVec.ofNat 128 i)
  obtain ⟨x', y', hx', hy', hkx'⟩ := hk (start + BitVec.ofNat 128 j)
  refine ⟨?_, _, hkx⟩
  rw [hkx, hkx'] at h
  have hyy : y = y' := by rw [← LawfulVec.ofB_view y, ← LawfulVec.ofB_view y', Except.ok.inj h]
  have hxx : x = x' := hinj x x' (by rw [hy, hy', hyy])
  have hn := C19_u128_roundtrip t (start + BitVec.ofNat 128 i)
  have hn' := C19_u128_roundtrip t (start + BitVec.ofNat 128 j)
  rw [hx, bind_ok, hxx] at hn
  rw [hx', bind_ok, hn] at hn'
  have h1 := congrArg BitVec.toNat ((BitVec.add_right_inj start).mp (Except.ok.inj hn'))
  simp only [BitVec.toNat_ofNat] at h1
  rwa [Nat.mod_eq_of_lt hi, Nat.mod_eq_of_lt hj] at h1

/-! ### Concrete instances: the standard's examples F.2.1 and F.5.1 (first two blocks) -/

/-- Second plaintext block of SP 800-38A, appendix F. -/
def exPt2 : Bytes 16 := #v[0xae, 0x2d, 0x8a, 0x57, 0x1e, 0x03, 0xac, 0x9c, 0x9e, 0xb7, 0x6f, 0xac, 0x45, 0xaf, 0x8e, 0x51]
def exIv : Bytes 16 := #v[0x00, 0x01, 0x02, 0x03, 0x04, 0x05, 0x06, 0x07, 0x08, 0x09, 0x0a, 0x0b, 0x0c, 0x0d, 0x0e, 0x0f]
def exCbc1 : Bytes 16 := #v[0x76, 0x49, 0xab, 0xac, 0x81, 0x19, 0xb2, 0x46, 0xce, 0xe9, 0x8e, 0x9b, 0x12, 0xe9, 0x19, 0x7d]
def exCbc2 : Bytes 16 := #v[0x50, 0x86, 0xcb, 0x9b, 0x50, 0x72, 0x19, 0xee, 0x95, 0xdb, 0x11, 0x3a, 0x91, 0x76, 0x78, 0xb2]
def exCtr1 : Bytes 16 := #v[0x87, 0x4d, 0x61, 0x91, 0xb6, 0x20, 0xe3, 0x26, 0x1b, 0xef, 0x68, 0x64, 0x99, 0x0d, 0xb6, 0xce]
def exCtr2 : Bytes 16 := #v[0x98, 0x06, 0xf6, 0x6b, 0x79, 0x70, 0xfd, 0xff, 0x86, 0x17, 0x18, 0x7b, 0xb9, 0xff, 0xfd, 0xff]
/-- f0f1...feff and the numbers behind it. -/
def exCounter (i : Nat) : Bytes 16 := toBe 16 (0xf0f1f2f3f4f5f6f7f8f9fafbfcfdfeff#128 + BitVec.ofNat 128 i)
/-- F.2.1, evaluated in the kernel on the table-based code. -/
theorem ex_cbc : cbcEncryptMessage .table .k128 exKey128 exIv [exPt, exPt2] = .ok (flat [exCbc1, exCbc2]) := by decide +kernel
/-- F.5.1, evaluated in the kernel on the table-based code, as a piece of two blocks. -/
theorem ex_ctr : ctrMessage .table .k128 exKey128 exCounter [⟨.x2, (exPt ++ exPt2 : Bytes (16 + 16))⟩] = .ok (flat [exCtr1, exCtr2]) := by
  decide +kernel
/-- Decrypted on other machines. -/
example : cbcDecryptMessage .x86Vaes512 .k128 exKey128 exIv [⟨.x2, (exCbc1 ++ exCbc2 : Bytes (16 + 16))⟩] = .ok (flat [exPt, exPt2]) :=
  C72_cbc_interop _ _ (by decide) (by decide) (by decide) (by decide) _ _ _ _ _ ex_cbc _ (by decide +kernel)
example : ctrMessage (.arm true) .k128 exKey128 exCounter [⟨.x1, exCtr1⟩, ⟨.x1, exCtr2⟩] = .ok (flat [exPt, exPt2]) :=
  (C72_ctr_interop _ _ (by decide) (by decide) (by decide) (by decide) _ _ _ _ _ ex_ctr _ (by decide +kernel)).trans
    (congrArg Except.ok (by decide +kernel))
end Aes
