import Verif.Proofs.ClientProofs
import Verif.Properties.Vectors
import Mathlib.Data.List.OfFn
/-!
C45, C46: messages of any number of blocks. A program that encrypts a long message cuts it into calls of `encrypt_block`,
`encrypt_2_blocks` and `encrypt_4_blocks`; how it does so must not matter (C45), and a message encrypted on one target must be
readable on every other (C46).
-/
namespace Aes
open Rust AesSpec Fips197 AesVec AesBlock Target Client

/-- A message cut into pieces of one, two or four blocks is a list of these. -/
inductive Cut (α : Type) where
  | one (a : α)
  | two (a b : α)
  | four (a b c d : α)
/-- The blocks of a piece, in order. -/
def Cut.blocks {α : Type} : Cut α → List α
  | .one a => [a]
  | .two a b => [a, b]
  | .four a b c d => [a, b, c, d]

section
variable {t : Target} {nr : Nat}

/-- Encrypt one piece with the function for its width. -/
def encryptCut (e : AesEnc t.Block nr) : Cut t.Block → M (List t.Block)
  | .one a => do
    let x ← e.encrypt_block a
    pure [x]
  | .two a b => do
    let x ← e.encrypt_2_blocks (AesBlockX2.from_pair (a, b) : t.X2)
    let (p, q) := AesBlockX2.to_pair x
    pure [p, q]
  | .four a b c d => do
    let x ← e.encrypt_4_blocks (AesBlockX4.from_quad (a, b, c, d) : t.X4)
    let (p, q, r, s) := AesBlockX4.to_quad x
    pure [p, q, r, s]
/-- Decrypt one piece with the function for its width. -/
def decryptCut (d : AesDec t.Block nr) : Cut t.Block → M (List t.Block)
  | .one a => do
    let x ← d.decrypt_block a
    pure [x]
  | .two a b => do
    let x ← d.decrypt_2_blocks (AesBlockX2.from_pair (a, b) : t.X2)
    let (p, q) := AesBlockX2.to_pair x
    pure [p, q]
  | .four a b c e => do
    let x ← d.decrypt_4_blocks (AesBlockX4.from_quad (a, b, c, e) : t.X4)
    let (p, q, r, s) := AesBlockX4.to_quad x
    pure [p, q, r, s]

/-- Process all pieces in order. -/
def allCuts {α β : Type} (f : Cut α → M (List β)) : List (Cut α) → M (List β)
  | [] => pure []
  | c :: cs => do
    let x ← f c
    let xs ← allCuts f cs
    pure (x ++ xs)
/-- Process all blocks in order. -/
def allBlocks {α β : Type} (f : α → M β) : List α → M (List β)
  | [] => pure []
  | a :: l => do
    let x ← f a
    let xs ← allBlocks f l
    pure (x :: xs)

theorem allBlocks_append {α β : Type} (f : α → M β) (l l' : List α) : allBlocks f (l ++ l') = (do
    let x ← allBlocks f l
    let xs ← allBlocks f l'
    pure (x ++ xs)) := by
  induction l with
  | nil => simp only [List.nil_append, allBlocks, pure_bind, bind_pure]
  | cons a l ih => simp only [List.cons_append, allBlocks, ih, bind_assoc, pure_bind]
theorem allCuts_eq {α β : Type} (f : Cut α → M (List β)) (g : α → M β) (h : ∀ c, f c = allBlocks g c.blocks)
    (cuts : List (Cut α)) : allCuts f cuts = allBlocks g (cuts.flatMap Cut.blocks) := by
  induction cuts with
  | nil => rfl
  | cons c cs ih => simp only [allCuts, List.flatMap_cons, allBlocks_append, h, ih]

theorem encryptCut_eq (e : AesEnc t.Block nr) (c : Cut t.Block) : encryptCut e c = allBlocks e.encrypt_block c.blocks := by
  cases c with
  | one a => simp [encryptCut, Cut.blocks, allBlocks]
  | two a b =>
    simp only [encryptCut, Cut.blocks, allBlocks, encrypt_2_blocks_ok, bind_assoc, pure_bind]
    simp only [LawfulX2.to_pair_from_pair]
  | four a b c d =>
    simp only [encryptCut, Cut.blocks, allBlocks, encrypt_4_blocks_ok, bind_assoc, pure_bind]
    simp only [LawfulX4.to_quad_from_quad]
theorem decryptCut_eq (e : AesDec t.Block nr) (c : Cut t.Block) : decryptCut e c = allBlocks e.decrypt_block c.blocks := by
  cases c with
  | one a => simp [decryptCut, Cut.blocks, allBlocks]
  | two a b =>
    simp only [decryptCut, Cut.blocks, allBlocks, decrypt_2_blocks_ok, bind_assoc, pure_bind]
    simp only [LawfulX2.to_pair_from_pair]
  | four a b c d =>
    simp only [decryptCut, Cut.blocks, allBlocks, decrypt_4_blocks_ok, bind_assoc, pure_bind]
    simp only [LawfulX4.to_quad_from_quad]


/-- C45: however a list of blocks is cut into pieces of one, two and four blocks, encrypting it piece by piece gives the
blocks that encrypting block by block gives. Every target, any encrypter, any number of blocks. -/
theorem C45_encrypt_any_cut (e : AesEnc t.Block nr) (cuts : List (Cut t.Block)) :
    allCuts (encryptCut e) cuts = allBlocks e.encrypt_block (cuts.flatMap Cut.blocks) :=
  allCuts_eq _ _ (encryptCut_eq e) cuts
/-- C45: the same for decryption. -/
theorem C45_decrypt_any_cut (d : AesDec t.Block nr) (cuts : List (Cut t.Block)) :
    allCuts (decryptCut d) cuts = allBlocks d.decrypt_block (cuts.flatMap Cut.blocks) :=
  allCuts_eq _ _ (decryptCut_eq d) cuts
/-- C45: so two ways of cutting the same blocks agree. -/
theorem C45_cuts_agree (e : AesEnc t.Block nr) (d : AesDec t.Block nr) (cuts cuts' : List (Cut t.Block))
    (h : cuts.flatMap Cut.blocks = cuts'.flatMap Cut.blocks) :
    allCuts (encryptCut e) cuts = allCuts (encryptCut e) cuts' ∧ allCuts (decryptCut d) cuts = allCuts (decryptCut d) cuts' := by
  rw [C45_encrypt_any_cut, C45_encrypt_any_cut, C45_decrypt_any_cut, C45_decrypt_any_cut, h]
  exact ⟨rfl, rfl⟩
end

/-! ### C46: messages of bytes -/

/-- A piece of a message: 16, 32 or 64 bytes. -/
structure Piece where
  w : Width
  bytes : Bytes w.size
/-- The message that the pieces are cut from. -/
def message (l : List Piece) : List U8 := l.flatMap fun p => p.bytes.toList
/-- The bytes of a list of blocks. -/
def flat (l : List (Bytes 16)) : List U8 := l.flatMap fun b => b.toList

/-- A program that encrypts a message, cut into pieces, under a key. -/
def encryptMessage (t : Target) (k : KeySize) (key : Bytes k.bytes) (pieces : List Piece) : M (List U8) := do
  let e ← encFromOf t.Block k key
  let out ← pieces.mapM fun p => do
    let x : t.Vec p.w ← from_bytes p.bytes
    into_bytes (← encryptOf t e p.w x) >>= fun b => pure b.toList
  pure out.flatten
/-- A program that decrypts a message, cut into pieces, under a key. -/
def decryptMessage (t : Target) (k : KeySize) (key : Bytes k.bytes) (pieces : List Piece) : M (List U8) := do
  let d ← decFromOf t.Block k key
  let out ← pieces.mapM fun p => do
    let x : t.Vec p.w ← from_bytes p.bytes
    into_bytes (← decryptOf t d p.w x) >>= fun b => pure b.toList
  pure out.flatten

/-- The AES function of the key size. -/
def aesOf : (k : KeySize) → Bytes k.bytes → Bytes 16 → Bytes 16
  | .k128 => aes128
  | .k192 => aes192
  | .k256 => aes256
/-- Its inverse. -/
def aesInvOf : (k : KeySize) → Bytes k.bytes → Bytes 16 → Bytes 16
  | .k128 => aes128Inv
  | .k192 => aes192Inv
  | .k256 => aes256Inv

/-- The 16-byte blocks of a piece. -/
def Piece.blocks (p : Piece) : List (Bytes 16) := (List.range (p.w.size / 16)).map fun i => part p.bytes (16 * i) 16

theorem flat_ofFn (g : Nat → Bytes 16) (m : Nat) :
    List.ofFn (fun i : Fin (16 * m) => (g (i.val / 16))[i.val % 16]) = flat ((List.range m).map g) := by
  rw [List.ofFn_mul']
  have h : (fun i : Fin m => List.ofFn fun j : Fin 16 => (g ((16 * i.val + j.val) / 16))[(16 * i.val + j.val) % 16]) =
      fun i : Fin m => (g i.val).toList := by
    funext i
    apply List.ext_getElem
    · simp
    · intro j h1 h2
      simp only [List.length_ofFn] at h1
      simp only [List.getElem_ofFn, Vector.getElem_toList]
      have h3 : (16 * i.val + j) / 16 = i.val := by omega
      have h4 : (16 * i.val + j) % 16 = j := by omega
      simp only [h3, h4]
  rw [h, flat, List.flatMap_map, List.flatMap_def]
  refine congrArg List.flatten ?_
  apply List.ext_getElem
  · simp
  · intro i h1 h2
    simp

theorem size_eq (w : Width) : w.size = 16 * (w.size / 16) := by cases w <;> rfl

theorem toList_ofFn16 {n m : Nat} (h : n = 16 * m) (g : Nat → Bytes 16) :
    (Vector.ofFn fun i : Fin n => (g (i.val / 16))[i.val % 16]).toList = flat ((List.range m).map g) := by
  subst h
  rw [← flat_ofFn, Vector.toList_ofFn]

theorem toList_eachBlock (f : Bytes 16 → Bytes 16) (p : Piece) : (eachBlock f p.bytes).toList = flat (p.blocks.map f) := by
  have h := toList_ofFn16 (size_eq p.w) (fun i => f (part p.bytes (i * 16) 16))
  simp only [Piece.blocks, List.map_map]
  rw [eachBlock, h]
  refine congrArg flat (List.map_congr_left fun i _ => ?_)
  simp only [Function.comp, Nat.mul_comm]
theorem part_self {n : Nat} (x : Bytes n) (i : Nat) (h : i < n) (h16 : i / 16 * 16 + 16 ≤ n) :
    (part x (i / 16 * 16) 16)[i % 16] = x[i] := by
  simp only [part, Vector.getElem_ofFn]
  rw [List.getD_eq_getElem?_getD, List.getElem?_eq_getElem (by simp; omega), Option.getD_some, Vector.getElem_toList]
  have : i / 16 * 16 + i % 16 = i := by omega
  simp only [this]
theorem eachBlock_id (p : Piece) : eachBlock (fun b => b) p.bytes = p.bytes := by
  apply Vector.ext
  intro i h
  simp only [eachBlock, Vector.getElem_ofFn]
  exact part_self _ _ h (by have := size_eq p.w; omega)
theorem toList_piece (p : Piece) : p.bytes.toList = flat p.blocks := by
  have h := toList_eachBlock (fun b => b) p
  rwa [eachBlock_id, List.map_id''] at h
  exact fun _ => rfl

theorem flat_append (l l' : List (Bytes 16)) : flat (l ++ l') = flat l ++ flat l' := by simp [flat]
theorem message_eq (l : List Piece) : message l = flat (l.flatMap Piece.blocks) := by
  induction l with
  | nil => rfl
  | cons p l ih => rw [List.flatMap_cons, flat_append, ← ih, ← toList_piece]; rfl
theorem flat_inj : ∀ {l l' : List (Bytes 16)}, flat l = flat l' → l = l'
  | [], [], _ => rfl
  | [], b :: l', h => by
    have := congrArg List.length h
    simp [flat] at this; omega
  | b :: l, [], h => by
    have := congrArg List.length h
    simp [flat] at this
  | b :: l, b' :: l', h => by
    simp only [flat, List.flatMap_cons] at h
    obtain ⟨h1, h2⟩ := List.append_inj h (by simp)
    rw [Vector.toList_inj.mp h1, flat_inj (l := l) (l' := l') h2]

theorem mapM_ok {α β : Type} (f : α → M β) (g : α → β) (h : ∀ a, f a = .ok (g a)) (l : List α) :
    l.mapM f = .ok (l.map g) := by
  induction l with
  | nil => rfl
  | cons a l ih => rw [List.mapM_cons, h, ih]; rfl

theorem encryptMessage_eq (t : Target) (hrv : t ≠ .riscv32) (k : KeySize) (key : Bytes k.bytes) (pieces : List Piece) :
    encryptMessage t k key pieces =
      .ok (flat ((pieces.flatMap Piece.blocks).map (cipher k.rounds (tsched t k key)))) := by
  have := t.lawfulPre hrv
  unfold encryptMessage
  rw [encFrom_conc, bind_ok, mapM_ok _ (fun p => flat (p.blocks.map (cipher k.rounds (tsched t k key)))), bind_ok, pure_ok]
  · refine congrArg Except.ok ?_
    induction pieces with
    | nil => rfl
    | cons p l ih =>
      rw [List.map_cons, List.flatten_cons, ih, List.flatMap_cons, List.map_append, flat_append]
  · intro p
    rw [LawfulVec.from_bytes_eq, bind_ok, encrypt_w t _ _ (encrypt_rkVec (rounds_pos k) _), bind_ok, LawfulVec.view_ofB,
      into_bytes_ofB, bind_ok, pure_ok, toList_eachBlock]
theorem decryptMessage_eq (t : Target) (hrv : t ≠ .riscv32) (k : KeySize) (key : Bytes k.bytes) (pieces : List Piece) :
    decryptMessage t k key pieces =
      .ok (flat ((pieces.flatMap Piece.blocks).map (invCipher k.rounds (tsched t k key)))) := by
  have := t.lawfulPre hrv
  have := t.lawfulDec hrv
  unfold decryptMessage
  rw [decFrom_conc, bind_ok, mapM_ok _ (fun p => flat (p.blocks.map (invCipher k.rounds (tsched t k key)))), bind_ok, pure_ok]
  · refine congrArg Except.ok ?_
    induction pieces with
    | nil => rfl
    | cons p l ih =>
      rw [List.map_cons, List.flatten_cons, ih, List.flatMap_cons, List.map_append, flat_append]
  · intro p
    rw [LawfulVec.from_bytes_eq, bind_ok, decrypt_w t _ _ (decrypt_rkVec (rounds_pos k) _), bind_ok, LawfulVec.view_ofB,
      into_bytes_ofB, bind_ok, pure_ok, toList_eachBlock]

theorem cipher_aesOf (t : Target) (hrv : t ≠ .riscv32) (hbe : t ≠ .bitslice .big) (k : KeySize) (key : Bytes k.bytes) :
    cipher k.rounds (tsched t k key) = aesOf k key ∧ invCipher k.rounds (tsched t k key) = aesInvOf k key := by
  unfold tsched
  rw [temp_std t hrv hbe, keyExpansionWith_std']
  cases k <;> exact ⟨rfl, rfl⟩

/-- C46: encrypting a message of any length, cut in any way, gives the bytes of AES of each of its 16-byte blocks. -/
theorem C46_encrypt_message (t : Target) (hrv : t ≠ .riscv32) (hbe : t ≠ .bitslice .big) (k : KeySize) (key : Bytes k.bytes)
    (blocks : List (Bytes 16)) (pieces : List Piece) (h : message pieces = flat blocks) :
    encryptMessage t k key pieces = .ok (flat (blocks.map (aesOf k key))) := by
  rw [encryptMessage_eq t hrv, (cipher_aesOf t hrv hbe k key).1, flat_inj ((message_eq pieces).symm.trans h)]
/-- C46: and decrypting one gives the bytes of the inverse cipher of each block. -/
theorem C46_decrypt_message (t : Target) (hrv : t ≠ .riscv32) (hbe : t ≠ .bitslice .big) (k : KeySize) (key : Bytes k.bytes)
    (blocks : List (Bytes 16)) (pieces : List Piece) (h : message pieces = flat blocks) :
    decryptMessage t k key pieces = .ok (flat (blocks.map (aesInvOf k key))) := by
  rw [decryptMessage_eq t hrv, (cipher_aesOf t hrv hbe k key).2, flat_inj ((message_eq pieces).symm.trans h)]

/-- C46: interoperability. A message encrypted on one target, in pieces cut in any way, and decrypted on another, in pieces
cut in any other way, comes back. -/
theorem C46_interop (t t' : Target) (hrv : t ≠ .riscv32) (hbe : t ≠ .bitslice .big) (hrv' : t' ≠ .riscv32)
    (hbe' : t' ≠ .bitslice .big) (k : KeySize) (key : Bytes k.bytes) (pieces : List Piece) (ct : List U8)
    (hct : encryptMessage t k key pieces = .ok ct) (pieces' : List Piece) (h' : message pieces' = ct) :
    decryptMessage t' k key pieces' = .ok (message pieces) := by
  rw [encryptMessage_eq t hrv] at hct
  rw [C46_decrypt_message t' hrv' hbe' k key _ pieces' (h'.trans (Except.ok.inj hct).symm), message_eq,
    (cipher_aesOf t hrv hbe k key).1, List.map_map]
  refine congrArg (fun l => Except.ok (flat l)) ?_
  rw [show aesInvOf k key ∘ aesOf k key = id from ?_, List.map_id]
  funext b
  cases k <;> exact invCipher_cipher ..
/-- C46: a big-endian constant-time build reads its own messages (though nobody else's, C42). -/
theorem C46_interop_self (t : Target) (hrv : t ≠ .riscv32) (k : KeySize) (key : Bytes k.bytes) (pieces : List Piece) (ct : List U8)
    (hct : encryptMessage t k key pieces = .ok ct) (pieces' : List Piece) (h' : message pieces' = ct) :
    decryptMessage t k key pieces' = .ok (message pieces) := by
  rw [encryptMessage_eq t hrv] at hct
  rw [decryptMessage_eq t hrv, flat_inj ((message_eq pieces').symm.trans (h'.trans (Except.ok.inj hct).symm)), message_eq,
    List.map_map]
  refine congrArg (fun l => Except.ok (flat l)) ?_
  rw [show invCipher k.rounds (tsched t k key) ∘ cipher k.rounds (tsched t k key) = id from ?_, List.map_id]
  funext b
  exact invCipher_cipher ..

/-! ### Concrete instances -/

/-- Seven blocks cut as 4 + 2 + 1 and as 1 + 4 + 2: a non-trivial instance of the hypothesis of `C45_cuts_agree`. -/
example {α : Type} (a b c d e f g : α) : [Cut.four a b c d, .two e f, .one g].flatMap Cut.blocks =
    [Cut.one a, .four b c d e, .two f g].flatMap Cut.blocks := rfl
/-- A message of three blocks in two pieces, encrypted on Arm and decrypted with VAES in one-block pieces. -/
example : ∃ ct : List U8, encryptMessage (.arm true) .k192 exKey192 [⟨.x2, (exPt ++ exPt : Bytes (16 + 16))⟩, ⟨.x1, exPt⟩] = .ok ct ∧
    ct = flat [exCt192, exCt192, exCt192] ∧
    decryptMessage .x86Vaes512 .k192 exKey192 [⟨.x1, exCt192⟩, ⟨.x1, exCt192⟩, ⟨.x1, exCt192⟩] = .ok (flat [exPt, exPt, exPt]) := by
  have hm : message [⟨.x2, (exPt ++ exPt : Bytes (16 + 16))⟩, ⟨.x1, exPt⟩] = flat [exPt, exPt, exPt] := by decide +kernel
  have h := C46_encrypt_message (.arm true) (by decide) (by decide) .k192 exKey192 [exPt, exPt, exPt] _ hm
  simp only [List.map_cons, List.map_nil, show aesOf .k192 exKey192 exPt = exCt192 from ex_spec_192] at h
  exact ⟨_, h, rfl, hm ▸ C46_interop _ _ (by decide) (by decide) (by decide) (by decide) _ _ _ _ h _ rfl⟩
end Aes
