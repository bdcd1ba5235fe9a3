import Verif.Properties.KeySchedule
import Verif.Proofs.FmtText
/-!
C26-C28, C43: formatting. `format a` is `format!(...)`, `o` ranges over all format specs (fill, alignment, sign, `#`, `0`,
width, precision, `x?`): none of them but `#` has an effect.
-/
namespace Aes
open Rust AesSpec Fips197 AesVec AesBlock Target Fmt TextSpec

variable (t : Target)

/-- `p` if the alternate flag is given. -/
def ifAlt (o : Opts) (p : List Char) : List Char := if o.alternate then p else []

/-! ### C26 -/

/-- C26: `{:x}` of the block with value `v` is `v` in hexadecimal with 32 digits, after `0x` iff `#` is given. -/
theorem C26_lower_hex (v : U128) (o : Opts) : (do
      let x : t.Block ← from_u128 v
      format (lowerHex x o)) = .ok (ifAlt o ['0', 'x'] ++ positional false 16 32 v.toNat) := by
  rw [from_u128, LawfulVec.from_bytes_eq, bind_ok, emits_format (emits_lowerHex (into_bytes_eq _) o), LawfulVec.view_ofB, hexBytes_u128]
  rfl
/-- C26: `{:X}`, after `0X` iff `#` is given. -/
theorem C26_upper_hex (v : U128) (o : Opts) : (do
      let x : t.Block ← from_u128 v
      format (upperHex x o)) = .ok (ifAlt o ['0', 'X'] ++ positional true 16 32 v.toNat) := by
  rw [from_u128, LawfulVec.from_bytes_eq, bind_ok, emits_format (emits_upperHex (into_bytes_eq _) o), LawfulVec.view_ofB, hexBytes_u128]
  rfl
/-- C26: the same in terms of bytes: two digits per byte, in byte order. -/
theorem C26_bytes (b : Bytes 16) (o : Opts) :
    (do
      let x : t.Block ← from_bytes b
      format (lowerHex x o)) = .ok (ifAlt o ['0', 'x'] ++ hexBytes false b.toList) ∧
    (do
      let x : t.Block ← from_bytes b
      format (upperHex x o)) = .ok (ifAlt o ['0', 'X'] ++ hexBytes true b.toList) := by
  rw [LawfulVec.from_bytes_eq, bind_ok, bind_ok, emits_format (emits_lowerHex (into_bytes_eq _) o),
    emits_format (emits_upperHex (into_bytes_eq _) o), LawfulVec.view_ofB]
  exact ⟨rfl, rfl⟩

theorem view_toBe {B : Type} [AesBlock B] [LawfulVec B] (x : B) :
    into_u128 x = .ok (fromBe 128 (view x)) ∧ view x = toBe 16 (fromBe 128 (view x)) :=
  ⟨by rw [into_u128, into_bytes_eq, bind_ok]; rfl, (toBe_fromBe 128 _ (by omega)).symm⟩

/-- C26: reading the digits back gives the block's value; the text has 32 digits. -/
theorem C26_read_back (x : t.Block) (o : Opts) (ho : o.alternate = false) (up : Bool) :
    ∃ text, format (if up then upperHex x o else lowerHex x o) = .ok text ∧ text.length = 32 ∧
      into_u128 x = .ok (BitVec.ofNat 128 (readNum 16 text)) := by
  obtain ⟨h1, h2⟩ := view_toBe x
  refine ⟨positional up 16 32 (fromBe 128 (view x)).toNat, ?_, length_positional _ _ _ _, ?_⟩
  · rw [← hexBytes_u128, ← h2]
    cases up
    · exact (emits_format (emits_lowerHex (into_bytes_eq x) o)).trans (by rw [ho]; rfl)
    · exact (emits_format (emits_upperHex (into_bytes_eq x) o)).trans (by rw [ho]; rfl)
  · rw [h1, readNum_positional _ _ _ _ (by omega) (by omega), Nat.mod_eq_of_lt (by have := (fromBe 128 (view x)).isLt; omega)]
    refine congrArg Except.ok (BitVec.eq_of_toNat_eq ?_)
    rw [BitVec.toNat_ofNat, Nat.mod_eq_of_lt (BitVec.isLt _)]

theorem hexBytes_inj (up : Bool) {n : Nat} {a b : Bytes n} (h : hexBytes up a.toList = hexBytes up b.toList) : a = b := by
  have key : ∀ l m : List U8, l.length = m.length → hexBytes up l = hexBytes up m → l = m := by
    intro l
    induction l with
    | nil => intro m hm _; exact (List.length_eq_zero_iff.mp hm.symm).symm
    | cons x l ih =>
      intro m hm h
      cases m with
      | nil => simp at hm
      | cons y m =>
        simp only [hexBytes, List.flatMap_cons] at h
        obtain ⟨h1, h2⟩ := List.append_inj h (by simp [length_positional])
        rw [BitVec.eq_of_toNat_eq (positional_inj up 16 2 _ _ (by omega) (by omega) x.isLt y.isLt h1),
          ih m (by simpa using hm) h2]
  exact Vector.toList_inj.mp (key _ _ (by simp) h)

/-- C26: distinct blocks have distinct texts. -/
theorem C26_injective (x y : t.Block) (o : Opts) :
    (format (lowerHex x o) = format (lowerHex y o) → x = y) ∧ (format (upperHex x o) = format (upperHex y o) → x = y) := by
  constructor <;> intro h
  · rw [emits_format (emits_lowerHex (into_bytes_eq _) o), emits_format (emits_lowerHex (into_bytes_eq _) o)] at h
    exact view_inj (hexBytes_inj _ (List.append_cancel_left (Except.ok.inj h)))
  · rw [emits_format (emits_upperHex (into_bytes_eq _) o), emits_format (emits_upperHex (into_bytes_eq _) o)] at h
    exact view_inj (hexBytes_inj _ (List.append_cancel_left (Except.ok.inj h)))

/-- C26: into a sink that may fail (a fixed buffer, say), the call does not panic: either it reports success and the
whole text was written, or it reports the error and what was written is a prefix of the text. -/
theorem C26_failing_sink (b : Bytes 16) (o : Opts) (x : t.Block) (hx : from_bytes b = .ok x) {σ : Type} (w : Writer σ)
    (out : σ → List Char) (hw : Appends w out) (s : σ) :
    ∃ ok s', (lowerHex x o).run w s = .ok (ok, s') ∧ ∃ c, out s' = out s ++ c ∧
      c <+: ifAlt o ['0', 'x'] ++ hexBytes false b.toList ∧ (ok = true → c = ifAlt o ['0', 'x'] ++ hexBytes false b.toList) := by
  have hb : into_bytes x = .ok b := by
    rw [LawfulVec.from_bytes_eq] at hx; cases hx; rw [into_bytes_eq, LawfulVec.view_ofB]
  obtain ⟨ok, s', h1, c, h2, h3, h4⟩ := emits_sink (emits_lowerHex hb o) w out hw s
  exact ⟨ok, s', h1, c, h3, h2, h4⟩

/-! ### C27 -/

/-- C27: `{:b}` of the block with value `v` is `v` in binary with 128 digits, after `0b` iff `#` is given. -/
theorem C27_binary (v : U128) (o : Opts) : (do
      let x : t.Block ← from_u128 v
      format (binary x o)) = .ok (ifAlt o ['0', 'b'] ++ positional false 2 128 v.toNat) := by
  rw [from_u128, LawfulVec.from_bytes_eq, bind_ok, emits_format (emits_binary (into_bytes_eq _) o), LawfulVec.view_ofB, binBytes_u128]
  rfl
/-- C27: eight digits per byte, in byte order. -/
theorem C27_bytes (b : Bytes 16) (o : Opts) : (do
      let x : t.Block ← from_bytes b
      format (binary x o)) = .ok (ifAlt o ['0', 'b'] ++ binBytes b.toList) := by
  rw [LawfulVec.from_bytes_eq, bind_ok, emits_format (emits_binary (into_bytes_eq _) o), LawfulVec.view_ofB]
  rfl
/-- C27: reading the digits back gives the block's value; the text has 128 digits. -/
theorem C27_read_back (x : t.Block) (o : Opts) (ho : o.alternate = false) :
    ∃ text, format (binary x o) = .ok text ∧ text.length = 128 ∧ into_u128 x = .ok (BitVec.ofNat 128 (readNum 2 text)) := by
  obtain ⟨h1, h2⟩ := view_toBe x
  refine ⟨positional false 2 128 (fromBe 128 (view x)).toNat, ?_, length_positional _ _ _ _, ?_⟩
  · rw [← binBytes_u128, ← h2]
    exact (emits_format (emits_binary (into_bytes_eq x) o)).trans (by rw [ho]; rfl)
  · rw [h1, readNum_positional _ _ _ _ (by omega) (by omega), Nat.mod_eq_of_lt (by have := (fromBe 128 (view x)).isLt; omega)]
    refine congrArg Except.ok (BitVec.eq_of_toNat_eq ?_)
    rw [BitVec.toNat_ofNat, Nat.mod_eq_of_lt (BitVec.isLt _)]
/-- C27: distinct blocks have distinct texts. -/
theorem C27_injective (x y : t.Block) (o : Opts) (h : format (binary x o) = format (binary y o)) : x = y := by
  obtain ⟨_, h2⟩ := view_toBe x
  obtain ⟨_, h3⟩ := view_toBe y
  rw [emits_format (emits_binary (into_bytes_eq _) o), emits_format (emits_binary (into_bytes_eq _) o), h2, h3] at h
  have h4 := List.append_cancel_left (Except.ok.inj h)
  rw [binBytes_u128, binBytes_u128] at h4
  refine view_inj (h2.trans (Eq.trans (congrArg (toBe 16) (BitVec.eq_of_toNat_eq ?_)) h3.symm))
  exact positional_inj false 2 128 _ _ (by omega) (by omega) (BitVec.isLt _) (BitVec.isLt _) h4

/-! ### C28 -/

/-- C28: `{}` and `{:?}` of a block print lower-case hexadecimal, `{:#}` and `{:#?}` upper-case, never a prefix. -/
theorem C28_display_debug (b : Bytes 16) (o : Opts) :
    (do
      let x : t.Block ← from_bytes b
      format (display x o)) = .ok (hexBytes o.alternate b.toList) ∧
    (do
      let x : t.Block ← from_bytes b
      format (Fmt.debug x o)) = .ok (hexBytes o.alternate b.toList) := by
  rw [LawfulVec.from_bytes_eq, bind_ok, bind_ok]
  have := emits_format (emits_debug (into_bytes_eq (ofB b : t.Block)) o)
  rw [LawfulVec.view_ofB] at this
  exact ⟨this, this⟩

theorem emits_blocks (o : Opts) (l : List t.Block) (hl : l ≠ []) :
    Emits (debugTuple o (l.map Fmt.debug))
      (if o.alternate then ['(', '\n'] ++ lines 4 (l.map fun x => hexBytes true (view x).toList) ++ [')']
        else ['('] ++ commaSep (l.map fun x => hexBytes false (view x).toList) ++ [')']) := by
  have h := emits_debugTuple l Fmt.debug (fun x => hexBytes o.alternate (view x).toList) o hl
    (fun x _ => emits_debug (into_bytes_eq x) o) (fun x _ => oneLine_hexBytes _ _)
  cases ho : o.alternate
  · rw [ho] at h; simp only [Bool.false_eq_true, if_false] at h ⊢; exact h
  · rw [ho] at h; simp only [if_true] at h ⊢; exact h

/-- C28: `{:?}` of two blocks is `(hex, hex)`; `{:#?}` puts each on a line of its own. -/
theorem C28_debug_x2 (a b : Bytes 16) (o : Opts) : (do
      let x : t.Block ← from_bytes a
      let y : t.Block ← from_bytes b
      format (debugX2 (AesBlockX2.from_pair (x, y) : t.X2) o)) = .ok (
        if o.alternate then ['(', '\n'] ++ lines 4 [hexBytes true a.toList, hexBytes true b.toList] ++ [')']
        else ['('] ++ hexBytes false a.toList ++ [',', ' '] ++ hexBytes false b.toList ++ [')']) := by
  rw [LawfulVec.from_bytes_eq, bind_ok, LawfulVec.from_bytes_eq, bind_ok, debugX2]
  rw [show (AesBlockX2.to_pair (AesBlockX2.from_pair ((ofB a : t.Block), (ofB b : t.Block)) : t.X2)) = (ofB a, ofB b) from
    LawfulX2.to_pair_from_pair _ _]
  have h := emits_format (emits_blocks t o [ofB a, ofB b] (by simp))
  simp only [List.map_cons, List.map_nil, LawfulVec.view_ofB, commaSep, List.append_assoc] at h
  simp only [h, List.append_assoc]

/-- C28: `{:?}` of four blocks. -/
theorem C28_debug_x4 (a b c d : Bytes 16) (o : Opts) : (do
      let x : t.Block ← from_bytes a
      let y : t.Block ← from_bytes b
      let z : t.Block ← from_bytes c
      let u : t.Block ← from_bytes d
      format (debugX4 (AesBlockX4.from_quad (x, y, z, u) : t.X4) o)) = .ok (
        if o.alternate then ['(', '\n'] ++ lines 4 [hexBytes true a.toList, hexBytes true b.toList, hexBytes true c.toList,
          hexBytes true d.toList] ++ [')']
        else ['('] ++ hexBytes false a.toList ++ [',', ' '] ++ hexBytes false b.toList ++ [',', ' '] ++
          hexBytes false c.toList ++ [',', ' '] ++ hexBytes false d.toList ++ [')']) := by
  rw [LawfulVec.from_bytes_eq, bind_ok, LawfulVec.from_bytes_eq, bind_ok, LawfulVec.from_bytes_eq, bind_ok,
    LawfulVec.from_bytes_eq, bind_ok, debugX4]
  rw [show (AesBlockX4.to_quad (AesBlockX4.from_quad ((ofB a : t.Block), (ofB b : t.Block), (ofB c : t.Block), (ofB d : t.Block)) : t.X4)) =
    (ofB a, ofB b, ofB c, ofB d) from LawfulX4.to_quad_from_quad _ _ _ _]
  have h := emits_format (emits_blocks t o [ofB a, ofB b, ofB c, ofB d] (by simp))
  simp only [List.map_cons, List.map_nil, LawfulVec.view_ofB, commaSep, List.append_assoc] at h
  simp only [h, List.append_assoc]

/-! ### C43: the derived Debug of encrypters and decrypters -/

theorem typeName_eq {nr : Nat} (h : nr = 10 ∨ nr = 12 ∨ nr = 14) :
    encName (bitsName nr) = typeName nr ['E', 'n', 'c'] ∧ decName (bitsName nr) = typeName nr ['D', 'e', 'c'] := by
  rcases h with rfl | rfl | rfl <;> exact ⟨rfl, rfl⟩

theorem emits_cipher (o : Opts) (name : List Char) {n : Nat} (rk : Vector t.Block (n + 1)) :
    Emits (debugStruct1 o name fieldName fun o => debugList o (rk.toList.map fun k => Fmt.debug k))
      (cipherText o.alternate name (rk.toList.map fun k => (view k).toList)) := by
  have hne : rk.toList ≠ [] := by
    intro h; have := congrArg List.length h; simp at this
  have h := emits_debugStruct rk.toList Fmt.debug (fun x => hexBytes o.alternate (view x).toList) o name fieldName
    (by unfold OneLine; decide) hne (fun x _ => emits_debug (into_bytes_eq x) o) (fun x _ => oneLine_hexBytes _ _)
  refine emits_cast h ?_
  unfold cipherText
  cases ho : o.alternate
  · simp [fieldName, List.map_map, Function.comp_def]
  · simp [fieldName, List.map_map, Function.comp_def, List.replicate]

/-- C43: `{:?}` of an encrypter is its type name and all its round keys in hexadecimal. -/
theorem C43_debug_encrypter {nr : Nat} (hnr : nr = 10 ∨ nr = 12 ∨ nr = 14) (e : AesEnc t.Block nr) (o : Opts)
    (rks : List (Bytes 16)) (hr : e.round_keys.toList.mapM into_bytes = .ok rks) :
    format (debugEnc e o) = .ok (cipherText o.alternate (typeName nr ['E', 'n', 'c']) (rks.map (·.toList))) := by
  have h2 : ∀ l : List t.Block, l.mapM into_bytes = (.ok (l.map view) : M _) := by
    intro l
    induction l with
    | nil => rfl
    | cons x l ih => rw [List.mapM_cons, into_bytes_eq, bind_ok, ih, bind_ok]; rfl
  rw [h2] at hr; cases hr
  rw [← (typeName_eq hnr).1]
  rw [List.map_map]
  exact emits_format (emits_cipher t o _ _)
/-- C43: `{:?}` of a decrypter likewise. -/
theorem C43_debug_decrypter {nr : Nat} (hnr : nr = 10 ∨ nr = 12 ∨ nr = 14) (d : AesDec t.Block nr) (o : Opts)
    (rks : List (Bytes 16)) (hr : d.round_keys.toList.mapM into_bytes = .ok rks) :
    format (debugDec d o) = .ok (cipherText o.alternate (typeName nr ['D', 'e', 'c']) (rks.map (·.toList))) := by
  have h2 : ∀ l : List t.Block, l.mapM into_bytes = (.ok (l.map view) : M _) := by
    intro l
    induction l with
    | nil => rfl
    | cons x l ih => rw [List.mapM_cons, into_bytes_eq, bind_ok, ih, bind_ok]; rfl
  rw [h2] at hr; cases hr
  rw [← (typeName_eq hnr).2]
  rw [List.map_map]
  exact emits_format (emits_cipher t o _ _)

/-- C43: so the `Debug` text of an encrypter made from a 128-bit key contains the key, on every target. -/
theorem C43_debug_reveals_key (key : Bytes 16) :
    ∃ pre post, (do
      let e : AesEnc t.Block 10 ← Aes128Enc.from key
      format (debugEnc e {})) = .ok (pre ++ hexBytes false key.toList ++ post) := by
  obtain ⟨e, he, hk⟩ := C38_aes128_key t key
  rw [into_bytes_eq] at hk
  have hk := Except.ok.inj hk
  rw [he, bind_ok]
  have h : format (debugEnc e {}) = .ok (cipherText false (encName (bitsName 10)) (e.round_keys.toList.map fun k => (view k).toList)) :=
    emits_format (emits_cipher t {} _ _)
  obtain ⟨l, hl⟩ : ∃ l, e.round_keys.toList = e.round_keys[0] :: l := by
    cases h : e.round_keys.toList with
    | nil => have := congrArg List.length h; simp at this
    | cons x l =>
      refine ⟨l, ?_⟩
      have : e.round_keys.toList[0]? = some x := by rw [h]; rfl
      rw [Vector.getElem?_toList, Vector.getElem?_eq_getElem (by omega)] at this
      rw [Option.some.inj this]
  rw [h, hl]
  simp only [cipherText, Bool.false_eq_true, if_false, List.map_cons, commaSep_cons, hk]
  exact ⟨encName (bitsName 10) ++ [' ', '{', ' ', 'r', 'o', 'u', 'n', 'd', '_', 'k', 'e', 'y', 's', ':', ' ', '['], _,
    by simp only [List.append_assoc]; rfl⟩

/-- The text of an encrypter shows its first two round keys in order. -/
theorem debug_two_keys {nr : Nat} (hnr : 1 ≤ nr) (e : AesEnc t.Block nr) {a b : Bytes 16} (ha : into_bytes e.round_keys[0] = .ok a)
    (hb : into_bytes e.round_keys[1] = .ok b) :
    ∃ pre post, format (debugEnc e {}) = .ok (pre ++ hexBytes false a.toList ++ [',', ' '] ++ hexBytes false b.toList ++ post) := by
  rw [into_bytes_eq] at ha hb
  have ha := Except.ok.inj ha
  have hb := Except.ok.inj hb
  have h : format (debugEnc e {}) = .ok (cipherText false (encName (bitsName nr)) (e.round_keys.toList.map fun k => (view k).toList)) :=
    emits_format (emits_cipher t {} _ _)
  obtain ⟨l, hl⟩ : ∃ l, e.round_keys.toList = e.round_keys[0] :: e.round_keys[1] :: l := by
    match h : e.round_keys.toList with
    | [] => have := congrArg List.length h; simp at this
    | [_] => have := congrArg List.length h; simp at this; omega
    | x :: y :: l =>
      refine ⟨l, ?_⟩
      have h0 : e.round_keys.toList[0]? = some x := by rw [h]; rfl
      have h1 : e.round_keys.toList[1]? = some y := by rw [h]; rfl
      rw [Vector.getElem?_toList, Vector.getElem?_eq_getElem (by omega)] at h0 h1
      rw [Option.some.inj h0, Option.some.inj h1]
  rw [h, hl]
  simp only [cipherText, Bool.false_eq_true, if_false, List.map_cons, commaSep_cons, List.flatMap_cons, ha, hb]
  exact ⟨encName (bitsName nr) ++ [' ', '{', ' ', 'r', 'o', 'u', 'n', 'd', '_', 'k', 'e', 'y', 's', ':', ' ', '['], _,
    by simp only [List.append_assoc]; rfl⟩
theorem hexBytes_append (u : Bool) (a b : List U8) : hexBytes u (a ++ b) = hexBytes u a ++ hexBytes u b := by
  simp [hexBytes]
/-- C43: the text of an encrypter made from a 192-bit key contains the key, with `, ` after its first 16 bytes. -/
theorem C43_debug_reveals_key192 (key : Bytes 24) :
    ∃ pre post, (do
      let e : AesEnc t.Block 12 ← Aes192Enc.from key
      format (debugEnc e {})) =
        .ok (pre ++ hexBytes false (key.toList.take 16) ++ [',', ' '] ++ hexBytes false (key.toList.drop 16) ++ post) := by
  obtain ⟨e, a, b, he, ha, hb, hk⟩ := C38_aes192_key t key
  obtain ⟨pre, post, h⟩ := debug_two_keys t (by decide) e ha hb
  rw [he, bind_ok, h, hk, List.take_left' (by simp), List.drop_left' (by simp)]
  refine ⟨pre, hexBytes false (b.toList.drop 8) ++ post, congrArg Except.ok ?_⟩
  conv => lhs; rw [← List.take_append_drop 8 b.toList, hexBytes_append]
  simp only [List.append_assoc]
/-- C43: the text of an encrypter made from a 256-bit key contains the key, with `, ` after its first 16 bytes. -/
theorem C43_debug_reveals_key256 (key : Bytes 32) :
    ∃ pre post, (do
      let e : AesEnc t.Block 14 ← Aes256Enc.from key
      format (debugEnc e {})) =
        .ok (pre ++ hexBytes false (key.toList.take 16) ++ [',', ' '] ++ hexBytes false (key.toList.drop 16) ++ post) := by
  obtain ⟨e, a, b, he, ha, hb, hk⟩ := C38_aes256_key t key
  obtain ⟨pre, post, h⟩ := debug_two_keys t (by decide) e ha hb
  rw [he, bind_ok, h, hk, List.take_left' (by simp), List.drop_left' (by simp)]
  exact ⟨pre, post, rfl⟩

/-! ### Sinks that fail, for every formatter of the crate -/

/-- The formatter calls of the crate on target `t`, with any options. -/
inductive Formats (t : Target) : Action → Prop
  | lowerHex (x : t.Block) (o : Opts) : Formats t (lowerHex x o)
  | upperHex (x : t.Block) (o : Opts) : Formats t (upperHex x o)
  | binary (x : t.Block) (o : Opts) : Formats t (binary x o)
  | display (x : t.Block) (o : Opts) : Formats t (display x o)
  | debug (x : t.Block) (o : Opts) : Formats t (Fmt.debug x o)
  | debugX2 (x : t.X2) (o : Opts) : Formats t (debugX2 x o)
  | debugX4 (x : t.X4) (o : Opts) : Formats t (debugX4 x o)
  | debugEnc {nr : Nat} (e : AesEnc t.Block nr) (o : Opts) : Formats t (debugEnc e o)
  | debugDec {nr : Nat} (d : AesDec t.Block nr) (o : Opts) : Formats t (debugDec d o)

theorem Formats.emits {t : Target} {a : Action} (h : Formats t a) : ∃ text, Emits a text := by
  cases h with
  | lowerHex x o => exact ⟨_, emits_lowerHex (into_bytes_eq x) o⟩
  | upperHex x o => exact ⟨_, emits_upperHex (into_bytes_eq x) o⟩
  | binary x o => exact ⟨_, emits_binary (into_bytes_eq x) o⟩
  | display x o => exact ⟨_, emits_debug (into_bytes_eq x) o⟩
  | debug x o => exact ⟨_, emits_debug (into_bytes_eq x) o⟩
  | debugX2 x o => exact ⟨_, emits_blocks t o [_, _] (by simp)⟩
  | debugX4 x o => exact ⟨_, emits_blocks t o [_, _, _, _] (by simp)⟩
  | debugEnc e o => exact ⟨_, emits_cipher t o _ _⟩
  | debugDec d o => exact ⟨_, emits_cipher t o _ _⟩

/-- C28: whatever is formatted, with whatever options, into whatever sink (one that fails at any moment included), the call does not
panic; what it has written is a prefix of the text it writes into a `String`, and all of that text if it reports success. -/
theorem C28_any_sink {a : Action} (h : Formats t a) : ∃ text, format a = .ok text ∧
    ∀ {σ : Type} (w : Writer σ) (out : σ → List Char), Appends w out → ∀ s, ∃ ok s', a.run w s = .ok (ok, s') ∧
      ∃ c, out s' = out s ++ c ∧ c <+: text ∧ (ok = true → c = text) := by
  obtain ⟨text, he⟩ := h.emits
  refine ⟨text, emits_format he, fun w out hw s => ?_⟩
  obtain ⟨ok, s', h1, c, h2, h3, h4⟩ := emits_sink he w out hw s
  exact ⟨ok, s', h1, c, h3, h2, h4⟩

/-! ### Concrete instances -/

/-- `{:#x}` of the first plaintext of src/tests.rs on the table-based code. -/
example : (do
    let x : Target.table.Block ← from_u128 0x6bc1bee22e409f96e93d7e117393172a#128
    format (lowerHex x { alternate := true, width := some 100 })) = .ok ("0x6bc1bee22e409f96e93d7e117393172a".toList) := by
  decide +kernel
/-- The specification on the same value. -/
example : positional false 16 32 0x6bc1bee22e409f96e93d7e117393172a = "6bc1bee22e409f96e93d7e117393172a".toList := by
  decide +kernel
/-- `{:#?}` of a pair. -/
example : (do
    let x : Target.table.Block ← from_u128 0x6bc1bee22e409f96e93d7e117393172a#128
    format (debugX2 (AesBlockX2.from_pair (x, x) : Target.table.X2) { alternate := true })) =
    .ok ("(\n    6BC1BEE22E409F96E93D7E117393172A,\n    6BC1BEE22E409F96E93D7E117393172A,\n)".toList) := by decide +kernel
/-- A sink that can fail, as in `C26_failing_sink`: a buffer of seven characters. -/
example : Appends (⟨fun c s => if (s ++ c).length ≤ 7 then (true, s ++ c) else (false, s)⟩ : Writer (List Char)) id := by
  intro c s
  by_cases h : (s ++ c).length ≤ 7
  · exact ⟨c, List.prefix_rfl, by simp only [if_pos h, id], fun _ => rfl⟩
  · exact ⟨[], List.nil_prefix, by simp only [if_neg h, id, List.append_nil], fun h' => by simp only [if_neg h] at h'; cases h'⟩
end Aes
