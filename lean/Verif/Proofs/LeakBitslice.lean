import Verif.Proofs.LeakLib
import Verif.Model.LeakBitslice
/-! The constant-time implementation with leakage: it computes what the model does, and leaks nothing. -/
namespace Aes.Leak.Bitslice
open Rust
open Aes.Bitslice (Block)

/-! ### Straight-line functions: the result, and a trace that does not depend on the argument -/

theorem out_subbytes (x : U128) : (subbytes x).out = .ok (Aes.Bitslice.subbytes x) := rfl
theorem out_invsubbytes (x : U128) : (invsubbytes x).out = .ok (Aes.Bitslice.invsubbytes x) := rfl
theorem out_mixcolumns (e : Endian) (x : U128) : (mixcolumns e x).out = .ok (Aes.Bitslice.mixcolumns e x) := by cases e <;> rfl
theorem out_invmixcolumns (e : Endian) (x : U128) : (invmixcolumns e x).out = .ok (Aes.Bitslice.invmixcolumns e x) := by cases e <;> rfl
theorem out_sub_word (x : U32) : (sub_word x).out = .ok (Aes.Bitslice.sub_word x) := rfl

/-- Walks through straight-line code. -/
macro "straight" : tactic => `(tactic|
  repeat (first
    | exact Same.emit _ _
    | exact Same.pure trivial
    | exact Same.idx _ _ _
    | exact Same.upd _ _ _ _ _
    | refine Same.bind_any ?_ fun _ _ => ?_))

theorem same_subbytes (x y : U128) : Same Any (subbytes x) (subbytes y) := by unfold subbytes; straight
theorem same_invsubbytes (x y : U128) : Same Any (invsubbytes x) (invsubbytes y) := by unfold invsubbytes; straight
theorem same_xtime (x y : U128) : Same Any (xtime x) (xtime y) := by unfold xtime; straight
theorem same_swap8 (x y : U128) : Same Any (swap8 x) (swap8 y) := by unfold swap8; straight
theorem same_swap16 (x y : U128) : Same Any (swap16 x) (swap16 y) := by unfold swap16; straight
theorem same_ror8_32 (e : Endian) (x y : U128) : Same Any (ror8_32 e x) (ror8_32 e y) := by
  cases e <;> (unfold ror8_32; dsimp only; straight)
theorem same_mixcolumns (e : Endian) (x y : U128) : Same Any (mixcolumns e x) (mixcolumns e y) := by
  unfold mixcolumns
  repeat first
    | exact same_xtime _ _
    | exact same_swap8 _ _
    | exact same_swap16 _ _
    | exact same_ror8_32 _ _ _
    | exact Same.emit _ _
    | refine Same.bind_any ?_ fun _ _ => ?_
theorem same_invmixcolumns (e : Endian) (x y : U128) : Same Any (invmixcolumns e x) (invmixcolumns e y) := by
  unfold invmixcolumns
  repeat first
    | exact same_xtime _ _
    | exact same_swap8 _ _
    | exact same_swap16 _ _
    | exact same_ror8_32 _ _ _
    | exact Same.emit _ _
    | refine Same.bind_any ?_ fun _ _ => ?_
theorem same_sub_word (x y : U32) : Same Any (sub_word x) (sub_word y) :=
  Same.bind_any (Same.emit _ _) fun _ _ => Same.bind_any (same_subbytes _ _) fun _ _ => Same.emit _ _

theorem same_pick (l : List Nat) (s s' : Vector U8 16) : Same Any (pick s l) (pick s' l) := by
  induction l with
  | nil => exact Same.pure trivial
  | cons i l ih => exact Same.bind_any (Same.idx _ _ _) fun _ _ => Same.bind_any ih fun _ _ => Same.pure trivial
theorem same_shiftrows (e : Endian) (s s' : Vector U8 16) : Same Any (shiftrows e s) (shiftrows e s') :=
  Same.bind_any (same_pick _ s s') fun _ _ => Same.emit _ _
theorem same_invshiftrows (e : Endian) (s s' : Vector U8 16) : Same Any (invshiftrows e s) (invshiftrows e s') :=
  Same.bind_any (same_pick _ s s') fun _ _ => Same.emit _ _

theorem out_pick (s : Vector U8 16) (l : List Nat) (h : ∀ i ∈ l, i < 16) :
    (pick s l).out = .ok (l.map fun i => s.toList.getD i 0) := by
  induction l with
  | nil => rfl
  | cons i l ih =>
    have hi : i < 16 := h i (by simp)
    unfold pick
    rw [out_bind_ok (a := s[i]) (by rw [out_idx]; unfold Rust.idx; rw [dif_pos hi]), out_bind_ok (ih fun j hj => h j (by simp [hj]))]
    simp [hi]
    rfl

theorem vec16_ext {α : Type} {v w : Vector α 16} (h : ∀ i : Fin 16, v[i] = w[i]) : v = w := by
  apply Vector.ext
  intro i hi
  exact h ⟨i, hi⟩
theorem out_shiftrows (e : Endian) (s : Vector U8 16) : (shiftrows e s).out = .ok (Aes.Bitslice.shiftrows e s) := by
  unfold shiftrows Aes.Bitslice.shiftrows
  rw [out_bind_ok (out_pick s _ (by decide)), out_emit]
  refine congrArg Except.ok (congrArg (fromNe e 128) (vec16_ext fun i => ?_))
  rw [Fin.getElem_fin, Vector.getElem_ofFn]
  revert i
  simp
theorem out_invshiftrows (e : Endian) (s : Vector U8 16) : (invshiftrows e s).out = .ok (Aes.Bitslice.invshiftrows e s) := by
  unfold invshiftrows Aes.Bitslice.invshiftrows
  rw [out_bind_ok (out_pick s _ (by decide)), out_emit]
  refine congrArg Except.ok (congrArg (fromNe e 128) (vec16_ext fun i => ?_))
  rw [Fin.getElem_fin, Vector.getElem_ofFn]
  revert i
  simp

theorem out_first {n : Nat} : Columns.FirstIs (n := n) first Aes.Bitslice.first := by
  intro c i j r
  unfold first
  simp only [out_bind, out_idx, out_sub_word, out_emit, rotr, xor, ok_bind]
  rcases Columns.idx_cases c i with ⟨a, ha⟩ | ha <;> rcases Columns.idx_cases c j with ⟨b, hb⟩ | hb <;>
    rcases Columns.idx_cases Aes.Columns.RCON r with ⟨d, hd⟩ | hd <;> rw [ha, hb, hd] <;> rfl
theorem out_fifth {n : Nat} : Columns.FifthIs (n := n) fifth Aes.Bitslice.fifth := by
  intro c i j
  unfold fifth
  simp only [out_bind, out_idx, out_sub_word, out_emit, xor, ok_bind]
  rfl
theorem same_first {n : Nat} : Columns.FirstSame (n := n) first := fun _ _ _ _ _ =>
  Same.bind_any (Same.idx _ _ _) fun _ _ => Same.bind_any (Same.idx _ _ _) fun _ _ =>
  Same.bind_any (same_sub_word _ _) fun _ _ => Same.bind_any (Same.emit _ _) fun _ _ => Same.bind_any (Same.emit _ _) fun _ _ =>
  Same.bind_any (Same.idx _ _ _) fun _ _ => Same.emit _ _
theorem same_fifth {n : Nat} : Columns.FifthSame (n := n) fifth := fun _ _ _ _ =>
  Same.bind_any (Same.idx _ _ _) fun _ _ => Same.bind_any (Same.idx _ _ _) fun _ _ =>
  Same.bind_any (same_sub_word _ _) fun _ _ => Same.emit _ _

/-! ### The API of the module -/

variable {e : Endian}

theorem out_store_to (x : Block e) (d : List U8) : (store_to x d).out = Aes.Bitslice.store_to x d := by
  unfold store_to Aes.Bitslice.store_to
  rw [out_bind, out_assert]
  congr 1; funext _
  refine out_onTo fun s => ?_
  rw [out_bind_ok (out_emit ..), out_copyFromSlice]
theorem out_mc (x : Block e) : (mc x).out = .ok (Aes.Bitslice.mc x) := by
  unfold mc
  rw [out_bind_ok (out_mixcolumns e x.val)]; rfl
theorem out_imc (x : Block e) : (imc x).out = .ok (Aes.Bitslice.imc x) := by
  unfold imc
  rw [out_bind_ok (out_invmixcolumns e x.val)]; rfl
theorem out_enc (x y : Block e) : (enc x y).out = .ok (Aes.Bitslice.enc x y) := by
  unfold enc
  rw [out_bind_ok (out_emit ..), out_bind_ok (out_shiftrows e _), out_bind_ok (out_subbytes _), out_bind_ok (out_mc _)]; rfl
theorem out_dec (x y : Block e) : (dec x y).out = .ok (Aes.Bitslice.dec x y) := by
  unfold dec
  rw [out_bind_ok (out_emit ..), out_bind_ok (out_invshiftrows e _), out_bind_ok (out_invsubbytes _), out_bind_ok (out_imc _)]; rfl
theorem out_enc_last (x y : Block e) : (enc_last x y).out = .ok (Aes.Bitslice.enc_last x y) := by
  unfold enc_last
  rw [out_bind_ok (out_emit ..), out_bind_ok (out_shiftrows e _), out_bind_ok (out_subbytes _)]; rfl
theorem out_dec_last (x y : Block e) : (dec_last x y).out = .ok (Aes.Bitslice.dec_last x y) := by
  unfold dec_last
  rw [out_bind_ok (out_emit ..), out_bind_ok (out_invshiftrows e _), out_bind_ok (out_invsubbytes _)]; rfl
theorem out_eq (x y : Block e) : (eq x y).out = .ok (decide (x = y)) := by
  show Except.ok (x.val == y.val) = _
  refine congrArg Except.ok ?_
  rw [Bool.eq_iff_iff]
  cases x; cases y
  simp
theorem out_keygen_128 (k : Vector U8 16) : (keygen_128 e k).out = Aes.Bitslice.keygen_128 e k := by
  unfold keygen_128 Aes.Bitslice.keygen_128
  rw [out_bind, Columns.out_columns_128 out_first]; rfl
theorem out_keygen_192 (k : Vector U8 24) : (keygen_192 e k).out = Aes.Bitslice.keygen_192 e k := by
  unfold keygen_192 Aes.Bitslice.keygen_192
  rw [out_bind, Columns.out_columns_192 out_first]; rfl
theorem out_keygen_256 (k : Vector U8 32) : (keygen_256 e k).out = Aes.Bitslice.keygen_256 e k := by
  unfold keygen_256 Aes.Bitslice.keygen_256
  rw [out_bind, Columns.out_columns_256 out_first out_fifth out_first]; rfl

instance (e : Endian) : ErasesBlock (Block e) where
  new _ := rfl
  from_bytes _ := rfl
  store_to := out_store_to
  zero := rfl
  is_zero _ := rfl
  eq := out_eq
  bitand _ _ := rfl
  bitor _ _ := rfl
  bitxor _ _ := rfl
  not _ := rfl
  enc := out_enc
  dec := out_dec
  enc_last := out_enc_last
  dec_last := out_dec_last
  pre := trivial
  mc := out_mc
  imc := out_imc
  keygen_128 := out_keygen_128
  keygen_192 := out_keygen_192
  keygen_256 := out_keygen_256

theorem same_store_to (x x' : Block e) (d d' : List U8) (h : SameLen d d') :
    Same SameLen (store_to x d) (store_to x' d') := by
  have h' : d.length = d'.length := h
  unfold store_to
  rw [h']
  exact Same.bind_any (Same.assert _) fun _ _ => Same.onTo h 16 fun s s' hs =>
    Same.bind_any (Same.emit _ _) fun _ _ => Same.copyFromSlice hs (by simp [SameLen])

instance (e : Endian) : QuietBlock (Block e) where
  new _ _ := Same.bind_any (Same.emit _ _) fun _ _ => Same.pure trivial
  from_bytes _ _ := Same.bind_any (Same.emit _ _) fun _ _ => Same.pure trivial
  store_to := same_store_to
  is_zero _ _ := Same.emit _ _
  bitand _ _ _ _ := Same.bind_any (Same.emit _ _) fun _ _ => Same.pure trivial
  bitor _ _ _ _ := Same.bind_any (Same.emit _ _) fun _ _ => Same.pure trivial
  bitxor _ _ _ _ := Same.bind_any (Same.emit _ _) fun _ _ => Same.pure trivial
  not _ _ := Same.bind_any (Same.emit _ _) fun _ _ => Same.pure trivial
  enc _ _ _ _ := Same.bind_any (Same.emit _ _) fun _ _ => Same.bind_any (same_shiftrows _ _ _) fun _ _ =>
    Same.bind_any (same_subbytes _ _) fun _ _ => Same.bind_any (Same.bind_any (same_mixcolumns _ _ _) fun _ _ => Same.pure trivial) fun _ _ =>
    Same.bind_any (Same.emit _ _) fun _ _ => Same.pure trivial
  dec _ _ _ _ := Same.bind_any (Same.emit _ _) fun _ _ => Same.bind_any (same_invshiftrows _ _ _) fun _ _ =>
    Same.bind_any (same_invsubbytes _ _) fun _ _ => Same.bind_any (Same.bind_any (same_invmixcolumns _ _ _) fun _ _ => Same.pure trivial) fun _ _ =>
    Same.bind_any (Same.emit _ _) fun _ _ => Same.pure trivial
  enc_last _ _ _ _ := Same.bind_any (Same.emit _ _) fun _ _ => Same.bind_any (same_shiftrows _ _ _) fun _ _ =>
    Same.bind_any (same_subbytes _ _) fun _ _ => Same.bind_any (Same.emit _ _) fun _ _ => Same.pure trivial
  dec_last _ _ _ _ := Same.bind_any (Same.emit _ _) fun _ _ => Same.bind_any (same_invshiftrows _ _ _) fun _ _ =>
    Same.bind_any (same_invsubbytes _ _) fun _ _ => Same.bind_any (Same.emit _ _) fun _ _ => Same.pure trivial
  pre p hp := by cases hp
  mc _ _ := Same.bind_any (same_mixcolumns _ _ _) fun _ _ => Same.pure trivial
  imc _ _ := Same.bind_any (same_invmixcolumns _ _ _) fun _ _ => Same.pure trivial
  keygen_128 k k' := Same.bind_any (Columns.same_columns_128 same_first e k k') fun _ _ => Same.pure trivial
  keygen_192 k k' := Same.bind_any (Columns.same_columns_192 same_first e k k') fun _ _ => Same.pure trivial
  keygen_256 k k' := Same.bind_any (Columns.same_columns_256 same_first same_fifth same_first e k k') fun _ _ => Same.pure trivial

end Aes.Leak.Bitslice
