import Verif.Proofs.LeakLib
import Verif.Model.LeakHw
/-! The hardware implementations with leakage: they compute what the models do, and leak nothing. -/
namespace Aes.Leak
open Rust

theorem out_ins {α : Type} (n : String) (a : α) : (ins n a).out = .ok a := rfl
theorem out_rawWrite {n : Nat} (s : List U8) (v : Vector U8 n) : (rawWrite s v).out = Rust.rawWrite s v := rfl
theorem out_unwrap' {ε α : Type} (x : Except ε α) : (Leak.unwrap x).out = Rust.unwrap x := by
  cases x <;> rfl
theorem same_rawWrite {n : Nat} {s s' : List U8} (h : SameLen s s') (v v' : Vector U8 n) :
    Same SameLen (rawWrite s v) (rawWrite s' v') := by
  have h' : s.length = s'.length := h
  refine ⟨rfl, ?_⟩
  simp only [out_rawWrite, Rust.rawWrite, h']
  by_cases hn : n ≤ s'.length
  · simp only [if_pos hn]
    show (v.toList ++ s.drop n).length = (v'.toList ++ s'.drop n).length
    simp [h']
  · simp only [if_neg hn]
/-- A `TryFrom` that cannot fail, and its `unwrap`. -/
theorem same_try_unwrap {B : Type} {n : Nat} {f : Vector U8 n → L B} (hf : ∀ b b', Same Any (f b) (f b')) {s s' : List U8}
    (h : SameLen s s') : Same Any (do Leak.unwrap (← try_from_slice n f s)) (do Leak.unwrap (← try_from_slice n f s')) := by
  have h' : s.length = s'.length := h
  refine Same.bind (R := fun a b => (∃ x y, a = .ok x ∧ b = .ok y) ∨ ∃ x y, a = .error x ∧ b = .error y) ?_ fun a b hab => ?_
  · unfold try_from_slice
    rw [h']
    refine Same.bind_any (Same.branch _) fun _ _ => ?_
    by_cases hl : s'.length ≥ n
    · rw [if_pos hl, if_pos hl]
      exact Same.bind_any (Same.rawRead h 0 n) fun a b => Same.bind_any (hf a b) fun _ _ => Same.pure (.inl ⟨_, _, rfl, rfl⟩)
    · rw [if_neg hl, if_neg hl]; exact Same.pure (.inr ⟨_, _, rfl, rfl⟩)
  · rcases hab with ⟨x, y, rfl, rfl⟩ | ⟨x, y, rfl, rfl⟩
    · exact ⟨rfl, trivial⟩
    · exact ⟨rfl, rfl⟩
theorem Same.bind_assoc {α β γ α' β' γ' : Type} {R : γ → γ' → Prop} {m : L α} {f : α → L β} {g : β → L γ} {m' : L α'} {f' : α' → L β'} {g' : β' → L γ'}
    (h : Same R ((m >>= f) >>= g) ((m' >>= f') >>= g')) : Same R (m >>= fun a => f a >>= g) (m' >>= fun a => f' a >>= g') := by
  have e : ∀ {α β γ : Type} (m : L α) (f : α → L β) (g : β → L γ), ((m >>= f) >>= g) = (m >>= fun a => f a >>= g) := by
    intro α β γ m f g
    show L.bind (L.bind m f) g = L.bind m fun a => L.bind (f a) g
    unfold L.bind
    cases m.out with
    | error e => rfl
    | ok a =>
      dsimp only
      cases (f a).out with
      | error e => rfl
      | ok b => simp [List.append_assoc]
  rwa [e, e] at h
theorem Same.bind_try {B γ δ : Type} {n : Nat} {f : Vector U8 n → L B} (hf : ∀ b b', Same Any (f b) (f b')) {s s' : List U8}
    (h : SameLen s s') {R : γ → δ → Prop} {g : B → L γ} {g' : B → L δ} (hg : ∀ a b, Same R (g a) (g' b)) :
    Same R (try_from_slice n f s >>= fun x => Leak.unwrap x >>= g) (try_from_slice n f s' >>= fun x => Leak.unwrap x >>= g') :=
  Same.bind_assoc (Same.bind_any (same_try_unwrap hf h) hg)
theorem same_store {n N : Nat} {d d' : List U8} (h : SameLen d d') (v v' : Vector U8 n) :
    Same SameLen (do Leak.assert (d.length ≥ N); rawWrite d v) (do Leak.assert (d'.length ≥ N); rawWrite d' v') := by
  have h' : d.length = d'.length := h
  rw [h']
  exact Same.bind_any (Same.assert _) fun _ _ => same_rawWrite h _ _

theorem Same.of_ok {α β : Type} {m : L α} {m' : L β} {a : α} {b : β} (ht : m.trace = m'.trace) (h : m.out = .ok a) (h' : m'.out = .ok b) :
    Same Any m m' := by
  refine ⟨ht, ?_⟩
  rw [h, h']
  trivial

/-- Walks through straight-line code. -/
macro "walk" : tactic => `(tactic|
  repeat (first
    | exact Same.emit _ _
    | exact Same.idx _ _ _
    | exact Same.pure trivial
    | refine Same.bind_any ?_ fun _ _ => ?_))

/-! ### AES-NI -/

namespace X86
open IsaX86
open Aes.X86 (Block)

theorem out_store_to (x : Block) (d : List U8) : (store_to x d).out = Aes.X86.store_to x d := by
  simp only [store_to, Aes.X86.store_to, out_bind, out_assert, out_rawWrite]; rfl
theorem out_from_bytes (b : Vector U8 16) : (from_bytes b).out = Aes.X86.from_bytes b := by
  simp only [from_bytes, Aes.X86.from_bytes, out_bind, out_rawRead]; rfl
theorem out_keyexp_128 (r : U8) (k : Block) : (keyexp_128 r k).out = .ok (Aes.X86.keyexp_128 r k) := rfl
theorem out_keyexp_256_1 (r : U8) (k l : Block) : (keyexp_256_1 r k l).out = .ok (Aes.X86.keyexp_256_1 r k l) := rfl
theorem out_keyexp_256_2 (k l : Block) : (keyexp_256_2 k l).out = .ok (Aes.X86.keyexp_256_2 k l) := rfl
theorem out_keyexp_192 (r s : U8) (k : Block × Block) : (keyexp_192 r s k).out = .ok (Aes.X86.keyexp_192 r s k) := rfl
theorem out_keygen_128 (k : Vector U8 16) : (keygen_128 k).out = Aes.X86.keygen_128 k := by
  simp only [keygen_128, Aes.X86.keygen_128, out_bind, out_from_bytes, out_keyexp_128, ok_bind]; rfl
theorem out_keygen_192 (k : Vector U8 24) : (keygen_192 k).out = Aes.X86.keygen_192 k := by
  have hs : Rust.sliceFrom k.toList 16 = .ok (k.toList.drop 16) := if_pos (by simp)
  simp only [keygen_192, Aes.X86.keygen_192, out_bind, out_sliceTo, hs, out_unwrap',
    out_try_from_slice (f := from_bytes) (g := Aes.X86.from_bytes) out_from_bytes,
    out_onTo (f := fun s => do copyFromSlice s (← sliceFrom k.toList 16)) (g := fun s => Rust.copyFromSlice s (k.toList.drop 16))
      (fun s => by simp only [out_bind, out_sliceFrom, hs, ok_bind, out_copyFromSlice]),
    out_onFrom (f := fun s => ⟨writes s.length, .ok (List.replicate s.length (0 : U8))⟩) (g := fun s => pure (List.replicate s.length (0 : U8))) (fun _ => rfl),
    out_from_bytes, out_keyexp_192, ok_bind]; rfl
theorem out_keygen_256 (k : Vector U8 32) : (keygen_256 k).out = Aes.X86.keygen_256 k := by
  simp only [keygen_256, Aes.X86.keygen_256, out_bind, out_sliceTo, out_sliceFrom, out_unwrap',
    out_try_from_slice (f := from_bytes) (g := Aes.X86.from_bytes) out_from_bytes, out_keyexp_256_1, out_keyexp_256_2, ok_bind]; rfl

instance : ErasesBlock Block where
  new _ := rfl
  from_bytes := out_from_bytes
  store_to := out_store_to
  zero := rfl
  is_zero _ := rfl
  eq _ _ := rfl
  bitand _ _ := rfl
  bitor _ _ := rfl
  bitxor _ _ := rfl
  not _ := rfl
  enc _ _ := rfl
  dec _ _ := rfl
  enc_last _ _ := rfl
  dec_last _ _ := rfl
  pre := trivial
  mc _ := rfl
  imc _ := rfl
  keygen_128 := out_keygen_128
  keygen_192 := out_keygen_192
  keygen_256 := out_keygen_256

theorem same_from_bytes (b b' : Vector U8 16) : Same Any (from_bytes b) (from_bytes b') :=
  Same.bind_any (Same.rawRead (by simp [SameLen]) 0 16) fun _ _ => Same.pure trivial
theorem same_mix (v v' : IsaX86.M128i) : Same Any (mix v) (mix v') := by unfold mix; walk
theorem same_assist (I R : U8) (v v' : IsaX86.M128i) : Same Any (assist I R v) (assist I R v') := by unfold assist; walk
theorem same_keyexp_128 (R : U8) (x x' : Block) : Same Any (keyexp_128 R x) (keyexp_128 R x') :=
  Same.bind_any (same_mix _ _) fun _ _ => Same.bind_any (same_assist _ _ _ _) fun _ _ => Same.emit _ _
theorem same_keyexp_256_1 (R : U8) (x y x' y' : Block) : Same Any (keyexp_256_1 R x y) (keyexp_256_1 R x' y') :=
  Same.bind_any (same_mix _ _) fun _ _ => Same.bind_any (same_assist _ _ _ _) fun _ _ => Same.emit _ _
theorem same_keyexp_256_2 (x y x' y' : Block) : Same Any (keyexp_256_2 x y) (keyexp_256_2 x' y') :=
  Same.bind_any (same_mix _ _) fun _ _ => Same.bind_any (same_assist _ _ _ _) fun _ _ => Same.emit _ _
theorem same_fwd (R : U8) (x y x' y' : Block) : Same Any (fwd R x y) (fwd R x' y') := by
  unfold fwd
  refine Same.bind_any (same_mix _ _) fun _ _ => Same.bind_any (same_assist _ _ _ _) fun _ _ => ?_
  walk
theorem same_keyexp_192 (R1 R2 : U8) (x x' : Block × Block) : Same Any (keyexp_192 R1 R2 x) (keyexp_192 R1 R2 x') :=
  Same.bind_any (same_fwd _ _ _ _ _) fun _ _ => Same.bind_any (Same.emit _ _) fun _ _ => Same.bind_any (Same.emit _ _) fun _ _ =>
    Same.bind_any (same_fwd _ _ _ _ _) fun _ _ => Same.pure trivial
theorem same_keygen_128 (k k' : Vector U8 16) : Same Any (keygen_128 k) (keygen_128 k') := by
  unfold keygen_128
  refine Same.bind_any (same_from_bytes _ _) fun _ _ => ?_
  iterate 10 refine Same.bind_any (same_keyexp_128 _ _ _) fun _ _ => ?_
  exact Same.pure trivial
theorem same_keygen_192 (k k' : Vector U8 24) : Same Any (keygen_192 k) (keygen_192 k') := by
  unfold keygen_192
  refine Same.bind (Same.sliceTo (by simp [SameLen]) 16) fun _ _ h => ?_
  refine Same.bind_try same_from_bytes h fun _ _ => ?_
  refine Same.bind (Same.onTo rfl 8 fun _ _ hs =>
    Same.bind (Same.sliceFrom (s := k.toList) (s' := k'.toList) (by simp [SameLen]) 16) fun _ _ h => Same.copyFromSlice hs h) fun _ _ h => ?_
  refine Same.bind (Same.onFrom h 8 fun s s' hs => ?_) fun _ _ h => ?_
  · have hs' : s.length = s'.length := hs
    rw [hs']
    exact ⟨rfl, rfl⟩
  refine Same.bind_any (Same.quietArray h 16) fun _ _ => ?_
  refine Same.bind_any (same_from_bytes _ _) fun _ _ => ?_
  iterate 4 refine Same.bind_any (same_keyexp_192 _ _ _ _) fun _ _ => ?_
  exact Same.pure trivial
theorem same_keygen_256 (k k' : Vector U8 32) : Same Any (keygen_256 k) (keygen_256 k') := by
  unfold keygen_256
  refine Same.bind (Same.sliceTo (by simp [SameLen]) 16) fun _ _ h => ?_
  refine Same.bind_try same_from_bytes h fun _ _ => ?_
  refine Same.bind (Same.sliceFrom (by simp [SameLen]) 16) fun _ _ h => ?_
  refine Same.bind_try same_from_bytes h fun _ _ => ?_
  iterate 6
    refine Same.bind_any (same_keyexp_256_1 _ _ _ _ _) fun _ _ => ?_
    refine Same.bind_any (same_keyexp_256_2 _ _ _ _) fun _ _ => ?_
  exact Same.bind_any (same_keyexp_256_1 _ _ _ _ _) fun _ _ => Same.pure trivial

instance : QuietBlock Block where
  new _ _ := Same.emit _ _
  from_bytes := same_from_bytes
  store_to x x' d d' h := same_store h x.val x'.val
  is_zero _ _ := by unfold LVec.is_zero; exact Same.bind_any (Same.emit _ _) fun _ _ => Same.emit _ _
  bitand _ _ _ _ := Same.emit _ _
  bitor _ _ _ _ := Same.emit _ _
  bitxor _ _ _ _ := Same.emit _ _
  not _ _ := Same.emit _ _
  enc _ _ _ _ := Same.emit _ _
  dec _ _ _ _ := Same.emit _ _
  enc_last _ _ _ _ := Same.emit _ _
  dec_last _ _ _ _ := Same.emit _ _
  pre p hp := by cases hp
  mc _ _ := Same.bind_any (Same.emit _ _) fun _ _ => Same.emit _ _
  imc _ _ := Same.emit _ _
  keygen_128 := same_keygen_128
  keygen_192 := same_keygen_192
  keygen_256 := same_keygen_256
end X86

namespace NiX2
open Aes.NiX2 (X2)
theorem out_store_to (x : X2) (d : List U8) : (store_to x d).out = Aes.NiX2.store_to x d := by
  simp only [store_to, Aes.NiX2.store_to, out_bind, out_assert, out_rawWrite]; rfl
theorem out_from_bytes (b : Vector U8 32) : (from_bytes b).out = Aes.NiX2.from_bytes b := by
  simp only [from_bytes, Aes.NiX2.from_bytes, out_bind, out_rawRead]; rfl

instance : Erases X2 where
  new _ := rfl
  from_bytes := out_from_bytes
  store_to := out_store_to
  zero := rfl
  is_zero _ := rfl
  eq _ _ := rfl
  bitand _ _ := rfl
  bitor _ _ := rfl
  bitxor _ _ := rfl
  not _ := rfl
  enc _ _ := rfl
  dec _ _ := rfl
  enc_last _ _ := rfl
  dec_last _ _ := rfl
  pre := trivial

instance : Quiet X2 where
  new _ _ := Same.emit _ _
  from_bytes _ _ := Same.bind_any (Same.rawRead (by simp [SameLen]) 0 32) fun _ _ => Same.pure trivial
  store_to x x' d d' h := same_store h x.val x'.val
  is_zero _ _ := Same.bind_any (Same.emit _ _) fun _ _ => Same.emit _ _
  bitand _ _ _ _ := Same.emit _ _
  bitor _ _ _ _ := Same.emit _ _
  bitxor _ _ _ _ := Same.emit _ _
  not _ _ := Same.emit _ _
  enc _ _ _ _ := Same.emit _ _
  dec _ _ _ _ := Same.emit _ _
  enc_last _ _ _ _ := Same.emit _ _
  dec_last _ _ _ _ := Same.emit _ _
  pre p hp := by cases hp
end NiX2

namespace NiX4
open Aes.NiX4 (X4)
theorem out_store_to (x : X4) (d : List U8) : (store_to x d).out = Aes.NiX4.store_to x d := by
  simp only [store_to, Aes.NiX4.store_to, out_bind, out_assert, out_rawWrite]; rfl
theorem out_from_bytes (b : Vector U8 64) : (from_bytes b).out = Aes.NiX4.from_bytes b := by
  simp only [from_bytes, Aes.NiX4.from_bytes, out_bind, out_rawRead]; rfl

instance : Erases X4 where
  new _ := rfl
  from_bytes := out_from_bytes
  store_to := out_store_to
  zero := rfl
  is_zero _ := rfl
  eq _ _ := rfl
  bitand _ _ := rfl
  bitor _ _ := rfl
  bitxor _ _ := rfl
  not _ := rfl
  enc _ _ := rfl
  dec _ _ := rfl
  enc_last _ _ := rfl
  dec_last _ _ := rfl
  pre := trivial

instance : Quiet X4 where
  new _ _ := Same.emit _ _
  from_bytes _ _ := Same.bind_any (Same.rawRead (by simp [SameLen]) 0 64) fun _ _ => Same.pure trivial
  store_to x x' d d' h := same_store h x.val x'.val
  is_zero _ _ := Same.bind_any (Same.emit _ _) fun _ _ => Same.emit _ _
  bitand _ _ _ _ := Same.emit _ _
  bitor _ _ _ _ := Same.emit _ _
  bitxor _ _ _ _ := Same.emit _ _
  not _ _ := Same.emit _ _
  enc _ _ _ _ := Same.emit _ _
  dec _ _ _ _ := Same.emit _ _
  enc_last _ _ _ _ := Same.emit _ _
  dec_last _ _ _ _ := Same.emit _ _
  pre p hp := by cases hp
end NiX4

/-! ### Arm -/

namespace Arm
open Aes.Arm (Block)
variable {is32 : Bool}
theorem out_store_to (x : Block is32) (d : List U8) : (store_to x d).out = Aes.Arm.store_to x d := by
  simp only [store_to, Aes.Arm.store_to, out_bind, out_assert, out_rawWrite]; rfl
theorem out_from_bytes (b : Vector U8 16) : (from_bytes b : L (Block is32)).out = Aes.Arm.from_bytes b := by
  simp only [from_bytes, Aes.Arm.from_bytes, out_bind, out_rawRead]; rfl
theorem out_is_zero (x : Block is32) : (is_zero x).out = .ok (Aes.Arm.is_zero x) := by
  cases is32 <;> rfl
theorem out_first {n : Nat} : Columns.FirstIs (n := n) first Aes.Arm.first := by
  intro c i j r
  unfold first
  simp only [out_bind, out_idx, out_emit, Leak.rotr, Leak.xor, ok_bind]
  rcases Columns.idx_cases c i with ⟨a, ha⟩ | ha <;> rcases Columns.idx_cases c j with ⟨b, hb⟩ | hb <;>
    rcases Columns.idx_cases Aes.Columns.RCON r with ⟨d, hd⟩ | hd <;> rw [ha, hb, hd] <;> rfl
theorem out_fifth {n : Nat} : Columns.FifthIs (n := n) fifth Aes.Arm.fifth := by
  intro c i j
  unfold fifth
  simp only [out_bind, out_idx, out_emit, Leak.xor]
  rcases Columns.idx_cases c i with ⟨a, ha⟩ | ha <;> rcases Columns.idx_cases c j with ⟨b, hb⟩ | hb <;> rw [ha, hb] <;> rfl
theorem out_keygen_128 (k : Vector U8 16) : (keygen_128 is32 k).out = Aes.Arm.keygen_128 is32 k := by
  unfold keygen_128 Aes.Arm.keygen_128
  rw [out_bind, Columns.out_columns_128 out_first]; rfl
theorem out_keygen_192 (k : Vector U8 24) : (keygen_192 is32 k).out = Aes.Arm.keygen_192 is32 k := by
  unfold keygen_192 Aes.Arm.keygen_192
  rw [out_bind, Columns.out_columns_192 out_first]; rfl
theorem out_keygen_256 (k : Vector U8 32) : (keygen_256 is32 k).out = Aes.Arm.keygen_256 is32 k := by
  unfold keygen_256 Aes.Arm.keygen_256
  rw [out_bind, Columns.out_columns_256 out_first out_fifth out_first]; rfl

instance : ErasesBlock (Block is32) where
  new _ := rfl
  from_bytes := out_from_bytes
  store_to := out_store_to
  zero := rfl
  is_zero := out_is_zero
  eq _ _ := out_is_zero _
  bitand _ _ := rfl
  bitor _ _ := rfl
  bitxor _ _ := rfl
  not _ := rfl
  enc _ _ := rfl
  dec _ _ := rfl
  enc_last _ _ := rfl
  dec_last _ _ := rfl
  pre _ _ := ⟨rfl, rfl⟩
  mc _ := rfl
  imc _ := rfl
  keygen_128 := out_keygen_128
  keygen_192 := out_keygen_192
  keygen_256 := out_keygen_256

theorem same_is_zero (x x' : Block is32) : Same Any (is_zero x) (is_zero x') := by
  cases is32 <;> (unfold is_zero; dsimp only; walk)
theorem same_first {n : Nat} : Columns.FirstSame (n := n) first := by intro c c' i j r; unfold first; walk
theorem same_fifth {n : Nat} : Columns.FifthSame (n := n) fifth := by intro c c' i j; unfold fifth; walk

instance : QuietBlock (Block is32) where
  new _ _ := Same.emit _ _
  from_bytes _ _ := Same.bind_any (Same.rawRead (by simp [SameLen]) 0 16) fun _ _ => Same.pure trivial
  store_to x x' d d' h := same_store h x.val x'.val
  is_zero := same_is_zero
  bitand _ _ _ _ := Same.emit _ _
  bitor _ _ _ _ := Same.emit _ _
  bitxor _ _ _ _ := Same.emit _ _
  not _ _ := Same.emit _ _
  enc x y x' y' := by show Same Any (enc x y) (enc x' y'); unfold enc; walk
  dec x y x' y' := by show Same Any (dec x y) (dec x' y'); unfold dec; walk
  enc_last x y x' y' := by show Same Any (enc_last x y) (enc_last x' y'); unfold enc_last; walk
  dec_last x y x' y' := by show Same Any (dec_last x y) (dec_last x' y'); unfold dec_last; walk
  pre p hp x y x' y' := by
    cases hp
    exact ⟨Same.bind_any (Same.emit _ _) fun _ _ => Same.emit _ _, Same.bind_any (Same.emit _ _) fun _ _ => Same.emit _ _⟩
  mc _ _ := Same.emit _ _
  imc _ _ := Same.emit _ _
  keygen_128 k k' := Same.bind_any (Columns.same_columns_128 same_first _ k k') fun _ _ => Same.pure trivial
  keygen_192 k k' := Same.bind_any (Columns.same_columns_192 same_first _ k k') fun _ _ => Same.pure trivial
  keygen_256 k k' := Same.bind_any (Columns.same_columns_256 same_first same_fifth same_first _ k k') fun _ _ => Same.pure trivial
end Arm

/-! ### RISC-V -/

namespace Riscv64
open Aes.Riscv64 (Block)
theorem out_store_to (x : Block) (d : List U8) : (store_to x d).out = Aes.Riscv64.store_to x d := by
  simp only [store_to, Aes.Riscv64.store_to, out_bind, out_assert, out_rawWrite]
theorem out_from_bytes (b : Vector U8 16) : (from_bytes b).out = Aes.Riscv64.from_bytes b := rfl
theorem out_eq (x y : Block) : (eq x y).out = .ok (decide (x = y)) := by
  unfold eq
  rw [out_andAlso (x := x.d0 == y.d0) (y := x.d1 == y.d1) rfl rfl]
  refine congrArg Except.ok ?_
  rw [Bool.eq_iff_iff]
  cases x; cases y
  simp
theorem out_keyexp_128 (r : Nat) (k : Block) : (keyexp_128 r k).out = .ok (Aes.Riscv64.keyexp_128 r k) := rfl
theorem out_keyexp_256_1 (r : Nat) (k l : Block) : (keyexp_256_1 r k l).out = .ok (Aes.Riscv64.keyexp_256_1 r k l) := rfl
theorem out_keyexp_256_2 (k l : Block) : (keyexp_256_2 k l).out = .ok (Aes.Riscv64.keyexp_256_2 k l) := rfl
theorem out_keyexp_192 (r : Nat) (k : U64 × U64 × U64) : (keyexp_192 r k).out = .ok (Aes.Riscv64.keyexp_192 r k) := rfl
theorem out_ks (r : Nat) (a b : U64) : (ks r a b).out = .ok (IsaRiscv.aes64ks2 (IsaRiscv.aes64ks1i a r) b) := rfl
theorem out_load_u64 (k : List U8) (i : Nat) : (load_u64 k i).out = Aes.Riscv64.load_u64 k i := by
  simp only [load_u64, Aes.Riscv64.load_u64, out_bind, out_sliceTo, out_sliceFrom, out_arrayTryFrom, out_emit]; rfl
theorem out_keygen_128 (k : Vector U8 16) : (keygen_128 k).out = Aes.Riscv64.keygen_128 k := by
  simp only [keygen_128, Aes.Riscv64.keygen_128, out_bind, out_from_bytes, out_keyexp_128, ok_bind]; rfl
theorem out_keygen_192 (k : Vector U8 24) : (keygen_192 k).out = Aes.Riscv64.keygen_192 k := by
  simp only [keygen_192, Aes.Riscv64.keygen_192, out_bind, out_load_u64, out_keyexp_192, out_ks, out_ins, ok_bind]; rfl
theorem out_keygen_256 (k : Vector U8 32) : (keygen_256 k).out = Aes.Riscv64.keygen_256 k := by
  simp only [keygen_256, Aes.Riscv64.keygen_256, out_bind, out_sliceTo, out_sliceFrom, out_unwrap',
    out_try_from_slice (f := from_bytes) (g := Aes.Riscv64.from_bytes) out_from_bytes, out_keyexp_256_1, out_keyexp_256_2, ok_bind]; rfl

instance : ErasesBlock Block where
  new _ := rfl
  from_bytes _ := rfl
  store_to := out_store_to
  zero := rfl
  is_zero _ := rfl
  eq := out_eq
  bitand _ _ := rfl
  bitor _ _ := rfl
  bitxor _ _ := rfl
  not _ := rfl
  enc _ _ := rfl
  dec _ _ := rfl
  enc_last _ _ := rfl
  dec_last _ _ := rfl
  pre := trivial
  mc _ := rfl
  imc _ := rfl
  keygen_128 := out_keygen_128
  keygen_192 := out_keygen_192
  keygen_256 := out_keygen_256

theorem same_from_bytes (b b' : Vector U8 16) : Same Any (from_bytes b) (from_bytes b') := Same.emit _ _
theorem same_keyexp_128 (r : Nat) (k k' : Block) : Same Any (keyexp_128 r k) (keyexp_128 r k') := by unfold keyexp_128; walk
theorem same_keyexp_256_1 (r : Nat) (k l k' l' : Block) : Same Any (keyexp_256_1 r k l) (keyexp_256_1 r k' l') := by
  unfold keyexp_256_1; walk
theorem same_keyexp_256_2 (k l k' l' : Block) : Same Any (keyexp_256_2 k l) (keyexp_256_2 k' l') := by
  unfold keyexp_256_2; walk
theorem same_keyexp_192 (r : Nat) (k k' : U64 × U64 × U64) : Same Any (keyexp_192 r k) (keyexp_192 r k') := by
  unfold keyexp_192; walk
theorem same_load_u64 {s s' : List U8} (h : SameLen s s') (i : Nat) : Same Any (load_u64 s i) (load_u64 s' i) :=
  Same.bind (Same.sliceTo h _) fun _ _ h => Same.bind (Same.sliceFrom h _) fun _ _ h => Same.bind_any (Same.arrayTryFrom h 8) fun _ _ =>
    Same.emit _ _
theorem same_keygen_128 (k k' : Vector U8 16) : Same Any (keygen_128 k) (keygen_128 k') := by
  unfold keygen_128
  refine Same.bind_any (same_from_bytes _ _) fun _ _ => ?_
  iterate 10 refine Same.bind_any (same_keyexp_128 _ _ _) fun _ _ => ?_
  exact Same.pure trivial
theorem same_keygen_192 (k k' : Vector U8 24) : Same Any (keygen_192 k) (keygen_192 k') := by
  unfold keygen_192
  iterate 3 refine Same.bind_any (same_load_u64 (by simp [SameLen]) _) fun _ _ => ?_
  iterate 7 refine Same.bind_any (same_keyexp_192 _ _ _) fun _ _ => ?_
  walk
theorem same_keygen_256 (k k' : Vector U8 32) : Same Any (keygen_256 k) (keygen_256 k') := by
  unfold keygen_256
  refine Same.bind (Same.sliceTo (by simp [SameLen]) 16) fun _ _ h => ?_
  refine Same.bind_try same_from_bytes h fun _ _ => ?_
  refine Same.bind (Same.sliceFrom (by simp [SameLen]) 16) fun _ _ h => ?_
  refine Same.bind_try same_from_bytes h fun _ _ => ?_
  iterate 6
    refine Same.bind_any (same_keyexp_256_1 _ _ _ _ _) fun _ _ => ?_
    refine Same.bind_any (same_keyexp_256_2 _ _ _ _) fun _ _ => ?_
  exact Same.bind_any (same_keyexp_256_1 _ _ _ _ _) fun _ _ => Same.pure trivial

instance : QuietBlock Block where
  new _ _ := Same.emit _ _
  from_bytes := same_from_bytes
  store_to x x' d d' h := same_store h _ _
  is_zero _ _ := Same.bind_any (Same.emit _ _) fun _ _ => Same.emit _ _
  bitand x y x' y' := by show Same Any (bitand x y) (bitand x' y'); unfold bitand; walk
  bitor x y x' y' := by show Same Any (bitor x y) (bitor x' y'); unfold bitor; walk
  bitxor x y x' y' := by show Same Any (bitxor x y) (bitxor x' y'); unfold bitxor; walk
  enc x y x' y' := by show Same Any (enc x y) (enc x' y'); unfold enc; walk
  dec x y x' y' := by show Same Any (dec x y) (dec x' y'); unfold dec; walk
  enc_last x y x' y' := by show Same Any (enc_last x y) (enc_last x' y'); unfold enc_last; walk
  dec_last x y x' y' := by show Same Any (dec_last x y) (dec_last x' y'); unfold dec_last; walk
  not x x' := by show Same Any (not x) (not x'); unfold not; walk
  pre p hp := by cases hp
  mc x x' := by show Same Any (mc x) (mc x'); unfold mc; walk
  imc x x' := by show Same Any (imc x) (imc x'); unfold imc; walk
  keygen_128 := same_keygen_128
  keygen_192 := same_keygen_192
  keygen_256 := same_keygen_256
end Riscv64

namespace Riscv32
open Aes.Riscv32 (Block)
theorem out_store_to (x : Block) (d : List U8) : (store_to x d).out = Aes.Riscv32.store_to x d := by
  simp only [store_to, Aes.Riscv32.store_to, out_bind, out_assert, out_rawWrite]
theorem out_eq (x y : Block) : (eq x y).out = .ok (decide (x = y)) := by
  unfold eq
  rw [out_andAlso (x := x.w0 == y.w0) (y := x.w1 == y.w1 && (x.w2 == y.w2 && x.w3 == y.w3)) rfl
    (out_andAlso rfl (out_andAlso rfl rfl))]
  refine congrArg Except.ok ?_
  rw [Bool.eq_iff_iff]
  cases x; cases y
  simp
theorem out_sub_word (x y : U32) : (sub_word x y).out = .ok (Aes.Riscv32.sub_word x y) := rfl
theorem err_bind {α β : Type} (e : Fault) (f : α → M β) : ((.error e : M α) >>= f) = .error e := rfl
theorem out_rotr (x : U32) (k : Nat) : (Leak.rotr x k).out = .ok (x.rotateRight k) := rfl
theorem out_first {n : Nat} : Columns.FirstIs (n := n) first Aes.Riscv32.first := by
  intro c i j r
  unfold first Aes.Riscv32.first
  simp only [out_bind, out_idx, Columns.out_xor, out_sub_word, ok_bind]
  rcases Columns.idx_cases c i with ⟨a, ha⟩ | ha <;> rcases Columns.idx_cases c j with ⟨b, hb⟩ | hb <;>
    rcases Columns.idx_cases Aes.Columns.RCON r with ⟨d, hd⟩ | hd <;> simp only [ha, hb, hd, ok_bind, err_bind]
theorem out_first_256 {n : Nat} : Columns.FirstIs (n := n) first_256 Aes.Riscv32.first_256 := by
  intro c i j r
  unfold first_256 Aes.Riscv32.first_256
  simp only [out_bind, out_idx, Columns.out_xor, out_sub_word, out_rotr, ok_bind]
  rcases Columns.idx_cases c i with ⟨a, ha⟩ | ha <;> rcases Columns.idx_cases c j with ⟨b, hb⟩ | hb <;>
    rcases Columns.idx_cases Aes.Columns.RCON r with ⟨d, hd⟩ | hd <;> simp only [ha, hb, hd, ok_bind, err_bind]
theorem out_fifth {n : Nat} : Columns.FifthIs (n := n) fifth Aes.Riscv32.fifth := by
  intro c i j
  unfold fifth Aes.Riscv32.fifth
  simp only [out_bind, out_idx, out_sub_word]
theorem out_keygen_128 (k : Vector U8 16) : (keygen_128 k).out = Aes.Riscv32.keygen_128 k := by
  unfold keygen_128 Aes.Riscv32.keygen_128
  rw [out_bind, Columns.out_columns_128 out_first]; rfl
theorem out_keygen_192 (k : Vector U8 24) : (keygen_192 k).out = Aes.Riscv32.keygen_192 k := by
  unfold keygen_192 Aes.Riscv32.keygen_192
  rw [out_bind, Columns.out_columns_192 out_first]; rfl
theorem out_keygen_256 (k : Vector U8 32) : (keygen_256 k).out = Aes.Riscv32.keygen_256 k := by
  unfold keygen_256 Aes.Riscv32.keygen_256
  rw [out_bind, Columns.out_columns_256 out_first_256 out_fifth out_first]; rfl

instance : ErasesBlock Block where
  new _ := rfl
  from_bytes _ := rfl
  store_to := out_store_to
  zero := rfl
  is_zero _ := rfl
  eq := out_eq
  bitand _ _ := rfl
  bitor _ _ := rfl
  bitxor _ _ := rfl
  not _ := rfl
  enc _ _ := rfl
  dec _ _ := rfl
  enc_last _ _ := rfl
  dec_last _ _ := rfl
  pre _ _ := ⟨rfl, rfl⟩
  mc _ := rfl
  imc _ := rfl
  keygen_128 := out_keygen_128
  keygen_192 := out_keygen_192
  keygen_256 := out_keygen_256

theorem same_outer (s : String) (f : U32 → U32 → Nat → U32) (x y x' y' : Block) : Same Any (outer s f x y) (outer s f x' y') := by
  unfold outer; walk
theorem same_xor (x y x' y' : Block) : Same Any (bitxor x y) (bitxor x' y') := by unfold bitxor; walk
theorem same_enc (x y x' y' : Block) : Same Any (enc x y) (enc x' y') :=
  Same.bind_any (Same.pure trivial) fun _ _ => Same.bind_any (same_outer _ _ _ _ _ _) fun _ _ => same_xor _ _ _ _
theorem same_dec (x y x' y' : Block) : Same Any (dec x y) (dec x' y') :=
  Same.bind_any (Same.pure trivial) fun _ _ => Same.bind_any (same_outer _ _ _ _ _ _) fun _ _ => same_xor _ _ _ _
theorem same_sub_word (x y x' y' : U32) : Same Any (sub_word x y) (sub_word x' y') := by unfold sub_word inner; walk
theorem same_first {n : Nat} : Columns.FirstSame (n := n) first := fun _ _ _ _ _ =>
  Same.bind_any (Same.idx _ _ _) fun _ _ => Same.bind_any (Same.idx _ _ _) fun _ _ => Same.bind_any (Same.emit _ _) fun _ _ =>
  Same.bind_any (Same.idx _ _ _) fun _ _ => same_sub_word _ _ _ _
theorem same_first_256 {n : Nat} : Columns.FirstSame (n := n) first_256 := fun _ _ _ _ _ =>
  Same.bind_any (Same.idx _ _ _) fun _ _ => Same.bind_any (Same.idx _ _ _) fun _ _ => Same.bind_any (Same.emit _ _) fun _ _ =>
  Same.bind_any (Same.idx _ _ _) fun _ _ => Same.bind_any (Same.emit _ _) fun _ _ => same_sub_word _ _ _ _
theorem same_fifth {n : Nat} : Columns.FifthSame (n := n) fifth := fun _ _ _ _ =>
  Same.bind_any (Same.idx _ _ _) fun _ _ => Same.bind_any (Same.idx _ _ _) fun _ _ => same_sub_word _ _ _ _
theorem as_blocks_ok {N : Nat} (c : Vector U32 (4 * N)) : ∃ b, Aes.Riscv32.as_blocks c = .ok b := by
  refine ⟨(Aes.Columns.block_bytes .little c).map fun b => ⟨fromLe 32 (Vector.ofFn fun i : Fin 4 => b[i.val]),
    fromLe 32 (Vector.ofFn fun i : Fin 4 => b[4 + i.val]), fromLe 32 (Vector.ofFn fun i : Fin 4 => b[8 + i.val]),
    fromLe 32 (Vector.ofFn fun i : Fin 4 => b[12 + i.val])⟩, ?_⟩
  unfold Aes.Riscv32.as_blocks Aes.Riscv32.new
  exact Vector.mapM_pure ..
theorem same_as_blocks {N : Nat} (c c' : Vector U32 (4 * N)) : Same Any (as_blocks c) (as_blocks c') := by
  obtain ⟨b, hb⟩ := as_blocks_ok c
  obtain ⟨b', hb'⟩ := as_blocks_ok c'
  exact Same.of_ok rfl hb hb'

instance : QuietBlock Block where
  new _ _ := ⟨rfl, trivial⟩
  from_bytes _ _ := ⟨rfl, trivial⟩
  store_to x x' d d' h := same_store h _ _
  is_zero x x' := by show Same Any (is_zero x) (is_zero x'); unfold is_zero; walk
  bitand x y x' y' := by show Same Any (bitand x y) (bitand x' y'); unfold bitand; walk
  bitor x y x' y' := by show Same Any (bitor x y) (bitor x' y'); unfold bitor; walk
  bitxor := same_xor
  not x x' := by show Same Any (not x) (not x'); unfold not; walk
  enc := same_enc
  dec := same_dec
  enc_last _ _ _ _ := Same.bind_any (Same.pure trivial) fun _ _ => Same.bind_any (same_outer _ _ _ _ _ _) fun _ _ => same_xor _ _ _ _
  dec_last _ _ _ _ := Same.bind_any (Same.pure trivial) fun _ _ => Same.bind_any (same_outer _ _ _ _ _ _) fun _ _ => same_xor _ _ _ _
  pre p hp x y x' y' := by
    cases hp
    exact ⟨same_outer _ _ _ _ _ _, same_outer _ _ _ _ _ _⟩
  mc _ _ := Same.bind_any (Same.pure trivial) fun _ _ => Same.bind_any (same_outer _ _ _ _ _ _) fun _ _ =>
    Same.bind_any (Same.pure trivial) fun _ _ => same_enc _ _ _ _
  imc _ _ := Same.bind_any (Same.pure trivial) fun _ _ => Same.bind_any (same_outer _ _ _ _ _ _) fun _ _ =>
    Same.bind_any (Same.pure trivial) fun _ _ => same_dec _ _ _ _
  keygen_128 k k' := Same.bind_any (Columns.same_columns_128 same_first _ k k') fun _ _ => same_as_blocks _ _
  keygen_192 k k' := Same.bind_any (Columns.same_columns_192 same_first _ k k') fun _ _ => same_as_blocks _ _
  keygen_256 k k' := Same.bind_any (Columns.same_columns_256 same_first_256 same_fifth same_first _ k k') fun _ _ => same_as_blocks _ _
end Riscv32
end Aes.Leak
