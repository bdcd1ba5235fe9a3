import Verif.Proofs.Bytes
import Verif.Model.Lib
/-! Evaluation lemmas for the Rust fragment. -/
namespace Rust

@[simp] theorem bind_ok {α β} (a : α) (f : α → M β) : (Except.ok a >>= f : M β) = f a := rfl
@[simp] theorem bind_error {α β} (e : Fault) (f : α → M β) : (Except.error e >>= f : M β) = .error e := rfl
@[simp] theorem pure_ok {α} (a : α) : (pure a : M α) = .ok a := rfl
@[simp] theorem assert_true : assert true = .ok () := rfl
@[simp] theorem assert_false : assert false = .error .panic := rfl

theorem bind_of_bind_ok {α β γ} {x : M α} {f : α → M β} {b : β} (h : (x >>= f) = .ok b) (g : β → M γ) :
    (x >>= fun a => f a >>= g) = g b := by
  cases x with
  | error e => cases h
  | ok a => simp only [bind_ok] at h ⊢; rw [h]; rfl

theorem assert_ge {a b : Nat} (h : b ≤ a) : assert (decide (a ≥ b)) = .ok () := by
  simp [h]
theorem assert_ge_not {a b : Nat} (h : a < b) : assert (decide (a ≥ b)) = .error .panic := by
  simp [show ¬ b ≤ a by omega]

/-- Bytes `off..off+m-1`. -/
def slice {n : Nat} (v : Vector U8 n) (off m : Nat) (h : off + m ≤ n) : Vector U8 m :=
  Vector.ofFn fun i => v[off + i.val]

@[simp] theorem getElem_slice {n : Nat} (v : Vector U8 n) (off m : Nat) (h : off + m ≤ n) (i : Nat) (hi : i < m) :
    (slice v off m h)[i] = v[off + i] := by simp [slice]

theorem slice_all {n : Nat} (v : Vector U8 n) : slice v 0 n (by omega) = v := by
  apply Vector.ext; intro i hi; simp

theorem rawRead_slice {n : Nat} (v : Vector U8 n) (off m : Nat) (h : off + m ≤ n) :
    rawRead v.toList off m = .ok (slice v off m h) := by
  unfold rawRead
  rw [dif_pos (by simpa using h)]
  congr 1
  apply Vector.ext; intro i hi
  simp

theorem rawRead_all {n : Nat} (v : Vector U8 n) : rawRead v.toList 0 n = .ok v := by
  rw [rawRead_slice v 0 n (by omega), slice_all]

theorem rawRead_ok (s : List U8) (n : Nat) (h : n ≤ s.length) :
    rawRead s 0 n = .ok ⟨(s.take n).toArray, by simp; omega⟩ := by
  unfold rawRead
  rw [dif_pos (by omega)]
  simp

theorem rawWrite_ok {n : Nat} (s : List U8) (v : Vector U8 n) (h : n ≤ s.length) :
    rawWrite s v = .ok (v.toList ++ s.drop n) := by
  unfold rawWrite; rw [if_pos h]

theorem sidx_ok {α} (s : List α) (i : Nat) (h : i < s.length) : sidx s i = .ok s[i] := by
  unfold sidx; rw [dif_pos h]
theorem idx_ok {α n} (v : Vector α n) (i : Nat) (h : i < n) : idx v i = .ok v[i] := by
  unfold idx; rw [dif_pos h]
theorem upd_ok {α n} (v : Vector α n) (i : Nat) (x : α) (h : i < n) : upd v i x = .ok (v.set i x) := by
  unfold upd; rw [dif_pos h]
theorem supd_ok {α} (s : List α) (i : Nat) (x : α) (h : i < s.length) : supd s i x = .ok (s.set i x) := by
  unfold supd; rw [if_pos h]
theorem sliceTo_ok {α} (s : List α) (k : Nat) (h : k ≤ s.length) : sliceTo s k = .ok (s.take k) := by
  unfold sliceTo; rw [if_pos h]
theorem sliceFrom_ok {α} (s : List α) (k : Nat) (h : k ≤ s.length) : sliceFrom s k = .ok (s.drop k) := by
  unfold sliceFrom; rw [if_pos h]

theorem arrayTryFrom_ok {α n} (s : List α) (h : s.length = n) :
    arrayTryFrom n s = .ok ⟨s.toArray, by simpa using h⟩ := by
  unfold arrayTryFrom; rw [dif_pos h]
theorem arrayTryFrom_toList {α n} (v : Vector α n) : arrayTryFrom n v.toList = .ok v := by
  rw [arrayTryFrom_ok _ (by simp)]
  congr 1


/-- `fromLe` is zero exactly on zero bytes. -/
theorem fromLe_eq_zero {n w : Nat} (v : Vector U8 n) (hw : w = 8 * n) : fromLe w v = 0 ↔ v = Vector.replicate n 0#8 := by
  constructor
  · intro h
    have := congrArg (toLe n) h
    rwa [toLe_fromLe _ _ (by omega), toLe_zero] at this
  · rintro rfl
    rw [← toLe_zero (w := w) n, fromLe_toLe _ (by omega)]

theorem or_eq_zero {w : Nat} (a b : BitVec w) : a ||| b = 0 ↔ a = 0 ∧ b = 0 := by
  simp

@[simp] theorem fin4_three : (3 : Fin 4).val = 3 := rfl

end Rust

namespace Aes
open Rust

theorem try_from_slice_ok {T : Type} {n : Nat} {from_ : Vector U8 n → M T} {f : Vector U8 n → T}
    (hf : ∀ v, from_ v = .ok (f v)) (s : List U8) (h : n ≤ s.length) :
    try_from_slice n from_ s = .ok (.ok (f ⟨(s.take n).toArray, by simp; omega⟩)) := by
  unfold try_from_slice array_from_slice
  rw [if_pos h, rawRead_ok s n h]
  simp [hf]

/-- `T::try_from(&key[..16]).unwrap()` on an array of at least 16 bytes. -/
theorem try_from_lo {T : Type} {n : Nat} {from_ : Vector U8 16 → M T} {f : Vector U8 16 → T}
    (hf : ∀ v, from_ v = .ok (f v)) (key : Vector U8 n) (h : 16 ≤ n) :
    (do unwrap (← try_from_slice 16 from_ (← sliceTo key.toList 16))) = .ok (f (slice key 0 16 (by omega))) := by
  rw [sliceTo_ok _ _ (by simpa using h)]
  simp only [bind_ok]
  rw [try_from_slice_ok hf _ (by simp; omega)]
  simp only [bind_ok, unwrap]
  congr 2
  apply Vector.ext; intro i hi
  simp

/-- `T::try_from(&key[16..]).unwrap()` on a 32-byte array. -/
theorem try_from_hi {T : Type} {from_ : Vector U8 16 → M T} {f : Vector U8 16 → T}
    (hf : ∀ v, from_ v = .ok (f v)) (key : Vector U8 32) :
    (do unwrap (← try_from_slice 16 from_ (← sliceFrom key.toList 16))) = .ok (f (slice key 16 16 (by omega))) := by
  rw [sliceFrom_ok _ _ (by simp)]
  simp only [bind_ok]
  rw [try_from_slice_ok hf _ (by simp)]
  simp only [bind_ok, unwrap]
  congr 2
  apply Vector.ext; intro i hi
  simp

end Aes
