import Verif.Model.Mem
import Verif.Proofs.Bytes
import Verif.Proofs.RustLemmas
/-! The memory-level key expansions simulate those of Model/Columns.lean. -/
namespace Aes.Mem
open Rust

theorem bind_ok' {α β : Type} (a : α) (f : α → M β) : (Except.ok a >>= f) = f a := rfl

/-- The memory image of a list of words. -/
def flat4 (e : Endian) (l : List U32) : List U8 := l.flatMap fun x => (toNe e 4 x).toList

theorem length_flat4 (e : Endian) (l : List U32) : (flat4 e l).length = 4 * l.length := by
  induction l with
  | nil => rfl
  | cons x l ih =>
    simp only [flat4, List.flatMap_cons, List.length_append, Vector.length_toList, List.length_cons] at ih ⊢
    omega
theorem flat4_append (e : Endian) (l l' : List U32) : flat4 e (l ++ l') = flat4 e l ++ flat4 e l' := by simp [flat4]
theorem flat4_take (e : Endian) (l : List U32) (i : Nat) (h : i ≤ l.length) : (flat4 e l).take (4 * i) = flat4 e (l.take i) := by
  conv => lhs; rw [← List.take_append_drop i l, flat4_append]
  exact List.take_left' (by rw [length_flat4, List.length_take]; omega)
theorem flat4_drop (e : Endian) (l : List U32) (i : Nat) (h : i ≤ l.length) : (flat4 e l).drop (4 * i) = flat4 e (l.drop i) := by
  conv => lhs; rw [← List.take_append_drop i l, flat4_append]
  exact List.drop_left' (by rw [length_flat4, List.length_take]; omega)

theorem rawRead_flat4 (e : Endian) (l : List U32) (i : Nat) (h : i < l.length) :
    rawRead (flat4 e l) (4 * i) 4 = .ok (toNe e 4 l[i]) := by
  unfold rawRead
  rw [dif_pos (by rw [length_flat4]; omega)]
  refine congrArg Except.ok ?_
  apply Vector.toList_inj.mp
  simp only [Vector.toList_mk]
  rw [flat4_drop e l i (by omega), List.drop_eq_getElem_cons h]
  simp only [flat4, List.flatMap_cons]
  exact List.take_left' (by simp)

theorem set_flat4 (e : Endian) (l : List U32) (i : Nat) (h : i < l.length) (x : U32) :
    (flat4 e l).take (4 * i) ++ (toNe e 4 x).toList ++ (flat4 e l).drop (4 * i + 4) = flat4 e (l.set i x) := by
  rw [show 4 * i + 4 = 4 * (i + 1) by omega, flat4_take e l i (by omega), flat4_drop e l (i + 1) (by omega),
    List.set_eq_take_append_cons_drop, if_pos h, flat4_append]
  simp only [flat4, List.flatMap_cons, List.append_assoc]

variable (e : Endian) (base : Nat) {n : Nat}

/-- The allocation that holds the words `cols`. -/
def image (cols : Vector U32 n) : Alloc := ⟨base, flat4 e cols.toList⟩

variable {e base}

theorem get_image (hb : base % 4 = 0) (cols : Vector U32 n) (i : Nat) :
    get e ⟨base, n⟩ (image e base cols) i = idx cols i := by
  unfold get idx
  by_cases h : i < n
  · rw [if_pos h, dif_pos h]
    unfold readU32 Alloc.covers
    rw [if_pos (by simp only [image, length_flat4, Vector.length_toList]; omega)]
    have h1 : base + 4 * i - base = 4 * i := by omega
    simp only [image, h1]
    rw [rawRead_flat4 e _ i (by simpa using h), bind_ok', fromNe_toNe e _ (by omega), Vector.getElem_toList]
    rfl
  · rw [if_neg h, dif_neg h]
theorem put_image (hb : base % 4 = 0) (cols : Vector U32 n) (i : Nat) (x : U32) :
    put e ⟨base, n⟩ (image e base cols) i x = (do
      let c ← upd cols i x
      pure (image e base c)) := by
  unfold put upd
  by_cases h : i < n
  · rw [if_pos h, dif_pos h]
    unfold writeU32 Alloc.covers
    rw [if_pos (by simp only [image, length_flat4, Vector.length_toList]; omega)]
    have h1 : base + 4 * i - base = 4 * i := by omega
    simp only [image, h1]
    rw [set_flat4 e _ i (by simpa using h)]
    simp only [bind_ok', Vector.toList_set]
    rfl
  · rw [if_neg h, dif_neg h]; rfl
theorem xorInto_image (hb : base % 4 = 0) (cols : Vector U32 n) (d a b : Nat) :
    xorInto e ⟨base, n⟩ (image e base cols) d a b = (do
      let c ← upd cols d ((← idx cols a) ^^^ (← idx cols b))
      pure (image e base c)) := by
  unfold xorInto
  simp only [get_image hb, put_image hb]

theorem foldlM_image {β : Type} (f : Alloc → β → M Alloc) (g : Vector U32 n → β → M (Vector U32 n))
    (h : ∀ c b, f (image e base c) b = (do let c ← g c b; pure (image e base c))) (l : List β) (c : Vector U32 n) :
    l.foldlM f (image e base c) = (do let c ← l.foldlM g c; pure (image e base c)) := by
  induction l generalizing c with
  | nil => rfl
  | cons b l ih => simp only [List.foldlM_cons, h, bind_assoc, pure_bind, ih]

theorem load_image (hb : base % 4 = 0) (key : List U8) (c : Vector U32 n) :
    load e ⟨base, n⟩ key (image e base c) = (do let c ← Columns.load_columns e key c; pure (image e base c)) := by
  unfold load Columns.load_columns
  refine foldlM_image _ _ (fun c b => ?_) _ _
  simp only [put_image hb, bind_assoc]

theorem step_128_image (hb : base % 4 = 0) (first) (c : Vector U32 44) (i : Nat) :
    step_128 first e ⟨base, 44⟩ (image e base c) i = (do let c ← Columns.step_128 first c i; pure (image e base c)) := by
  unfold step_128 Columns.step_128
  simp only [get_image hb, put_image hb, xorInto_image hb, bind_assoc, pure_bind]
theorem step_192_image (hb : base % 4 = 0) (first) (c : Vector U32 52) (i : Nat) :
    step_192 first e ⟨base, 52⟩ (image e base c) i = (do let c ← Columns.step_192 first c i; pure (image e base c)) := by
  unfold step_192 Columns.step_192
  simp only [get_image hb, put_image hb, xorInto_image hb, bind_assoc, pure_bind]
theorem step_256_image (hb : base % 4 = 0) (first fifth) (c : Vector U32 60) (i : Nat) :
    step_256 first fifth e ⟨base, 60⟩ (image e base c) i = (do let c ← Columns.step_256 first fifth c i; pure (image e base c)) := by
  unfold step_256 Columns.step_256
  simp only [get_image hb, put_image hb, xorInto_image hb, bind_assoc, pure_bind]

theorem zeroed_image (N : Nat) : zeroed base N = image e base (Vector.replicate (4 * N) 0) := by
  unfold zeroed image
  refine congrArg (Alloc.mk base) ?_
  rw [Vector.toList_replicate]
  have h : toNe e 4 (0 : U32) = Vector.replicate 4 0#8 := toNe_zero e 4
  apply List.ext_getElem
  · rw [length_flat4]; simp; omega
  · intro i h1 h2
    rw [List.getElem_replicate]
    have h3 : ∀ x ∈ flat4 e (List.replicate (4 * N) 0), x = 0#8 := by
      intro x hx
      simp only [flat4, List.mem_flatMap] at hx
      obtain ⟨y, hy, hx⟩ := hx
      rw [List.eq_of_mem_replicate hy, h, Vector.toList_replicate] at hx
      exact List.eq_of_mem_replicate hx
    exact (h3 _ (List.getElem_mem h2)).symm

theorem slice_zeroed (hb : base % 4 = 0) (N len : Nat) (h : 4 * len ≤ 16 * N) :
    from_raw_parts_mut (zeroed base N) len = .ok ⟨base, len⟩ := by
  unfold from_raw_parts_mut Alloc.covers
  rw [if_pos]
  · rfl
  · simp only [zeroed, List.length_replicate]; omega

theorem expand_128_image (hb : base % 4 = 0) (first) (key : Vector U8 16) :
    expand_128 first e base key = (do let c ← Columns.columns_128 first e key; pure (image e base c)) := by
  unfold expand_128 Columns.columns_128
  simp only [slice_zeroed hb 11 44 (by omega), bind_ok']
  rw [zeroed_image (e := e) 11, load_image hb (n := 44)]
  simp only [bind_assoc, pure_bind]
  refine bind_congr fun c => ?_
  exact foldlM_image _ _ (fun c i => step_128_image hb first c i) _ _
theorem expand_192_image (hb : base % 4 = 0) (first) (key : Vector U8 24) :
    expand_192 first e base key = (do let c ← Columns.columns_192 first e key; pure (image e base c)) := by
  unfold expand_192 Columns.columns_192
  simp only [slice_zeroed hb 13 52 (by omega), bind_ok']
  rw [zeroed_image (e := e) 13, load_image hb (n := 52)]
  simp only [bind_assoc, pure_bind]
  refine bind_congr fun c => ?_
  rw [foldlM_image _ _ (fun c i => step_192_image hb first c i)]
  simp only [get_image hb, put_image hb, xorInto_image hb, bind_assoc, pure_bind]
theorem expand_256_image (hb : base % 4 = 0) (first tail fifth) (key : Vector U8 32) :
    expand_256 first tail fifth e base key = (do let c ← Columns.columns_256 first fifth tail e key; pure (image e base c)) := by
  unfold expand_256 Columns.columns_256
  simp only [slice_zeroed hb 15 60 (by omega), bind_ok']
  rw [zeroed_image (e := e) 15, load_image hb (n := 60)]
  simp only [bind_assoc, pure_bind]
  refine bind_congr fun c => ?_
  rw [foldlM_image _ _ (fun c i => step_256_image hb first fifth c i)]
  simp only [get_image hb, put_image hb, xorInto_image hb, bind_assoc, pure_bind]

theorem getElem_flat4 (l : List U32) (k : Nat) (h : k < 4 * l.length) :
    (flat4 e l)[k]'(by rw [length_flat4]; exact h) = (toNe e 4 (l[k / 4]'(by omega)))[k % 4] := by
  have h0 : k / 4 < l.length := by omega
  have h1 := rawRead_flat4 e l (k / 4) h0
  unfold rawRead at h1
  rw [dif_pos (by rw [length_flat4]; omega)] at h1
  have h2 := congrArg (fun v : Vector U8 4 => v[k % 4]) (Except.ok.inj h1)
  simp only [Vector.getElem_mk, List.getElem_toArray, List.getElem_take, List.getElem_drop] at h2
  rw [← h2]
  congr 1
  omega

theorem blocks_image {N : Nat} (c : Vector U32 (4 * N)) : blocks (image e base c) N = Columns.block_bytes e c := by
  unfold blocks Columns.block_bytes
  apply Vector.ext; intro i hi
  apply Vector.ext; intro j hj
  simp only [Vector.getElem_ofFn, image]
  have h : 16 * i + j < 4 * c.toList.length := by simp; omega
  rw [List.getD_eq_getElem?_getD, List.getElem?_eq_getElem (by rw [length_flat4]; exact h), Option.getD_some, getElem_flat4 _ _ h]
  have h1 : (16 * i + j) / 4 = 4 * i + j / 4 := by omega
  have h2 : (16 * i + j) % 4 = j % 4 := by omega
  simp only [h1, h2, Vector.getElem_toList]
end Aes.Mem
