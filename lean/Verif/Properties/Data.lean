import Verif.Proofs.EndToEnd
import Verif.Proofs.Decide
/-!
C18-C25: conversions, stores, bit operators, comparisons. They hold on every target (riscv32 and big-endian
bitslice included) and, where `w` appears, for all three types `AesBlock`, `AesBlockX2`, `AesBlockX4`.
-/
namespace Aes
open Rust AesSpec Fips197 AesVec AesBlock Target

variable (t : Target)

/-- C18: `T::new(b)` and `T::from(b)` and `T::from(&b)` succeed and agree. -/
theorem C18_new_from (w : Width) (b : Bytes w.size) :
    ∃ x : t.Vec w, new b = .ok x ∧ from_bytes b = .ok x ∧ from_ref b = .ok x :=
  ⟨ofB b, LawfulVec.new_eq b, LawfulVec.from_bytes_eq b, LawfulVec.from_bytes_eq b⟩
/-- C18: bytes to value to bytes is the identity. -/
theorem C18_bytes_roundtrip (w : Width) (b : Bytes w.size) :
    (do
      let x : t.Vec w ← from_bytes b
      into_bytes x) = .ok b := by
  rw [LawfulVec.from_bytes_eq, bind_ok, into_bytes_eq, LawfulVec.view_ofB]
/-- C18: value to bytes to value is the identity. -/
theorem C18_value_roundtrip (w : Width) (x : t.Vec w) :
    (do
      let b ← into_bytes x
      from_bytes b) = .ok x := by
  rw [into_bytes_eq, bind_ok, LawfulVec.from_bytes_eq, LawfulVec.ofB_view]

/-- C19: `u128` to block to `u128` is the identity. -/
theorem C19_u128_roundtrip (n : U128) :
    (do
      let x : t.Block ← from_u128 n
      into_u128 x) = .ok n := by
  unfold from_u128 into_u128
  rw [LawfulVec.from_bytes_eq, bind_ok, into_bytes_eq, bind_ok, LawfulVec.view_ofB, fromBe_toBe n (by omega)]; rfl
/-- C19: block to `u128` to block is the identity. -/
theorem C19_block_roundtrip (x : t.Block) :
    (do
      let n ← into_u128 x
      from_u128 n) = .ok x := by
  unfold from_u128 into_u128
  rw [into_bytes_eq, bind_ok]
  change from_bytes (toBe 16 (fromBe 128 (view x))) = _
  rw [toBe_fromBe _ _ (by omega), LawfulVec.from_bytes_eq, LawfulVec.ofB_view]
/-- C19: byte `i` of `AesBlock::from(n)` is bits `8(15-i) .. 8(15-i)+7` of `n`: big-endian on every target. -/
theorem C19_big_endian (n : U128) :
    (do
      let x : t.Block ← from_u128 n
      into_bytes x) = .ok (Vector.ofFn fun i : Fin 16 => (n >>> (8 * (15 - i.val))).setWidth 8) := by
  unfold from_u128
  rw [LawfulVec.from_bytes_eq, bind_ok, into_bytes_eq, LawfulVec.view_ofB]
  refine congrArg Except.ok (Vector.ext fun i hi => ?_)
  simp only [toBe, Vector.getElem_reverse, getElem_toLe, Vector.getElem_ofFn, shr_setWidth]

/-- C20: a slice that is too short is rejected with its length. -/
theorem C20_try_from_short (w : Width) (s : List U8) (h : s.length < w.size) :
    (try_from s : M (Except Nat (t.Vec w))) = .ok (.error s.length) := by
  unfold try_from try_from_slice
  rw [if_neg (by omega)]; rfl
/-- C20: any other slice is accepted, and the value consists of its first `N` bytes. -/
theorem C20_try_from_long (w : Width) (s : List U8) (h : w.size ≤ s.length) :
    ∃ (x : t.Vec w) (b : Bytes w.size), try_from s = .ok (.ok x) ∧ into_bytes x = .ok b ∧ b.toList = s.take w.size := by
  unfold try_from try_from_slice array_from_slice rawRead
  rw [if_pos h, dif_pos (by omega), bind_ok, LawfulVec.from_bytes_eq]
  refine ⟨_, _, rfl, into_bytes_eq _, ?_⟩
  rw [LawfulVec.view_ofB]
  simp [Vector.toList]

/-- C21: `store_to` panics when the destination is too short. -/
theorem C21_store_to_short (w : Width) (x : t.Vec w) (dst : List U8) (h : dst.length < w.size) :
    store_to x dst = .error .panic := LawfulVec.store_to_short x dst h
/-- C21: otherwise it succeeds (in particular no raw store is out of bounds), the first `N` bytes become the
bytes of the value, and the length and all other bytes of the destination are unchanged. -/
theorem C21_store_to_long (w : Width) (x : t.Vec w) (dst : List U8) (h : w.size ≤ dst.length) :
    ∃ (dst' : List U8) (b : Bytes w.size), store_to x dst = .ok dst' ∧ into_bytes x = .ok b ∧
      dst'.length = dst.length ∧
      (∀ i, i < w.size → dst'[i]? = b[i]?) ∧ (∀ i, w.size ≤ i → dst'[i]? = dst[i]?) := by
  refine ⟨_, _, LawfulVec.store_to_ok x dst h, into_bytes_eq x, ?_, ?_, ?_⟩
  · simp; omega
  · intro i hi
    rw [List.getElem?_append_left (by simpa using hi)]; simp
  · intro i hi
    rw [List.getElem?_append_right (by simpa using hi)]
    simp; congr 1; omega
/-- C21: the two cases, as an equivalence. -/
theorem C21_store_to_panics_iff (w : Width) (x : t.Vec w) (dst : List U8) :
    (store_to x dst = .error .panic ↔ dst.length < w.size) ∧ store_to x dst ≠ .error .ub := by
  by_cases h : dst.length < w.size
  · simp [C21_store_to_short t w x dst h, h]
  · simp [LawfulVec.store_to_ok x dst (by omega), h]

/-- C22: `&` acts byte by byte. -/
theorem C22_and (w : Width) (a b : Bytes w.size) :
    (do
      let x : t.Vec w ← from_bytes a
      let y : t.Vec w ← from_bytes b
      into_bytes (bitand x y)) = .ok (andB a b) := by
  rw [LawfulVec.from_bytes_eq, bind_ok, LawfulVec.from_bytes_eq, bind_ok, into_bytes_eq, LawfulVec.view_and,
    LawfulVec.view_ofB, LawfulVec.view_ofB]
/-- C22: `|` acts byte by byte. -/
theorem C22_or (w : Width) (a b : Bytes w.size) :
    (do
      let x : t.Vec w ← from_bytes a
      let y : t.Vec w ← from_bytes b
      into_bytes (bitor x y)) = .ok (orB a b) := by
  rw [LawfulVec.from_bytes_eq, bind_ok, LawfulVec.from_bytes_eq, bind_ok, into_bytes_eq, LawfulVec.view_or,
    LawfulVec.view_ofB, LawfulVec.view_ofB]
/-- C22: `^` acts byte by byte. -/
theorem C22_xor (w : Width) (a b : Bytes w.size) :
    (do
      let x : t.Vec w ← from_bytes a
      let y : t.Vec w ← from_bytes b
      into_bytes (bitxor x y)) = .ok (xorB a b) := by
  rw [LawfulVec.from_bytes_eq, bind_ok, LawfulVec.from_bytes_eq, bind_ok, into_bytes_eq, LawfulVec.view_xor,
    LawfulVec.view_ofB, LawfulVec.view_ofB]
/-- C22: `!` acts byte by byte. -/
theorem C22_not (w : Width) (a : Bytes w.size) :
    (do
      let x : t.Vec w ← from_bytes a
      into_bytes (AesVec.not x)) = .ok (notB a) := by
  rw [LawfulVec.from_bytes_eq, bind_ok, into_bytes_eq, LawfulVec.view_not, LawfulVec.view_ofB]
/-- C22: `&=`, `|=`, `^=` act byte by byte. -/
theorem C22_assign (w : Width) (a b : Bytes w.size) :
    (do
      let x : t.Vec w ← from_bytes a
      let y : t.Vec w ← from_bytes b
      pure (← into_bytes (bitand_assign x y), ← into_bytes (bitor_assign x y), ← into_bytes (bitxor_assign x y))) =
    .ok (andB a b, orB a b, xorB a b) := by
  rw [LawfulVec.from_bytes_eq, bind_ok, LawfulVec.from_bytes_eq, bind_ok, into_bytes_eq, bind_ok, into_bytes_eq, bind_ok,
    into_bytes_eq, bind_ok, bitand_assign, bitor_assign, bitxor_assign, LawfulVec.view_and, LawfulVec.view_or,
    LawfulVec.view_xor, LawfulVec.view_ofB, LawfulVec.view_ofB]
  rfl

/-- C23: `zero()` and `default()` are all zero bytes. -/
theorem C23_zero (w : Width) : into_bytes (zero : t.Vec w) = .ok (zeroB w.size) ∧
    into_bytes (default_ : t.Vec w) = .ok (zeroB w.size) := by
  simp only [default_, into_bytes_eq, LawfulVec.view_zero, and_self]
/-- C23: `is_zero()` says exactly whether all bytes are zero. -/
theorem C23_is_zero (w : Width) (b : Bytes w.size) :
    (do
      let x : t.Vec w ← from_bytes b
      pure (is_zero x)) = .ok (decide (∀ (i : Nat) (h : i < w.size), b[i] = 0#8)) := by
  rw [LawfulVec.from_bytes_eq, bind_ok, LawfulVec.is_zero_eq, LawfulVec.view_ofB]
  refine congrArg Except.ok (decide_eq_decide.mpr ?_)
  constructor
  · intro h i hi; rw [h]; simp [zeroB]
  · intro h; apply Vector.ext; intro i hi; rw [h i hi]; simp [zeroB]

/-- C24: `==` is equality of the byte representations. -/
theorem C24_eq_bytes (w : Width) (a b : Bytes w.size) :
    (do
      let x : t.Vec w ← from_bytes a
      let y : t.Vec w ← from_bytes b
      pure (AesVec.eq x y)) = .ok (decide (a = b)) := by
  rw [LawfulVec.from_bytes_eq, bind_ok, LawfulVec.from_bytes_eq, bind_ok, LawfulVec.eq_eq, LawfulVec.view_ofB,
    LawfulVec.view_ofB]; rfl
/-- C24: on values of any origin `==` decides equality of values, of their bytes, and whether `^` is zero. -/
theorem C24_eq_iff (w : Width) (x y : t.Vec w) :
    (AesVec.eq x y = true ↔ x = y) ∧ (AesVec.eq x y = true ↔ into_bytes x = into_bytes y) ∧
    AesVec.eq x y = is_zero (bitxor x y) := by
  rw [LawfulVec.eq_eq, into_bytes_eq, into_bytes_eq, LawfulVec.is_zero_eq, LawfulVec.view_xor]
  refine ⟨?_, ?_, ?_⟩
  · rw [decide_eq_true_iff]; exact ⟨view_inj, fun h => h ▸ rfl⟩
  · rw [decide_eq_true_iff]; exact ⟨fun h => h ▸ rfl, Except.ok.inj⟩
  · exact decide_eq_decide.mpr (xorB_eq_zero _ _).symm
/-- C24: `==` is an equivalence relation (as `Eq` promises). -/
theorem C24_equivalence (w : Width) (x y z : t.Vec w) :
    AesVec.eq x x = true ∧ (AesVec.eq x y = true → AesVec.eq y x = true) ∧
    (AesVec.eq x y = true → AesVec.eq y z = true → AesVec.eq x z = true) := by
  simp only [(C24_eq_iff t w _ _).1]
  exact ⟨trivial, fun h => h.symm, fun h h' => h.trans h'⟩

/-! ### C25: tuples -/

/-- C25: `AesBlockX2` to pair and back, both ways. -/
theorem C25_pair (a b : t.Block) (x : t.X2) :
    AesBlockX2.to_pair (AesBlockX2.from_pair (a, b) : t.X2) = (a, b) ∧
    AesBlockX2.from_pair (AesBlockX2.to_pair x) = x :=
  ⟨LawfulX2.to_pair_from_pair a b, from_pair_to_pair x⟩
/-- C25: `AesBlockX4` to quadruple and back, both ways. -/
theorem C25_quad (a b c d : t.Block) (x : t.X4) :
    AesBlockX4.to_quad (AesBlockX4.from_quad (a, b, c, d) : t.X4) = (a, b, c, d) ∧
    AesBlockX4.from_quad (AesBlockX4.to_quad x) = x :=
  ⟨LawfulX4.to_quad_from_quad a b c d, from_quad_to_quad x⟩
/-- C25: `AesBlockX4` to pair of `AesBlockX2` and back, both ways. -/
theorem C25_x2_pair (a b : t.X2) (x : t.X4) :
    AesBlockX4.to_x2_pair (AesBlockX4.from_x2_pair (a, b) : t.X4) = (a, b) ∧
    AesBlockX4.from_x2_pair (AesBlockX4.to_x2_pair x) = x :=
  ⟨LawfulX4.to_x2_pair_from_x2_pair a b, from_x2_pair_to_x2_pair x⟩
/-- C25: the two ways to build an `AesBlockX4` agree. -/
theorem C25_quad_pair (a b c d : t.Block) :
    (AesBlockX4.from_quad (a, b, c, d) : t.X4) =
      AesBlockX4.from_x2_pair (AesBlockX2.from_pair (a, b), AesBlockX2.from_pair (c, d)) :=
  LawfulX4.from_quad_eq a b c d
/-- C25: `From<AesBlock>` and `From<AesBlockX2>` broadcast. -/
theorem C25_broadcast (a : t.Block) (x : t.X2) :
    (AesBlockX2.from_block a : t.X2) = AesBlockX2.from_pair (a, a) ∧
    (AesBlockX4.from_block a : t.X4) = AesBlockX4.from_quad (a, a, a, a) ∧
    (AesBlockX4.from_x2 x : t.X4) = AesBlockX4.from_x2_pair (x, x) :=
  ⟨LawfulX2.from_block_eq a, LawfulX4.from_block_eq a, LawfulX4.from_x2_eq x⟩
/-- C25: layout. The 32 bytes of an `AesBlockX2` are the bytes of its components in order. -/
theorem C25_layout_x2 (a b : t.Block) :
    ∃ (va vb : Bytes 16) (v : Bytes 32), into_bytes a = .ok va ∧ into_bytes b = .ok vb ∧
      into_bytes (AesBlockX2.from_pair (a, b) : t.X2) = .ok v ∧ v.toList = va.toList ++ vb.toList :=
  ⟨_, _, _, into_bytes_eq a, into_bytes_eq b, into_bytes_eq _, by
    rw [LawfulX2.view_from_pair]; exact Vector.toList_append⟩
/-- C25: layout. The 64 bytes of an `AesBlockX4` are the bytes of its four components in order. -/
theorem C25_layout_x4 (a b c d : t.Block) :
    ∃ (va vb vc vd : Bytes 16) (v : Bytes 64), into_bytes a = .ok va ∧ into_bytes b = .ok vb ∧
      into_bytes c = .ok vc ∧ into_bytes d = .ok vd ∧
      into_bytes (AesBlockX4.from_quad (a, b, c, d) : t.X4) = .ok v ∧
      v.toList = va.toList ++ vb.toList ++ vc.toList ++ vd.toList :=
  ⟨_, _, _, _, _, into_bytes_eq a, into_bytes_eq b, into_bytes_eq c, into_bytes_eq d, into_bytes_eq _, by
    rw [view_from_quad]
    refine Eq.trans Vector.toList_append ?_
    rw [Vector.toList_append, Vector.toList_append]
    simp only [List.append_assoc]⟩

/-! ### Concrete instances -/
/-- Destinations on both sides of the boundary. -/
example : (List.replicate 15 0xaa#8).length < Width.size .x1 ∧ Width.size .x1 ≤ (List.replicate 16 0xaa#8).length ∧
    Width.size .x4 ≤ (List.replicate 100 0#8).length := by decide
/-- On 32-bit Arm, storing the all-ones block into 18 bytes leaves the last two alone. -/
example : (do
      let x : (Target.arm true).Block ← from_bytes (Vector.replicate 16 0xff#8)
      store_to x (List.replicate 18 0x11#8)) = .ok (List.replicate 16 0xff#8 ++ [0x11#8, 0x11#8]) := by
  rw [LawfulVec.from_bytes_eq, bind_ok, LawfulVec.store_to_ok _ _ (by decide), LawfulVec.view_ofB]
  decide
/-- 20 bytes make a block of the first 16; 3 bytes make `Err(3)`. -/
example : (try_from [1#8, 2#8, 3#8] : M (Except Nat ((Target.bitslice .big).Vec .x1))) = .ok (.error 3) :=
  C20_try_from_short _ .x1 _ (by decide)
/-- The number 1 has its one in the last byte. -/
example : (Vector.ofFn fun i : Fin 16 => ((1 : U128) >>> (8 * (15 - i.val))).setWidth 8) =
    (#v[0, 0, 0, 0, 0, 0, 0, 0, 0, 0, 0, 0, 0, 0, 0, 1] : Bytes 16) := by decide

end Aes
