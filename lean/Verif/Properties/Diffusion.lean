import Verif.Properties.Rounds
import Verif.Spec.Diff
import Verif.Proofs.Diffusion
/-!
C54: how a difference between two blocks spreads through the rounds. Constructions that build a permutation or a MAC out of the
rounds (and the usual security arguments for AES) rely on it: one differing byte becomes one differing column after one round
and sixteen differing bytes after two, and the differing bytes before and after `mc` or `imc` number at least five together.
-/
namespace Aes
open Rust AesSpec Fips197 AesVec AesBlock Target

namespace Diffusion

theorem toBytes_get (s : State) (j : Fin 16) : (State.toBytes s)[j] = s ⟨j.1 % 4, by omega⟩ ⟨j.1 / 4, by omega⟩ := by
  simp [State.toBytes]
theorem ofBytes_get (b : Bytes 16) (r c : Fin 4) : State.ofBytes b r c = b[(⟨r.1 + 4 * c.1, by omega⟩ : Fin 16)] := rfl

/-- A difference of blocks as a difference of states. -/
theorem state_of_bytes {a b : Bytes 16} {P : Fin 16 → Prop} (h : DifferExactly a b P) (r c : Fin 4) :
    State.ofBytes a r c ≠ State.ofBytes b r c ↔ P ⟨r.1 + 4 * c.1, by omega⟩ := h (⟨r.1 + 4 * c.1, by omega⟩ : Fin 16)
/-- The key does not change where two states differ. -/
theorem addKey_ne (k : Fin 4 → Word) (s s' : State) (r c : Fin 4) :
    addRoundKey k s r c ≠ addRoundKey k s' r c ↔ s r c ≠ s' r c := by
  simp only [addRoundKey, ne_eq, BitVec.xor_left_inj]
theorem bytes_of_state {s s' : State} {k : Fin 4 → Word} {Q : Fin 4 → Fin 4 → Prop} (h : ∀ r c, s r c ≠ s' r c ↔ Q r c) :
    DifferExactly (State.toBytes (addRoundKey k s)) (State.toBytes (addRoundKey k s')) fun j => Q ⟨j.1 % 4, by omega⟩ ⟨j.1 / 4, by omega⟩ := by
  intro j
  rw [toBytes_get, toBytes_get, addKey_ne, h]

theorem encRound_one {a b k : Bytes 16} {i : Fin 16} (h : DifferExactly a b (· = i)) :
    DifferExactly (encRound a k) (encRound b k) fun j => columnOf j = (columnOf i + 4 - rowOf i) % 4 := by
  have h1 : ∀ r c, State.ofBytes a r c ≠ State.ofBytes b r c ↔ r = (⟨i.1 % 4, by omega⟩ : Fin 4) ∧ c = (⟨i.1 / 4, by omega⟩ : Fin 4) := by
    intro r c
    rw [state_of_bytes h]
    simp only [Fin.ext_iff]
    omega
  intro j
  refine Iff.trans (bytes_of_state (k := keyWords k) (rnd_one h1) j) ?_
  simp only [Fin.ext_iff, Fin.sub_def, columnOf, rowOf]
  omega
theorem encRound_col {a b k : Bytes 16} {c0 : Nat} (hc : c0 < 4) (h : DifferExactly a b fun j => columnOf j = c0) :
    DifferExactly (encRound a k) (encRound b k) fun _ => True := by
  have h1 : ∀ r c, State.ofBytes a r c ≠ State.ofBytes b r c ↔ c = (⟨c0, hc⟩ : Fin 4) := by
    intro r c
    rw [state_of_bytes h]
    simp only [Fin.ext_iff, columnOf]
    omega
  intro j
  exact bytes_of_state (k := keyWords k) (Q := fun _ _ => True) (fun r c => iff_of_true (rnd_col h1 r c) trivial) j
theorem decRound_one {a b k : Bytes 16} {i : Fin 16} (h : DifferExactly a b (· = i)) :
    DifferExactly (decRound a k) (decRound b k) fun j => columnOf j = (columnOf i + rowOf i) % 4 := by
  have h1 : ∀ r c, State.ofBytes a r c ≠ State.ofBytes b r c ↔ r = (⟨i.1 % 4, by omega⟩ : Fin 4) ∧ c = (⟨i.1 / 4, by omega⟩ : Fin 4) := by
    intro r c
    rw [state_of_bytes h]
    simp only [Fin.ext_iff]
    omega
  intro j
  refine Iff.trans (bytes_of_state (k := keyWords k) (irnd_one h1) j) ?_
  simp only [Fin.ext_iff, Fin.add_def, columnOf, rowOf]
theorem decRound_col {a b k : Bytes 16} {c0 : Nat} (hc : c0 < 4) (h : DifferExactly a b fun j => columnOf j = c0) :
    DifferExactly (decRound a k) (decRound b k) fun _ => True := by
  have h1 : ∀ r c, State.ofBytes a r c ≠ State.ofBytes b r c ↔ c = (⟨c0, hc⟩ : Fin 4) := by
    intro r c
    rw [state_of_bytes h]
    simp only [Fin.ext_iff, columnOf]
    omega
  intro j
  exact bytes_of_state (k := keyWords k) (Q := fun _ _ => True) (fun r c => iff_of_true (irnd_col h1 r c) trivial) j

/-- The number of differing bytes, column by column. -/
theorem distance_eq (a b : Bytes 16) : distance a b =
    (nz ((State.ofBytes a).add (State.ofBytes b) 0 0) + nz ((State.ofBytes a).add (State.ofBytes b) 1 0) + nz ((State.ofBytes a).add (State.ofBytes b) 2 0) + nz ((State.ofBytes a).add (State.ofBytes b) 3 0)) +
    (nz ((State.ofBytes a).add (State.ofBytes b) 0 1) + nz ((State.ofBytes a).add (State.ofBytes b) 1 1) + nz ((State.ofBytes a).add (State.ofBytes b) 2 1) + nz ((State.ofBytes a).add (State.ofBytes b) 3 1)) +
    (nz ((State.ofBytes a).add (State.ofBytes b) 0 2) + nz ((State.ofBytes a).add (State.ofBytes b) 1 2) + nz ((State.ofBytes a).add (State.ofBytes b) 2 2) + nz ((State.ofBytes a).add (State.ofBytes b) 3 2)) +
    (nz ((State.ofBytes a).add (State.ofBytes b) 0 3) + nz ((State.ofBytes a).add (State.ofBytes b) 1 3) + nz ((State.ofBytes a).add (State.ofBytes b) 2 3) + nz ((State.ofBytes a).add (State.ofBytes b) 3 3)) := by
  have e : ∀ x y : Byte, nz (x ^^^ y) = if (x != y) = true then 1 else 0 := by
    intro x y
    unfold nz
    by_cases h : x = y
    · subst h; simp
    · have h0 : ¬ x ^^^ y = (0 : Byte) := fun hx => h (BitVec.xor_eq_zero_iff.mp hx)
      rw [if_neg h0, if_pos (by simpa using h)]
  have l : List.finRange 16 = [0, 1, 2, 3, 4, 5, 6, 7, 8, 9, 10, 11, 12, 13, 14, 15] := by decide
  unfold distance
  rw [l]
  simp only [List.countP_cons, List.countP_nil, State.add, e, Nat.zero_add]
  let D : Fin 16 → Nat := fun j => if (a[j] != b[j]) = true then 1 else 0
  show D 15 + D 14 + D 13 + D 12 + D 11 + D 10 + D 9 + D 8 + D 7 + D 6 + D 5 + D 4 + D 3 + D 2 + D 1 + D 0 = (D 0 + D 1 + D 2 + D 3) + (D 4 + D 5 + D 6 + D 7) + (D 8 + D 9 + D 10 + D 11) + (D 12 + D 13 + D 14 + D 15)
  omega

/-- The branch number on blocks. -/
theorem mix_branch {a b : Bytes 16} (h : a ≠ b) : 5 ≤ distance a b + distance (mixCols a) (mixCols b) := by
  have hd : ∃ r c, (State.ofBytes a).add (State.ofBytes b) r c ≠ 0 := by
    apply Classical.byContradiction
    intro hn
    apply h
    rw [← toBytes_ofBytes a, ← toBytes_ofBytes b]
    refine congrArg _ (funext fun r => funext fun c => ?_)
    apply Classical.byContradiction
    intro hne
    exact hn ⟨r, c, fun h0 => hne (BitVec.xor_eq_zero_iff.mp h0)⟩
  obtain ⟨r, c, hrc⟩ := hd
  have hb := column_branch _ c ⟨r, hrc⟩
  rw [mixColumns_add] at hb
  rw [distance_eq, distance_eq]
  unfold mixCols
  rw [ofBytes_toBytes, ofBytes_toBytes]
  match c with
  | 0 => omega
  | 1 => omega
  | 2 => omega
  | 3 => omega
theorem distance_comm (a b : Bytes 16) : distance a b = distance b a := by
  unfold distance
  refine congrArg (List.countP · _) (funext fun j => ?_)
  rw [bne_comm]
theorem invMix_branch {a b : Bytes 16} (h : a ≠ b) : 5 ≤ distance a b + distance (invMixCols a) (invMixCols b) := by
  have hm : ∀ x : Bytes 16, mixCols (invMixCols x) = x := by
    intro x; simp only [mixCols, invMixCols, ofBytes_toBytes, mixColumns_invMixColumns, toBytes_ofBytes]
  have := mix_branch (a := invMixCols a) (b := invMixCols b) (fun e => h (by rw [← hm a, e, hm]))
  rw [hm, hm] at this
  omega
end Diffusion

/-- What a client sees of one call: the bytes of `x.enc(k)` for the blocks with bytes `x` and `k`. -/
def encBytes (t : Target) (x k : Bytes 16) : M (Bytes 16) := do
  let x : t.Block ← from_bytes x
  let k : t.Block ← from_bytes k
  into_bytes (enc x k)
/-- The bytes of `x.dec(k)`. -/
def decBytes (t : Target) (x k : Bytes 16) : M (Bytes 16) := do
  let x : t.Block ← from_bytes x
  let k : t.Block ← from_bytes k
  into_bytes (dec x k)
/-- The bytes of `x.mc()`. -/
def mcBytes (t : Target) (x : Bytes 16) : M (Bytes 16) := do
  let x : t.Block ← from_bytes x
  into_bytes (mc x)
/-- The bytes of `x.imc()`. -/
def imcBytes (t : Target) (x : Bytes 16) : M (Bytes 16) := do
  let x : t.Block ← from_bytes x
  into_bytes (imc x)

/-- C54: two blocks that differ in byte `i` only differ, after `enc` with the same key, in exactly the four bytes of the column
that ShiftRows moves byte `i` to; on every target. -/
theorem C54_enc_one_byte (t : Target) (a b k : Bytes 16) (i : Fin 16) (h : DifferExactly a b (· = i)) :
    ∃ a' b', encBytes t a k = .ok a' ∧ encBytes t b k = .ok b' ∧
      DifferExactly a' b' fun j => columnOf j = (columnOf i + 4 - rowOf i) % 4 :=
  ⟨_, _, C12_enc t a k, C12_enc t b k, Diffusion.encRound_one h⟩
/-- C54: and after a second `enc`, with any key, in all sixteen bytes. -/
theorem C54_enc_two_rounds (t : Target) (a b k l : Bytes 16) (i : Fin 16) (h : DifferExactly a b (· = i)) :
    ∃ a' b', (encBytes t a k >>= (encBytes t · l)) = .ok a' ∧ (encBytes t b k >>= (encBytes t · l)) = .ok b' ∧
      ∀ j : Fin 16, a'[j] ≠ b'[j] := by
  have e : ∀ x, (encBytes t x k >>= (encBytes t · l)) = .ok (encRound (encRound x k) l) := by
    intro x
    rw [show encBytes t x k = .ok _ from C12_enc t x k]
    exact C12_enc t (encRound x k) l
  exact ⟨_, _, e a, e b, fun j =>
    (Diffusion.encRound_col (k := l) (c0 := (columnOf i + 4 - rowOf i) % 4) (by omega) (Diffusion.encRound_one (k := k) h) j).mpr trivial⟩
/-- C54: the same for `dec`, whose column is the one InvShiftRows moves byte `i` to. -/
theorem C54_dec_one_byte (t : Target) (hrv : t ≠ .riscv32) (a b k : Bytes 16) (i : Fin 16) (h : DifferExactly a b (· = i)) :
    ∃ a' b', decBytes t a k = .ok a' ∧ decBytes t b k = .ok b' ∧
      DifferExactly a' b' fun j => columnOf j = (columnOf i + rowOf i) % 4 :=
  ⟨_, _, C13_dec t hrv a k, C13_dec t hrv b k, Diffusion.decRound_one h⟩
/-- C54: and after a second `dec` all sixteen bytes. -/
theorem C54_dec_two_rounds (t : Target) (hrv : t ≠ .riscv32) (a b k l : Bytes 16) (i : Fin 16) (h : DifferExactly a b (· = i)) :
    ∃ a' b', (decBytes t a k >>= (decBytes t · l)) = .ok a' ∧ (decBytes t b k >>= (decBytes t · l)) = .ok b' ∧
      ∀ j : Fin 16, a'[j] ≠ b'[j] := by
  have e : ∀ x, (decBytes t x k >>= (decBytes t · l)) = .ok (decRound (decRound x k) l) := by
    intro x
    rw [show decBytes t x k = .ok _ from C13_dec t hrv x k]
    exact C13_dec t hrv (decRound x k) l
  exact ⟨_, _, e a, e b, fun j =>
    (Diffusion.decRound_col (k := l) (c0 := (columnOf i + rowOf i) % 4) (by omega) (Diffusion.decRound_one (k := k) h) j).mpr trivial⟩
/-- C54: two different blocks and their images under `mc` differ in at least five bytes together; so do `imc`'s. -/
theorem C54_branch (t : Target) (hrv : t ≠ .riscv32) (a b : Bytes 16) (h : a ≠ b) :
    (∃ a' b', mcBytes t a = .ok a' ∧ mcBytes t b = .ok b' ∧ 5 ≤ distance a b + distance a' b') ∧
    (∃ a' b', imcBytes t a = .ok a' ∧ imcBytes t b = .ok b' ∧ 5 ≤ distance a b + distance a' b') :=
  ⟨⟨_, _, C14_mc t hrv a, C14_mc t hrv b, Diffusion.mix_branch h⟩, ⟨_, _, C14_imc t hrv a, C14_imc t hrv b, Diffusion.invMix_branch h⟩⟩

/-- The hypotheses are met: these two blocks differ in byte 6 only; -/
example : DifferExactly (Vector.ofFn fun i => BitVec.ofNat 8 i.1) (Vector.ofFn fun i => if i.1 = 6 then 0xff else BitVec.ofNat 8 i.1) (· = 6) := by
  unfold DifferExactly; decide +kernel
/-- so after one `enc` exactly bytes 12, 13, 14 and 15 differ; -/
example (t : Target) (k : Bytes 16) : ∃ a' b', encBytes t (Vector.ofFn fun i => BitVec.ofNat 8 i.1) k = .ok a' ∧
    encBytes t (Vector.ofFn fun i => if i.1 = 6 then 0xff else BitVec.ofNat 8 i.1) k = .ok b' ∧ DifferExactly a' b' (12 ≤ ·) := by
  obtain ⟨a', b', ha, hb, h⟩ := C54_enc_one_byte t _ _ k 6
    (show DifferExactly (Vector.ofFn fun i => BitVec.ofNat 8 i.1) (Vector.ofFn fun i => if i.1 = 6 then 0xff else BitVec.ofNat 8 i.1) (· = 6) by
      unfold DifferExactly; decide +kernel)
  refine ⟨a', b', ha, hb, fun j => (h j).trans ?_⟩
  revert j; decide
/-- and the bound of five is reached: one byte before `mc`, four after. -/
example : distance (Vector.replicate 16 0#8) ((Vector.replicate 16 0#8).set 0 1#8) +
    distance (mixCols (Vector.replicate 16 0#8)) (mixCols ((Vector.replicate 16 0#8).set 0 1#8)) = 5 := by decide +kernel

end Aes
