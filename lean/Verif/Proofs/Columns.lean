import Verif.Model.Columns
import Verif.Proofs.KeySched
/-! The shared key-expansion loops compute a word recurrence. -/
namespace Rust

/-- Loop rule for `for i in (lo..hi).step_by(step)`. -/
theorem foldlM_range'_inv {α : Type} (P : Nat → α → Prop) (f : α → Nat → M α) (lo step : Nat) :
    ∀ (n k0 : Nat) (c : α), P k0 c →
    (∀ k c, k0 ≤ k → k < k0 + n → P k c → ∃ c', f c (lo + step * k) = .ok c' ∧ P (k + 1) c') →
    ∃ c', (List.range' (lo + step * k0) n step).foldlM f c = .ok c' ∧ P (k0 + n) c'
  | 0, k0, c, h0, _ => ⟨c, rfl, h0⟩
  | n + 1, k0, c, h0, hs => by
    obtain ⟨c1, e1, p1⟩ := hs k0 c (Nat.le_refl _) (by omega) h0
    obtain ⟨c2, e2, p2⟩ := foldlM_range'_inv P f lo step n (k0 + 1) c1 p1
      (fun k c h1 h2 => hs k c (by omega) (by omega))
    refine ⟨c2, ?_, by rw [show k0 + (n + 1) = k0 + 1 + n by omega]; exact p2⟩
    rw [List.range'_succ, List.foldlM_cons, e1, bind_ok, ← e2,
      show lo + step * k0 + step = lo + step * (k0 + 1) by rw [Nat.mul_succ]; omega]

end Rust

namespace Aes.Columns
open Rust AesSpec Fips197

/-- A column as the word whose bytes it holds in memory. -/
def wordOf (e : Endian) (x : U32) : Word := fun j => (toNe e 4 x)[j.val]

/-- The columns the key-expansion loops compute, as a recurrence. -/
def colRec (nk : Nat) (first : Nat → U32 → U32 → U32 → U32) (fifth : U32 → U32 → U32) (init : Nat → U32)
    (i : Nat) : U32 :=
  if _h : i < nk ∨ nk = 0 then init i
  else
    let old := colRec nk first fifth init (i - nk)
    let prev := colRec nk first fifth init (i - 1)
    if i % nk = 0 then first i old prev (RCON.toList.getD (i / nk - 1) 0)
    else if nk > 6 ∧ i % nk = 4 then fifth old prev
    else old ^^^ prev
termination_by i
decreasing_by all_goals omega

/-- `u32::from_ne_bytes` of the `i`-th four bytes. -/
def loadWord (e : Endian) {n : Nat} (key : Vector U8 n) (i : Nat) : U32 :=
  fromNe e 32 (Vector.ofFn fun j : Fin 4 => key.toList.getD (4 * i + j.val) 0#8)

/-- Columns below `k` have their final values. -/
def Agrees {N : Nat} (W : Nat → U32) (k : Nat) (c : Vector U32 N) : Prop :=
  ∀ j (h : j < N), j < k → c[j] = W j

theorem Agrees.idx {N : Nat} {W : Nat → U32} {k : Nat} {c : Vector U32 N} (h : Agrees W k c) (j : Nat)
    (hj : j < k) (hN : j < N) : Rust.idx c j = .ok (W j) := by
  rw [idx_ok c j hN, h j hN hj]

theorem Agrees.upd {N : Nat} {W : Nat → U32} {k : Nat} {c : Vector U32 N} (h : Agrees W k c) (x : U32)
    (hx : x = W k) (hN : k < N) : ∃ c', Rust.upd c k x = .ok c' ∧ Agrees W (k + 1) c' := by
  refine ⟨_, upd_ok c k x hN, ?_⟩
  intro j hj hjk
  rw [Vector.getElem_set]
  split
  · next he => rw [hx, he]
  · exact h j hj (by omega)

theorem chunksExact_zipIdx {α} (k : Nat) (s : List α) :
    (chunksExact k s).zipIdx = (List.range' 0 (s.length / k) 1).map fun i => ((s.drop (k * i)).take k, i) := by
  unfold chunksExact
  rw [← List.range_eq_range']
  apply List.ext_getElem
  · simp
  · intro i h1 h2; simp

theorem load_ok (e : Endian) {n N : Nat} (key : Vector U8 n) (nk : Nat) (hn : n = 4 * nk) (hN : nk ≤ N)
    (W : Nat → U32) (hW : ∀ i < nk, W i = loadWord e key i) :
    ∃ c, load_columns e key.toList (Vector.replicate N (0 : U32)) = .ok c ∧ Agrees W nk c := by
  unfold load_columns
  rw [chunksExact_zipIdx, List.foldlM_map]
  have hlen : key.toList.length / 4 = nk := by simp; omega
  rw [hlen]
  have := foldlM_range'_inv (fun k (c : Vector U32 N) => Agrees W k c)
    (fun columns i => do Rust.upd columns i (fromNe e 32 (← arrayTryFrom 4 ((key.toList.drop (4 * i)).take 4))))
    0 1 nk 0 (Vector.replicate N (0 : U32)) (by intro j _ hj; omega)
    (by
      intro k c _ hk hA
      simp only [Nat.zero_add, Nat.one_mul] at hk ⊢
      rw [arrayTryFrom_ok _ (by simp; omega), bind_ok]
      apply hA.upd _ _ (by omega)
      rw [hW k hk, loadWord]
      congr 1
      apply Vector.ext; intro i hi
      simp [List.getD, show 4 * k + i < n by omega])
  simpa using this

section
variable (first : Nat → U32 → U32 → U32 → U32) (fifth : U32 → U32 → U32) (init : Nat → U32)

theorem colRec_init {nk i : Nat} (h : i < nk) : colRec nk first fifth init i = init i := by
  rw [colRec, dif_pos (Or.inl h)]

theorem colRec_first {nk i : Nat} (hi : nk ≤ i) (h0 : 0 < nk) (hm : i % nk = 0) :
    colRec nk first fifth init i = first i (colRec nk first fifth init (i - nk))
      (colRec nk first fifth init (i - 1)) (RCON.toList.getD (i / nk - 1) 0) := by
  rw [colRec, dif_neg (by omega)]; simp only [hm, if_true]

theorem colRec_fifth {nk i : Nat} (hi : nk ≤ i) (h6 : 6 < nk) (hm : i % nk = 4) :
    colRec nk first fifth init i = fifth (colRec nk first fifth init (i - nk))
      (colRec nk first fifth init (i - 1)) := by
  rw [colRec, dif_neg (by omega)]
  simp only [hm, show (4 : Nat) ≠ 0 by omega, if_false, show nk > 6 from h6, and_self, if_true]

theorem colRec_rest {nk i : Nat} (hi : nk ≤ i) (h0 : 0 < nk) (hm : i % nk ≠ 0) (h4 : nk ≤ 6 ∨ i % nk ≠ 4) :
    colRec nk first fifth init i = colRec nk first fifth init (i - nk) ^^^ colRec nk first fifth init (i - 1) := by
  rw [colRec, dif_neg (by omega)]
  simp only [hm, if_false]
  rw [if_neg (by omega)]
end

theorem RCON_ok (k : Nat) (h : k < 10) : idx RCON k = .ok (RCON.toList.getD k 0) := by
  rw [idx_ok _ _ h]; simp [List.getD, h]

theorem eq_ofFn_of_agrees {N : Nat} {W : Nat → U32} {c : Vector U32 N} (h : Agrees W N c) :
    c = Vector.ofFn fun i => W i.val := by
  apply Vector.ext; intro i hi; simp [h i hi hi]


/-- One line `columns[k] = columns[a] ^ columns[b]`. -/
theorem Agrees.line {N : Nat} {W : Nat → U32} {k : Nat} {c : Vector U32 N} (h : Agrees W k c) (k' a b : Nat)
    (hk : k' = k) (ha : a < k) (hb : b < k) (hN : k < N) (hx : W a ^^^ W b = W k) :
    ∃ c', Agrees W (k' + 1) c' ∧
      (do let x ← Rust.idx c a; let y ← Rust.idx c b; Rust.upd c k' (x ^^^ y)) = .ok c' ∧
      ∀ {β} (g : Vector U32 N → M β),
      (do let x ← Rust.idx c a; let y ← Rust.idx c b; let c ← Rust.upd c k' (x ^^^ y); g c) = g c' := by
  subst hk
  obtain ⟨c', e, A⟩ := h.upd (W a ^^^ W b) hx hN
  refine ⟨c', A, ?_, ?_⟩
  · rw [h.idx a ha (by omega), bind_ok, h.idx b hb (by omega), bind_ok, e]
  · intro β g
    rw [h.idx a ha (by omega), bind_ok, h.idx b hb (by omega), bind_ok, e, bind_ok]

/-- One line `columns[k] = first(columns[a], columns[b], RCON[r])`. -/
theorem Agrees.lineFirst {N : Nat} {W : Nat → U32} {k : Nat} {c : Vector U32 N} (h : Agrees W k c)
    (f : U32 → U32 → U32 → U32) (k' a b r : Nat)
    (hk : k' = k) (ha : a < k) (hb : b < k) (hr : r < 10) (hN : k < N)
    (hx : f (W a) (W b) (RCON.toList.getD r 0) = W k) :
    ∃ c', Agrees W (k' + 1) c' ∧ ∀ {β} (g : Vector U32 N → M β),
      (do let x ← Rust.idx c a; let y ← Rust.idx c b; let z ← Rust.idx RCON r
          let c ← Rust.upd c k' (f x y z); g c) = g c' := by
  subst hk
  obtain ⟨c', e, A⟩ := h.upd (f (W a) (W b) (RCON.toList.getD r 0)) hx hN
  refine ⟨c', A, ?_⟩
  intro β g
  rw [h.idx a ha (by omega), bind_ok, h.idx b hb (by omega), bind_ok, RCON_ok r hr, bind_ok, e, bind_ok]

/-- One line `columns[k] = fifth(columns[a], columns[b])`. -/
theorem Agrees.lineFifth {N : Nat} {W : Nat → U32} {k : Nat} {c : Vector U32 N} (h : Agrees W k c)
    (f : U32 → U32 → U32) (k' a b : Nat)
    (hk : k' = k) (ha : a < k) (hb : b < k) (hN : k < N)
    (hx : f (W a) (W b) = W k) :
    ∃ c', Agrees W (k' + 1) c' ∧ ∀ {β} (g : Vector U32 N → M β),
      (do let x ← Rust.idx c a; let y ← Rust.idx c b
          let c ← Rust.upd c k' (f x y); g c) = g c' := by
  subst hk
  obtain ⟨c', e, A⟩ := h.upd (f (W a) (W b)) hx hN
  refine ⟨c', A, ?_⟩
  intro β g
  rw [h.idx a ha (by omega), bind_ok, h.idx b hb (by omega), bind_ok, e, bind_ok]

theorem columns_128_ok (first : U32 → U32 → U32 → U32) (e : Endian) (key : Vector U8 16) :
    columns_128 first e key = .ok (Vector.ofFn fun i =>
      colRec 4 (fun _ => first) (fun a b => a ^^^ b) (loadWord e key) i.val) := by
  obtain ⟨W, hW⟩ : ∃ W, W = colRec 4 (fun _ => first) (fun a b => a ^^^ b) (loadWord e key) := ⟨_, rfl⟩
  rw [← hW]
  have hr (i a b : Nat) (hi : 4 ≤ i ∧ i % 4 ≠ 0) (ha : a + 4 = i) (hb : b + 1 = i) : W a ^^^ W b = W i := by
    rw [hW, colRec_rest (nk := 4) _ _ _ (i := i) (by omega) (by omega) (by omega) (by omega)]
    rw [show i - 4 = a by omega, show i - 1 = b by omega]
  have hf (i a b r : Nat) (hi : 4 ≤ i ∧ i % 4 = 0) (ha : a + 4 = i) (hb : b + 1 = i) (hr : r + 1 = i / 4) :
      first (W a) (W b) (RCON.toList.getD r 0) = W i := by
    rw [hW, colRec_first (nk := 4) _ _ _ (i := i) (by omega) (by omega) (by omega)]
    rw [show i - 4 = a by omega, show i - 1 = b by omega, show i / 4 - 1 = r by omega]
  obtain ⟨c, hc, hA⟩ := load_ok e key 4 rfl (N := 44) (by omega) W
    (fun i hi => by rw [hW, colRec_init _ _ _ hi])
  unfold columns_128
  simp only [hc, bind_ok]
  have := foldlM_range'_inv (fun k (c : Vector U32 44) => Agrees W (4 * k + 4) c) (step_128 first)
    0 4 10 0 c hA (by
      intro k c _ hk hA
      simp only [Nat.zero_add] at hk ⊢
      unfold step_128
      obtain ⟨c0, A0, e0⟩ := hA.lineFirst first (4 * k + 4) (4 * k + 0) (4 * k + 3) (4 * k / 4) (by omega) (by omega) (by omega) (by omega) (by omega)
        (hf _ _ _ _ (by omega) (by omega) (by omega) (by omega))
      rw [e0]
      obtain ⟨c1, A1, f1, e1⟩ := A0.line (4 * k + 5) (4 * k + 1) (4 * k + 4) (by omega) (by omega) (by omega) (by omega)
        (hr _ _ _ (by omega) (by omega) (by omega))
      rw [e1]
      obtain ⟨c2, A2, f2, e2⟩ := A1.line (4 * k + 6) (4 * k + 2) (4 * k + 5) (by omega) (by omega) (by omega) (by omega)
        (hr _ _ _ (by omega) (by omega) (by omega))
      rw [e2]
      obtain ⟨c3, A3, f3, e3⟩ := A2.line (4 * k + 7) (4 * k + 3) (4 * k + 6) (by omega) (by omega) (by omega) (by omega)
        (hr _ _ _ (by omega) (by omega) (by omega))
      rw [f3]
      exact ⟨c3, rfl, A3⟩)
  obtain ⟨c', hc', hA'⟩ := this
  rw [show rangeStep 0 40 4 = List.range' (0 + 4 * 0) 10 4 by rfl, hc']
  rw [eq_ofFn_of_agrees hA']

theorem columns_192_ok (first : U32 → U32 → U32 → U32) (e : Endian) (key : Vector U8 24) :
    columns_192 first e key = .ok (Vector.ofFn fun i =>
      colRec 6 (fun _ => first) (fun a b => a ^^^ b) (loadWord e key) i.val) := by
  obtain ⟨W, hW⟩ : ∃ W, W = colRec 6 (fun _ => first) (fun a b => a ^^^ b) (loadWord e key) := ⟨_, rfl⟩
  rw [← hW]
  have hr (i a b : Nat) (hi : 6 ≤ i ∧ i % 6 ≠ 0) (ha : a + 6 = i) (hb : b + 1 = i) : W a ^^^ W b = W i := by
    rw [hW, colRec_rest (nk := 6) _ _ _ (i := i) (by omega) (by omega) (by omega) (by omega)]
    rw [show i - 6 = a by omega, show i - 1 = b by omega]
  have hf (i a b r : Nat) (hi : 6 ≤ i ∧ i % 6 = 0) (ha : a + 6 = i) (hb : b + 1 = i) (hr : r + 1 = i / 6) :
      first (W a) (W b) (RCON.toList.getD r 0) = W i := by
    rw [hW, colRec_first (nk := 6) _ _ _ (i := i) (by omega) (by omega) (by omega)]
    rw [show i - 6 = a by omega, show i - 1 = b by omega, show i / 6 - 1 = r by omega]
  obtain ⟨c, hc, hA⟩ := load_ok e key 6 rfl (N := 52) (by omega) W
    (fun i hi => by rw [hW, colRec_init _ _ _ hi])
  unfold columns_192
  simp only [hc, bind_ok]
  have := foldlM_range'_inv (fun k (c : Vector U32 52) => Agrees W (6 * k + 6) c) (step_192 first)
    0 6 7 0 c hA (by
      intro k c _ hk hA
      simp only [Nat.zero_add] at hk ⊢
      unfold step_192
      obtain ⟨c0, A0, e0⟩ := hA.lineFirst first (6 * k + 6) (6 * k + 0) (6 * k + 5) (6 * k / 6) (by omega) (by omega) (by omega) (by omega) (by omega)
        (hf _ _ _ _ (by omega) (by omega) (by omega) (by omega))
      rw [e0]
      obtain ⟨c1, A1, f1, e1⟩ := A0.line (6 * k + 7) (6 * k + 1) (6 * k + 6) (by omega) (by omega) (by omega) (by omega)
        (hr _ _ _ (by omega) (by omega) (by omega))
      rw [e1]
      obtain ⟨c2, A2, f2, e2⟩ := A1.line (6 * k + 8) (6 * k + 2) (6 * k + 7) (by omega) (by omega) (by omega) (by omega)
        (hr _ _ _ (by omega) (by omega) (by omega))
      rw [e2]
      obtain ⟨c3, A3, f3, e3⟩ := A2.line (6 * k + 9) (6 * k + 3) (6 * k + 8) (by omega) (by omega) (by omega) (by omega)
        (hr _ _ _ (by omega) (by omega) (by omega))
      rw [e3]
      obtain ⟨c4, A4, f4, e4⟩ := A3.line (6 * k + 10) (6 * k + 4) (6 * k + 9) (by omega) (by omega) (by omega) (by omega)
        (hr _ _ _ (by omega) (by omega) (by omega))
      rw [e4]
      obtain ⟨c5, A5, f5, e5⟩ := A4.line (6 * k + 11) (6 * k + 5) (6 * k + 10) (by omega) (by omega) (by omega) (by omega)
        (hr _ _ _ (by omega) (by omega) (by omega))
      rw [f5]
      exact ⟨c5, rfl, A5⟩)
  obtain ⟨c', hc', hA'⟩ := this
  rw [show rangeStep 0 42 6 = List.range' (0 + 6 * 0) 7 6 by rfl, hc']
  rw [bind_ok]
  have htail : first (W 42) (W 47) (RCON.toList.getD 7 0) = W 48 := hf _ _ _ _ (by omega) (by omega) (by omega) (by omega)
  obtain ⟨d0, A0, e0⟩ := hA'.lineFirst first 48 42 47 7 (by omega) (by omega) (by omega) (by omega) (by omega) htail
  rw [e0]
  obtain ⟨d1, A1, f1, e1⟩ := A0.line 49 43 48 (by omega) (by omega) (by omega) (by omega)
    (hr _ _ _ (by omega) (by omega) (by omega))
  rw [e1]
  obtain ⟨d2, A2, f2, e2⟩ := A1.line 50 44 49 (by omega) (by omega) (by omega) (by omega)
    (hr _ _ _ (by omega) (by omega) (by omega))
  rw [e2]
  obtain ⟨d3, A3, f3, e3⟩ := A2.line 51 45 50 (by omega) (by omega) (by omega) (by omega)
    (hr _ _ _ (by omega) (by omega) (by omega))
  rw [f3]
  rw [eq_ofFn_of_agrees A3]

theorem columns_256_ok (first : U32 → U32 → U32 → U32) (fifth : U32 → U32 → U32) (tail : U32 → U32 → U32 → U32) (e : Endian) (key : Vector U8 32) :
    columns_256 first fifth tail e key = .ok (Vector.ofFn fun i =>
      colRec 8 (fun i => if i = 56 then tail else first) fifth (loadWord e key) i.val) := by
  obtain ⟨W, hW⟩ : ∃ W, W = colRec 8 (fun i => if i = 56 then tail else first) fifth (loadWord e key) := ⟨_, rfl⟩
  rw [← hW]
  have hr (i a b : Nat) (hi : 8 ≤ i ∧ i % 8 ≠ 0 ∧ i % 8 ≠ 4) (ha : a + 8 = i) (hb : b + 1 = i) : W a ^^^ W b = W i := by
    rw [hW, colRec_rest (nk := 8) _ _ _ (i := i) (by omega) (by omega) (by omega) (by omega)]
    rw [show i - 8 = a by omega, show i - 1 = b by omega]
  have hf (i a b r : Nat) (hi : 8 ≤ i ∧ i % 8 = 0 ∧ i ≠ 56) (ha : a + 8 = i) (hb : b + 1 = i) (hr : r + 1 = i / 8) :
      first (W a) (W b) (RCON.toList.getD r 0) = W i := by
    rw [hW, colRec_first (nk := 8) _ _ _ (i := i) (by omega) (by omega) (by omega)]
    rw [show i - 8 = a by omega, show i - 1 = b by omega, show i / 8 - 1 = r by omega, if_neg hi.2.2]
  have h5 (i a b : Nat) (hi : 8 ≤ i ∧ i % 8 = 4) (ha : a + 8 = i) (hb : b + 1 = i) : fifth (W a) (W b) = W i := by
    rw [hW, colRec_fifth (nk := 8) _ _ _ (i := i) (by omega) (by omega) (by omega)]
    rw [show i - 8 = a by omega, show i - 1 = b by omega]
  obtain ⟨c, hc, hA⟩ := load_ok e key 8 rfl (N := 60) (by omega) W
    (fun i hi => by rw [hW, colRec_init _ _ _ hi])
  unfold columns_256
  simp only [hc, bind_ok]
  have := foldlM_range'_inv (fun k (c : Vector U32 60) => Agrees W (8 * k + 8) c) (step_256 first fifth)
    0 8 6 0 c hA (by
      intro k c _ hk hA
      simp only [Nat.zero_add] at hk ⊢
      unfold step_256
      obtain ⟨c0, A0, e0⟩ := hA.lineFirst first (8 * k + 8) (8 * k + 0) (8 * k + 7) (8 * k / 8) (by omega) (by omega) (by omega) (by omega) (by omega)
        (hf _ _ _ _ (by omega) (by omega) (by omega) (by omega))
      rw [e0]
      obtain ⟨c1, A1, f1, e1⟩ := A0.line (8 * k + 9) (8 * k + 1) (8 * k + 8) (by omega) (by omega) (by omega) (by omega)
        (hr _ _ _ (by omega) (by omega) (by omega))
      rw [e1]
      obtain ⟨c2, A2, f2, e2⟩ := A1.line (8 * k + 10) (8 * k + 2) (8 * k + 9) (by omega) (by omega) (by omega) (by omega)
        (hr _ _ _ (by omega) (by omega) (by omega))
      rw [e2]
      obtain ⟨c3, A3, f3, e3⟩ := A2.line (8 * k + 11) (8 * k + 3) (8 * k + 10) (by omega) (by omega) (by omega) (by omega)
        (hr _ _ _ (by omega) (by omega) (by omega))
      rw [e3]
      obtain ⟨c4, A4, e4⟩ := A3.lineFifth fifth (8 * k + 12) (8 * k + 4) (8 * k + 11) (by omega) (by omega) (by omega) (by omega)
        (h5 _ _ _ (by omega) (by omega) (by omega))
      rw [e4]
      obtain ⟨c5, A5, f5, e5⟩ := A4.line (8 * k + 13) (8 * k + 5) (8 * k + 12) (by omega) (by omega) (by omega) (by omega)
        (hr _ _ _ (by omega) (by omega) (by omega))
      rw [e5]
      obtain ⟨c6, A6, f6, e6⟩ := A5.line (8 * k + 14) (8 * k + 6) (8 * k + 13) (by omega) (by omega) (by omega) (by omega)
        (hr _ _ _ (by omega) (by omega) (by omega))
      rw [e6]
      obtain ⟨c7, A7, f7, e7⟩ := A6.line (8 * k + 15) (8 * k + 7) (8 * k + 14) (by omega) (by omega) (by omega) (by omega)
        (hr _ _ _ (by omega) (by omega) (by omega))
      rw [f7]
      exact ⟨c7, rfl, A7⟩)
  obtain ⟨c', hc', hA'⟩ := this
  rw [show rangeStep 0 48 8 = List.range' (0 + 8 * 0) 6 8 by rfl, hc']
  rw [bind_ok]
  have htail : tail (W 48) (W 55) (RCON.toList.getD 6 0) = W 56 := by
    rw [hW, colRec_first (nk := 8) _ _ _ (i := 56) (by omega) (by omega) (by omega)]
    rw [if_pos rfl]
  obtain ⟨d0, A0, e0⟩ := hA'.lineFirst tail 56 48 55 6 (by omega) (by omega) (by omega) (by omega) (by omega) htail
  rw [e0]
  obtain ⟨d1, A1, f1, e1⟩ := A0.line 57 49 56 (by omega) (by omega) (by omega) (by omega)
    (hr _ _ _ (by omega) (by omega) (by omega))
  rw [e1]
  obtain ⟨d2, A2, f2, e2⟩ := A1.line 58 50 57 (by omega) (by omega) (by omega) (by omega)
    (hr _ _ _ (by omega) (by omega) (by omega))
  rw [e2]
  obtain ⟨d3, A3, f3, e3⟩ := A2.line 59 51 58 (by omega) (by omega) (by omega) (by omega)
    (hr _ _ _ (by omega) (by omega) (by omega))
  rw [f3]
  rw [eq_ofFn_of_agrees A3]

end Aes.Columns
