import Verif.Proofs.Differential
import Verif.Proofs.Linear
import Verif.Spec.Integral
import Mathlib.Data.List.Perm.Basic
/-! Sums over sets of blocks through the rounds: the integral property. -/
namespace AesSpec.Integral
open Fips197 AesSpec.Differential
open Aes.Diffusion (lin cfM cfI cfM_ne cfI_ne lin_one lin_none)

/-! ### XOR of a list -/

theorem xorB_assoc (a b c : Bytes 16) : xorB (xorB a b) c = xorB a (xorB b c) := by
  apply Vector.ext; intro i hi; simp only [getElem_xorB, BitVec.xor_assoc]
theorem xorB_zero (a : Bytes 16) : xorB a (zeroB 16) = a := by
  apply Vector.ext; intro i hi; rw [getElem_xorB]; simp [zeroB]
theorem zero_xorB (a : Bytes 16) : xorB (zeroB 16) a = a := by rw [xorB_comm, xorB_zero]
theorem xorAll_cons (a : Bytes 16) (l : List (Bytes 16)) : xorAll (a :: l) = xorB a (xorAll l) := rfl
theorem xorAll_append (l l' : List (Bytes 16)) : xorAll (l ++ l') = xorB (xorAll l) (xorAll l') := by
  induction l with
  | nil => exact (zero_xorB _).symm
  | cons a l ih => rw [List.cons_append, xorAll_cons, ih, xorAll_cons, xorB_assoc]
theorem xorAll_perm {l l' : List (Bytes 16)} (h : l.Perm l') : xorAll l = xorAll l' := by
  induction h with
  | nil => rfl
  | cons x _ ih => rw [xorAll_cons, xorAll_cons, ih]
  | swap x y l => simp only [xorAll_cons]; rw [← xorB_assoc, ← xorB_assoc, xorB_comm x y]
  | trans _ _ h1 h2 => exact h1.trans h2

/-- XOR of bytes. -/
def xorBytes (l : List Byte) : Byte := l.foldr (· ^^^ ·) 0#8
theorem xorBytes_perm {l l' : List Byte} (h : l.Perm l') : xorBytes l = xorBytes l' := by
  induction h with
  | nil => rfl
  | cons x _ ih => simp only [xorBytes, List.foldr_cons] at ih ⊢; rw [ih]
  | swap x y l => simp only [xorBytes, List.foldr_cons]; rw [← BitVec.xor_assoc, ← BitVec.xor_assoc, BitVec.xor_comm x y]
  | trans _ _ h1 h2 => exact h1.trans h2
theorem xorBytes_all : xorBytes byteValues = 0#8 := by decide +kernel
theorem nodup_byteValues : byteValues.Nodup := by
  unfold byteValues
  refine (List.nodup_map_iff_inj_on List.nodup_range).2 fun a ha b hb h => ?_
  rw [List.mem_range] at ha hb
  have := congrArg BitVec.toNat h
  simpa [Nat.mod_eq_of_lt ha, Nat.mod_eq_of_lt hb] using this
theorem mem_byteValues (v : Byte) : v ∈ byteValues :=
  List.mem_map.2 ⟨v.toNat, List.mem_range.2 v.isLt, BitVec.eq_of_toNat_eq (by simp)⟩
theorem perm_byteValues {g : Byte → Byte} (h : Function.Injective g) : (byteValues.map g).Perm byteValues :=
  (List.perm_ext_iff_of_nodup (nodup_byteValues.map h) nodup_byteValues).2 fun v =>
    ⟨fun _ => mem_byteValues v, fun _ => by
      obtain ⟨u, hu⟩ := Finite.surjective_of_injective h v
      exact List.mem_map.2 ⟨u, mem_byteValues u, hu⟩⟩
theorem xorBytes_inj {g : Byte → Byte} (h : Function.Injective g) : xorBytes (byteValues.map g) = 0#8 :=
  (xorBytes_perm (perm_byteValues h)).trans xorBytes_all

/-- The sum of states. -/
def sumStates (l : List State) : State := l.foldr State.add fun _ _ => 0#8
theorem sumStates_entry (l : List State) (r c : Fin 4) : sumStates l r c = xorBytes (l.map (· r c)) := by
  induction l with
  | nil => rfl
  | cons s l ih =>
    show s r c ^^^ sumStates l r c = s r c ^^^ xorBytes (l.map (· r c))
    rw [ih]
theorem ofBytes_xorAll (l : List (Bytes 16)) : State.ofBytes (xorAll l) = sumStates (l.map State.ofBytes) := by
  induction l with
  | nil => funext r c; simp [xorAll, sumStates, State.ofBytes, zeroB]
  | cons a l ih => rw [xorAll_cons, ofBytes_xorB, ih]; rfl
theorem zero_of_add {m : State → State} (h : ∀ s s', m (s.add s') = (m s).add (m s')) : m (fun _ _ => 0#8) = fun _ _ => 0#8 := by
  have h0 := h (fun _ _ => 0#8) (fun _ _ => 0#8)
  have e : State.add (fun _ _ => 0#8) (fun _ _ => 0#8) = fun _ _ => 0#8 := by funext r c; simp [State.add]
  rw [e] at h0
  funext r c
  have := congrFun (congrFun h0 r) c
  simp only [State.add, BitVec.xor_self] at this
  exact this
theorem mix_sum {m : State → State} (h : ∀ s s', m (s.add s') = (m s).add (m s')) (l : List State) : sumStates (l.map m) = m (sumStates l) := by
  induction l with
  | nil => exact (zero_of_add h).symm
  | cons s l ih =>
    show (m s).add (sumStates (l.map m)) = m (s.add (sumStates l))
    rw [ih, h]
/-- An even number of equal keys cancels. -/
theorem sum_key (K : State) : ∀ (n : Nat) (l : List State), l.length = 2 * n → sumStates (l.map fun s => s.add K) = sumStates l
  | 0, [], _ => rfl
  | n + 1, a :: b :: l, h => by
    have ih := sum_key K n l (by simp at h; omega)
    show (a.add K).add ((b.add K).add (sumStates (l.map fun s => s.add K))) = a.add (b.add (sumStates l))
    rw [ih]
    funext r c
    simp only [State.add]
    rw [← BitVec.xor_assoc, xor_key, BitVec.xor_assoc]

/-! ### Rounds -/

/-- What C68 needs of a round. -/
structure Spreads {f : Bytes 16 → Bytes 16 → Bytes 16} (R : BoxRound f) : Prop where
  back_sh : ∀ r c, R.back r (R.sh r c) = c
  inj : Function.Injective R.box
  one : ∀ c c1, ∃ r0, ∀ r, R.sh r c = c1 ↔ r = r0
  mix : ∃ cf : Fin 4 → Byte, R.mix = lin cf ∧ ∀ k b, mul (cf k) b = 0 → b = 0
  unmix : ∃ cf : Fin 4 → Byte, R.unmix = lin cf

variable {f : Bytes 16 → Bytes 16 → Bytes 16} {R : BoxRound f}

theorem round_state (R : BoxRound f) (x k : Bytes 16) : State.ofBytes (f x k) = (R.mix (R.pre (State.ofBytes x))).add (State.ofBytes k) := by
  rw [R.eq, ofBytes_toBytes, Linear.add_key]

theorem add_inj {a b k : Byte} : a ^^^ k = b ^^^ k ↔ a = b := BitVec.xor_left_inj k

/-- One byte of difference gives a column of difference. -/
theorem Spreads.first (h : Spreads R) {x x' : Bytes 16} {r0 c0 : Fin 4}
    (hd : ∀ r c, State.ofBytes x r c ≠ State.ofBytes x' r c ↔ r = r0 ∧ c = c0) (k : Bytes 16) (r c : Fin 4) :
    State.ofBytes (f x k) r c ≠ State.ofBytes (f x' k) r c ↔ c = R.back r0 c0 := by
  obtain ⟨cf, hm, hne⟩ := h.mix
  rw [round_state R, round_state R, hm]
  simp only [State.add, ne_eq, add_inj]
  have hp : ∀ r c, R.pre (State.ofBytes x) r c ≠ R.pre (State.ofBytes x') r c ↔ r = r0 ∧ c = R.back r0 c0 := by
    intro r c
    rw [R.pre_eq, R.pre_eq, ne_eq, h.inj.eq_iff, ← ne_eq, hd]
    constructor
    · rintro ⟨rfl, rfl⟩; exact ⟨rfl, (h.back_sh _ _).symm⟩
    · rintro ⟨rfl, rfl⟩; exact ⟨rfl, R.sh_back _ _⟩
  constructor
  · intro hn
    apply Classical.byContradiction
    intro hc
    exact hn (lin_none cf (fun r => Classical.not_not.1 fun hh => hc ((hp r c).1 hh).2) r)
  · rintro rfl
    exact lin_one hne (r0 := r0) (fun r hr => Classical.not_not.1 fun hh => hr ((hp r _).1 hh).1) ((hp r0 _).2 ⟨rfl, rfl⟩) r

/-- A column of difference gives a block of difference. -/
theorem Spreads.second (h : Spreads R) {x x' : Bytes 16} {c0 : Fin 4}
    (hd : ∀ r c, State.ofBytes x r c ≠ State.ofBytes x' r c ↔ c = c0) (k : Bytes 16) (r c : Fin 4) :
    State.ofBytes (f x k) r c ≠ State.ofBytes (f x' k) r c := by
  obtain ⟨cf, hm, hne⟩ := h.mix
  rw [round_state R, round_state R, hm]
  simp only [State.add, ne_eq, add_inj]
  obtain ⟨r0, hr0⟩ := h.one c c0
  have hp : ∀ r, R.pre (State.ofBytes x) r c ≠ R.pre (State.ofBytes x') r c ↔ r = r0 := by
    intro r
    rw [R.pre_eq, R.pre_eq, ne_eq, h.inj.eq_iff, ← ne_eq, hd, hr0]
  exact lin_one hne (r0 := r0) (fun r hr => Classical.not_not.1 fun hh => hr ((hp r).1 hh)) ((hp r0).2 rfl) r

/-- Row and column of a byte. -/
theorem ofBytes_set (x : Bytes 16) (i : Fin 16) (v : Byte) (r c : Fin 4) :
    State.ofBytes (x.set i v) r c = if r.val + 4 * c.val = i.val then v else State.ofBytes x r c := by
  simp only [State.ofBytes, Vector.getElem_set, eq_comm (a := i.val)]

theorem two_inj (h : Spreads R) (x k l : Bytes 16) (i : Fin 16) (r c : Fin 4) :
    Function.Injective fun v => State.ofBytes (f (f (x.set i v) k) l) r c := by
  intro v w hvw
  apply Classical.byContradiction
  intro hne
  refine h.second (c0 := R.back ⟨i.val % 4, by omega⟩ ⟨i.val / 4, by omega⟩)
    (h.first (x := x.set i v) (x' := x.set i w) (r0 := ⟨i.val % 4, by omega⟩) (c0 := ⟨i.val / 4, by omega⟩) (fun r c => ?_) k) l r c hvw
  rw [ofBytes_set, ofBytes_set]
  have : r.val + 4 * c.val = i.val ↔ r = ⟨i.val % 4, by omega⟩ ∧ c = ⟨i.val / 4, by omega⟩ := by
    simp only [Fin.ext_iff]; omega
  rw [← this]
  split <;> simp_all

/-- Three rounds: the sum over the values of a byte is zero. -/
theorem three (h : Spreads R) (x k l m : Bytes 16) (i : Fin 16) : xorAll ((varyByte x i).map fun x => f (f (f x k) l) m) = zeroB 16 := by
  apply Differential.ofBytes_inj
  rw [ofBytes_xorAll]
  have e : ((varyByte x i).map fun x => f (f (f x k) l) m).map State.ofBytes =
      ((byteValues.map fun v => R.pre (State.ofBytes (f (f (x.set i v) k) l))).map R.mix).map fun s => s.add (State.ofBytes m) := by
    simp only [varyByte, List.map_map]
    refine List.map_congr_left fun v _ => ?_
    exact round_state R _ _
  rw [e, sum_key _ 128 _ (by simp [byteValues]), mix_sum R.mix_add]
  have z : sumStates (byteValues.map fun v => R.pre (State.ofBytes (f (f (x.set i v) k) l))) = fun _ _ => 0#8 := by
    funext r c
    rw [sumStates_entry, List.map_map]
    refine xorBytes_inj (g := fun v => R.pre (State.ofBytes (f (f (x.set i v) k) l)) r c) ?_
    intro v w hvw
    simp only [R.pre_eq] at hvw
    exact two_inj h x k l i r _ (h.inj hvw)
  rw [z, zero_of_add R.mix_add]
  funext r c
  simp [State.ofBytes, zeroB]

/-! ### Sets of blocks -/

theorem xorAll_zero {l : List (Bytes 16)} (h : ∀ x ∈ l, x = zeroB 16) : xorAll l = zeroB 16 := by
  induction l with
  | nil => rfl
  | cons a l ih => rw [xorAll_cons, h a (by simp), zero_xorB, ih fun x hx => h x (List.mem_cons_of_mem _ hx)]
theorem xorAll_flatMap {α : Type} (l : List α) (g : α → List (Bytes 16)) : xorAll (l.flatMap g) = xorAll (l.map fun a => xorAll (g a)) := by
  induction l with
  | nil => rfl
  | cons a l ih => rw [List.flatMap_cons, xorAll_append, ih]; rfl

theorem set_set (x : Bytes 16) (i : Fin 16) (v w : Byte) : (x.set i v).set i w = x.set i w := by
  apply Vector.ext; intro j hj
  simp only [Vector.getElem_set]
  split <;> rfl
theorem set_self (x : Bytes 16) (i : Fin 16) : x.set i x[i] = x := by
  apply Vector.ext; intro j hj
  simp only [Vector.getElem_set]
  split
  · rename_i h; subst h; rfl
  · rfl
theorem mem_varyByte {x y : Bytes 16} {i : Fin 16} : y ∈ varyByte x i ↔ ∀ j : Fin 16, j ≠ i → y[j] = x[j] := by
  constructor
  · intro h j hj
    obtain ⟨v, -, rfl⟩ := List.mem_map.1 h
    show (x.set i v)[j.val] = _
    rw [Vector.getElem_set, if_neg (fun e => hj (Fin.ext e.symm))]
    rfl
  · intro h
    refine List.mem_map.2 ⟨y[i], mem_byteValues _, ?_⟩
    apply Vector.ext; intro j hj
    rw [Vector.getElem_set]
    split
    · rename_i e; subst e; rfl
    · rename_i e; exact (h ⟨j, hj⟩ fun e' => e (congrArg Fin.val e').symm).symm
theorem nodup_varyByte (x : Bytes 16) (i : Fin 16) : (varyByte x i).Nodup := by
  refine nodup_byteValues.map fun v w h => ?_
  have := congrArg (fun y : Bytes 16 => y[i]) h
  simpa using this

/-- A set of blocks in which a byte is free is a union of sets in which only that byte varies. -/
theorem split_byte {l : List (Bytes 16)} (hn : l.Nodup) {i : Fin 16} (h : VariesIn (· = i) l) :
    l.Perm ((l.filter fun x => x[i] = 0#8).flatMap (varyByte · i)) := by
  have hz : ∀ x : Bytes 16, (x.set i 0#8)[i] = 0#8 := fun x => by simp
  refine (List.perm_ext_iff_of_nodup hn ?_).2 fun y => ?_
  · refine List.nodup_flatMap.2 ⟨fun x _ => nodup_varyByte x i, ?_⟩
    refine (hn.filter _).imp_of_mem fun {a b} ha hb hab => ?_
    rw [Function.onFun, List.disjoint_left]
    intro y hya hyb
    apply hab
    have ha0 : a[i] = 0#8 := by simpa using (List.mem_filter.1 ha).2
    have hb0 : b[i] = 0#8 := by simpa using (List.mem_filter.1 hb).2
    apply Vector.ext; intro j hj
    by_cases e : (⟨j, hj⟩ : Fin 16) = i
    · subst e; exact ha0.trans hb0.symm
    · exact ((mem_varyByte.1 hya ⟨j, hj⟩ e).symm.trans (mem_varyByte.1 hyb ⟨j, hj⟩ e))
  · rw [List.mem_flatMap]
    constructor
    · intro hy
      refine ⟨y.set i 0#8, List.mem_filter.2 ⟨h y hy _ fun j hj => ?_, by simp⟩, ?_⟩
      · show (y.set i 0#8)[j.val] = _
        rw [Vector.getElem_set, if_neg (fun e => hj (Fin.ext e.symm))]; rfl
      · refine mem_varyByte.2 fun j hj => ?_
        show _ = (y.set i 0#8)[j.val]
        rw [Vector.getElem_set, if_neg (fun e => hj (Fin.ext e.symm))]; rfl
    · rintro ⟨x, hx, hy⟩
      exact h x (List.mem_filter.1 hx).1 y (mem_varyByte.1 hy)

theorem three_set (h : Spreads R) (k1 k2 k3 : Bytes 16) {l : List (Bytes 16)} (hn : l.Nodup) {i : Fin 16} (hl : VariesIn (· = i) l) :
    xorAll (l.map fun x => f (f (f x k1) k2) k3) = zeroB 16 := by
  rw [xorAll_perm ((split_byte hn hl).map _), List.map_flatMap, xorAll_flatMap]
  refine xorAll_zero fun z hz => ?_
  obtain ⟨x, -, rfl⟩ := List.mem_map.1 hz
  exact three h x k1 k2 k3 i

theorem round_inj (h : Spreads R) (k : Bytes 16) : Function.Injective (f · k) := by
  intro x x' e
  apply Differential.ofBytes_inj
  funext r c
  apply h.inj
  have hx : xorB (f x k) (f x' k) = zeroB 16 := by
    have e' : f x k = f x' k := e
    rw [e']; apply Vector.ext; intro i hi; rw [getElem_xorB]; simp [zeroB]
  have hd := R.diff hx r c
  have z : State.ofBytes (zeroB 16) = fun _ _ => 0#8 := by funext r c; simp [State.ofBytes, zeroB]
  have hz : R.unmix (fun _ _ => 0#8) = fun _ _ => 0#8 := by
    have := R.unmix_mix fun _ _ => 0#8
    rwa [zero_of_add R.mix_add] at this
  rw [z, hz] at hd
  exact BitVec.xor_eq_zero_iff.1 hd

/-- A free diagonal becomes a free column. -/
theorem diag_column (h : Spreads R) (k : Bytes 16) {l : List (Bytes 16)} {P : Fin 16 → Prop} {c1 : Fin 4}
    (hP : ∀ j : Fin 16, R.back ⟨j.val % 4, by omega⟩ ⟨j.val / 4, by omega⟩ = c1 → P j) (hl : VariesIn P l) :
    VariesIn (fun j => j.val / 4 = c1.val) (l.map (f · k)) := by
  intro x' hx' y' hy
  obtain ⟨x, hx, rfl⟩ := List.mem_map.1 hx'
  obtain ⟨y, hy'⟩ := Finite.surjective_of_injective (round_inj h k) y'
  simp only at hy'
  subst hy'
  refine List.mem_map.2 ⟨y, hl x hx y fun j hj => ?_, rfl⟩
  have hc : R.back ⟨j.val % 4, by omega⟩ ⟨j.val / 4, by omega⟩ ≠ c1 := fun e => hj (hP j e)
  -- the rounds agree outside column `c1`, so before the mix too
  obtain ⟨cf, hm⟩ := h.unmix
  have hcol : ∀ r c, c ≠ c1 → (R.pre (State.ofBytes y)) r c = (R.pre (State.ofBytes x)) r c := by
    intro r c hc
    rw [← R.unmix_mix (R.pre (State.ofBytes y)), ← R.unmix_mix (R.pre (State.ofBytes x)), hm]
    refine lin_none cf (fun r => ?_) r
    have e : State.ofBytes (f y k) r c = State.ofBytes (f x k) r c :=
      hy ⟨r.val + 4 * c.val, by omega⟩ (fun e => hc (Fin.ext (by simp only at e; omega)))
    rw [round_state R, round_state R] at e
    exact add_inj.1 e
  have := hcol ⟨j.val % 4, by omega⟩ _ hc
  rw [R.pre_eq, R.pre_eq, R.sh_back] at this
  have := h.inj this
  simp only [State.ofBytes] at this
  have e : j.val % 4 + 4 * (j.val / 4) = j.val := by omega
  simp only [e] at this
  exact this

/-- Four rounds: the sum over the values of a diagonal is zero. -/
theorem four_set (h : Spreads R) (k1 k2 k3 k4 : Bytes 16) {l : List (Bytes 16)} (hn : l.Nodup) {P : Fin 16 → Prop} {c1 : Fin 4}
    (hP : ∀ j : Fin 16, R.back ⟨j.val % 4, by omega⟩ ⟨j.val / 4, by omega⟩ = c1 → P j) (hl : VariesIn P l) :
    xorAll (l.map fun x => f (f (f (f x k1) k2) k3) k4) = zeroB 16 := by
  have := three_set h k2 k3 k4 (l := l.map (f · k1)) (hn.map (round_inj h k1)) (i := ⟨4 * c1.val, by omega⟩) ?_
  · rwa [List.map_map] at this
  · intro x hx y hy
    refine diag_column h k1 hP hl x hx y fun j hj => hy j fun e => hj ?_
    subst e
    show 4 * c1.val / 4 = c1.val
    omega

theorem encSpreads : Spreads encBox where
  back_sh := by decide
  inj _ _ h := Aes.Diffusion.sbox_inj.1 h
  one := by decide
  mix := ⟨cfM, Aes.Diffusion.mixColumns_lin, cfM_ne⟩
  unmix := ⟨cfI, Aes.Diffusion.invMixColumns_lin⟩
theorem decSpreads : Spreads decBox where
  back_sh := by decide
  inj _ _ h := Aes.Diffusion.invSbox_inj.1 h
  one := by decide
  mix := ⟨cfI, Aes.Diffusion.invMixColumns_lin, cfI_ne⟩
  unmix := ⟨cfM, Aes.Diffusion.mixColumns_lin⟩
theorem rv32DecSpreads : Spreads rv32DecBox where
  back_sh := by decide
  inj _ _ h := Aes.Diffusion.invSbox_inj.1 h
  one := by decide
  mix := ⟨cfI, Aes.Diffusion.invMixColumns_lin, cfI_ne⟩
  unmix := ⟨cfM, Aes.Diffusion.mixColumns_lin⟩

end AesSpec.Integral
