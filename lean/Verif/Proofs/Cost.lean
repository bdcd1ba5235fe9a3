import Verif.Spec.Cost
import Batteries.Tactic.Init
/-! How much work a run does. Rules for `Costs`, and the functions of src/lib.rs. -/
namespace Aes.Leak
open Rust AesSpec

theorem totalWork_append (l l' : List Event) : totalWork (l ++ l') = totalWork l + totalWork l' := by
  induction l with
  | nil => simp [totalWork]
  | cons e l ih => simp [totalWork, ih, Nat.add_assoc]

/-- If the run returns, it has done `k` units of work. -/
def Costs {α : Type} (m : L α) (k : Nat) : Prop := ∀ a, m.out = .ok a → totalWork m.trace = k

section
variable {α β : Type}
theorem costs_pure (a : α) : Costs (pure a : L α) 0 := fun _ _ => rfl
theorem costs_bind {k : Nat} (c : Nat) {m : L α} {f : α → L β} (h : Costs m c) (h' : ∀ a, Costs (f a) k) : Costs (m >>= f) (k + c) := by
  intro b hb
  change (L.bind m f).out = _ at hb
  show totalWork (L.bind m f).trace = _
  unfold L.bind at hb ⊢
  cases hm : m.out with
  | ok a =>
    rw [hm] at hb
    show totalWork (m.trace ++ (f a).trace) = _
    rw [totalWork_append, h a hm, h' a b hb, Nat.add_comm]
  | error e => rw [hm] at hb; cases hb
theorem costs_bind0 {k : Nat} {m : L α} {f : α → L β} (h : Costs m 0) (h' : ∀ a, Costs (f a) k) : Costs (m >>= f) k := costs_bind 0 h h'
theorem Costs.of_eq {m : L α} {k k' : Nat} (h : Costs m k) (e : k = k') : Costs m k' := e ▸ h
theorem costs_emit (o : Op) (a : α) : Costs (emit o a) 1 := fun _ _ => rfl
theorem costs_ins (s : String) (a : α) : Costs (ins s a) 1 := fun _ _ => rfl
theorem costs_mk {l : List Event} {x : M α} (h : ∀ e ∈ l, work e = 0) : Costs (⟨l, x⟩ : L α) 0 := fun a ha => by
  show totalWork l = 0
  clear ha a
  induction l with
  | nil => rfl
  | cons e l ih => show work e + totalWork l = 0; rw [h e List.mem_cons_self, ih fun e he => h e (List.mem_cons_of_mem _ he)]
theorem costs_branch (b : Bool) : Costs (branch b) 0 := fun _ _ => rfl
theorem costs_panic (k : Nat) : Costs (panic : L α) k := fun _ h => by cases h
theorem costs_quiet (x : M α) : Costs (⟨[], x⟩ : L α) 0 := fun _ _ => rfl
theorem costs_assert (b : Bool) : Costs (assert b) 0 := costs_bind0 (costs_branch b) fun _ => by
  cases b
  · exact costs_panic _
  · exact costs_pure _
theorem costs_idx {k : Nat} (v : Vector α k) (i : Nat) : Costs (idx .data v i) 0 := by
  unfold idx; split
  · exact fun _ _ => rfl
  · exact fun _ h => by cases h
theorem costs_idx_rcon {k : Nat} (v : Vector α k) (i : Nat) : Costs (idx .RCON v i) 1 := by
  unfold idx; split
  · exact fun _ _ => rfl
  · exact fun _ h => by cases h
theorem costs_upd {k : Nat} (a : Arr) (v : Vector α k) (i : Nat) (x : α) : Costs (upd a v i x) 0 := by
  unfold upd; split
  · exact fun _ _ => rfl
  · exact fun _ h => by cases h
theorem costs_sidx (s : List α) (i : Nat) : Costs (sidx s i) 0 := by
  unfold sidx; split
  · exact fun _ _ => rfl
  · exact fun _ h => by cases h
theorem costs_sliceTo (s : List α) (k : Nat) : Costs (sliceTo s k) 0 := by
  unfold sliceTo; split
  · exact fun _ _ => rfl
  · exact fun _ h => by cases h
theorem costs_sliceFrom (s : List α) (k : Nat) : Costs (sliceFrom s k) 0 := by
  unfold sliceFrom; split
  · exact fun _ _ => rfl
  · exact fun _ h => by cases h
theorem costs_onTo (s : List α) (k : Nat) {f : List α → L (List α)} (h : ∀ s, Costs (f s) 0) : Costs (onTo s k f) 0 :=
  costs_bind0 (costs_sliceTo s k) fun p => costs_bind0 (h p) fun _ => costs_pure _
theorem costs_onFrom (s : List α) (k : Nat) {f : List α → L (List α)} (h : ∀ s, Costs (f s) 0) : Costs (onFrom s k f) 0 :=
  costs_bind0 (costs_sliceFrom s k) fun p => costs_bind0 (h p) fun _ => costs_pure _
theorem costs_writes (n : Nat) (x : M α) : Costs (⟨writes n, x⟩ : L α) 0 := costs_mk fun e he => by
  obtain ⟨_, _, rfl⟩ := List.mem_map.mp he; rfl
theorem costs_copy (d s : List α) : Costs (copyFromSlice d s) 0 := by
  unfold copyFromSlice; split
  · refine costs_mk fun e he => ?_
    rcases List.mem_cons.mp he with rfl | he
    · rfl
    · obtain ⟨_, _, rfl⟩ := List.mem_map.mp he; rfl
  · exact fun _ h => by cases h
theorem costs_arrayTryFrom (n : Nat) (s : List α) : Costs (arrayTryFrom n s) 0 := by
  unfold arrayTryFrom; split
  · exact fun _ _ => rfl
  · exact fun _ h => by cases h
theorem costs_unwrap {ε : Type} (x : Except ε α) : Costs (unwrap x) 0 := by
  cases x
  · exact fun _ h => by cases h
  · exact fun _ _ => rfl
theorem costs_rawRead (s : List U8) (o n : Nat) : Costs (rawRead s o n) 0 := costs_mk fun e he => by
  obtain ⟨_, _, rfl⟩ := List.mem_map.mp he; rfl
theorem costs_forEach {k : Nat} (l : List β) {f : α → β → L α} (h : ∀ a b, Costs (f a b) k) (acc : α) : Costs (forEach l f acc) (l.length * k) := by
  induction l generalizing acc with
  | nil => exact (costs_bind0 (costs_branch _) fun _ => costs_pure _).of_eq (by simp)
  | cons x l ih =>
    exact (costs_bind0 (costs_branch _) fun _ => costs_bind k (h acc x) fun a => ih a).of_eq (by simp [Nat.succ_mul])
end

section words
variable {w : Nat}
theorem costs_and (a b : BitVec w) : Costs (Leak.and a b) 1 := costs_emit _ _
theorem costs_or (a b : BitVec w) : Costs (Leak.or a b) 1 := costs_emit _ _
theorem costs_xor (a b : BitVec w) : Costs (Leak.xor a b) 1 := costs_emit _ _
theorem costs_not (a : BitVec w) : Costs (Leak.not a) 1 := costs_emit _ _
theorem costs_sub (a b : BitVec w) : Costs (Leak.sub a b) 1 := costs_emit _ _
theorem costs_shl (a : BitVec w) (k : Nat) : Costs (Leak.shl a k) 1 := costs_emit _ _
theorem costs_shr (a : BitVec w) (k : Nat) : Costs (Leak.shr a k) 1 := costs_emit _ _
theorem costs_rotr (a : BitVec w) (k : Nat) : Costs (Leak.rotr a k) 1 := costs_emit _ _
theorem costs_cast (v : Nat) (a : BitVec w) : Costs (Leak.cast v a) 1 := costs_emit _ _
end words

theorem costs_seq {α β : Type} {k c : Nat} {m : L α} {f : α → L β} (h : Costs m c) (h' : ∀ a, Costs (f a) k) : Costs (m >>= f) (k + c) := costs_bind c h h'
/-- Closes a goal whose program is a single step; the price may be unknown. -/
syntax "cost_step" : tactic
macro_rules | `(tactic| cost_step) => `(tactic| with_reducible first
  | exact costs_pure _
  | exact costs_and _ _
  | exact costs_or _ _
  | exact costs_xor _ _
  | exact costs_not _
  | exact costs_sub _ _
  | exact costs_shl _ _
  | exact costs_shr _ _
  | exact costs_rotr _ _
  | exact costs_cast _ _
  | exact costs_ins _ _
  | exact costs_emit _ _
  | exact costs_upd _ _ _ _
  | exact costs_idx _ _
  | exact costs_idx_rcon _ _
  | exact costs_sidx _ _
  | exact costs_sliceTo _ _
  | exact costs_sliceFrom _ _
  | exact costs_unwrap _
  | exact costs_rawRead _ _ _
  | exact costs_arrayTryFrom _ _
  | exact costs_writes _ _
  | exact costs_quiet _)
/-- Adds up the price of the goal's program and compares it with the price in the goal. -/
macro "cost_rules" : tactic => `(tactic| (
  eapply Costs.of_eq
  · (repeat (first | cost_step | (with_reducible eapply costs_seq) | with_reducible intro _))
  · rfl))

example (a b : BitVec 32) : Costs (do Leak.xor (← Leak.and a b) (← Leak.or a b)) 3 := by cost_rules

/-- The prices of a type of blocks. -/
structure CostVec (T : Type) {n : Nat} [LVec T n] (ld : Nat) (p : Client.BinOp → Nat) (fusedRound : Option Nat) : Prop where
  new : ∀ b, Costs (LVec.new b : L T) ld
  bitand : ∀ x y : T, Costs (LVec.bitand x y) (p .and)
  bitor : ∀ x y : T, Costs (LVec.bitor x y) (p .or)
  bitxor : ∀ x y : T, Costs (LVec.bitxor x y) (p .xor)
  not : ∀ x : T, Costs (LVec.not x) (p .xor)
  enc : ∀ x y : T, Costs (LVec.enc x y) (p .enc)
  dec : ∀ x y : T, Costs (LVec.dec x y) (p .dec)
  enc_last : ∀ x y : T, Costs (LVec.enc_last x y) (p .encLast)
  dec_last : ∀ x y : T, Costs (LVec.dec_last x y) (p .decLast)
  pre_none : fusedRound = none → (LVec.pre : Option (LPre T)) = none
  pre_some : ∀ s, fusedRound = some s → ∃ q : LPre T, LVec.pre = some q ∧ ∀ x y : T, Costs (q.pre_enc x y) (p .enc - s) ∧ Costs (q.pre_dec x y) (p .dec - s)
structure CostBlock (B : Type) [LBlock B] (ld : Nat) (p : Client.BinOp → Nat) (fusedRound : Option Nat) (mc imc k128 k192 k256 : Nat) : Prop where
  vec : CostVec B ld p fusedRound
  zero : Costs (LVec.zero : L B) 0
  mc : ∀ x : B, Costs (LBlock.mc x) mc
  imc : ∀ x : B, Costs (LBlock.imc x) imc
  keygen_128 : ∀ k, Costs (LBlock.keygen_128 k : L (Vector B 11)) k128
  keygen_192 : ∀ k, Costs (LBlock.keygen_192 k : L (Vector B 13)) k192
  keygen_256 : ∀ k, Costs (LBlock.keygen_256 k : L (Vector B 15)) k256

section lib
variable {T : Type} {n : Nat} [LVec T n] {p : Client.BinOp → Nat} {ld : Nat} {s : Option Nat} (h : CostVec T ld p s)
include h
theorem CostVec.chain_enc (x : T) (ks : List T) : Costs (Leak.chain_enc x ks) (p .xor + (ks.length - 1) * (p .enc - s.getD 0)) := by
  unfold Leak.chain_enc
  cases s with
  | some s =>
    obtain ⟨q, hq, hc⟩ := h.pre_some s rfl
    rw [hq]
    show Costs (chain_enc_pre q x ks) _
    unfold chain_enc_pre
    intro a ha
    refine costs_bind0 (costs_assert _) (fun _ => ?_) a ha
    by_cases hl : ks.length - 1 ≤ ks.length
    · rw [show sliceTo ks (ks.length - 1) = ⟨[.branch true], .ok (ks.take (ks.length - 1))⟩ from if_pos hl]
      show Costs ((⟨[.branch true] ++ _, _⟩ : L T)) _
      refine fun a ha => (?_ : totalWork (_ ++ _) = _)
      rw [totalWork_append]
      refine (Nat.zero_add _).trans ?_
      refine ((costs_bind _ (costs_forEach (ks.take (ks.length - 1)) (fun a b => (hc a b).1) x) fun acc =>
        costs_bind0 (costs_sidx _ _) fun _ => h.bitxor _ _) a ha).trans ?_
      rw [List.length_take, Nat.min_eq_left hl]
      rfl
    · exact absurd (Nat.sub_le _ _) hl
  | none =>
    rw [h.pre_none rfl]
    show Costs (chain_enc_std x ks) _
    unfold chain_enc_std
    refine costs_bind0 (costs_assert _) fun _ => costs_bind0 (costs_sidx _ _) fun _ => ?_
    refine (costs_bind _ (h.bitxor _ _) fun acc => ?_).of_eq (Nat.add_comm _ _)
    by_cases hl : 1 ≤ ks.length
    · rw [show sliceFrom ks 1 = ⟨[.branch true], .ok (ks.drop 1)⟩ from if_pos hl]
      refine fun a ha => (?_ : totalWork (_ ++ _) = _)
      rw [totalWork_append]
      refine (Nat.zero_add _).trans ?_
      refine ((costs_forEach (ks.drop 1) (fun a b => h.enc a b) acc) a ha).trans ?_
      rw [List.length_drop]
      rfl
    · rw [show sliceFrom ks 1 = ⟨[.branch false], .error .panic⟩ from if_neg hl]
      exact fun a ha => by cases ha
theorem CostVec.chain_dec (x : T) (ks : List T) : Costs (Leak.chain_dec x ks) (p .xor + (ks.length - 1) * (p .dec - s.getD 0)) := by
  unfold Leak.chain_dec
  cases s with
  | some s =>
    obtain ⟨q, hq, hc⟩ := h.pre_some s rfl
    rw [hq]
    show Costs (chain_dec_pre q x ks) _
    unfold chain_dec_pre
    intro a ha
    refine costs_bind0 (costs_assert _) (fun _ => ?_) a ha
    by_cases hl : ks.length - 1 ≤ ks.length
    · rw [show sliceTo ks (ks.length - 1) = ⟨[.branch true], .ok (ks.take (ks.length - 1))⟩ from if_pos hl]
      refine fun a ha => (?_ : totalWork (_ ++ _) = _)
      rw [totalWork_append]
      refine (Nat.zero_add _).trans ?_
      refine ((costs_bind _ (costs_forEach (ks.take (ks.length - 1)) (fun a b => (hc a b).2) x) fun acc =>
        costs_bind0 (costs_sidx _ _) fun _ => h.bitxor _ _) a ha).trans ?_
      rw [List.length_take, Nat.min_eq_left hl]
      rfl
    · exact absurd (Nat.sub_le _ _) hl
  | none =>
    rw [h.pre_none rfl]
    show Costs (chain_dec_std x ks) _
    unfold chain_dec_std
    refine costs_bind0 (costs_assert _) fun _ => costs_bind0 (costs_sidx _ _) fun _ => ?_
    refine (costs_bind _ (h.bitxor _ _) fun acc => ?_).of_eq (Nat.add_comm _ _)
    by_cases hl : 1 ≤ ks.length
    · rw [show sliceFrom ks 1 = ⟨[.branch true], .ok (ks.drop 1)⟩ from if_pos hl]
      refine fun a ha => (?_ : totalWork (_ ++ _) = _)
      rw [totalWork_append]
      refine (Nat.zero_add _).trans ?_
      refine ((costs_forEach (ks.drop 1) (fun a b => h.dec a b) acc) a ha).trans ?_
      rw [List.length_drop]
      rfl
    · rw [show sliceFrom ks 1 = ⟨[.branch false], .error .panic⟩ from if_neg hl]
      exact fun a ha => by cases ha
theorem CostVec.encrypt {B : Type} (into : B → T) {nr : Nat} (e : AesEnc B nr) (x : T) :
    Costs (Leak.encrypt into e x) (p .xor + (nr - 1) * (p .enc - s.getD 0) + p .encLast) := by
  unfold Leak.encrypt
  dsimp only
  have hl : nr ≤ (e.round_keys.map into).toList.length := by simp
  rw [show sliceTo (e.round_keys.map into).toList nr = ⟨[.branch true], .ok ((e.round_keys.map into).toList.take nr)⟩ from if_pos hl]
  refine fun a ha => (?_ : totalWork (_ ++ _) = _)
  rw [totalWork_append]
  refine (Nat.zero_add _).trans ?_
  refine ((costs_bind _ (h.chain_enc _ _) fun acc => costs_bind0 (costs_idx _ _) fun _ => h.enc_last _ _) a ha).trans ?_
  rw [List.length_take, Nat.min_eq_left hl, Nat.add_comm]
theorem CostVec.decrypt {B : Type} (into : B → T) {nr : Nat} (e : AesDec B nr) (x : T) :
    Costs (Leak.decrypt into e x) (p .xor + (nr - 1) * (p .dec - s.getD 0) + p .decLast) := by
  unfold Leak.decrypt
  dsimp only
  have hl : nr ≤ (e.round_keys.map into).toList.length := by simp
  rw [show sliceTo (e.round_keys.map into).toList nr = ⟨[.branch true], .ok ((e.round_keys.map into).toList.take nr)⟩ from if_pos hl]
  refine fun a ha => (?_ : totalWork (_ ++ _) = _)
  rw [totalWork_append]
  refine (Nat.zero_add _).trans ?_
  refine ((costs_bind _ (h.chain_dec _ _) fun acc => costs_bind0 (costs_idx _ _) fun _ => h.dec_last _ _) a ha).trans ?_
  rw [List.length_take, Nat.min_eq_left hl, Nat.add_comm]
end lib

theorem costs_array_from_slice (n : Nat) (v : List U8) (o : Nat) : Costs (array_from_slice n v o) 0 := costs_rawRead _ _ _
theorem costs_twice {α β : Type} {m m' : L α} {k : Nat} (h : Costs m k) (h' : Costs m' k) (mk : α → α → β) :
    Costs (do let a ← m; let b ← m'; pure (mk a b)) (2 * k) :=
  (costs_bind _ h fun _ => costs_bind _ h' fun _ => costs_pure _).of_eq (by rw [Nat.zero_add, Nat.two_mul])
theorem cost_pair {U : Type} {n : Nat} [LVec U n] {p : Client.BinOp → Nat} {ld : Nat} {s : Option Nat} (h : CostVec U ld p s)
    (T : Type) (mk : U → U → T) (f0 f1 : T → U) (N : Nat) (into : T → U × U) (from_ : U × U → T) :
    letI : LVec T N := pairVec T mk f0 f1 N into from_; CostVec T (2 * ld) (fun op => 2 * p op) (s.map (2 * ·)) :=
  letI : LVec T N := pairVec T mk f0 f1 N into from_
  { new := fun b => (costs_bind0 (costs_array_from_slice _ _ _) fun _ => costs_bind _ (h.new _) fun _ => costs_bind0 (costs_array_from_slice _ _ _) fun _ =>
      costs_bind _ (h.new _) fun _ => costs_pure _).of_eq (by rw [Nat.zero_add, Nat.two_mul])
    bitand := fun x y => costs_twice (h.bitand _ _) (h.bitand _ _) _
    bitor := fun x y => costs_twice (h.bitor _ _) (h.bitor _ _) _
    bitxor := fun x y => costs_twice (h.bitxor _ _) (h.bitxor _ _) _
    not := fun x => costs_twice (h.not _) (h.not _) _
    enc := fun x y => costs_twice (h.enc _ _) (h.enc _ _) _
    dec := fun x y => costs_twice (h.dec _ _) (h.dec _ _) _
    enc_last := fun x y => costs_twice (h.enc_last _ _) (h.enc_last _ _) _
    dec_last := fun x y => costs_twice (h.dec_last _ _) (h.dec_last _ _) _
    pre_none := fun hs => by
      show (LVec.pre (T := U)).map (impl_pre_encdec into from_) = none
      cases s with
      | none => rw [h.pre_none rfl]; rfl
      | some s => cases hs
    pre_some := fun s' hs => by
      cases s with
      | none => cases hs
      | some s =>
        obtain rfl : 2 * s = s' := Option.some.inj hs
        obtain ⟨q, hq, hc⟩ := h.pre_some s rfl
        refine ⟨impl_pre_encdec into from_ q, ?_, fun x y => ⟨?_, ?_⟩⟩
        · show (LVec.pre (T := U)).map (impl_pre_encdec into from_) = _
          rw [hq]; rfl
        · exact (costs_twice (hc _ _).1 (hc _ _).1 fun a b => from_ (a, b)).of_eq (Nat.mul_sub ..)
        · exact (costs_twice (hc _ _).2 (hc _ _).2 fun a b => from_ (a, b)).of_eq (Nat.mul_sub ..) }

theorem length_rangeStep1 (n : Nat) : (rangeStep 1 n 1).length = n - 1 := by
  simp [rangeStep]

section
variable {B : Type} [LBlock B] {p : Client.BinOp → Nat} {ld : Nat} {s : Option Nat} {mc imc k128 k192 k256 : Nat} (h : CostBlock B ld p s mc imc k128 k192 k256)
include h
theorem CostBlock.dec_round_keys {N : Nat} (k : Vector B N) : Costs (Leak.dec_round_keys k) ((N - 2) * imc) :=
  (costs_bind0 h.zero fun _ => costs_bind0 (costs_idx _ _) fun _ => costs_bind0 (costs_upd _ _ _ _) fun _ =>
    costs_bind _ (costs_forEach _ (fun _ _ => costs_bind0 (costs_idx _ _) fun _ => costs_bind _ (h.imc _) fun _ => costs_upd _ _ _ _) _) fun _ =>
      costs_bind0 (costs_idx _ _) fun _ => costs_upd _ _ _ _).of_eq (by rw [length_rangeStep1, Nat.zero_add, Nat.zero_add]; rfl)
theorem CostBlock.enc_round_keys {N : Nat} (k : Vector B N) : Costs (Leak.enc_round_keys k) ((N - 2) * mc) :=
  (costs_bind0 h.zero fun _ => costs_bind0 (costs_idx _ _) fun _ => costs_bind0 (costs_upd _ _ _ _) fun _ =>
    costs_bind _ (costs_forEach _ (fun _ _ => costs_bind0 (costs_idx _ _) fun _ => costs_bind _ (h.mc _) fun _ => costs_upd _ _ _ _) _) fun _ =>
      costs_bind0 (costs_idx _ _) fun _ => costs_upd _ _ _ _).of_eq (by rw [length_rangeStep1, Nat.zero_add, Nat.zero_add]; rfl)
theorem CostBlock.decrypter {nr : Nat} (e : AesEnc B nr) : Costs (Leak.decrypter e) ((nr - 1) * imc) :=
  (costs_bind _ (h.dec_round_keys _) fun _ => costs_pure _).of_eq (Nat.zero_add _)
theorem CostBlock.encrypter {nr : Nat} (e : AesDec B nr) : Costs (Leak.encrypter e) ((nr - 1) * mc) :=
  (costs_bind _ (h.enc_round_keys _) fun _ => costs_pure _).of_eq (Nat.zero_add _)
end

/-- `T::try_from(&slice).unwrap()`: if the slice is too short, the call does not return. -/
theorem costs_try_unwrap {T β : Type} {n : Nat} {f : Vector U8 n → L T} {m : L (List U8)} {g : T → L β} {c k : Nat} (hm : Costs m 0) (h : ∀ b, Costs (f b) c)
    (h' : ∀ x, Costs (g x) k) : Costs (do let s ← m; let r ← try_from_slice n f s; let x ← unwrap r; g x) (k + c) := by
  refine costs_bind0 hm fun s => ?_
  by_cases hs : s.length ≥ n
  · refine costs_bind c ?_ fun r => costs_bind0 (costs_unwrap _) h'
    unfold try_from_slice
    rw [if_pos hs]
    exact costs_bind0 (costs_branch _) fun _ => costs_bind0 (costs_array_from_slice _ _ _) fun b =>
      (costs_bind _ (h b) fun _ => costs_pure _).of_eq (Nat.zero_add _)
  · unfold try_from_slice
    rw [if_neg hs]
    exact fun a ha => by cases ha

/-- `cost_rules`, with the prices of further functions. -/
macro "cost_rules" "[" ts:term,+ "]" : tactic => `(tactic| (
  eapply Costs.of_eq
  · (repeat (first | cost_step | (first $[| (with_reducible eapply $ts)]*) | (with_reducible eapply costs_try_unwrap) | (with_reducible eapply costs_seq) | with_reducible intro _))
  · first | rfl | omega))

namespace Columns
theorem costs_load (e : Endian) {n : Nat} {m : Nat} (key : Vector U8 m) (c : Vector U32 n) : Costs (load_columns e key.toList c) (m / 4) :=
  (costs_forEach _ (fun _ _ => by cost_rules) _).of_eq (k := (chunksExact 4 key.toList).zipIdx.length * 1) (by simp [chunksExact])
theorem costs_128 {first : First 44} {a : Nat} (h : ∀ c i j r, Costs (first c i j r) a) (e : Endian) (key : Vector U8 16) :
    Costs (columns_128 first e key) (10 * (a + 3) + 4) := by
  unfold columns_128
  refine costs_bind _ (costs_load e key _) fun c => costs_forEach (rangeStep 0 40 4) (k := a + 3) (fun c i => ?_) c
  unfold step_128
  cost_rules [h]
theorem costs_192 {first : First 52} {a : Nat} (h : ∀ c i j r, Costs (first c i j r) a) (e : Endian) (key : Vector U8 24) :
    Costs (columns_192 first e key) (7 * (a + 5) + (a + 3) + 6) := by
  unfold columns_192
  refine costs_bind _ (costs_load e key _) fun c => ?_
  refine (costs_bind _ (costs_forEach (rangeStep 0 42 6) (k := a + 5) (fun c i => ?_) c) fun c => (?_ : Costs _ (a + 3))).of_eq (Nat.add_comm ..)
  · unfold step_192
    cost_rules [h]
  · cost_rules [h]
theorem costs_256 {first tail : First 60} {fifth} {a b d : Nat} (h : ∀ c i j r, Costs (first c i j r) a) (h5 : ∀ c i j, Costs (fifth c i j) b)
    (ht : ∀ c i j r, Costs (tail c i j r) d) (e : Endian) (key : Vector U8 32) :
    Costs (columns_256 first fifth tail e key) (6 * (a + b + 6) + (d + 3) + 8) := by
  unfold columns_256
  refine costs_bind _ (costs_load e key _) fun c => ?_
  refine (costs_bind _ (costs_forEach (rangeStep 0 48 8) (k := a + b + 6) (fun c i => ?_) c) fun c => (?_ : Costs _ (d + 3))).of_eq (Nat.add_comm ..)
  · unfold step_256
    cost_rules [h, h5]
  · cost_rules [ht]
end Columns
end Aes.Leak
