import Verif.Model.LeakClient
/-! Which instructions a run executes: the names in its trace. Rules for `Only`, and the functions of src/lib.rs. -/
namespace Aes.Leak
open Rust

/-- Every hardware instruction of the run has a name that is `ok`. -/
def Only {α : Type} (ok : String → Prop) (m : L α) : Prop := ∀ n, Event.op (.instr n) ∈ m.trace → ok n

section
variable {ok : String → Prop} {α β : Type}

theorem only_pure (a : α) : Only ok (pure a : L α) := fun n h => by cases h
theorem only_bind {m : L α} {f : α → L β} (h : Only ok m) (h' : ∀ a, Only ok (f a)) : Only ok (m >>= f) := by
  intro n hn
  show ok n
  change _ ∈ (L.bind m f).trace at hn
  unfold L.bind at hn
  cases hm : m.out with
  | ok a =>
    rw [hm] at hn
    rcases List.mem_append.mp hn with hn | hn
    · exact h n hn
    · exact h' a n hn
  | error e => rw [hm] at hn; exact h n hn
theorem only_ins {s : String} (a : α) (h : ok s) : Only ok (ins s a) := fun n hn => by
  have := List.mem_singleton.mp hn
  cases this
  exact h
theorem only_emit {o : Op} (a : α) (h : ∀ n, o ≠ .instr n) : Only ok (emit o a) := fun n hn => by
  have := List.mem_singleton.mp hn
  cases this
  exact absurd rfl (h n)
theorem only_mk {l : List Event} {x : M α} (h : ∀ n, Event.op (.instr n) ∉ l) : Only ok (⟨l, x⟩ : L α) := fun n hn => absurd hn (h n)
theorem reads_no (lo k : Nat) (n : String) : Event.op (.instr n) ∉ reads lo k := fun h => by
  obtain ⟨_, _, h⟩ := List.mem_map.mp h
  cases h
theorem writes_no (k : Nat) (n : String) : Event.op (.instr n) ∉ writes k := fun h => by
  obtain ⟨_, _, h⟩ := List.mem_map.mp h
  cases h
theorem only_branch (b : Bool) : Only ok (branch b) := only_mk fun n h => by cases List.mem_singleton.mp h
theorem only_panic : Only ok (panic : L α) := only_mk fun n h => by cases h
theorem only_ub : Only ok (ub : L α) := only_mk fun n h => by cases h
theorem only_assert (b : Bool) : Only ok (assert b) := only_bind (only_branch b) fun _ => by
  cases b
  · exact only_panic
  · exact only_pure _
theorem only_idx {k : Nat} (a : Arr) (v : Vector α k) (i : Nat) : Only ok (idx a v i) := by
  unfold idx; split <;> exact only_mk fun n h => by simp at h
theorem only_upd {k : Nat} (a : Arr) (v : Vector α k) (i : Nat) (x : α) : Only ok (upd a v i x) := by
  unfold upd; split <;> exact only_mk fun n h => by simp at h
theorem only_sidx (s : List α) (i : Nat) : Only ok (sidx s i) := by
  unfold sidx; split <;> exact only_mk fun n h => by simp at h
theorem only_supd (s : List α) (i : Nat) (x : α) : Only ok (supd s i x) := by
  unfold supd; split <;> exact only_mk fun n h => by simp at h
theorem only_sliceTo (s : List α) (k : Nat) : Only ok (sliceTo s k) := by
  unfold sliceTo; split <;> exact only_mk fun n h => by simp at h
theorem only_sliceFrom (s : List α) (k : Nat) : Only ok (sliceFrom s k) := by
  unfold sliceFrom; split <;> exact only_mk fun n h => by simp at h
theorem only_onTo (s : List α) (k : Nat) {f : List α → L (List α)} (h : ∀ s, Only ok (f s)) : Only ok (onTo s k f) :=
  only_bind (only_sliceTo s k) fun p => only_bind (h p) fun _ => only_pure _
theorem only_onFrom (s : List α) (k : Nat) {f : List α → L (List α)} (h : ∀ s, Only ok (f s)) : Only ok (onFrom s k f) :=
  only_bind (only_sliceFrom s k) fun p => only_bind (h p) fun _ => only_pure _
theorem only_copy (d s : List α) : Only ok (copyFromSlice d s) := by
  unfold copyFromSlice
  split
  · refine only_mk fun n h => ?_
    rcases List.mem_cons.mp h with h | h
    · cases h
    · exact writes_no _ _ h
  · exact only_mk fun n h => by simp at h
theorem only_arrayTryFrom (n : Nat) (s : List α) : Only ok (arrayTryFrom n s) := by
  unfold arrayTryFrom; split <;> exact only_mk fun n h => by simp at h
theorem only_unwrap {ε : Type} (x : Except ε α) : Only ok (unwrap x) := by
  cases x <;> exact only_mk fun n h => by simp at h
theorem only_rawRead (s : List U8) (o n : Nat) : Only ok (rawRead s o n) := only_mk (reads_no _ _)
theorem only_rawWrite {n : Nat} (s : List U8) (v : Vector U8 n) : Only ok (rawWrite s v) := only_mk (writes_no _)
theorem only_forEach (l : List β) {f : α → β → L α} (h : ∀ a b, Only ok (f a b)) (acc : α) : Only ok (forEach l f acc) := by
  induction l generalizing acc with
  | nil => exact only_bind (only_branch _) fun _ => only_pure _
  | cons x l ih => exact only_bind (only_branch _) fun _ => only_bind (h acc x) fun a => ih a
theorem only_quiet (x : M α) : Only ok (⟨[], x⟩ : L α) := only_mk fun n h => by cases h
theorem only_ite {c : Prop} [Decidable c] {m m' : L α} (h : Only ok m) (h' : Only ok m') : Only ok (if c then m else m') := by
  split
  · exact h
  · exact h'
end

section words
variable {ok : String → Prop} {w : Nat}
theorem only_and (a b : BitVec w) : Only ok (Leak.and a b) := only_emit _ fun _ h => by cases h
theorem only_or (a b : BitVec w) : Only ok (Leak.or a b) := only_emit _ fun _ h => by cases h
theorem only_xor (a b : BitVec w) : Only ok (Leak.xor a b) := only_emit _ fun _ h => by cases h
theorem only_not (a : BitVec w) : Only ok (Leak.not a) := only_emit _ fun _ h => by cases h
theorem only_sub (a b : BitVec w) : Only ok (Leak.sub a b) := only_emit _ fun _ h => by cases h
theorem only_shl (a : BitVec w) (k : Nat) : Only ok (Leak.shl a k) := only_emit _ fun _ h => by cases h
theorem only_shr (a : BitVec w) (k : Nat) : Only ok (Leak.shr a k) := only_emit _ fun _ h => by cases h
theorem only_rotr (a : BitVec w) (k : Nat) : Only ok (Leak.rotr a k) := only_emit _ fun _ h => by cases h
theorem only_cast (v : Nat) (a : BitVec w) : Only ok (Leak.cast v a) := only_emit _ fun _ h => by cases h
theorem only_eqw (a b : BitVec w) : Only ok (Leak.eqw a b) := only_emit _ fun _ h => by cases h
end words
/-- Applies the rules; leaves what calls other functions. -/
macro "only_rules" : tactic => `(tactic| repeat' (with_reducible first
  | exact only_pure _
  | exact only_branch _
  | exact only_assert _
  | exact only_idx _ _ _
  | exact only_upd _ _ _ _
  | exact only_sidx _ _
  | exact only_supd _ _ _
  | exact only_sliceTo _ _
  | exact only_sliceFrom _ _
  | exact only_copy _ _
  | exact only_arrayTryFrom _ _
  | exact only_unwrap _
  | exact only_rawRead _ _ _
  | exact only_rawWrite _ _
  | exact only_quiet _
  | exact only_and _ _
  | exact only_or _ _
  | exact only_xor _ _
  | exact only_not _
  | exact only_sub _ _
  | exact only_shl _ _
  | exact only_shr _ _
  | exact only_rotr _ _
  | exact only_cast _ _
  | exact only_eqw _ _
  | exact only_panic
  | exact only_ub
  | exact only_emit _ (fun _ h => by cases h)
  | refine only_ins _ ?_
  | assumption
  | refine only_bind ?_ fun _ => ?_
  | refine only_onTo _ _ fun _ => ?_
  | refine only_onFrom _ _ fun _ => ?_
  | refine only_forEach _ (fun _ _ => ?_) _
  | refine only_ite ?_ ?_))

/-- The operations of a block type execute only `ok` instructions. -/
structure OnlyVec (ok : String → Prop) (T : Type) {n : Nat} [LVec T n] : Prop where
  new : ∀ b : Vector U8 n, Only ok (LVec.new b : L T)
  from_bytes : ∀ b : Vector U8 n, Only ok (LVec.from_bytes b : L T)
  store_to : ∀ (x : T) d, Only ok (LVec.store_to x d)
  zero : Only ok (LVec.zero : L T)
  is_zero : ∀ x : T, Only ok (LVec.is_zero x)
  eq : ∀ x y : T, Only ok (LVec.eq x y)
  bitand : ∀ x y : T, Only ok (LVec.bitand x y)
  bitor : ∀ x y : T, Only ok (LVec.bitor x y)
  bitxor : ∀ x y : T, Only ok (LVec.bitxor x y)
  not : ∀ x : T, Only ok (LVec.not x)
  enc : ∀ x y : T, Only ok (LVec.enc x y)
  dec : ∀ x y : T, Only ok (LVec.dec x y)
  enc_last : ∀ x y : T, Only ok (LVec.enc_last x y)
  dec_last : ∀ x y : T, Only ok (LVec.dec_last x y)
  pre : ∀ p : LPre T, LVec.pre = some p → ∀ x y : T, Only ok (p.pre_enc x y) ∧ Only ok (p.pre_dec x y)
structure OnlyBlock (ok : String → Prop) (B : Type) [LBlock B] : Prop where
  vec : OnlyVec ok B
  mc : ∀ x : B, Only ok (LBlock.mc x)
  imc : ∀ x : B, Only ok (LBlock.imc x)
  keygen_128 : ∀ k, Only ok (LBlock.keygen_128 k : L (Vector B 11))
  keygen_192 : ∀ k, Only ok (LBlock.keygen_192 k : L (Vector B 13))
  keygen_256 : ∀ k, Only ok (LBlock.keygen_256 k : L (Vector B 15))

section lib
variable {ok : String → Prop}

theorem only_array_from_slice (n : Nat) (v : List U8) (o : Nat) : Only ok (array_from_slice n v o) := only_rawRead _ _ _
theorem only_try_from_slice {T : Type} (n : Nat) {f : Vector U8 n → L T} (h : ∀ b, Only ok (f b)) (v : List U8) : Only ok (try_from_slice n f v) := by
  unfold try_from_slice
  refine only_bind (only_branch _) fun _ => only_ite ?_ (only_pure _)
  exact only_bind (only_array_from_slice _ _ _) fun b => only_bind (h b) fun _ => only_pure _

section
variable {T : Type} {n : Nat} [LVec T n] (h : OnlyVec ok T)
include h
theorem OnlyVec.try_from (v : List U8) : Only ok (Leak.try_from v : L (Except Nat T)) := only_try_from_slice n h.from_bytes v
theorem OnlyVec.into_bytes (x : T) : Only ok (Leak.into_bytes x) := only_bind (h.store_to _ _) fun _ => only_quiet _
theorem OnlyVec.chain_enc (x : T) (ks : List T) : Only ok (Leak.chain_enc x ks) := by
  unfold Leak.chain_enc
  cases hp : (LVec.pre : Option (LPre T)) with
  | some p =>
    refine only_bind (only_assert _) fun _ => only_bind (only_sliceTo _ _) fun _ => only_bind (only_forEach _ (fun a b => (h.pre p hp a b).1) _) fun _ =>
      only_bind (only_sidx _ _) fun _ => h.bitxor _ _
  | none =>
    refine only_bind (only_assert _) fun _ => only_bind (only_sidx _ _) fun _ => only_bind (h.bitxor _ _) fun _ => only_bind (only_sliceFrom _ _) fun _ =>
      only_forEach _ (fun a b => h.enc a b) _
theorem OnlyVec.chain_dec (x : T) (ks : List T) : Only ok (Leak.chain_dec x ks) := by
  unfold Leak.chain_dec
  cases hp : (LVec.pre : Option (LPre T)) with
  | some p =>
    refine only_bind (only_assert _) fun _ => only_bind (only_sliceTo _ _) fun _ => only_bind (only_forEach _ (fun a b => (h.pre p hp a b).2) _) fun _ =>
      only_bind (only_sidx _ _) fun _ => h.bitxor _ _
  | none =>
    refine only_bind (only_assert _) fun _ => only_bind (only_sidx _ _) fun _ => only_bind (h.bitxor _ _) fun _ => only_bind (only_sliceFrom _ _) fun _ =>
      only_forEach _ (fun a b => h.dec a b) _
theorem OnlyVec.encrypt {B : Type} (into : B → T) {nr : Nat} (e : AesEnc B nr) (x : T) : Only ok (Leak.encrypt into e x) :=
  only_bind (only_sliceTo _ _) fun _ => only_bind (h.chain_enc _ _) fun _ => only_bind (only_idx _ _ _) fun _ => h.enc_last _ _
theorem OnlyVec.decrypt {B : Type} (into : B → T) {nr : Nat} (e : AesDec B nr) (x : T) : Only ok (Leak.decrypt into e x) :=
  only_bind (only_sliceTo _ _) fun _ => only_bind (h.chain_dec _ _) fun _ => only_bind (only_idx _ _ _) fun _ => h.dec_last _ _
end

section
variable {B : Type} [LBlock B] (h : OnlyBlock ok B)
include h
theorem OnlyBlock.from_u128 (v : U128) : Only ok (Leak.from_u128 v : L B) := only_bind (only_emit _ fun _ h => by cases h) fun _ => h.vec.from_bytes _
theorem OnlyBlock.into_u128 (x : B) : Only ok (Leak.into_u128 x) := only_bind (h.vec.into_bytes _) fun _ => only_emit _ fun _ h => by cases h
theorem OnlyBlock.dec_round_keys {N : Nat} (k : Vector B N) : Only ok (Leak.dec_round_keys k) :=
  only_bind h.vec.zero fun _ => only_bind (only_idx _ _ _) fun _ => only_bind (only_upd _ _ _ _) fun _ =>
    only_bind (only_forEach _ (fun _ _ => only_bind (only_idx _ _ _) fun _ => only_bind (h.imc _) fun _ => only_upd _ _ _ _) _) fun _ =>
      only_bind (only_idx _ _ _) fun _ => only_upd _ _ _ _
theorem OnlyBlock.enc_round_keys {N : Nat} (k : Vector B N) : Only ok (Leak.enc_round_keys k) :=
  only_bind h.vec.zero fun _ => only_bind (only_idx _ _ _) fun _ => only_bind (only_upd _ _ _ _) fun _ =>
    only_bind (only_forEach _ (fun _ _ => only_bind (only_idx _ _ _) fun _ => only_bind (h.mc _) fun _ => only_upd _ _ _ _) _) fun _ =>
      only_bind (only_idx _ _ _) fun _ => only_upd _ _ _ _
theorem OnlyBlock.decrypter {nr : Nat} (e : AesEnc B nr) : Only ok (Leak.decrypter e) := only_bind (h.dec_round_keys _) fun _ => only_pure _
theorem OnlyBlock.encrypter {nr : Nat} (e : AesDec B nr) : Only ok (Leak.encrypter e) := only_bind (h.enc_round_keys _) fun _ => only_pure _
theorem OnlyBlock.encFrom (k : Client.KeySize) (key : Vector U8 k.bytes) : Only ok (encFromOf B k key) := by
  cases k
  · exact only_bind (h.keygen_128 _) fun _ => only_pure _
  · exact only_bind (h.keygen_192 _) fun _ => only_pure _
  · exact only_bind (h.keygen_256 _) fun _ => only_pure _
theorem OnlyBlock.decFrom (k : Client.KeySize) (key : Vector U8 k.bytes) : Only ok (decFromOf B k key) := by
  cases k
  · exact only_bind (h.encFrom .k128 _) fun _ => h.decrypter _
  · exact only_bind (h.encFrom .k192 _) fun _ => h.decrypter _
  · exact only_bind (h.encFrom .k256 _) fun _ => h.decrypter _
end

theorem only_andAlso {a b : L Bool} (ha : Only ok a) (hb : Only ok b) : Only ok (andAlso a b) :=
  only_bind ha fun x => only_bind (only_branch _) fun _ => only_ite hb (only_pure _)
theorem only_andBoth {a b : L Bool} (ha : Only ok a) (hb : Only ok b) : Only ok (andBoth a b) :=
  only_bind ha fun x => only_bind hb fun _ => only_emit _ fun _ h => by cases h

theorem only_pair {U : Type} {n : Nat} [LVec U n] (h : OnlyVec ok U) (T : Type) (mk : U → U → T) (f0 f1 : T → U) (N : Nat) (into : T → U × U) (from_ : U × U → T) :
    letI : LVec T N := pairVec T mk f0 f1 N into from_; OnlyVec ok T :=
  letI : LVec T N := pairVec T mk f0 f1 N into from_
  { new := fun b => only_bind (only_array_from_slice _ _ _) fun _ => only_bind (h.new _) fun _ => only_bind (only_array_from_slice _ _ _) fun _ =>
      only_bind (h.new _) fun _ => only_pure _
    from_bytes := fun b => only_bind (only_array_from_slice _ _ _) fun _ => only_bind (h.new _) fun _ => only_bind (only_array_from_slice _ _ _) fun _ =>
      only_bind (h.new _) fun _ => only_pure _
    store_to := fun x d => only_bind (only_assert _) fun _ => only_bind (only_onTo _ _ fun _ => h.store_to _ _) fun _ =>
      only_onFrom _ _ fun _ => h.store_to _ _
    zero := only_bind h.zero fun _ => only_bind h.zero fun _ => only_pure _
    is_zero := fun x => only_andBoth (h.is_zero _) (h.is_zero _)
    eq := fun x y => only_andAlso (h.eq _ _) (h.eq _ _)
    bitand := fun x y => only_bind (h.bitand _ _) fun _ => only_bind (h.bitand _ _) fun _ => only_pure _
    bitor := fun x y => only_bind (h.bitor _ _) fun _ => only_bind (h.bitor _ _) fun _ => only_pure _
    bitxor := fun x y => only_bind (h.bitxor _ _) fun _ => only_bind (h.bitxor _ _) fun _ => only_pure _
    not := fun x => only_bind (h.not _) fun _ => only_bind (h.not _) fun _ => only_pure _
    enc := fun x y => only_bind (h.enc _ _) fun _ => only_bind (h.enc _ _) fun _ => only_pure _
    dec := fun x y => only_bind (h.dec _ _) fun _ => only_bind (h.dec _ _) fun _ => only_pure _
    enc_last := fun x y => only_bind (h.enc_last _ _) fun _ => only_bind (h.enc_last _ _) fun _ => only_pure _
    dec_last := fun x y => only_bind (h.dec_last _ _) fun _ => only_bind (h.dec_last _ _) fun _ => only_pure _
    pre := fun p hp x y => by
      have hp : (LVec.pre (T := U)).map (impl_pre_encdec into from_) = some p := hp
      cases hq : LVec.pre (T := U) with
      | none => rw [hq] at hp; cases hp
      | some q =>
        rw [hq] at hp
        obtain rfl : impl_pre_encdec into from_ q = p := Option.some.inj hp
        exact ⟨only_bind (h.pre q hq _ _).1 fun _ => only_bind (h.pre q hq _ _).1 fun _ => only_pure _,
          only_bind (h.pre q hq _ _).2 fun _ => only_bind (h.pre q hq _ _).2 fun _ => only_pure _⟩ }

namespace Columns
theorem only_load (e : Endian) {n : Nat} (key : List U8) (c : Vector U32 n) : Only ok (load_columns e key c) :=
  only_forEach _ (fun _ _ => only_bind (only_arrayTryFrom _ _) fun _ => only_bind (only_emit _ fun _ h => by cases h) fun _ => only_upd _ _ _ _) _
theorem only_128 {first : First 44} (h : ∀ c i j r, Only ok (first c i j r)) (e : Endian) (key : Vector U8 16) : Only ok (columns_128 first e key) := by
  refine only_bind (only_load _ _ _) fun _ => only_forEach _ (fun _ _ => ?_) _
  unfold step_128
  refine only_bind (h _ _ _ _) fun _ => ?_
  only_rules
theorem only_192 {first : First 52} (h : ∀ c i j r, Only ok (first c i j r)) (e : Endian) (key : Vector U8 24) : Only ok (columns_192 first e key) := by
  refine only_bind (only_load _ _ _) fun _ => only_bind (only_forEach _ (fun _ _ => ?_) _) fun _ => ?_
  · unfold step_192
    refine only_bind (h _ _ _ _) fun _ => ?_
    only_rules
  · refine only_bind (h _ _ _ _) fun _ => ?_
    only_rules
theorem only_256 {first tail : First 60} {fifth} (h : ∀ c i j r, Only ok (first c i j r)) (h5 : ∀ c i j, Only ok (fifth c i j)) (ht : ∀ c i j r, Only ok (tail c i j r))
    (e : Endian) (key : Vector U8 32) : Only ok (columns_256 first fifth tail e key) := by
  refine only_bind (only_load _ _ _) fun _ => only_bind (only_forEach _ (fun _ _ => ?_) _) fun _ => ?_
  · unfold step_256
    refine only_bind (h _ _ _ _) fun _ => ?_
    only_rules
    exact h5 _ _ _
  · refine only_bind (ht _ _ _ _) fun _ => ?_
    only_rules
end Columns
end lib
end Aes.Leak
