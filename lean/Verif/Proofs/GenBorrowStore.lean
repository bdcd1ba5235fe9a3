import Verif.Proofs.GenBorrow
import Verif.Proofs.GenRiscv64
import Verif.Proofs.BorrowStore
/-
The rest of Gen/Borrow.lean (stores, loads, conversions), generated from the source text, is that of Model/Borrow.lean.
-/
set_option linter.unusedSectionVars false
namespace RustSrc.Ptr
open Rust Aes.Borrow

theorem call_congr {α : Type} {f g : CallId → B α} (h : ∀ c, f c = g c) : call f = call g := by rw [funext h]
/-- What faults without touching the memory may be moved out of a call. -/
theorem call_bind {α β : Type} (f : CallId → B α) (g : α → M β) :
    call (fun c => do liftM (g (← f c))) = (call f >>= fun a => (liftM (g a) : B β)) := by
  funext σ
  show call (fun c => f c >>= fun a => (liftM (g a) : B β)) σ = (call f σ >>= fun p => (liftM (g p.1) : B β) p.2)
  unfold call
  show ((f σ.nextCall { σ with active := σ.nextCall :: σ.active, nextCall := σ.nextCall + 1 } >>= fun p => (liftM (g p.1) : B β) p.2) >>= _) =
    ((f σ.nextCall { σ with active := σ.nextCall :: σ.active, nextCall := σ.nextCall + 1 } >>= _) >>= _)
  generalize f σ.nextCall { σ with active := σ.nextCall :: σ.active, nextCall := σ.nextCall + 1 } = x
  rcases x with err | ⟨a, s⟩
  · rfl
  · show ((liftM (g a) : B β) s >>= fun (p : β × State) => Except.ok (p.1, { p.2 with active := σ.active })) = (liftM (g a) : B β) { s with active := σ.active }
    show ((g a >>= fun b => Except.ok (b, s)) >>= _) = (g a >>= fun b => Except.ok (b, _))
    cases g a <;> rfl

section
variable [Cfg]

theorem array_from_slice_eq (n : Nat) (r : Ref) (offset : Nat) (h : offset + n ≤ r.len) :
    array_from_slice n r offset = Aes.Borrow.array_from_slice n r offset := by
  refine call_congr fun c => ?_
  unfold argument_shared const_ptr read_bytes Ref.add
  simp only [bind_assoc, pure_bind]
  refine bind2 rfl fun t => ?_
  have : Aes.Profile.debugAssert Cfg.profile (do pure (decide ((← (Aes.Profile.usub Cfg.profile r.len offset)) ≥ n))) = .ok () := by
    rw [Aes.Profile.usub_ok _ (by omega)]
    unfold Aes.Profile.debugAssert
    have : decide (r.len - offset ≥ n) = true := decide_eq_true (by omega)
    simp only [Aes.Profile.ok_bind, this]
    split <;> rfl
  rw [this, lift_ok, pure_bind]

/-- What `try_from` makes of the array. -/
def finish {T : Type} {n : Nat} (f : Vector U8 n → M T) (len : Nat) : Option (Vector U8 n) → B (Except Nat T)
  | some v => do pure (Except.ok (← liftM (f v)))
  | none => pure (Except.error len)
theorem try_from_slice_eq {T : Type} (n : Nat) (f : Vector U8 n → M T) (r : Ref) :
    try_from_slice n f r = (Aes.Borrow.try_from_slice n r >>= finish f r.len) := by
  have h : finish f r.len = fun o => liftM (match o with
      | some v => (do pure (Except.ok (← f v)) : M (Except Nat T))
      | none => pure (Except.error r.len)) := by
    funext o
    cases o with
    | none => rfl
    | some v =>
      funext σ
      show ((f v >>= fun b => Except.ok (b, σ)) >>= fun p => _) = ((f v >>= fun b => _) >>= fun b => Except.ok (b, σ))
      cases f v <;> rfl
  rw [h]
  refine Eq.trans ?_ (call_bind _ _)
  refine call_congr fun c => ?_
  unfold argument_shared
  simp only [bind_assoc, pure_bind]
  refine bind2 rfl fun t => ?_
  by_cases hl : r.len ≥ n
  · simp only [hl, if_true, decide_true, bind_assoc, pure_bind, array_from_slice_eq n { r with tag := t } 0 (by show 0 + n ≤ r.len; omega)]
    refine bind2 rfl fun v => ?_
    exact congrFun h (some v)
  · simp only [hl, if_false, decide_false, pure_bind]
    rfl

theorem try_from_eq {T : Type} {n : Nat} [Aes.AesVec T n] (r : Ref) :
    (call fun c => do
      let value ← argument_shared c r
      pure (← try_from_slice n (Aes.AesVec.from_bytes (T := T)) value)) = Aes.Borrow.try_from (T := T) r := by
  refine call_congr fun c => bind2 rfl fun r => ?_
  rw [try_from_slice_eq]
  refine bind2 rfl fun o => ?_
  cases o <;> rfl

/-! ### store_to -/

theorem store_u32_be_eq : Table.store_u32_be = Aes.Borrow.store_u32_be := rfl
theorem table_store : Table.store_to = StoreTo.store_to := rfl
theorem bitslice_store : Bitslice.store_to = StoreTo.store_to := rfl
theorem x86_store : X86.store_to = StoreTo.store_to := by
  funext x r
  refine call_congr fun c => bind2 rfl fun r => bind2 rfl fun _ => ?_
  unfold mut_ptr
  simp only [bind_assoc, pure_bind]; rfl
theorem arm_store : Arm.store_to = StoreTo.store_to := by
  funext x r
  refine call_congr fun c => bind2 rfl fun r => bind2 rfl fun _ => ?_
  unfold mut_ptr
  simp only [bind_assoc, pure_bind]; rfl
theorem nix2_store : NiX2.store_to = StoreTo.store_to := by
  funext x r
  refine call_congr fun c => bind2 rfl fun r => bind2 rfl fun _ => ?_
  unfold mut_ptr
  simp only [bind_assoc, pure_bind]; rfl
theorem nix4_store : NiX4.store_to = StoreTo.store_to := by
  funext x r
  refine call_congr fun c => bind2 rfl fun r => bind2 rfl fun _ => ?_
  unfold mut_ptr
  simp only [bind_assoc, pure_bind]; rfl
theorem riscv64_store (he : (Cfg.endian : Endian) = .little) : Riscv64.store_to = StoreTo.store_to := by
  funext x r
  refine call_congr fun c => bind2 rfl fun r => bind2 rfl fun _ => ?_
  unfold mut_ptr
  simp only [bind_assoc, pure_bind, write_unaligned, RustSrc.Riscv64.bytes_eq he]; rfl
theorem riscv32_store (he : (Cfg.endian : Endian) = .little) : Riscv32.store_to = StoreTo.store_to := by
  funext x r
  refine call_congr fun c => bind2 rfl fun r => bind2 rfl fun _ => ?_
  unfold mut_ptr
  simp only [bind_assoc, pure_bind, write_unaligned, RustSrc.Riscv32.bytes_eq he]; rfl
theorem x2_store {T : Type} [StoreTo T] : DefaultX2.store_to (T := T) StoreTo.store_to = StoreTo.store_to := rfl
theorem x4_store {T : Type} [StoreTo T] : DefaultX4.store_to (T := T) StoreTo.store_to = StoreTo.store_to := rfl

/-! ### Local arrays -/

theorem load_local_eq {N : Nat} {T : Type} (p : Nat) (v : Vector U8 N) (mk : Vector U8 N → T) :
    (do
      let value : Ref := ⟨p, N, ← allocate p v⟩
      let q ← const_ptr (← borrow value)
      let x ← read q.tag q.ptr N
      deallocate value.tag value.ptr value.len
      pure (mk x)) = (do let x ← load_local p v; pure (mk x) : B T) := by
  unfold const_ptr borrow load_local
  simp only [bind_assoc, pure_bind]
theorem x86_from_array (p : Nat) (v : Vector U8 16) : X86.from_array p v = (do let x ← load_local p v; pure ⟨x⟩) := by
  rw [← load_local_eq]
  unfold X86.from_array _mm_loadu_si128
  simp only [bind_assoc]
theorem arm_from_array (p : Nat) (v : Vector U8 16) : Arm.from_array p v = (do let x ← load_local p v; pure ⟨x⟩) := by
  rw [← load_local_eq]
  unfold Arm.from_array vld1q_u8
  simp only [bind_assoc]
theorem nix2_from_array (p : Nat) (v : Vector U8 32) : NiX2.from_array p v = (do let x ← load_local p v; pure ⟨x⟩) := by
  rw [← load_local_eq]
  unfold NiX2.from_array _mm256_loadu_si256
  simp only [bind_assoc]
theorem nix4_from_array (p : Nat) (v : Vector U8 64) : NiX4.from_array p v = (do let x ← load_local p v; pure ⟨x⟩) := by
  rw [← load_local_eq]
  unfold NiX4.from_array _mm512_loadu_si512
  simp only [bind_assoc]

theorem load_halves_eq {n : Nat} {T U : Type} (f : Vector U8 n → M T) (g : Vector U8 n → T) (hf : ∀ v, f v = .ok (g v)) (p : Nat) (v : Vector U8 (n + n)) (mk : T → T → U) :
    (do
      let value : Ref := ⟨p, n + n, ← allocate p v⟩
      let a ← liftM (f (← array_from_slice n (← borrow value) 0))
      let b ← liftM (f (← array_from_slice n (← borrow value) n))
      deallocate value.tag value.ptr value.len
      pure (mk a b)) = (do let h ← load_halves n p v; pure (mk (g h.1) (g h.2)) : B U) := by
  unfold borrow load_halves
  simp only [bind_assoc, pure_bind, hf, lift_ok]
  refine bind2 rfl fun x => bind2 rfl fun y => ?_
  rw [array_from_slice_eq n ⟨p, n + n, y⟩ 0 (by show 0 + n ≤ n + n; omega)]
  refine bind2 rfl fun a => bind2 rfl fun z => ?_
  rw [array_from_slice_eq n ⟨p, n + n, z⟩ n (Nat.le_refl (n + n))]
theorem x2_new {T : Type} (f : Vector U8 16 → M T) (g : Vector U8 16 → T) (hf : ∀ v, f v = .ok (g v)) (p : Nat) (v : Vector U8 32) :
    DefaultX2.new f p v = (do let h ← load_halves 16 p v; pure ⟨g h.1, g h.2⟩) := by
  refine Eq.trans ?_ (load_halves_eq f g hf p v fun a b => (⟨a, b⟩ : Aes.DefaultX2.X2 T))
  unfold DefaultX2.new
  simp only [bind_assoc]
theorem x4_new {T : Type} (f : Vector U8 32 → M T) (g : Vector U8 32 → T) (hf : ∀ v, f v = .ok (g v)) (p : Nat) (v : Vector U8 64) :
    DefaultX4.new f p v = (do let h ← load_halves 32 p v; pure ⟨g h.1, g h.2⟩) := by
  refine Eq.trans ?_ (load_halves_eq f g hf p v fun a b => (⟨a, b⟩ : Aes.DefaultX4.X4 T))
  unfold DefaultX4.new
  simp only [bind_assoc]
end
end RustSrc.Ptr
