import Verif.Properties.Borrow
import Verif.Proofs.GenBorrowCrate
/-!
C62 for the source text: the programs that tools/rust2lean.py makes of the text of the functions that go through references and pointers (`Verif/Gen/Borrow.lean`), for
every profile, endianness and target.
-/
namespace Aes
open Rust AesSpec AesVec AesBlock Target
open Borrow (State Access Tag Ref)

/-- C62: the text of `store_to`, `try_from`, `from(&[u8; N])` and `<[u8; N]>::from`, of every type and on every target, does with references and pointers what the
theorems above are about. -/
theorem C62_source (pf : Profile) (e : Endian) (t : Target) (w : Width) :
    RustSrc.Ptr.store_to pf e t w = Borrow.StoreTo.store_to (T := t.Vec w) ∧
    RustSrc.Ptr.try_from pf e t w = Borrow.try_from (T := t.Vec w) ∧
    RustSrc.Ptr.from_ref pf e t w = Borrow.from_ref (T := t.Vec w) ∧
    ∀ p, RustSrc.Ptr.into_bytes pf e t w p = Borrow.into_bytes (T := t.Vec w) p := by
  refine ⟨?_, RustSrc.Ptr.try_from_eq' pf e t w, RustSrc.Ptr.from_ref_eq pf e t w, fun p => ?_⟩
  · cases w with
    | x1 => exact RustSrc.Ptr.store1_eq pf e t
    | x2 => exact RustSrc.Ptr.store2_eq pf e t
    | x4 => exact RustSrc.Ptr.store4_eq pf e t
  · cases w with
    | x1 => exact RustSrc.Ptr.into_bytes_1 pf e t p
    | x2 => exact RustSrc.Ptr.into_bytes_2 pf e t p
    | x4 => exact RustSrc.Ptr.into_bytes_4 pf e t p

/-- The text of the called function. -/
def SliceCall.source (pf : Profile) (e : Endian) {t : Target} : SliceCall t → Borrow.B Unit
  | .store w x r => RustSrc.Ptr.store_to pf e t w x r
  | .load w r => do let _ ← RustSrc.Ptr.try_from pf e t w r

/-- C62, `C62_history` for the source text: any sequence of `store_to` and `try_from` on slices of the caller that are valid at the start, any two of them the same or
apart, runs without breaking an aliasing rule, and leaves in memory what the stores put there. -/
theorem C62_source_history (pf : Profile) (e : Endian) (t : Target) (calls : List (SliceCall t)) (σ : State) (hσ : σ.WellFormed)
    (hv : ∀ o ∈ calls, valid σ o.needs o.ref ∧ o.ref.tag < σ.nextTag ∧ o.long) (hd : ∀ o ∈ calls, ∀ o' ∈ calls, Apart o.ref o'.ref) :
    ∃ σ', calls.forM (SliceCall.source pf e) σ = .ok ((), σ') ∧ σ'.WellFormed ∧ σ'.bytes = calls.foldl SliceCall.after σ.bytes ∧ σ'.active = σ.active ∧
      ∀ (s : Ref) (k : Access), s.tag < σ.nextTag → (∀ o ∈ calls, Apart o.ref s) → valid σ k s → valid σ' k s := by
  have h : (SliceCall.source pf e : SliceCall t → _) = SliceCall.run := by
    funext o
    cases o with
    | store w x r => exact congrFun (congrFun (C62_source pf e t w).1 x) r
    | load w r =>
      show (do let _ ← RustSrc.Ptr.try_from pf e t w r : Borrow.B Unit) = _
      rw [(C62_source pf e t w).2.1]; rfl
  rw [h]
  exact C62_history t calls σ hσ hv hd

/-- C62: `from([u8; N])`, from the source text, wherever its argument is placed: no aliasing rule is broken, the result is that of C18, and no memory and no pointer is
left behind. -/
theorem C62_source_from_array (pf : Profile) (e : Endian) (t : Target) (w : Width) (σ : State) (hσ : σ.WellFormed) (p : Nat) (v : Bytes w.size) :
    Expands σ p w.size (RustSrc.Ptr.from_array pf e t w p v) (from_bytes (T := t.Vec w) v) := fun hf => by
  obtain ⟨σ', y, e1, e2, f⟩ := RustSrc.Ptr.from_array_ok pf e t w p v hσ.calls hf
  exact ⟨σ', y, e1, e2, f.stacks, f.active, f.bytes⟩

theorem Expands.congr {α : Type} {σ : State} {p n : Nat} {f g : Borrow.B α} {x : M α} (h : f = g) (hg : Expands σ p n g x) : Expands σ p n f x := h ▸ hg

/-- C62: the key expansions, from the source text, on every target (where they make pointers: the constant-time code, Arm and riscv32): no aliasing rule is broken, wherever
the compiler places the array of round keys (aligned to 4), and the round keys are those of the rest of this development. -/
theorem C62_source_keygen (pf : Profile) (e : Endian) (t : Target) (σ : State) (hσ : σ.WellFormed) (p : Nat) (hp : p % 4 = 0) (k16 : Bytes 16) (k24 : Bytes 24)
    (k32 : Bytes 32) :
    Expands σ p (16 * 11) (RustSrc.Ptr.keygen_128 pf e t p k16) (keygen_128 (B := t.Block) k16) ∧
    Expands σ p (16 * 13) (RustSrc.Ptr.keygen_192 pf e t p k24) (keygen_192 (B := t.Block) k24) ∧
    Expands σ p (16 * 15) (RustSrc.Ptr.keygen_256 pf e t p k32) (keygen_256 (B := t.Block) k32) := by
  have hb := RustSrc.Ptr.block_inst pf e t
  have l : ∀ {α : Type} {n : Nat} {x x' : M α} {y : α}, x' = x → x = .ok y → Expands σ p n (liftM x') x := fun h h' _ => by
    subst h
    exact ⟨σ, _, by rw [h']; rfl, h', rfl, rfl, fun _ _ => rfl⟩
  have h1 : ∀ k, (RustSrc.block pf e t).keygen_128 k = keygen_128 (B := t.Block) k := fun k => congrArg (fun b : AesBlock t.Block => b.keygen_128 k) hb
  have h2 : ∀ k, (RustSrc.block pf e t).keygen_192 k = keygen_192 (B := t.Block) k := fun k => congrArg (fun b : AesBlock t.Block => b.keygen_192 k) hb
  have h3 : ∀ k, (RustSrc.block pf e t).keygen_256 k = keygen_256 (B := t.Block) k := fun k => congrArg (fun b : AesBlock t.Block => b.keygen_256 k) hb
  have r1 := Target.keygen_128_all t k16
  have r2 := Target.keygen_192_all t k24
  have r3 := Target.keygen_256_all t k32
  cases t with
  | bitslice e' =>
    have h := C62_bitslice e' σ hσ p hp k16 k24 k32
    exact ⟨h.1.congr (@RustSrc.Ptr.bitslice_128 (RustSrc.cfg pf e (.bitslice e')) p k16), h.2.1.congr (@RustSrc.Ptr.bitslice_192 (RustSrc.cfg pf e (.bitslice e')) p k24),
      h.2.2.congr (@RustSrc.Ptr.bitslice_256 (RustSrc.cfg pf e (.bitslice e')) p k32)⟩
  | arm b =>
    have h := C62_arm b σ hσ p hp k16 k24 k32
    exact ⟨h.1.congr (@RustSrc.Ptr.arm_128 (RustSrc.cfg pf e (.arm b)) rfl p k16), h.2.1.congr (@RustSrc.Ptr.arm_192 (RustSrc.cfg pf e (.arm b)) rfl p k24),
      h.2.2.congr (@RustSrc.Ptr.arm_256 (RustSrc.cfg pf e (.arm b)) rfl p k32)⟩
  | riscv32 =>
    have h := C62_riscv32 σ hσ p hp k16 k24 k32
    exact ⟨h.1.congr (@RustSrc.Ptr.riscv32_128 (RustSrc.cfg pf e .riscv32) rfl p k16), h.2.1.congr (@RustSrc.Ptr.riscv32_192 (RustSrc.cfg pf e .riscv32) rfl p k24),
      h.2.2.congr (@RustSrc.Ptr.riscv32_256 (RustSrc.cfg pf e .riscv32) rfl p k32)⟩
  | table => exact ⟨l (h1 k16) r1, l (h2 k24) r2, l (h3 k32) r3⟩
  | x86 => exact ⟨l (h1 k16) r1, l (h2 k24) r2, l (h3 k32) r3⟩
  | x86Vaes => exact ⟨l (h1 k16) r1, l (h2 k24) r2, l (h3 k32) r3⟩
  | x86Vaes512 => exact ⟨l (h1 k16) r1, l (h2 k24) r2, l (h3 k32) r3⟩
  | riscv64 => exact ⟨l (h1 k16) r1, l (h2 k24) r2, l (h3 k32) r3⟩

theorem assign_text {T : Type} {n : Nat} (l : RustSrc.Layout T n) (op : T → T → T) : (fun (self : Ref) (rhs : T) => (Borrow.call fun c => do
    let self ← Borrow.argument c self
    let rhs := (op (← RustSrc.Ptr.load self) rhs)
    RustSrc.Ptr.store self rhs)) = Borrow.op_assign l.bytes l.ofBytes op := by
  funext r x
  refine RustSrc.Ptr.call_congr fun c => congrArg (Borrow.argument c r >>= ·) (funext fun r => ?_)
  unfold RustSrc.Ptr.load RustSrc.Ptr.store
  simp only [bind_assoc, pure_bind]

/-- C62: the text of `&=`, `|=` and `^=` is that of `C62_assign`, for the bytes of any layout of the type. (`T` is any of the three block types: the text is that of one macro.) -/
theorem C62_source_assign {T : Type} (l1 : RustSrc.Layout T 16) (l2 : RustSrc.Layout T 32) (l4 : RustSrc.Layout T 64) (and or xor : T → T → T) :
    (@RustSrc.Ptr.AesBlock.bitand_assign T l1 and or xor = Borrow.op_assign l1.bytes l1.ofBytes and ∧
      @RustSrc.Ptr.AesBlock.bitor_assign T l1 and or xor = Borrow.op_assign l1.bytes l1.ofBytes or ∧
      @RustSrc.Ptr.AesBlock.bitxor_assign T l1 and or xor = Borrow.op_assign l1.bytes l1.ofBytes xor) ∧
    (@RustSrc.Ptr.AesBlockX2.bitand_assign T l2 and or xor = Borrow.op_assign l2.bytes l2.ofBytes and ∧
      @RustSrc.Ptr.AesBlockX2.bitor_assign T l2 and or xor = Borrow.op_assign l2.bytes l2.ofBytes or ∧
      @RustSrc.Ptr.AesBlockX2.bitxor_assign T l2 and or xor = Borrow.op_assign l2.bytes l2.ofBytes xor) ∧
    (@RustSrc.Ptr.AesBlockX4.bitand_assign T l4 and or xor = Borrow.op_assign l4.bytes l4.ofBytes and ∧
      @RustSrc.Ptr.AesBlockX4.bitor_assign T l4 and or xor = Borrow.op_assign l4.bytes l4.ofBytes or ∧
      @RustSrc.Ptr.AesBlockX4.bitxor_assign T l4 and or xor = Borrow.op_assign l4.bytes l4.ofBytes xor) :=
  ⟨⟨assign_text l1 and, assign_text l1 or, assign_text l1 xor⟩, ⟨assign_text l2 and, assign_text l2 or, assign_text l2 xor⟩,
    ⟨assign_text l4 and, assign_text l4 or, assign_text l4 xor⟩⟩

/-! ### Concrete cases -/

-- in a debug build, the text of `store_to` and `try_from` on the two halves of the slice of `borrowed`
example (pf : Profile) (x y : X86.Block) : ∃ σ', ([.store .x1 x ⟨96, 16, 1⟩, .store .x1 y ⟨112, 16, 1⟩, .load .x1 ⟨96, 16, 1⟩] : List (SliceCall .x86)).forM
    (SliceCall.source pf .little) borrowed = .ok ((), σ') := by
  obtain ⟨σ', e, _⟩ := C62_source_history pf .little .x86 [.store .x1 x ⟨96, 16, 1⟩, .store .x1 y ⟨112, 16, 1⟩, .load .x1 ⟨96, 16, 1⟩] borrowed borrowed_wellFormed
    (by
      simp only [List.mem_cons, List.not_mem_nil, or_false, forall_eq_or_imp, forall_eq]
      exact ⟨⟨borrowed_part _ 96 (by decide), Nat.lt_succ_self 1, Nat.le_refl 16⟩, ⟨borrowed_part _ 112 (by decide), Nat.lt_succ_self 1, Nat.le_refl 16⟩,
        ⟨borrowed_part _ 96 (by decide), Nat.lt_succ_self 1, trivial⟩⟩)
    (by
      simp only [List.mem_cons, List.not_mem_nil, or_false, forall_eq_or_imp, forall_eq, SliceCall.ref, Apart]
      simp)
  exact ⟨σ', e⟩
-- the memory from address 128 on is free
example (pf : Profile) (k : Bytes 16) : ∃ σ' y, RustSrc.Ptr.keygen_128 pf .little (.arm false) 128 k borrowed = .ok (y, σ') ∧
    keygen_128 (B := (Target.arm false).Block) k = .ok y := by
  obtain ⟨σ', y, h, h', _⟩ := (C62_source_keygen pf .little (.arm false) borrowed borrowed_wellFormed 128 (by decide) k (Vector.replicate 24 0) (Vector.replicate 32 0)).1
    fun a ha => if_neg (by omega)
  exact ⟨σ', y, h, h'⟩
example (pf : Profile) (v : Bytes 64) : ∃ σ' y, RustSrc.Ptr.from_array pf .little .x86 .x4 128 v borrowed = .ok (y, σ') := by
  obtain ⟨σ', y, h, _⟩ := C62_source_from_array pf .little .x86 .x4 borrowed borrowed_wellFormed 128 v fun a ha => if_neg (by omega)
  exact ⟨σ', y, h⟩
end Aes
