import Verif.Gen.Borrow
import Verif.Proofs.GenBitslice
import Verif.Proofs.GenArm
import Verif.Proofs.GenRiscv32
import Verif.Proofs.Profile
import Verif.Proofs.BorrowKeys
/-
The functions of Gen/Borrow.lean, generated from the source text, are those of Model/Borrow.lean.
-/
set_option linter.unusedSectionVars false
namespace RustSrc.Ptr
open Rust Aes.Borrow
variable [Cfg]

theorem lift_ok {α : Type} (x : α) : (liftM (Except.ok x : M α) : B α) = pure x := rfl
theorem forM_congr {α : Type} {l : List α} {f g : α → B Unit} (h : ∀ x ∈ l, f x = g x) : l.forM f = l.forM g := by
  induction l with
  | nil => rfl
  | cons a l ih =>
    show (f a >>= fun _ => l.forM f) = (g a >>= fun _ => l.forM g)
    rw [h a List.mem_cons_self, ih fun x hx => h x (List.mem_cons_of_mem _ hx)]
theorem forM_map {α β : Type} {l : List α} {h : α → β} {f : β → B Unit} : (l.map h).forM f = l.forM fun a => f (h a) := by
  induction l with
  | nil => rfl
  | cons a l ih =>
    show (f (h a) >>= fun _ => (l.map h).forM f) = (f (h a) >>= fun _ => l.forM fun a => f (h a))
    rw [ih]
theorem rangeStep_lt {hi step i : Nat} (h : i ∈ rangeStep 0 hi step) : i < hi := by
  unfold rangeStep at h
  rw [List.mem_range'] at h
  obtain ⟨k, hk, rfl⟩ := h
  rcases Nat.eq_zero_or_pos step with hs | hs
  · subst hs; simp at hk
  · have := (Nat.le_div_iff_mul_le hs).mp hk
    rw [Nat.mul_comm, Nat.mul_succ] at this
    omega

theorem load_text (s : Ref) (key : List U8) :
    ((enumerate (chunksExact 4 key)).forM fun (i, chunk) => do
      let rhs := (fromNe Cfg.endian 32 (← liftM (arrayTryFrom 4 chunk)))
      put Cfg.endian s i rhs) = Aes.Borrow.load Cfg.endian s key := by
  unfold enumerate Aes.Borrow.load
  rw [forM_map]

macro "borrow_loop" i:ident hi:ident : tactic => `(tactic| (
  refine forM_congr fun $i $hi => ?_
  have $hi:ident := rangeStep_lt $hi
  have u := fun k (hk : k < 100) => Aes.Profile.uadd_ok Cfg.profile (show $i + k < 65536 by omega)
  simp only [u 0 (by decide), u 1 (by decide), u 2 (by decide), u 3 (by decide), u 4 (by decide), u 5 (by decide), u 6 (by decide), u 7 (by decide),
    u 8 (by decide), u 9 (by decide), u 10 (by decide), u 11 (by decide), u 12 (by decide), u 13 (by decide), u 14 (by decide), u 15 (by decide),
    lift_ok, pure_bind, bind_assoc, step_128, step_192, step_256, xorInto]))

theorem bind2 {α β : Type} {a b : B α} {f g : α → B β} (h : a = b) (h' : ∀ x, f x = g x) : (a >>= f) = (b >>= g) := by
  rw [h, funext h']


theorem idx_RCON {β : Type} (v : Vector U32 10) {i : Nat} (h : i < 10) (f : U32 → B β) : (liftM (idx v i) >>= f) = f v[i] := by
  rw [idx_ok v i h]; rfl

theorem bitslice_blocks {N : Nat} (v : Vector U8 (16 * N)) (w : Vector U8 (N * 16)) (h : v.toList = w.toList) :
    (Layout.ofBytes w : Vector (Aes.Bitslice.Block Cfg.endian) N) = (blocks v).map fun b => ⟨fromNe Cfg.endian 128 b⟩ := by
  have g : ∀ k (h1 : k < 16 * N) (h2 : k < N * 16), w[k] = v[k] := fun k h1 h2 => by
    have := congrArg (·[k]?) h
    simp only [Vector.getElem?_toList, Vector.getElem?_eq_getElem, h1, h2] at this
    exact (Option.some.inj this).symm
  apply Vector.ext; intro i hi
  simp only [Layout.ofBytes, blocks, Vector.getElem_ofFn, Vector.getElem_map]
  refine congrArg _ (congrArg _ (Vector.ext fun j hj => ?_))
  simp only [Vector.getElem_ofFn]
  exact g _ (by omega) (by omega)
theorem arm_blocks {N : Nat} (v : Vector U8 (16 * N)) (w : Vector U8 (N * 16)) (h : v.toList = w.toList) :
    (Layout.ofBytes w : Vector (Aes.Arm.Block Cfg.is32) N) = (blocks v).map fun b => ⟨b⟩ := by
  have g : ∀ k (h1 : k < 16 * N) (h2 : k < N * 16), w[k] = v[k] := fun k h1 h2 => by
    have := congrArg (·[k]?) h
    simp only [Vector.getElem?_toList, Vector.getElem?_eq_getElem, h1, h2] at this
    exact (Option.some.inj this).symm
  apply Vector.ext; intro i hi
  simp only [Layout.ofBytes, blocks, Vector.getElem_ofFn, Vector.getElem_map]
  refine congrArg _ ((Vector.ext fun j hj => ?_))
  simp only [Vector.getElem_ofFn, id]
  exact g _ (by omega) (by omega)

theorem riscv32_blocks (he : (Cfg.endian : Endian) = .little) {N : Nat} (v : Vector U8 (16 * N)) :
    ((blocks v).mapM fun b => Aes.Riscv32.new b) = .ok (Layout.ofBytes (v.cast (Nat.mul_comm _ _)) : Vector Aes.Riscv32.Block N) := by
  have : (fun b => Aes.Riscv32.new b) = fun b => (pure (Layout.ofBytes b) : M Aes.Riscv32.Block) := funext fun b => Riscv32.ofBytes_eq he b
  rw [this, Vector.mapM_pure]
  refine congrArg Except.ok (Vector.ext fun i hi => ?_)
  simp only [Layout.ofBytes, blocks, Vector.getElem_ofFn, Vector.getElem_map]
  rfl

macro "borrow_keygen" l:tactic : tactic => `(tactic| (
  simp only [bind_assoc, pure_bind]
  refine bind2 rfl fun x => bind2 rfl fun y => bind2 rfl fun s => bind2 (load_text s _) fun _ => ?_
  $l))

theorem bitslice_128 (p : Nat) (k : Vector U8 16) : Bitslice.keygen_128 p k = Aes.Borrow.bitslice_128 Cfg.endian p k := by
  unfold Bitslice.keygen_128 Aes.Borrow.bitslice_128 expand_128 expanding body_128 columns_of mut_ptr
  rw [RustSrc.Bitslice.sub_word_eq]
  borrow_keygen (
    refine bind2 (by borrow_loop i hi; rfl) fun _ => ?_)
  exact bind2 rfl fun v => bind2 rfl fun _ => congrArg pure (bitslice_blocks (N := 11) v v rfl)

theorem bitslice_192 (p : Nat) (k : Vector U8 24) : Bitslice.keygen_192 p k = Aes.Borrow.bitslice_192 Cfg.endian p k := by
  unfold Bitslice.keygen_192 Aes.Borrow.bitslice_192 expand_192 expanding body_192 columns_of mut_ptr
  rw [RustSrc.Bitslice.sub_word_eq]
  borrow_keygen (
    refine bind2 (by borrow_loop i hi; rfl) fun _ => ?_)
  simp only [xorInto, bind_assoc]
  refine bind2 rfl fun _ => bind2 rfl fun _ => bind2 rfl fun _ => bind2 rfl fun _ => bind2 rfl fun _ => bind2 rfl fun _ => bind2 rfl fun _ => bind2 rfl fun _ => bind2 rfl fun _ => bind2 rfl fun _ => bind2 rfl fun _ => bind2 rfl fun _ => bind2 rfl fun _ => ?_
  exact bind2 rfl fun v => bind2 rfl fun _ => congrArg pure (bitslice_blocks (N := 13) v v rfl)

theorem bitslice_256 (p : Nat) (k : Vector U8 32) : Bitslice.keygen_256 p k = Aes.Borrow.bitslice_256 Cfg.endian p k := by
  unfold Bitslice.keygen_256 Aes.Borrow.bitslice_256 expand_256 expanding body_256 columns_of mut_ptr
  rw [RustSrc.Bitslice.sub_word_eq]
  borrow_keygen (
    refine bind2 (by borrow_loop i hi; rfl) fun _ => ?_)
  simp only [xorInto, bind_assoc]
  refine bind2 rfl fun _ => bind2 rfl fun _ => bind2 rfl fun _ => bind2 rfl fun _ => bind2 rfl fun _ => bind2 rfl fun _ => bind2 rfl fun _ => bind2 rfl fun _ => bind2 rfl fun _ => bind2 rfl fun _ => bind2 rfl fun _ => bind2 rfl fun _ => bind2 rfl fun _ => ?_
  exact bind2 rfl fun v => bind2 rfl fun _ => congrArg pure (bitslice_blocks (N := 15) v v rfl)

theorem arm_128 (he : (Cfg.endian : Endian) = .little) (p : Nat) (k : Vector U8 16) : Arm.keygen_128 p k = Aes.Borrow.arm_128 Cfg.is32 p k := by
  unfold Arm.keygen_128 Aes.Borrow.arm_128 expand_128 expanding body_128 columns_of mut_ptr
  rw [← he]
  borrow_keygen (
    refine bind2 (by borrow_loop i hi; rfl) fun _ => ?_)
  exact bind2 rfl fun v => bind2 rfl fun _ => congrArg pure (arm_blocks (N := 11) v v rfl)

theorem arm_192 (he : (Cfg.endian : Endian) = .little) (p : Nat) (k : Vector U8 24) : Arm.keygen_192 p k = Aes.Borrow.arm_192 Cfg.is32 p k := by
  unfold Arm.keygen_192 Aes.Borrow.arm_192 expand_192 expanding body_192 columns_of mut_ptr
  rw [← he]
  borrow_keygen (
    refine bind2 (by borrow_loop i hi; rfl) fun _ => ?_)
  simp only [xorInto, bind_assoc]
  refine bind2 rfl fun _ => bind2 rfl fun _ => bind2 rfl fun _ => bind2 rfl fun _ => bind2 rfl fun _ => bind2 rfl fun _ => bind2 rfl fun _ => bind2 rfl fun _ => bind2 rfl fun _ => bind2 rfl fun _ => bind2 rfl fun _ => bind2 rfl fun _ => bind2 rfl fun _ => ?_
  exact bind2 rfl fun v => bind2 rfl fun _ => congrArg pure (arm_blocks (N := 13) v v rfl)

theorem arm_256 (he : (Cfg.endian : Endian) = .little) (p : Nat) (k : Vector U8 32) : Arm.keygen_256 p k = Aes.Borrow.arm_256 Cfg.is32 p k := by
  unfold Arm.keygen_256 Aes.Borrow.arm_256 expand_256 expanding body_256 columns_of mut_ptr
  rw [← he]
  borrow_keygen (
    refine bind2 (by borrow_loop i hi; rfl) fun _ => ?_)
  simp only [xorInto, bind_assoc]
  refine bind2 rfl fun _ => bind2 rfl fun _ => bind2 rfl fun _ => bind2 rfl fun _ => bind2 rfl fun _ => bind2 rfl fun _ => bind2 rfl fun _ => bind2 rfl fun _ => bind2 rfl fun _ => bind2 rfl fun _ => bind2 rfl fun _ => bind2 rfl fun _ => bind2 rfl fun _ => ?_
  exact bind2 rfl fun v => bind2 rfl fun _ => congrArg pure (arm_blocks (N := 15) v v rfl)

theorem riscv32_128 (he : (Cfg.endian : Endian) = .little) (p : Nat) (k : Vector U8 16) : Riscv32.keygen_128 p k = Aes.Borrow.riscv32_128 p k := by
  unfold Riscv32.keygen_128 Aes.Borrow.riscv32_128 expand_128 expanding body_128 columns_of mut_ptr
  rw [← he]
  borrow_keygen (
    refine bind2 (by
      borrow_loop i hi
      have hr : idx Riscv32.RCON (i / 4) = .ok (Aes.Columns.RCON[i / 4]'(by omega)) := idx_ok _ _ (by omega)
      have hr' : idx Aes.Columns.RCON (i / 4) = .ok (Aes.Columns.RCON[i / 4]'(by omega)) := idx_ok _ _ (by omega)
      simp only [hr, hr', lift_ok, pure_bind]
      rfl) fun _ => ?_)
  simp only [riscv32_blocks he, lift_ok]
  exact bind2 rfl fun v => bind2 rfl fun _ => rfl

theorem riscv32_192 (he : (Cfg.endian : Endian) = .little) (p : Nat) (k : Vector U8 24) : Riscv32.keygen_192 p k = Aes.Borrow.riscv32_192 p k := by
  unfold Riscv32.keygen_192 Aes.Borrow.riscv32_192 expand_192 expanding body_192 columns_of mut_ptr
  rw [← he]
  borrow_keygen (
    refine bind2 (by
      borrow_loop i hi
      have hr : idx Riscv32.RCON (i / 6) = .ok (Aes.Columns.RCON[i / 6]'(by omega)) := idx_ok _ _ (by omega)
      have hr' : idx Aes.Columns.RCON (i / 6) = .ok (Aes.Columns.RCON[i / 6]'(by omega)) := idx_ok _ _ (by omega)
      simp only [hr, hr', lift_ok, pure_bind]
      rfl) fun _ => ?_)
  have hr : idx Riscv32.RCON 7 = .ok (Aes.Columns.RCON[7]) := rfl
  have hr' : idx Aes.Columns.RCON 7 = .ok (Aes.Columns.RCON[7]) := rfl
  simp only [hr, hr', lift_ok, xorInto, bind_assoc, pure_bind]
  refine bind2 rfl fun _ => bind2 rfl fun _ => bind2 rfl fun _ => bind2 rfl fun _ => bind2 rfl fun _ => bind2 rfl fun _ => bind2 rfl fun _ => bind2 rfl fun _ => bind2 rfl fun _ => bind2 rfl fun _ => bind2 rfl fun _ => bind2 rfl fun _ => ?_
  simp only [riscv32_blocks he, lift_ok]
  exact bind2 rfl fun v => bind2 rfl fun _ => rfl

theorem riscv32_256 (he : (Cfg.endian : Endian) = .little) (p : Nat) (k : Vector U8 32) : Riscv32.keygen_256 p k = Aes.Borrow.riscv32_256 p k := by
  unfold Riscv32.keygen_256 Aes.Borrow.riscv32_256 expand_256 expanding body_256 columns_of mut_ptr
  rw [← he]
  borrow_keygen (
    refine bind2 (by
      borrow_loop i hi
      have hr : idx Riscv32.RCON (i / 8) = .ok (Aes.Columns.RCON[i / 8]'(by omega)) := idx_ok _ _ (by omega)
      have hr' : idx Aes.Columns.RCON (i / 8) = .ok (Aes.Columns.RCON[i / 8]'(by omega)) := idx_ok _ _ (by omega)
      simp only [hr, hr', lift_ok, pure_bind]
      rfl) fun _ => ?_)
  have hr : idx Riscv32.RCON 6 = .ok (Aes.Columns.RCON[6]) := rfl
  have hr' : idx Aes.Columns.RCON 6 = .ok (Aes.Columns.RCON[6]) := rfl
  simp only [hr, hr', lift_ok, xorInto, bind_assoc, pure_bind]
  refine bind2 rfl fun _ => bind2 rfl fun _ => bind2 rfl fun _ => bind2 rfl fun _ => bind2 rfl fun _ => bind2 rfl fun _ => bind2 rfl fun _ => bind2 rfl fun _ => bind2 rfl fun _ => bind2 rfl fun _ => bind2 rfl fun _ => bind2 rfl fun _ => ?_
  simp only [riscv32_blocks he, lift_ok]
  exact bind2 rfl fun v => bind2 rfl fun _ => rfl
end RustSrc.Ptr
