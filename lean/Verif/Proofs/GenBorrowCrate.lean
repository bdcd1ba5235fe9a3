import Verif.Gen.BorrowCrate
import Verif.Proofs.GenBorrowStore
import Verif.Proofs.GenCrate
/-
The functions of Gen/BorrowCrate.lean are those of Model/Borrow.lean, for every build.
-/
namespace RustSrc.Ptr
open Rust Aes.Borrow
open Aes.Target (Width)
open Aes (Target)

section
variable (pf : Aes.Profile) (e : Endian) (t : Target)

theorem store1_eq : store1 pf e t = StoreTo.store_to := by
  letI := cfg pf e t
  cases t with
  | table => exact table_store
  | bitslice e' => exact @bitslice_store (cfg pf e (.bitslice e'))
  | x86 => exact x86_store
  | x86Vaes => exact x86_store
  | x86Vaes512 => exact x86_store
  | arm b => exact @arm_store (cfg pf e (.arm b))
  | riscv64 => exact @riscv64_store (cfg pf e .riscv64) rfl
  | riscv32 => exact @riscv32_store (cfg pf e .riscv32) rfl
theorem store2_eq : store2 pf e t = StoreTo.store_to := by
  have h := store1_eq pf e t
  letI := cfg pf e t
  cases t with
  | x86Vaes => exact nix2_store
  | x86Vaes512 => exact nix2_store
  | _ => exact (congrArg DefaultX2.store_to h).trans x2_store
theorem store4_eq : store4 pf e t = StoreTo.store_to := by
  have h := store2_eq pf e t
  letI := cfg pf e t
  cases t with
  | x86Vaes512 => exact nix4_store
  | _ => exact (congrArg DefaultX4.store_to h).trans x4_store

theorem block_inst : block pf e t = (inferInstance : Aes.AesBlock t.Block) := (block_eq pf e t).trans (Aes.Profile.block_eq pf t)
theorem blockX2_inst : blockX2 pf e t = (inferInstance : Aes.AesBlockX2 t.Block t.X2) := (blockX2_eq pf e t).trans (Aes.Profile.blockX2_eq pf t)
theorem blockX4_inst : blockX4 pf e t = (inferInstance : Aes.AesBlockX4 t.Block t.X2 t.X4) := (blockX4_eq pf e t).trans (Aes.Profile.blockX4_eq pf t)

theorem try_from_eq' (w : Width) : try_from pf e t w = Aes.Borrow.try_from (T := t.Vec w) := by
  funext r
  cases w with
  | x1 =>
    exact (congrArg (fun f : Aes.AesBlock t.Block => @AesBlock.try_from (cfg pf e t) _ f.from_bytes r) (block_inst pf e t)).trans
      (@try_from_eq (cfg pf e t) _ _ _ r)
  | x2 =>
    exact (congrArg (fun f : Aes.AesBlockX2 t.Block t.X2 => @AesBlockX2.try_from (cfg pf e t) _ f.from_bytes r) (blockX2_inst pf e t)).trans
      (@try_from_eq (cfg pf e t) _ _ _ r)
  | x4 =>
    exact (congrArg (fun f : Aes.AesBlockX4 t.Block t.X2 t.X4 => @AesBlockX4.try_from (cfg pf e t) _ f.from_bytes r) (blockX4_inst pf e t)).trans
      (@try_from_eq (cfg pf e t) _ _ _ r)
theorem from_ref_eq (w : Width) : from_ref pf e t w = Aes.Borrow.from_ref (T := t.Vec w) := by
  funext r
  cases w with
  | x1 =>
    exact (congrArg (fun f : Aes.AesBlock t.Block => AesBlock.from_ref f.from_bytes r) (block_inst pf e t)).trans
      rfl
  | x2 =>
    exact (congrArg (fun f : Aes.AesBlockX2 t.Block t.X2 => AesBlockX2.from_ref f.from_bytes r) (blockX2_inst pf e t)).trans
      rfl
  | x4 =>
    exact (congrArg (fun f : Aes.AesBlockX4 t.Block t.X2 t.X4 => AesBlockX4.from_ref f.from_bytes r) (blockX4_inst pf e t)).trans
      rfl
theorem into_bytes_1 (p : Nat) : into_bytes pf e t .x1 p = Aes.Borrow.into_bytes (T := t.Block) p := by
  unfold into_bytes; rw [store1_eq]; rfl
theorem into_bytes_2 (p : Nat) : into_bytes pf e t .x2 p = Aes.Borrow.into_bytes (T := t.X2) p := by
  unfold into_bytes; rw [store2_eq]; rfl
theorem into_bytes_4 (p : Nat) : into_bytes pf e t .x4 p = Aes.Borrow.into_bytes (T := t.X4) p := by
  unfold into_bytes; rw [store4_eq]; rfl

/-! ### From<[u8; N]> -/

theorem half {N n k : Nat} (v : Vector U8 N) (h : k + n ≤ N) :
    Aes.array_from_slice n v.toList k = .ok (Vector.ofFn fun i : Fin n => v[k + i.val]) := by
  unfold Aes.array_from_slice rawRead
  rw [dif_pos (by rw [Vector.length_toList]; exact h)]
  refine congrArg Except.ok (Vector.ext fun i hi => ?_)
  simp
theorem x2_from_bytes {K : Type} [Aes.AesBlock K] [Aes.LawfulVec K] (v : Vector U8 32) :
    Aes.DefaultX2.from_bytes (B := K) v = .ok ⟨Aes.LawfulVec.ofB (Vector.ofFn fun i : Fin 16 => v[i.val]), Aes.LawfulVec.ofB (Vector.ofFn fun i : Fin 16 => v[16 + i.val])⟩ := by
  unfold Aes.DefaultX2.from_bytes Aes.DefaultX2.new
  rw [half v (k := 0) (n := 16) (by decide), half v (k := 16) (n := 16) (by decide)]
  simp only [Rust.bind_ok, Aes.LawfulVec.new_eq, Nat.zero_add]; rfl
theorem x4_from_bytes {K Y : Type} [Aes.AesBlockX2 K Y] [Aes.LawfulVec Y] (v : Vector U8 64) :
    Aes.DefaultX4.from_bytes (X2 := Y) v = .ok ⟨Aes.LawfulVec.ofB (Vector.ofFn fun i : Fin 32 => v[i.val]), Aes.LawfulVec.ofB (Vector.ofFn fun i : Fin 32 => v[32 + i.val])⟩ := by
  unfold Aes.DefaultX4.from_bytes Aes.DefaultX4.new
  rw [half v (k := 0) (n := 32) (by decide), half v (k := 32) (n := 32) (by decide)]
  simp only [Rust.bind_ok, Aes.LawfulVec.new_eq, Nat.zero_add]; rfl

/-- The program returns `x` and leaves no memory and no pointer behind. -/
def Returns {α : Type} (σ : State) (p n : Nat) (f : B α) (x : M α) : Prop :=
  ∃ σ' y, f σ = .ok (y, σ') ∧ x = .ok y ∧ Freed p n σ σ'
theorem returns_lift {α : Type} {σ : State} {p n : Nat} {x x' : M α} {y : α} (h' : x' = x) (h : x = .ok y) : Returns σ p n (liftM x') x := by
  subst h'
  exact ⟨σ, y, by rw [h]; rfl, h, rfl, rfl, Nat.le_refl _, Nat.le_refl _, fun _ _ => rfl⟩
theorem returns_local {α : Type} {σ : State} {p N : Nat} {f : B α} {x : M α} {v : Vector U8 N} {mk : Vector U8 N → α} (hc : ∀ c ∈ σ.active, c < σ.nextCall)
    (hf : ∀ a, p ≤ a ∧ a < p + N → σ.stacks a = []) (h : f = (do let y ← load_local p v; pure (mk y))) (hx : x = .ok (mk v)) : Returns σ p N f x := by
  obtain ⟨σ', e, fr⟩ := load_local_ok (p := p) v hc hf
  exact ⟨σ', _, by rw [h, bind_run e]; rfl, hx, fr⟩
theorem returns_halves {α β : Type} {σ : State} {p n : Nat} {f : B β} {x : M β} {v : Vector U8 (n + n)} {g : Vector U8 n → α} {mk : α → α → β}
    (hc : ∀ c ∈ σ.active, c < σ.nextCall) (hf : ∀ a, p ≤ a ∧ a < p + (n + n) → σ.stacks a = [])
    (h : f = (do let y ← load_halves n p v; pure (mk (g y.1) (g y.2))))
    (hx : x = .ok (mk (g (Vector.ofFn fun i : Fin n => v[i.val])) (g (Vector.ofFn fun i : Fin n => v[n + i.val])))) : Returns σ p (n + n) f x := by
  obtain ⟨σ', e, fr⟩ := load_halves_ok (p := p) v hc hf
  exact ⟨σ', _, by rw [h, bind_run e]; rfl, hx, fr⟩

theorem from_array_ok (w : Width) {σ : State} (p : Nat) (v : Vector U8 w.size) (hc : ∀ c ∈ σ.active, c < σ.nextCall)
    (hf : ∀ a, p ≤ a ∧ a < p + w.size → σ.stacks a = []) :
    Returns σ p w.size (from_array pf e t w p v) (Aes.AesVec.from_bytes (T := t.Vec w) v) := by
  letI := cfg pf e t
  have b1 : (block pf e t).from_bytes = Aes.AesVec.from_bytes (T := t.Block) := congrArg (fun b : Aes.AesBlock t.Block => b.from_bytes) (block_inst pf e t)
  have n1 : ∀ v, (block pf e t).new v = .ok (Aes.LawfulVec.ofB v) := fun v =>
    (congrArg (fun b : Aes.AesBlock t.Block => b.new v) (block_inst pf e t)).trans (Aes.LawfulVec.new_eq (T := t.Block) v)
  have n2 : ∀ v, (blockX2 pf e t).new v = .ok (Aes.LawfulVec.ofB v) := fun v =>
    (congrArg (fun b : Aes.AesBlockX2 t.Block t.X2 => b.new v) (blockX2_inst pf e t)).trans (Aes.LawfulVec.new_eq (T := t.X2) v)
  cases w with
  | x1 =>
    cases t with
    | x86 => exact returns_local (v := v) hc hf (x86_from_array p v) (Aes.LawfulVec.from_bytes_eq (T := Target.x86.Block) v)
    | x86Vaes => exact returns_local (v := v) hc hf (x86_from_array p v) (Aes.LawfulVec.from_bytes_eq (T := Target.x86Vaes.Block) v)
    | x86Vaes512 => exact returns_local (v := v) hc hf (x86_from_array p v) (Aes.LawfulVec.from_bytes_eq (T := Target.x86Vaes512.Block) v)
    | arm b => exact returns_local (v := v) hc hf (@arm_from_array (cfg pf e (.arm b)) p v) (Aes.LawfulVec.from_bytes_eq (T := (Target.arm b).Block) v)
    | table => exact returns_lift (congrFun b1 v) (Aes.LawfulVec.from_bytes_eq (T := Target.table.Block) v)
    | bitslice e' => exact returns_lift (congrFun b1 v) (Aes.LawfulVec.from_bytes_eq (T := (Target.bitslice e').Block) v)
    | riscv64 => exact returns_lift (congrFun b1 v) (Aes.LawfulVec.from_bytes_eq (T := Target.riscv64.Block) v)
    | riscv32 => exact returns_lift (congrFun b1 v) (Aes.LawfulVec.from_bytes_eq (T := Target.riscv32.Block) v)
  | x2 =>
    cases t with
    | x86Vaes => exact returns_local (v := v) hc hf (nix2_from_array p v) (Aes.LawfulVec.from_bytes_eq (T := Target.x86Vaes.X2) v)
    | x86Vaes512 => exact returns_local (v := v) hc hf (nix2_from_array p v) (Aes.LawfulVec.from_bytes_eq (T := Target.x86Vaes512.X2) v)
    | x86 => exact returns_halves (n := 16) (v := v) hc hf (x2_new _ _ n1 p v) (x2_from_bytes (K := Target.x86.Block) v)
    | arm b => exact returns_halves (n := 16) (v := v) hc hf (@x2_new (cfg pf e (.arm b)) _ _ _ n1 p v) (x2_from_bytes (K := (Target.arm b).Block) v)
    | table => exact returns_halves (n := 16) (v := v) hc hf (x2_new _ _ n1 p v) (x2_from_bytes (K := Target.table.Block) v)
    | bitslice e' => exact returns_halves (n := 16) (v := v) hc hf (@x2_new (cfg pf e (.bitslice e')) _ _ _ n1 p v) (x2_from_bytes (K := (Target.bitslice e').Block) v)
    | riscv64 => exact returns_halves (n := 16) (v := v) hc hf (x2_new _ _ n1 p v) (x2_from_bytes (K := Target.riscv64.Block) v)
    | riscv32 => exact returns_halves (n := 16) (v := v) hc hf (x2_new _ _ n1 p v) (x2_from_bytes (K := Target.riscv32.Block) v)
  | x4 =>
    cases t with
    | x86Vaes512 => exact returns_local (v := v) hc hf (nix4_from_array p v) (Aes.LawfulVec.from_bytes_eq (T := Target.x86Vaes512.X4) v)
    | x86Vaes => exact returns_halves (n := 32) (v := v) hc hf (x4_new _ _ n2 p v) (x4_from_bytes (K := Target.x86Vaes.Block) (Y := Target.x86Vaes.X2) v)
    | x86 => exact returns_halves (n := 32) (v := v) hc hf (x4_new _ _ n2 p v) (x4_from_bytes (K := Target.x86.Block) (Y := Target.x86.X2) v)
    | arm b => exact returns_halves (n := 32) (v := v) hc hf (@x4_new (cfg pf e (.arm b)) _ _ _ n2 p v) (x4_from_bytes (K := (Target.arm b).Block) (Y := (Target.arm b).X2) v)
    | table => exact returns_halves (n := 32) (v := v) hc hf (x4_new _ _ n2 p v) (x4_from_bytes (K := Target.table.Block) (Y := Target.table.X2) v)
    | bitslice e' => exact returns_halves (n := 32) (v := v) hc hf (@x4_new (cfg pf e (.bitslice e')) _ _ _ n2 p v) (x4_from_bytes (K := (Target.bitslice e').Block) (Y := (Target.bitslice e').X2) v)
    | riscv64 => exact returns_halves (n := 32) (v := v) hc hf (x4_new _ _ n2 p v) (x4_from_bytes (K := Target.riscv64.Block) (Y := Target.riscv64.X2) v)
    | riscv32 => exact returns_halves (n := 32) (v := v) hc hf (x4_new _ _ n2 p v) (x4_from_bytes (K := Target.riscv32.Block) (Y := Target.riscv32.X2) v)
end
end RustSrc.Ptr
