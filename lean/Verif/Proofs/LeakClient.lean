import Verif.Proofs.LeakTable
import Verif.Proofs.LeakBitslice
import Verif.Proofs.LeakHw
import Verif.Model.LeakClient
import Verif.Spec.Leakage
/-! Client programs with leakage: they compute what they do without, and what they leak depends on the shape of the calls
only. -/
namespace Aes.Leak
open Rust Target Client

/-! ### Erasure -/

instance erasesBlock (t : Target) : ErasesBlock t.Block :=
  match t with
  | .table => inferInstanceAs (ErasesBlock Aes.Table.Block)
  | .bitslice e => inferInstanceAs (ErasesBlock (Aes.Bitslice.Block e))
  | .x86 | .x86Vaes | .x86Vaes512 => inferInstanceAs (ErasesBlock Aes.X86.Block)
  | .arm is32 => inferInstanceAs (ErasesBlock (Aes.Arm.Block is32))
  | .riscv64 => inferInstanceAs (ErasesBlock Aes.Riscv64.Block)
  | .riscv32 => inferInstanceAs (ErasesBlock Aes.Riscv32.Block)
instance erasesX2 (t : Target) : Erases t.X2 :=
  match t with
  | .table => inferInstanceAs (Erases (DefaultX2.X2 Aes.Table.Block))
  | .bitslice e => inferInstanceAs (Erases (DefaultX2.X2 (Aes.Bitslice.Block e)))
  | .x86 => inferInstanceAs (Erases (DefaultX2.X2 Aes.X86.Block))
  | .x86Vaes | .x86Vaes512 => inferInstanceAs (Erases Aes.NiX2.X2)
  | .arm is32 => inferInstanceAs (Erases (DefaultX2.X2 (Aes.Arm.Block is32)))
  | .riscv64 => inferInstanceAs (Erases (DefaultX2.X2 Aes.Riscv64.Block))
  | .riscv32 => inferInstanceAs (Erases (DefaultX2.X2 Aes.Riscv32.Block))
instance erasesX4 (t : Target) : Erases t.X4 :=
  match t with
  | .table => inferInstanceAs (Erases (DefaultX4.X4 (DefaultX2.X2 Aes.Table.Block)))
  | .bitslice e => inferInstanceAs (Erases (DefaultX4.X4 (DefaultX2.X2 (Aes.Bitslice.Block e))))
  | .x86 => inferInstanceAs (Erases (DefaultX4.X4 (DefaultX2.X2 Aes.X86.Block)))
  | .x86Vaes => inferInstanceAs (Erases (DefaultX4.X4 Aes.NiX2.X2))
  | .x86Vaes512 => inferInstanceAs (Erases Aes.NiX4.X4)
  | .arm is32 => inferInstanceAs (Erases (DefaultX4.X4 (DefaultX2.X2 (Aes.Arm.Block is32))))
  | .riscv64 => inferInstanceAs (Erases (DefaultX4.X4 (DefaultX2.X2 Aes.Riscv64.Block)))
  | .riscv32 => inferInstanceAs (Erases (DefaultX4.X4 (DefaultX2.X2 Aes.Riscv32.Block)))
instance erasesVec (t : Target) (w : Width) : Erases (t.Vec w) :=
  match w with
  | .x1 => (erasesBlock t).toErases
  | .x2 => erasesX2 t
  | .x4 => erasesX4 t

/-! ### Leakage -/

instance quietData (t : Target) : QuietData t.Block :=
  match t with
  | .table => inferInstanceAs (QuietData Aes.Table.Block)
  | .bitslice e => inferInstanceAs (QuietData (Aes.Bitslice.Block e))
  | .x86 | .x86Vaes | .x86Vaes512 => inferInstanceAs (QuietData Aes.X86.Block)
  | .arm is32 => inferInstanceAs (QuietData (Aes.Arm.Block is32))
  | .riscv64 => inferInstanceAs (QuietData Aes.Riscv64.Block)
  | .riscv32 => inferInstanceAs (QuietData Aes.Riscv32.Block)
instance quietDataX2 (t : Target) : QuietData t.X2 :=
  match t with
  | .table => inferInstanceAs (QuietData (DefaultX2.X2 Aes.Table.Block))
  | .bitslice e => inferInstanceAs (QuietData (DefaultX2.X2 (Aes.Bitslice.Block e)))
  | .x86 => inferInstanceAs (QuietData (DefaultX2.X2 Aes.X86.Block))
  | .x86Vaes | .x86Vaes512 => inferInstanceAs (QuietData Aes.NiX2.X2)
  | .arm is32 => inferInstanceAs (QuietData (DefaultX2.X2 (Aes.Arm.Block is32)))
  | .riscv64 => inferInstanceAs (QuietData (DefaultX2.X2 Aes.Riscv64.Block))
  | .riscv32 => inferInstanceAs (QuietData (DefaultX2.X2 Aes.Riscv32.Block))
instance quietDataX4 (t : Target) : QuietData t.X4 :=
  match t with
  | .table => inferInstanceAs (QuietData (DefaultX4.X4 (DefaultX2.X2 Aes.Table.Block)))
  | .bitslice e => inferInstanceAs (QuietData (DefaultX4.X4 (DefaultX2.X2 (Aes.Bitslice.Block e))))
  | .x86 => inferInstanceAs (QuietData (DefaultX4.X4 (DefaultX2.X2 Aes.X86.Block)))
  | .x86Vaes => inferInstanceAs (QuietData (DefaultX4.X4 Aes.NiX2.X2))
  | .x86Vaes512 => inferInstanceAs (QuietData Aes.NiX4.X4)
  | .arm is32 => inferInstanceAs (QuietData (DefaultX4.X4 (DefaultX2.X2 (Aes.Arm.Block is32))))
  | .riscv64 => inferInstanceAs (QuietData (DefaultX4.X4 (DefaultX2.X2 Aes.Riscv64.Block)))
  | .riscv32 => inferInstanceAs (QuietData (DefaultX4.X4 (DefaultX2.X2 Aes.Riscv32.Block)))
instance quietDataVec (t : Target) (w : Width) : QuietData (t.Vec w) :=
  match w with
  | .x1 => quietData t
  | .x2 => quietDataX2 t
  | .x4 => quietDataX4 t

theorem quietBlock (t : Target) (ht : t ≠ .table) : QuietBlock t.Block :=
  match t, ht with
  | .table, h => absurd rfl h
  | .bitslice e, _ => inferInstanceAs (QuietBlock (Aes.Bitslice.Block e))
  | .x86, _ | .x86Vaes, _ | .x86Vaes512, _ => inferInstanceAs (QuietBlock Aes.X86.Block)
  | .arm is32, _ => inferInstanceAs (QuietBlock (Aes.Arm.Block is32))
  | .riscv64, _ => inferInstanceAs (QuietBlock Aes.Riscv64.Block)
  | .riscv32, _ => inferInstanceAs (QuietBlock Aes.Riscv32.Block)
theorem quietX2 (t : Target) (ht : t ≠ .table) : Quiet t.X2 :=
  match t, ht with
  | .table, h => absurd rfl h
  | .bitslice e, _ => inferInstanceAs (Quiet (DefaultX2.X2 (Aes.Bitslice.Block e)))
  | .x86, _ => inferInstanceAs (Quiet (DefaultX2.X2 Aes.X86.Block))
  | .x86Vaes, _ | .x86Vaes512, _ => inferInstanceAs (Quiet Aes.NiX2.X2)
  | .arm is32, _ => inferInstanceAs (Quiet (DefaultX2.X2 (Aes.Arm.Block is32)))
  | .riscv64, _ => inferInstanceAs (Quiet (DefaultX2.X2 Aes.Riscv64.Block))
  | .riscv32, _ => inferInstanceAs (Quiet (DefaultX2.X2 Aes.Riscv32.Block))
theorem quietX4 (t : Target) (ht : t ≠ .table) : Quiet t.X4 :=
  match t, ht with
  | .table, h => absurd rfl h
  | .bitslice e, _ => inferInstanceAs (Quiet (DefaultX4.X4 (DefaultX2.X2 (Aes.Bitslice.Block e))))
  | .x86, _ => inferInstanceAs (Quiet (DefaultX4.X4 (DefaultX2.X2 Aes.X86.Block)))
  | .x86Vaes, _ => inferInstanceAs (Quiet (DefaultX4.X4 Aes.NiX2.X2))
  | .x86Vaes512, _ => inferInstanceAs (Quiet Aes.NiX4.X4)
  | .arm is32, _ => inferInstanceAs (Quiet (DefaultX4.X4 (DefaultX2.X2 (Aes.Arm.Block is32))))
  | .riscv64, _ => inferInstanceAs (Quiet (DefaultX4.X4 (DefaultX2.X2 Aes.Riscv64.Block)))
  | .riscv32, _ => inferInstanceAs (Quiet (DefaultX4.X4 (DefaultX2.X2 Aes.Riscv32.Block)))
theorem quietVec (t : Target) (ht : t ≠ .table) (w : Width) : Quiet (t.Vec w) :=
  match w with
  | .x1 => (quietBlock t ht).toQuiet
  | .x2 => quietX2 t ht
  | .x4 => quietX4 t ht

end Aes.Leak
namespace Aes.Leak
open Rust Target Client

/-! ### Erasure of client steps -/

section
variable {t : Target}

theorem out_binOf {T : Type} {n : Nat} [AesVec T n] [LVec T n] [Erases T] (op : BinOp) (x y : T) :
    (binOf op x y).out = .ok (Client.binOf op x y) := by
  cases op
  · exact Erases.bitand x y
  · exact Erases.bitor x y
  · exact Erases.bitxor x y
  · exact Erases.enc x y
  · exact Erases.dec x y
  · exact Erases.enc_last x y
  · exact Erases.dec_last x y
theorem out_assignOf {T : Type} {n : Nat} [AesVec T n] [LVec T n] [Erases T] (op : AssignOp) (x y : T) :
    (assignOf op x y).out = .ok (Client.assignOf op x y) := by
  cases op
  · exact Erases.bitand x y
  · exact Erases.bitor x y
  · exact Erases.bitxor x y
theorem out_encFromOf {B : Type} [AesBlock B] [LBlock B] [ErasesBlock B] (k : KeySize) (key : Vector U8 k.bytes) :
    (encFromOf B k key).out = Client.encFromOf B k key := by
  cases k
  · exact out_enc_from_128 key
  · exact out_enc_from_192 key
  · exact out_enc_from_256 key
theorem out_decFromOf {B : Type} [AesBlock B] [LBlock B] [ErasesBlock B] (k : KeySize) (key : Vector U8 k.bytes) :
    (decFromOf B k key).out = Client.decFromOf B k key := by
  cases k
  · exact out_dec_from_128 key
  · exact out_dec_from_192 key
  · exact out_dec_from_256 key
theorem out_encryptOf {nr : Nat} (e : AesEnc t.Block nr) (w : Width) (x : t.Vec w) :
    (encryptOf t e w x).out = Client.encryptOf t e w x := by
  cases w
  · exact out_encrypt_1 e x
  · exact out_encrypt_2 (X2 := t.X2) e x
  · exact out_encrypt_4 (X4 := t.X4) e x
theorem out_decryptOf {nr : Nat} (e : AesDec t.Block nr) (w : Width) (x : t.Vec w) :
    (decryptOf t e w x).out = Client.decryptOf t e w x := by
  cases w
  · exact out_decrypt_1 e x
  · exact out_decrypt_2 (X2 := t.X2) e x
  · exact out_decrypt_4 (X4 := t.X4) e x

section
variable {I : Impl}
theorem out_need {α : Type} {s : Store I} {a : Option α} {f : α → L (Obs × Store I)} {g : α → Obs × Store I}
    (h : ∀ x, (f x).out = .ok (g x)) : (need s a f).out = .ok (Client.need s a g) := by
  cases a
  · rfl
  · exact h _
theorem out_retM {α : Type} {s : Store I} {m : L α} {m' : M α} (h : m.out = m') (val : α → List (Val I)) :
    (retM s m val).out = .ok (Client.retM s m' val) := by
  subst h; rfl
theorem out_ret {α : Type} {s : Store I} {m : L α} {x : α} (h : m.out = .ok x) (val : α → List (Val I)) :
    (retM s m val).out = .ok (Client.ret s (val x)) := by
  unfold retM
  rw [h]; rfl
theorem out_seeM {α : Type} {s : Store I} {m : L α} {m' : M α} (h : m.out = m') (obs : α → Obs) :
    (seeM s m obs).out = .ok (Client.seeM s m' obs) := by
  subst h; rfl
theorem out_see {α : Type} {s : Store I} {m : L α} {x : α} (h : m.out = .ok x) (obs : α → Obs) :
    (seeM s m obs).out = .ok (obs x, s) := by
  unfold seeM
  rw [h]; rfl
theorem out_retTry {w : Width} {s : Store I} {m : L (Except Nat (I.V w))} {m' : M (Except Nat (I.V w))} (h : m.out = m') :
    (retTry s m).out = .ok (Client.retTry s m') := by
  subst h; rfl
theorem out_setM {α : Type} {s : Store I} {i : Nat} {m : L α} {x : α} (h : m.out = .ok x) (val : α → Val I) :
    (setM s i m val).out = .ok (.done, s.set i (val x)) := by
  unfold setM
  rw [out_bind_ok h]; rfl
end

/-- One call computes the same with and without leakage. -/
theorem out_step (s : Store (crate t)) (c : Call) : (step t s c).out = .ok (Client.step (crate t) s c) := by
  cases c with
  | new w b => exact out_retM (Erases.new (T := t.Vec w) b) _
  | from_bytes w b => exact out_retM (Erases.from_bytes (T := t.Vec w) b) _
  | from_ref w b => exact out_retM (Erases.from_bytes (T := t.Vec w) b) _
  | try_from w b => exact out_retTry (out_try_from (T := t.Vec w) b)
  | zero w => exact out_ret (Erases.zero (T := t.Vec w)) _
  | default_ w => exact out_ret (Erases.zero (T := t.Vec w)) _
  | into_bytes w i => exact out_need fun x => out_seeM (out_into_bytes (T := t.Vec w) x) _
  | store_to w i dst => exact out_need fun x => out_seeM (Erases.store_to (T := t.Vec w) x dst) _
  | is_zero w i => exact out_need fun x => out_see (Erases.is_zero (T := t.Vec w) x) _
  | eq w i j => exact out_need fun x => out_need fun y => out_see (Erases.eq (T := t.Vec w) x y) _
  | bin w op i j => exact out_need fun x => out_need fun y => out_ret (out_binOf (T := t.Vec w) op x y) _
  | assign w op i j => exact out_need fun x => out_need fun y => out_setM (out_assignOf (T := t.Vec w) op x y) _
  | not w i => exact out_need fun x => out_ret (Erases.not (T := t.Vec w) x) _
  | chain_enc w i keys => exact out_need fun x => out_need fun ks => out_retM (out_chain_enc (T := t.Vec w) x ks) _
  | chain_dec w i keys => exact out_need fun x => out_need fun ks => out_retM (out_chain_dec (T := t.Vec w) x ks) _
  | mc i => exact out_need fun x => out_ret (ErasesBlock.mc (B := t.Block) x) _
  | imc i => exact out_need fun x => out_ret (ErasesBlock.imc (B := t.Block) x) _
  | from_u128 n => exact out_retM (out_from_u128 (B := t.Block) n) _
  | into_u128 i => exact out_need fun x => out_seeM (out_into_u128 (B := t.Block) x) _
  | encFrom k key => exact out_retM (out_encFromOf k key) _
  | decFrom k key => exact out_retM (out_decFromOf k key) _
  | decrypter k i => exact out_need fun e => out_retM (out_decrypter (B := t.Block) e) _
  | encrypter k i => exact out_need fun e => out_retM (out_encrypter (B := t.Block) e) _
  | encrypt k w e i => exact out_need fun e => out_need fun x => out_retM (out_encryptOf e w x) _
  | decrypt k w e i => exact out_need fun e => out_need fun x => out_retM (out_decryptOf e w x) _
  | _ => rfl

/-- So do whole clients. -/
theorem out_run (client : Client) (n : Nat) : (run t client n).out = .ok (Client.run (crate t) client n) := by
  induction n with
  | zero => rfl
  | succ n ih =>
    show (do
      let r ← run t client n
      match client r.1 with
      | none => pure r
      | some c => do
        let q ← step t r.2 c
        pure (r.1 ++ [q.1], q.2) : L _).out = .ok (match client (Client.run (crate t) client n).1 with
          | none => Client.run (crate t) client n
          | some c => ((Client.run (crate t) client n).1 ++ [(Client.step (crate t) (Client.run (crate t) client n).2 c).1],
              (Client.step (crate t) (Client.run (crate t) client n).2 c).2))
    rw [out_bind_ok ih]
    cases hc : client (Client.run (crate t) client n).1 with
    | none => rfl
    | some c => exact out_bind_ok (out_step _ c)
end

/-! ### What client steps leak -/

theorem same_eq (t : Target) (w : Width) (h : ctEq t w = true) (x y x' y' : t.Vec w) :
    Same Any (LVec.eq x y) (LVec.eq x' y') := by
  cases t <;> cases w <;> first | cases h | skip
  · exact Same.emit _ _
  · exact Same.bind_any (Same.emit _ _) fun _ _ => Same.bind_any (Same.emit _ _) fun _ _ => Same.emit _ _
  · exact Same.bind_any (Same.emit _ _) fun _ _ => Same.bind_any (Same.emit _ _) fun _ _ => Same.emit _ _
  · exact Same.bind_any (Same.emit _ _) fun _ _ => Same.bind_any (Same.emit _ _) fun _ _ => Same.emit _ _
  · exact Same.bind_any (Same.emit _ _) fun _ _ => Same.bind_any (Same.emit _ _) fun _ _ => Same.emit _ _
  · exact Same.bind_any (Same.emit _ _) fun _ _ => Same.bind_any (Same.emit _ _) fun _ _ => Same.emit _ _
  · exact Same.bind_any (Same.emit _ _) fun _ _ => Same.emit _ _
  · rename_i is32
    exact Same.bind_any (Same.emit _ _) fun a b => QuietData.is_zero (T := Aes.Arm.Block is32) a b

/-- Values of the same type. -/
inductive SameKind {I : Impl} : Val I → Val I → Prop where
  | vec (w : Width) (x y : I.V w) : SameKind (.vec w x) (.vec w y)
  | enc (k : KeySize) (x y : I.E k) : SameKind (.enc k x) (.enc k y)
  | dec (k : KeySize) (x y : I.D k) : SameKind (.dec k x) (.dec k y)
/-- Variables of the same types. -/
abbrev SameStore {I : Impl} (s s' : Store I) : Prop := All2 SameKind s s'
/-- After a step the variables have the same types. -/
abbrev Next {I : Impl} (p q : Obs × Store I) : Prop := SameStore p.2 q.2

/-- Both `Ok` or both `Err`. -/
def BothOk {ε ε' α β : Type} : Except ε α → Except ε' β → Prop
  | .ok _, .ok _ => True
  | .error _, .error _ => True
  | _, _ => False

section
variable {I : Impl}
theorem all2_get {α β : Type} {S : α → β → Prop} {l : List α} {l' : List β} (h : All2 S l l') (i : Nat) :
    (l[i]? = none ∧ l'[i]? = none) ∨ ∃ x y, l[i]? = some x ∧ l'[i]? = some y ∧ S x y := by
  induction h generalizing i with
  | nil => exact .inl ⟨rfl, rfl⟩
  | cons hxy _ ih =>
    cases i with
    | zero => exact .inr ⟨_, _, rfl, rfl, hxy⟩
    | succ i => simpa using ih i
theorem all2_append {α β : Type} {S : α → β → Prop} {l m : List α} {l' m' : List β} (h : All2 S l l') (h2 : All2 S m m') :
    All2 S (l ++ m) (l' ++ m') := by
  induction h with
  | nil => exact h2
  | cons hxy _ ih => exact .cons hxy ih
theorem all2_set {α β : Type} {S : α → β → Prop} {l : List α} {l' : List β} (h : All2 S l l') (i : Nat) {x : α} {y : β} (hxy : S x y) :
    All2 S (l.set i x) (l'.set i y) := by
  induction h generalizing i with
  | nil => exact .nil
  | cons h1 h2 ih =>
    cases i with
    | zero => exact .cons hxy h2
    | succ i => exact .cons h1 (ih i)

/-- Both there or both missing. -/
def Both {α β : Type} (a : Option α) (b : Option β) : Prop := (a = none ∧ b = none) ∨ ∃ x y, a = some x ∧ b = some y
theorem both_vec {s s' : Store I} (h : SameStore s s') (w : Width) (i : Nat) : Both (s.vec? w i) (s'.vec? w i) := by
  unfold Store.vec?
  rcases all2_get h i with ⟨h1, h2⟩ | ⟨x, y, h1, h2, hk⟩
  · rw [h1, h2]; exact .inl ⟨rfl, rfl⟩
  · rw [h1, h2]
    cases hk with
    | vec w' x y =>
      by_cases hw : w' = w
      · subst hw; exact .inr ⟨x, y, by simp, by simp⟩
      · exact .inl ⟨by simp [hw], by simp [hw]⟩
    | enc => exact .inl ⟨rfl, rfl⟩
    | dec => exact .inl ⟨rfl, rfl⟩
theorem both_enc {s s' : Store I} (h : SameStore s s') (k : KeySize) (i : Nat) : Both (s.enc? k i) (s'.enc? k i) := by
  unfold Store.enc?
  rcases all2_get h i with ⟨h1, h2⟩ | ⟨x, y, h1, h2, hk⟩
  · rw [h1, h2]; exact .inl ⟨rfl, rfl⟩
  · rw [h1, h2]
    cases hk with
    | enc k' x y =>
      by_cases hk : k' = k
      · subst hk; exact .inr ⟨x, y, by simp, by simp⟩
      · exact .inl ⟨by simp [hk], by simp [hk]⟩
    | vec => exact .inl ⟨rfl, rfl⟩
    | dec => exact .inl ⟨rfl, rfl⟩
theorem both_dec {s s' : Store I} (h : SameStore s s') (k : KeySize) (i : Nat) : Both (s.dec? k i) (s'.dec? k i) := by
  unfold Store.dec?
  rcases all2_get h i with ⟨h1, h2⟩ | ⟨x, y, h1, h2, hk⟩
  · rw [h1, h2]; exact .inl ⟨rfl, rfl⟩
  · rw [h1, h2]
    cases hk with
    | dec k' x y =>
      by_cases hk : k' = k
      · subst hk; exact .inr ⟨x, y, by simp, by simp⟩
      · exact .inl ⟨by simp [hk], by simp [hk]⟩
    | vec => exact .inl ⟨rfl, rfl⟩
    | enc => exact .inl ⟨rfl, rfl⟩
theorem both_vecs {s s' : Store I} (h : SameStore s s') (w : Width) (l : List Nat) :
    (s.vecs? w l = none ∧ s'.vecs? w l = none) ∨ ∃ x y, s.vecs? w l = some x ∧ s'.vecs? w l = some y ∧ SameLen x y := by
  induction l with
  | nil => exact .inr ⟨[], [], rfl, rfl, rfl⟩
  | cons i l ih =>
    unfold Store.vecs?
    rcases both_vec h w i with ⟨h1, h2⟩ | ⟨x, y, h1, h2⟩
    · rw [h1, h2]; exact .inl ⟨rfl, rfl⟩
    · rw [h1, h2]
      rcases ih with ⟨h3, h4⟩ | ⟨xs, ys, h3, h4, hl⟩
      · rw [h3, h4]; exact .inl ⟨rfl, rfl⟩
      · rw [h3, h4]; exact .inr ⟨_, _, rfl, rfl, congrArg (· + 1) hl⟩

theorem same_need {α β : Type} {s s' : Store I} (hs : SameStore s s') {a : Option α} {b : Option β} (h : Both a b)
    {f : α → L (Obs × Store I)} {g : β → L (Obs × Store I)} (hf : ∀ x y, Same Next (f x) (g y)) :
    Same Next (need s a f) (need s' b g) := by
  rcases h with ⟨rfl, rfl⟩ | ⟨x, y, rfl, rfl⟩
  · exact ⟨rfl, hs⟩
  · exact hf x y
theorem same_retM {α β : Type} {s s' : Store I} (hs : SameStore s s') {m : L α} {m' : L β} (h : Same Any m m')
    {val : α → List (Val I)} {val' : β → List (Val I)} (hv : ∀ x y, SameStore (val x) (val' y)) :
    Same Next (retM s m val) (retM s' m' val') := by
  refine ⟨h.1, ?_⟩
  show SameStore (Client.retM s m.out val).2 (Client.retM s' m'.out val').2
  have h2 := h.2
  revert h2
  cases m.out <;> cases m'.out <;> intro h2
  · exact hs
  · exact h2.elim
  · exact h2.elim
  · exact all2_append hs (hv _ _)
theorem same_seeM {α β : Type} {s s' : Store I} (hs : SameStore s s') {m : L α} {m' : L β} (h : Same Any m m')
    {obs : α → Obs} {obs' : β → Obs} : Same Next (seeM s m obs) (seeM s' m' obs') := by
  refine ⟨h.1, ?_⟩
  show SameStore (Client.seeM s m.out obs).2 (Client.seeM s' m'.out obs').2
  cases m.out <;> cases m'.out <;> exact hs
theorem same_setM {α β : Type} {s s' : Store I} (hs : SameStore s s') {m : L α} {m' : L β} (h : Same Any m m') (i : Nat)
    {val : α → Val I} {val' : β → Val I} (hv : ∀ x y, SameKind (val x) (val' y)) :
    Same Next (setM s i m val) (setM s' i m' val') :=
  Same.bind_any h fun _ _ => Same.pure (all2_set hs i (hv _ _))
theorem same_retTry {w : Width} {s s' : Store I} (hs : SameStore s s') {m m' : L (Except Nat (I.V w))} (h : Same BothOk m m') :
    Same Next (retTry s m) (retTry s' m') := by
  refine ⟨h.1, ?_⟩
  show SameStore (Client.retTry s m.out).2 (Client.retTry s' m'.out).2
  have h2 := h.2
  revert h2
  cases m.out <;> cases m'.out <;> intro h2
  · exact hs
  · exact h2.elim
  · exact h2.elim
  · rename_i a b
    cases a <;> cases b
    · exact hs
    · exact h2.elim
    · exact h2.elim
    · exact all2_append hs (.cons (.vec _ _ _) .nil)
end
end Aes.Leak
namespace Aes.Leak
open Rust Target Client

theorem same_try_from' {T : Type} {n : Nat} [LVec T n] [QuietData T] {s s' : List U8} (h : SameLen s s') :
    Same BothOk (try_from s : L (Except Nat T)) (try_from s' : L (Except Nat T)) := by
  have h' : s.length = s'.length := h
  unfold try_from try_from_slice
  rw [h']
  refine Same.bind_any (Same.branch _) fun _ _ => ?_
  by_cases hl : s'.length ≥ n
  · rw [if_pos hl, if_pos hl]
    exact Same.bind_any (Same.rawRead h 0 n) fun a b => Same.bind_any (QuietData.from_bytes a b) fun _ _ => Same.pure trivial
  · rw [if_neg hl, if_neg hl]; exact Same.pure trivial

section
variable {t : Target}
theorem one_vec (w : Width) (x y : t.Vec w) : SameStore (I := crate t) [.vec w x] [.vec w y] := .cons (SameKind.vec (I := crate t) w x y) .nil
theorem one_enc (k : KeySize) (x y : AesEnc t.Block k.rounds) : SameStore (I := crate t) [.enc k x] [.enc k y] := .cons (SameKind.enc (I := crate t) k x y) .nil
theorem one_dec (k : KeySize) (x y : AesDec t.Block k.rounds) : SameStore (I := crate t) [.dec k x] [.dec k y] := .cons (SameKind.dec (I := crate t) k x y) .nil

theorem same_encFromOf (ht : t ≠ .table) (k : KeySize) (a b : Vector U8 k.bytes) :
    Same Any (encFromOf t.Block k a) (encFromOf t.Block k b) := by
  haveI := quietBlock t ht
  cases k
  · exact same_enc_from_128 a b
  · exact same_enc_from_192 a b
  · exact same_enc_from_256 a b
theorem same_decFromOf (ht : t ≠ .table) (k : KeySize) (a b : Vector U8 k.bytes) :
    Same Any (decFromOf t.Block k a) (decFromOf t.Block k b) := by
  haveI := quietBlock t ht
  cases k
  · exact same_dec_from_128 a b
  · exact same_dec_from_192 a b
  · exact same_dec_from_256 a b
theorem same_encryptOf (ht : t ≠ .table) {nr : Nat} (e e' : AesEnc t.Block nr) (w : Width) (x x' : t.Vec w) :
    Same Any (encryptOf t e w x) (encryptOf t e' w x') := by
  haveI := quietBlock t ht
  haveI := quietX2 t ht
  haveI := quietX4 t ht
  cases w
  · exact same_encrypt (T := t.Block) id e e' x x'
  · exact same_encrypt (T := t.X2) _ e e' x x'
  · exact same_encrypt (T := t.X4) _ e e' x x'
theorem same_decryptOf (ht : t ≠ .table) {nr : Nat} (e e' : AesDec t.Block nr) (w : Width) (x x' : t.Vec w) :
    Same Any (decryptOf t e w x) (decryptOf t e' w x') := by
  haveI := quietBlock t ht
  haveI := quietX2 t ht
  haveI := quietX4 t ht
  cases w
  · exact same_decrypt (T := t.Block) id e e' x x'
  · exact same_decrypt (T := t.X2) _ e e' x x'
  · exact same_decrypt (T := t.X4) _ e e' x x'
theorem same_binOf (w : Width) (op : BinOp) (h : silent t (.bin w op 0 0) = true) (x y x' y' : t.Vec w) :
    Same Any (binOf op x y) (binOf op x' y') := by
  cases op with
  | and => exact QuietData.bitand x y x' y'
  | or => exact QuietData.bitor x y x' y'
  | xor => exact QuietData.bitxor x y x' y'
  | enc => haveI := quietVec t (by simpa [silent] using h) w; exact Quiet.enc x y x' y'
  | dec => haveI := quietVec t (by simpa [silent] using h) w; exact Quiet.dec x y x' y'
  | encLast => haveI := quietVec t (by simpa [silent] using h) w; exact Quiet.enc_last x y x' y'
  | decLast => haveI := quietVec t (by simpa [silent] using h) w; exact Quiet.dec_last x y x' y'
theorem same_assignOf (w : Width) (op : AssignOp) (x y x' y' : t.Vec w) : Same Any (assignOf op x y) (assignOf op x' y') := by
  cases op with
  | and => exact QuietData.bitand x y x' y'
  | or => exact QuietData.bitor x y x' y'
  | xor => exact QuietData.bitxor x y x' y'

theorem need_next {I : Impl} {α : Type} {s s' : Store I} (hs : SameStore s s') {a b : Option α} (h : Both a b)
    {f g : α → Obs × Store I} (hf : ∀ x y, Next (f x) (g y)) : Next (Client.need s a f) (Client.need s' b g) := by
  rcases h with ⟨rfl, rfl⟩ | ⟨x, y, rfl, rfl⟩
  · exact hs
  · exact hf x y

/-- A silent call does to stores with the same types what the blanked call does. -/
theorem same_step (c : Call) (h : silent t c = true) {s s' : Store (crate t)} (hs : SameStore s s') :
    Same Next (step t s c) (step t s' c.blank) := by
  cases c with
  | clone i =>
    refine ⟨rfl, ?_⟩
    show SameStore (Client.need s s[i]? _).2 (Client.need s' s'[i]? _).2
    rcases all2_get hs i with ⟨h1, h2⟩ | ⟨x, y, h1, h2, hk⟩
    · rw [h1, h2]; exact hs
    · rw [h1, h2]; exact all2_append hs (.cons hk .nil)
  | new w b =>
    exact same_retM hs (QuietData.new (T := t.Vec w) _ _) fun x y => one_vec w x y
  | from_bytes w b =>
    exact same_retM hs (QuietData.from_bytes (T := t.Vec w) _ _) fun x y => one_vec w x y
  | from_ref w b =>
    exact same_retM hs (QuietData.from_bytes (T := t.Vec w) _ _) fun x y => one_vec w x y
  | try_from w b =>
    exact same_retTry hs (same_try_from' (T := t.Vec w) (by simp [SameLen]))
  | zero w =>
    exact same_retM hs (same_refl (LVec.zero : L (t.Vec w))) fun x y => one_vec w x y
  | default_ w =>
    exact same_retM hs (same_refl (LVec.zero : L (t.Vec w))) fun x y => one_vec w x y
  | into_bytes w i =>
    exact same_need hs (both_vec hs w i) fun x y => same_seeM hs (same_into_bytes (T := t.Vec w) x y)
  | store_to w i dst =>
    exact same_need hs (both_vec hs w i) fun x y => same_seeM hs
      (QuietData.store_to (T := t.Vec w) x y dst (List.replicate dst.length 0) (by simp [SameLen])).any
  | is_zero w i =>
    exact same_need hs (both_vec hs w i) fun x y => same_seeM hs (QuietData.is_zero (T := t.Vec w) x y)
  | eq w i j =>
    exact same_need hs (both_vec hs w i) fun x y => same_need hs (both_vec hs w j) fun x' y' =>
      same_seeM hs (same_eq t w h _ _ _ _)
  | bin w op i j =>
    exact same_need hs (both_vec hs w i) fun x y => same_need hs (both_vec hs w j) fun x' y' =>
      same_retM hs (same_binOf w op h _ _ _ _) fun x y => one_vec w x y
  | assign w op i j =>
    exact same_need hs (both_vec hs w i) fun x y => same_need hs (both_vec hs w j) fun x' y' =>
      same_setM hs (same_assignOf w op _ _ _ _) i fun x y => SameKind.vec (I := crate t) w x y
  | not w i =>
    exact same_need hs (both_vec hs w i) fun x y =>
      same_retM hs (QuietData.not (T := t.Vec w) x y) fun x y => one_vec w x y
  | chain_enc w i keys =>
    haveI := quietVec t (by simpa [silent] using h) w
    refine same_need hs (both_vec hs w i) fun x y => ?_
    rcases both_vecs hs w keys with ⟨h1, h2⟩ | ⟨ks, ks', h1, h2, hl⟩
    · rw [h1, h2]; exact ⟨rfl, hs⟩
    · rw [h1, h2]; exact same_retM hs (same_chain_enc (T := t.Vec w) x y hl) fun x y => one_vec w x y
  | chain_dec w i keys =>
    haveI := quietVec t (by simpa [silent] using h) w
    refine same_need hs (both_vec hs w i) fun x y => ?_
    rcases both_vecs hs w keys with ⟨h1, h2⟩ | ⟨ks, ks', h1, h2, hl⟩
    · rw [h1, h2]; exact ⟨rfl, hs⟩
    · rw [h1, h2]; exact same_retM hs (same_chain_dec (T := t.Vec w) x y hl) fun x y => one_vec w x y
  | mc i =>
    haveI := quietBlock t (by simpa [silent] using h)
    exact same_need hs (both_vec hs .x1 i) fun x y => same_retM hs (QuietBlock.mc (B := t.Block) x y) fun x y => one_vec .x1 x y
  | imc i =>
    haveI := quietBlock t (by simpa [silent] using h)
    exact same_need hs (both_vec hs .x1 i) fun x y => same_retM hs (QuietBlock.imc (B := t.Block) x y) fun x y => one_vec .x1 x y
  | from_u128 n =>
    exact same_retM hs (same_from_u128 (B := t.Block) _ _) fun x y => one_vec .x1 x y
  | into_u128 i =>
    exact same_need hs (both_vec hs .x1 i) fun x y => same_seeM hs (same_into_u128 (B := t.Block) x y)
  | from_pair i j =>
    exact ⟨rfl, need_next hs (both_vec hs .x1 i) fun x y => need_next hs (both_vec hs .x1 j) fun x' y' =>
      all2_append hs (one_vec .x2 _ _)⟩
  | to_pair i =>
    exact ⟨rfl, need_next hs (both_vec hs .x2 i) fun x y =>
      all2_append hs (.cons (SameKind.vec (I := crate t) .x1 _ _) (one_vec .x1 _ _))⟩
  | from_block2 i =>
    exact ⟨rfl, need_next hs (both_vec hs .x1 i) fun x y => all2_append hs (one_vec .x2 _ _)⟩
  | from_quad i j k l =>
    exact ⟨rfl, need_next hs (both_vec hs .x1 i) fun _ _ => need_next hs (both_vec hs .x1 j) fun _ _ =>
      need_next hs (both_vec hs .x1 k) fun _ _ => need_next hs (both_vec hs .x1 l) fun _ _ => all2_append hs (one_vec .x4 _ _)⟩
  | to_quad i =>
    exact ⟨rfl, need_next hs (both_vec hs .x4 i) fun x y =>
      all2_append hs (.cons (SameKind.vec (I := crate t) .x1 _ _) (.cons (SameKind.vec (I := crate t) .x1 _ _) (.cons (SameKind.vec (I := crate t) .x1 _ _) (one_vec .x1 _ _))))⟩
  | from_x2_pair i j =>
    exact ⟨rfl, need_next hs (both_vec hs .x2 i) fun x y => need_next hs (both_vec hs .x2 j) fun x' y' =>
      all2_append hs (one_vec .x4 _ _)⟩
  | to_x2_pair i =>
    exact ⟨rfl, need_next hs (both_vec hs .x4 i) fun x y =>
      all2_append hs (.cons (SameKind.vec (I := crate t) .x2 _ _) (one_vec .x2 _ _))⟩
  | from_block4 i =>
    exact ⟨rfl, need_next hs (both_vec hs .x1 i) fun x y => all2_append hs (one_vec .x4 _ _)⟩
  | from_x2 i =>
    exact ⟨rfl, need_next hs (both_vec hs .x2 i) fun x y => all2_append hs (one_vec .x4 _ _)⟩
  | encFrom k key =>
    exact same_retM hs (same_encFromOf (by simpa [silent] using h) k _ _) fun x y => one_enc k x y
  | decFrom k key =>
    exact same_retM hs (same_decFromOf (by simpa [silent] using h) k _ _) fun x y => one_dec k x y
  | decrypter k i =>
    haveI := quietBlock t (by simpa [silent] using h)
    exact same_need hs (both_enc hs k i) fun x y => same_retM hs (same_decrypter (B := t.Block) x y) fun x y => one_dec k x y
  | encrypter k i =>
    haveI := quietBlock t (by simpa [silent] using h)
    exact same_need hs (both_dec hs k i) fun x y => same_retM hs (same_encrypter (B := t.Block) x y) fun x y => one_enc k x y
  | encrypt k w e i =>
    exact same_need hs (both_enc hs k e) fun _ _ => same_need hs (both_vec hs w i) fun _ _ =>
      same_retM hs (same_encryptOf (by simpa [silent] using h) _ _ w _ _) fun x y => one_vec w x y
  | decrypt k w e i =>
    exact same_need hs (both_dec hs k e) fun _ _ => same_need hs (both_vec hs w i) fun _ _ =>
      same_retM hs (same_decryptOf (by simpa [silent] using h) _ _ w _ _) fun x y => one_vec w x y
  | format1 | format2 | format4 | formatE | formatD => cases h
end
end Aes.Leak
namespace Aes.Leak
open Rust Target Client

section
variable {t : Target}

theorem sameKind_symm {I : Impl} {a b : Val I} (h : SameKind a b) : SameKind b a := by cases h <;> constructor
theorem sameKind_trans {I : Impl} {a b c : Val I} (h : SameKind a b) (h' : SameKind b c) : SameKind a c := by
  cases h <;> cases h' <;> constructor
theorem sameStore_symm {I : Impl} {s s' : Store I} (h : SameStore s s') : SameStore s' s := by
  induction h with
  | nil => exact .nil
  | cons h _ ih => exact .cons (sameKind_symm h) ih
theorem sameStore_trans {I : Impl} {s s' s'' : Store I} (h : SameStore s s') (h' : SameStore s' s'') : SameStore s s'' := by
  induction h generalizing s'' with
  | nil => exact h'
  | cons h _ ih => cases h' with | cons h1 h2 => exact .cons (sameKind_trans h h1) (ih h2)
theorem silent_blank (c : Call) : silent t c.blank = silent t c := by cases c <;> rfl

/-- Calls with the same shape. -/
theorem step_shape {c c' : Call} (hb : c.blank = c'.blank) (h : silent t c = true) {s s' : Store (crate t)} (hs : SameStore s s') :
    (step t s c).trace = (step t s' c').trace ∧ SameStore (Client.step (crate t) s c).2 (Client.step (crate t) s' c').2 := by
  have h' : silent t c' = true := by rw [← silent_blank, ← hb, silent_blank]; exact h
  obtain ⟨t1, o1⟩ := same_step c h hs
  obtain ⟨t2, o2⟩ := same_step c' h' (sameStore_trans (sameStore_symm hs) hs)
  rw [hb] at t1 o1
  refine ⟨t1.trans t2.symm, ?_⟩
  rw [out_step, out_step] at o1 o2
  exact sameStore_trans o1 (sameStore_symm o2)

theorem leakage_succ (client : Client) (n : Nat) : leakage t client (n + 1) = leakage t client n ++
    (match client (observe (crate t) client n) with
     | none => []
     | some c => (step t (Client.run (crate t) client n).2 c).trace) := by
  show (do
      let r ← run t client n
      match client r.1 with
      | none => pure r
      | some c => do
        let q ← step t r.2 c
        pure (r.1 ++ [q.1], q.2) : L _).trace = _
  rw [trace_bind (out_run client n)]
  refine congrArg _ ?_
  unfold observe
  cases client (Client.run (crate t) client n).1 with
  | none => rfl
  | some c =>
    show (step t _ c >>= _).trace = _
    rw [trace_bind (out_step _ c)]
    simp [trace_pure]

theorem run_succ_none {I : Impl} {client : Client} {n : Nat} (h : client (observe I client n) = none) :
    Client.run I client (n + 1) = Client.run I client n := by
  have h' : client (Client.run I client n).1 = none := h
  rw [Client.run, h']
theorem run_succ_some {I : Impl} {client : Client} {n : Nat} {c : Call} (h : client (observe I client n) = some c) :
    Client.run I client (n + 1) = ((Client.run I client n).1 ++ [(Client.step I (Client.run I client n).2 c).1],
      (Client.step I (Client.run I client n).2 c).2) := by
  have h' : client (Client.run I client n).1 = some c := h
  rw [Client.run, h']

theorem leakage_shape (client client' : Client) (n : Nat)
    (hb : ∀ k, k < n → (client (observe (crate t) client k)).map Call.blank = (client' (observe (crate t) client' k)).map Call.blank)
    (hs : ∀ k, k < n → ∀ c, client (observe (crate t) client k) = some c → silent t c = true) :
    leakage t client n = leakage t client' n ∧ SameStore (Client.run (crate t) client n).2 (Client.run (crate t) client' n).2 := by
  induction n with
  | zero => exact ⟨rfl, .nil⟩
  | succ n ih =>
    obtain ⟨h1, h2⟩ := ih (fun k hk => hb k (by omega)) (fun k hk => hs k (by omega))
    have hbn := hb n (by omega)
    have hsn := hs n (by omega)
    cases hc : client (observe (crate t) client n) with
    | none =>
      cases hc' : client' (observe (crate t) client' n) with
      | none =>
        rw [run_succ_none hc, run_succ_none hc', leakage_succ, leakage_succ, hc, hc', h1]
        exact ⟨rfl, h2⟩
      | some c' => rw [hc, hc'] at hbn; cases hbn
    | some c =>
      cases hc' : client' (observe (crate t) client' n) with
      | none => rw [hc, hc'] at hbn; cases hbn
      | some c' =>
        rw [hc, hc'] at hbn
        obtain ⟨h3, h4⟩ := step_shape (Option.some.inj hbn) (hsn c hc) h2
        rw [run_succ_some hc, run_succ_some hc', leakage_succ, leakage_succ, hc, hc', h1]
        exact ⟨congrArg _ h3, h4⟩
end
end Aes.Leak
