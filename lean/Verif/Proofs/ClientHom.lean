import Verif.Model.Client
/-! If every operation of `J` is that of `I` up to a change of representation, no client can tell them apart. -/
namespace Aes.Client
open Rust Target Fmt

/-- `J` is `I` in another representation. -/
structure Hom (I J : Impl) where
  v : (w : Width) → I.V w → J.V w
  e : (k : KeySize) → I.E k → J.E k
  d : (k : KeySize) → I.D k → J.D k
  new : ∀ w b, J.new w b = (I.new w b).map (v w)
  from_bytes : ∀ w b, J.from_bytes w b = (I.from_bytes w b).map (v w)
  from_ref : ∀ w b, J.from_ref w b = (I.from_ref w b).map (v w)
  try_from : ∀ w b, J.try_from w b = (I.try_from w b).map (·.map (v w))
  zero : ∀ w, J.zero w = v w (I.zero w)
  default_ : ∀ w, J.default_ w = v w (I.default_ w)
  into_bytes : ∀ w x, J.into_bytes w (v w x) = I.into_bytes w x
  store_to : ∀ w x dst, J.store_to w (v w x) dst = I.store_to w x dst
  is_zero : ∀ w x, J.is_zero w (v w x) = I.is_zero w x
  eq : ∀ w x y, J.eq w (v w x) (v w y) = I.eq w x y
  bin : ∀ w op x y, J.bin w op (v w x) (v w y) = v w (I.bin w op x y)
  assign : ∀ w op x y, J.assign w op (v w x) (v w y) = v w (I.assign w op x y)
  not : ∀ w x, J.not w (v w x) = v w (I.not w x)
  chain_enc : ∀ w x ks, J.chain_enc w (v w x) (ks.map (v w)) = (I.chain_enc w x ks).map (v w)
  chain_dec : ∀ w x ks, J.chain_dec w (v w x) (ks.map (v w)) = (I.chain_dec w x ks).map (v w)
  mc : ∀ x, J.mc (v .x1 x) = v .x1 (I.mc x)
  imc : ∀ x, J.imc (v .x1 x) = v .x1 (I.imc x)
  from_u128 : ∀ n, J.from_u128 n = (I.from_u128 n).map (v .x1)
  into_u128 : ∀ x, J.into_u128 (v .x1 x) = I.into_u128 x
  from_pair : ∀ x y, J.from_pair (v .x1 x, v .x1 y) = v .x2 (I.from_pair (x, y))
  to_pair : ∀ x, J.to_pair (v .x2 x) = (v .x1 (I.to_pair x).1, v .x1 (I.to_pair x).2)
  from_block2 : ∀ x, J.from_block2 (v .x1 x) = v .x2 (I.from_block2 x)
  from_quad : ∀ x y z u, J.from_quad (v .x1 x, v .x1 y, v .x1 z, v .x1 u) = v .x4 (I.from_quad (x, y, z, u))
  to_quad : ∀ x, J.to_quad (v .x4 x) =
    (v .x1 (I.to_quad x).1, v .x1 (I.to_quad x).2.1, v .x1 (I.to_quad x).2.2.1, v .x1 (I.to_quad x).2.2.2)
  from_x2_pair : ∀ x y, J.from_x2_pair (v .x2 x, v .x2 y) = v .x4 (I.from_x2_pair (x, y))
  to_x2_pair : ∀ x, J.to_x2_pair (v .x4 x) = (v .x2 (I.to_x2_pair x).1, v .x2 (I.to_x2_pair x).2)
  from_block4 : ∀ x, J.from_block4 (v .x1 x) = v .x4 (I.from_block4 x)
  from_x2 : ∀ x, J.from_x2 (v .x2 x) = v .x4 (I.from_x2 x)
  format1 : ∀ st o x, J.format1 st o (v .x1 x) = I.format1 st o x
  format2 : ∀ o x, J.format2 o (v .x2 x) = I.format2 o x
  format4 : ∀ o x, J.format4 o (v .x4 x) = I.format4 o x
  encFrom : ∀ k key, J.encFrom k key = (I.encFrom k key).map (e k)
  decFrom : ∀ k key, J.decFrom k key = (I.decFrom k key).map (d k)
  decrypter : ∀ k x, J.decrypter k (e k x) = (I.decrypter k x).map (d k)
  encrypter : ∀ k x, J.encrypter k (d k x) = (I.encrypter k x).map (e k)
  encrypt : ∀ k w x y, J.encrypt k w (e k x) (v w y) = (I.encrypt k w x y).map (v w)
  decrypt : ∀ k w x y, J.decrypt k w (d k x) (v w y) = (I.decrypt k w x y).map (v w)
  formatE : ∀ k o x, J.formatE k o (e k x) = I.formatE k o x
  formatD : ∀ k o x, J.formatD k o (d k x) = I.formatD k o x

namespace Hom
variable {I J : Impl} (h : Hom I J)

/-- A value in the other representation. -/
def val : Val I → Val J
  | .vec w x => .vec w (h.v w x)
  | .enc k x => .enc k (h.e k x)
  | .dec k x => .dec k (h.d k x)

theorem vec? (s : Store I) (w : Width) (i : Nat) : Store.vec? (s.map h.val) w i = (Store.vec? s w i).map (h.v w) := by
  unfold Store.vec?
  rw [List.getElem?_map]
  cases s[i]? with
  | none => rfl
  | some x =>
    cases x with
    | vec w' b =>
      by_cases hw : w' = w
      · subst hw
        simp only [Option.map_some, val, dif_pos]
      · simp only [Option.map_some, val, dif_neg hw]; rfl
    | enc => rfl
    | dec => rfl
theorem enc? (s : Store I) (k : KeySize) (i : Nat) : Store.enc? (s.map h.val) k i = (Store.enc? s k i).map (h.e k) := by
  unfold Store.enc?
  rw [List.getElem?_map]
  cases s[i]? with
  | none => rfl
  | some x =>
    cases x with
    | enc w' b =>
      by_cases hw : w' = k
      · subst hw
        simp only [Option.map_some, val, dif_pos]
      · simp only [Option.map_some, val, dif_neg hw]; rfl
    | vec => rfl
    | dec => rfl
theorem dec? (s : Store I) (k : KeySize) (i : Nat) : Store.dec? (s.map h.val) k i = (Store.dec? s k i).map (h.d k) := by
  unfold Store.dec?
  rw [List.getElem?_map]
  cases s[i]? with
  | none => rfl
  | some x =>
    cases x with
    | dec w' b =>
      by_cases hw : w' = k
      · subst hw
        simp only [Option.map_some, val, dif_pos]
      · simp only [Option.map_some, val, dif_neg hw]; rfl
    | vec => rfl
    | enc => rfl
theorem vecs? (s : Store I) (w : Width) (l : List Nat) : Store.vecs? (s.map h.val) w l = (Store.vecs? s w l).map (List.map (h.v w)) := by
  induction l with
  | nil => rfl
  | cons i l ih =>
    unfold Store.vecs?
    rw [vec?, ih]
    cases Store.vec? s w i <;> cases Store.vecs? s w l <;> rfl

/-- Both sides after a call. -/
def both (r : Obs × Store I) : Obs × Store J := (r.1, r.2.map h.val)

theorem need {α β : Type} (s : Store I) (a : Option α) (g : α → β)
    (f : β → Obs × Store J) (f' : α → Obs × Store I) (hf : ∀ x, f (g x) = h.both (f' x)) :
    Client.need (s.map h.val) (a.map g) f = h.both (Client.need s a f') := by
  cases a with
  | none => rfl
  | some x => exact hf x
theorem retM {α β : Type} (s : Store I) (m : M α) (m' : M β) (v : α → List (Val J))
    (v' : β → List (Val I)) (g : β → α) (hm : m = m'.map g) (hv : ∀ x, v (g x) = (v' x).map h.val) :
    Client.retM (s.map h.val) m v = h.both (Client.retM s m' v') := by
  subst hm
  cases m' with
  | error => rfl
  | ok x => simp only [Client.retM, Except.map, both, List.map_append, hv]
theorem seeM {α : Type} (s : Store I) (m m' : M α) (v : α → Obs) (hm : m = m') :
    Client.seeM (s.map h.val) m v = h.both (Client.seeM s m' v) := by
  subst hm
  cases m <;> rfl
theorem ret (s : Store I) (v : List (Val J)) (v' : List (Val I)) (hv : v = v'.map h.val) :
    Client.ret (s.map h.val) v = h.both (Client.ret s v') := by
  simp only [Client.ret, both, List.map_append, hv]

theorem ret1 (s : Store I) (w : Width) (x : J.V w) (y : I.V w) (hx : x = h.v w y) :
    Client.ret (s.map h.val) [.vec w x] = h.both (Client.ret s [.vec w y]) := h.ret s _ _ (by subst hx; rfl)

set_option maxHeartbeats 1000000 in
/-- One call. -/
theorem step (s : Store I) (c : Call) : Client.step J (s.map h.val) c = h.both (Client.step I s c) := by
  cases c with
  | clone i =>
    simp only [Client.step, List.getElem?_map]
    exact h.need s _ _ _ _ fun v => h.ret s _ _ rfl
  | new w b => exact h.retM s _ _ _ _ _ (h.new w b) fun x => rfl
  | from_bytes w b => exact h.retM s _ _ _ _ _ (h.from_bytes w b) fun x => rfl
  | from_ref w b => exact h.retM s _ _ _ _ _ (h.from_ref w b) fun x => rfl
  | try_from w b =>
    simp only [Client.step]
    rw [h.try_from]
    cases I.try_from w b with
    | error => rfl
    | ok r =>
      cases r with
      | error => rfl
      | ok x => simp only [Except.map, retTry, both, List.map_append]; rfl
  | zero w => exact h.ret1 s _ _ _ (h.zero w)
  | default_ w => exact h.ret1 s _ _ _ (h.default_ w)
  | into_bytes w i =>
    simp only [Client.step, vec?]
    exact h.need s _ _ _ _ fun b => h.seeM s _ _ _ (h.into_bytes w b)
  | store_to w i dst =>
    simp only [Client.step, vec?]
    exact h.need s _ _ _ _ fun b => h.seeM s _ _ _ (h.store_to w b dst)
  | is_zero w i =>
    simp only [Client.step, vec?]
    exact h.need s _ _ _ _ fun b => congrArg (fun v => (Obs.bool v, s.map h.val)) (h.is_zero w b)
  | eq w i j =>
    simp only [Client.step, vec?]
    exact h.need s _ _ _ _ fun a => h.need s _ _ _ _ fun b => congrArg (fun v => (Obs.bool v, s.map h.val)) (h.eq w a b)
  | bin w op i j =>
    simp only [Client.step, vec?]
    exact h.need s _ _ _ _ fun a => h.need s _ _ _ _ fun b => h.ret1 s _ _ _ (h.bin w op a b)
  | assign w op i j =>
    simp only [Client.step, vec?]
    refine h.need s _ _ _ _ fun a => h.need s _ _ _ _ fun b => ?_
    simp only [both, List.map_set]
    exact congrArg (fun v => (Obs.done, (s.map h.val).set i (Val.vec w v))) (h.assign w op a b)
  | not w i =>
    simp only [Client.step, vec?]
    exact h.need s _ _ _ _ fun a => h.ret1 s _ _ _ (h.not w a)
  | chain_enc w i ks =>
    simp only [Client.step, vec?, vecs?]
    exact h.need s _ _ _ _ fun a => h.need s _ _ _ _ fun ks => h.retM s _ _ _ _ _ (h.chain_enc w a ks) fun x => rfl
  | chain_dec w i ks =>
    simp only [Client.step, vec?, vecs?]
    exact h.need s _ _ _ _ fun a => h.need s _ _ _ _ fun ks => h.retM s _ _ _ _ _ (h.chain_dec w a ks) fun x => rfl
  | mc i =>
    simp only [Client.step, vec?]
    exact h.need s _ _ _ _ fun a => h.ret1 s _ _ _ (h.mc a)
  | imc i =>
    simp only [Client.step, vec?]
    exact h.need s _ _ _ _ fun a => h.ret1 s _ _ _ (h.imc a)
  | from_u128 n => exact h.retM s _ _ _ _ _ (h.from_u128 n) fun x => rfl
  | into_u128 i =>
    simp only [Client.step, vec?]
    exact h.need s _ _ _ _ fun b => h.seeM s _ _ _ (h.into_u128 b)
  | from_pair i j =>
    simp only [Client.step, vec?]
    exact h.need s _ _ _ _ fun a => h.need s _ _ _ _ fun b => h.ret1 s _ _ _ (h.from_pair a b)
  | to_pair i =>
    simp only [Client.step, vec?]
    exact h.need s _ _ _ _ fun a => h.ret s _ _ (by rw [h.to_pair]; rfl)
  | from_block2 i =>
    simp only [Client.step, vec?]
    exact h.need s _ _ _ _ fun a => h.ret1 s _ _ _ (h.from_block2 a)
  | from_quad i j k l =>
    simp only [Client.step, vec?]
    exact h.need s _ _ _ _ fun a => h.need s _ _ _ _ fun b => h.need s _ _ _ _ fun c => h.need s _ _ _ _ fun d =>
      h.ret1 s _ _ _ (h.from_quad a b c d)
  | to_quad i =>
    simp only [Client.step, vec?]
    exact h.need s _ _ _ _ fun a => h.ret s _ _ (by rw [h.to_quad]; rfl)
  | from_x2_pair i j =>
    simp only [Client.step, vec?]
    exact h.need s _ _ _ _ fun a => h.need s _ _ _ _ fun b => h.ret1 s _ _ _ (h.from_x2_pair a b)
  | to_x2_pair i =>
    simp only [Client.step, vec?]
    exact h.need s _ _ _ _ fun a => h.ret s _ _ (by rw [h.to_x2_pair]; rfl)
  | from_block4 i =>
    simp only [Client.step, vec?]
    exact h.need s _ _ _ _ fun a => h.ret1 s _ _ _ (h.from_block4 a)
  | from_x2 i =>
    simp only [Client.step, vec?]
    exact h.need s _ _ _ _ fun a => h.ret1 s _ _ _ (h.from_x2 a)
  | format1 st o i =>
    simp only [Client.step, vec?]
    exact h.need s _ _ _ _ fun b => h.seeM s _ _ _ (h.format1 st o b)
  | format2 o i =>
    simp only [Client.step, vec?]
    exact h.need s _ _ _ _ fun b => h.seeM s _ _ _ (h.format2 o b)
  | format4 o i =>
    simp only [Client.step, vec?]
    exact h.need s _ _ _ _ fun b => h.seeM s _ _ _ (h.format4 o b)
  | encFrom k key => exact h.retM s _ _ _ _ _ (h.encFrom k key) fun x => rfl
  | decFrom k key => exact h.retM s _ _ _ _ _ (h.decFrom k key) fun x => rfl
  | decrypter k i =>
    simp only [Client.step, enc?]
    exact h.need s _ _ _ _ fun key => h.retM s _ _ _ _ _ (h.decrypter k key) fun x => rfl
  | encrypter k i =>
    simp only [Client.step, dec?]
    exact h.need s _ _ _ _ fun key => h.retM s _ _ _ _ _ (h.encrypter k key) fun x => rfl
  | encrypt k w e i =>
    simp only [Client.step, enc?, vec?]
    exact h.need s _ _ _ _ fun key => h.need s _ _ _ _ fun b => h.retM s _ _ _ _ _ (h.encrypt k w key b) fun x => rfl
  | decrypt k w e i =>
    simp only [Client.step, dec?, vec?]
    exact h.need s _ _ _ _ fun key => h.need s _ _ _ _ fun b => h.retM s _ _ _ _ _ (h.decrypt k w key b) fun x => rfl
  | formatE k o i =>
    simp only [Client.step, enc?]
    exact h.need s _ _ _ _ fun b => h.seeM s _ _ _ (h.formatE k o b)
  | formatD k o i =>
    simp only [Client.step, dec?]
    exact h.need s _ _ _ _ fun b => h.seeM s _ _ _ (h.formatD k o b)

/-- A whole run. -/
theorem run (client : Client) (n : Nat) : Client.run J client n = ((Client.run I client n).1, (Client.run I client n).2.map h.val) := by
  induction n with
  | zero => rfl
  | succ n ih =>
    simp only [Client.run]
    rw [ih]
    simp only []
    cases hc : client (Client.run I client n).1 with
    | none => rfl
    | some c =>
      simp only []
      rw [h.step]; rfl
include h in
/-- No client can tell. -/
theorem observe (client : Client) (n : Nat) : Client.observe J client n = Client.observe I client n := congrArg Prod.fst (h.run client n)
end Hom
end Aes.Client
