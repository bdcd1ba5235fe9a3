import Verif.Proofs.BorrowHistory
import Verif.Proofs.BorrowAssign
import Verif.Properties.Store
import Verif.Properties.Mem
/-!
C62: the pointers of the crate obey the aliasing rules of Rust. In `Verif/Model/Borrow.lean` the functions that go through pointers are programs
on a memory with borrow stacks (`Verif/Spec/Borrows.lean`, Stacked Borrows): every reference has a tag, and an access through a pointer
that another one has made invalid is undefined behaviour.
-/
namespace Aes
open Rust AesSpec AesVec AesBlock Target
open Borrow (State Access Tag Ref)

/-- `store_to` of the block type of the given width, under borrow stacks. -/
instance (t : Target) (w : Width) : Borrow.StoreTo (t.Vec w) :=
  match w with
  | .x1 => inferInstanceAs (Borrow.StoreTo t.Block)
  | .x2 => inferInstanceAs (Borrow.StoreTo t.X2)
  | .x4 => inferInstanceAs (Borrow.StoreTo t.X4)
instance (t : Target) (w : Width) : Borrow.LawfulBorrow (t.Vec w) :=
  match w with
  | .x1 => inferInstanceAs (Borrow.LawfulBorrow t.Block)
  | .x2 => inferInstanceAs (Borrow.LawfulBorrow t.X2)
  | .x4 => inferInstanceAs (Borrow.LawfulBorrow t.X4)

/-- May the whole slice be accessed through the reference `r`? A Rust caller can only make such references. -/
def valid (σ : State) (k : Access) (r : Ref) : Prop := ∀ a, r.ptr ≤ a ∧ a < r.ptr + r.len → σ.allows k r.tag a = true

/-- C62: given a valid `&mut [u8]`, `store_to` breaks no aliasing rule: it returns if the slice is long enough, with the bytes of the value
in place and nothing else changed (as in C50), and panics if not. Given an invalid one it is undefined behaviour (as any call is), so validity is
exactly what is needed. For every target, width, value, state of the memory and place of the slice. -/
theorem C62_store_to (t : Target) (w : Width) (x : t.Vec w) (σ : State) (hσ : σ.WellFormed) (r : Ref) :
    (valid σ .write r → w.size ≤ r.len → ∃ (σ' : State) (b : Bytes w.size), Borrow.StoreTo.store_to x r σ = .ok ((), σ') ∧ into_bytes x = .ok b ∧
      (∀ a, σ'.bytes a = if h : r.ptr ≤ a ∧ a < r.ptr + w.size then b[a - r.ptr] else σ.bytes a) ∧
      σ'.WellFormed ∧ σ'.active = σ.active ∧ σ.nextTag ≤ σ'.nextTag) ∧
    (valid σ .write r → r.len < w.size → Borrow.StoreTo.store_to x r σ = .error .panic) ∧
    (¬ valid σ .write r → Borrow.StoreTo.store_to x r σ = .error .ub) := by
  refine ⟨fun hv hl => ?_, fun hv hl => Borrow.store_to_short x hσ r hv hl, fun hv => ?_⟩
  · obtain ⟨σ', e, l⟩ := Borrow.store_to_left x hσ r (fun a => (Borrow.access σ.active .write r.tag (σ.stacks a)).getD []) (fun a ha => by
      obtain ⟨y, hy⟩ := Option.isSome_iff_exists.mp (hv a ha)
      rw [hy]; rfl) hl
    refine ⟨σ', _, e, into_bytes_eq x, fun a => ?_, l.wellFormed hσ fun a ha i hi => ?_, l.frame.active, l.frame.tags⟩
    · rw [l.bytes, ← Borrow.bytes_write]
    · obtain ⟨y, hy⟩ := Option.isSome_iff_exists.mp (hv a ha)
      rw [hy] at hi
      exact Borrow.access_mem hy hi
  · have : ∃ a, (r.ptr ≤ a ∧ a < r.ptr + r.len) ∧ ¬ σ.allows .write r.tag a = true := by
      apply Classical.byContradiction
      intro h
      exact hv fun a ha => Classical.byContradiction fun h' => h ⟨a, ha, h'⟩
    obtain ⟨a, ha, h⟩ := this
    refine Borrow.store_to_ub x hσ r ha ?_
    cases h' : Borrow.access σ.active .write r.tag (σ.stacks a) with
    | none => rfl
    | some y => exact absurd (by unfold State.allows; rw [h']; rfl) h

/-- C62: `store_to` leaves the pointers of the caller as any plain write to the whole of the slice would: each pointer that existed before the call may afterwards be used, for
reading or writing, at exactly the addresses at which it could be after that write. (So nothing of what `store_to` did with its
pointers is visible.) -/
theorem C62_caller_pointers (t : Target) (w : Width) (x : t.Vec w) (σ : State) (hσ : σ.WellFormed) (r : Ref) (hv : valid σ .write r)
    (hl : w.size ≤ r.len) (v : Bytes r.len) :
    ∃ σ' σw, Borrow.StoreTo.store_to x r σ = .ok ((), σ') ∧ Borrow.write r.tag r.ptr v σ = .ok ((), σw) ∧
      ∀ (u : Tag) (k : Access) (a : Nat), u < σ.nextTag → σ'.allows k u a = σw.allows k u a := by
  have hs : ∀ a, r.ptr ≤ a ∧ a < r.ptr + r.len → Borrow.access σ.active .write r.tag (σ.stacks a) =
      some ((Borrow.access σ.active .write r.tag (σ.stacks a)).getD []) := fun a ha => by
    obtain ⟨y, hy⟩ := Option.isSome_iff_exists.mp (hv a ha)
    rw [hy]; rfl
  obtain ⟨σ', e, l⟩ := Borrow.store_to_left x hσ r _ hs hl
  refine ⟨σ', _, e, Borrow.write_ok _ hs, fun u k a hu => ?_⟩
  unfold State.allows
  rw [l.frame.active]
  by_cases ha : r.ptr ≤ a ∧ a < r.ptr + r.len
  · obtain ⟨j, e, hj⟩ := l.inside a ha
    rw [e, Borrow.access_append fun i hi => ⟨Nat.ne_of_gt (Nat.lt_of_lt_of_le hu (hj i hi).1), l.frame.active ▸ Borrow.guarded_dead (hj i hi).2.2⟩]
    simp only [if_pos ha]
  · rw [l.frame.outside a ha]
    simp only [if_neg ha]

/-- C62: in particular the slice can be used again, and so can every other pointer, at the addresses outside it. So any number of `store_to`
into one slice, or into disjoint ones, in any order, is well-defined. -/
theorem C62_store_to_again (t : Target) (w : Width) (x : t.Vec w) (σ σ' : State) (hσ : σ.WellFormed) (r : Ref) (hv : valid σ .write r)
    (ht : r.tag < σ.nextTag) (h : Borrow.StoreTo.store_to x r σ = .ok ((), σ')) :
    valid σ' .write r ∧
    ∀ (s : Ref) (k : Access), s.tag < σ.nextTag → (s.ptr + s.len ≤ r.ptr ∨ r.ptr + r.len ≤ s.ptr) → (valid σ' k s ↔ valid σ k s) := by
  have hl : w.size ≤ r.len := by
    rcases Nat.lt_or_ge r.len w.size with hl | hl
    · rw [(C62_store_to t w x σ hσ r).2.1 hv hl] at h; cases h
    · exact hl
  obtain ⟨σ1, σw, e, ew, hk⟩ := C62_caller_pointers t w x σ hσ r hv hl (Vector.replicate _ 0)
  obtain rfl : σ1 = σ' := (Prod.mk.inj (Except.ok.inj (e.symm.trans h))).2
  rw [Borrow.write_ok (fun a => (Borrow.access σ.active .write r.tag (σ.stacks a)).getD []) fun a ha => by
    obtain ⟨y, hy⟩ := Option.isSome_iff_exists.mp (hv a ha)
    rw [hy]; rfl] at ew
  obtain rfl := (Prod.mk.inj (Except.ok.inj ew)).2
  refine ⟨fun a ha => ?_, fun s k hs hd => ?_⟩
  · rw [hk _ _ _ ht]
    unfold State.allows
    simp only [if_pos ha]
    obtain ⟨y, hy⟩ := Option.isSome_iff_exists.mp (hv a ha)
    rw [hy, Option.getD_some, Borrow.access_again hy]; rfl
  · have : ∀ a, s.ptr ≤ a ∧ a < s.ptr + s.len → σ1.allows k s.tag a = σ.allows k s.tag a := fun a ha => by
      rw [hk _ _ _ hs]
      unfold State.allows
      have : ¬ (r.ptr ≤ a ∧ a < r.ptr + r.len) := by omega
      simp only [if_neg this]
    exact ⟨fun h a ha => (this a ha) ▸ h a ha, fun h a ha => (this a ha).symm ▸ h a ha⟩

/-- C62: `<[u8; N]>::from(x)`, wherever the compiler places the array it returns: no aliasing rule is broken, the bytes are those of C18, and no
memory and no pointer is left behind. -/
theorem C62_into_bytes (t : Target) (w : Width) (x : t.Vec w) (σ : State) (hσ : σ.WellFormed) (p : Nat)
    (hf : ∀ a, p ≤ a ∧ a < p + w.size → σ.stacks a = []) :
    ∃ (σ' : State) (b : Bytes w.size), Borrow.into_bytes p x σ = .ok (b, σ') ∧ into_bytes x = .ok b ∧ σ'.stacks = σ.stacks ∧ σ'.active = σ.active ∧
      ∀ a, ¬ (p ≤ a ∧ a < p + w.size) → σ'.bytes a = σ.bytes a := by
  obtain ⟨σ', e, f⟩ := Borrow.into_bytes_ok x hσ.calls hf
  exact ⟨σ', _, e, into_bytes_eq x, f.stacks, f.active, f.bytes⟩

/-- C62: `try_from(&[u8])`, given a valid slice, breaks no aliasing rule; its result is that of C20 on the bytes `v` of the slice, it changes no byte, and it
leaves the pointers of the caller as plainly reading the slice would. Given an invalid slice it is undefined behaviour. -/
theorem C62_try_from (t : Target) (w : Width) (σ : State) (hσ : σ.WellFormed) (r : Ref) :
    (valid σ .read r → ∃ (σ' σr : State) (v : Bytes r.len) (y : Except Nat (t.Vec w)),
      Borrow.try_from r σ = .ok (y, σ') ∧ Borrow.read r.tag r.ptr r.len σ = .ok (v, σr) ∧
      (∀ i, (hi : i < r.len) → v[i] = σ.bytes (r.ptr + i)) ∧ try_from v.toList = .ok y ∧ σ'.bytes = σ.bytes ∧ σ'.WellFormed ∧ σ'.active = σ.active ∧
      σ.nextTag ≤ σ'.nextTag ∧ ∀ (u : Tag) (k : Access) (a : Nat), u < σ.nextTag → σ'.allows k u a = σr.allows k u a) ∧
    (¬ valid σ .read r → (Borrow.try_from r : Borrow.B (Except Nat (t.Vec w))) σ = .error .ub) := by
  refine ⟨fun hv => ?_, fun hv => ?_⟩
  · have hs : ∀ a, r.ptr ≤ a ∧ a < r.ptr + r.len → Borrow.access σ.active .read r.tag (σ.stacks a) =
        some ((Borrow.access σ.active .read r.tag (σ.stacks a)).getD []) := fun a ha => by
      obtain ⟨y, hy⟩ := Option.isSome_iff_exists.mp (hv a ha)
      rw [hy]; rfl
    obtain ⟨y, hy⟩ : ∃ y : Except Nat (t.Vec w), try_from (Borrow.peek σ.bytes r.ptr r.len).toList = .ok y := by
      rcases Nat.lt_or_ge r.len w.size with hl | hl
      · exact ⟨_, C20_try_from_short t w _ (by rw [Vector.length_toList]; exact hl)⟩
      · obtain ⟨x, _, h, _⟩ := C20_try_from_long t w (Borrow.peek σ.bytes r.ptr r.len).toList (by rw [Vector.length_toList]; exact hl)
        exact ⟨_, h⟩
    obtain ⟨σ', e, l⟩ := Borrow.try_from_left _ hy fun a ha => (Borrow.access_congr fun i hi => Borrow.guarded_next hσ hi).trans (hs a ha)
    refine ⟨σ', _, _, y, e, Borrow.read_ok _ hs, fun i hi => by simp [Borrow.peek], hy, l.bytes,
      l.wellFormed hσ fun a ha i hi => Borrow.access_read_mem (hs a ha) hi, l.frame.active, l.frame.tags, fun u k a hu => ?_⟩
    rw [l.allows hσ u k a hu]; rfl
  · have : ∃ a, (r.ptr ≤ a ∧ a < r.ptr + r.len) ∧ ¬ σ.allows .read r.tag a = true := by
      apply Classical.byContradiction
      intro h
      exact hv fun a ha => Classical.byContradiction fun h' => h ⟨a, ha, h'⟩
    obtain ⟨a, ha, h⟩ := this
    refine Borrow.try_from_ub hσ ha ?_
    cases h' : Borrow.access σ.active .read r.tag (σ.stacks a) with
    | none => rfl
    | some y => exact absurd (by unfold State.allows; rw [h']; rfl) h

/-- A call of a client on a slice of its memory: `x.store_to(r)`, or `try_from(r)`, for a block type of any width. -/
inductive SliceCall (t : Target) where
  | store (w : Width) (x : t.Vec w) (r : Ref)
  | load (w : Width) (r : Ref)
namespace SliceCall
variable {t : Target}
def ref : SliceCall t → Ref
  | .store _ _ r => r
  | .load _ r => r
/-- What the call needs of its slice. -/
def needs : SliceCall t → Access
  | .store .. => .write
  | .load .. => .read
def long : SliceCall t → Prop
  | .store w _ r => w.size ≤ r.len
  | .load .. => True
def run : SliceCall t → Borrow.B Unit
  | .store _ x r => Borrow.StoreTo.store_to x r
  | .load w r => do let _ ← (Borrow.try_from r : Borrow.B (Except Nat (t.Vec w)))
/-- The bytes of memory after the call. -/
def after (m : Nat → U8) : SliceCall t → Nat → U8
  | .store w x r => fun a => match into_bytes x with
    | .ok b => if h : r.ptr ≤ a ∧ a < r.ptr + w.size then b[a - r.ptr] else m a
    | .error _ => m a
  | .load .. => m
end SliceCall
/-- The two slices are the same, or have no byte in common. -/
def Apart (r s : Ref) : Prop := r = s ∨ r.ptr + r.len ≤ s.ptr ∨ s.ptr + s.len ≤ r.ptr

theorem slice_call_ok {t : Target} (o : SliceCall t) {σ : State} (hσ : σ.WellFormed) (hv : valid σ o.needs o.ref) (hl : o.long)
    (ht : o.ref.tag < σ.nextTag) :
    ∃ σ', o.run σ = .ok ((), σ') ∧ σ'.WellFormed ∧ σ'.active = σ.active ∧ σ.nextTag ≤ σ'.nextTag ∧ σ'.bytes = o.after σ.bytes ∧
      ∀ (s : Ref) (k : Access), s.tag < σ.nextTag → Apart o.ref s → valid σ k s → valid σ' k s := by
  cases o with
  | store w x r =>
    obtain ⟨σ', b, e, eb, hb, hw, ha, hn⟩ := (C62_store_to t w x σ hσ r).1 hv hl
    obtain ⟨h1, h2⟩ := C62_store_to_again t w x σ σ' hσ r hv ht e
    refine ⟨σ', e, hw, ha, hn, ?_, fun s k hs hd hvs => ?_⟩
    · funext a
      unfold SliceCall.after
      rw [hb a]; simp only [eb]
    · rcases hd with rfl | hd
      · cases k with
        | write => exact h1
        | read => exact fun a ha => Borrow.access_read_of_write (h1 a ha)
      · exact (h2 s k hs hd.symm).mpr hvs
  | load w r =>
    have hv : valid σ .read r := hv
    obtain ⟨σ', σr, v, y, e, er, _, _, hb, hw, ha, hn, hk⟩ := (C62_try_from t w σ hσ r).1 hv
    have hs : ∀ a, r.ptr ≤ a ∧ a < r.ptr + r.len → Borrow.access σ.active .read r.tag (σ.stacks a) =
        some ((Borrow.access σ.active .read r.tag (σ.stacks a)).getD []) := fun a ha => by
      obtain ⟨y, hy⟩ := Option.isSome_iff_exists.mp (hv a ha)
      rw [hy]; rfl
    rw [Borrow.read_ok _ hs] at er
    obtain rfl := (Prod.mk.inj (Except.ok.inj er)).2
    refine ⟨σ', ?_, hw, ha, hn, hb, fun s k hs' hd hvs a has => ?_⟩
    · show (do let _ ← (Borrow.try_from r : Borrow.B (Except Nat (t.Vec w))) : Borrow.B Unit) σ = _
      rw [Borrow.bind_run e]; rfl
    · rw [hk s.tag k a hs']
      unfold State.allows
      by_cases har : r.ptr ≤ a ∧ a < r.ptr + r.len
      · rcases hd with rfl | hd
        · simp only [if_pos har]
          cases k with
          | write => exact Borrow.access_write_read (hvs a has) (hs a har)
          | read => exact Borrow.access_read_read (hs a har)
        · exfalso
          have hd : r.ptr + r.len ≤ s.ptr ∨ s.ptr + s.len ≤ r.ptr := hd
          omega
      · simp only [if_neg har]
        exact hvs a has

/-- C62: any sequence of `store_to` and `try_from` on the caller's slices, each used as often as wanted, in any order and mixed, breaks no aliasing rule:
it is enough that each slice is valid at the start and that any two of them are the same or have no byte in common. What it leaves in memory
is what the stores put there, one after the other; and every slice of the caller, used or not, that is apart from those used stays valid. -/
theorem C62_history (t : Target) (calls : List (SliceCall t)) (σ : State) (hσ : σ.WellFormed)
    (hv : ∀ o ∈ calls, valid σ o.needs o.ref ∧ o.ref.tag < σ.nextTag ∧ o.long) (hd : ∀ o ∈ calls, ∀ o' ∈ calls, Apart o.ref o'.ref) :
    ∃ σ', calls.forM SliceCall.run σ = .ok ((), σ') ∧ σ'.WellFormed ∧ σ'.bytes = calls.foldl SliceCall.after σ.bytes ∧ σ'.active = σ.active ∧
      ∀ (s : Ref) (k : Access), s.tag < σ.nextTag → (∀ o ∈ calls, Apart o.ref s) → valid σ k s → valid σ' k s := by
  induction calls generalizing σ with
  | nil => exact ⟨σ, rfl, hσ, rfl, rfl, fun s k _ _ h => h⟩
  | cons o rest ih =>
    obtain ⟨h1, h2, h3⟩ := hv o List.mem_cons_self
    obtain ⟨σ1, e1, w1, a1, n1, b1, k1⟩ := slice_call_ok o hσ h1 h3 h2
    obtain ⟨σ2, e2, w2, b2, a2, k2⟩ := ih σ1 w1 (fun o' ho' => by
        obtain ⟨g1, g2, g3⟩ := hv o' (List.mem_cons_of_mem _ ho')
        exact ⟨k1 _ _ g2 (hd o List.mem_cons_self o' (List.mem_cons_of_mem _ ho')) g1, Nat.lt_of_lt_of_le g2 n1, g3⟩)
      fun o' ho' o'' ho'' => hd o' (List.mem_cons_of_mem _ ho') o'' (List.mem_cons_of_mem _ ho'')
    refine ⟨σ2, ?_, w2, ?_, a2.trans a1, fun s k hs hap hvs => ?_⟩
    · show (o.run >>= fun _ => rest.forM SliceCall.run) σ = _
      rw [Borrow.bind_run e1]; exact e2
    · rw [b2, b1]; rfl
    · exact k2 s k (Nat.lt_of_lt_of_le hs n1) (fun o' ho' => hap o' (List.mem_cons_of_mem _ ho'))
        (k1 s k hs (hap o List.mem_cons_self) hvs)

/-- C62: `from(&[u8; N])`: as `try_from`, for a reference to `N` bytes. -/
theorem C62_from_ref (t : Target) (w : Width) (σ : State) (hσ : σ.WellFormed) (r : Ref) (hr : r.len = w.size) :
    (valid σ .read r → ∃ (σ' σr : State) (v : Bytes w.size) (x : t.Vec w),
      Borrow.from_ref r σ = .ok (x, σ') ∧ Borrow.read r.tag r.ptr w.size σ = .ok (v, σr) ∧
      (∀ i, (hi : i < w.size) → v[i] = σ.bytes (r.ptr + i)) ∧ from_bytes v = .ok x ∧ into_bytes x = .ok v ∧ σ'.bytes = σ.bytes ∧ σ'.WellFormed ∧
      σ'.active = σ.active ∧ σ.nextTag ≤ σ'.nextTag ∧ ∀ (u : Tag) (k : Access) (a : Nat), u < σ.nextTag → σ'.allows k u a = σr.allows k u a) ∧
    (¬ valid σ .read r → (Borrow.from_ref r : Borrow.B (t.Vec w)) σ = .error .ub) := by
  refine ⟨fun hv => ?_, fun hv => ?_⟩
  · have hs : ∀ a, r.ptr ≤ a ∧ a < r.ptr + r.len → Borrow.access σ.active .read r.tag (σ.stacks a) =
        some ((Borrow.access σ.active .read r.tag (σ.stacks a)).getD []) := fun a ha => by
      obtain ⟨y, hy⟩ := Option.isSome_iff_exists.mp (hv a ha)
      rw [hy]; rfl
    have hy := LawfulVec.from_bytes_eq (T := t.Vec w) (Borrow.peek σ.bytes r.ptr w.size)
    obtain ⟨σ', e, l⟩ := Borrow.from_ref_left _ hr hy fun a ha => (Borrow.access_congr fun i hi => Borrow.guarded_next hσ hi).trans (hs a ha)
    refine ⟨σ', _, _, _, e, Borrow.read_ok _ (hr ▸ hs), fun i hi => by simp [Borrow.peek], hy, ?_, l.bytes,
      l.wellFormed hσ fun a ha i hi => Borrow.access_read_mem (hs a ha) hi, l.frame.active, l.frame.tags, fun u k a hu => ?_⟩
    · rw [into_bytes_eq, LawfulVec.view_ofB]
    · rw [l.allows hσ u k a hu]
      unfold State.allows
      by_cases ha : Borrow.In r a
      · have ha' : r.ptr ≤ a ∧ a < r.ptr + w.size := hr ▸ ha
        simp only [if_pos ha, if_pos ha']
      · have ha' : ¬ (r.ptr ≤ a ∧ a < r.ptr + w.size) := hr ▸ ha
        simp only [if_neg ha, if_neg ha']
  · have : ∃ a, (r.ptr ≤ a ∧ a < r.ptr + r.len) ∧ ¬ σ.allows .read r.tag a = true := by
      apply Classical.byContradiction
      intro h
      exact hv fun a ha => Classical.byContradiction fun h' => h ⟨a, ha, h'⟩
    obtain ⟨a, ha, h⟩ := this
    refine Borrow.from_ref_ub hσ ha ?_
    cases h' : Borrow.access σ.active .read r.tag (σ.stacks a) with
    | none => rfl
    | some y => exact absurd (by unfold State.allows; rw [h']; rfl) h

/-- C62: `*self &= rhs`, `|=` and `^=` on a variable of the caller, whatever bytes `enc x` the compiler represents a value `x` by: given a valid `&mut` to a variable that
holds `x`, no aliasing rule is broken, the variable then holds `op x rhs`, nothing else is changed, and the pointers of the caller are as after any plain
write to the variable. Given an invalid reference it is undefined behaviour. -/
theorem C62_assign {T : Type} {n : Nat} (enc : T → Bytes n) (dec : Bytes n → T) (hd : ∀ x, dec (enc x) = x) (op : T → T → T) (σ : State) (hσ : σ.WellFormed)
    (r : Ref) (hr : r.len = n) (x rhs : T) (hx : ∀ i, (hi : i < n) → σ.bytes (r.ptr + i) = (enc x)[i]) :
    (valid σ .write r → ∃ σ' σw, Borrow.op_assign enc dec op r rhs σ = .ok ((), σ') ∧
      (∀ a, σ'.bytes a = if h : r.ptr ≤ a ∧ a < r.ptr + n then (enc (op x rhs))[a - r.ptr] else σ.bytes a) ∧
      σ'.WellFormed ∧ σ'.active = σ.active ∧ σ.nextTag ≤ σ'.nextTag ∧ Borrow.write r.tag r.ptr (enc (op x rhs)) σ = .ok ((), σw) ∧
      ∀ (u : Tag) (k : Access) (a : Nat), u < σ.nextTag → σ'.allows k u a = σw.allows k u a) ∧
    (¬ valid σ .write r → Borrow.op_assign enc dec op r rhs σ = .error .ub) := by
  have hp : dec (Borrow.peek σ.bytes r.ptr n) = x := by
    rw [← hd x]
    refine congrArg dec (Vector.ext fun i hi => ?_)
    simp only [Borrow.peek, Vector.getElem_ofFn]
    exact hx i hi
  refine ⟨fun hv => ?_, fun hv => ?_⟩
  · have hs : ∀ a, r.ptr ≤ a ∧ a < r.ptr + r.len → Borrow.access σ.active .write r.tag (σ.stacks a) =
        some ((Borrow.access σ.active .write r.tag (σ.stacks a)).getD []) := fun a ha => by
      obtain ⟨y, hy⟩ := Option.isSome_iff_exists.mp (hv a ha)
      rw [hy]; rfl
    obtain ⟨σ', e, l⟩ := Borrow.op_assign_left (enc := enc) (dec := dec) op hσ hr rhs _ hs
    rw [hp] at l
    refine ⟨σ', _, e, fun a => ?_, l.wellFormed hσ fun a ha i hi => Borrow.access_mem (hs a ha) hi, l.frame.active, l.frame.tags, Borrow.write_ok _ (hr ▸ hs), fun u k a hu => ?_⟩
    · rw [l.bytes, ← Borrow.bytes_write]
    · unfold State.allows
      rw [l.frame.active]
      by_cases ha : r.ptr ≤ a ∧ a < r.ptr + r.len
      · obtain ⟨j, e, hj⟩ := l.inside a ha
        rw [e, Borrow.access_append fun i hi => ⟨Nat.ne_of_gt (Nat.lt_of_lt_of_le hu (hj i hi).1), l.frame.active ▸ Borrow.guarded_dead (hj i hi).2.2⟩]
        simp only [if_pos (hr ▸ ha)]
      · rw [l.frame.outside a ha]
        simp only [if_neg (hr ▸ ha)]
  · have : ∃ a, (r.ptr ≤ a ∧ a < r.ptr + r.len) ∧ ¬ σ.allows .write r.tag a = true := by
      apply Classical.byContradiction
      intro h
      exact hv fun a ha => Classical.byContradiction fun h' => h ⟨a, ha, h'⟩
    obtain ⟨a, ha, h⟩ := this
    refine Borrow.op_assign_ub op hσ rhs ha ?_
    cases h' : Borrow.access σ.active .write r.tag (σ.stacks a) with
    | none => rfl
    | some y => exact absurd (by unfold State.allows; rw [h']; rfl) h

/-- C62: the loads from a local array in `new` and `From<[u8; N]>`: of all of it (x86, Arm, AES-NI wide types), or of its two halves (the default wide
types). No aliasing rule is broken, the bytes are those of the array, and no memory and no pointer is left behind. Every length. -/
theorem C62_new (σ : State) (hσ : σ.WellFormed) (p n : Nat) (v : Bytes n) (h : Bytes (n + n)) (hf : ∀ a, p ≤ a ∧ a < p + (n + n) → σ.stacks a = []) :
    (∃ σ', Borrow.load_local p v σ = .ok (v, σ') ∧ σ'.stacks = σ.stacks ∧ σ'.active = σ.active) ∧
    (∃ σ' a b, Borrow.load_halves n p h σ = .ok ((a, b), σ') ∧ h.toList = a.toList ++ b.toList ∧ σ'.stacks = σ.stacks ∧ σ'.active = σ.active) := by
  obtain ⟨σ1, e1, f1⟩ := Borrow.load_local_ok (p := p) v hσ.calls fun a ha => hf a ⟨ha.1, by omega⟩
  obtain ⟨σ2, e2, f2⟩ := Borrow.load_halves_ok (p := p) h hσ.calls hf
  refine ⟨⟨σ1, e1, f1.stacks, f1.active⟩, ⟨σ2, _, _, e2, ?_, f2.stacks, f2.active⟩⟩
  apply List.ext_getElem
  · simp
  · intro i h1 h2
    rw [List.getElem_append]
    simp only [Vector.getElem_toList, Vector.getElem_ofFn, Vector.length_toList]
    split
    · rfl
    · congr 1; omega

/-- The program `f`, started in the state `σ` with the memory of its local array (`size` bytes at `base`) free, returns what the API-level function `x` returns,
and no memory and no pointer is left behind. -/
def Expands {α : Type} (σ : State) (base size : Nat) (f : Borrow.B α) (x : M α) : Prop :=
  (∀ a, base ≤ a ∧ a < base + size → σ.stacks a = []) →
  ∃ σ' k, f σ = .ok (k, σ') ∧ x = .ok k ∧ σ'.stacks = σ.stacks ∧ σ'.active = σ.active ∧ ∀ a, ¬ (base ≤ a ∧ a < base + size) → σ'.bytes a = σ.bytes a

/-- C62, key expansion of the bit-sliced code: the array of round keys is written through a `&mut [u32]` made of it, which is never used again after the
array is; so no aliasing rule is broken, wherever the array is placed. Every key, both endiannesses. -/
theorem C62_bitslice (e : Endian) (σ : State) (hσ : σ.WellFormed) (base : Nat) (hb : base % 4 = 0) (k16 : Bytes 16) (k24 : Bytes 24) (k32 : Bytes 32) :
    Expands σ base (16 * 11) (Borrow.bitslice_128 e base k16) (keygen_128 (B := (Target.bitslice e).Block) k16) ∧
    Expands σ base (16 * 13) (Borrow.bitslice_192 e base k24) (keygen_192 (B := (Target.bitslice e).Block) k24) ∧
    Expands σ base (16 * 15) (Borrow.bitslice_256 e base k32) (keygen_256 (B := (Target.bitslice e).Block) k32) := by
  refine ⟨fun hf => ?_, fun hf => ?_, fun hf => ?_⟩
  · obtain ⟨v, σ', e1, e2, f⟩ := Borrow.expand_128_ok hb hσ.calls hf (Columns.columns_128_ok Bitslice.first e k16)
    refine ⟨σ', _, (Borrow.bind_run e1).trans rfl, ?_, f.stacks, f.active, f.bytes⟩
    rw [e2]
    show Bitslice.keygen_128 e k16 = _
    unfold Bitslice.keygen_128
    rw [Columns.columns_128_ok]; rfl
  · obtain ⟨v, σ', e1, e2, f⟩ := Borrow.expand_192_ok hb hσ.calls hf (Columns.columns_192_ok Bitslice.first e k24)
    refine ⟨σ', _, (Borrow.bind_run e1).trans rfl, ?_, f.stacks, f.active, f.bytes⟩
    rw [e2]
    show Bitslice.keygen_192 e k24 = _
    unfold Bitslice.keygen_192
    rw [Columns.columns_192_ok]; rfl
  · obtain ⟨v, σ', e1, e2, f⟩ := Borrow.expand_256_ok hb hσ.calls hf (Columns.columns_256_ok Bitslice.first Bitslice.fifth Bitslice.first e k32)
    refine ⟨σ', _, (Borrow.bind_run e1).trans rfl, ?_, f.stacks, f.active, f.bytes⟩
    rw [e2]
    show Bitslice.keygen_256 e k32 = _
    unfold Bitslice.keygen_256
    rw [Columns.columns_256_ok]; rfl
/-- C62, Arm. -/
theorem C62_arm (is32 : Bool) (σ : State) (hσ : σ.WellFormed) (base : Nat) (hb : base % 4 = 0) (k16 : Bytes 16) (k24 : Bytes 24) (k32 : Bytes 32) :
    Expands σ base (16 * 11) (Borrow.arm_128 is32 base k16) (keygen_128 (B := (Target.arm is32).Block) k16) ∧
    Expands σ base (16 * 13) (Borrow.arm_192 is32 base k24) (keygen_192 (B := (Target.arm is32).Block) k24) ∧
    Expands σ base (16 * 15) (Borrow.arm_256 is32 base k32) (keygen_256 (B := (Target.arm is32).Block) k32) := by
  refine ⟨fun hf => ?_, fun hf => ?_, fun hf => ?_⟩
  · obtain ⟨v, σ', e1, e2, f⟩ := Borrow.expand_128_ok hb hσ.calls hf (Columns.columns_128_ok Arm.first .little k16)
    refine ⟨σ', _, (Borrow.bind_run e1).trans rfl, ?_, f.stacks, f.active, f.bytes⟩
    rw [e2]
    show Arm.keygen_128 is32 k16 = _
    unfold Arm.keygen_128
    rw [Columns.columns_128_ok]; rfl
  · obtain ⟨v, σ', e1, e2, f⟩ := Borrow.expand_192_ok hb hσ.calls hf (Columns.columns_192_ok Arm.first .little k24)
    refine ⟨σ', _, (Borrow.bind_run e1).trans rfl, ?_, f.stacks, f.active, f.bytes⟩
    rw [e2]
    show Arm.keygen_192 is32 k24 = _
    unfold Arm.keygen_192
    rw [Columns.columns_192_ok]; rfl
  · obtain ⟨v, σ', e1, e2, f⟩ := Borrow.expand_256_ok hb hσ.calls hf (Columns.columns_256_ok Arm.first Arm.fifth Arm.first .little k32)
    refine ⟨σ', _, (Borrow.bind_run e1).trans rfl, ?_, f.stacks, f.active, f.bytes⟩
    rw [e2]
    show Arm.keygen_256 is32 k32 = _
    unfold Arm.keygen_256
    rw [Columns.columns_256_ok]; rfl

theorem expands_lift {α β : Type} {σ : State} {base size : Nat} {f : Borrow.B α} {x : M β} {g : α → M β} {v : α} {σ' : State}
    (e : f σ = .ok (v, σ')) (hf : Borrow.Freed base size σ σ') (hx : x = g v) {k : β} (hk : x = .ok k) :
    ∃ σ' k, (do liftM (g (← f)) : Borrow.B β) σ = .ok (k, σ') ∧ x = .ok k ∧ σ'.stacks = σ.stacks ∧ σ'.active = σ.active ∧
      ∀ a, ¬ (base ≤ a ∧ a < base + size) → σ'.bytes a = σ.bytes a := by
  refine ⟨σ', k, ?_, hk, hf.stacks, hf.active, hf.bytes⟩
  rw [Borrow.bind_run e, Borrow.lift_apply, ← hx, hk]; rfl
theorem riscv32_128_ok (k : Bytes 16) {c} (hc : Columns.columns_128 Riscv32.first .little k = .ok c) :
    Riscv32.keygen_128 k = (Columns.block_bytes (N := 11) .little c).mapM fun b => Riscv32.new b := by
  unfold Riscv32.keygen_128; rw [hc, Borrow.bind_ok']; rfl
theorem riscv32_128_expands (σ : State) (hσ : σ.WellFormed) (base : Nat) (hb : base % 4 = 0) (k : Bytes 16) {x : M (Vector Riscv32.Block 11)}
    (hx : x = Riscv32.keygen_128 k) {y} (hy : x = .ok y) : Expands σ base (16 * 11) (Borrow.riscv32_128 base k) x := by
  intro hf
  obtain ⟨c, hc⟩ : ∃ c, Columns.columns_128 Riscv32.first .little k = .ok c := ⟨_, Columns.columns_128_ok _ _ _⟩
  obtain ⟨v, σ', e1, e2, f⟩ := Borrow.expand_128_ok hb hσ.calls hf hc
  unfold Borrow.riscv32_128
  refine expands_lift (g := fun v => (Borrow.blocks v).mapM fun b => Riscv32.new b) e1 f ?_ hy
  rw [hx, riscv32_128_ok k hc, e2]
theorem riscv32_192_ok (k : Bytes 24) {c} (hc : Columns.columns_192 Riscv32.first .little k = .ok c) :
    Riscv32.keygen_192 k = (Columns.block_bytes (N := 13) .little c).mapM fun b => Riscv32.new b := by
  unfold Riscv32.keygen_192; rw [hc, Borrow.bind_ok']; rfl
theorem riscv32_192_expands (σ : State) (hσ : σ.WellFormed) (base : Nat) (hb : base % 4 = 0) (k : Bytes 24) {x : M (Vector Riscv32.Block 13)}
    (hx : x = Riscv32.keygen_192 k) {y} (hy : x = .ok y) : Expands σ base (16 * 13) (Borrow.riscv32_192 base k) x := by
  intro hf
  obtain ⟨c, hc⟩ : ∃ c, Columns.columns_192 Riscv32.first .little k = .ok c := ⟨_, Columns.columns_192_ok _ _ _⟩
  obtain ⟨v, σ', e1, e2, f⟩ := Borrow.expand_192_ok hb hσ.calls hf hc
  unfold Borrow.riscv32_192
  refine expands_lift (g := fun v => (Borrow.blocks v).mapM fun b => Riscv32.new b) e1 f ?_ hy
  rw [hx, riscv32_192_ok k hc, e2]
theorem riscv32_256_ok (k : Bytes 32) {c} (hc : Columns.columns_256 Riscv32.first_256 Riscv32.fifth Riscv32.first .little k = .ok c) :
    Riscv32.keygen_256 k = (Columns.block_bytes (N := 15) .little c).mapM fun b => Riscv32.new b := by
  unfold Riscv32.keygen_256; rw [hc, Borrow.bind_ok']; rfl
theorem riscv32_256_expands (σ : State) (hσ : σ.WellFormed) (base : Nat) (hb : base % 4 = 0) (k : Bytes 32) {x : M (Vector Riscv32.Block 15)}
    (hx : x = Riscv32.keygen_256 k) {y} (hy : x = .ok y) : Expands σ base (16 * 15) (Borrow.riscv32_256 base k) x := by
  intro hf
  obtain ⟨c, hc⟩ : ∃ c, Columns.columns_256 Riscv32.first_256 Riscv32.fifth Riscv32.first .little k = .ok c := ⟨_, Columns.columns_256_ok _ _ _ _ _⟩
  obtain ⟨v, σ', e1, e2, f⟩ := Borrow.expand_256_ok hb hσ.calls hf hc
  unfold Borrow.riscv32_256
  refine expands_lift (g := fun v => (Borrow.blocks v).mapM fun b => Riscv32.new b) e1 f ?_ hy
  rw [hx, riscv32_256_ok k hc, e2]
/-- C62, riscv32. (The key schedule is wrong there, C41, but breaks no aliasing rule.) -/
theorem C62_riscv32 (σ : State) (hσ : σ.WellFormed) (base : Nat) (hb : base % 4 = 0) (k16 : Bytes 16) (k24 : Bytes 24) (k32 : Bytes 32) :
    Expands σ base (16 * 11) (Borrow.riscv32_128 base k16) (keygen_128 (B := Target.riscv32.Block) k16) ∧
    Expands σ base (16 * 13) (Borrow.riscv32_192 base k24) (keygen_192 (B := Target.riscv32.Block) k24) ∧
    Expands σ base (16 * 15) (Borrow.riscv32_256 base k32) (keygen_256 (B := Target.riscv32.Block) k32) :=
  ⟨riscv32_128_expands σ hσ base hb k16 rfl (Target.keygen_128_all .riscv32 k16),
    riscv32_192_expands σ hσ base hb k24 rfl (Target.keygen_192_all .riscv32 k24),
    riscv32_256_expands σ hσ base hb k32 rfl (Target.keygen_256_all .riscv32 k32)⟩

/-! ### Concrete cases: the hypotheses are met, and the rules forbid something -/

/-- A memory in which 32 bytes at address 96 belong to a variable named by tag 0, borrowed by a `&mut [u8]` of tag 1; no call is running. -/
def borrowed : State where
  bytes _ := 0x5a
  stacks a := if 96 ≤ a ∧ a < 128 then [⟨.unique, 1, none⟩, ⟨.unique, 0, none⟩] else []
  active := []
  nextTag := 2
  nextCall := 0
theorem borrowed_wellFormed : borrowed.WellFormed where
  calls c hc := by cases hc
  tags a i hi := by
    unfold borrowed at hi ⊢
    simp only at hi
    split at hi
    · rcases List.mem_cons.mp hi with rfl | hi
      · decide
      · rcases List.mem_cons.mp hi with rfl | hi
        · decide
        · cases hi
    · cases hi
  protectors a i hi c hc := by
    unfold borrowed at hi
    simp only at hi
    split at hi
    · rcases List.mem_cons.mp hi with rfl | hi
      · cases hc
      · rcases List.mem_cons.mp hi with rfl | hi
        · cases hc
        · cases hi
    · cases hi
theorem borrowed_valid (k : Access) : valid borrowed k ⟨96, 32, 1⟩ := fun a ha => by
  have ha : 96 ≤ a ∧ a < 128 := ha
  unfold State.allows
  show (Borrow.access [] k 1 (if 96 ≤ a ∧ a < 128 then _ else _)).isSome = true
  rw [if_pos ha]
  cases k <;> rfl
-- a block stored at the start of the slice; into 4 bytes of it: a panic; through a pointer nobody made: undefined
example : ∃ σ' b, Borrow.StoreTo.store_to (T := Target.x86.Vec .x1) (⟨Vector.replicate 16 0⟩ : X86.Block) ⟨96, 32, 1⟩ borrowed = .ok ((), σ') ∧ into_bytes (T := Target.x86.Vec .x1) (⟨Vector.replicate 16 0⟩ : X86.Block) = .ok b := by
  obtain ⟨σ', b, h, h', _⟩ := (C62_store_to .x86 .x1 (⟨Vector.replicate 16 0⟩ : X86.Block) borrowed borrowed_wellFormed ⟨96, 32, 1⟩).1 (borrowed_valid _) (by decide)
  exact ⟨σ', b, h, h'⟩
example : Borrow.StoreTo.store_to (T := Target.x86.Vec .x1) (⟨Vector.replicate 16 0⟩ : X86.Block) ⟨96, 4, 1⟩ borrowed = .error .panic :=
  (C62_store_to .x86 .x1 (⟨Vector.replicate 16 0⟩ : X86.Block) borrowed borrowed_wellFormed ⟨96, 4, 1⟩).2.1
    (fun a ha => borrowed_valid _ a ⟨ha.1, Nat.lt_of_lt_of_le ha.2 (by decide)⟩) (by decide)
example : Borrow.StoreTo.store_to (T := Target.x86.Vec .x1) (⟨Vector.replicate 16 0⟩ : X86.Block) ⟨96, 32, 7⟩ borrowed = .error .ub :=
  (C62_store_to .x86 .x1 (⟨Vector.replicate 16 0⟩ : X86.Block) borrowed borrowed_wellFormed ⟨96, 32, 7⟩).2.2
    fun h => absurd (h 96 (by decide)) (by decide)
-- a block into the first half of the slice, one into the second, the first again, and both read back
theorem borrowed_part (k : Access) (p : Nat) (h : 96 ≤ p ∧ p ≤ 112) : valid borrowed k ⟨p, 16, 1⟩ := fun a ha => borrowed_valid k a
  ⟨Nat.le_trans h.1 ha.1, by show a < 128; have : a < p + 16 := ha.2; omega⟩
example (x y z : X86.Block) : ∃ σ', ([.store .x1 x ⟨96, 16, 1⟩, .store .x1 y ⟨112, 16, 1⟩, .store .x1 z ⟨96, 16, 1⟩, .load .x1 ⟨96, 16, 1⟩,
    .load .x1 ⟨112, 16, 1⟩] : List (SliceCall .x86)).forM SliceCall.run borrowed = .ok ((), σ') := by
  obtain ⟨σ', e, _⟩ := C62_history .x86 [.store .x1 x ⟨96, 16, 1⟩, .store .x1 y ⟨112, 16, 1⟩, .store .x1 z ⟨96, 16, 1⟩, .load .x1 ⟨96, 16, 1⟩,
    .load .x1 ⟨112, 16, 1⟩] borrowed borrowed_wellFormed
    (by
      simp only [List.mem_cons, List.not_mem_nil, or_false, forall_eq_or_imp, forall_eq]
      exact ⟨⟨borrowed_part _ 96 (by decide), Nat.lt_succ_self 1, Nat.le_refl 16⟩, ⟨borrowed_part _ 112 (by decide), Nat.lt_succ_self 1, Nat.le_refl 16⟩,
        ⟨borrowed_part _ 96 (by decide), Nat.lt_succ_self 1, Nat.le_refl 16⟩, ⟨borrowed_part _ 96 (by decide), Nat.lt_succ_self 1, trivial⟩,
        ⟨borrowed_part _ 112 (by decide), Nat.lt_succ_self 1, trivial⟩⟩)
    (by
      simp only [List.mem_cons, List.not_mem_nil, or_false, forall_eq_or_imp, forall_eq, SliceCall.ref, Apart]
      simp)
  exact ⟨σ', e⟩
-- the memory from address 128 on is free: the key expansions can put their array there
example : ∃ σ' k, Borrow.bitslice_128 .little 128 (Vector.replicate 16 0) borrowed = .ok (k, σ') := by
  obtain ⟨σ', k, h, _⟩ := (C62_bitslice .little borrowed borrowed_wellFormed 128 (by decide) (Vector.replicate 16 0) (Vector.replicate 24 0) (Vector.replicate 32 0)).1
    fun a ha => if_neg (by omega)
  exact ⟨σ', k, h⟩

-- a block taken from the first 16 bytes of the slice, and `^=` on a block kept there
example : ∃ σ' x, (Borrow.from_ref ⟨96, 16, 1⟩ : Borrow.B (Target.table.Vec .x1)) borrowed = .ok (x, σ') := by
  obtain ⟨σ', _, _, x, e, _⟩ := (C62_from_ref .table .x1 borrowed borrowed_wellFormed ⟨96, 16, 1⟩ rfl).1 (borrowed_part _ 96 (by decide))
  exact ⟨σ', x, e⟩
example : ∃ σ', Borrow.op_assign id id (xorB (n := 16)) ⟨96, 16, 1⟩ (Vector.replicate 16 1) borrowed = .ok ((), σ') ∧ σ'.bytes 96 = 0x5b ∧ σ'.bytes 112 = 0x5a := by
  obtain ⟨σ', _, e, b, _⟩ := (C62_assign id id (fun _ => rfl) (xorB (n := 16)) borrowed borrowed_wellFormed ⟨96, 16, 1⟩ rfl (Vector.replicate 16 0x5a)
    (Vector.replicate 16 1) fun i hi => by simp [borrowed]).1 (borrowed_part _ 96 (by decide))
  refine ⟨σ', e, ?_, ?_⟩
  · rw [b, dif_pos (by decide)]; simp [xorB]
  · rw [b, dif_neg (by decide)]; rfl

/-- What a program does: nothing wrong, or the fault. -/
def verdict {α : Type} (f : Borrow.B α) (σ : State) : Option Fault :=
  match f σ with
  | .ok _ => none
  | .error f => some f
-- one zero block at address 0, viewed as four words: using the slice, then the variable, as the nine functions do
example : verdict (Borrow.expanding 1 4 0 fun s => do Borrow.put .little s 0 1; Borrow.put .little s 3 2) borrowed = none := by decide +kernel
-- ... at an odd address: the slice would be misaligned
example : verdict (Borrow.expanding 1 4 1 fun s => do Borrow.put .little s 0 1) borrowed = some .ub := by decide +kernel
-- ... on memory that is in use
example : verdict (Borrow.expanding 1 4 96 fun s => do Borrow.put .little s 0 1) borrowed = some .ub := by decide +kernel
-- ... one word too many: the slice would reach beyond the variable
example : verdict (Borrow.expanding 1 5 0 fun s => do Borrow.put .little s 0 1) borrowed = some .ub := by decide +kernel
-- ... an index out of the slice
example : verdict (Borrow.expanding 1 4 0 fun s => do Borrow.put .little s 4 1) borrowed = some .panic := by decide +kernel
-- writing the variable by its name makes the slice unusable, even for reading; reading the variable makes it unusable for writing
example : verdict (do
    let x ← Borrow.allocate 0 (Vector.replicate 16 (0 : U8))
    let s ← Borrow.columns_of x 0 16 4
    Borrow.write x 0 #v[(1 : U8)]
    Borrow.get .little s 0) borrowed = some .ub := by decide +kernel
example : verdict (do
    let x ← Borrow.allocate 0 (Vector.replicate 16 (0 : U8))
    let s ← Borrow.columns_of x 0 16 4
    let _ ← Borrow.read x 0 16
    Borrow.put .little s 0 1) borrowed = some .ub := by decide +kernel
-- a second slice of the same words makes the first unusable
example : verdict (do
    let x ← Borrow.allocate 0 (Vector.replicate 16 (0 : U8))
    let s ← Borrow.columns_of x 0 16 4
    let s' ← Borrow.columns_of x 0 16 4
    Borrow.put .little s' 0 1
    Borrow.put .little s 0 1) borrowed = some .ub := by decide +kernel
-- a pointer to a variable that went out of scope
example : verdict (do
    let x ← Borrow.allocate 0 (Vector.replicate 16 (0 : U8))
    let s ← Borrow.columns_of x 0 16 4
    Borrow.deallocate x 0 16
    Borrow.get .little s 0) borrowed = some .ub := by decide +kernel
-- writing through a pointer made of a `&[u8]`
example : verdict (do
    let r ← Borrow.retag .sharedRO none 1 96 32
    let q ← Borrow.as_ptr ⟨96, 32, r⟩
    Borrow.write q 96 #v[(1 : U8)]) borrowed = some .ub := by decide +kernel
-- using a reference argument's origin while the call it was passed to runs
example : verdict (Borrow.call fun c => do
    let _ ← Borrow.argument c ⟨96, 32, 1⟩
    Borrow.write 1 96 #v[(1 : U8)]) borrowed = some .ub := by decide +kernel

/-! ### The rules themselves, on one byte: the variable (tag 0), a `&mut` made from it (1), a `&` made from that (2) -/
-- a `*mut` cannot be made from a `&`, nor a `&mut`; it can from a `&mut`, and stays below what does not have to go
example : Borrow.derive [] 2 ⟨.sharedRW, 3, none⟩ [⟨.sharedRO, 2, none⟩, ⟨.unique, 1, none⟩, ⟨.unique, 0, none⟩] = none := by decide
example : Borrow.derive [] 2 ⟨.unique, 3, none⟩ [⟨.sharedRO, 2, none⟩, ⟨.unique, 1, none⟩, ⟨.unique, 0, none⟩] = none := by decide
example : Borrow.derive [] 2 ⟨.sharedRO, 3, none⟩ [⟨.sharedRO, 2, none⟩, ⟨.unique, 1, none⟩, ⟨.unique, 0, none⟩] =
    some [⟨.sharedRO, 3, none⟩, ⟨.sharedRO, 2, none⟩, ⟨.unique, 1, none⟩, ⟨.unique, 0, none⟩] := by decide
example : Borrow.derive [] 1 ⟨.sharedRW, 3, none⟩ [⟨.unique, 1, none⟩, ⟨.unique, 0, none⟩] =
    some [⟨.sharedRW, 3, none⟩, ⟨.unique, 1, none⟩, ⟨.unique, 0, none⟩] := by decide
-- a pointer that has gone cannot be used, nor one that was never made
example : Borrow.access [] .read 1 [⟨.disabled, 1, none⟩, ⟨.unique, 0, none⟩] = none ∧
    Borrow.access [] .write 2 [⟨.sharedRO, 2, none⟩, ⟨.unique, 0, none⟩] = none ∧ Borrow.access [] .read 7 [⟨.unique, 0, none⟩] = none ∧
    Borrow.access [] .read 0 [] = none := by decide
-- a write removes what is above, a read disables the `&mut`
example : Borrow.access [] .write 0 [⟨.sharedRO, 2, none⟩, ⟨.unique, 1, none⟩, ⟨.unique, 0, none⟩] = some [⟨.unique, 0, none⟩] ∧
    Borrow.access [] .read 0 [⟨.sharedRO, 2, none⟩, ⟨.unique, 1, none⟩, ⟨.unique, 0, none⟩] =
      some [⟨.sharedRO, 2, none⟩, ⟨.disabled, 1, none⟩, ⟨.unique, 0, none⟩] := by decide
-- unless it is an argument of a call that runs
example : Borrow.access [4] .read 0 [⟨.unique, 1, some 4⟩, ⟨.unique, 0, none⟩] = none ∧
    Borrow.access [4] .write 0 [⟨.sharedRO, 1, some 4⟩, ⟨.unique, 0, none⟩] = none ∧
    Borrow.access [4] .read 0 [⟨.sharedRO, 1, some 4⟩, ⟨.unique, 0, none⟩] = some [⟨.sharedRO, 1, some 4⟩, ⟨.unique, 0, none⟩] ∧
    Borrow.access [5] .write 0 [⟨.unique, 1, some 4⟩, ⟨.unique, 0, none⟩] = some [⟨.unique, 0, none⟩] := by decide

end Aes
