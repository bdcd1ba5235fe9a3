import Verif.Proofs.GenCore
/-
The memory views of the key expansions of src/aes_bitslice.rs, src/aes_arm.rs and src/aes_riscv32.rs: the generated code
views a zeroed `[AesBlock; N]` as `[u32; 4 * N]`, works on the words and reads the blocks back.
-/
set_option linter.unusedSectionVars false
namespace RustSrc
open Rust
variable [Cfg]

/-- The words of a zeroed array of blocks are zero. -/
theorem castView_zeroed {T : Type} [Layout T 16] (N : Nat)
    (hz : Layout.bytes (zeroed : T) = Vector.replicate 16 0#8) :
    (castView (zeroed : Vector T N) (4 * N) : M (Vector U32 (4 * N))) = .ok (Vector.replicate (4 * N) 0#32) := by
  have hle : 4 * N * 4 ≤ N * 16 := by omega
  unfold castView
  rw [dif_pos hle]
  refine congrArg Except.ok (Vector.ext fun i hi => ?_)
  simp only [Layout.ofBytes, Vector.getElem_ofFn, Vector.getElem_replicate]
  have hb : (Vector.ofFn fun j : Fin 4 => (Layout.bytes (zeroed : Vector T N))[4 * i + j.val]'(by
      have := j.isLt; omega)) = Vector.replicate 4 0#8 := by
    refine Vector.ext fun j hj => ?_
    simp only [Layout.bytes, zeroed, Layout.ofBytes, Vector.getElem_ofFn, Vector.getElem_replicate]
    have h16 : ∀ (k : Nat) (hk : k < 16), (Layout.bytes (zeroed : T))[k] = 0#8 := by
      intro k hk; simp only [hz, Vector.getElem_replicate]
    have e : (Vector.ofFn fun _ : Fin 16 => 0#8) = Vector.replicate 16 0#8 := by
      refine Vector.ext fun k hk => ?_
      simp only [Vector.getElem_ofFn, Vector.getElem_replicate]
    simp only [e]
    exact h16 _ _
  rw [hb]
  show fromNe Cfg.endian 32 _ = _
  rw [fromNe_replicate]
  decide

/-- The blocks whose memory the words are. -/
theorem castBack_columns {T : Type} [Layout T 16] {N : Nat} (x : Vector T N) (columns : Vector U32 (4 * N)) :
    castBack x columns = (Aes.Columns.block_bytes Cfg.endian columns).map Layout.ofBytes := by
  unfold castBack Aes.Columns.block_bytes
  refine Vector.ext fun i hi => ?_
  simp only [Layout.ofBytes, Vector.getElem_ofFn, Vector.getElem_map]
  refine congrArg Layout.ofBytes (Vector.ext fun j hj => ?_)
  have hlt : 16 * i + j < 4 * N * 4 := by omega
  simp only [Vector.getElem_ofFn, dif_pos hlt, Layout.bytes]
  have h1 : (16 * i + j) / 4 = 4 * i + j / 4 := by omega
  have h2 : (16 * i + j) % 4 = j % 4 := by omega
  simp only [h1, h2]

/-- The loop over `key.chunks_exact(4).enumerate()`. -/
theorem load_columns_eq {n : Nat} (key : List U8) (columns : Vector U32 n) :
    ((enumerate (chunksExact 4 key)).foldlM (fun columns (x : Nat × List U8) => do
      upd columns x.1 (fromNe Cfg.endian 32 (← arrayTryFrom 4 x.2))) columns) =
      Aes.Columns.load_columns Cfg.endian key columns := by
  unfold enumerate Aes.Columns.load_columns
  rw [List.foldlM_map]

/-- The beginning of the three key expansions. -/
theorem keygen_start {T β : Type} [Layout T 16] (N : Nat) (hz : Layout.bytes (zeroed : T) = Vector.replicate 16 0#8)
    (key : List U8) (G : Vector U32 (4 * N) → M β) :
    (castView (zeroed : Vector T N) (4 * N) >>= fun columns =>
      (enumerate (chunksExact 4 key)).foldlM (fun columns (x : Nat × List U8) => do
        upd columns x.1 (fromNe Cfg.endian 32 (← arrayTryFrom 4 x.2))) columns >>= G) =
      (Aes.Columns.load_columns Cfg.endian key (Vector.replicate (4 * N) 0#32) >>= G) := by
  rw [castView_zeroed N hz, ← load_columns_eq]
  rfl

/-- The text of `keygen_128` with the expression the three files differ in as parameter. -/
theorem keygen_128_text {T : Type} [Layout T 16] (hz : Layout.bytes (zeroed : T) = Vector.replicate 16 0#8)
    (first : U32 → U32 → U32 → U32) (key : Vector U8 16) :
    (do
      let expanded_keys : Vector T 11 := zeroed
      let columns : Vector U32 44 ← castView expanded_keys 44
      let columns ← (enumerate (chunksExact 4 key.toList)).foldlM (fun columns (i, chunk) => do
          let columns ← upd columns i (fromNe Cfg.endian 32 (← arrayTryFrom 4 chunk))
          pure columns) columns
      let columns ← (rangeStep 0 40 4).foldlM (fun columns i => do
          let columns ← upd columns (← Aes.Profile.uadd Cfg.profile i 4) (first (← idx columns (← Aes.Profile.uadd Cfg.profile i 0)) (← idx columns (← Aes.Profile.uadd Cfg.profile i 3)) (← idx Aes.Columns.RCON (i / 4)))
          let columns ← upd columns (← Aes.Profile.uadd Cfg.profile i 5) ((← idx columns (← Aes.Profile.uadd Cfg.profile i 1)) ^^^ (← idx columns (← Aes.Profile.uadd Cfg.profile i 4)))
          let columns ← upd columns (← Aes.Profile.uadd Cfg.profile i 6) ((← idx columns (← Aes.Profile.uadd Cfg.profile i 2)) ^^^ (← idx columns (← Aes.Profile.uadd Cfg.profile i 5)))
          let columns ← upd columns (← Aes.Profile.uadd Cfg.profile i 7) ((← idx columns (← Aes.Profile.uadd Cfg.profile i 3)) ^^^ (← idx columns (← Aes.Profile.uadd Cfg.profile i 6)))
          pure columns) columns
      let expanded_keys : Vector T 11 := castBack expanded_keys columns
      pure expanded_keys : M (Vector T 11)) =
    Aes.Profile.Columns.columns_128 Cfg.profile first Cfg.endian key >>= fun c =>
      pure (castBack (len := 44) (zeroed : Vector T 11) c) := by
  refine (keygen_start 11 hz key.toList _).trans ?_
  unfold Aes.Profile.Columns.columns_128
  rw [bind_assoc]
  refine congrArg _ (funext fun c => ?_)
  rfl

/-- The text of `keygen_192` with the expression the three files differ in as parameter. -/
theorem keygen_192_text {T : Type} [Layout T 16] (hz : Layout.bytes (zeroed : T) = Vector.replicate 16 0#8)
    (first : U32 → U32 → U32 → U32) (key : Vector U8 24) :
    (do
      let expanded_keys : Vector T 13 := zeroed
      let columns : Vector U32 52 ← castView expanded_keys 52
      let columns ← (enumerate (chunksExact 4 key.toList)).foldlM (fun columns (i, chunk) => do
          let columns ← upd columns i (fromNe Cfg.endian 32 (← arrayTryFrom 4 chunk))
          pure columns) columns
      let columns ← (rangeStep 0 42 6).foldlM (fun columns i => do
          let columns ← upd columns (← Aes.Profile.uadd Cfg.profile i 6) (first (← idx columns (← Aes.Profile.uadd Cfg.profile i 0)) (← idx columns (← Aes.Profile.uadd Cfg.profile i 5)) (← idx Aes.Columns.RCON (i / 6)))
          let columns ← upd columns (← Aes.Profile.uadd Cfg.profile i 7) ((← idx columns (← Aes.Profile.uadd Cfg.profile i 1)) ^^^ (← idx columns (← Aes.Profile.uadd Cfg.profile i 6)))
          let columns ← upd columns (← Aes.Profile.uadd Cfg.profile i 8) ((← idx columns (← Aes.Profile.uadd Cfg.profile i 2)) ^^^ (← idx columns (← Aes.Profile.uadd Cfg.profile i 7)))
          let columns ← upd columns (← Aes.Profile.uadd Cfg.profile i 9) ((← idx columns (← Aes.Profile.uadd Cfg.profile i 3)) ^^^ (← idx columns (← Aes.Profile.uadd Cfg.profile i 8)))
          let columns ← upd columns (← Aes.Profile.uadd Cfg.profile i 10) ((← idx columns (← Aes.Profile.uadd Cfg.profile i 4)) ^^^ (← idx columns (← Aes.Profile.uadd Cfg.profile i 9)))
          let columns ← upd columns (← Aes.Profile.uadd Cfg.profile i 11) ((← idx columns (← Aes.Profile.uadd Cfg.profile i 5)) ^^^ (← idx columns (← Aes.Profile.uadd Cfg.profile i 10)))
          pure columns) columns
      let columns ← upd columns 48 (first (← idx columns 42) (← idx columns 47) Aes.Columns.RCON[7])
      let columns ← upd columns 49 ((← idx columns 43) ^^^ (← idx columns 48))
      let columns ← upd columns 50 ((← idx columns 44) ^^^ (← idx columns 49))
      let columns ← upd columns 51 ((← idx columns 45) ^^^ (← idx columns 50))
      let expanded_keys : Vector T 13 := castBack expanded_keys columns
      pure expanded_keys : M (Vector T 13)) =
    Aes.Profile.Columns.columns_192 Cfg.profile first Cfg.endian key >>= fun c =>
      pure (castBack (len := 52) (zeroed : Vector T 13) c) := by
  refine (keygen_start 13 hz key.toList _).trans ?_
  unfold Aes.Profile.Columns.columns_192
  rw [bind_assoc]
  refine congrArg _ (funext fun c => ?_)
  rw [bind_assoc]
  refine congrArg _ (funext fun c => ?_)
  have r : idx Aes.Columns.RCON 7 = .ok Aes.Columns.RCON[7] := rfl
  rw [r]
  simp only [bind_assoc, Aes.Profile.ok_bind]

/-- The text of `keygen_256` with the expressions the three files differ in as parameters. -/
theorem keygen_256_text {T : Type} [Layout T 16] (hz : Layout.bytes (zeroed : T) = Vector.replicate 16 0#8)
    (first : U32 → U32 → U32 → U32) (fifth : U32 → U32 → U32) (tail : U32 → U32 → U32 → U32) (key : Vector U8 32) :
    (do
      let expanded_keys : Vector T 15 := zeroed
      let columns : Vector U32 60 ← castView expanded_keys 60
      let columns ← (enumerate (chunksExact 4 key.toList)).foldlM (fun columns (i, chunk) => do
          let columns ← upd columns i (fromNe Cfg.endian 32 (← arrayTryFrom 4 chunk))
          pure columns) columns
      let columns ← (rangeStep 0 48 8).foldlM (fun columns i => do
          let columns ← upd columns (← Aes.Profile.uadd Cfg.profile i 8) (first (← idx columns (← Aes.Profile.uadd Cfg.profile i 0)) (← idx columns (← Aes.Profile.uadd Cfg.profile i 7)) (← idx Aes.Columns.RCON (i / 8)))
          let columns ← upd columns (← Aes.Profile.uadd Cfg.profile i 9) ((← idx columns (← Aes.Profile.uadd Cfg.profile i 1)) ^^^ (← idx columns (← Aes.Profile.uadd Cfg.profile i 8)))
          let columns ← upd columns (← Aes.Profile.uadd Cfg.profile i 10) ((← idx columns (← Aes.Profile.uadd Cfg.profile i 2)) ^^^ (← idx columns (← Aes.Profile.uadd Cfg.profile i 9)))
          let columns ← upd columns (← Aes.Profile.uadd Cfg.profile i 11) ((← idx columns (← Aes.Profile.uadd Cfg.profile i 3)) ^^^ (← idx columns (← Aes.Profile.uadd Cfg.profile i 10)))
          let columns ← upd columns (← Aes.Profile.uadd Cfg.profile i 12) (fifth (← idx columns (← Aes.Profile.uadd Cfg.profile i 4)) (← idx columns (← Aes.Profile.uadd Cfg.profile i 11)))
          let columns ← upd columns (← Aes.Profile.uadd Cfg.profile i 13) ((← idx columns (← Aes.Profile.uadd Cfg.profile i 5)) ^^^ (← idx columns (← Aes.Profile.uadd Cfg.profile i 12)))
          let columns ← upd columns (← Aes.Profile.uadd Cfg.profile i 14) ((← idx columns (← Aes.Profile.uadd Cfg.profile i 6)) ^^^ (← idx columns (← Aes.Profile.uadd Cfg.profile i 13)))
          let columns ← upd columns (← Aes.Profile.uadd Cfg.profile i 15) ((← idx columns (← Aes.Profile.uadd Cfg.profile i 7)) ^^^ (← idx columns (← Aes.Profile.uadd Cfg.profile i 14)))
          pure columns) columns
      let columns ← upd columns 56 (tail (← idx columns 48) (← idx columns 55) Aes.Columns.RCON[6])
      let columns ← upd columns 57 ((← idx columns 49) ^^^ (← idx columns 56))
      let columns ← upd columns 58 ((← idx columns 50) ^^^ (← idx columns 57))
      let columns ← upd columns 59 ((← idx columns 51) ^^^ (← idx columns 58))
      let expanded_keys : Vector T 15 := castBack expanded_keys columns
      pure expanded_keys : M (Vector T 15)) =
    Aes.Profile.Columns.columns_256 Cfg.profile first fifth tail Cfg.endian key >>= fun c =>
      pure (castBack (len := 60) (zeroed : Vector T 15) c) := by
  refine (keygen_start 15 hz key.toList _).trans ?_
  unfold Aes.Profile.Columns.columns_256
  rw [bind_assoc]
  refine congrArg _ (funext fun c => ?_)
  rw [bind_assoc]
  refine congrArg _ (funext fun c => ?_)
  have r : idx Aes.Columns.RCON 6 = .ok Aes.Columns.RCON[6] := rfl
  rw [r]
  simp only [bind_assoc, Aes.Profile.ok_bind]

end RustSrc
