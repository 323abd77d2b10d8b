import Verif.Proofs.Static
import Verif.Props.Sync
import Verif.Spec.History
/-
Case analysis over all driver methods, and what each keeps.
-/
set_option linter.unusedSectionVars false
set_option autoImplicit false
namespace Mlx.Proofs
open Mlx Mlx.Spec F32Ops
variable {F σ ER EW : Type} [F32Ops F]

/-- Case analysis over the methods, by kind. -/
theorem op_cases (env : Env σ ER EW) {P : Op F → Prop}
    (hget : ∀ op f hf, (∀ d, op.exec env d = discard (driverGet env f hf d)) → isLocal op = false →
      isImage op = false → setsControl op = false → usesControl op = true → P op)
    (hset : ∀ op f hf v, (∀ d, op.exec env d = discard (driverSet env f hf v d)) → isLocal op = false →
      isImage op = false → setsControl op = true → usesControl op = true → P op)
    (hstat : ∀ op, (∀ d : Driver F σ, op.exec env d =
        ({ d with bus := (regRead env.bus d.bus d.addr 0x8000#16).1 },
          match (regRead env.bus d.bus d.addr 0x8000#16).2 with
          | .ok _ => .ok ()
          | .error e => .err (.i2cWriteRead e))) → isLocal op = false → isImage op = false →
      setsControl op = false → usesControl op = false → P op)
    (hover : ∀ v, P (.setOverwriteEnabled v)) (hreset : P .resetDataAvailable)
    (h1 : ∀ v, P (.overrideEmissivity v)) (h2 : P .useDefaultEmissivity)
    (h3 : ∀ v, P (.setReflectedTemperature v))
    (h4 : ∀ sp dest, P (.generateRawImageSubpageTo sp dest))
    (h5 : ∀ sp dest, P (.generateImageSubpageTo sp dest))
    (h6 : ∀ dest, P (.generateImageTo dest)) (h7 : ∀ dest, P (.generateImageIfReady dest))
    (h8 : ∀ fuel, P (.synchronize fuel)) : ∀ op, P op := by
  intro op
  cases op with
  | lastMeasuredSubpage =>
    refine hstat _ (fun d => ?_) rfl rfl rfl rfl
    show discard (Driver.lastMeasuredSubpage env d) = _
    unfold Driver.lastMeasuredSubpage
    rw [dm_bind, statusRegister_eq]
    cases (regRead env.bus d.bus d.addr 0x8000#16).2 with
    | error e => rfl
    | ok w => simp only [DM.lift, status_subpage]; rfl
  | dataAvailable =>
    refine hstat _ (fun d => ?_) rfl rfl rfl rfl
    show discard (Driver.dataAvailable env d) = _
    unfold Driver.dataAvailable
    rw [dm_bind, statusRegister_eq]
    cases (regRead env.bus d.bus d.addr 0x8000#16).2 with
    | error e => rfl
    | ok w =>
      simp only [status_newData]
      cases w.getLsbD 3
      · rfl
      · simp only [if_true]
        rw [dm_bind]
        simp only [DM.lift, status_subpage]
        rfl
  | overwriteEnabled =>
    refine hstat _ (fun d => ?_) rfl rfl rfl rfl
    show discard (Driver.overwriteEnabled env d) = _
    unfold Driver.overwriteEnabled
    rw [dm_bind, statusRegister_eq]
    cases (regRead env.bus d.bus d.addr 0x8000#16).2 <;> rfl
  | resetDataAvailable => exact hreset
  | setOverwriteEnabled v => exact hover v
  | subpagesEnabled => exact hget _ .useSubpages (by decide) (fun _ => rfl) rfl rfl rfl rfl
  | dataHoldEnabled => exact hget _ .dataHold (by decide) (fun _ => rfl) rfl rfl rfl rfl
  | subpageRepeat => exact hget _ .subpageRepeat (by decide) (fun _ => rfl) rfl rfl rfl rfl
  | selectedSubpage => exact hget _ .subpage (by decide) (fun _ => rfl) rfl rfl rfl rfl
  | frameRate => exact hget _ .frameRate (by decide) (fun _ => rfl) rfl rfl rfl rfl
  | resolution => exact hget _ .resolution (by decide) (fun _ => rfl) rfl rfl rfl rfl
  | accessPattern => exact hget _ .accessPattern (by decide) (fun _ => rfl) rfl rfl rfl rfl
  | setUseSubpages v => exact hset _ .useSubpages (by decide) v (fun _ => rfl) rfl rfl rfl rfl
  | setDataHold v => exact hset _ .dataHold (by decide) v (fun _ => rfl) rfl rfl rfl rfl
  | setSubpageRepeat v => exact hset _ .subpageRepeat (by decide) v (fun _ => rfl) rfl rfl rfl rfl
  | setSubpage v => exact hset _ .subpage (by decide) v (fun _ => rfl) rfl rfl rfl rfl
  | setFrameRate v => exact hset _ .frameRate (by decide) v (fun _ => rfl) rfl rfl rfl rfl
  | setResolution v => exact hset _ .resolution (by decide) v (fun _ => rfl) rfl rfl rfl rfl
  | setAccessPattern v => exact hset _ .accessPattern (by decide) v (fun _ => rfl) rfl rfl rfl rfl
  | overrideEmissivity v => exact h1 v
  | useDefaultEmissivity => exact h2
  | setReflectedTemperature v => exact h3 v
  | generateRawImageSubpageTo sp dest => exact h4 sp dest
  | generateImageSubpageTo sp dest => exact h5 sp dest
  | generateImageTo dest => exact h6 dest
  | generateImageIfReady dest => exact h7 dest
  | synchronize fuel => exact h8 fuel

/-! ### What is kept -/

theorem readRanges_length (b : Bus σ ER EW) (addr : Byte) (rs : List PixelRange) (s : σ) (buf : List Byte) :
    (readRanges b addr rs s buf).2.1.length = buf.length := by
  induction rs generalizing s buf with
  | nil => rfl
  | cons r rs ih =>
    unfold readRanges
    split
    · rename_i hfit
      have hl := b.length_eq s addr (toBe (BitVec.ofNat 16 r.startAddress))
        ((buf.drop r.bufferOffset).take r.length)
      rw [List.length_take, List.length_drop] at hl
      generalize b.writeRead s addr (toBe (BitVec.ofNat 16 r.startAddress))
        ((buf.drop r.bufferOffset).take r.length) = q at hl ⊢
      obtain ⟨s1, sub, e⟩ := q
      have hbuf : (buf.take r.bufferOffset ++ sub ++ buf.drop (r.bufferOffset + r.length)).length = buf.length := by
        simp only [List.length_append, List.length_take, List.length_drop]
        simp only at hl
        omega
      cases e with
      | none => simp only; rw [ih, hbuf]
      | some e => exact hbuf
    · rfl

/-- The driver after reading a frame, whatever the outcome. -/
theorem readRam_keeps (env : Env σ ER EW) (sp : Subpage) (d : Driver F σ) :
    (Driver.readRam env sp d).1 = { d with bus := (Driver.readRam env sp d).1.bus,
                                           pixelBuf := (Driver.readRam env sp d).1.pixelBuf } ∧
    (Driver.readRam env sp d).1.pixelBuf.length = d.pixelBuf.length := by
  refine ⟨rfl, ?_⟩
  unfold Driver.readRam Mlx.readRam
  simp only
  split
  · rfl
  · rename_i e _; exact nomatch e
  · rename_i rs _
    have hl := readRanges_length env.bus d.addr rs d.bus d.pixelBuf
    generalize readRanges env.bus d.addr rs d.bus d.pixelBuf = q at hl ⊢
    obtain ⟨s1, px, _ | e | _⟩ := q <;> exact hl

/-- `d'` is `d` after some call: same address, calibration, emissivity and reflected temperature, pixel buffer of
the same length. -/
structure Kept (d d' : Driver F σ) : Prop where
  addr : d'.addr = d.addr
  calib : d'.calib = d.calib
  emissivity : d'.emissivity = d.emissivity
  reflected : d'.reflected = d.reflected
  buffer : d'.pixelBuf.length = d.pixelBuf.length

theorem imageWith_keeps (env : Env σ ER EW) (sp : Subpage) (dest : List F) (d : Driver F σ)
    (conv : Driver F σ → List Byte → RamData → Res (Err ER EW) (F × List F)) :
    Kept d (imageWith env sp dest d conv).1 ∧
    (imageWith env sp dest d conv).1.bus = (Driver.readRam env sp d).1.bus ∧
    (imageWith env sp dest d conv).1.accessPattern = d.accessPattern ∧
    (imageWith env sp dest d conv).1.resCorr = d.resCorr := by
  have h1 := (readRam_keeps env sp d).1
  have h2 := (readRam_keeps env sp d).2
  unfold imageWith
  generalize Driver.readRam env sp d = q at h1 h2 ⊢
  obtain ⟨d1, r⟩ := q
  simp only at h1 h2
  have hk : Kept d d1 := by
    constructor
    · rw [h1]
    · rw [h1]
    · rw [h1]
    · rw [h1]
    · exact h2
  have ha : d1.accessPattern = d.accessPattern := by rw [h1]
  have hr : d1.resCorr = d.resCorr := by rw [h1]
  cases r with
  | err e => exact ⟨hk, rfl, ha, hr⟩
  | panic => exact ⟨hk, rfl, ha, hr⟩
  | ok ram =>
    simp only
    cases conv d1 d1.pixelBuf ram with
    | err e => exact ⟨hk, rfl, ha, hr⟩
    | panic => exact ⟨hk, rfl, ha, hr⟩
    | ok v => exact ⟨⟨hk.1, hk.2, hk.3, hk.4, hk.5⟩, rfl, ha, hr⟩

theorem Kept.refl_bus (d : Driver F σ) (s : σ) : Kept d { d with bus := s } := ⟨rfl, rfl, rfl, rfl, rfl⟩

theorem discardImage_fst {α : Type} (r : Driver F σ × List F × Res (Err ER EW) α) :
    (discardImage r).1 = r.1 := rfl

theorem pollStatus_keeps (env : Env σ ER EW) (fuel : Nat) (d : Driver F σ) :
    (Driver.pollStatus env fuel d).1 = { d with bus := (Driver.pollStatus env fuel d).1.bus } := by
  induction fuel generalizing d with
  | zero => rfl
  | succ n ih =>
    unfold Driver.pollStatus
    rw [dm_bind, statusRegister_eq]
    cases (regRead env.bus d.bus d.addr 0x8000#16).2 with
    | error e => rfl
    | ok w =>
      simp only
      split
      · rfl
      · rw [ih]

theorem synchronize_keeps (env : Env σ ER EW) (fuel : Nat) (d : Driver F σ) :
    (Driver.synchronize env fuel d).1 = { d with bus := (Driver.synchronize env fuel d).1.bus } := by
  rw [Props.synchronize_eq]
  cases (regRead env.bus d.bus d.addr 0x8000#16).2 with
  | error e => rfl
  | ok w =>
    simp only
    cases (regWrite env.bus (regRead env.bus d.bus d.addr 0x8000#16).1 d.addr 0x8000#16 (Props.syncWord w)).2 with
    | some e => rfl
    | none => simp only; rw [pollStatus_keeps]

theorem resetDataAvailable_eq (env : Env σ ER EW) (d : Driver F σ) :
    Driver.resetDataAvailable env d =
      match (regRead env.bus d.bus d.addr 0x8000#16).2 with
      | .error e => ({ d with bus := (regRead env.bus d.bus d.addr 0x8000#16).1 }, .err (.i2cWriteRead e))
      | .ok w =>
        let q := regWrite env.bus (regRead env.bus d.bus d.addr 0x8000#16).1 d.addr 0x8000#16
          (StatusReg.resetNewData ⟨w⟩).raw
        ({ d with bus := q.1 }, match q.2 with | none => .ok () | some e => .err (.i2cWrite e)) := by
  unfold Driver.resetDataAvailable
  rw [dm_bind, statusRegister_eq]
  cases (regRead env.bus d.bus d.addr 0x8000#16).2 with
  | error e => rfl
  | ok w => simp only [setStatusRegister_eq]; rfl

/-- Every method that is not a local setting keeps address, calibration, settings and buffer length. -/
theorem exec_keeps (env : Env σ ER EW) (op : Op F) (h : isLocal op = false) (d : Driver F σ) :
    Kept d (op.exec env d).1 ∧ (isImage op = false → (op.exec env d).1.ambient = d.ambient ∧
      (op.exec env d).1.pixelBuf = d.pixelBuf) := by
  revert h
  refine op_cases env (P := fun op => isLocal op = false → Kept d (op.exec env d).1 ∧
    (isImage op = false → (op.exec env d).1.ambient = d.ambient ∧
      (op.exec env d).1.pixelBuf = d.pixelBuf)) ?_ ?_ ?_ ?_ ?_ ?_ ?_ ?_ ?_ ?_ ?_ ?_ ?_ op
  · intro op f hf he _ _ _ _ _
    rw [he]
    unfold discard
    rw [driverGet_eq]
    cases (regRead env.bus d.bus d.addr 0x800D#16).2 <;> exact ⟨⟨rfl, rfl, rfl, rfl, rfl⟩, fun _ => ⟨rfl, rfl⟩⟩
  · intro op f hf v he _ _ _ _ _
    rw [he]
    unfold discard
    rw [driverSet_eq]
    cases (regRead env.bus d.bus d.addr 0x800D#16).2 with
    | error e => exact ⟨⟨rfl, rfl, rfl, rfl, rfl⟩, fun _ => ⟨rfl, rfl⟩⟩
    | ok w =>
      simp only
      split <;> exact ⟨⟨rfl, rfl, rfl, rfl, rfl⟩, fun _ => ⟨rfl, rfl⟩⟩
  · intro op he _ _ _ _ _
    rw [he]
    exact ⟨⟨rfl, rfl, rfl, rfl, rfl⟩, fun _ => ⟨rfl, rfl⟩⟩
  · intro v _
    show Kept d (Driver.setOverwriteEnabled env v d).1 ∧ (_ → (Driver.setOverwriteEnabled env v d).1.ambient = _ ∧
      (Driver.setOverwriteEnabled env v d).1.pixelBuf = _)
    rw [setOverwrite_eq]
    cases (regRead env.bus d.bus d.addr 0x8000#16).2 with
    | error e => exact ⟨⟨rfl, rfl, rfl, rfl, rfl⟩, fun _ => ⟨rfl, rfl⟩⟩
    | ok w =>
      simp only
      split <;> exact ⟨⟨rfl, rfl, rfl, rfl, rfl⟩, fun _ => ⟨rfl, rfl⟩⟩
  · intro _
    show Kept d (Driver.resetDataAvailable env d).1 ∧ (_ → (Driver.resetDataAvailable env d).1.ambient = _ ∧
      (Driver.resetDataAvailable env d).1.pixelBuf = _)
    rw [resetDataAvailable_eq]
    cases (regRead env.bus d.bus d.addr 0x8000#16).2 <;> exact ⟨⟨rfl, rfl, rfl, rfl, rfl⟩, fun _ => ⟨rfl, rfl⟩⟩
  · intro v h; cases h
  · intro h; cases h
  · intro v h; cases h
  · intro sp dest _
    refine ⟨?_, fun h => nomatch h⟩
    show Kept d (Driver.generateRawImageSubpageTo env sp dest d).1
    rw [rawImageSubpage_eq]
    exact (imageWith_keeps env sp dest d _).1
  · intro sp dest _
    refine ⟨?_, fun h => nomatch h⟩
    show Kept d (Driver.generateImageSubpageTo env sp dest d).1
    rw [imageSubpage_eq]
    exact (imageWith_keeps env sp dest d _).1
  · intro dest _
    refine ⟨?_, fun h => nomatch h⟩
    show Kept d (Driver.generateImageTo env dest d).1
    rw [generateImageTo_eq]
    cases (regRead env.bus d.bus d.addr 0x8000#16).2 with
    | error e => exact ⟨rfl, rfl, rfl, rfl, rfl⟩
    | ok w =>
      simp only
      rw [imageSubpage_eq]
      have h := (imageWith_keeps env (if w.getLsbD 0 then .one else .zero) dest
        { d with bus := (regRead env.bus d.bus d.addr 0x8000#16).1 }
        (fun d => toTemperatures env.mode d (if w.getLsbD 0 then .one else .zero) dest)).1
      exact ⟨h.1, h.2, h.3, h.4, h.5⟩
  · intro dest _
    refine ⟨?_, fun h => nomatch h⟩
    show Kept d (Driver.generateImageIfReady env dest d).1
    rw [ifReady_eq]
    cases (regRead env.bus d.bus d.addr 0x8000#16).2 with
    | error e => exact ⟨rfl, rfl, rfl, rfl, rfl⟩
    | ok w =>
      simp only
      split
      · rw [imageSubpage_eq]
        have h := (imageWith_keeps env (if w.getLsbD 0 then .one else .zero) dest
          { d with bus := (regRead env.bus d.bus d.addr 0x8000#16).1 }
          (fun d => toTemperatures env.mode d (if w.getLsbD 0 then .one else .zero) dest)).1
        generalize imageWith env (if w.getLsbD 0 then .one else .zero) dest
          { d with bus := (regRead env.bus d.bus d.addr 0x8000#16).1 }
          (fun d => toTemperatures env.mode d (if w.getLsbD 0 then .one else .zero) dest) = q at h ⊢
        obtain ⟨d1, dest1, _ | e | _⟩ := q <;> exact ⟨h.1, h.2, h.3, h.4, h.5⟩
      · exact ⟨rfl, rfl, rfl, rfl, rfl⟩
  · intro fuel _
    show Kept d (Driver.synchronize env fuel d).1 ∧ (_ → (Driver.synchronize env fuel d).1.ambient = _ ∧
      (Driver.synchronize env fuel d).1.pixelBuf = _)
    rw [synchronize_keeps]
    exact ⟨⟨rfl, rfl, rfl, rfl, rfl⟩, fun _ => ⟨rfl, rfl⟩⟩

theorem exec_supported {env : Env σ ER EW} {d : Driver F σ} (h : Supported env d) (op : Op F) :
    Supported env (op.exec env d).1 ∧ (op.exec env d).1.addr = d.addr ∧ (op.exec env d).1.calib = d.calib := by
  cases hl : isLocal op with
  | true =>
    cases op <;> simp only [isLocal, Bool.false_eq_true] at hl <;> exact ⟨⟨h.1, h.2, h.3⟩, rfl, rfl⟩
  | false =>
    have hk := (exec_keeps env op hl d).1
    refine ⟨⟨?_, ?_, ?_⟩, hk.addr, hk.calib⟩
    · rw [hk.calib]; exact h.1
    · rw [hk.calib]; exact h.2
    · rw [hk.calib, hk.buffer]; exact h.3

theorem runOps_supported {env : Env σ ER EW} {d : Driver F σ} (h : Supported env d) (ops : List (Op F)) :
    Supported env (runOps env ops d) ∧ (runOps env ops d).addr = d.addr ∧
      (runOps env ops d).calib = d.calib := by
  induction ops generalizing d with
  | nil => exact ⟨h, rfl, rfl⟩
  | cons op ops ih =>
    have h1 := exec_supported h op
    have h2 := ih h1.1
    exact ⟨h2.1, h2.2.1.trans h1.2.1, h2.2.2.trans h1.2.2⟩

end Mlx.Proofs
