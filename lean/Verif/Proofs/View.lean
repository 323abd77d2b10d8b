import Verif.Proofs.Access
import Verif.Proofs.Recorder
import Verif.Spec.Shared
import Verif.Props.Sync
import Verif.Props.Static
/-
A driver cannot tell a shared bus from one of its own.
-/
set_option linter.unusedSectionVars false
set_option autoImplicit false
namespace Mlx.Proofs
open Mlx Mlx.Spec Mlx.Props F32Ops
variable {F σ τ ER EW : Type} [F32Ops F] {big : Bus τ ER EW} {addr : Byte} {proj : τ → σ} {small : Bus σ ER EW}
variable {m : Mode} {n : Nat}

theorem view_regRead (h : ActsAs big addr proj small) (t : τ) (reg : Word) :
    regRead small (proj t) addr reg = (proj (regRead big t addr reg).1, (regRead big t addr reg).2) := by
  unfold regRead
  rw [h.writeRead]

theorem view_regWrite (h : ActsAs big addr proj small) (t : τ) (reg w : Word) :
    regWrite small (proj t) addr reg w = (proj (regWrite big t addr reg w).1, (regWrite big t addr reg w).2) := by
  unfold regWrite
  rw [h.write]

theorem view_readRanges (h : ActsAs big addr proj small) (rs : List PixelRange) (t : τ) (buf : List Byte) :
    readRanges small addr rs (proj t) buf = (proj (readRanges big addr rs t buf).1, (readRanges big addr rs t buf).2) := by
  induction rs generalizing t buf with
  | nil => rfl
  | cons r rs ih =>
    unfold readRanges
    by_cases hfit : r.bufferOffset + r.length ≤ buf.length
    · rw [if_pos hfit, if_pos hfit, h.writeRead]
      generalize big.writeRead t addr (toBe (BitVec.ofNat 16 r.startAddress))
        ((buf.drop r.bufferOffset).take r.length) = q
      obtain ⟨s1, sub, _ | e⟩ := q
      · exact ih _ _
      · rfl
    · rw [if_neg hfit, if_neg hfit]

theorem view_ramData (cam : Cam) (h : ActsAs big addr proj small) (t : τ) (sp : Subpage) :
    ramDataFromI2c cam small (proj t) addr sp =
      (proj (ramDataFromI2c cam big t addr sp).1, (ramDataFromI2c cam big t addr sp).2) := by
  unfold ramDataFromI2c
  simp only [readRamValue_eq, view_regRead h]
  generalize regRead big t addr cam.tAVbe = q1
  obtain ⟨s1, _ | w1⟩ := q1
  · rfl
  simp only [view_regRead h]
  generalize regRead big s1 addr cam.tAPtat = q2
  obtain ⟨s2, _ | w2⟩ := q2
  · rfl
  simp only [view_regRead h]
  generalize regRead big s2 addr cam.vddPixel = q3
  obtain ⟨s3, _ | w3⟩ := q3
  · rfl
  simp only [view_regRead h]
  generalize regRead big s3 addr cam.gain = q4
  obtain ⟨s4, _ | w4⟩ := q4
  · rfl
  simp only [view_regRead h]
  generalize regRead big s4 addr (cam.compensationPixel sp) = q5
  obtain ⟨s5, _ | w5⟩ := q5 <;> rfl

theorem view_readRam (d : Driver F τ) (h : ActsAs big d.addr proj small) (sp : Subpage) :
    Driver.readRam ⟨m, n, small⟩ sp (view proj d) =
      (view proj (Driver.readRam ⟨m, n, big⟩ sp d).1, (Driver.readRam ⟨m, n, big⟩ sp d).2) := by
  unfold Driver.readRam Mlx.readRam view
  simp only
  cases d.calib.cam.collectRanges m sp d.accessPattern n with
  | panic => rfl
  | err e => exact nomatch e
  | ok rs =>
    simp only
    rw [view_readRanges h]
    generalize readRanges big d.addr rs d.bus d.pixelBuf = q
    obtain ⟨s1, px, _ | e | _⟩ := q
    · simp only
      rw [view_ramData _ h]
    · rfl
    · rfl

theorem view_image (d : Driver F τ) (h : ActsAs big d.addr proj small) (sp : Subpage) (dest : List F)
    (conv : Driver F τ → List Byte → RamData → Res (Err ER EW) (F × List F))
    (conv' : Driver F σ → List Byte → RamData → Res (Err ER EW) (F × List F))
    (hc : ∀ d px ram, conv d px ram = conv' (view proj d) px ram) :
    imageWith ⟨m, n, small⟩ sp dest (view proj d) conv' =
      (view proj (imageWith ⟨m, n, big⟩ sp dest d conv).1, (imageWith ⟨m, n, big⟩ sp dest d conv).2) := by
  unfold imageWith
  rw [view_readRam d h]
  generalize Driver.readRam ⟨m, n, big⟩ sp d = q
  obtain ⟨d1, ram | e | _⟩ := q
  · simp only [hc]
    have : (view proj d1).pixelBuf = d1.pixelBuf := rfl
    rw [this]
    cases conv' (view proj d1) d1.pixelBuf ram <;> rfl
  · rfl
  · rfl

theorem view_poll (fuel : Nat) (d : Driver F τ) (h : ActsAs big d.addr proj small) :
    Driver.pollStatus ⟨m, n, small⟩ fuel (view proj d) =
      (view proj (Driver.pollStatus ⟨m, n, big⟩ fuel d).1, (Driver.pollStatus ⟨m, n, big⟩ fuel d).2) := by
  induction fuel generalizing d with
  | zero => rfl
  | succ n ih =>
    unfold Driver.pollStatus
    rw [dm_bind, dm_bind, statusRegister_eq, statusRegister_eq]
    have hd : ∀ reg, regRead small (view proj d).bus (view proj d).addr reg = _ := fun reg => view_regRead h d.bus reg
    simp only [hd]
    generalize regRead big d.bus d.addr 0x8000#16 = q
    obtain ⟨s, e | w⟩ := q
    · rfl
    · simp only
      split
      · rfl
      · exact ih { d with bus := s } h

section
variable (d : Driver F τ) (h : ActsAs big d.addr proj small)
include h

/-- Register reads by the driver on its own bus, in terms of the shared one. -/
theorem view_reads (reg : Word) :
    regRead (⟨m, n, small⟩ : Env σ ER EW).bus (view proj d).bus (view proj d).addr reg =
      (proj (regRead big d.bus d.addr reg).1, (regRead big d.bus d.addr reg).2) :=
  view_regRead h d.bus reg

theorem view_writes (s : τ) (reg w : Word) :
    regWrite (⟨m, n, small⟩ : Env σ ER EW).bus (proj s) (view proj d).addr reg w =
      (proj (regWrite big s d.addr reg w).1, (regWrite big s d.addr reg w).2) :=
  view_regWrite h s reg w

theorem view_get (f : CtrlField) (hf : f ≠ .stepMode) :
    driverGet ⟨m, n, small⟩ f hf (view proj d) =
      (view proj (driverGet ⟨m, n, big⟩ f hf d).1, (driverGet ⟨m, n, big⟩ f hf d).2) := by
  rw [driverGet_eq, driverGet_eq, view_reads d h]
  simp only
  generalize regRead big d.bus d.addr 0x800D#16 = q
  obtain ⟨s, e | w⟩ := q <;> rfl

theorem view_set (f : CtrlField) (hf : f ≠ .stepMode) (v : f.Val) :
    driverSet ⟨m, n, small⟩ f hf v (view proj d) =
      (view proj (driverSet ⟨m, n, big⟩ f hf v d).1, (driverSet ⟨m, n, big⟩ f hf v d).2) := by
  rw [driverSet_eq, driverSet_eq, view_reads d h]
  simp only
  generalize regRead big d.bus d.addr 0x800D#16 = q
  obtain ⟨s, e | w⟩ := q
  · rfl
  · simp only
    by_cases hc : f.code (f.valueIn w) = f.code v
    · rw [if_pos hc, if_pos hc]; rfl
    · rw [if_neg hc, if_neg hc]
      have := view_regWrite h s 0x800D#16 (f.set ⟨w⟩ v).raw
      simp only [view] at this ⊢
      rw [this]
      generalize regWrite big s d.addr 0x800D#16 (f.set ⟨w⟩ v).raw = q2
      obtain ⟨s2, _ | e⟩ := q2 <;> rfl

theorem view_lastMeasured :
    Driver.lastMeasuredSubpage ⟨m, n, small⟩ (view proj d) =
      (view proj (Driver.lastMeasuredSubpage ⟨m, n, big⟩ d).1, (Driver.lastMeasuredSubpage ⟨m, n, big⟩ d).2) := by
  unfold Driver.lastMeasuredSubpage
  have hr : regRead small (view proj d).bus (view proj d).addr 0x8000#16 = _ := view_regRead h d.bus 0x8000#16
  simp only [dm_bind, statusRegister_eq, hr]
  generalize regRead big d.bus d.addr 0x8000#16 = q
  obtain ⟨s, e | w⟩ := q
  · rfl
  · simp only [DM.lift, status_subpage]; rfl

theorem view_dataAvailable :
    Driver.dataAvailable ⟨m, n, small⟩ (view proj d) =
      (view proj (Driver.dataAvailable ⟨m, n, big⟩ d).1, (Driver.dataAvailable ⟨m, n, big⟩ d).2) := by
  unfold Driver.dataAvailable
  have hr : regRead small (view proj d).bus (view proj d).addr 0x8000#16 = _ := view_regRead h d.bus 0x8000#16
  simp only [dm_bind, statusRegister_eq, hr]
  generalize regRead big d.bus d.addr 0x8000#16 = q
  obtain ⟨s, e | w⟩ := q
  · rfl
  · simp only [status_newData]
    cases w.getLsbD 3
    · rfl
    · simp only [if_true]
      rw [dm_bind, dm_bind]
      simp only [DM.lift, status_subpage]
      rfl

theorem view_overwriteEnabled :
    Driver.overwriteEnabled ⟨m, n, small⟩ (view proj d) =
      (view proj (Driver.overwriteEnabled ⟨m, n, big⟩ d).1, (Driver.overwriteEnabled ⟨m, n, big⟩ d).2) := by
  unfold Driver.overwriteEnabled
  have hr : regRead small (view proj d).bus (view proj d).addr 0x8000#16 = _ := view_regRead h d.bus 0x8000#16
  simp only [dm_bind, statusRegister_eq, hr]
  generalize regRead big d.bus d.addr 0x8000#16 = q
  obtain ⟨s, e | w⟩ := q <;> rfl

theorem view_reset :
    Driver.resetDataAvailable ⟨m, n, small⟩ (view proj d) =
      (view proj (Driver.resetDataAvailable ⟨m, n, big⟩ d).1, (Driver.resetDataAvailable ⟨m, n, big⟩ d).2) := by
  rw [resetDataAvailable_eq, resetDataAvailable_eq, view_reads d h]
  simp only
  generalize regRead big d.bus d.addr 0x8000#16 = q
  obtain ⟨s, e | w⟩ := q
  · rfl
  · have := view_regWrite h s 0x8000#16 (StatusReg.resetNewData ⟨w⟩).raw
    simp only [view] at this ⊢
    rw [this]

theorem view_setOverwrite (v : Bool) :
    Driver.setOverwriteEnabled ⟨m, n, small⟩ v (view proj d) =
      (view proj (Driver.setOverwriteEnabled ⟨m, n, big⟩ v d).1, (Driver.setOverwriteEnabled ⟨m, n, big⟩ v d).2) := by
  rw [setOverwrite_eq, setOverwrite_eq, view_reads d h]
  simp only
  generalize regRead big d.bus d.addr 0x8000#16 = q
  obtain ⟨s, e | w⟩ := q
  · rfl
  · simp only
    by_cases hc : w.getLsbD 4 = v
    · rw [if_pos hc, if_pos hc]; rfl
    · rw [if_neg hc, if_neg hc]
      have := view_regWrite h s 0x8000#16 (StatusReg.setOverwriteEnabled ⟨w⟩ v).raw
      simp only [view] at this ⊢
      rw [this]

theorem view_raw (sp : Subpage) (dest : List F) :
    Driver.generateRawImageSubpageTo ⟨m, n, small⟩ sp dest (view proj d) =
      (view proj (Driver.generateRawImageSubpageTo ⟨m, n, big⟩ sp dest d).1,
        (Driver.generateRawImageSubpageTo ⟨m, n, big⟩ sp dest d).2) := by
  rw [rawImageSubpage_eq, rawImageSubpage_eq]
  exact view_image d h sp dest _ (fun d => toRawImage m d sp dest) (fun _ _ _ => rfl)

theorem view_subpage (sp : Subpage) (dest : List F) :
    Driver.generateImageSubpageTo ⟨m, n, small⟩ sp dest (view proj d) =
      (view proj (Driver.generateImageSubpageTo ⟨m, n, big⟩ sp dest d).1,
        (Driver.generateImageSubpageTo ⟨m, n, big⟩ sp dest d).2) := by
  rw [imageSubpage_eq, imageSubpage_eq]
  exact view_image d h sp dest _ (fun d => toTemperatures m d sp dest) (fun _ _ _ => rfl)

theorem view_imageTo (dest : List F) :
    Driver.generateImageTo ⟨m, n, small⟩ dest (view proj d) =
      (view proj (Driver.generateImageTo ⟨m, n, big⟩ dest d).1, (Driver.generateImageTo ⟨m, n, big⟩ dest d).2) := by
  rw [generateImageTo_eq, generateImageTo_eq, view_reads d h]
  simp only
  generalize regRead big d.bus d.addr 0x8000#16 = q
  obtain ⟨s, e | w⟩ := q
  · rfl
  · exact view_subpage { d with bus := s } h _ dest

theorem view_ifReady (dest : List F) :
    Driver.generateImageIfReady ⟨m, n, small⟩ dest (view proj d) =
      (view proj (Driver.generateImageIfReady ⟨m, n, big⟩ dest d).1,
        (Driver.generateImageIfReady ⟨m, n, big⟩ dest d).2) := by
  rw [ifReady_eq, ifReady_eq, view_reads d h]
  simp only
  generalize regRead big d.bus d.addr 0x8000#16 = q
  obtain ⟨s, e | w⟩ := q
  · rfl
  · simp only
    cases w.getLsbD 3
    · rfl
    · simp only [if_true]
      have h1 := view_subpage (m := m) (n := n) { d with bus := s } h (if w.getLsbD 0 then .one else .zero) dest
      have hf : ({ view proj d with bus := proj s } : Driver F σ) = view proj { d with bus := s } := rfl
      have hk := (imageWith_keeps ⟨m, n, big⟩ (if w.getLsbD 0 then .one else .zero) dest { d with bus := s }
        (fun d => toTemperatures m d (if w.getLsbD 0 then .one else .zero) dest)).1.addr
      rw [hf, h1]
      rw [← imageSubpage_eq ⟨m, n, big⟩] at hk
      generalize Driver.generateImageSubpageTo ⟨m, n, big⟩ (if w.getLsbD 0 then .one else .zero) dest
        { d with bus := s } = q2 at hk
      obtain ⟨d2, dest2, _ | e | _⟩ := q2
      · have h2 : ActsAs big d2.addr proj small := by rw [show d2.addr = d.addr from hk]; exact h
        have := view_regWrite h2 d2.bus 0x8000#16 (StatusReg.resetNewData ⟨w⟩).raw
        simp only [view] at this ⊢
        rw [this]
      · rfl
      · rfl

theorem view_synchronize (fuel : Nat) :
    Driver.synchronize ⟨m, n, small⟩ fuel (view proj d) =
      (view proj (Driver.synchronize ⟨m, n, big⟩ fuel d).1, (Driver.synchronize ⟨m, n, big⟩ fuel d).2) := by
  rw [synchronize_eq, synchronize_eq, view_reads d h]
  simp only
  generalize regRead big d.bus d.addr 0x8000#16 = q
  obtain ⟨s, e | w⟩ := q
  · rfl
  · have := view_regWrite h s 0x8000#16 (syncWord w)
    have hp := fun s => view_poll (m := m) (n := n) fuel { d with bus := s } h
    simp only [view] at this hp ⊢
    rw [this]
    generalize regWrite big s d.addr 0x8000#16 (syncWord w) = q2
    obtain ⟨s2, _ | e⟩ := q2
    · exact hp s2
    · rfl

theorem view_discard {α : Type} {r : Driver F τ × Res (Err ER EW) α} {r' : Driver F σ × Res (Err ER EW) α}
    (h : r' = (view proj r.1, r.2)) : discard r' = (view proj (discard r).1, (discard r).2) := by
  subst h
  obtain ⟨r1, r2⟩ := r
  cases r2 <;> rfl

theorem view_discardImage {α : Type} {r : Driver.ImageResult F τ ER EW α} {r' : Driver.ImageResult F σ ER EW α}
    (h : r' = (view proj r.1, r.2)) : discardImage r' = (view proj (discardImage r).1, (discardImage r).2) := by
  subst h
  obtain ⟨r1, r2, r3⟩ := r
  cases r3 <;> rfl

theorem view_exec (op : Op F) : op.exec ⟨m, n, small⟩ (view proj d) =
    (view proj (op.exec ⟨m, n, big⟩ d).1, (op.exec ⟨m, n, big⟩ d).2) := by
  cases op with
  | lastMeasuredSubpage => exact view_discard d h (view_lastMeasured d h)
  | dataAvailable => exact view_discard d h (view_dataAvailable d h)
  | overwriteEnabled => exact view_discard d h (view_overwriteEnabled d h)
  | resetDataAvailable => exact view_discard d h (view_reset d h)
  | setOverwriteEnabled v => exact view_discard d h (view_setOverwrite d h v)
  | subpagesEnabled => exact view_discard d h (view_get d h .useSubpages (by decide))
  | dataHoldEnabled => exact view_discard d h (view_get d h .dataHold (by decide))
  | subpageRepeat => exact view_discard d h (view_get d h .subpageRepeat (by decide))
  | selectedSubpage => exact view_discard d h (view_get d h .subpage (by decide))
  | frameRate => exact view_discard d h (view_get d h .frameRate (by decide))
  | resolution => exact view_discard d h (view_get d h .resolution (by decide))
  | accessPattern => exact view_discard d h (view_get d h .accessPattern (by decide))
  | setUseSubpages v => exact view_discard d h (view_set d h .useSubpages (by decide) v)
  | setDataHold v => exact view_discard d h (view_set d h .dataHold (by decide) v)
  | setSubpageRepeat v => exact view_discard d h (view_set d h .subpageRepeat (by decide) v)
  | setSubpage v => exact view_discard d h (view_set d h .subpage (by decide) v)
  | setFrameRate v => exact view_discard d h (view_set d h .frameRate (by decide) v)
  | setResolution v => exact view_discard d h (view_set d h .resolution (by decide) v)
  | setAccessPattern v => exact view_discard d h (view_set d h .accessPattern (by decide) v)
  | overrideEmissivity v => rfl
  | useDefaultEmissivity => rfl
  | setReflectedTemperature v => rfl
  | generateRawImageSubpageTo sp dest => exact view_discardImage d h (view_raw d h sp dest)
  | generateImageSubpageTo sp dest => exact view_discardImage d h (view_subpage d h sp dest)
  | generateImageTo dest => exact view_discardImage d h (view_imageTo d h dest)
  | generateImageIfReady dest => exact view_discardImage d h (view_ifReady d h dest)
  | synchronize fuel => exact view_discard d h (view_synchronize d h fuel)

end

/-- Construction. -/
theorem view_new {C : Type} (fromData : List Byte → Res LibErr C) (toCalib : C → Calib F) (h : ActsAs big addr proj small)
    (k : Nat) (t : τ) :
    Driver.new fromData toCalib small k (proj t) addr =
      (proj (Driver.new fromData toCalib big k t addr).1,
        match (Driver.new fromData toCalib big k t addr).2 with
        | .ok d => .ok (view proj d)
        | .err e => .err e
        | .panic => .panic) := by
  unfold Driver.new calibFromI2c Bus.read
  rw [h.writeRead]
  generalize big.writeRead t addr (toBe 0x2400#16) (List.replicate ((0x273F - 0x2400 + 1) * 2) 0#8) = q
  obtain ⟨t1, bytes, _ | e⟩ := q
  · simp only
    cases fromData bytes with
    | ok c =>
      show Driver.newWithCalibration small k (proj t1) addr (toCalib c) =
        (proj (Driver.newWithCalibration big k t1 addr (toCalib c)).1,
          match (Driver.newWithCalibration big k t1 addr (toCalib c)).2 with
          | .ok d => .ok (view proj d)
          | .err e => .err e
          | .panic => .panic)
      unfold Driver.newWithCalibration
      rw [readControl_eq, readControl_eq, view_regRead h]
      generalize regRead big t1 addr 0x800D#16 = q
      obtain ⟨t2, e | w⟩ := q
      · rfl
      · simp only [resolution_val, accessPattern_val]
        rfl
    | err e => rfl
    | panic => rfl
  · rfl

end Mlx.Proofs
