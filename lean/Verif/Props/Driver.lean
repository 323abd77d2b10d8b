import Verif.Proofs.DriverOps
import Verif.Proofs.Ram
import Verif.Spec.Driver
import Verif.Spec.Toy
/-
Driver methods on any bus with a recorder attached: C16 and C39 to C42.
-/
set_option linter.unusedSectionVars false
set_option autoImplicit false
namespace Mlx.Props
open Mlx Mlx.Spec Mlx.Proofs F32Ops
variable {F σ ER EW : Type} [F32Ops F]

/-- Documented RAM addresses of the frame-wide readings. -/
theorem C16_addresses :
    (Mlx90640.cam.tAVbe = 0x0700#16 ∧ Mlx90640.cam.tAPtat = 0x0720#16 ∧ Mlx90640.cam.vddPixel = 0x072A#16 ∧
      Mlx90640.cam.gain = 0x070A#16 ∧ Mlx90640.cam.compensationPixel .zero = 0x0708#16 ∧
      Mlx90640.cam.compensationPixel .one = 0x0728#16) ∧
    (Mlx90641.cam.tAVbe = 0x0580#16 ∧ Mlx90641.cam.tAPtat = 0x05A0#16 ∧ Mlx90641.cam.vddPixel = 0x05AA#16 ∧
      Mlx90641.cam.gain = 0x058A#16 ∧ Mlx90641.cam.compensationPixel .zero = 0x0588#16 ∧
      Mlx90641.cam.compensationPixel .one = 0x05A8#16) := by decide

/-- **C16.** On any bus, reading a frame performs exactly the planned reads — the pixel ranges in order, then
T_a_VBE, T_a_PTAT, V_DD, gain and the compensation pixel of the requested subpage — each as one combined
transaction, up to the first one that fails; that error is returned. It never writes and never panics. On
success the pixel buffer holds the bytes received for the ranges and the readings are the words received. -/
theorem C16_read_ram (env : Env σ ER EW) (d : Driver F (σ × List (Txn ER EW))) (sp : Subpage)
    (h : Supported (recordedEnv env) d) :
    ∃ rs ts d' r, d.calib.cam.collectRanges env.mode sp d.accessPattern env.height = .ok rs ∧
      Driver.readRam (recordedEnv env) sp d = (d', r) ∧
      d'.bus.2 = d.bus.2 ++ ts ∧ (∀ t ∈ ts, t.isWrite = false) ∧
      ((∃ ram, r = .ok ram ∧ Follows d.addr (ramPlan d.calib.cam rs sp) ts none ∧
          FrameRead d.addr d.calib.cam rs sp d.pixelBuf ts d'.pixelBuf ram) ∨
       (∃ e, r = .err e ∧ Follows d.addr (ramPlan d.calib.cam rs sp) ts (some e))) ∧
      d' = { d with bus := d'.bus, pixelBuf := d'.pixelBuf } := by
  obtain ⟨rs, h1, h2⟩ := supported_ranges h sp d.accessPattern
  obtain ⟨s', ts, buf', hl, hcase⟩ := readRam_spec env.mode d.calib.cam env.height env.bus d.bus.1 d.bus.2
    d.addr d.accessPattern sp d.pixelBuf rs h1 h2
  unfold Driver.readRam
  have hb : (recordedEnv env).bus = recorded env.bus := rfl
  have hm : (recordedEnv env).mode = env.mode := rfl
  have hh : (recordedEnv env).height = env.height := rfl
  rw [hb, hm, hh]
  rcases hcase with ⟨ram, h3, h4, h5⟩ | ⟨e, h3, h4⟩
  · have h3 : Mlx.readRam env.mode d.calib.cam env.height (recorded env.bus) d.bus d.addr d.accessPattern sp
      d.pixelBuf = _ := h3
    rw [h3]
    exact ⟨rs, ts, _, _, h1, rfl, rfl, fun t ht => (h4.reads t ht).1, Or.inl ⟨ram, rfl, h4, h5⟩, rfl⟩
  · have h3 : Mlx.readRam env.mode d.calib.cam env.height (recorded env.bus) d.bus d.addr d.accessPattern sp
      d.pixelBuf = _ := h3
    rw [h3]
    exact ⟨rs, ts, _, _, h1, rfl, rfl, fun t ht => (h4.reads t ht).1, Or.inr ⟨e, rfl, h4⟩, rfl⟩

/-- A driver for the MLX90640 as constructed by the crate. -/
def toyDriver {σ : Type} (cam : Cam) (n : Nat) (s : σ) : Driver Int σ where
  bus := s
  addr := 0x33#8
  calib := toyCalib cam n none
  pixelBuf := List.replicate (2 * n) 0#8
  resCorr := 1
  ambient := none
  emissivity := 1
  accessPattern := .chess
  reflected := none

/-- A camera with every word of memory equal to 0x0012, except for the control and status registers. -/
def toyCamera (status : Word) : SimpleCamera :=
  { addr := 0x33#8, mem := fun a => if a = 0x8000#16 then status else if a = 0x800D#16 then 0x1901#16
      else 0x0012#16 }

example : Supported (recordedEnv (σ := SimpleCamera) ⟨.checked, 24, simpleBus⟩)
    (toyDriver Mlx90640.cam 768 (toyCamera 9, [])) :=
  ⟨Or.inl rfl, rfl, List.length_replicate⟩

/-- **C39.** Construction, on any bus: it reads the 1664 EEPROM bytes at 0x2400 and, when they decode, the
control register — nothing else, and no writes. Bus errors and calibration errors are returned unchanged; on
success the cached settings are those of the control word read, the emissivity is the calibration's or 1, and no
ambient or reflected temperature is reported. -/
theorem C39_construction {C : Type} (fromData : List Byte → Res LibErr C) (toCalib : C → Calib F)
    (b : Bus σ ER EW) (bufSize : Nat) (s : σ × List (Txn ER EW)) (addr : Byte) :
    ∃ (s' : σ) (eeprom : Except ER (List Byte)) (ts : List (Txn ER EW)) (outcome : Res (Err ER EW) (Driver F (σ × List (Txn ER EW)))),
      Driver.new fromData toCalib (recorded b) bufSize s addr = ((s', s.2 ++ ts), outcome) ∧
      match eeprom with
      | .error e => ts = [.read addr [0x24#8, 0x00#8] 1664 (.error e)] ∧ outcome = .err (.i2cWriteRead e)
      | .ok bytes => bytes.length = 1664 ∧
        match fromData bytes with
        | .err e => ts = [.read addr [0x24#8, 0x00#8] 1664 (.ok bytes)] ∧ outcome = .err (.library e)
        | .panic => ts = [.read addr [0x24#8, 0x00#8] 1664 (.ok bytes)] ∧ outcome = .panic
        | .ok c => ∃ control : Except ER Word,
          ts = [.read addr [0x24#8, 0x00#8] 1664 (.ok bytes), .readReg addr 0x800D#16 control] ∧
          match control with
          | .error e => outcome = .err (.i2cWriteRead e)
          | .ok w => ∃ d : Driver F (σ × List (Txn ER EW)), outcome = .ok d ∧ d.bus = (s', s.2 ++ ts) ∧
              d.addr = addr ∧ d.calib = toCalib c ∧ d.pixelBuf.length = bufSize ∧ Caches d w ∧
              d.effectiveEmissivity = (toCalib c).emissivity.getD (lit 1) ∧ d.ambientTemp = none ∧
              d.reflectedTemperature = none := by
  unfold Driver.new calibFromI2c Bus.read
  have hlen := b.length_eq s.1 addr (toBe 0x2400#16) (List.replicate ((0x273F - 0x2400 + 1) * 2) 0#8)
  rw [List.length_replicate] at hlen
  simp only [recorded_writeRead]
  generalize b.writeRead s.1 addr (toBe 0x2400#16) (List.replicate ((0x273F - 0x2400 + 1) * 2) 0#8) = q at hlen ⊢
  obtain ⟨s1, bytes, e⟩ := q
  rw [List.length_replicate]
  cases e with
  | some e => exact ⟨s1, .error e, _, _, rfl, rfl, rfl⟩
  | none =>
    simp only
    cases hc : fromData bytes with
    | err e => exact ⟨s1, .ok bytes, _, _, rfl, hlen, by rw [hc]; exact ⟨rfl, rfl⟩⟩
    | panic => exact ⟨s1, .ok bytes, _, _, rfl, hlen, by rw [hc]; exact ⟨rfl, rfl⟩⟩
    | ok c =>
      simp only [Res.mapErr]
      unfold Driver.newWithCalibration
      simp only [readControl_eq, regRead_recorded]
      rcases regRead b s1 addr 0x800D#16 with ⟨s2, e | w⟩
      · exact ⟨s2, .ok bytes, [.read addr [0x24#8, 0x00#8] 1664 (.ok bytes), .readReg addr 0x800D#16 (.error e)],
          _, by simp only [List.append_assoc]; rfl, hlen, by rw [hc]; exact ⟨.error e, rfl, rfl⟩⟩
      · refine ⟨s2, .ok bytes, [.read addr [0x24#8, 0x00#8] 1664 (.ok bytes), .readReg addr 0x800D#16 (.ok w)],
          _, by simp only [List.append_assoc]; rfl, hlen, ?_⟩
        rw [hc]
        refine ⟨.ok w, rfl, ?_⟩
        simp only [resolution_val, accessPattern_val, Res.ok_bind]
        exact ⟨_, rfl, by rfl, rfl, rfl, List.length_replicate, ⟨rfl, rfl⟩, rfl,
          rfl, rfl⟩

/-- The constructors of the two drivers are instances of the above, and yield supported drivers. -/
theorem C39_constructed_drivers_supported (m : Mode) (b : Bus σ ER EW) (s : σ) (addr : Byte) :
    (∀ s' d, Driver.new640 (F := F) m b s addr = (s', .ok d) → Supported ⟨m, 24, b⟩ d ∧ d.addr = addr) ∧
    (∀ s' d, Driver.new641 (F := F) m b s addr = (s', .ok d) → Supported ⟨m, 12, b⟩ d ∧ d.addr = addr) := by
  have key : ∀ (C : Type) (fromData : List Byte → Res LibErr C) (toCalib : C → Calib F) (n : Nat) (s' : σ)
      (d : Driver F σ), Driver.new fromData toCalib b n s addr = (s', .ok d) →
      ∃ c, d.calib = toCalib c ∧ d.pixelBuf.length = n ∧ d.addr = addr := by
    intro C fromData toCalib n s' d h
    unfold Driver.new at h
    rcases hc : calibFromI2c fromData b s addr with ⟨s1, r⟩
    rw [hc] at h
    cases r with
    | err e => simp at h
    | panic => simp at h
    | ok c =>
      simp only at h
      unfold Driver.newWithCalibration at h
      rw [readControl_eq] at h
      cases hr : (regRead b s1 addr 0x800D#16).2 with
      | error e => rw [hr] at h; simp at h
      | ok w =>
        rw [hr] at h
        simp only [resolution_val, accessPattern_val, Res.ok_bind, Prod.mk.injEq, Res.ok.injEq] at h
        obtain ⟨_, h⟩ := h
        subst h
        exact ⟨c, rfl, List.length_replicate, rfl⟩
  constructor
  · intro s' d h
    obtain ⟨c, h1, h2, h3⟩ := key _ _ _ _ _ _ h
    refine ⟨⟨Or.inl (by rw [h1]; rfl), ?_, ?_⟩, h3⟩
    · rw [h1]; rfl
    · rw [h2, h1]; exact Nat.mul_comm _ _
  · intro s' d h
    obtain ⟨c, h1, h2, h3⟩ := key _ _ _ _ _ _ h
    refine ⟨⟨Or.inr (by rw [h1]; rfl), ?_, ?_⟩, h3⟩
    · rw [h1]; rfl
    · rw [h2, h1]; exact Nat.mul_comm _ _

/-- **C40.** Every control register getter of the driver performs exactly one transaction, reading two bytes of
register 0x800D; it returns the bus error, or the value the documented bits of the word received stand for.
Apart from the bus, only the cached settings change, to those of the word received. -/
theorem C40_control_getters (env : Env σ ER EW) (d : Driver F (σ × List (Txn ER EW))) (f : CtrlField)
    (hf : f ≠ .stepMode) :
    ∃ s' res d' r, driverGet (recordedEnv env) f hf d = (d', r) ∧
      d'.bus = (s', d.bus.2 ++ [.readReg d.addr 0x800D#16 res]) ∧
      match res with
      | .error e => r = .err (.i2cWriteRead e) ∧ d' = { d with bus := d'.bus }
      | .ok w => (∃ v, r = .ok v ∧ f.code v = bitsAt w f.lo f.width) ∧ Caches d' w ∧
          d' = { d with bus := d'.bus, resCorr := d'.resCorr, accessPattern := d'.accessPattern } := by
  rw [driverGet_eq]
  have hb : (recordedEnv env).bus = recorded env.bus := rfl
  rw [hb, regRead_recorded]
  rcases regRead env.bus d.bus.1 d.addr 0x800D#16 with ⟨s', e | w⟩
  · exact ⟨s', .error e, _, _, rfl, rfl, rfl, rfl⟩
  · exact ⟨s', .ok w, _, _, rfl, rfl, ⟨_, rfl, code_decode f _ (bitsAt_lt ..)⟩, ⟨rfl, rfl⟩, rfl⟩

/-- **C40 (status register).** The status getters perform exactly one transaction, reading two bytes of register
0x8000; they return the bus error or the documented bit of the word received, and change nothing else. -/
theorem C40_status_getters (env : Env σ ER EW) (d : Driver F (σ × List (Txn ER EW))) :
    ∃ s' res,
      let d' := { d with bus := (s', d.bus.2 ++ [Txn.readReg d.addr 0x8000#16 res]) }
      match res with
      | .error e =>
        Driver.lastMeasuredSubpage (recordedEnv env) d = (d', .err (.i2cWriteRead e)) ∧
        Driver.overwriteEnabled (recordedEnv env) d = (d', .err (.i2cWriteRead e)) ∧
        Driver.dataAvailable (recordedEnv env) d = (d', .err (.i2cWriteRead e))
      | .ok w =>
        Driver.lastMeasuredSubpage (recordedEnv env) d = (d', .ok (if w.getLsbD 0 then .one else .zero)) ∧
        Driver.overwriteEnabled (recordedEnv env) d = (d', .ok (w.getLsbD 4)) ∧
        Driver.dataAvailable (recordedEnv env) d =
          (d', .ok (if w.getLsbD 3 then some (if w.getLsbD 0 then .one else .zero) else none)) := by
  have hb : (recordedEnv env).bus = recorded env.bus := rfl
  have hrun := statusRegister_eq (recordedEnv env) d
  rw [hb, regRead_recorded] at hrun
  generalize regRead env.bus d.bus.1 d.addr 0x8000#16 = q at hrun
  obtain ⟨s', e | w⟩ := q
  · refine ⟨s', .error e, ?_, ?_, ?_⟩
    · unfold Driver.lastMeasuredSubpage; rw [dm_bind, hrun]
    · unfold Driver.overwriteEnabled; rw [dm_bind, hrun]
    · unfold Driver.dataAvailable; rw [dm_bind, hrun]
  · have h4 : (⟨w⟩ : StatusReg).overwriteEnabled = w.getLsbD 4 :=
      mask_test (mask := StatusReg.overwriteMask) (by decide) (by decide) w
    refine ⟨s', .ok w, ?_, ?_, ?_⟩
    · unfold Driver.lastMeasuredSubpage
      rw [dm_bind, hrun]
      simp only [DM.lift, status_subpage]
    · unfold Driver.overwriteEnabled
      rw [dm_bind, hrun]
      show (_, Res.ok (StatusReg.overwriteEnabled ⟨w⟩)) = _
      rw [h4]
    · unfold Driver.dataAvailable
      rw [dm_bind, hrun]
      simp only [status_newData]
      cases w.getLsbD 3
      · rfl
      · simp only [if_true]
        rw [dm_bind]
        simp only [DM.lift, status_subpage]
        rfl

example : (Driver.dataAvailable (recordedEnv (σ := SimpleCamera) ⟨.checked, 24, simpleBus⟩)
    (toyDriver Mlx90640.cam 768 (toyCamera 9, []))).2 = .ok (some .one) := by rfl

/-- **C41.** Every control register setter of the driver reads register 0x800D once. If the read fails its error
is returned; if the documented bits already hold the value nothing is written; otherwise exactly one word is
written, in which only that field differs from the word read, and the outcome is that of the write. Apart from the bus,
only the cached settings change, to those of the last word read or (even when that fails) written. -/
theorem C41_control_setters (env : Env σ ER EW) (d : Driver F (σ × List (Txn ER EW))) (f : CtrlField)
    (hf : f ≠ .stepMode) (v : f.Val) :
    ∃ d' r, driverSet (recordedEnv env) f hf v d = (d', r) ∧
      ((∃ e, d'.bus.2 = d.bus.2 ++ [.readReg d.addr 0x800D#16 (.error e)] ∧ r = .err (.i2cWriteRead e) ∧
          d' = { d with bus := d'.bus }) ∨
       (∃ w, d'.bus.2 = d.bus.2 ++ [.readReg d.addr 0x800D#16 (.ok w)] ∧ r = .ok () ∧
          bitsAt w f.lo f.width = f.code v ∧ Caches d' w) ∨
       (∃ w w' we, d'.bus.2 = d.bus.2 ++
            [.readReg d.addr 0x800D#16 (.ok w), .writeReg d.addr 0x800D#16 w' we] ∧
          bitsAt w f.lo f.width ≠ f.code v ∧ f.Replaced w v w' ∧
          (r = match we with | none => .ok () | some e => .err (.i2cWrite e)) ∧ Caches d' w')) ∧
      d' = { d with bus := d'.bus, resCorr := d'.resCorr, accessPattern := d'.accessPattern } := by
  rw [driverSet_eq]
  have hb : (recordedEnv env).bus = recorded env.bus := rfl
  simp only [hb, regRead_recorded, regWrite_recorded]
  rcases regRead env.bus d.bus.1 d.addr 0x800D#16 with ⟨s', e | w⟩
  · exact ⟨_, _, rfl, Or.inl ⟨e, rfl, rfl, rfl⟩, rfl⟩
  · have hc : f.code (f.valueIn w) = bitsAt w f.lo f.width := code_decode f _ (bitsAt_lt ..)
    simp only [hc]
    by_cases h : bitsAt w f.lo f.width = f.code v
    · rw [if_pos h]
      exact ⟨_, _, rfl, Or.inr (Or.inl ⟨w, rfl, rfl, h, rfl, rfl⟩), rfl⟩
    · rw [if_neg h]
      refine ⟨_, _, rfl, Or.inr (Or.inr ⟨w, (f.set ⟨w⟩ v).raw, _, ?_, h, ?_, rfl, rfl, rfl⟩), rfl⟩
      · simp only [List.append_assoc]
        rfl
      · intro i
        exact set_bits f ⟨w⟩ v i

/-- **C41 (overwrite flag).** The same for the driver's only status register setter: bit 4 of register 0x8000.
Nothing but the bus changes. -/
theorem C41_overwrite_setter (env : Env σ ER EW) (d : Driver F (σ × List (Txn ER EW))) (v : Bool) :
    ∃ d' r, Driver.setOverwriteEnabled (recordedEnv env) v d = (d', r) ∧
      ((∃ e, d'.bus.2 = d.bus.2 ++ [.readReg d.addr 0x8000#16 (.error e)] ∧ r = .err (.i2cWriteRead e)) ∨
       (∃ w, d'.bus.2 = d.bus.2 ++ [.readReg d.addr 0x8000#16 (.ok w)] ∧ r = .ok () ∧ w.getLsbD 4 = v) ∨
       (∃ w w' we, d'.bus.2 = d.bus.2 ++
            [.readReg d.addr 0x8000#16 (.ok w), .writeReg d.addr 0x8000#16 w' we] ∧
          w.getLsbD 4 ≠ v ∧ (∀ i, w'.getLsbD i = if i = 4 then v else w.getLsbD i) ∧
          r = match we with | none => .ok () | some e => .err (.i2cWrite e))) ∧
      d' = { d with bus := d'.bus } := by
  rw [setOverwrite_eq]
  have hb : (recordedEnv env).bus = recorded env.bus := rfl
  simp only [hb, regRead_recorded, regWrite_recorded]
  rcases regRead env.bus d.bus.1 d.addr 0x8000#16 with ⟨s', e | w⟩
  · exact ⟨_, _, rfl, Or.inl ⟨e, rfl, rfl⟩, rfl⟩
  · by_cases h : w.getLsbD 4 = v
    · simp only [h, if_true]
      exact ⟨_, _, rfl, Or.inr (Or.inl ⟨w, rfl, rfl, h⟩), rfl⟩
    · simp only [h, if_false]
      refine ⟨_, _, rfl, Or.inr (Or.inr ⟨w, (StatusReg.setOverwriteEnabled ⟨w⟩ v).raw, _, ?_, h, ?_, rfl⟩), rfl⟩
      · simp only [List.append_assoc]
        rfl
      · intro i
        exact setOverwrite_bits ⟨w⟩ v i

/-- A setter call that writes: frame rate of a camera at 2 Hz set to 64 Hz. -/
example : (driverSet (recordedEnv (σ := SimpleCamera) ⟨.checked, 24, simpleBus⟩) .frameRate (by decide)
    FrameRate.sixtyFour (toyDriver Mlx90640.cam 768 (toyCamera 9, []))).1.bus.2 =
    [.readReg 0x33#8 0x800D#16 (.ok 0x1901#16), .writeReg 0x33#8 0x800D#16 0x1B81#16 none] := by rfl

/-- **C42.** `data_available` reads the status register once and returns `Some(subpage)` exactly when bit 3 of
the word received is set, with the subpage from bit 0; `reset_data_available` reads it once and writes the word
received back with only bit 3 cleared. Nothing but the bus changes. -/
theorem C42_data_available_flag (env : Env σ ER EW) (d : Driver F (σ × List (Txn ER EW))) :
    (∃ d' res r, Driver.dataAvailable (recordedEnv env) d = (d', r) ∧ d' = { d with bus := d'.bus } ∧
      d'.bus.2 = d.bus.2 ++ [.readReg d.addr 0x8000#16 res] ∧
      match res with
      | .error e => r = .err (.i2cWriteRead e)
      | .ok w => ∃ o, r = .ok o ∧ (o = none ↔ w.getLsbD 3 = false) ∧
          (∀ s : Subpage, o = some s → (s = .one ↔ w.getLsbD 0 = true))) ∧
    (∃ d' r, Driver.resetDataAvailable (recordedEnv env) d = (d', r) ∧
      ((∃ e, d'.bus.2 = d.bus.2 ++ [.readReg d.addr 0x8000#16 (.error e)] ∧ r = .err (.i2cWriteRead e)) ∨
       (∃ w w' we, d'.bus.2 = d.bus.2 ++
            [.readReg d.addr 0x8000#16 (.ok w), .writeReg d.addr 0x8000#16 w' we] ∧
          (∀ i, w'.getLsbD i = if i = 3 then false else w.getLsbD i) ∧
          r = match we with | none => .ok () | some e => .err (.i2cWrite e))) ∧ d' = { d with bus := d'.bus }) := by
  constructor
  · obtain ⟨s', res, h⟩ := C40_status_getters env d
    cases res with
    | error e => exact ⟨_, .error e, _, h.2.2, rfl, rfl, rfl⟩
    | ok w =>
      refine ⟨_, .ok w, _, h.2.2, rfl, rfl, _, rfl, ?_, ?_⟩
      · cases w.getLsbD 3 <;> simp
      · intro s
        cases w.getLsbD 3 <;> cases w.getLsbD 0 <;> cases s <;> simp
  · unfold Driver.resetDataAvailable
    rw [dm_bind, statusRegister_eq]
    have hb : (recordedEnv env).bus = recorded env.bus := rfl
    simp only [hb, regRead_recorded]
    rcases regRead env.bus d.bus.1 d.addr 0x8000#16 with ⟨s', e | w⟩
    · exact ⟨_, _, rfl, Or.inl ⟨e, rfl, rfl⟩, rfl⟩
    · simp only [setStatusRegister_eq, hb, regWrite_recorded]
      refine ⟨_, _, rfl, Or.inr ⟨w, (StatusReg.resetNewData ⟨w⟩).raw, _, ?_, ?_, rfl⟩, rfl⟩
      · simp only [List.append_assoc]
        rfl
      · intro i
        exact resetNewData_bits ⟨w⟩ i

end Mlx.Props
