import Verif.Proofs.Recorder
import Verif.Props.Static
/-
The recorder used to state properties of bus traffic does not change behaviour: C60.
-/
set_option linter.unusedSectionVars false
set_option autoImplicit false
namespace Mlx.Props
open Mlx Mlx.Spec Mlx.Proofs F32Ops
variable {F σ ER EW : Type} [F32Ops F]

/-- **C60 (one call).** With a recorder attached to the bus, every driver call has the same outcome and leaves
the same driver and bus as without. -/
theorem C60_recorder_transparent (env : Env σ ER EW) (op : Op F) (d : Driver F (σ × List (Txn ER EW))) :
    (forget (op.exec (recordedEnv env) d).1, (op.exec (recordedEnv env) d).2) = op.exec env (forget d) := by
  have hb : (recordedEnv env).bus = recorded env.bus := rfl
  have hm : (recordedEnv env).mode = env.mode := rfl
  have hrd : ∀ reg, regRead env.bus (forget d).bus (forget d).addr reg = regRead env.bus d.bus.1 d.addr reg :=
    fun _ => rfl
  have himg : ∀ (sp : Subpage) (dest : List F) (d : Driver F (σ × List (Txn ER EW))),
      (forget (Driver.generateImageSubpageTo (recordedEnv env) sp dest d).1,
        (Driver.generateImageSubpageTo (recordedEnv env) sp dest d).2) =
      Driver.generateImageSubpageTo env sp dest (forget d) := by
    intro sp dest d
    rw [imageSubpage_eq, imageSubpage_eq]
    exact recorded_image env sp dest d _ (fun d => toTemperatures env.mode d sp dest) (fun _ _ _ => rfl)
  have hdisc : ∀ {α : Type} (r : Driver.ImageResult F (σ × List (Txn ER EW)) ER EW α)
      (r' : Driver.ImageResult F σ ER EW α), (forget r.1, r.2) = r' →
      (forget (discardImage r).1, (discardImage r).2) = discardImage r' := by
    intro α r r' h
    subst h
    obtain ⟨r1, r2, r3⟩ := r
    cases r3 <;> rfl
  have hget : ∀ f hf, (forget (discard (driverGet (recordedEnv env) f hf d)).1,
      (discard (driverGet (recordedEnv env) f hf d)).2) = discard (driverGet env f hf (forget d)) := by
    intro f hf
    rw [driverGet_eq, driverGet_eq, hb, regRead_recorded, hrd]
    generalize regRead env.bus d.bus.1 d.addr 0x800D#16 = q
    obtain ⟨s, e | w⟩ := q <;> rfl
  have hset : ∀ f hf v, (forget (discard (driverSet (recordedEnv env) f hf v d)).1,
      (discard (driverSet (recordedEnv env) f hf v d)).2) = discard (driverSet env f hf v (forget d)) := by
    intro f hf v
    rw [driverSet_eq, driverSet_eq, hb, regRead_recorded, hrd]
    generalize regRead env.bus d.bus.1 d.addr 0x800D#16 = q
    obtain ⟨s, e | w⟩ := q
    · rfl
    · simp only
      by_cases h : f.code (f.valueIn w) = f.code v
      · rw [if_pos h, if_pos h]; rfl
      · rw [if_neg h, if_neg h, regWrite_recorded]
        have : (forget d).addr = d.addr := rfl
        rw [this]
        generalize regWrite env.bus s d.addr 0x800D#16 (f.set ⟨w⟩ v).raw = q2
        obtain ⟨s2, _ | e⟩ := q2 <;> rfl
  cases op with
  | lastMeasuredSubpage =>
    show (forget (discard (Driver.lastMeasuredSubpage (recordedEnv env) d)).1, _) =
      discard (Driver.lastMeasuredSubpage env (forget d))
    unfold Op.exec Driver.lastMeasuredSubpage
    simp only [dm_bind, statusRegister_eq, hb, regRead_recorded, hrd]
    generalize regRead env.bus d.bus.1 d.addr 0x8000#16 = q
    obtain ⟨s, e | w⟩ := q
    · rfl
    · simp only [DM.lift, status_subpage]; rfl
  | dataAvailable =>
    show (forget (discard (Driver.dataAvailable (recordedEnv env) d)).1, _) =
      discard (Driver.dataAvailable env (forget d))
    unfold Op.exec Driver.dataAvailable
    simp only [dm_bind, statusRegister_eq, hb, regRead_recorded, hrd]
    generalize regRead env.bus d.bus.1 d.addr 0x8000#16 = q
    obtain ⟨s, e | w⟩ := q
    · rfl
    · simp only [status_newData]
      cases w.getLsbD 3
      · rfl
      · simp only [if_true]
        rw [dm_bind, dm_bind]
        simp only [DM.lift, status_subpage]
        rfl
  | overwriteEnabled =>
    show (forget (discard (Driver.overwriteEnabled (recordedEnv env) d)).1, _) =
      discard (Driver.overwriteEnabled env (forget d))
    unfold Op.exec Driver.overwriteEnabled
    simp only [dm_bind, statusRegister_eq, hb, regRead_recorded, hrd]
    generalize regRead env.bus d.bus.1 d.addr 0x8000#16 = q
    obtain ⟨s, e | w⟩ := q <;> rfl
  | resetDataAvailable =>
    show (forget (discard (Driver.resetDataAvailable (recordedEnv env) d)).1,
      (discard (Driver.resetDataAvailable (recordedEnv env) d)).2) =
      discard (Driver.resetDataAvailable env (forget d))
    rw [resetDataAvailable_eq, resetDataAvailable_eq, hb, regRead_recorded, hrd]
    generalize regRead env.bus d.bus.1 d.addr 0x8000#16 = q
    obtain ⟨s, e | w⟩ := q
    · rfl
    · simp only
      rw [regWrite_recorded]
      have : (forget d).addr = d.addr := rfl
      rw [this]
      generalize regWrite env.bus s d.addr 0x8000#16 (StatusReg.resetNewData ⟨w⟩).raw = q2
      obtain ⟨s2, _ | e⟩ := q2 <;> rfl
  | setOverwriteEnabled v =>
    show (forget (discard (Driver.setOverwriteEnabled (recordedEnv env) v d)).1, 
      (discard (Driver.setOverwriteEnabled (recordedEnv env) v d)).2) =
      discard (Driver.setOverwriteEnabled env v (forget d))
    rw [setOverwrite_eq, setOverwrite_eq, hb, regRead_recorded, hrd]
    generalize regRead env.bus d.bus.1 d.addr 0x8000#16 = q
    obtain ⟨s, e | w⟩ := q
    · rfl
    · simp only
      by_cases h : w.getLsbD 4 = v
      · rw [if_pos h, if_pos h]; rfl
      · rw [if_neg h, if_neg h, regWrite_recorded]
        have : (forget d).addr = d.addr := rfl
        rw [this]
        generalize regWrite env.bus s d.addr 0x8000#16 (StatusReg.setOverwriteEnabled ⟨w⟩ v).raw = q2
        obtain ⟨s2, _ | e⟩ := q2 <;> rfl
  | subpagesEnabled => exact hget .useSubpages (by decide)
  | dataHoldEnabled => exact hget .dataHold (by decide)
  | subpageRepeat => exact hget .subpageRepeat (by decide)
  | selectedSubpage => exact hget .subpage (by decide)
  | frameRate => exact hget .frameRate (by decide)
  | resolution => exact hget .resolution (by decide)
  | accessPattern => exact hget .accessPattern (by decide)
  | setUseSubpages v => exact hset .useSubpages (by decide) v
  | setDataHold v => exact hset .dataHold (by decide) v
  | setSubpageRepeat v => exact hset .subpageRepeat (by decide) v
  | setSubpage v => exact hset .subpage (by decide) v
  | setFrameRate v => exact hset .frameRate (by decide) v
  | setResolution v => exact hset .resolution (by decide) v
  | setAccessPattern v => exact hset .accessPattern (by decide) v
  | overrideEmissivity v => rfl
  | useDefaultEmissivity => rfl
  | setReflectedTemperature v => rfl
  | generateRawImageSubpageTo sp dest =>
    refine hdisc _ _ ?_
    rw [rawImageSubpage_eq, rawImageSubpage_eq]
    exact recorded_image env sp dest d _ (fun d => toRawImage env.mode d sp dest) (fun _ _ _ => rfl)
  | generateImageSubpageTo sp dest => exact hdisc _ _ (himg sp dest d)
  | generateImageTo dest =>
    refine hdisc _ _ ?_
    rw [generateImageTo_eq, generateImageTo_eq, hb, regRead_recorded, hrd]
    generalize regRead env.bus d.bus.1 d.addr 0x8000#16 = q
    obtain ⟨s, e | w⟩ := q
    · rfl
    · exact himg _ dest _
  | generateImageIfReady dest =>
    refine hdisc _ _ ?_
    rw [ifReady_eq, ifReady_eq, hb, regRead_recorded, hrd]
    generalize regRead env.bus d.bus.1 d.addr 0x8000#16 = q
    obtain ⟨s, e | w⟩ := q
    · rfl
    · simp only
      cases w.getLsbD 3
      · rfl
      · simp only [if_true]
        have h := himg (if w.getLsbD 0 then .one else .zero) dest
          { d with bus := (s, d.bus.2 ++ [Txn.readReg d.addr 0x8000#16 (.ok w)]) }
        have hf : ({ forget d with bus := s } : Driver F σ) = forget
          { d with bus := (s, d.bus.2 ++ [Txn.readReg d.addr 0x8000#16 (.ok w)]) } := rfl
        rw [hf, ← h]
        generalize Driver.generateImageSubpageTo (recordedEnv env) (if w.getLsbD 0 then .one else .zero) dest
          { d with bus := (s, d.bus.2 ++ [Txn.readReg d.addr 0x8000#16 (.ok w)]) } = q2
        obtain ⟨d2, dest2, _ | e | _⟩ := q2
        · simp only [regWrite_recorded]
          have h1 : (forget d2).addr = d2.addr := rfl
          have h2 : (forget d2).bus = d2.bus.1 := rfl
          rw [h1, h2]
          generalize regWrite env.bus d2.bus.1 d2.addr 0x8000#16 (StatusReg.resetNewData ⟨w⟩).raw = q3
          obtain ⟨s3, _ | e⟩ := q3 <;> rfl
        · rfl
        · rfl
  | synchronize fuel =>
    show (forget (discard (Driver.synchronize (recordedEnv env) fuel d)).1,
      (discard (Driver.synchronize (recordedEnv env) fuel d)).2) =
      discard (Driver.synchronize env fuel (forget d))
    rw [synchronize_eq, synchronize_eq, hb, regRead_recorded, hrd]
    generalize regRead env.bus d.bus.1 d.addr 0x8000#16 = q
    obtain ⟨s, e | w⟩ := q
    · rfl
    · simp only
      rw [regWrite_recorded]
      have : (forget d).addr = d.addr := rfl
      rw [this]
      generalize regWrite env.bus s d.addr 0x8000#16 (syncWord w) = q2
      obtain ⟨s2, _ | e⟩ := q2
      · simp only
        have hp := recorded_poll env fuel { d with bus := (s2,
          d.bus.2 ++ [Txn.readReg d.addr 0x8000#16 (.ok w)] ++ [Txn.writeReg d.addr 0x8000#16 (syncWord w) none]) }
        exact congrArg (fun r => discard r) hp
      · rfl

/-- **C60 (histories).** The same for every history of calls: attaching a recorder changes neither the settings,
the calibration nor the device the driver ends up with. -/
theorem C60_recorder_histories (env : Env σ ER EW) (ops : List (Op F)) (d : Driver F (σ × List (Txn ER EW))) :
    forget (runOps (recordedEnv env) ops d) = runOps env ops (forget d) := by
  unfold runOps
  induction ops generalizing d with
  | nil => rfl
  | cons op ops ih =>
    rw [List.foldl_cons, List.foldl_cons, ih]
    exact congrArg (fun d => List.foldl _ d ops) (congrArg Prod.fst (C60_recorder_transparent env op d))

end Mlx.Props
