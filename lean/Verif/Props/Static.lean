import Verif.Proofs.StaticOps
import Verif.Props.Numeric
import Verif.Props.Calc
import Verif.Props.History
import Verif.Spec.Static
/-
Devices with memory: C41 (second part), C47, C54 and C55.
-/
set_option linter.unusedSectionVars false
set_option autoImplicit false
namespace Mlx.Props
open Mlx Mlx.Spec Mlx.Proofs F32Ops
variable {F σ ER EW : Type} [F32Ops F] {mem : σ → Word → Word}

/-- The simple camera is a device with static memory. -/
theorem simple_static (addr : Byte) : StaticMemory simpleBus addr SimpleCamera.mem where
  read_data s base buf h := by
    simp only [simpleBus, toBe] at h ⊢
    split
    · simp only [be16_toBe]
    · rename_i hne
      rw [if_neg hne] at h
      cases h
  read_mem s base buf := by
    simp only [simpleBus, toBe]
    split <;> rfl
  write_ok s reg v h := by
    simp only [simpleBus, toBe, List.cons_append, List.nil_append] at h ⊢
    split
    · simp only [be16_toBe]
    · rename_i hne
      rw [if_neg hne] at h
      cases h
  write_err s reg v h := by
    simp only [simpleBus, toBe, List.cons_append, List.nil_append] at h ⊢
    split
    · rename_i he
      rw [if_pos he] at h
      exact absurd rfl h
    · rfl

/-! ### Settings -/

/-- **C41 (effect).** On a device with static memory, a control register setter that succeeds leaves its value in
the documented bits and all other bits and memory as they were; the getter then returns that value whenever it
succeeds, and calling the setter again with the same value writes nothing. -/
theorem C41_setter_takes_effect (env : Env σ ER EW) (d : Driver F (σ × List (Txn ER EW)))
    (h : StaticMemory env.bus d.addr mem) (f : CtrlField) (hf : f ≠ .stepMode) (v : f.Val)
    (d' : Driver F (σ × List (Txn ER EW))) (hset : driverSet (recordedEnv env) f hf v d = (d', .ok ())) :
    f.Replaced (mem d.bus.1 0x800D#16) v (mem d'.bus.1 0x800D#16) ∧
    (∀ a, a ≠ 0x800D#16 → mem d'.bus.1 a = mem d.bus.1 a) ∧
    (∀ d'' u, driverGet (recordedEnv env) f hf d' = (d'', .ok u) → u = v) ∧
    (∃ res, (driverSet (recordedEnv env) f hf v d').1.bus.2 = d'.bus.2 ++ [.readReg d.addr 0x800D#16 res]) := by
  have hb : (recordedEnv env).bus = recorded env.bus := rfl
  have main : f.Replaced (mem d.bus.1 0x800D#16) v (mem d'.bus.1 0x800D#16) ∧
      (∀ a, a ≠ 0x800D#16 → mem d'.bus.1 a = mem d.bus.1 a) ∧ d'.addr = d.addr ∧
      bitsAt (mem d'.bus.1 0x800D#16) f.lo f.width = f.code v := by
    rw [driverSet_eq] at hset
    simp only [hb, regRead_recorded, regWrite_recorded] at hset
    obtain ⟨hr, hv⟩ := static_regRead h d.bus.1 0x800D#16
    generalize regRead env.bus d.bus.1 d.addr 0x800D#16 = q at hr hv hset
    obtain ⟨s', e | w⟩ := q
    · simp at hset
    · have hw := hv w rfl
      simp only at hset hr
      have hc : f.code (f.valueIn w) = bitsAt w f.lo f.width := code_decode f _ (bitsAt_lt ..)
      by_cases hcode : f.code (f.valueIn w) = f.code v
      · rw [if_pos hcode] at hset
        simp only [Prod.mk.injEq, and_true] at hset
        subst hset
        simp only [sawControl, hr]
        refine ⟨?_, fun _ _ => trivial, trivial, by rw [← hw, ← hc]; exact hcode⟩
        intro i
        split
        · rename_i hcov
          rw [← hw, ← hcode, hc, bitsAt_testBit]
          unfold CtrlField.Covers at hcov
          rw [show f.lo + (i - f.lo) = i by omega]
          simp [show i - f.lo < f.width by omega]
        · rfl
      · rw [if_neg hcode] at hset
        have hwr := static_regWrite h s' 0x800D#16 (f.set ⟨w⟩ v).raw
        generalize regWrite env.bus s' d.addr 0x800D#16 (f.set ⟨w⟩ v).raw = q at hset hwr
        obtain ⟨s'', _ | e⟩ := q
        · simp only [Prod.mk.injEq, and_true] at hset
          subst hset
          simp only at hwr ⊢
          rw [hwr, hr]
          refine ⟨?_, ?_, rfl, ?_⟩
          · intro i
            simp only [setWord, if_true]
            rw [set_bits, ← hw]
          · intro a ha
            simp only [setWord, if_neg ha]
          · simp only [setWord, if_true]
            exact bitsAt_set f _ v
        · simp at hset
  obtain ⟨h1, h2, ha, h4⟩ := main
  have h' : StaticMemory env.bus d'.addr mem := by rw [ha]; exact h
  refine ⟨h1, h2, ?_, ?_⟩
  · intro d'' u hget
    rw [driverGet_eq] at hget
    simp only [hb, regRead_recorded] at hget
    obtain ⟨hr, hv⟩ := static_regRead h' d'.bus.1 0x800D#16
    generalize regRead env.bus d'.bus.1 d'.addr 0x800D#16 = q at hr hv hget
    obtain ⟨s', e | w⟩ := q
    · simp at hget
    · have hw := hv w rfl
      simp only [Prod.mk.injEq, Res.ok.injEq] at hget
      refine code_inj f _ _ ?_
      rw [← hget.2]
      show f.code (f.decode _) = _
      rw [code_decode f _ (bitsAt_lt ..), hw, h4]
  · rw [driverSet_eq]
    simp only [hb, regRead_recorded]
    obtain ⟨hr, hv⟩ := static_regRead h' d'.bus.1 0x800D#16
    generalize regRead env.bus d'.bus.1 d'.addr 0x800D#16 = q at hr hv
    obtain ⟨s', e | w⟩ := q
    · exact ⟨_, by rw [← ha]⟩
    · have hw := hv w rfl
      have hc : f.code (f.valueIn w) = bitsAt w f.lo f.width := code_decode f _ (bitsAt_lt ..)
      simp only
      rw [hc, hw, h4, if_pos rfl]
      exact ⟨.ok (mem d'.bus.1 0x800D#16), by rw [← ha]; rfl⟩

/-- Setting 32 Hz on a simple camera succeeds. -/
example : (Driver.setFrameRate (recordedEnv (σ := SimpleCamera) ⟨.checked, 24, simpleBus⟩) .thirtyTwo
      (toyDriver Mlx90640.cam 768 (toyCamera 9, []))).2 = .ok () ∧
    (Driver.setFrameRate (recordedEnv (σ := SimpleCamera) ⟨.checked, 24, simpleBus⟩) .thirtyTwo
      (toyDriver Mlx90640.cam 768 (toyCamera 9, []))).1.bus.1.mem 0x800D#16 = 0x1B01#16 := by
  constructor <;> decide +kernel

/-- **C47 (construction).** A driver made by one of the constructors, on a device with static memory, has
cached the settings of the camera's control register. -/
theorem C47_after_construction (m : Mode) (b : Bus σ ER EW) (s s' : σ) (addr : Byte) (d : Driver F σ)
    (h : StaticMemory b addr mem)
    (hc : Driver.new640 m b s addr = (s', .ok d) ∨ Driver.new641 m b s addr = (s', .ok d)) :
    Caches d (mem d.bus 0x800D#16) := by
  have key : ∀ (C : Type) (fromData : List Byte → Res LibErr C) (toCalib : C → Calib F) (n : Nat),
      Driver.new fromData toCalib b n s addr = (s', .ok d) → Caches d (mem d.bus 0x800D#16) := by
    intro C fromData toCalib n hd
    unfold Driver.new at hd
    rcases hcal : calibFromI2c fromData b s addr with ⟨s1, r⟩
    rw [hcal] at hd
    cases r with
    | err e => simp at hd
    | panic => simp at hd
    | ok c =>
      simp only at hd
      unfold Driver.newWithCalibration at hd
      rw [readControl_eq] at hd
      obtain ⟨hr, hv⟩ := static_regRead h s1 0x800D#16
      generalize regRead b s1 addr 0x800D#16 = q at hr hv hd
      obtain ⟨s2, e | w⟩ := q
      · simp at hd
      · have hw := hv w rfl
        simp only [resolution_val, accessPattern_val, Res.ok_bind, Prod.mk.injEq, Res.ok.injEq] at hd
        obtain ⟨_, hd⟩ := hd
        subst hd
        simp only at hr ⊢
        rw [hr, ← hw]
        exact ⟨rfl, rfl⟩
  rcases hc with hc | hc
  · exact key _ _ _ _ hc
  · exact key _ _ _ _ hc

/-- **C47 (one call).** On a device with static memory whose transactions may fail at any time, every driver call
keeps the cached settings in agreement with the control register, unless it is a control register setter whose
write fails; and every control register getter or setter that succeeds establishes that agreement. -/
theorem C47_each_call (env : Env σ ER EW) (d : Driver F σ) (hs : Supported env d)
    (h : StaticMemory env.bus d.addr mem) (op : Op F) :
    (Caches d (mem d.bus 0x800D#16) → ¬ ControlWriteFailed op (op.exec env d).2 →
      Caches (op.exec env d).1 (mem (op.exec env d).1.bus 0x800D#16)) ∧
    (usesControl op = true → (op.exec env d).2 = .ok () →
      Caches (op.exec env d).1 (mem (op.exec env d).1.bus 0x800D#16)) := by
  have hcal := (exec_supported hs op).2.2
  cases hu : usesControl op with
  | false =>
    obtain ⟨h1, h2, h3⟩ := exec_static_other hs h op hu
    refine ⟨fun hc _ => ?_, fun hf => nomatch hf⟩
    rw [h1 _ (by decide)]
    unfold Caches
    rw [h2, h3, hcal]
    exact hc
  | true =>
    obtain ⟨_, ⟨h2, h3⟩ | ⟨e, h2, h3, h4, h5⟩ | ⟨hset, e, h2, h3⟩⟩ := exec_static_control h op hu
    · exact ⟨fun _ _ => h3, fun _ _ => h3⟩
    · refine ⟨fun hc _ => ?_, fun _ hok => ?_⟩
      · rw [h3]
        unfold Caches
        rw [h4, h5, hcal]
        exact hc
      · rw [h2] at hok; cases hok
    · refine ⟨fun _ hn => absurd ⟨hset, e, h2⟩ hn, fun _ hok => ?_⟩
      rw [h2] at hok; cases hok

/-- **C47.** On a device with static memory whose transactions may fail at any time, after any history in which
no control register write failed, the settings used for images are those of the camera's control register. -/
theorem C47_caches_agree (env : Env σ ER EW) (d : Driver F σ) (hs : Supported env d)
    (h : StaticMemory env.bus d.addr mem) (hc : Caches d (mem d.bus 0x800D#16)) (ops : List (Op F))
    (hn : NoControlWriteFailed env ops d) :
    Caches (runOps env ops d) (mem (runOps env ops d).bus 0x800D#16) := by
  induction ops generalizing d with
  | nil => exact hc
  | cons op ops ih =>
    obtain ⟨h1, h2, _⟩ := exec_supported hs op
    exact ih _ h1 (by rw [h2]; exact h) ((C47_each_call env d hs h op).1 hc hn.1) hn.2

/-- **C47 (recovery).** Whatever happened before, after a control register getter or setter that succeeds, and
then any history in which no control register write failed, the settings agree again. -/
theorem C47_recovers (env : Env σ ER EW) (d : Driver F σ) (hs : Supported env d)
    (h : StaticMemory env.bus d.addr mem) (before after : List (Op F)) (op : Op F) (hu : usesControl op = true)
    (hok : (op.exec env (runOps env before d)).2 = .ok ())
    (hn : NoControlWriteFailed env after (runOps env (before ++ [op]) d)) :
    Caches (runOps env (before ++ op :: after) d) (mem (runOps env (before ++ op :: after) d).bus 0x800D#16) := by
  have e1 : runOps env (before ++ [op]) d = (op.exec env (runOps env before d)).1 := by
    unfold runOps; rw [List.foldl_append]; rfl
  have e2 : runOps env (before ++ op :: after) d = runOps env after (runOps env (before ++ [op]) d) := by
    unfold runOps; rw [← List.foldl_append, List.append_assoc]; rfl
  obtain ⟨s1, a1, _⟩ := runOps_supported hs before
  have hb : StaticMemory env.bus (runOps env before d).addr mem := by rw [a1]; exact h
  obtain ⟨s2, a2, _⟩ := exec_supported s1 op
  rw [e2]
  rw [e1] at hn ⊢
  exact C47_caches_agree env _ s2 (by rw [a2]; exact hb) ((C47_each_call env _ s1 hb op).2 hu hok) after hn

/-- **C47 (the unrestricted claim is false).** `set_access_pattern` on a camera that does not acknowledge writes:
the call returns the write error, the control register still says chess, but the driver has switched to the
interleaved pattern for the images it makes. -/
theorem C47_failed_write_breaks_agreement :
    ∃ (env : Env SimpleCamera Unit Unit) (d : Driver Int SimpleCamera) (op : Op Int),
      Supported env d ∧ StaticMemory env.bus d.addr SimpleCamera.mem ∧ Caches d (d.bus.mem 0x800D#16) ∧
      (op.exec env d).2 = .err (.i2cWrite ()) ∧
      CtrlField.accessPattern.valueIn ((op.exec env d).1.bus.mem 0x800D#16) = AccessPattern.chess ∧
      (op.exec env d).1.accessPattern = .interleave := by
  refine ⟨⟨.checked, 24, readOnlyBus⟩, toyDriver Mlx90640.cam 768 (toyCamera 9), .setAccessPattern .interleave,
    ⟨Or.inl rfl, rfl, List.length_replicate⟩, ⟨(simple_static _).1, (simple_static _).2, ?_, ?_⟩, ?_, rfl, ?_, rfl⟩
  · intro s reg v h; cases h
  · intro s reg v h; rfl
  · exact ⟨by decide +kernel, by decide +kernel⟩
  · decide +kernel

/-! ### Images -/

/-- **C55 (data flow, any arithmetic).** On a device with static memory, a subpage image method that succeeds has
converted, with the driver's settings, the frame stored in memory, and left memory alone. -/
theorem C55_frame_of_memory (env : Env σ ER EW) (d : Driver F σ) (hs : Supported env d)
    (h : StaticMemory env.bus d.addr mem) (sp : Subpage) (dest dest' : List F) (d' : Driver F σ) :
    (Driver.generateImageSubpageTo env sp dest d = (d', dest', .ok ()) →
      ∃ px tA, HoldsFrame d.calib.cam sp d.accessPattern (mem d.bus) px ∧
        toTemperatures (ER := ER) (EW := EW) env.mode d sp dest px (frameReadings d.calib.cam sp (mem d.bus)) =
          .ok (tA, dest') ∧ d'.ambientTemp = some tA ∧ mem d'.bus = mem d.bus ∧
        d' = { d with bus := d'.bus, pixelBuf := px, ambient := some tA }) ∧
    (Driver.generateRawImageSubpageTo env sp dest d = (d', dest', .ok ()) →
      ∃ px tA, HoldsFrame d.calib.cam sp d.accessPattern (mem d.bus) px ∧
        toRawImage (ER := ER) (EW := EW) env.mode d sp dest px (frameReadings d.calib.cam sp (mem d.bus)) =
          .ok (tA, dest') ∧ d'.ambientTemp = some tA ∧ mem d'.bus = mem d.bus ∧
        d' = { d with bus := d'.bus, pixelBuf := px, ambient := some tA }) := by
  have key : ∀ conv : Driver F σ → List Byte → RamData → Res (Err ER EW) (F × List F),
      (∀ bus px px' ram, conv { d with bus := bus, pixelBuf := px' } px ram = conv d px ram) →
      imageWith env sp dest d conv = (d', dest', .ok ()) →
      ∃ px tA, HoldsFrame d.calib.cam sp d.accessPattern (mem d.bus) px ∧
        conv d px (frameReadings d.calib.cam sp (mem d.bus)) = .ok (tA, dest') ∧
        d'.ambientTemp = some tA ∧ mem d'.bus = mem d.bus ∧
        d' = { d with bus := d'.bus, pixelBuf := px, ambient := some tA } := by
    intro conv hconv hi
    obtain ⟨hm, hram⟩ := static_readRam hs h sp
    have hk := (readRam_keeps env sp d).1
    unfold imageWith at hi
    generalize Driver.readRam env sp d = q at hm hram hk hi
    obtain ⟨d1, ram | e | _⟩ := q
    · simp only at hm hram hk hi
      obtain ⟨r1, r2⟩ := hram ram rfl
      have hc : conv d1 d1.pixelBuf ram = conv d d1.pixelBuf ram := by
        conv => lhs; rw [hk]
        exact hconv _ _ _ _
      rw [hc] at hi
      cases hv : conv d d1.pixelBuf ram with
      | err e => rw [hv] at hi; simp at hi
      | panic => rw [hv] at hi; simp at hi
      | ok v =>
        rw [hv] at hi
        simp only [Prod.mk.injEq, and_true] at hi
        obtain ⟨h1, h2⟩ := hi
        refine ⟨d1.pixelBuf, v.1, r2, ?_, ?_, ?_, ?_⟩
        · rw [← r1, hv, ← h2]
        · rw [← h1]; rfl
        · rw [← h1]; exact hm
        · rw [← h1, hk]
    · simp at hi
    · simp at hi
  constructor
  · intro hg
    rw [imageSubpage_eq] at hg
    exact key (fun d => toTemperatures env.mode d sp dest) (fun _ _ _ _ => rfl) hg
  · intro hg
    rw [rawImageSubpage_eq] at hg
    exact key (fun d => toRawImage env.mode d sp dest) (fun _ _ _ _ => rfl) hg

/-- **C55 (end to end).** On a device with static memory, in exact arithmetic: when `generate_image_subpage_to`
(or the raw variant) succeeds, element `i` of the destination, for a pixel of the subpage, is the documented
formula applied to the memory word of pixel `i`, its calibration constants, and the frame-wide words in memory;
all other elements are unchanged. The difference between the V_DD word and its calibration value must fit 16
bits (see C23). -/
theorem C55_end_to_end (env : Env σ ER EW) (d : Driver ℝ σ) (hs : Supported env d)
    (h : StaticMemory env.bus d.addr mem) (hcal : Complete d.calib d.calib.cam.numPixels) (sp : Subpage)
    (dest dest' : List ℝ) (d' : Driver ℝ σ)
    (hr : -32768 ≤ (mem d.bus d.calib.cam.vddPixel).toInt - d.calib.vdd25 ∧
      (mem d.bus d.calib.cam.vddPixel).toInt - d.calib.vdd25 ≤ 32767) (i : Nat) :
    let c := d.calib
    let readings := frameReadings c.cam sp (mem d.bus)
    let selected := i < c.cam.numPixels ∧ (c.cam.pixelsInSubpage sp d.accessPattern)[i]? = some true
    let signal := fun (address : Word) offset kV kTa (comp : Option ℝ) =>
      Datasheet.compensatedSignal c d.resCorr d.effectiveEmissivity readings sp d.accessPattern
        (mem d.bus address).toInt offset kV kTa (comp.getD 0)
    (Driver.generateRawImageSubpageTo env sp dest d = (d', dest', .ok ()) →
      dest'.length = dest.length ∧ d'.ambientTemp = some (Datasheet.ambient c readings) ∧
      (¬ selected → dest'[i]? = dest[i]?) ∧
      (selected → i < dest.length → ∃ address offset kV kTa comp, PixelAt c.cam sp i address ∧
        (c.offsetRef sp)[i]? = some offset ∧ (c.kV sp)[i]? = some kV ∧ (c.kTa sp)[i]? = some kTa ∧
        (c.apComp d.accessPattern)[i]? = some comp ∧ dest'[i]? = some (signal address offset kV kTa comp))) ∧
    (Driver.generateImageSubpageTo env sp dest d = (d', dest', .ok ()) →
      dest'.length = dest.length ∧ d'.ambientTemp = some (Datasheet.ambient c readings) ∧
      (¬ selected → dest'[i]? = dest[i]?) ∧
      (selected → i < dest.length → ∃ address offset kV kTa comp alpha kSTo, PixelAt c.cam sp i address ∧
        (c.offsetRef sp)[i]? = some offset ∧ (c.kV sp)[i]? = some kV ∧ (c.kTa sp)[i]? = some kTa ∧
        (c.apComp d.accessPattern)[i]? = some comp ∧ (c.alpha sp)[i]? = some alpha ∧
        c.kSTo[c.cam.basicRange]? = some kSTo ∧
        let tA := Datasheet.ambient c readings
        dest'[i]? = some (Datasheet.object (signal address offset kV kTa comp)
          (Datasheet.sensitivity c readings sp alpha)
          (Datasheet.reflected tA (d.reflectedTemperature.getD (tA - c.cam.selfHeating)) d.effectiveEmissivity)
          kSTo))) := by
  intro c readings selected signal
  have hmem : ∀ {n : Nat} {α : Type} (l : List α), l.length = n → i < n → ∃ x, l[i]? = some x := by
    intro n α l hl hi
    exact ⟨l[i]'(by omega), List.getElem?_eq_getElem _⟩
  have hflag : ¬ selected → (c.cam.pixelsInSubpage sp d.accessPattern)[i]? ≠ some true ∨ c.cam.numPixels ≤ i := by
    intro hn
    by_cases hi : i < c.cam.numPixels
    · exact Or.inl fun hf => hn ⟨hi, hf⟩
    · exact Or.inr (by omega)
  have hsel : selected → ∃ offset kV kTa comp alpha kSTo,
        (c.offsetRef sp)[i]? = some offset ∧ (c.kV sp)[i]? = some kV ∧ (c.kTa sp)[i]? = some kTa ∧
        (c.apComp d.accessPattern)[i]? = some comp ∧ (c.alpha sp)[i]? = some alpha ∧
        c.kSTo[c.cam.basicRange]? = some kSTo := by
    intro hsel
    obtain ⟨o, h1⟩ := hmem _ (hcal.offsetRef sp) hsel.1
    obtain ⟨kV, h2⟩ := hmem _ (hcal.kV sp) hsel.1
    obtain ⟨kTa, h3⟩ := hmem _ (hcal.kTa sp) hsel.1
    obtain ⟨cp, h4⟩ := hmem _ (hcal.apComp d.accessPattern) hsel.1
    obtain ⟨al, h5⟩ := hmem _ (hcal.alpha sp) hsel.1
    exact ⟨o, kV, kTa, cp, al, c.kSTo[c.cam.basicRange]'hcal.kSTo, h1, h2, h3, h4, h5, List.getElem?_eq_getElem _⟩
  have hword : ∀ address : Word, be16 (hiByte (mem d.bus address)) (loByte (mem d.bus address)) =
      mem d.bus address := fun _ => be16_toBe _
  have hamb : ∀ tA common, CommonIrData.new (ε := Err ER EW) env.mode d.resCorr d.emissivity c readings = .ok common →
      tA = common.tA → tA = Datasheet.ambient c readings := by
    intro tA common hn ht
    exact ht.trans (new_real hr hn).2.2.2
  constructor
  · intro hg
    obtain ⟨px, tA, hpx, hconv, hamb', _⟩ := (C55_frame_of_memory env d hs h sp dest dest' d').2 hg
    obtain ⟨common, hn, ht, hl, _⟩ := rawIr_ok hconv
    refine ⟨hl, by rw [hamb', hamb tA common hn ht], ?_, ?_⟩
    · intro hns
      refine ((C18_unselected_pixels_kept env.mode c d.emissivity d.resCorr tA none px readings sp d.accessPattern
        _ dest dest').1 hconv).2 i ?_
      rcases hflag hns with hf | hf
      · exact Or.inl hf
      · exact Or.inr (Or.inr (Or.inl (by rw [hcal.offsetRef]; exact hf)))
    · intro hsl hd
      obtain ⟨offset, kV, kTa, comp, alpha, kSTo, h1, h2, h3, h4, h5, h6⟩ := hsel hsl
      obtain ⟨address, hat, hhi, hlo⟩ := hpx i hsl.1 hsl.2
      refine ⟨address, offset, kV, kTa, comp, hat, h1, h2, h3, h4, ?_⟩
      have := ((C55_documented_formulas (ε := Err ER EW) env.mode c d.emissivity d.resCorr tA none px readings sp
        d.accessPattern _ dest dest' hr i hsl.2 hd _ _ hhi hlo offset h1 kV kTa alpha h2 h3 h5 comp h4 kSTo h6).1
        hconv).2
      rw [hword] at this
      exact this
  · intro hg
    obtain ⟨px, tA, hpx, hconv, hamb', _⟩ := (C55_frame_of_memory env d hs h sp dest dest' d').1 hg
    obtain ⟨common, k, hn, ht, _, hl, _⟩ := temps_ok hconv
    have hta := hamb tA common hn ht
    refine ⟨hl, by rw [hamb', hta], ?_, ?_⟩
    · intro hns
      refine ((C18_unselected_pixels_kept env.mode c d.emissivity d.resCorr tA d.reflected px readings sp
        d.accessPattern _ dest dest').2.1 hconv).2 i ?_
      rcases hflag hns with hf | hf
      · exact Or.inl (Or.inl hf)
      · exact Or.inl (Or.inr (Or.inr (Or.inl (by rw [hcal.offsetRef]; exact hf))))
    · intro hsl hd
      obtain ⟨offset, kV, kTa, comp, alpha, kSTo, h1, h2, h3, h4, h5, h6⟩ := hsel hsl
      obtain ⟨address, hat, hhi, hlo⟩ := hpx i hsl.1 hsl.2
      refine ⟨address, offset, kV, kTa, comp, alpha, kSTo, hat, h1, h2, h3, h4, h5, h6, ?_⟩
      have := ((C55_documented_formulas (ε := Err ER EW) env.mode c d.emissivity d.resCorr tA d.reflected px readings
        sp d.accessPattern _ dest dest' hr i hsl.2 hd _ _ hhi hlo offset h1 kV kTa alpha h2 h3 h5 comp h4 kSTo h6).2
        hconv).2
      rw [hword, hta] at this
      exact this

/-- The hypotheses of `C55_end_to_end` are met by a driver on a simple camera. -/
example : ∃ d : Driver ℝ SimpleCamera,
    Supported ⟨.checked, 24, simpleBus⟩ d ∧ Complete d.calib d.calib.cam.numPixels ∧
    (Driver.generateImageSubpageTo ⟨.checked, 24, simpleBus⟩ .zero (List.replicate 768 0) d).2.2 = .ok () := by
  refine ⟨⟨toyCamera 9, 0x33#8, toyCalib Mlx90640.cam 768 none, List.replicate (2 * 768) 0#8, 1, none, 1, .chess,
    none⟩, ⟨Or.inl rfl, rfl, List.length_replicate⟩, toyCalib_complete _ _ _ (by decide), ?_⟩
  decide +kernel

/-! ### Acknowledged frames -/

/-- **C54 (quiet camera).** On a device whose memory does not change during the call: when
`generate_image_if_ready` returns `Ok(true)`, memory named a new frame when the call began, the image is the
conversion of exactly that frame of the named subpage, and afterwards memory is as it was except for the
cleared new-data flag. -/
theorem C54_single_frame_when_quiet (env : Env σ ER EW) (d : Driver F σ) (hs : Supported env d)
    (h : StaticMemory env.bus d.addr mem) (dest dest' : List F) (d' : Driver F σ)
    (hg : Driver.generateImageIfReady env dest d = (d', dest', .ok true)) :
    let status := mem d.bus 0x8000#16
    let sp := statusSubpage status
    status.getLsbD 3 = true ∧
    (∃ px tA, HoldsFrame d.calib.cam sp d.accessPattern (mem d.bus) px ∧
      toTemperatures (ER := ER) (EW := EW) env.mode d sp dest px (frameReadings d.calib.cam sp (mem d.bus)) =
        .ok (tA, dest') ∧ d'.ambientTemp = some tA) ∧
    (∀ a, a ≠ 0x8000#16 → mem d'.bus a = mem d.bus a) ∧
    (∀ i, (mem d'.bus 0x8000#16).getLsbD i = if i = 3 then false else status.getLsbD i) := by
  intro status sp
  rw [ifReady_eq] at hg
  obtain ⟨hr, hv⟩ := static_regRead h d.bus 0x8000#16
  generalize regRead env.bus d.bus d.addr 0x8000#16 = q at hr hv hg
  obtain ⟨s', e | w⟩ := q
  · simp at hg
  · have hw : w = status := hv w rfl
    simp only at hr hg
    rw [hw] at hg
    by_cases h3 : status.getLsbD 3 = true
    · rw [if_pos h3] at hg
      have hs' : Supported env { d with bus := s' } := ⟨hs.1, hs.2, hs.3⟩
      cases hi : Driver.generateImageSubpageTo env (if status.getLsbD 0 then .one else .zero) dest
          { d with bus := s' } with
      | mk d1 rest =>
        obtain ⟨dest1, r⟩ := rest
        rw [hi] at hg
        cases r with
        | err e => simp at hg
        | panic => simp at hg
        | ok u =>
          obtain ⟨px, tA, hpx, hconv, hamb, hm, hd1⟩ :=
            (C55_frame_of_memory env { d with bus := s' } hs' h _ dest dest1 d1).1 hi
          simp only [hr] at hpx hconv hm
          have ha : d1.addr = d.addr := by rw [hd1]
          have hwr := static_regWrite (mem := mem) h d1.bus 0x8000#16 (StatusReg.resetNewData ⟨status⟩).raw
          simp only [ha] at hg
          generalize regWrite env.bus d1.bus d.addr 0x8000#16 (StatusReg.resetNewData ⟨status⟩).raw = q at hg hwr
          obtain ⟨s'', _ | e⟩ := q
          · simp only [Prod.mk.injEq, and_true] at hg
            obtain ⟨g1, g2⟩ := hg
            simp only [hm] at hwr
            subst g1 g2
            refine ⟨h3, ⟨px, tA, hpx, hconv, hamb⟩, ?_, ?_⟩
            · intro a ha'
              show mem s'' a = _
              rw [hwr]
              simp only [setWord, if_neg ha']
            · intro i
              show (mem s'' 0x8000#16).getLsbD i = _
              rw [hwr]
              simp only [setWord, if_true]
              exact resetNewData_bits ⟨status⟩ i
          · simp at hg
    · rw [if_neg h3] at hg
      simp at hg

/-- Frames for the counterexample: every pixel word is `v`, a new frame of subpage 0 is flagged. -/
def flatFrame (v : Word) : Word → Word := fun a => if a = 0x8000#16 then 8#16 else v

/-- The image a driver makes of subpage 0 when the camera quietly holds memory `M`. -/
def quietImage (M : Word → Word) (dest : List Int) : List Int :=
  (Driver.generateImageSubpageTo ⟨.checked, 24, simpleBus⟩ .zero dest
    (toyDriver Mlx90640.cam 768 ⟨0x33#8, M⟩)).2.1

/-- **C54 (the unrestricted claim is false).** A camera that finishes its next measurement five transactions
into the call: `generate_image_if_ready` returns `Ok(true)`, but the image is that of neither frame, and the next
call reports that there is no new frame although the second one was never delivered. -/
theorem C54_torn_frame :
    ∃ (d : Driver Int UpdatingCamera) (dest : List Int) (M₁ M₂ : Word → Word),
      d.bus.now.mem = M₁ ∧ d.bus.next = M₂ ∧
      let env : Env UpdatingCamera Unit Unit := ⟨.checked, 24, updatingBus⟩
      let first := Driver.generateImageIfReady env dest d
      first.2.2 = .ok true ∧ first.1.bus.wait = 0 ∧
      first.2.1 ≠ quietImage M₁ dest ∧ first.2.1 ≠ quietImage M₂ dest ∧
      (Driver.generateImageIfReady env dest first.1).2.2 = .ok false := by
  refine ⟨toyDriver Mlx90640.cam 768 ⟨⟨0x33#8, flatFrame 20⟩, flatFrame 30, 5⟩, List.replicate 768 0, _, _, rfl,
    rfl, ?_⟩
  refine ⟨?_, ?_, ?_, ?_, ?_⟩ <;> decide +kernel

end Mlx.Props
