import Verif.Spec.Interference
import Verif.Props.Restart
import Verif.Props.Locality
/-
C98: a camera that somebody else may change too.
-/
set_option linter.unusedSectionVars false
set_option autoImplicit false
namespace Mlx.Props
open Mlx Mlx.Spec Mlx.Proofs F32Ops
variable {F σ ER EW : Type} [F32Ops F] {mem : σ → Word → Word}

/-! ### What the driver takes the settings to be -/

/-- The settings that the driver makes images with. -/
def Believes (d : Driver F σ) (p : AccessPattern) (r : Resolution) : Prop :=
  d.accessPattern = p ∧ d.resCorr = resolutionCorrection d.calib.resolution r

theorem believed_append (f : CtrlField) (v : f.Val) (op : Op F) (outcome : Res (Err ER EW) Unit) (w : Word)
    (calls : List (Op F × Res (Err ER EW) Unit × Word)) :
    believed f v (calls ++ [(op, outcome, w)]) = shows f (believed f v calls) op outcome w := by
  unfold believed
  rw [List.foldl_append]
  rfl

/-- A setter that fails to write takes the value asked for as set. -/
theorem driverSet_believes {env : Env σ ER EW} {d : Driver F σ} (h : StaticMemory env.bus d.addr mem)
    (f : CtrlField) (hf : f ≠ .stepMode) (v : f.Val) (e : EW) (he : (driverSet env f hf v d).2 = .err (.i2cWrite e)) :
    ∃ w, f.Replaced (mem (driverSet env f hf v d).1.bus 0x800D#16) v w ∧ Caches (driverSet env f hf v d).1 w := by
  rw [driverSet_eq] at he ⊢
  obtain ⟨hr, hv⟩ := static_regRead h d.bus 0x800D#16
  generalize regRead env.bus d.bus d.addr 0x800D#16 = q at hr hv he ⊢
  obtain ⟨s', e' | w⟩ := q
  · simp at he
  · have hw := hv w rfl
    simp only at hr he ⊢
    by_cases hcode : f.code (f.valueIn w) = f.code v
    · rw [if_pos hcode] at he
      simp at he
    · rw [if_neg hcode] at he ⊢
      have hwr := static_regWrite h s' 0x800D#16 (f.set ⟨w⟩ v).raw
      generalize regWrite env.bus s' d.addr 0x800D#16 (f.set ⟨w⟩ v).raw = q at hwr he ⊢
      obtain ⟨s'', _ | e'⟩ := q
      · simp at he
      · refine ⟨(f.set ⟨w⟩ v).raw, fun i => ?_, rfl, rfl⟩
        simp only at hwr ⊢
        rw [set_bits, hwr, hr, ← hw]

theorem call_believes {env : Env σ ER EW} {d : Driver F σ} (hs : Supported env d) (h : StaticMemory env.bus d.addr mem)
    (op : Op F) (p : AccessPattern) (r : Resolution) (hb : Believes d p r) :
    Believes (op.exec env d).1
      (shows .accessPattern p op (op.exec env d).2 (mem (op.exec env d).1.bus 0x800D#16))
      (shows .resolution r op (op.exec env d).2 (mem (op.exec env d).1.bus 0x800D#16)) := by
  have hcal := (exec_supported hs op).2.2
  cases hu : usesControl op with
  | false =>
    obtain ⟨_, h2, h3⟩ := exec_static_other hs h op hu
    unfold Believes shows
    rw [h2, h3, hcal, hu]
    exact hb
  | true =>
    obtain ⟨_, ⟨h2, h3⟩ | ⟨e, h2, h3, h4, h5⟩ | ⟨hset, e, h2, h3⟩⟩ := exec_static_control h op hu
    · unfold Believes shows
      rw [h2, hu]
      exact h3
    · unfold Believes shows
      rw [h2, h4, h5, hcal, hu]
      exact hb
    · have key : ∀ (f : CtrlField) (hf : f ≠ .stepMode) (v : f.Val), op.exec env d = discard (driverSet env f hf v d) →
          asks op f = some v → (∀ g, g ≠ f → asks op g = none) →
          Believes (op.exec env d).1
            (shows .accessPattern p op (op.exec env d).2 (mem (op.exec env d).1.bus 0x800D#16))
            (shows .resolution r op (op.exec env d).2 (mem (op.exec env d).1.bus 0x800D#16)) := by
        intro f hf v he h1 h2'
        have he2 : (driverSet env f hf v d).2 = .err (.i2cWrite e) := by
          rw [he] at h2
          unfold discard at h2
          revert h2
          cases (driverSet env f hf v d).2 <;> simp
        obtain ⟨w, hw, hc⟩ := driverSet_believes h f hf v e he2
        have hnext : ∀ (g : CtrlField) (x : g.Val),
            shows g x op (op.exec env d).2 (mem (op.exec env d).1.bus 0x800D#16) = g.valueIn w := by
          intro g x
          have : (op.exec env d).1 = (driverSet env f hf v d).1 := by rw [he]; rfl
          unfold shows
          rw [h2, hu, this]
          dsimp only
          exact ((settled_replaced (ask := asks op) h1 h2' hw).1 g).symm
        rw [hnext, hnext]
        have : (op.exec env d).1 = (driverSet env f hf v d).1 := by rw [he]; rfl
        rw [this]
        exact hc
      clear hcal hu h2 h3
      cases op with
      | setUseSubpages v => exact key .useSubpages (by decide) v rfl rfl (fun g hg => by cases g <;> first | rfl | exact absurd rfl hg)
      | setDataHold v => exact key .dataHold (by decide) v rfl rfl (fun g hg => by cases g <;> first | rfl | exact absurd rfl hg)
      | setSubpageRepeat v => exact key .subpageRepeat (by decide) v rfl rfl (fun g hg => by cases g <;> first | rfl | exact absurd rfl hg)
      | setSubpage v => exact key .subpage (by decide) v rfl rfl (fun g hg => by cases g <;> first | rfl | exact absurd rfl hg)
      | setFrameRate v => exact key .frameRate (by decide) v rfl rfl (fun g hg => by cases g <;> first | rfl | exact absurd rfl hg)
      | setResolution v => exact key .resolution (by decide) v rfl rfl (fun g hg => by cases g <;> first | rfl | exact absurd rfl hg)
      | setAccessPattern v => exact key .accessPattern (by decide) v rfl rfl (fun g hg => by cases g <;> first | rfl | exact absurd rfl hg)
      | _ => exact nomatch hset

theorem disturbed_supported {env : Env σ ER EW} {d d1 : Driver F σ} {calls : List (Op F × Res (Err ER EW) Unit × Word)}
    (hs : Supported env d) (hx : Disturbed env mem d calls d1) :
    Supported env d1 ∧ d1.addr = d.addr ∧ d1.calib = d.calib := by
  induction hx with
  | start => exact ⟨hs, rfl, rfl⟩
  | call op _ ih =>
    obtain ⟨h1, h2, h3⟩ := ih
    obtain ⟨h4, h5, h6⟩ := exec_supported h1 op
    exact ⟨h4, h5.trans h2, h6.trans h3⟩
  | disturbance s _ ih => exact ⟨⟨ih.1.1, ih.1.2, ih.1.3⟩, ih.2⟩

theorem disturbed_believes {env : Env σ ER EW} {d d1 : Driver F σ} {calls : List (Op F × Res (Err ER EW) Unit × Word)}
    (hs : Supported env d) (h : StaticMemory env.bus d.addr mem) (p : AccessPattern) (r : Resolution) (hb : Believes d p r)
    (hx : Disturbed env mem d calls d1) : Believes d1 (believed .accessPattern p calls) (believed .resolution r calls) := by
  induction hx with
  | start => exact hb
  | call op hx ih =>
    obtain ⟨hs1, ha, _⟩ := disturbed_supported hs hx
    rw [believed_append, believed_append]
    exact call_believes hs1 (by rw [ha]; exact h) op _ _ ih
  | disturbance s _ ih => exact ih

/-! ### C98 -/

/-- Any access pattern and resolution are those of some control register word. -/
theorem word_exists (p : AccessPattern) (r : Resolution) :
    ∃ w, CtrlField.accessPattern.valueIn w = p ∧ CtrlField.resolution.valueIn w = r := by
  have set : ∀ (f : CtrlField) (w : Word) (v : f.Val), ∃ w', f.Replaced w v w' :=
    fun f w v => ⟨(f.set ⟨w⟩ v).raw, fun i => set_bits f ⟨w⟩ v i⟩
  obtain ⟨w1, h1⟩ := set .accessPattern 0#16 p
  obtain ⟨w2, h2⟩ := set .resolution w1 r
  exact ⟨w2, (valueIn_replaced_other (g := .accessPattern) (by decide) h2).trans (valueIn_replaced h1), valueIn_replaced h2⟩

theorem seenAs_control (E : Word → Word) (w : Word) (M : Word → Word) : seenAs E w M 0x800D#16 = w := by
  unfold seenAs; rw [if_pos rfl]

theorem seenAs_ram (E : Word → Word) (w : Word) (M : Word → Word) {a : Word} (h : a.toNat < 0x0800) :
    seenAs E w M a = M a := by
  unfold seenAs
  rw [if_neg (fun hc => by rw [hc] at h; exact absurd h (by decide)), if_neg (by omega)]

theorem seenAs_eeprom (E : Word → Word) (w : Word) (M : Word → Word) :
    SameEeprom (eepromOf E) (eepromOf (seenAs E w M)) := by
  intro a h1 h2
  have ha : (BitVec.ofNat 16 a).toNat = a := by
    rw [BitVec.toNat_ofNat, Nat.mod_eq_of_lt (by omega)]
  unfold eepromOf seenAs
  rw [if_neg (eeprom_still h1 h2).2, if_pos (by rw [ha]; exact ⟨h1, h2⟩)]

theorem caches_of_believes {d : Driver F σ} {p : AccessPattern} {r : Resolution} (hb : Believes d p r) {w : Word}
    (hp : CtrlField.accessPattern.valueIn w = p) (hr : CtrlField.resolution.valueIn w = r) : Caches d w := by
  subst hp hr
  exact hb

/-- **C98 (MLX90640).** A camera that others may change too, in any way, between the calls. What a driver makes is the
documented function of the memory that it takes the camera to have: the RAM and the status register of the moment, the
EEPROM as it was when the driver was made, and for access pattern and resolution what its own calls have shown - never the control
register of the moment. -/
theorem C98_camera_640 (m : Mode) (b : Bus σ ER EW) (s s' : σ) (addr : Byte) (h : StaticMemory b addr mem)
    (d : Driver ℝ σ) (hd : Driver.new640 m b s addr = (s', .ok d)) (hreg : Ee640.Regular (eepromOf (mem s)))
    (calls : List (Op ℝ × Res (Err ER EW) Unit × Word)) (d1 : Driver ℝ σ) (hx : Disturbed ⟨m, 24, b⟩ mem d calls d1)
    (w : Word)
    (hp : CtrlField.accessPattern.valueIn w = believed .accessPattern (CtrlField.accessPattern.valueIn (mem s 0x800D#16)) calls)
    (hr : CtrlField.resolution.valueIn w = believed .resolution (CtrlField.resolution.valueIn (mem s 0x800D#16)) calls)
    (dest dest' : List ℝ) (d' : Driver ℝ σ) :
    let env : Env σ ER EW := ⟨m, 24, b⟩
    let V := seenAs (mem s) w (mem d1.bus)
    let settled := fun sp =>
      d'.ambientTemp = some (Datasheet.ambient (Ee640.calibration (eepromOf V)) (Mlx90640Memory.readings V sp))
    let thermal := fun sp => Drawn (Mlx90640Memory.measured V sp)
      (Mlx90640Memory.temperature V d1.effectiveEmissivity d1.reflectedTemperature sp) dest dest'
    let status := mem d1.bus 0x8000#16
    Fits16 ((V 0x072A#16).toInt - (Ee640.calibration (eepromOf V)).vdd25) →
      (∀ sp, Driver.generateRawImageSubpageTo env sp dest d1 = (d', dest', .ok ()) → settled sp ∧
        Drawn (Mlx90640Memory.measured V sp) (Mlx90640Memory.signal V d1.effectiveEmissivity sp) dest dest') ∧
      (∀ sp, Driver.generateImageSubpageTo env sp dest d1 = (d', dest', .ok ()) → settled sp ∧ thermal sp) ∧
      (Driver.generateImageTo env dest d1 = (d', dest', .ok ()) →
        settled (statusSubpage status) ∧ thermal (statusSubpage status)) ∧
      (Driver.generateImageIfReady env dest d1 = (d', dest', .ok true) → status.getLsbD 3 = true ∧
        settled (statusSubpage status) ∧ thermal (statusSubpage status)) := by
  intro env V settled thermal status hv
  obtain ⟨hmem, c, hc, hcal⟩ := new_static h hd
  obtain ⟨hs, ha⟩ := (C39_constructed_drivers_supported m b s addr).1 s' d hd
  have hk := constructed_complete (Or.inl hd)
  have hst : StaticMemory env.bus d.addr mem := by rw [ha]; exact h
  have hca0 := C47_after_construction m b s s' addr d h (Or.inl hd)
  rw [hmem] at hca0
  have hca : Caches d1 (V 0x800D#16) := by
    rw [show V 0x800D#16 = w from seenAs_control ..]
    exact caches_of_believes (disturbed_believes hs hst _ _ hca0 hx) hp hr
  obtain ⟨hs1, ha1, hcal1⟩ := disturbed_supported hs hx
  have hsame : SameEeprom (eepromWord (memBytes (mem s) 0x2400#16 1664)) (eepromOf V) := by
    intro a h1 h2
    rw [eepromWord_memBytes _ h1 h2]
    exact seenAs_eeprom (mem s) w (mem d1.bus) a h1 h2
  have hreg' : Ee640.Regular (eepromWord (memBytes (mem s) 0x2400#16 1664)) := by
    refine SameEeprom.regular (E := eepromOf (mem s)) ?_ hreg
    intro a h1 h2
    exact (eepromWord_memBytes _ h1 h2).symm
  have htab : d1.calib = Ee640.calibration (eepromOf V) := by
    rw [hcal1, hcal, C66_table_640 m _ c hc hreg']
    exact hsame.calibration
  have hk1 : Complete d1.calib d1.calib.cam.numPixels := by rw [hcal1]; exact hk
  have hst1 : StaticMemory env.bus d1.addr mem := by rw [ha1]; exact hst
  rw [← htab] at hv
  have key := fun (s1 : σ) (hs2 : mem s1 = mem d1.bus) (sp : Subpage) (d2 : Driver ℝ σ) =>
    view_640 V env { d1 with bus := s1 } ⟨hs1.1, hs1.2, hs1.3⟩ hst1 hk1
      (fun a _ h2 => by
        show mem s1 a = V a
        rw [hs2]
        exact (seenAs_ram (mem s) w (mem d1.bus) h2).symm) hca htab hv sp dest dest' d2
  refine ⟨fun sp hg => (key d1.bus rfl sp d').1 hg, fun sp hg => (key d1.bus rfl sp d').2 hg, fun hg => ?_, fun hg => ?_⟩
  · obtain ⟨s1, h1, h2⟩ := imageTo_reduces env d1 hst1 dest dest' d' hg
    exact (key s1 h1 _ d').2 h2
  · obtain ⟨h3, s1, d2, h1, h4, h2⟩ := ifReady_reduces env d1 hst1 dest dest' d' hg
    have := (key s1 h1 _ d2).2 h2
    refine ⟨h3, ?_, this.2⟩
    show d'.ambientTemp = _
    rw [h4]
    exact this.1

/-- **C98 (MLX90641).** The same for the MLX90641, whose EEPROM words held the values `D`, each with at most one wrong bit,
when the driver was made. -/
theorem C98_camera_641 (m : Mode) (b : Bus σ ER EW) (s s' : σ) (addr : Byte) (h : StaticMemory b addr mem)
    (d : Driver ℝ σ) (hd : Driver.new641 m b s addr = (s', .ok d)) (D : Nat → BitVec 11) (hreg : Ee641.Regular D)
    (hD : ∀ a ∈ Ee641.readAddresses 192, WithinOneBit (eepromOf (mem s) a) (codeword (D a)))
    (calls : List (Op ℝ × Res (Err ER EW) Unit × Word)) (d1 : Driver ℝ σ) (hx : Disturbed ⟨m, 12, b⟩ mem d calls d1)
    (w : Word)
    (hp : CtrlField.accessPattern.valueIn w = believed .accessPattern (CtrlField.accessPattern.valueIn (mem s 0x800D#16)) calls)
    (hr : CtrlField.resolution.valueIn w = believed .resolution (CtrlField.resolution.valueIn (mem s 0x800D#16)) calls)
    (dest dest' : List ℝ) (d' : Driver ℝ σ) :
    let env : Env σ ER EW := ⟨m, 12, b⟩
    let V := seenAs (mem s) w (mem d1.bus)
    let settled := fun sp => d'.ambientTemp = some (Datasheet.ambient (Ee641.calibration D) (Mlx90641Memory.readings V sp))
    let thermal := fun sp => Drawn (fun i => i < 192)
      (Mlx90641Memory.temperature V D d1.effectiveEmissivity d1.reflectedTemperature sp) dest dest'
    let status := mem d1.bus 0x8000#16
    Fits16 ((V 0x05AA#16).toInt - (Ee641.calibration D).vdd25) →
      (∀ sp, Driver.generateRawImageSubpageTo env sp dest d1 = (d', dest', .ok ()) → settled sp ∧
        Drawn (fun i => i < 192) (Mlx90641Memory.signal V D d1.effectiveEmissivity sp) dest dest') ∧
      (∀ sp, Driver.generateImageSubpageTo env sp dest d1 = (d', dest', .ok ()) → settled sp ∧ thermal sp) ∧
      (Driver.generateImageTo env dest d1 = (d', dest', .ok ()) →
        settled (statusSubpage status) ∧ thermal (statusSubpage status)) ∧
      (Driver.generateImageIfReady env dest d1 = (d', dest', .ok true) → status.getLsbD 3 = true ∧
        settled (statusSubpage status) ∧ thermal (statusSubpage status)) := by
  intro env V settled thermal status hv
  obtain ⟨hmem, c, hc, hcal⟩ := new_static h hd
  obtain ⟨hs, ha⟩ := (C39_constructed_drivers_supported m b s addr).2 s' d hd
  have hk := constructed_complete (Or.inr hd)
  have hst : StaticMemory env.bus d.addr mem := by rw [ha]; exact h
  have hca0 := C47_after_construction m b s s' addr d h (Or.inr hd)
  rw [hmem] at hca0
  have hca : Caches d1 (V 0x800D#16) := by
    rw [show V 0x800D#16 = w from seenAs_control ..]
    exact caches_of_believes (disturbed_believes hs hst _ _ hca0 hx) hp hr
  obtain ⟨hs1, ha1, hcal1⟩ := disturbed_supported hs hx
  have hholds : Ee641.Holds (memBytes (mem s) 0x2400#16 1664) D (Ee641.readAddresses 192) := by
    intro a ha
    have hb := readAddresses_bounds ha
    rw [eepromWord_memBytes _ (by omega) hb.2.1]
    exact hD a ha
  have htab : d1.calib = Ee641.calibration D := by
    rw [hcal1, hcal, C66_table_641 m _ c hc D hholds hreg]
  have hk1 : Complete d1.calib d1.calib.cam.numPixels := by rw [hcal1]; exact hk
  have hst1 : StaticMemory env.bus d1.addr mem := by rw [ha1]; exact hst
  rw [← htab] at hv
  have key := fun (s1 : σ) (hs2 : mem s1 = mem d1.bus) (sp : Subpage) (d2 : Driver ℝ σ) =>
    view_641 V D env { d1 with bus := s1 } ⟨hs1.1, hs1.2, hs1.3⟩ hst1 hk1
      (fun a _ h2 => by
        show mem s1 a = V a
        rw [hs2]
        exact (seenAs_ram (mem s) w (mem d1.bus) h2).symm) hca htab hv sp dest dest' d2
  refine ⟨fun sp hg => (key d1.bus rfl sp d').1 hg, fun sp hg => (key d1.bus rfl sp d').2 hg, fun hg => ?_, fun hg => ?_⟩
  · obtain ⟨s1, h1, h2⟩ := imageTo_reduces env d1 hst1 dest dest' d' hg
    exact (key s1 h1 _ d').2 h2
  · obtain ⟨h3, s1, d2, h1, h4, h2⟩ := ifReady_reduces env d1 hst1 dest dest' d' hg
    have := (key s1 h1 _ d2).2 h2
    refine ⟨h3, ?_, this.2⟩
    show d'.ambientTemp = _
    rw [h4]
    exact this.1

/-- The camera of the datasheet's worked example, after somebody has switched it from the chess pattern to the interleaved
one. -/
def switchedMemory : Word → Word := Function.update (exampleMemory words640) 0x800D#16 0x0901#16

/-- **C98 (settings changed by others go unnoticed).** A driver for a camera with the chess pattern, which somebody then
switches to the interleaved pattern. The driver goes on drawing the pixels of the chess pattern, without an error; after
a call of `frame_rate` it draws those of the interleaved one. -/
theorem C98_unnoticed_until_control_call (m : Mode) (dest : List ℝ) :
    let env : Env (Word → Word) Unit Unit := ⟨m, 24, cameraBus 0x33#8⟩
    ∃ (s' : Word → Word) (d : Driver ℝ (Word → Word)),
      Driver.new640 m (cameraBus 0x33#8) (exampleMemory words640) 0x33#8 = (s', .ok d) ∧
      let d1 := { d with bus := switchedMemory }
      let d2 := (Driver.frameRate env d1).1
      (Driver.frameRate env d1).2 = .ok (CtrlField.frameRate.valueIn 0x0901#16) ∧ d2.bus = switchedMemory ∧
      (∃ d' out, Driver.generateImageSubpageTo env .zero dest d1 = (d', out, .ok ()) ∧
        ∀ i, (i / 32 + i % 32) % 2 ≠ 0 → out[i]? = dest[i]?) ∧
      (∃ d' out, Driver.generateImageSubpageTo env .zero dest d2 = (d', out, .ok ()) ∧
        ∀ i, i / 32 % 2 ≠ 0 → out[i]? = dest[i]?) := by
  intro env
  obtain ⟨s', d, hd, hreg, hfit, hcal, hbus, hsup⟩ := camera640_example m
  refine ⟨s', d, hd, ?_⟩
  intro d1 d2
  have hst := cameraBus_static 0x33#8
  obtain ⟨hs, ha⟩ := (C39_constructed_drivers_supported m (cameraBus 0x33#8) (exampleMemory words640) 0x33#8).1 s' d hd
  have hk := (constructed_complete (Or.inl hd)).kSTo
  have hx1 : Disturbed env id d [] d1 := .disturbance switchedMemory .start
  have hwas : exampleMemory words640 0x800D#16 = 0x1901#16 := by decide
  have hnow : switchedMemory 0x800D#16 = 0x0901#16 := by unfold switchedMemory; exact Function.update_self ..
  have hsupply : switchedMemory 0x072A#16 = exampleMemory words640 0x072A#16 := by
    unfold switchedMemory
    exact Function.update_of_ne (by decide) ..
  -- every call succeeds
  have works : ∀ (e : Driver ℝ (Word → Word)), Supported env e → e.addr = 0x33#8 → e.calib = d.calib → e.bus = switchedMemory →
      ∀ op : Op ℝ, (op.exec env e).2 = .ok () := by
    intro e h1 h2 h3 h4 op
    refine healthy_call (env := env) (mem := id) h1 (by rw [h3]; exact hk) (by rw [h2]; exact hst)
      (by rw [h2]; exact cameraBus_serves _ _) (Or.inr ?_) op
    rw [h3, h4, hcal]
    show Fits16 ((switchedMemory 0x072A#16).toInt - _)
    rw [hsupply]
    exact hfit
  obtain ⟨hs1, ha1, hc1⟩ := disturbed_supported hs hx1
  have hfr : (Driver.frameRate env d1).2 = .ok (CtrlField.frameRate.valueIn 0x0901#16) ∧ d2.bus = switchedMemory := by
    have hok : (discard (driverGet env .frameRate (by decide) d1)).2 = .ok () := works d1 hs1 (ha1.trans ha) hc1 rfl .frameRate
    show (driverGet env .frameRate (by decide) d1).2 = _ ∧ (driverGet env .frameRate (by decide) d1).1.bus = _
    rw [driverGet_eq] at hok ⊢
    obtain ⟨hr, hv⟩ := static_regRead (mem := id) (b := env.bus) (addr := d1.addr) (by rw [ha1, ha]; exact hst) d1.bus 0x800D#16
    generalize regRead env.bus d1.bus d1.addr 0x800D#16 = q at hr hv hok ⊢
    obtain ⟨s1, e | w⟩ := q
    · simp [discard] at hok
    · have hw : w = 0x0901#16 := (hv w rfl).trans hnow
      subst hw
      exact ⟨rfl, hr⟩
  have hx2 : Disturbed env id d [(.frameRate, .ok (), 0x0901#16)] d2 := by
    have := hx1.call .frameRate
    have e1 : ((Op.frameRate : Op ℝ).exec env d1).2 = .ok () := works d1 hs1 (ha1.trans ha) hc1 rfl .frameRate
    have e2 : ((Op.frameRate : Op ℝ).exec env d1).1 = d2 := rfl
    rw [e1, e2, hfr.2, show id switchedMemory 0x800D#16 = 0x0901#16 from hnow] at this
    exact this
  obtain ⟨hs2, ha2, hc2⟩ := disturbed_supported hs hx2
  have drawn : ∀ (e : Driver ℝ (Word → Word)) (calls : List (Op ℝ × Res (Err Unit Unit) Unit × Word)) (w : Word),
      Disturbed env id d calls e → e.bus = switchedMemory →
      CtrlField.accessPattern.valueIn w = believed .accessPattern (CtrlField.accessPattern.valueIn 0x1901#16) calls →
      CtrlField.resolution.valueIn w = believed .resolution (CtrlField.resolution.valueIn 0x1901#16) calls →
      ∃ d' out, Driver.generateImageSubpageTo env .zero dest e = (d', out, .ok ()) ∧
        ∀ i, ¬ Mlx90640Memory.measured (seenAs (exampleMemory words640) w switchedMemory) .zero i → out[i]? = dest[i]? := by
    intro e calls w hx hbus hp hr
    obtain ⟨h1, h2, h3⟩ := disturbed_supported hs hx
    obtain ⟨d', out, hg⟩ := image_result (works e h1 (h2.trans ha) h3 hbus (.generateImageSubpageTo .zero dest))
    refine ⟨d', out, hg, fun i hi => ?_⟩
    have := ((C98_camera_640 m _ (exampleMemory words640) s' 0x33#8 hst d hd hreg calls e hx w (by
      rw [show id (exampleMemory words640) 0x800D#16 = 0x1901#16 from hwas]; exact hp) (by
      rw [show id (exampleMemory words640) 0x800D#16 = 0x1901#16 from hwas]; exact hr) dest out d' (by
        rw [seenAs_ram _ _ _ (by decide), ← (seenAs_eeprom _ _ _).calibration, hbus]
        show Fits16 ((switchedMemory 0x072A#16).toInt - _)
        rw [hsupply]
        exact hfit)).2.1 .zero hg).2.2 i
    rw [hbus] at this
    exact this.2 hi
  refine ⟨hfr.1, hfr.2, ?_, ?_⟩
  · obtain ⟨d', out, hg, hi⟩ := drawn d1 [] 0x1901#16 hx1 rfl rfl rfl
    refine ⟨d', out, hg, fun i hn => hi i fun hc => hn ?_⟩
    have := hc.2
    rw [seenAs_control] at this
    exact this
  · obtain ⟨d', out, hg, hi⟩ := drawn d2 _ 0x0901#16 hx2 hfr.2 rfl rfl
    refine ⟨d', out, hg, fun i hn => hi i fun hc => hn ?_⟩
    have := hc.2
    rw [seenAs_control] at this
    exact this

end Mlx.Props
