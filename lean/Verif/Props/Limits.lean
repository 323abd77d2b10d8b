import Verif.Spec.Limits
import Verif.Props.Silent
import Verif.Props.Drift
import Verif.Proofs.Builds
import Verif.Props.Cold
import Verif.Props.Witness641
/-
C114: no temperature is below absolute zero. C115: a gain word or an emissivity of zero, and a reflected temperature that is not a number, leave no
finite pixel.
-/
set_option linter.unusedSectionVars false
set_option autoImplicit false
namespace Mlx.Props
open Mlx Mlx.Spec Mlx.Proofs F32Ops

section
variable {F : Type} [F32Ops F]

/-- An image of the kind comes from the conversion of a frame. -/
def Converted (kind : ImageKind) (m : Mode) (k : Calib F) (x : F) (refl : Option F) (rc : F) (px : List Byte) (r : RamData) (sp : Subpage)
    (a : AccessPattern) (valid : List Bool) (dest dest' : List F) : Prop :=
  ∃ tA, match kind with
    | .raw => rawPixelsToIrData (ε := Unit) m k x rc px r sp a valid dest = .ok (tA, dest')
    | .thermal => rawPixelsToTemperatures (ε := Unit) m k x refl rc px r sp a valid dest = .ok (tA, dest')

/-- The element of a selected pixel in such an image. -/
theorem converted_pixel {kind : ImageKind} {m : Mode} {k : Calib F} {x : F} {refl : Option F} {rc : F} {px : List Byte} {r : RamData} {sp : Subpage}
    {a : AccessPattern} {valid : List Bool} {dest dest' : List F} {n : Nat} (hk : Complete k n)
    (h : Converted kind m k x refl rc px r sp a valid dest dest') {i : Nat} (hi : i < n) (hd : i < dest.length) (hv : valid[i]? = some true)
    {hi' lo : Byte} (h1 : px[2 * i]? = some hi') (h2 : px[2 * i + 1]? = some lo) :
    ∃ (common : CommonIrData F) (item : RawItem F) (tA al κ : F), common.gain = k.gain /. ofInt r.gain ∧ common.emissivity = x ∧
      dest'[i]? = some (match kind with
        | .raw => rawValue common (cpOffset k common r sp a) item
        | .thermal => tempValue (tempFrame k x tA refl sp κ) al (rawValue common (cpOffset k common r sp a) item)) := by
  obtain ⟨o, ho⟩ : ∃ o, (k.offsetRef sp)[i]? = some o := ⟨_, List.getElem?_eq_getElem (by rw [hk.offsetRef]; exact hi)⟩
  obtain ⟨kv, hkv⟩ : ∃ o, (k.kV sp)[i]? = some o := ⟨_, List.getElem?_eq_getElem (by rw [hk.kV]; exact hi)⟩
  obtain ⟨kt, hkt⟩ : ∃ o, (k.kTa sp)[i]? = some o := ⟨_, List.getElem?_eq_getElem (by rw [hk.kTa]; exact hi)⟩
  obtain ⟨ap, hap⟩ : ∃ o, (k.apComp a)[i]? = some o := ⟨_, List.getElem?_eq_getElem (by rw [hk.apComp]; exact hi)⟩
  obtain ⟨al, hal⟩ : ∃ o, (k.alpha sp)[i]? = some o := ⟨_, List.getElem?_eq_getElem (by rw [hk.alpha]; exact hi)⟩
  have hit : rawItem k px sp a i = some ⟨(be16 hi' lo).toInt, o, kv, kt, ap⟩ := by
    unfold rawItem
    rw [pixelWords_get px i _ _ h1 h2, ho, hkv, hkt, hap]
  have hcg : ∀ {common : CommonIrData F}, CommonIrData.new (ε := Unit) m rc x k r = .ok common →
      common.gain = k.gain /. ofInt r.gain ∧ common.emissivity = x := by
    intro common hn
    unfold CommonIrData.new at hn
    cases hd : deltaV (ε := Unit) m k r.vddPixel with
    | ok dV => rw [hd] at hn; have hn := Res.ok.inj hn; rw [← hn]; exact ⟨rfl, rfl⟩
    | err e => rw [hd] at hn; cases hn
    | panic => rw [hd] at hn; cases hn
  have hdi : dest[i]? = some dest[i] := List.getElem?_eq_getElem hd
  obtain ⟨tA, h⟩ := h
  cases kind with
  | raw =>
    obtain ⟨common, hn, -, -, hget⟩ := rawIr_ok h
    have := hget i
    rw [hit, hv, hdi] at this
    exact ⟨common, _, tA, al, al, (hcg hn).1, (hcg hn).2, this⟩
  | thermal =>
    obtain ⟨common, κ, hn, -, -, -, hget⟩ := temps_ok h
    have := hget i
    have hti : tempItem k px sp a i = some (⟨(be16 hi' lo).toInt, o, kv, kt, ap⟩, al) := by
      unfold tempItem
      rw [hit, hal]
    rw [hti, hv, hdi] at this
    exact ⟨common, _, tA, al, κ, (hcg hn).1, (hcg hn).2, this⟩

variable {σ ER EW : Type} {mem : σ → Word → Word}

/-- An image method of the kind, of a given subpage. -/
def subpageImage (kind : ImageKind) (env : Env σ ER EW) (sp : Subpage) (dest : List F) (d : Driver F σ) : Driver.ImageResult F σ ER EW Unit :=
  match kind with
  | .raw => Driver.generateRawImageSubpageTo env sp dest d
  | .thermal => Driver.generateImageSubpageTo env sp dest d

theorem subpage_converted {kind : ImageKind} (env : Env σ ER EW) (d : Driver F σ) (hs : Supported env d) (h : StaticMemory env.bus d.addr mem)
    {sp : Subpage} {dest dest' : List F} {d' : Driver F σ} (hg : subpageImage kind env sp dest d = (d', dest', .ok ())) :
    ∃ px, HoldsFrame d.calib.cam sp d.accessPattern (mem d.bus) px ∧
      Converted kind env.mode d.calib d.emissivity d.reflected d.resCorr px (frameReadings d.calib.cam sp (mem d.bus)) sp d.accessPattern
        (d.calib.cam.pixelsInSubpage sp d.accessPattern) dest dest' := by
  have main := C55_frame_of_memory env d hs h sp dest dest' d'
  cases kind with
  | raw =>
    obtain ⟨px, tA, h1, h2, -⟩ := main.2 hg
    exact ⟨px, h1, tA, raw_error (ε' := Unit) h2⟩
  | thermal =>
    obtain ⟨px, tA, h1, h2, -⟩ := main.1 hg
    exact ⟨px, h1, tA, temps_error (ε' := Unit) h2⟩

/-- What a driver for a camera that holds still holds. -/
theorem still_holds {m : Mode} {height : Nat} {addr : Byte} {V : Word → Word} {x : F} {refl : Option F} {e0 : Driver F (Word → Word)} {c : Word → Word}
    (hd : Driver.new640 m (cameraBus addr) V addr = (c, .ok e0) ∧ height = 24 ∨ Driver.new641 m (cameraBus addr) V addr = (c, .ok e0) ∧ height = 12) :
    let env : Env (Word → Word) Unit Unit := ⟨m, height, cameraBus addr⟩
    let e := runOps env [.overrideEmissivity x, .setReflectedTemperature refl] e0
    Supported env e ∧ e.bus = V ∧ e.addr = addr ∧ e.calib = e0.calib ∧ Complete e.calib e.calib.cam.numPixels ∧ e.emissivity = x ∧
      e.reflected = refl ∧ Caches e (V 0x800D#16) := by
  intro env e
  have h := cameraBus_static addr
  have hd' : Driver.new640 m (cameraBus addr) V addr = (c, .ok e0) ∨ Driver.new641 m (cameraBus addr) V addr = (c, .ok e0) :=
    hd.imp And.left And.left
  have hb : e0.bus = V := by
    rcases hd' with h1 | h1
    · exact (new_static h h1).1
    · exact (new_static h h1).1
  have hsa : Supported env e0 ∧ e0.addr = addr := by
    rcases hd with ⟨h1, rfl⟩ | ⟨h1, rfl⟩
    · exact (C39_constructed_drivers_supported m (cameraBus addr) V addr).1 c e0 h1
    · exact (C39_constructed_drivers_supported m (cameraBus addr) V addr).2 c e0 h1
  have hc : Caches e0 (V 0x800D#16) := by
    have := C47_after_construction m (cameraBus addr) V c addr e0 h hd'
    rwa [hb] at this
  have hk := constructed_complete hd'
  exact ⟨⟨hsa.1.1, hsa.1.2, hsa.1.3⟩, hb, hsa.2, rfl, hk, rfl, rfl, hc⟩

/-- On a camera that holds still, each image is converted from one subpage. -/
theorem still_converted {m : Mode} {height : Nat} {addr : Byte} {V : Word → Word} {kind : ImageKind} {e e' : Driver F (Word → Word)} {sp : Subpage}
    {dest dest' : List F} (hs : Supported (⟨m, height, cameraBus addr⟩ : Env (Word → Word) Unit Unit) e) (hb : e.bus = V) (ha : e.addr = addr)
    (hg : subpageImage kind (⟨m, height, cameraBus addr⟩ : Env (Word → Word) Unit Unit) sp dest e = (e', dest', .ok ()) ∨
      kind = .thermal ∧ sp = statusSubpage (V 0x8000#16) ∧
        Driver.generateImageTo (⟨m, height, cameraBus addr⟩ : Env (Word → Word) Unit Unit) dest e = (e', dest', .ok ())) :
    ∃ px, HoldsFrame e.calib.cam sp e.accessPattern V px ∧
      Converted kind m e.calib e.emissivity e.reflected e.resCorr px (frameReadings e.calib.cam sp V) sp e.accessPattern
        (e.calib.cam.pixelsInSubpage sp e.accessPattern) dest dest' := by
  have hst : StaticMemory (cameraBus addr) e.addr id := by rw [ha]; exact cameraBus_static addr
  subst hb
  rcases hg with hg | ⟨rfl, rfl, hg⟩
  · exact subpage_converted _ e hs hst hg
  · obtain ⟨s1, h1, h2⟩ := imageTo_reduces _ e hst dest dest' e' hg
    have h1 : s1 = e.bus := h1
    subst h1
    exact subpage_converted (kind := .thermal) _ e hs hst h2

/-- Overflow checks do not change a conversion that succeeds. -/
theorem converted_wrapping {kind : ImageKind} {m : Mode} {k : Calib F} {x : F} {refl : Option F} {rc : F} {px : List Byte} {r : RamData}
    {sp : Subpage} {a : AccessPattern} {valid : List Bool} {dest dest' : List F}
    (h : Converted kind m k x refl rc px r sp a valid dest dest') : Converted kind .wrapping k x refl rc px r sp a valid dest dest' := by
  cases m with
  | wrapping => exact h
  | checked =>
    obtain ⟨tA, h⟩ := h
    refine ⟨tA, ?_⟩
    cases kind with
    | raw =>
      dsimp only at h ⊢
      exact ((irData_builds ..).resolve_left (by rw [h]; exact fun h => nomatch h)).symm.trans h
    | thermal =>
      dsimp only at h ⊢
      exact ((temperatures_builds ..).resolve_left (by rw [h]; exact fun h => nomatch h)).symm.trans h

/-- What is known of the conversion: release-build arithmetic will do, and the calibration, the pattern, the resolution correction and the
bytes of the pixels are those of the words as heard. -/
theorem taken_exactly_640 {kind : ImageKind} {V : Word → Word} {x : F} {refl : Option F} {sp : Subpage} {dest dest' : List F} {tA : Option F}
    (h : Taken Driver.new640 24 kind V x refl sp dest dest' tA) :
    ∃ c px, Mlx90640.fromData (F := F) .wrapping (memBytes V 0x2400#16 1664) = .ok c ∧ Complete c.toCalib 768 ∧
      Converted kind .wrapping c.toCalib x refl (resolutionCorrection c.toCalib.resolution (CtrlField.resolution.valueIn (V 0x800D#16))) px
        (Mlx90640Memory.readings V sp) sp (CtrlField.accessPattern.valueIn (V 0x800D#16))
        (Mlx90640.cam.pixelsInSubpage sp (CtrlField.accessPattern.valueIn (V 0x800D#16))) dest dest' ∧
      ∀ i, Mlx90640Memory.measured V sp i → (Mlx90640.cam.pixelsInSubpage sp (CtrlField.accessPattern.valueIn (V 0x800D#16)))[i]? = some true ∧
        px[2 * i]? = some (hiByte (V (BitVec.ofNat 16 (0x0400 + i)))) ∧ px[2 * i + 1]? = some (loByte (V (BitVec.ofNat 16 (0x0400 + i)))) := by
  obtain ⟨σ, ER, EW, m, b, s, s', addr, d, d1, d', ops, hd, rfl, rfl, rfl, hV, rfl, hg⟩ := h
  obtain ⟨k0, k1, k2, k3⟩ := C99_replay_640 m b s s' addr d hd ops dest dest' d' V hV
  have key : ∃ e e', OnStill Driver.new640 m 24 addr V (runOps (recordedEnv ⟨m, 24, b⟩) ops d).effectiveEmissivity
      (runOps (recordedEnv ⟨m, 24, b⟩) ops d).reflectedTemperature e ∧
      (subpageImage kind (⟨m, 24, cameraBus addr⟩ : Env (Word → Word) Unit Unit) sp dest e = (e', dest', .ok ()) ∨
      kind = .thermal ∧ sp = statusSubpage (V 0x8000#16) ∧
        Driver.generateImageTo (⟨m, 24, cameraBus addr⟩ : Env (Word → Word) Unit Unit) dest e = (e', dest', .ok ())) := by
    cases kind with
    | raw =>
      obtain ⟨e, e', h1, h2, -⟩ := k0 _ hg
      exact ⟨e, e', h1, Or.inl h2⟩
    | thermal =>
      rcases hg with hg | ⟨rfl, hg⟩ | ⟨rfl, hg⟩
      · obtain ⟨e, e', h1, h2, -⟩ := k1 _ hg
        exact ⟨e, e', h1, Or.inl h2⟩
      · obtain ⟨e, e', h1, h2, -⟩ := k2 hg
        exact ⟨e, e', h1, Or.inr ⟨rfl, rfl, h2⟩⟩
      · obtain ⟨e, e', h1, h2, -⟩ := k3 hg
        exact ⟨e, e', h1, Or.inr ⟨rfl, rfl, h2⟩⟩
  obtain ⟨e, e', ⟨c, e0, h0, rfl⟩, hg⟩ := key
  obtain ⟨hs, hb, ha, hcal, hk, hem, href, hc⟩ := still_holds (m := m) (height := 24)
    (x := (runOps (recordedEnv ⟨m, 24, b⟩) ops d).effectiveEmissivity)
    (refl := (runOps (recordedEnv ⟨m, 24, b⟩) ops d).reflectedTemperature) (Or.inl ⟨h0, rfl⟩)
  obtain ⟨px, hpx, hconv⟩ := still_converted hs hb ha hg
  obtain ⟨-, c0, hdata, hcal0⟩ := new_static (cameraBus_static addr) h0
  have hcam : e0.calib.cam = Mlx90640.cam := by rw [hcal0]; rfl
  rw [← hcal] at hcam
  generalize runOps _ [Op.overrideEmissivity _, _] e0 = e at *
  rw [hcam] at hconv hpx hk
  rw [hem, href] at hconv
  have hread : frameReadings Mlx90640.cam sp V = Mlx90640Memory.readings V sp := by cases sp <;> rfl
  rw [hread] at hconv
  have hcal1 : e.calib = c0.toCalib := hcal.trans hcal0
  rw [hc.2, hc.1, hcal1] at hconv
  rw [hcal1] at hk
  rw [hc.1] at hpx
  have hdata' : Mlx90640.fromData (F := F) .wrapping (memBytes V 0x2400#16 1664) = .ok c0 := by
    cases m with
    | wrapping => exact hdata
    | checked => exact ((fromData640_builds _).resolve_left fun hp => nomatch hdata.symm.trans hp).symm.trans hdata
  refine ⟨c0, px, hdata', hk, converted_wrapping hconv, ?_⟩
  intro i hm
  have hsel : (Mlx90640.cam.pixelsInSubpage sp (CtrlField.accessPattern.valueIn (V 0x800D#16)))[i]? = some true := by
    rw [pattern_valueIn]
    have hm2 := hm.2
    rw [(C12_mlx90640_subpage_partition _).2.1 sp i hm.1, Option.some.injEq, decide_eq_true_iff]
    unfold Selected640
    revert hm2
    cases pattern (V 0x800D#16) <;> exact id
  obtain ⟨address, hpa, h1, h2⟩ := hpx i hm.1 hsel
  have hadr : address = BitVec.ofNat 16 (0x0400 + i) := hpa.elim And.right fun hc => absurd (congrArg Cam.numPixels hc.1) (by decide)
  rw [hadr] at h1 h2
  exact ⟨hsel, h1, h2⟩

/-- Whatever image of an MLX90640 was made, it was converted from the words as heard. -/
theorem taken_converted_640 {kind : ImageKind} {V : Word → Word} {x : F} {refl : Option F} {sp : Subpage} {dest dest' : List F} {tA : Option F}
    (h : Taken Driver.new640 24 kind V x refl sp dest dest' tA) :
    ∃ m k rc px a valid, Complete k 768 ∧
      Converted kind m k x refl rc px (Mlx90640Memory.readings V sp) sp a valid dest dest' ∧
      ∀ i, Mlx90640Memory.measured V sp i →
        valid[i]? = some true ∧ ∃ hi lo, px[2 * i]? = some hi ∧ px[2 * i + 1]? = some lo := by
  obtain ⟨c, px, -, hk, hconv, key⟩ := taken_exactly_640 h
  exact ⟨_, _, _, px, _, _, hk, hconv, fun i hm => ⟨(key i hm).1, _, _, (key i hm).2⟩⟩

/-- What is known of the conversion: release-build arithmetic will do, and the calibration, the pattern, the resolution correction and the
bytes of the pixels are those of the words as heard. -/
theorem taken_exactly_641 {kind : ImageKind} {V : Word → Word} {x : F} {refl : Option F} {sp : Subpage} {dest dest' : List F} {tA : Option F}
    (h : Taken Driver.new641 12 kind V x refl sp dest dest' tA) :
    ∃ c px, Mlx90641.fromData (F := F) .wrapping (memBytes V 0x2400#16 1664) = .ok c ∧ Complete c.toCalib 192 ∧
      Converted kind .wrapping c.toCalib x refl (resolutionCorrection c.toCalib.resolution (CtrlField.resolution.valueIn (V 0x800D#16))) px
        (Mlx90641Memory.readings V sp) sp (CtrlField.accessPattern.valueIn (V 0x800D#16))
        (Mlx90641.cam.pixelsInSubpage sp (CtrlField.accessPattern.valueIn (V 0x800D#16))) dest dest' ∧
      ∀ i, i < 192 → (Mlx90641.cam.pixelsInSubpage sp (CtrlField.accessPattern.valueIn (V 0x800D#16)))[i]? = some true ∧
        px[2 * i]? = some (hiByte (V (Mlx90641Memory.address sp i))) ∧ px[2 * i + 1]? = some (loByte (V (Mlx90641Memory.address sp i))) := by
  obtain ⟨σ, ER, EW, m, b, s, s', addr, d, d1, d', ops, hd, rfl, rfl, rfl, hV, rfl, hg⟩ := h
  obtain ⟨k0, k1, k2, k3⟩ := C99_replay_641 m b s s' addr d hd ops dest dest' d' V hV
  have key : ∃ e e', OnStill Driver.new641 m 12 addr V (runOps (recordedEnv ⟨m, 12, b⟩) ops d).effectiveEmissivity
      (runOps (recordedEnv ⟨m, 12, b⟩) ops d).reflectedTemperature e ∧
      (subpageImage kind (⟨m, 12, cameraBus addr⟩ : Env (Word → Word) Unit Unit) sp dest e = (e', dest', .ok ()) ∨
      kind = .thermal ∧ sp = statusSubpage (V 0x8000#16) ∧
        Driver.generateImageTo (⟨m, 12, cameraBus addr⟩ : Env (Word → Word) Unit Unit) dest e = (e', dest', .ok ())) := by
    cases kind with
    | raw =>
      obtain ⟨e, e', h1, h2, -⟩ := k0 _ hg
      exact ⟨e, e', h1, Or.inl h2⟩
    | thermal =>
      rcases hg with hg | ⟨rfl, hg⟩ | ⟨rfl, hg⟩
      · obtain ⟨e, e', h1, h2, -⟩ := k1 _ hg
        exact ⟨e, e', h1, Or.inl h2⟩
      · obtain ⟨e, e', h1, h2, -⟩ := k2 hg
        exact ⟨e, e', h1, Or.inr ⟨rfl, rfl, h2⟩⟩
      · obtain ⟨e, e', h1, h2, -⟩ := k3 hg
        exact ⟨e, e', h1, Or.inr ⟨rfl, rfl, h2⟩⟩
  obtain ⟨e, e', ⟨c, e0, h0, rfl⟩, hg⟩ := key
  obtain ⟨hs, hb, ha, hcal, hk, hem, href, hc⟩ := still_holds (m := m) (height := 12)
    (x := (runOps (recordedEnv ⟨m, 12, b⟩) ops d).effectiveEmissivity)
    (refl := (runOps (recordedEnv ⟨m, 12, b⟩) ops d).reflectedTemperature) (Or.inr ⟨h0, rfl⟩)
  obtain ⟨px, hpx, hconv⟩ := still_converted hs hb ha hg
  obtain ⟨-, c0, hdata, hcal0⟩ := new_static (cameraBus_static addr) h0
  have hcam : e0.calib.cam = Mlx90641.cam := by rw [hcal0]; rfl
  rw [← hcal] at hcam
  generalize runOps _ [Op.overrideEmissivity _, _] e0 = e at *
  rw [hcam] at hconv hpx hk
  rw [hem, href] at hconv
  have hread : frameReadings Mlx90641.cam sp V = Mlx90641Memory.readings V sp := by cases sp <;> rfl
  rw [hread] at hconv
  have hcal1 : e.calib = c0.toCalib := hcal.trans hcal0
  rw [hc.2, hc.1, hcal1] at hconv
  rw [hcal1] at hk
  rw [hc.1] at hpx
  have hdata' : Mlx90641.fromData (F := F) .wrapping (memBytes V 0x2400#16 1664) = .ok c0 := by
    cases m with
    | wrapping => exact hdata
    | checked => exact ((fromData641_builds _).resolve_left fun hp => nomatch hdata.symm.trans hp).symm.trans hdata
  refine ⟨c0, px, hdata', hk, converted_wrapping hconv, ?_⟩
  intro i hm
  have hsel := (C13_mlx90641_full_subpages sp (CtrlField.accessPattern.valueIn (V 0x800D#16))).2 i hm
  obtain ⟨address, hpa, h1, h2⟩ := hpx i hm hsel
  have hadr : address = Mlx90641Memory.address sp i := hpa.elim (fun hc => absurd (congrArg Cam.numPixels hc.1) (by decide)) And.right
  rw [hadr] at h1 h2
  exact ⟨hsel, h1, h2⟩

/-- Whatever image of an MLX90641 was made, it was converted from the words as heard. -/
theorem taken_converted_641 {kind : ImageKind} {V : Word → Word} {x : F} {refl : Option F} {sp : Subpage} {dest dest' : List F} {tA : Option F}
    (h : Taken Driver.new641 12 kind V x refl sp dest dest' tA) :
    ∃ m k rc px a valid, Complete k 192 ∧
      Converted kind m k x refl rc px (Mlx90641Memory.readings V sp) sp a valid dest dest' ∧
      ∀ i, i < 192 →
        valid[i]? = some true ∧ ∃ hi lo, px[2 * i]? = some hi ∧ px[2 * i + 1]? = some lo := by
  obtain ⟨c, px, -, hk, hconv, key⟩ := taken_exactly_641 h
  exact ⟨_, _, _, px, _, _, hk, hconv, fun i hm => ⟨(key i hm).1, _, _, (key i hm).2⟩⟩

end

section
variable {F : Type} [F32Ops F] [Binary32 F]

/-- The number that stands for 273.15 is not above it. -/
theorem kelvins_below : ∃ w : ℝ, Is (kelvins : F) w ∧ 0 ≤ w ∧ w ≤ 273.15 := by
  have hr := Binary32.lit_rounds (F := F) (27315/100)
  push_cast at hr
  norm_num at hr
  obtain ⟨w, h1, hw, h2⟩ := hr (by unfold maxBinary32; rw [abs_of_pos (by norm_num)]; norm_num)
  have h3 := h2 (8950579 / 2 ^ 15) (by
    have := value_div (m := 8950579) (k := 15) (by norm_num) (by norm_num)
    rwa [Int.cast_ofNat] at this)
  rw [abs_of_neg (a := (8950579 / 2 ^ 15 - 5463 / 20 : ℝ)) (by norm_num), abs_le] at h3
  refine ⟨w, ?_, by linarith [h3.1], ?_⟩
  · show Binary32.val (lit (27315/100) : F) = _
    norm_num
    exact h1
  · by_contra hc
    push Not at hc
    obtain ⟨m, e, hm, h4, h5, rfl⟩ := hw
    rcases le_or_gt (-15) e with he | he
    · obtain ⟨n, rfl⟩ : ∃ n : ℕ, e = -15 + n := ⟨(e + 15).toNat, by omega⟩
      rw [zpow_add₀ (by norm_num), zpow_natCast] at h3 hc
      have h6 : (m : ℝ) * ((2 : ℝ) ^ (-15 : ℤ) * 2 ^ n) = ((m * 2 ^ n : ℤ) : ℝ) / 32768 := by
        push_cast
        norm_num
        ring
      rw [h6] at h3 hc
      generalize m * 2 ^ n = t at h3 hc
      have h7 : (t : ℝ) < (8950580 : ℤ) := by push_cast; linarith [h3.2]
      have h8 : ((8950579 : ℤ) : ℝ) < t := by push_cast; linarith
      have h7 := Int.cast_lt.1 h7
      have h8 := Int.cast_lt.1 h8
      omega
    · have h6 : (2 : ℝ) ^ e ≤ 2 ^ (-16 : ℤ) := zpow_le_zpow_right₀ (by norm_num) (by omega)
      have h7 : (m : ℝ) ≤ 2 ^ 24 := by
        have : m ≤ 2 ^ 24 := by rw [abs_lt] at hm; omega
        exact_mod_cast this
      have h8 : (0 : ℝ) < 2 ^ e := by positivity
      have h9 : (m : ℝ) * 2 ^ e ≤ 2 ^ 24 * 2 ^ (-16 : ℤ) := mul_le_mul h7 h6 h8.le (by norm_num)
      norm_num at h9 hc
      linarith

/-- No temperature is below absolute zero. -/
theorem above_zero [Binary32Special F] [Binary32Roots F] (v a r k : F) : NotBelowZero (perPixelTemperature v a r k) := by
  intro x hx
  unfold perPixelTemperature at hx
  dsimp only at hx
  revert hx
  generalize v /. _ +. r = y
  intro hx
  cases hroot : Binary32.val (powf y (lit (1/4))) with
  | none =>
    have : Binary32.val (powf y (lit (1/4)) -. (kelvins : F)) = none := Binary32Special.sub_left _ _ hroot
    rw [show Binary32.val _ = some x from hx] at this
    cases this
  | some z =>
    have z0 : 0 ≤ z := Binary32Roots.root_nonneg _ _ z quarter hroot
    obtain ⟨w, hw, w0, w1⟩ := kelvins_below (F := F)
    have z1 := value_abs_le (Binary32.val_value _ _ hroot)
    have w2 := value_abs_le (Binary32.val_value _ _ hw)
    rw [abs_of_nonneg z0] at z1
    rw [abs_of_nonneg w0] at w2
    obtain ⟨t, h1, -, h2⟩ := Binary32.sub_rounds _ _ _ _ hroot hw (abs_le.2 ⟨by linarith, by linarith⟩)
    rw [show Binary32.val _ = some x from hx, Option.some.injEq] at h1
    subst h1
    obtain ⟨m, e, hm, h4, h5, h6⟩ := Binary32.val_value _ _ hw
    have h3 := h2 (-w) ⟨-m, e, by rwa [abs_neg], h4, h5, by rw [h6]; push_cast; ring⟩
    rw [show -w - (z - w) = -z by ring, abs_neg, abs_of_nonneg z0] at h3
    have := (abs_le.1 h3).1
    linarith

theorem kept_none_below (l : List F) : AddsNoneBelowZero l l := fun _ _ h => Or.inl h

section conversions
variable {ε : Type} [Binary32Special F] [Binary32Roots F]

/-- Neither of the conversions to temperatures, of pixel data as received or of raw values, in whatever arithmetic mode and with whatever
calibration, emissivity, reflected temperature and readings, yields a temperature below absolute zero. -/
theorem C114_conversions (m : Mode) (k : Calib F) (em tA rc : F) (tR : Option F) (px : List Byte) (ram : RamData) (sp : Subpage) (a : AccessPattern)
    (valid : List Bool) (dest dest' : List F) :
    (rawPixelsToTemperatures (ε := ε) m k em tR rc px ram sp a valid dest = .ok (tA, dest') → AddsNoneBelowZero dest dest') ∧
    (rawIrToTemperatures (ε := ε) k em tA tR sp valid dest = .ok dest' → AddsNoneBelowZero dest dest') := by
  refine ⟨fun h i v hv => ?_, fun h i v hv => ?_⟩
  · obtain ⟨common, κ, -, -, -, -, hget⟩ := temps_ok h
    rw [hget i] at hv
    revert hv
    match tempItem k px sp a i, valid[i]? with
    | none, _ => exact Or.inl
    | some (x, al), none => exact Or.inl
    | some (x, al), some false => exact Or.inl
    | some (x, al), some true =>
      intro hv
      obtain ⟨-, -, rfl⟩ := Option.map_eq_some_iff.1 hv
      exact Or.inr (above_zero _ _ _ _)
  · obtain ⟨κ, -, -, hget⟩ := irToTemp_ok h
    rw [hget i] at hv
    revert hv
    match (k.alpha sp)[i]?, valid[i]? with
    | none, _ => exact Or.inl
    | some al, none => exact Or.inl
    | some al, some false => exact Or.inl
    | some al, some true =>
      intro hv
      obtain ⟨-, -, rfl⟩ := Option.map_eq_some_iff.1 hv
      exact Or.inr (above_zero _ _ _ _)

variable {σ ER EW : Type}

theorem subpage_none_below (env : Env σ ER EW) (sp : Subpage) (dest dest' : List F) (d d' : Driver F σ) (r : Res (Err ER EW) Unit)
    (h : Driver.generateImageSubpageTo env sp dest d = (d', dest', r)) : AddsNoneBelowZero dest dest' := by
  unfold Driver.generateImageSubpageTo at h
  revert h
  match Driver.readRam env sp d with
  | (d1, .err e) => rintro ⟨⟩; exact kept_none_below _
  | (d1, .panic) => rintro ⟨⟩; exact kept_none_below _
  | (d1, .ok ram) =>
    dsimp only
    match hc : rawPixelsToTemperatures (ε := Err ER EW) env.mode d1.calib d1.emissivity d1.reflected d1.resCorr d1.pixelBuf ram sp
      d1.accessPattern (d1.calib.cam.pixelsInSubpage sp d1.accessPattern) dest with
    | .err e => rintro ⟨⟩; exact kept_none_below _
    | .panic => rintro ⟨⟩; exact kept_none_below _
    | .ok (tA, new) => rintro ⟨⟩; exact (C114_conversions _ _ _ _ _ _ _ _ _ _ _ _ _).1 hc

/-- Whatever driver makes a thermal image, on whatever bus, whether the call succeeds, fails or panics: no element of the buffer becomes a
temperature below absolute zero. -/
theorem C114_any_image (env : Env σ ER EW) (dest dest' : List F) (d d' : Driver F σ) :
    (∀ sp r, Driver.generateImageSubpageTo env sp dest d = (d', dest', r) → AddsNoneBelowZero dest dest') ∧
    (∀ r, Driver.generateImageTo env dest d = (d', dest', r) → AddsNoneBelowZero dest dest') ∧
    (∀ r, Driver.generateImageIfReady env dest d = (d', dest', r) → AddsNoneBelowZero dest dest') := by
  refine ⟨fun sp r h => subpage_none_below env sp dest dest' d d' r h, fun r h => ?_, fun r h => ?_⟩
  · unfold Driver.generateImageTo at h
    revert h
    match Driver.lastMeasuredSubpage env d with
    | (d1, .err e) => rintro ⟨⟩; exact kept_none_below _
    | (d1, .panic) => rintro ⟨⟩; exact kept_none_below _
    | (d1, .ok sp) => exact subpage_none_below env sp dest dest' d1 d' r
  · unfold Driver.generateImageIfReady at h
    revert h
    match Driver.statusRegister env d with
    | (d1, .err e) => rintro ⟨⟩; exact kept_none_below _
    | (d1, .panic) => rintro ⟨⟩; exact kept_none_below _
    | (d1, .ok status) =>
      dsimp only
      by_cases hn : status.newData = true
      swap
      · rw [if_neg hn]
        rintro ⟨⟩
        exact kept_none_below _
      rw [if_pos hn]
      match status.lastUpdatedSubpage (ε := Err ER EW) with
      | .err e => rintro ⟨⟩; exact kept_none_below _
      | .panic => rintro ⟨⟩; exact kept_none_below _
      | .ok sp =>
        dsimp only
        match Driver.readRam env sp d1 with
        | (d2, .err e) => rintro ⟨⟩; exact kept_none_below _
        | (d2, .panic) => rintro ⟨⟩; exact kept_none_below _
        | (d2, .ok ram) =>
          dsimp only
          match hc : rawPixelsToTemperatures (ε := Err ER EW) env.mode d2.calib d2.emissivity d2.reflected d2.resCorr d2.pixelBuf ram sp
            d2.accessPattern (d2.calib.cam.pixelsInSubpage sp d2.accessPattern) dest with
          | .err e => rintro ⟨⟩; exact kept_none_below _
          | .panic => rintro ⟨⟩; exact kept_none_below _
          | .ok (tA, new) =>
            dsimp only
            have key := (C114_conversions _ _ _ _ _ _ _ _ _ _ _ _ _).1 hc
            match Driver.setStatusRegister env status.resetNewData { d2 with ambient := some tA } with
            | (d3, .ok ()) => rintro ⟨⟩; exact key
            | (d3, .err e) => rintro ⟨⟩; exact key
            | (d3, .panic) => rintro ⟨⟩; exact key

/-- No pixel that an MLX90640 measured is below absolute zero, whatever the camera sent, in its EEPROM and later. -/
theorem C114_images_640 {V : Word → Word} {x : F} {refl : Option F} {sp : Subpage} {dest dest' : List F} {tA : Option F}
    (h : Taken Driver.new640 24 .thermal V x refl sp dest dest' tA) (i : Nat) (hm : Mlx90640Memory.measured V sp i) (hi : i < dest.length) :
    ∃ v, dest'[i]? = some v ∧ NotBelowZero v := by
  obtain ⟨m, k, rc, px, a, valid, hk, hconv, key⟩ := taken_converted_640 h
  obtain ⟨hv, hi', lo, h1, h2⟩ := key i hm
  obtain ⟨common, item, tA, al, κ, -, -, hget⟩ := converted_pixel hk hconv hm.1 hi hv h1 h2
  exact ⟨_, hget, above_zero _ _ _ _⟩

/-- Nor is one of an MLX90641. -/
theorem C114_images_641 {V : Word → Word} {x : F} {refl : Option F} {sp : Subpage} {dest dest' : List F} {tA : Option F}
    (h : Taken Driver.new641 12 .thermal V x refl sp dest dest' tA) (i : Nat) (hm : i < 192) (hi : i < dest.length) :
    ∃ v, dest'[i]? = some v ∧ NotBelowZero v := by
  obtain ⟨m, k, rc, px, a, valid, hk, hconv, key⟩ := taken_converted_641 h
  obtain ⟨hv, hi', lo, h1, h2⟩ := key i hm
  obtain ⟨common, item, tA, al, κ, -, -, hget⟩ := converted_pixel hk hconv hm hi hv h1 h2
  exact ⟨_, hget, above_zero _ _ _ _⟩

end conversions

/-! ### Nothing finite -/

theorem nan_not_finite {a : F} (h : IsNaN a) : NotFinite a := by
  unfold NotFinite
  cases hv : Binary32.val a with
  | none => rfl
  | some x =>
    have : feq a a = true := (Binary32.feq_exact a a x x hv hv).2 rfl
    rw [show feq a a = false from h] at this
    cases this

section lost
variable [Binary32Lost F]

theorem raw_lost [Binary32NaN F] {common : CommonIrData F} {k : Calib F} {g : Int} {x : F} (hg : common.gain = k.gain /. ofInt g) (hx : common.emissivity = x)
    (h : g = 0 ∨ Is x 0 ∨ IsNaN x) (cp : Option F) (item : RawItem F) : NotFinite (rawValue common cp item) := by
  have key : NotFinite (perPixelVIr item.word common item.offset item.kV item.kTa item.comp) := by
    unfold perPixelVIr
    dsimp only
    rw [hg, hx]
    rcases h with rfl | h | h
    · have h0 : Is (ofInt 0 : F) 0 := by
        have := rounds_exact (Binary32.ofInt_rounds (F := F) 0) (by simpa using value_int (m := 0) (by norm_num))
        simp only [Int.cast_zero] at this
        exact this
      exact Binary32Special.div_left _ _ (Binary32Special.sub_left _ _ (Binary32Special.add_left _ _ (Binary32Lost.mul_right _ _
        (Binary32Special.div_zero _ _ h0))))
    · exact Binary32Special.div_zero _ _ h
    · exact nan_not_finite (Binary32NaN.div_right _ _ h)
  unfold rawValue
  cases cp with
  | none => exact key
  | some o => exact Binary32Special.sub_left _ _ key

theorem temp_lost (f : TempFrame F) (al : F) {v : F} (h : NotFinite v ∨ NotFinite f.tar) : NotFinite (tempValue f al v) := by
  unfold tempValue perPixelTemperature
  dsimp only
  refine Binary32Special.sub_left _ _ (Binary32Special.root _ _ ?_ quarter)
  rcases h with h | h
  · exact Binary32Special.add_left _ _ (Binary32Special.div_left _ _ h)
  · exact Binary32Special.add_right _ _ h

theorem reflected_lost (tA r em : F) (hr : NotFinite r) (he : ¬ Is em 1) : NotFinite (tAr tA r em) := by
  have h1 : Is (lit 1 : F) 1 := is_lit (by norm_num) (by simpa using value_int (m := 1) (by norm_num))
  have hf : feq em (lit 1) = false := by
    cases hv : Binary32.val em with
    | none => exact Binary32.feq_finite _ _ _ hv h1
    | some y =>
      by_contra hc
      rw [Bool.not_eq_false] at hc
      have := (Binary32.feq_exact _ _ _ _ hv h1).1 hc
      subst this
      exact he hv
  unfold tAr
  rw [hf]
  exact Binary32Special.sub_left _ _ (Binary32Lost.power _ (Binary32Special.add_left _ _ hr))

/-- A gain word of zero, an emissivity of zero, and one that is NaN leave no finite number in any pixel that an MLX90640 measured, be it of a raw
image or of a thermal one. -/
theorem C115_zero_640 [Binary32NaN F] {kind : ImageKind} {V : Word → Word} {x : F} {refl : Option F} {sp : Subpage} {dest dest' : List F}
    {tA : Option F} (h : Taken Driver.new640 24 kind V x refl sp dest dest' tA) (hz : V 0x070A#16 = 0#16 ∨ Is x 0 ∨ IsNaN x)
    (i : Nat) (hm : Mlx90640Memory.measured V sp i) (hi : i < dest.length) : ∃ v, dest'[i]? = some v ∧ NotFinite v := by
  obtain ⟨m, k, rc, px, a, valid, hk, hconv, key⟩ := taken_converted_640 h
  obtain ⟨hv, hi', lo, h1, h2⟩ := key i hm
  obtain ⟨common, item, tA, al, κ, hgain, hem, hget⟩ := converted_pixel hk hconv hm.1 hi hv h1 h2
  have lost := raw_lost hgain hem (hz.imp_left fun h0 => by
    show (V 0x070A#16).toInt = 0
    rw [h0]; rfl)
  refine ⟨_, hget, ?_⟩
  cases kind with
  | raw => exact lost _ _
  | thermal => exact temp_lost _ _ (Or.inl (lost _ _))

theorem C115_zero_641 [Binary32NaN F] {kind : ImageKind} {V : Word → Word} {x : F} {refl : Option F} {sp : Subpage} {dest dest' : List F}
    {tA : Option F} (h : Taken Driver.new641 12 kind V x refl sp dest dest' tA) (hz : V 0x058A#16 = 0#16 ∨ Is x 0 ∨ IsNaN x)
    (i : Nat) (hm : i < 192) (hi : i < dest.length) : ∃ v, dest'[i]? = some v ∧ NotFinite v := by
  obtain ⟨m, k, rc, px, a, valid, hk, hconv, key⟩ := taken_converted_641 h
  obtain ⟨hv, hi', lo, h1, h2⟩ := key i hm
  obtain ⟨common, item, tA, al, κ, hgain, hem, hget⟩ := converted_pixel hk hconv hm hi hv h1 h2
  have lost := raw_lost hgain hem (hz.imp_left fun h0 => by
    show (V 0x058A#16).toInt = 0
    rw [h0]; rfl)
  refine ⟨_, hget, ?_⟩
  cases kind with
  | raw => exact lost _ _
  | thermal => exact temp_lost _ _ (Or.inl (lost _ _))

/-- A reflected temperature that is not finite leaves no finite temperature, unless the emissivity is one. -/
theorem C115_reflected_640 {V : Word → Word} {x r : F} {sp : Subpage} {dest dest' : List F} {tA : Option F}
    (h : Taken Driver.new640 24 .thermal V x (some r) sp dest dest' tA) (hr : NotFinite r) (hx : ¬ Is x 1)
    (i : Nat) (hm : Mlx90640Memory.measured V sp i) (hi : i < dest.length) : ∃ v, dest'[i]? = some v ∧ NotFinite v := by
  obtain ⟨m, k, rc, px, a, valid, hk, hconv, key⟩ := taken_converted_640 h
  obtain ⟨hv, hi', lo, h1, h2⟩ := key i hm
  obtain ⟨common, item, tA, al, κ, -, -, hget⟩ := converted_pixel hk hconv hm.1 hi hv h1 h2
  exact ⟨_, hget, temp_lost _ _ (Or.inr (reflected_lost _ _ _ hr hx))⟩

theorem C115_reflected_641 {V : Word → Word} {x r : F} {sp : Subpage} {dest dest' : List F} {tA : Option F}
    (h : Taken Driver.new641 12 .thermal V x (some r) sp dest dest' tA) (hr : NotFinite r) (hx : ¬ Is x 1)
    (i : Nat) (hm : i < 192) (hi : i < dest.length) : ∃ v, dest'[i]? = some v ∧ NotFinite v := by
  obtain ⟨m, k, rc, px, a, valid, hk, hconv, key⟩ := taken_converted_641 h
  obtain ⟨hv, hi', lo, h1, h2⟩ := key i hm
  obtain ⟨common, item, tA, al, κ, -, -, hget⟩ := converted_pixel hk hconv hm hi hv h1 h2
  exact ⟨_, hget, temp_lost _ _ (Or.inr (reflected_lost _ _ _ hr hx))⟩

end lost

end

/-! ### Examples -/

instance rounded_roots : Binary32Roots Rounded where
  root_nonneg a b x hb h := by
    cases a with
    | none =>
      have : (F32Ops.powf (none : Rounded) b) = none := ite_self none
      rw [Is, this] at h
      cases h
    | some y =>
      obtain ⟨y, hy⟩ := y
      rcases lt_or_ge y 0 with hneg | hpos
      · have : (F32Ops.powf (some ⟨y, hy⟩) b : Rounded) = none := if_pos ⟨y, rfl, hneg⟩
        rw [Is, this] at h
        cases h
      · obtain ⟨hb', rfl⟩ := of_val hb
        rw [Is, rounded_powf hpos] at h
        by_contra hx
        push Not at hx
        have hz : 0 ≤ y ^ (1 / 4 : ℝ) := Real.rpow_nonneg hpos _
        generalize y ^ (1 / 4 : ℝ) = z at h hz
        by_cases hm : |z| ≤ maxBinary32
        · obtain ⟨w, h1, -, h2⟩ := rounded_rounds z hm
          rw [show (rounded z).map (·.1) = some x from h, Option.some.injEq] at h1
          subst h1
          have := h2 0 zero_value
          rw [zero_sub, abs_neg, abs_of_nonneg hz, abs_of_neg (by linarith)] at this
          linarith
        · have : rounded z = none := if_neg hm
          rw [this] at h
          cases h

instance rounded_lost : Binary32Lost Rounded where
  mul_right a b h := by
    cases b with
    | none => cases a <;> rfl
    | some x => cases h
  power a h := by
    cases a with
    | none => rfl
    | some x => cases h

/-- In a release build, an image can be made of a healthy MLX90640 with any memory, with any emissivity and reflected temperature set before. -/
theorem set_640 (M : Word → Word) (x : Rounded) (refl : Option Rounded) (sp : Subpage) (dest : List Rounded) :
    ∃ dest' tA, Taken Driver.new640 24 .thermal M x refl sp dest dest' tA := by
  have hst := cameraBus_static 0x33#8
  have hst2 : StaticMemory (recorded (cameraBus 0x33#8)) 0x33#8 Prod.fst := static_recorded hst
  have hv := fun cam => cameraBus_serves cam 0x33#8
  have hv2 : ∀ cam, Serves (recorded (cameraBus 0x33#8)) cam 0x33#8 Prod.fst := fun cam =>
    ⟨fun s => (hv cam).read s.1, fun s => (hv cam).write s.1, fun s => (hv cam).eeprom s.1⟩
  obtain ⟨s', d, hd⟩ := ((C68_construction (F := Rounded) .wrapping _ (M, []) _ hst2).1 (hv2 _)).2 (Or.inl rfl)
  obtain ⟨hmem, c, hc, hcal⟩ := new_static hst2 hd
  let env : Env ((Word → Word) × List (Txn Unit Unit)) Unit Unit := recordedEnv ⟨.wrapping, 24, cameraBus 0x33#8⟩
  let ops : List (Op Rounded) := [.overrideEmissivity x, .setReflectedTemperature refl]
  let d1 := runOps env ops d
  have hok := (C68_healthy_camera_works .wrapping (recorded (cameraBus 0x33#8)) _ s' _ d 24 (Or.inl ⟨rfl, hd⟩) hst2 (hv2 _) (Or.inl rfl) _ d1
    ((Session.start.call (.overrideEmissivity x)).call (.setReflectedTemperature refl))).2 (.generateImageSubpageTo sp dest)
  have hok : (discardImage (Driver.generateImageSubpageTo env sp dest d1)).2 = .ok () := hok
  have heard := C99_healthy_camera .wrapping (cameraBus 0x33#8) (M, []) s' 0x33#8 d 24 id (Or.inl ⟨rfl, hd⟩) hst (hv _)
    (fun a w h => nomatch h) [.overrideEmissivity x, .setReflectedTemperature refl, .generateImageSubpageTo sp dest]
  have heard : AsHeard 0x33#8 (discardImage (Driver.generateImageSubpageTo env sp dest d1)).1.bus.2
    (discardImage (Driver.generateImageSubpageTo env sp dest d1)).1.bus.1 := heard
  obtain ⟨hs, ha⟩ := (C39_constructed_drivers_supported .wrapping (recorded (cameraBus 0x33#8)) _ 0x33#8).1 s' d hd
  have hs1 : Supported env d1 := ⟨hs.1, hs.2, hs.3⟩
  have same : (Driver.generateImageSubpageTo env sp dest d1).1.bus.1 = M := by
    rw [imageSubpage_eq]
    exact (static_image (env := env) (mem := Prod.fst) hs1 (by show StaticMemory _ d.addr _; rw [ha]; exact hst2) _ _ _).trans hmem
  obtain ⟨d', dest', hg⟩ : ∃ d' dest', Driver.generateImageSubpageTo env sp dest d1 = (d', dest', .ok ()) := by
    revert hok
    generalize Driver.generateImageSubpageTo env sp dest d1 = q
    intro hok
    obtain ⟨d', dest', r⟩ := q
    unfold discardImage discard at hok
    cases r with
    | ok u => exact ⟨d', dest', rfl⟩
    | err e => cases hok
    | panic => cases hok
  rw [hg] at heard same
  have heard : AsHeard 0x33#8 d'.bus.2 d'.bus.1 := heard
  have same : d'.bus.1 = M := same
  rw [same] at heard
  exact ⟨dest', _, _, _, _, _, _, _, _, _, d, d1, d', ops, hd, rfl, rfl, rfl, heard, rfl, Or.inl hg⟩

/-- Images can be made of any memory, whatever the EEPROM in it: no pixel that was measured is below absolute zero. -/
example (M : Word → Word) (x : Rounded) (refl : Option Rounded) (sp : Subpage) (dest : List Rounded) (hdest : dest.length = 768) (i : Nat)
    (hm : Mlx90640Memory.measured M sp i) :
    ∃ dest' tA, Taken Driver.new640 24 .thermal M x refl sp dest dest' tA ∧ ∃ v, dest'[i]? = some v ∧ NotBelowZero v := by
  obtain ⟨dest', tA, h⟩ := set_640 M x refl sp dest
  exact ⟨dest', tA, h, C114_images_640 h i hm (by rw [hdest]; exact hm.1)⟩

example : ∀ i, Mlx90640Memory.measured sceneMemory .zero i ∨ Mlx90640Memory.measured sceneMemory .one i ∨ 768 ≤ i := by
  intro i
  unfold Mlx90640Memory.measured
  cases pattern (sceneMemory 0x800D#16) <;> (simp only [Subpage.toNat]; omega)

/-- A temperature below absolute zero would not pass. -/
example (a : Rounded) (h : Is a (-274)) : ¬ NotBelowZero a := fun hn => absurd (hn _ h) (by norm_num)

/-- Pixel 367 with a gain word of zero, an emissivity of zero, and a reflected temperature that is not a number. -/
example (dest : List Rounded) (hdest : dest.length = 768) :
    (∃ dest' tA, Taken Driver.new640 24 .thermal (setWord sceneMemory 0x070A#16 0#16) (lit 1) none .zero dest dest' tA ∧
      ∃ v, dest'[367]? = some v ∧ NotFinite v) ∧
    (∃ dest' tA, Taken Driver.new640 24 .thermal sceneMemory (ofInt 0) none .zero dest dest' tA ∧ ∃ v, dest'[367]? = some v ∧ NotFinite v) ∧
    ∃ dest' tA, Taken Driver.new640 24 .thermal sceneMemory (lit (1 / 2)) (some (none : Rounded)) .zero dest dest' tA ∧
      ∃ v, dest'[367]? = some v ∧ NotFinite v := by
  refine ⟨?_, ?_, ?_⟩
  · obtain ⟨dest', tA, h⟩ := set_640 (setWord sceneMemory 0x070A#16 0#16) (lit 1) none .zero dest
    refine ⟨dest', tA, h, C115_zero_640 h (Or.inl (if_pos rfl)) 367 ?_ (by omega)⟩
    have := scene640.1
    unfold Mlx90640Memory.measured at this ⊢
    rwa [show setWord sceneMemory 0x070A#16 0#16 0x800D#16 = sceneMemory 0x800D#16 from if_neg (by decide)]
  · obtain ⟨dest', tA, h⟩ := set_640 sceneMemory (ofInt 0) none .zero dest
    refine ⟨dest', tA, h, C115_zero_640 h (Or.inr (Or.inl ?_)) 367 scene640.1 (by omega)⟩
    have := rounds_exact (Binary32.ofInt_rounds (F := Rounded) 0) (by simpa using value_int (m := 0) (by norm_num))
    simp only [Int.cast_zero] at this
    exact this
  · obtain ⟨dest', tA, h⟩ := set_640 sceneMemory (lit (1 / 2)) (some (none : Rounded)) .zero dest
    refine ⟨dest', tA, h, C115_reflected_640 h rfl ?_ 367 scene640.1 (by omega)⟩
    intro h1
    have h2 : Is (lit (1 / 2) : Rounded) (1 / 2) := by
      have := is_lit (F := Rounded) (q := 1 / 2) (x := 1 / 2) (by norm_num) (by simpa using value_div (m := 1) (k := 1) (by norm_num) (by norm_num))
      exact this
    have := Option.some.inj (h1.symm.trans h2)
    norm_num at this

/-- And pixel 100 of an MLX90641 that sends a gain word of zero, in both kinds of images. -/
example (dest : List Rounded) (hdest : dest.length = 192) (kind : ImageKind) :
    ∃ dest' tA, Taken Driver.new641 12 kind (setWord memory641 0x058A#16 0#16) (used641 Rounded) none .zero dest dest' tA ∧
      ∃ v, dest'[100]? = some v ∧ NotFinite v := by
  have hD : ∀ a ∈ Ee641.readAddresses 192, WithinOneBit (eepromOf (setWord memory641 0x058A#16 0#16) a) (codeword (values641 a)) := by
    intro a ha
    obtain ⟨b1, b2, _⟩ := readAddresses_bounds ha
    have hdiff : DifferInPixels 0x0600 memory641 (setWord memory641 0x058A#16 0#16) := by
      intro a ha
      unfold setWord
      rw [if_neg]
      rintro rfl
      exact ha (by decide)
    rw [differ_eeprom (by decide) hdiff a (by omega) b2]
    exact memory641_holds a ha
  obtain ⟨⟨d1, t1, h1⟩, ⟨d2, t2, h2⟩, -⟩ := made_641 (setWord memory641 0x058A#16 0#16) hD dest
  cases kind with
  | raw => exact ⟨d2, t2, h2, C115_zero_641 h2 (Or.inl (if_pos rfl)) 100 (by decide) (by omega)⟩
  | thermal => exact ⟨d1, t1, h1, C115_zero_641 h1 (Or.inl (if_pos rfl)) 100 (by decide) (by omega)⟩

end Mlx.Props
