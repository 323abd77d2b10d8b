import Verif.Spec.Scene
import Verif.Props.Order
/-
C90, C91: how emissivity and reflected temperature act on images.
-/
set_option linter.unusedSectionVars false
set_option autoImplicit false
namespace Mlx.Props
open Mlx Mlx.Spec Mlx.Proofs F32Ops

/-! ### The documented temperature as a function of the radiation of the surroundings -/

/-- The first estimate `x` (in kelvins), and the temperature in terms of it. -/
theorem object_estimate {u α tar : ℝ} (k : ℝ) (hα : 0 < α) (h : Measured u α tar) : ∃ x, 220 ≤ x ∧ x ≤ 1000 ∧ x ^ 4 = u / α + tar ∧
    Datasheet.object u α tar k = (u / α / (1 + k * (x - 273.15)) + tar) ^ (1 / 4 : ℝ) - 273.15 := by
  obtain ⟨u1, u2⟩ := h
  have hn : 0 ≤ u / α + tar := le_trans (by norm_num) u1
  refine ⟨(u / α + tar) ^ (1 / 4 : ℝ), ?_, ?_, ?_, ?_⟩
  · have := Real.rpow_le_rpow (by norm_num) u1 (by norm_num : (0 : ℝ) ≤ 1 / 4)
    refine le_trans (le_of_eq ?_) this
    rw [← Real.rpow_natCast, ← Real.rpow_mul (by norm_num)]; norm_num
  · have := Real.rpow_le_rpow hn u2 (by norm_num : (0 : ℝ) ≤ 1 / 4)
    refine this.trans (le_of_eq ?_)
    rw [← Real.rpow_natCast, ← Real.rpow_mul (by norm_num)]; norm_num
  · rw [← Real.rpow_natCast, ← Real.rpow_mul hn]; norm_num
  · unfold Datasheet.object
    have e1 : α ^ 3 * u + α ^ 4 * tar = α ^ 4 * (u / α + tar) := by field_simp
    have e2 : (α ^ 4 * (u / α + tar)) ^ (1 / 4 : ℝ) = α * (u / α + tar) ^ (1 / 4 : ℝ) := by
      rw [Real.mul_rpow (by positivity) hn]
      congr 1
      rw [← Real.rpow_natCast, ← Real.rpow_mul hα.le]; norm_num
    simp only [e1, e2]
    congr 3
    rw [div_div]
    congr 1
    ring

/-- The fourth power of the temperature is not negative. -/
theorem object_nonneg {x tar k : ℝ} (h0 : 0 ≤ tar) (ht : tar ≤ 400 ^ 4) (hk : |k| ≤ 1 / 1000) (x1 : 220 ≤ x) (x2 : x ≤ 1000) :
    0 ≤ (x ^ 4 - tar) / (1 + k * (x - 273.15)) + tar := by
  obtain ⟨k1, k2⟩ := abs_le.1 hk
  have dx : 1 / 5 ≤ 1 + k * (x - 273.15) := by nlinarith
  have hd0 : 0 < 1 + k * (x - 273.15) := by linarith
  have e : (x ^ 4 - tar) / (1 + k * (x - 273.15)) + tar = (x ^ 4 + tar * (k * (x - 273.15))) / (1 + k * (x - 273.15)) := by
    field_simp
    ring
  rw [e]
  refine div_nonneg ?_ hd0.le
  have x4 : (220 : ℝ) ^ 3 * x ≤ x ^ 4 := by
    have : (220 : ℝ) ^ 3 ≤ x ^ 3 := by gcongr
    nlinarith
  have hb : |k * (x - 273.15)| ≤ |x - 273.15| / 1000 := by
    rw [abs_mul]
    nlinarith [abs_nonneg (x - 273.15)]
  have hb2 : |tar * (k * (x - 273.15))| ≤ 400 ^ 4 * (|x - 273.15| / 1000) := by
    rw [abs_mul, abs_of_nonneg h0]
    gcongr
  have hb3 := (abs_le.1 hb2).1
  rcases le_total x 273.15 with hx | hx
  · rw [abs_of_nonpos (by linarith)] at hb3
    norm_num at hb3 x4 ⊢
    linarith
  · rw [abs_of_nonneg (by linarith)] at hb3
    have x4' : (273 : ℝ) ^ 3 * x ≤ x ^ 4 := by
      have : (273 : ℝ) ^ 3 ≤ x ^ 3 := by gcongr; linarith
      nlinarith
    norm_num at hb3 x4' ⊢
    linarith

set_option maxHeartbeats 1000000 in
/-- The documented temperature grows with the effective radiation of the surroundings. -/
theorem object_strictMono_radiation {v α tar tar' k : ℝ} (h : Ordinary v α tar k) (h' : Ordinary v α tar' k) (hlt : tar < tar') :
    Datasheet.object v α tar k < Datasheet.object v α tar' k := by
  obtain ⟨hα, ⟨h0, ht⟩, hk, hm⟩ := h
  obtain ⟨-, ⟨h0', ht'⟩, -, hm'⟩ := h'
  obtain ⟨x, x1, x2, x3, ex⟩ := object_estimate k hα hm
  obtain ⟨y, y1, y2, y3, ey⟩ := object_estimate k hα hm'
  have hnn := object_nonneg h0 ht hk x1 x2
  rw [ex, ey]
  generalize v / α = w at *
  have hxy : x < y := by
    have : x ^ 4 < y ^ 4 := by rw [x3, y3]; linarith
    exact lt_of_pow_lt_pow_left₀ 4 (by linarith) this
  rw [x3, add_sub_cancel_right] at hnn
  obtain ⟨k1, k2⟩ := abs_le.1 hk
  have dx : 1 / 5 ≤ 1 + k * (x - 273.15) := by nlinarith
  have dy : 1 / 5 ≤ 1 + k * (y - 273.15) := by nlinarith
  have x3' : (220 : ℝ) ^ 3 ≤ x ^ 3 := by gcongr
  have chord : 4 * x ^ 3 ≤ (y + x) * (y ^ 2 + x ^ 2) := by
    have h1 : x ^ 2 ≤ y ^ 2 := by gcongr
    have : (2 * x) * (2 * x ^ 2) ≤ (y + x) * (y ^ 2 + x ^ 2) := by
      apply mul_le_mul <;> nlinarith
    linarith
  have slope : w * k < 4 * x ^ 3 * ((1 + k * (x - 273.15)) * (1 + k * (y - 273.15))) := by
    have pos : 0 < 4 * x ^ 3 * ((1 + k * (x - 273.15)) * (1 + k * (y - 273.15))) := by positivity
    rcases le_total 0 k with hk0 | hk0
    · have ax : 9 / 10 ≤ 1 + k * (x - 273.15) := by nlinarith
      have ay : 9 / 10 ≤ 1 + k * (y - 273.15) := by nlinarith
      have a : 4 / 5 ≤ (1 + k * (x - 273.15)) * (1 + k * (y - 273.15)) := by nlinarith
      have b : w * k ≤ x ^ 4 * k := by
        refine mul_le_mul_of_nonneg_right ?_ hk0
        linarith
      have c : x ^ 4 * k ≤ x ^ 3 := by
        have : x * k ≤ 1 := by nlinarith
        have : x ^ 3 * (x * k) ≤ x ^ 3 * 1 := by gcongr
        nlinarith
      have e : 4 * x ^ 3 * (4 / 5) ≤ 4 * x ^ 3 * ((1 + k * (x - 273.15)) * (1 + k * (y - 273.15))) := by gcongr
      nlinarith
    · rcases le_total 0 w with hw | hw
      · have : w * k ≤ 0 := mul_nonpos_of_nonneg_of_nonpos hw hk0
        linarith
      · have y400 : y ≤ 400 := by
          have : y ^ 4 ≤ 400 ^ 4 := by linarith
          exact le_of_pow_le_pow_left₀ (by norm_num) (by norm_num) this
        have ax : 87 / 100 ≤ 1 + k * (x - 273.15) := by nlinarith
        have ay : 87 / 100 ≤ 1 + k * (y - 273.15) := by nlinarith
        have a : 3 / 4 ≤ (1 + k * (x - 273.15)) * (1 + k * (y - 273.15)) := by nlinarith
        have hw2 : -(400 ^ 4 - 220 ^ 4) ≤ w := by
          have : (220 : ℝ) ^ 4 ≤ x ^ 4 := by gcongr
          linarith
        have b : w * k ≤ (400 ^ 4 - 220 ^ 4) / 1000 := by nlinarith
        have e : 4 * x ^ 3 * (3 / 4) ≤ 4 * x ^ 3 * ((1 + k * (x - 273.15)) * (1 + k * (y - 273.15))) := by gcongr
        norm_num at b x3' ⊢
        nlinarith
  have key : w / (1 + k * (x - 273.15)) + tar < w / (1 + k * (y - 273.15)) + tar' := by
    have hX : 0 < 1 + k * (x - 273.15) := by linarith
    have hY : 0 < 1 + k * (y - 273.15) := by linarith
    have e1 : w / (1 + k * (x - 273.15)) - w / (1 + k * (y - 273.15)) =
        w * k * (y - x) / ((1 + k * (x - 273.15)) * (1 + k * (y - 273.15))) := by
      field_simp
      ring
    have e2 : tar' - tar = (y - x) * ((y + x) * (y ^ 2 + x ^ 2)) := by
      have : tar' - tar = y ^ 4 - x ^ 4 := by rw [x3, y3]; ring
      rw [this]; ring
    have e3 : w * k * (y - x) / ((1 + k * (x - 273.15)) * (1 + k * (y - 273.15))) < tar' - tar := by
      rw [div_lt_iff₀ (by positivity), e2]
      have h1 := mul_le_mul_of_nonneg_right chord (by positivity :
        0 ≤ (1 + k * (x - 273.15)) * (1 + k * (y - 273.15)))
      have := mul_lt_mul_of_pos_left (slope.trans_le h1) (by linarith : 0 < y - x)
      nlinarith
    linarith
  have := Real.rpow_lt_rpow hnn key (by norm_num : (0 : ℝ) < 1 / 4)
  linarith

/-! ### Emissivity and raw images -/

/-- **C90 (raw images).** The emissivity setting divides the raw image: computed with the emissivities `em` and `em'`, other
things being equal, the values of a selected pixel are in the ratio `em' : em`, and the ambient temperature is the same. In
both builds, whatever the calibration and the readings. -/
theorem C90_emissivity_divides_raw_image {ε : Type} (m : Mode) (c : Calib ℝ) (n : Nat) (hc : Complete c n) (em em' rc : ℝ)
    (he : em ≠ 0) (_he' : em' ≠ 0) (r : RamData) (px : List Byte) (hpx : 2 * n ≤ px.length) (s : Subpage) (a : AccessPattern)
    (valid : List Bool) (dest dest' out out' : List ℝ) (tA tA' : ℝ)
    (h : rawPixelsToIrData (ε := ε) m c em rc px r s a valid dest = .ok (tA, out))
    (h' : rawPixelsToIrData (ε := ε) m c em' rc px r s a valid dest' = .ok (tA', out'))
    (i : Nat) (hi : i < n) (hv : valid[i]? = some true) (v v' : ℝ) (hout : out[i]? = some v) (hout' : out'[i]? = some v') :
    tA' = tA ∧ v' = v * em / em' := by
  obtain ⟨common, hn, hta, -, hget⟩ := rawIr_ok h
  obtain ⟨common', hn', hta', -, hget'⟩ := rawIr_ok h'
  have hcc : common.emissivity = em ∧ common' = { common with emissivity := em' } := by
    unfold CommonIrData.new at hn hn'
    cases hd : deltaV (ε := ε) m c r.vddPixel with
    | ok dV =>
      rw [hd] at hn hn'
      have hn := Res.ok.inj hn
      have hn' := Res.ok.inj hn'
      rw [← hn, ← hn']
      exact ⟨rfl, rfl⟩
    | err e => rw [hd] at hn; cases hn
    | panic => rw [hd] at hn; cases hn
  obtain ⟨o, ho⟩ : ∃ o, (c.offsetRef s)[i]? = some o := ⟨_, List.getElem?_eq_getElem (by rw [hc.offsetRef]; exact hi)⟩
  obtain ⟨kv, hkv⟩ : ∃ o, (c.kV s)[i]? = some o := ⟨_, List.getElem?_eq_getElem (by rw [hc.kV]; exact hi)⟩
  obtain ⟨kt, hkt⟩ : ∃ o, (c.kTa s)[i]? = some o := ⟨_, List.getElem?_eq_getElem (by rw [hc.kTa]; exact hi)⟩
  obtain ⟨ap, hap⟩ : ∃ o, (c.apComp a)[i]? = some o := ⟨_, List.getElem?_eq_getElem (by rw [hc.apComp]; exact hi)⟩
  obtain ⟨b1, h1⟩ : ∃ b, px[2 * i]? = some b := ⟨_, List.getElem?_eq_getElem (by omega)⟩
  obtain ⟨b2, h2⟩ : ∃ b, px[2 * i + 1]? = some b := ⟨_, List.getElem?_eq_getElem (by omega)⟩
  have hit : rawItem c px s a i = some ⟨(be16 b1 b2).toInt, o, kv, kt, ap⟩ := by
    unfold rawItem
    rw [pixelWords_get px i b1 b2 h1 h2, ho, hkv, hkt, hap]
  obtain ⟨hem, rfl⟩ := hcc
  refine ⟨by rw [hta, hta'], ?_⟩
  have scale : ∀ (raw : Int) (o : Int) (kv kt : ℝ) (ap : Option ℝ),
      perPixelVIr raw { common with emissivity := em' } o kv kt ap = perPixelVIr raw common o kv kt ap * em / em' := by
    intro raw o kv kt ap
    unfold perPixelVIr
    dsimp only
    rw [hem]
    show _ / em' = _ / em * em / em'
    rw [div_mul_cancel₀ _ he]
  have hval : rawValue { common with emissivity := em' } (cpOffset c { common with emissivity := em' } r s a)
      ⟨(be16 b1 b2).toInt, o, kv, kt, ap⟩ =
      rawValue common (cpOffset c common r s a) ⟨(be16 b1 b2).toInt, o, kv, kt, ap⟩ * em / em' := by
    unfold rawValue cpOffset
    cases c.tgc with
    | none => exact scale _ _ _ _ _
    | some g =>
      dsimp only
      rw [scale, scale]
      simp only [Option.map_some, show ∀ x y : ℝ, (x *. y) = x * y from fun _ _ => rfl, show ∀ x y : ℝ, (x -. y) = x - y from fun _ _ => rfl]
      ring
  have e1 := hget i
  have e2 := hget' i
  rw [hit, hv, hout] at e1
  rw [hit, hv, hout'] at e2
  simp only at e1 e2
  cases hde : dest[i]? with
  | none => rw [hde] at e1; cases e1
  | some y =>
    cases hde' : dest'[i]? with
    | none => rw [hde'] at e2; cases e2
    | some y' =>
      rw [hde] at e1
      rw [hde'] at e2
      rw [Option.some.inj e1, Option.some.inj e2]
      exact hval

/-- The conditions of `C90_emissivity_divides_raw_image` are met by a calibration of three pixels, with a thermal gradient
coefficient, and emissivities of 1 and 1/2. -/
example : Complete (toyCalib Mlx90640.cam 3 (some (1 : ℝ))) 3 ∧ ∀ em : ℝ, ∃ tA v, rawPixelsToIrData (ε := LibErr) .checked
    (toyCalib Mlx90640.cam 3 (some 1)) em 1 [0, 7, 1, 0, 2, 2] toyRam .zero .chess [true, false, true] [0, 0, 0] =
      .ok (tA, v) ∧ v.length = 3 :=
  ⟨⟨fun _ => rfl, fun _ => rfl, fun _ => rfl, fun _ => rfl, fun _ => rfl, by decide⟩, fun _ => ⟨_, _, rfl, rfl⟩⟩

theorem compensatedSignal_emissivity (c : Calib ℝ) (rc em : ℝ) (r : RamData) (s : Subpage) (a : AccessPattern) (raw offset : Int)
    (kV kTa comp : ℝ) : Datasheet.compensatedSignal c rc em r s a raw offset kV kTa comp =
      Datasheet.compensatedSignal c rc 1 r s a raw offset kV kTa comp / em := by
  unfold Datasheet.compensatedSignal Datasheet.signal
  simp only [div_one]
  ring

/-- Surroundings that are warmer radiate more, for an emissivity below one. -/
theorem reflected_warmer {em x y A : ℝ} (he : 0 < em) (he1 : em < 1) (hx : 0 ≤ x + 273.15) (hxy : x < y) :
    Datasheet.reflected A y em < Datasheet.reflected A x em := by
  unfold Datasheet.reflected
  have hp : (x + 273.15) ^ 4 < (y + 273.15) ^ 4 := pow_lt_pow_left₀ (by linarith) (by linarith) (by norm_num)
  generalize (x + 273.15) ^ 4 = X at hp ⊢
  generalize (y + 273.15) ^ 4 = Y at hp ⊢
  generalize (A + 273.15) ^ 4 = A
  have h1e : 1 < 1 / em := by rw [lt_div_iff₀ he]; linarith
  have : (Y - X) * (1 / em - 1) > 0 := mul_pos (by linarith) (by linarith)
  have e : (X - (X - A) / em) - (Y - (Y - A) / em) = (Y - X) * (1 / em - 1) := by field_simp; ring
  linarith

/-- With a lower emissivity, surroundings that are not warmer than the sensor count as warmer. -/
theorem reflected_emissivity {em em' x A : ℝ} (he : 0 < em') (hlt : em' < em) (hx : 0 ≤ x + 273.15) (hA : x ≤ A) :
    Datasheet.reflected A x em ≤ Datasheet.reflected A x em' := by
  unfold Datasheet.reflected
  have hp : (x + 273.15) ^ 4 ≤ (A + 273.15) ^ 4 := pow_le_pow_left₀ (by linarith) (by linarith) 4
  have : ((A + 273.15) ^ 4 - (x + 273.15) ^ 4) / em ≤ ((A + 273.15) ^ 4 - (x + 273.15) ^ 4) / em' :=
    div_le_div_of_nonneg_left (by linarith) he hlt.le
  have f : ∀ x y e : ℝ, x - (x - y) / e = x + (y - x) / e := fun x y e => by ring
  rw [f, f]
  linarith

/-- A positive signal is larger with a lower emissivity. -/
theorem signal_emissivity {c : Calib ℝ} {rc em em' : ℝ} {r : RamData} {s : Subpage} {a : AccessPattern} {raw offset : Int}
    {kV kTa comp : ℝ} (he : 0 < em') (hlt : em' < em) (p0 : 0 < Datasheet.compensatedSignal c rc em r s a raw offset kV kTa comp) :
    Datasheet.compensatedSignal c rc em r s a raw offset kV kTa comp < Datasheet.compensatedSignal c rc em' r s a raw offset kV kTa comp := by
  have hpos : 0 < em := he.trans hlt
  have e1 := compensatedSignal_emissivity c rc em r s a raw offset kV kTa comp
  have e2 := compensatedSignal_emissivity c rc em' r s a raw offset kV kTa comp
  have h0 : 0 < Datasheet.compensatedSignal c rc 1 r s a raw offset kV kTa comp := by
    rw [e1] at p0
    have := mul_pos p0 hpos
    rwa [div_mul_cancel₀ _ hpos.ne'] at this
  rw [e1, e2]
  exact div_lt_div_of_pos_left h0 he hlt

/-- The temperature grows with signal and radiation. -/
theorem object_strictMono_both {v v' α R R' k : ℝ} (p3 : Ordinary v α R k) (p4 : Ordinary v' α R' k) (hsig : v < v') (hrad : R ≤ R') :
    Datasheet.object v α R k < Datasheet.object v' α R' k := by
  -- first the signal, with the lower radiation or the higher one, whichever keeps the estimate in range
  have hmid : Ordinary v α R' k := by
    refine ⟨p3.sensitivity, p4.radiation, p3.slope, ?_, ?_⟩
    · exact p3.estimate.1.trans (by linarith)
    · refine le_trans ?_ p4.estimate.2
      have := div_le_div_of_nonneg_right hsig.le p3.sensitivity.le
      linarith
  have first : Datasheet.object v α R' k < Datasheet.object v' α R' k :=
    object_strictMono p3.sensitivity p4.radiation.1 p4.radiation.2 p3.slope hmid.estimate p4.estimate hsig
  rcases hrad.eq_or_lt with h | h
  · rw [h]; exact first
  · exact (object_strictMono_radiation p3 hmid h).trans first

/-! ### Reflected temperature and emissivity in thermal images -/

/-- **C90 (thermal images).** For an emissivity between zero and one, a higher temperature of the surroundings (the one the user sets, or
the default derived from the ambient temperature) gives a strictly lower temperature of every ordinary selected pixel, and the
same ambient temperature. -/
theorem C90_reflected_temperature_lowers {ε : Type} (m : Mode) (c : Calib ℝ) (em rc : ℝ) (he : 0 < em) (he1 : em < 1)
    (r : RamData) (hr : Fits16 (r.vddPixel - c.vdd25)) (tR tR' : Option ℝ) (px : List Byte) (s : Subpage) (a : AccessPattern)
    (valid : List Bool) (dest dest' out out' : List ℝ) (tA tA' : ℝ)
    (i : Nat) (hv : valid[i]? = some true) (hd : i < dest.length) (hd' : i < dest'.length) (b1 b2 : Byte)
    (h1 : px[2 * i]? = some b1) (h2 : px[2 * i + 1]? = some b2)
    (offset : Int) (hof : (c.offsetRef s)[i]? = some offset) (kV kTa alpha : ℝ)
    (hkv : (c.kV s)[i]? = some kV) (hkt : (c.kTa s)[i]? = some kTa) (hal : (c.alpha s)[i]? = some alpha)
    (comp : Option ℝ) (hap : (c.apComp a)[i]? = some comp) (kSTo : ℝ) (hks : c.kSTo[c.cam.basicRange]? = some kSTo) :
    let signal := Datasheet.compensatedSignal c rc em r s a (be16 b1 b2).toInt offset kV kTa (comp.getD 0)
    let sensitivity := Datasheet.sensitivity c r s alpha
    let tAmb := Datasheet.ambient c r
    let surroundings := fun t : Option ℝ => t.getD (tAmb - c.cam.selfHeating)
    let radiation := fun t => Datasheet.reflected tAmb (surroundings t) em
    0 ≤ surroundings tR + 273.15 → surroundings tR < surroundings tR' →
    Ordinary signal sensitivity (radiation tR) kSTo → Ordinary signal sensitivity (radiation tR') kSTo →
    rawPixelsToTemperatures (ε := ε) m c em tR rc px r s a valid dest = .ok (tA, out) →
    rawPixelsToTemperatures (ε := ε) m c em tR' rc px r s a valid dest' = .ok (tA', out') →
    tA' = tA ∧ ∃ t t', out[i]? = some t ∧ out'[i]? = some t' ∧ t' < t := by
  intro signal sensitivity tAmb surroundings radiation p1 p2 p3 p4 k1 k2
  have F1 := C55_documented_formulas (ε := ε) m c em rc tA tR px r s a valid dest out hr i hv hd b1 b2 h1 h2 offset hof kV kTa alpha
    hkv hkt hal comp hap kSTo hks
  have F2 := C55_documented_formulas (ε := ε) m c em rc tA' tR' px r s a valid dest' out' hr i hv hd' b1 b2 h1 h2 offset hof kV
    kTa alpha hkv hkt hal comp hap kSTo hks
  obtain ⟨a1, a2⟩ := F1.2 k1
  obtain ⟨a1', a2'⟩ := F2.2 k2
  refine ⟨a1'.trans a1.symm, _, _, a2, a2', ?_⟩
  rw [a1, a1']
  exact object_strictMono_radiation p4 p3 (reflected_warmer he he1 p1 p2)

/-- **C91.** For a pixel that receives more radiation than it emits (its signal is positive) and surroundings not warmer than the
sensor (which is so by default), a lower emissivity setting gives a strictly higher temperature of every ordinary selected
pixel, and the same ambient temperature. -/
theorem C91_lower_emissivity_raises {ε : Type} (m : Mode) (c : Calib ℝ) (em em' rc : ℝ) (he : 0 < em') (hlt : em' < em)
    (r : RamData) (hr : Fits16 (r.vddPixel - c.vdd25)) (tR : Option ℝ) (px : List Byte) (s : Subpage) (a : AccessPattern)
    (valid : List Bool) (dest dest' out out' : List ℝ) (tA tA' : ℝ)
    (i : Nat) (hv : valid[i]? = some true) (hd : i < dest.length) (hd' : i < dest'.length) (b1 b2 : Byte)
    (h1 : px[2 * i]? = some b1) (h2 : px[2 * i + 1]? = some b2)
    (offset : Int) (hof : (c.offsetRef s)[i]? = some offset) (kV kTa alpha : ℝ)
    (hkv : (c.kV s)[i]? = some kV) (hkt : (c.kTa s)[i]? = some kTa) (hal : (c.alpha s)[i]? = some alpha)
    (comp : Option ℝ) (hap : (c.apComp a)[i]? = some comp) (kSTo : ℝ) (hks : c.kSTo[c.cam.basicRange]? = some kSTo) :
    let signal := fun em => Datasheet.compensatedSignal c rc em r s a (be16 b1 b2).toInt offset kV kTa (comp.getD 0)
    let sensitivity := Datasheet.sensitivity c r s alpha
    let tAmb := Datasheet.ambient c r
    let surroundings := tR.getD (tAmb - c.cam.selfHeating)
    let radiation := fun em => Datasheet.reflected tAmb surroundings em
    0 < signal em → 0 ≤ surroundings + 273.15 → surroundings ≤ tAmb →
    Ordinary (signal em) sensitivity (radiation em) kSTo → Ordinary (signal em') sensitivity (radiation em') kSTo →
    rawPixelsToTemperatures (ε := ε) m c em tR rc px r s a valid dest = .ok (tA, out) →
    rawPixelsToTemperatures (ε := ε) m c em' tR rc px r s a valid dest' = .ok (tA', out') →
    tA' = tA ∧ ∃ t t', out[i]? = some t ∧ out'[i]? = some t' ∧ t < t' := by
  intro signal sensitivity tAmb surroundings radiation p0 p1 p2 p3 p4 k1 k2
  have F1 := C55_documented_formulas (ε := ε) m c em rc tA tR px r s a valid dest out hr i hv hd b1 b2 h1 h2 offset hof kV kTa alpha
    hkv hkt hal comp hap kSTo hks
  have F2 := C55_documented_formulas (ε := ε) m c em' rc tA' tR px r s a valid dest' out' hr i hv hd' b1 b2 h1 h2 offset hof kV
    kTa alpha hkv hkt hal comp hap kSTo hks
  obtain ⟨a1, a2⟩ := F1.2 k1
  obtain ⟨a1', a2'⟩ := F2.2 k2
  refine ⟨a1'.trans a1.symm, _, _, a2, a2', ?_⟩
  rw [a1, a1']
  show Datasheet.object (signal em) sensitivity (radiation em) kSTo < Datasheet.object (signal em') sensitivity (radiation em') kSTo
  exact object_strictMono_both p3 p4 (signal_emissivity he hlt p0) (reflected_emissivity he hlt p1 p2)

/-! ### The hypotheses can be met -/

set_option maxHeartbeats 1000000 in
/-- In the frame of the datasheet's worked example (where the emissivity is 1), pixel 367 meets the conditions of
`C90_reflected_temperature_lowers` for an emissivity of 0.95 and surroundings of 20 °C or the default (about 31 °C), and
those of `C91_lower_emissivity_raises` for emissivities of 1 and 0.95. -/
example (t : Calib ℝ) (ht : t = Ee640.calibration (eepromWord example640)) :
    let signal := fun em => Datasheet.compensatedSignal t 1 em readings640 .zero .chess 609 (-75) (4 / 2 ^ 3) (84 / 2 ^ 14) 0
    let sensitivity := Datasheet.sensitivity t readings640 .zero (17348 / 2 ^ 37)
    let tAmb := Datasheet.ambient t readings640
    let surroundings := fun tR : Option ℝ => tR.getD (tAmb - 8)
    let radiation := fun tR em => Datasheet.reflected tAmb (surroundings tR) em
    Fits16 (readings640.vddPixel - t.vdd25) ∧
      0 ≤ surroundings (some 20) + 273.15 ∧ surroundings (some 20) < surroundings none ∧
      Ordinary (signal 0.95) sensitivity (radiation (some 20) 0.95) (-105 / 2 ^ 17) ∧
      Ordinary (signal 0.95) sensitivity (radiation none 0.95) (-105 / 2 ^ 17) ∧
      0 < signal 1 ∧ 0 ≤ surroundings none + 273.15 ∧ surroundings none ≤ tAmb ∧
      Ordinary (signal 1) sensitivity (radiation none 1) (-105 / 2 ^ 17) := by
  obtain ⟨⟨e1, e2, e3, e4, e5, e6, e7⟩, ⟨g1, g2, -, g4, -⟩, ⟨c1, c2, c3, c4, c5⟩, -⟩ := parameters640 t ht
  intro signal sensitivity tAmb surroundings radiation
  have hV : Datasheet.deltaV t readings640 = 59 / 3168 := by
    unfold Datasheet.deltaV readings640
    rw [e1, e2]; norm_num
  have hT : tAmb = 136099541231863 / 3473307198907 := by
    show Datasheet.ambient t readings640 = _
    unfold Datasheet.ambient
    rw [hV, e4, e5, e6, e7]; unfold readings640; norm_num
  have hs : Datasheet.supply t 1 readings640 = 59 / 3168 + 3.3 := by
    unfold Datasheet.supply
    rw [hV, e3]; norm_num
  have hS : ∀ em, signal em = (609 * (6383 / 6881) + (5174955840091582878902627 / 9845308323733540962304 - 512 * (6383 / 6881))) / em := by
    intro em
    show Datasheet.compensatedSignal t 1 em readings640 .zero .chess 609 (-75) (4 / 2 ^ 3) (84 / 2 ^ 14) 0 = _
    rw [compensatedSignal_emissivity]
    unfold Datasheet.compensatedSignal Datasheet.signal
    rw [show Datasheet.ambient t readings640 = _ from hT, hs, g1, g4, c1, c3, c4, c5]
    unfold readings640
    simp only [Option.getD_some, Option.getD_none]
    push_cast
    ring_nf
  have hα : sensitivity = 1814222945991819903 / 15275766608145338312163328 := by
    show Datasheet.sensitivity t readings640 .zero (17348 / 2 ^ 37) = _
    unfold Datasheet.sensitivity
    rw [show Datasheet.ambient t readings640 = _ from hT, g2, g4, c2]; norm_num
  have s1 : surroundings (some 20) = 20 := rfl
  have s2 : surroundings none = 136099541231863 / 3473307198907 - 8 := by show tAmb - 8 = _; rw [hT]
  have hR : ∀ tR em, radiation tR em = (surroundings tR + 273.15) ^ 4 -
      ((surroundings tR + 273.15) ^ 4 - (136099541231863 / 3473307198907 + 273.15) ^ 4) / em := by
    intro tR em
    show Datasheet.reflected tAmb (surroundings tR) em = _
    unfold Datasheet.reflected; rw [hT]
  refine ⟨?_, ?_, ?_, ⟨?_, ⟨?_, ?_⟩, ?_, ?_, ?_⟩, ⟨?_, ⟨?_, ?_⟩, ?_, ?_, ?_⟩, ?_, ?_, ?_, ⟨?_, ⟨?_, ?_⟩, ?_, ?_, ?_⟩⟩
  · rw [e2]; unfold readings640; decide
  all_goals first | rw [hS, hα, hR] | rw [hS] | rw [hα] | rw [hR] | skip
  all_goals first | rw [s1, s2] | rw [s1] | rw [s2] | skip
  all_goals first | rw [hT] | skip
  all_goals norm_num [abs_of_neg]

end Mlx.Props
