import Verif.Props.Temperature
import Verif.Spec.Order
/-
C77: images preserve the order of the pixel values.
-/
set_option autoImplicit false
set_option linter.unusedSectionVars false
namespace Mlx.Props
open Mlx Mlx.Spec Mlx.Proofs F32Ops

section
variable {F : Type} [F32Ops F] [Binary32 F] [Binary32Order F]

/-- If both are finite, the first is at most the second. -/
def Below (a b : F) : Prop := ∀ x y, Is a x → Is b y → x ≤ y

theorem is_inj {a : F} {x y : ℝ} (h : Is a x) (h' : Is a y) : x = y := Option.some.inj (Eq.trans (Eq.symm h) h')

theorem Below.ofInt {z z' : Int} (h : z ≤ z') : Below (ofInt z : F) (ofInt z') := by
  intro x y hx hy
  refine Binary32Order.monotone (F := F) (z : ℝ) z' x y (by exact_mod_cast h) ?_ ?_
  · rw [← Binary32Order.ofInt_eq (F := F)]; exact hx
  · rw [← Binary32Order.ofInt_eq (F := F)]; exact hy

theorem Below.add {a a' : F} (h : Below a a') (b : F) : Below (a +. b) (a' +. b) := by
  intro x y hx hy
  obtain ⟨⟨u, hu⟩, w, hw⟩ := Binary32Order.add_finite _ _ _ hx
  obtain ⟨⟨v, hv⟩, -⟩ := Binary32Order.add_finite _ _ _ hy
  exact Binary32Order.monotone (F := F) (u + w) (v + w) x y (by have := h u v hu hv; linarith)
    ((Binary32Order.add_eq _ _ _ _ hu hw).symm.trans hx) ((Binary32Order.add_eq _ _ _ _ hv hw).symm.trans hy)

theorem Below.sub {a a' : F} (h : Below a a') (b : F) : Below (a -. b) (a' -. b) := by
  intro x y hx hy
  obtain ⟨⟨u, hu⟩, w, hw⟩ := Binary32Order.sub_finite _ _ _ hx
  obtain ⟨⟨v, hv⟩, -⟩ := Binary32Order.sub_finite _ _ _ hy
  exact Binary32Order.monotone (F := F) (u - w) (v - w) x y (by have := h u v hu hv; linarith)
    ((Binary32Order.sub_eq _ _ _ _ hu hw).symm.trans hx) ((Binary32Order.sub_eq _ _ _ _ hv hw).symm.trans hy)

theorem Below.mul {a a' : F} (h : Below a a') {b : F} (hb : ∀ w, Is b w → 0 ≤ w) : Below (a *. b) (a' *. b) := by
  intro x y hx hy
  obtain ⟨⟨u, hu⟩, w, hw⟩ := Binary32Order.mul_finite _ _ _ hx
  obtain ⟨⟨v, hv⟩, -⟩ := Binary32Order.mul_finite _ _ _ hy
  exact Binary32Order.monotone (F := F) (u * w) (v * w) x y (mul_le_mul_of_nonneg_right (h u v hu hv) (hb w hw))
    ((Binary32Order.mul_eq _ _ _ _ hu hw).symm.trans hx) ((Binary32Order.mul_eq _ _ _ _ hv hw).symm.trans hy)

theorem Below.div {a a' : F} (h : Below a a') {b : F} {w : ℝ} (hb : Is b w) (hw : 0 < w) : Below (a /. b) (a' /. b) := by
  intro x y hx hy
  obtain ⟨u, hu⟩ := Binary32Order.div_finite _ _ _ hx
  obtain ⟨v, hv⟩ := Binary32Order.div_finite _ _ _ hy
  exact Binary32Order.monotone (F := F) (u / w) (v / w) x y (div_le_div_of_nonneg_right (h u v hu hv) hw.le)
    ((Binary32Order.div_eq _ _ _ _ hu hb hw.ne').symm.trans hx) ((Binary32Order.div_eq _ _ _ _ hv hb hw.ne').symm.trans hy)

/-- **C77 (raw images, binary32).** Whatever the calibration, the frame-wide readings and the settings, as long as gain and
emissivity are positive: if the value of a selected pixel in one buffer is at most its value in another one, and the two
results are finite, then so are the results: rounding never reverses the order. -/
theorem C77_raw_images_keep_order {ε : Type} (m : Mode) (k : Calib F) (n : Nat) (hk : Complete k n) (em rc : F) (e g : ℝ)
    (hem : Is em e) (he : 0 < e) (hgain : Is k.gain g) (hg : 0 ≤ g) (r : RamData) (hr : 0 < r.gain ∧ r.gain ≤ 32767)
    (px px' : List Byte) (s : Subpage) (a : AccessPattern) (valid : List Bool) (dest dest' out out' : List F) (tA tA' : F)
    (h : rawPixelsToIrData (ε := ε) m k em rc px r s a valid dest = .ok (tA, out))
    (h' : rawPixelsToIrData (ε := ε) m k em rc px' r s a valid dest' = .ok (tA', out'))
    (i : Nat) (hi : i < n) (hv : valid[i]? = some true) (b1 b2 b1' b2' : Byte)
    (h1 : px[2 * i]? = some b1) (h2 : px[2 * i + 1]? = some b2)
    (h1' : px'[2 * i]? = some b1') (h2' : px'[2 * i + 1]? = some b2')
    (hle : (be16 b1 b2).toInt ≤ (be16 b1' b2').toInt)
    (v v' : F) (hout : out[i]? = some v) (hout' : out'[i]? = some v') (x x' : ℝ) (hx : Is v x) (hx' : Is v' x') : x ≤ x' := by
  obtain ⟨common, hn, -, -, hget⟩ := rawIr_ok h
  obtain ⟨common', hn', -, -, hget'⟩ := rawIr_ok h'
  have hcc : common' = common := by rw [hn] at hn'; exact (Res.ok.inj hn').symm
  subst hcc
  have hemg : common'.emissivity = em ∧ common'.gain = k.gain /. ofInt r.gain := by
    unfold CommonIrData.new at hn
    cases hd : deltaV (ε := ε) m k r.vddPixel with
    | ok dV => rw [hd] at hn; have hn := Res.ok.inj hn; rw [← hn]; exact ⟨rfl, rfl⟩
    | err e => rw [hd] at hn; cases hn
    | panic => rw [hd] at hn; cases hn
  obtain ⟨o, ho⟩ : ∃ o, (k.offsetRef s)[i]? = some o := ⟨_, List.getElem?_eq_getElem (by rw [hk.offsetRef]; exact hi)⟩
  obtain ⟨kv, hkv⟩ : ∃ o, (k.kV s)[i]? = some o := ⟨_, List.getElem?_eq_getElem (by rw [hk.kV]; exact hi)⟩
  obtain ⟨kt, hkt⟩ : ∃ o, (k.kTa s)[i]? = some o := ⟨_, List.getElem?_eq_getElem (by rw [hk.kTa]; exact hi)⟩
  obtain ⟨ap, hap⟩ : ∃ o, (k.apComp a)[i]? = some o := ⟨_, List.getElem?_eq_getElem (by rw [hk.apComp]; exact hi)⟩
  have hit : rawItem k px s a i = some ⟨(be16 b1 b2).toInt, o, kv, kt, ap⟩ := by
    unfold rawItem
    rw [pixelWords_get px i b1 b2 h1 h2, ho, hkv, hkt, hap]
  have hit' : rawItem k px' s a i = some ⟨(be16 b1' b2').toInt, o, kv, kt, ap⟩ := by
    unfold rawItem
    rw [pixelWords_get px' i b1' b2' h1' h2', ho, hkv, hkt, hap]
  have hp : Below (perPixelVIr (be16 b1 b2).toInt common' o kv kt ap) (perPixelVIr (be16 b1' b2').toInt common' o kv kt ap) := by
    unfold perPixelVIr
    refine Below.div (w := e) ?_ (by rw [hemg.1]; exact hem) he
    refine Below.sub (Below.add (Below.mul (Below.ofInt hle) ?_) _) _
    intro w hw
    rw [hemg.2] at hw
    have hgi : Is (ofInt r.gain : F) r.gain := is_ofInt (by rw [abs_lt]; constructor <;> omega)
    have hpos : (0 : ℝ) < r.gain := by exact_mod_cast hr.1
    have h0 : Is (ofInt 0 : F) ((0 : ℤ) : ℝ) := is_ofInt (by norm_num)
    have e0 := (Binary32Order.ofInt_eq (F := F) 0).symm.trans h0
    have e1 := (Binary32Order.div_eq _ _ _ _ hgain hgi hpos.ne').symm.trans hw
    have := Binary32Order.monotone (F := F) _ _ _ _ (by push_cast; exact div_nonneg hg hpos.le) e0 e1
    simpa using this
  have hval : Below (rawValue common' (cpOffset k common' r s a) ⟨(be16 b1 b2).toInt, o, kv, kt, ap⟩)
      (rawValue common' (cpOffset k common' r s a) ⟨(be16 b1' b2').toInt, o, kv, kt, ap⟩) := by
    unfold rawValue
    cases cpOffset k common' r s a with
    | none => exact hp
    | some c => exact hp.sub c
  have e1 := hget i
  have e2 := hget' i
  rw [hit, hv, hout] at e1
  rw [hit', hv, hout'] at e2
  simp only at e1 e2
  cases hde : dest[i]? with
  | none => rw [hde] at e1; cases e1
  | some y =>
    cases hde' : dest'[i]? with
    | none => rw [hde'] at e2; cases e2
    | some y' =>
      rw [hde] at e1
      rw [hde'] at e2
      have e1 := Option.some.inj e1
      have e2 := Option.some.inj e2
      rw [e1] at hx
      rw [e2] at hx'
      exact hval x x' hx hx'

end

/-! ### Temperatures -/

set_option maxHeartbeats 1000000 in
/-- The documented temperature grows with the signal. -/
theorem object_strictMono {v v' α tar k : ℝ} (hα : 0 < α) (h0 : 0 ≤ tar) (ht : tar ≤ 400 ^ 4) (hk : |k| ≤ 1 / 1000)
    (hv : Measured v α tar) (hv' : Measured v' α tar) (h : v < v') : Datasheet.object v α tar k < Datasheet.object v' α tar k := by
  -- the two first estimates
  have est : ∀ u, Measured u α tar → ∃ x, 220 ≤ x ∧ x ≤ 1000 ∧ x ^ 4 = u / α + tar ∧
      Datasheet.object u α tar k = ((x ^ 4 - tar) / (1 + k * (x - 273.15)) + tar) ^ (1 / 4 : ℝ) - 273.15 := by
    intro u ⟨u1, u2⟩
    have hn : 0 ≤ u / α + tar := le_trans (by norm_num) u1
    refine ⟨(u / α + tar) ^ (1 / 4 : ℝ), ?_, ?_, ?_, ?_⟩
    · have := Real.rpow_le_rpow (by norm_num) u1 (by norm_num : (0 : ℝ) ≤ 1 / 4)
      refine le_trans (le_of_eq ?_) this
      rw [← Real.rpow_natCast, ← Real.rpow_mul (by norm_num)]; norm_num
    · have := Real.rpow_le_rpow hn u2 (by norm_num : (0 : ℝ) ≤ 1 / 4)
      refine this.trans (le_of_eq ?_)
      rw [← Real.rpow_natCast, ← Real.rpow_mul (by norm_num)]; norm_num
    · rw [← Real.rpow_natCast, ← Real.rpow_mul hn]; norm_num
    · have e4 : ((u / α + tar) ^ (1 / 4 : ℝ)) ^ 4 = u / α + tar := by
        rw [← Real.rpow_natCast, ← Real.rpow_mul hn]; norm_num
      rw [e4]
      unfold Datasheet.object
      have e1 : α ^ 3 * u + α ^ 4 * tar = α ^ 4 * (u / α + tar) := by field_simp
      have e2 : (α ^ 4 * (u / α + tar)) ^ (1 / 4 : ℝ) = α * (u / α + tar) ^ (1 / 4 : ℝ) := by
        rw [Real.mul_rpow (by positivity) hn]
        congr 1
        rw [← Real.rpow_natCast, ← Real.rpow_mul hα.le]; norm_num
      simp only [e1, e2]
      congr 3
      rw [add_sub_cancel_right, div_div]
      congr 1
      ring
  obtain ⟨x, x1, x2, x3, ex⟩ := est v hv
  obtain ⟨y, y1, y2, y3, ey⟩ := est v' hv'
  have hxy : x < y := by
    have : x ^ 4 < y ^ 4 := by
      rw [x3, y3]
      have := div_lt_div_of_pos_right h hα
      linarith
    exact lt_of_pow_lt_pow_left₀ 4 (by linarith) this
  rw [ex, ey]
  obtain ⟨k1, k2⟩ := abs_le.1 hk
  have dx : 1 / 5 ≤ 1 + k * (x - 273.15) := by nlinarith
  have dy : 1 / 5 ≤ 1 + k * (y - 273.15) := by nlinarith
  generalize hdx : 1 + k * (x - 273.15) = dX at dx
  generalize hdy : 1 + k * (y - 273.15) = dY at dy
  have key : (x ^ 4 - tar) / dX < (y ^ 4 - tar) / dY := by
    have x3' : (220 : ℝ) ^ 3 ≤ x ^ 3 := by gcongr
    have slope : k * (x ^ 4 - tar) < 4 * x ^ 3 * dX := by
      rw [← hdx]
      have e : 4 * x ^ 3 * (1 + k * (x - 273.15)) - k * (x ^ 4 - tar) = x ^ 3 * (4 + k * (3 * x - 1092.6)) + k * tar := by ring
      rcases le_total 0 k with hk0 | hk0
      · have f : 2 ≤ 4 + k * (3 * x - 1092.6) := by nlinarith
        have : 0 < x ^ 3 * (4 + k * (3 * x - 1092.6)) := by positivity
        have : 0 ≤ k * tar := by positivity
        linarith
      · have f1 : -(400 ^ 4 / 1000) ≤ k * tar := by nlinarith
        rcases le_total x 500 with hx | hx
        · have f : 3 ≤ 4 + k * (3 * x - 1092.6) := by nlinarith
          have : (220 : ℝ) ^ 3 * 3 ≤ x ^ 3 * (4 + k * (3 * x - 1092.6)) := by gcongr
          norm_num at f1 this ⊢
          linarith
        · have f : 2 ≤ 4 + k * (3 * x - 1092.6) := by nlinarith
          have hx3 : (500 : ℝ) ^ 3 ≤ x ^ 3 := by gcongr
          have : (500 : ℝ) ^ 3 * 2 ≤ x ^ 3 * (4 + k * (3 * x - 1092.6)) := by gcongr
          norm_num at f1 this ⊢
          linarith
    have chord : 4 * x ^ 3 ≤ (y + x) * (y ^ 2 + x ^ 2) := by
      have h1 : x ^ 2 ≤ y ^ 2 := by gcongr
      have : (2 * x) * (2 * x ^ 2) ≤ (y + x) * (y ^ 2 + x ^ 2) := by
        apply mul_le_mul <;> nlinarith
      linarith
    have hd0 : 0 < dX := by linarith
    rw [div_lt_div_iff₀ hd0 (by linarith)]
    have e : (y ^ 4 - tar) * dX - (x ^ 4 - tar) * dY = (y - x) * ((y + x) * (y ^ 2 + x ^ 2) * dX - k * (x ^ 4 - tar)) := by
      rw [← hdx, ← hdy]; ring
    have h1 : 4 * x ^ 3 * dX ≤ (y + x) * (y ^ 2 + x ^ 2) * dX := mul_le_mul_of_nonneg_right chord hd0.le
    have : 0 < (y - x) * ((y + x) * (y ^ 2 + x ^ 2) * dX - k * (x ^ 4 - tar)) := mul_pos (by linarith) (by linarith)
    linarith
  have hnn : 0 ≤ (x ^ 4 - tar) / dX + tar := by
    have hd0 : 0 < dX := by linarith
    have e : (x ^ 4 - tar) / dX + tar = (x ^ 4 + tar * (k * (x - 273.15))) / dX := by
      rw [← hdx] at hd0 ⊢
      field_simp
      ring
    rw [e]
    refine div_nonneg ?_ hd0.le
    have x4 : (220 : ℝ) ^ 3 * x ≤ x ^ 4 := by
      have : (220 : ℝ) ^ 3 ≤ x ^ 3 := by gcongr
      nlinarith
    have hb : |k * (x - 273.15)| ≤ |x - 273.15| / 1000 := by
      rw [abs_mul]
      nlinarith [abs_nonneg (x - 273.15)]
    have hb2 : |tar * (k * (x - 273.15))| ≤ 400 ^ 4 * (|x - 273.15| / 1000) := by
      rw [abs_mul, abs_of_nonneg h0]
      gcongr
    have hb3 := (abs_le.1 hb2).1
    rcases le_total x 273.15 with hx | hx
    · rw [abs_of_nonpos (by linarith)] at hb3
      norm_num at hb3 x4 ⊢
      linarith
    · rw [abs_of_nonneg (by linarith)] at hb3
      have x4' : (273 : ℝ) ^ 3 * x ≤ x ^ 4 := by
        have : (273 : ℝ) ^ 3 ≤ x ^ 3 := by gcongr; linarith
        nlinarith
      norm_num at hb3 x4' ⊢
      linarith
  have := Real.rpow_lt_rpow hnn (add_lt_add_left key tar) (by norm_num : (0 : ℝ) < 1 / 4)
  linarith

/-- **C77 (thermal images, exact arithmetic).** If the value of a selected pixel is smaller in one buffer than in another one,
everything else being the same, then its temperature is lower: for positive gain, emissivity and sensitivity, a slope of at
most 1/1000 per degree, an effective surrounding below 400 K, and signals for which the first estimate of the temperature is
between 220 K and 1000 K. The same goes for the raw images, without the conditions on sensitivity, slope, surroundings and
first estimates. -/
theorem C77_images_keep_strict_order {ε : Type} (m : Mode) (c : Calib ℝ) (em rc : ℝ) (he : 0 < em) (r : RamData)
    (hg : 0 < c.gain / r.gain) (hr : Fits16 (r.vddPixel - c.vdd25)) (tR : Option ℝ)
    (px px' : List Byte) (s : Subpage) (a : AccessPattern) (valid : List Bool) (dest dest' out out' : List ℝ) (tA tA' : ℝ)
    (i : Nat) (hv : valid[i]? = some true) (hd : i < dest.length) (hd' : i < dest'.length) (b1 b2 b1' b2' : Byte)
    (h1 : px[2 * i]? = some b1) (h2 : px[2 * i + 1]? = some b2) (h1' : px'[2 * i]? = some b1') (h2' : px'[2 * i + 1]? = some b2')
    (hlt : (be16 b1 b2).toInt < (be16 b1' b2').toInt)
    (offset : Int) (hof : (c.offsetRef s)[i]? = some offset) (kV kTa alpha : ℝ)
    (hkv : (c.kV s)[i]? = some kV) (hkt : (c.kTa s)[i]? = some kTa) (hal : (c.alpha s)[i]? = some alpha)
    (comp : Option ℝ) (hap : (c.apComp a)[i]? = some comp) (kSTo : ℝ) (hks : c.kSTo[c.cam.basicRange]? = some kSTo) :
    (rawPixelsToIrData (ε := ε) m c em rc px r s a valid dest = .ok (tA, out) →
      rawPixelsToIrData (ε := ε) m c em rc px' r s a valid dest' = .ok (tA', out') →
      ∃ v v', out[i]? = some v ∧ out'[i]? = some v' ∧ v < v') ∧
    (let signal := fun raw => Datasheet.compensatedSignal c rc em r s a raw offset kV kTa (comp.getD 0)
     let sensitivity := Datasheet.sensitivity c r s alpha
     let tAmb := Datasheet.ambient c r
     let radiation := Datasheet.reflected tAmb (tR.getD (tAmb - c.cam.selfHeating)) em
     0 < sensitivity → 0 ≤ radiation → radiation ≤ 400 ^ 4 → |kSTo| ≤ 1 / 1000 →
      Measured (signal (be16 b1 b2).toInt) sensitivity radiation → Measured (signal (be16 b1' b2').toInt) sensitivity radiation →
      rawPixelsToTemperatures (ε := ε) m c em tR rc px r s a valid dest = .ok (tA, out) →
      rawPixelsToTemperatures (ε := ε) m c em tR rc px' r s a valid dest' = .ok (tA', out') →
      ∃ t t', out[i]? = some t ∧ out'[i]? = some t' ∧ t < t') := by
  have lt : Datasheet.compensatedSignal c rc em r s a (be16 b1 b2).toInt offset kV kTa (comp.getD 0) <
      Datasheet.compensatedSignal c rc em r s a (be16 b1' b2').toInt offset kV kTa (comp.getD 0) := by
    unfold Datasheet.compensatedSignal
    refine sub_lt_sub_right ?_ _
    unfold Datasheet.signal
    refine div_lt_div_of_pos_right ?_ he
    have : ((be16 b1 b2).toInt : ℝ) * (c.gain / r.gain) < ((be16 b1' b2').toInt : ℝ) * (c.gain / r.gain) :=
      mul_lt_mul_of_pos_right (by exact_mod_cast hlt) hg
    linarith
  have F1 := C55_documented_formulas (ε := ε) m c em rc tA tR px r s a valid dest out hr i hv hd b1 b2 h1 h2 offset hof kV kTa alpha
    hkv hkt hal comp hap kSTo hks
  have F2 := C55_documented_formulas (ε := ε) m c em rc tA' tR px' r s a valid dest' out' hr i hv hd' b1' b2' h1' h2' offset hof kV
    kTa alpha hkv hkt hal comp hap kSTo hks
  refine ⟨fun k1 k2 => ⟨_, _, (F1.1 k1).2, (F2.1 k2).2, lt⟩, ?_⟩
  intro signal sensitivity tAmb radiation p1 p2 p3 p4 p5 p6 k1 k2
  obtain ⟨a1, a2⟩ := F1.2 k1
  obtain ⟨a1', a2'⟩ := F2.2 k2
  refine ⟨_, _, a2, a2', ?_⟩
  rw [a1, a1']
  exact object_strictMono p1 p2 p3 p4 p5 p6 lt

/-! ### The hypotheses can be met -/

theorem nearest_mono {z z' : ℝ} (h : z ≤ z') : nearest z ≤ nearest z' := by
  rcases h.eq_or_lt with rfl | h
  · exact le_rfl
  by_contra hc
  rw [not_le] at hc
  have h1 := sq_le_sq.2 (nearest_le z (nearest z') (nearest_value z'))
  have h2 := sq_le_sq.2 (nearest_le z' (nearest z) (nearest_value z))
  nlinarith

/-- Correctly rounded operations satisfy `Binary32Order`. -/
noncomputable instance roundedOrder : Binary32Order Rounded where
  rounding z := (rounded z).map (·.1)
  monotone x y u v h hu hv := by
    have key : ∀ z w, (rounded z).map (·.1) = some w → nearest z = w := by
      intro z w hz
      unfold rounded at hz
      split at hz
      · exact Option.some.inj hz
      · cases hz
    rw [← key x u hu, ← key y v hv]
    exact nearest_mono h
  ofInt_eq z := rfl
  add_eq a b x y ha hb := by obtain ⟨_, rfl⟩ := of_val ha; obtain ⟨_, rfl⟩ := of_val hb; rfl
  sub_eq a b x y ha hb := by obtain ⟨_, rfl⟩ := of_val ha; obtain ⟨_, rfl⟩ := of_val hb; rfl
  mul_eq a b x y ha hb := by obtain ⟨_, rfl⟩ := of_val ha; obtain ⟨_, rfl⟩ := of_val hb; rfl
  div_eq a b x y ha hb h0 := by
    obtain ⟨_, rfl⟩ := of_val ha; obtain ⟨_, rfl⟩ := of_val hb
    have : (F32Ops.div (some ⟨x, ‹_›⟩) (some ⟨y, ‹_›⟩) : Rounded) = rounded (x / y) :=
      if_neg (fun h => h0 (Option.some.inj h))
    show (F32Ops.div _ _ : Rounded).map _ = _
    rw [this]
  add_finite a b z h := by
    cases a with
    | none => cases h
    | some a => cases b with
      | none => cases h
      | some b => exact ⟨⟨_, rfl⟩, _, rfl⟩
  sub_finite a b z h := by
    cases a with
    | none => cases h
    | some a => cases b with
      | none => cases h
      | some b => exact ⟨⟨_, rfl⟩, _, rfl⟩
  mul_finite a b z h := by
    cases a with
    | none => cases h
    | some a => cases b with
      | none => cases h
      | some b => exact ⟨⟨_, rfl⟩, _, rfl⟩
  div_finite a b z h := by
    cases a with
    | none =>
      have : (F32Ops.div none b : Rounded) = none := by
        show (if _ then none else _) = none
        split <;> rfl
      have h : (F32Ops.div none b : Rounded).map (·.1) = some z := h
      rw [this] at h; cases h
    | some a => exact ⟨_, rfl⟩

/-- In the frame of the datasheet's worked example, pixel 367 meets the conditions of `C77_images_keep_strict_order` when it reads
512 or 513. -/
example (t : Calib ℝ) (ht : t = Ee640.calibration (eepromWord example640)) :
    let signal := fun raw => Datasheet.compensatedSignal t 1 1 readings640 .zero .chess raw (-75) (4 / 2 ^ 3) (84 / 2 ^ 14) 0
    let sensitivity := Datasheet.sensitivity t readings640 .zero (17348 / 2 ^ 37)
    let tAmb := Datasheet.ambient t readings640
    let radiation := Datasheet.reflected tAmb ((none : Option ℝ).getD (tAmb - 8)) 1
    0 < t.gain / readings640.gain ∧ Fits16 (readings640.vddPixel - t.vdd25) ∧ 0 < sensitivity ∧ 0 ≤ radiation ∧
      radiation ≤ 400 ^ 4 ∧ |(-105 / 2 ^ 17 : ℝ)| ≤ 1 / 1000 ∧ Measured (signal 512) sensitivity radiation ∧
      Measured (signal 513) sensitivity radiation := by
  obtain ⟨⟨e1, e2, e3, e4, e5, e6, e7⟩, ⟨g1, g2, -, g4, -⟩, ⟨c1, c2, c3, c4, c5⟩, -⟩ := parameters640 t ht
  intro signal sensitivity tAmb radiation
  have hV : Datasheet.deltaV t readings640 = 59 / 3168 := by
    unfold Datasheet.deltaV readings640
    rw [e1, e2]; norm_num
  have hT : tAmb = 136099541231863 / 3473307198907 := by
    show Datasheet.ambient t readings640 = _
    unfold Datasheet.ambient
    rw [hV, e4, e5, e6, e7]; unfold readings640; norm_num
  have hs : Datasheet.supply t 1 readings640 = 59 / 3168 + 3.3 := by
    unfold Datasheet.supply
    rw [hV, e3]; norm_num
  have hS : ∀ raw : Int, signal raw = raw * (6383 / 6881) + (5174955840091582878902627 / 9845308323733540962304 - 512 * (6383 / 6881)) := by
    intro raw
    show Datasheet.compensatedSignal t 1 1 readings640 .zero .chess raw (-75) (4 / 2 ^ 3) (84 / 2 ^ 14) 0 = _
    unfold Datasheet.compensatedSignal Datasheet.signal
    rw [show Datasheet.ambient t readings640 = _ from hT, hs, g1, g4, c1, c3, c4, c5]
    unfold readings640
    simp only [Option.getD_some, Option.getD_none]
    generalize (raw : ℝ) = x
    ring_nf
  have hα : sensitivity = 1814222945991819903 / 15275766608145338312163328 := by
    show Datasheet.sensitivity t readings640 .zero (17348 / 2 ^ 37) = _
    unfold Datasheet.sensitivity
    rw [show Datasheet.ambient t readings640 = _ from hT, g2, g4, c2]; norm_num
  have hR : radiation = (136099541231863 / 3473307198907 + 273.15) ^ 4 := by
    show Datasheet.reflected tAmb (tAmb - 8) 1 = _
    unfold Datasheet.reflected; rw [hT]; ring
  refine ⟨?_, ?_, ?_, ?_, ?_, ?_, ⟨?_, ?_⟩, ⟨?_, ?_⟩⟩
  · rw [g1]; unfold readings640; norm_num
  · rw [e2]; unfold readings640; decide
  · rw [hα]; norm_num
  · rw [hR]; positivity
  · rw [hR]; norm_num
  · norm_num [abs_of_neg]
  all_goals rw [hS, hα, hR]; norm_num

end Mlx.Props
