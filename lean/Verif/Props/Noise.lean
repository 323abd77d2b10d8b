import Verif.Props.HeardNear
import Verif.Spec.Noise
/-
C101: how much noise of a pixel changes its temperature.
-/
set_option linter.unusedSectionVars false
set_option autoImplicit false
namespace Mlx.Props
open Mlx Mlx.Spec Mlx.Proofs F32Ops

theorem fourth_between {x : ℝ} (x0 : 0 ≤ x) {a b : ℝ} (a0 : 0 ≤ a) (b0 : 0 ≤ b) (h1 : a ^ 4 ≤ x ^ 4) (h2 : x ^ 4 ≤ b ^ 4) : a ≤ x ∧ x ≤ b :=
  ⟨(pow_le_pow_iff_left₀ a0 x0 (by norm_num)).1 h1, (pow_le_pow_iff_left₀ x0 b0 (by norm_num)).1 h2⟩

theorem fourth_apart {x y m : ℝ} (m0 : 0 < m) (hx : m ≤ x) (hy : m ≤ y) : |x - y| ≤ |x ^ 4 - y ^ 4| / (4 * m ^ 3) := by
  rw [le_div_iff₀ (by positivity)]
  have hf : x ^ 4 - y ^ 4 = (x - y) * ((x + y) * (x ^ 2 + y ^ 2)) := by ring
  have h : 4 * m ^ 3 ≤ (x + y) * (x ^ 2 + y ^ 2) := by
    have a1 : 2 * m ≤ x + y := by linarith
    have a2 : 2 * m ^ 2 ≤ x ^ 2 + y ^ 2 := by nlinarith
    calc 4 * m ^ 3 = 2 * m * (2 * m ^ 2) := by ring
      _ ≤ (x + y) * (x ^ 2 + y ^ 2) := mul_le_mul a1 a2 (by positivity) (by linarith)
  rw [hf, abs_mul, abs_of_nonneg (le_trans (by positivity) h)]
  exact mul_le_mul_of_nonneg_left h (abs_nonneg _)

/-- The documented temperature as a function of the signal. -/
theorem object_step {v w α tar k : ℝ} (hα : 0 < α) (h1 : (-10 + 273.15) ^ 4 ≤ tar) (h2 : tar ≤ (126 + 273.15) ^ 4) (hk : |k| ≤ 1 / 1000)
    (hv : |v| ≤ α * tar / 2) (hw : |w| ≤ α * tar / 2) :
    |Datasheet.object v α tar k - Datasheet.object w α tar k| ≤ 5 / 10 ^ 8 * (|v - w| / α) := by
  norm_num at h1 h2
  have ht : 0 < tar := by linarith
  have scaled : ∀ z : ℝ, |z| ≤ α * tar / 2 → |z / α| ≤ tar / 2 := by
    intro z hz
    rw [abs_div, abs_of_pos hα, div_le_iff₀ hα]
    linarith
  have hu := scaled v hv
  have hs := scaled w hw
  have hvw : |v - w| / α = |v / α - w / α| := by rw [← sub_div, abs_div, abs_of_pos hα]
  have root : ∀ z : ℝ, |z / α| ≤ tar / 2 → ∃ x, 221 ≤ x ∧ x ≤ 442 ∧ x ^ 4 = z / α + tar ∧ 0.831 ≤ 1 + k * (x - 273.15) ∧
      ∃ T, 208 ≤ T ∧ T ^ 4 = z / α / (1 + k * (x - 273.15)) + tar ∧ Datasheet.object z α tar k = T - 273.15 := by
    intro z hz
    obtain ⟨z1, z2⟩ := abs_le.1 hz
    obtain ⟨x, x0, x4, ex⟩ := object_root (v := z) (tar := tar) k hα (by linarith)
    obtain ⟨xa, xb⟩ := fourth_between (a := 221) (b := 442) x0 (by norm_num) (by norm_num) (by rw [x4]; norm_num; linarith)
      (by rw [x4]; norm_num; linarith)
    have hg : |k * (x - 273.15)| ≤ 1 / 1000 * 168.85 := by
      rw [abs_mul]
      refine mul_le_mul hk ?_ (abs_nonneg _) (by norm_num)
      rw [abs_le]; constructor <;> linarith
    have hg1 := (abs_le.1 hg).1
    have hg' : 0.831 ≤ 1 + k * (x - 273.15) := by linarith
    have hgp : 0 < 1 + k * (x - 273.15) := by linarith
    have hq : |z / α / (1 + k * (x - 273.15))| ≤ tar / 2 / 0.831 := by
      rw [abs_div, abs_of_pos hgp]
      gcongr
    have hA : 208 ^ 4 ≤ z / α / (1 + k * (x - 273.15)) + tar := by
      have := (abs_le.1 hq).1
      norm_num at this ⊢
      linarith
    have hA0 : 0 ≤ z / α / (1 + k * (x - 273.15)) + tar := le_trans (by norm_num) hA
    refine ⟨x, xa, xb, x4, hg', _, ?_, root_fourth hA0, ex⟩
    exact (pow_le_pow_iff_left₀ (by norm_num) (by positivity) (show (4 : Nat) ≠ 0 by norm_num)).1 (by rw [root_fourth hA0]; exact hA)
  obtain ⟨x, x1, x2, x4, gx, T, T1, T4, eT⟩ := root v hu
  obtain ⟨y, y1, y2, y4, gy, S, S1, S4, eS⟩ := root w hs
  rw [eT, eS, hvw, sub_sub_sub_cancel_right]
  generalize v / α = u at *
  generalize w / α = t at *
  have hxy : |x - y| ≤ |u - t| / (4 * 221 ^ 3) := by
    have := fourth_apart (m := 221) (by norm_num) x1 y1
    rwa [x4, y4, add_sub_add_right_eq_sub] at this
  have hTS := fourth_apart (m := 208) (by norm_num) T1 S1
  refine hTS.trans ?_
  have px : 0 < 1 + k * (x - 273.15) := by linarith
  have py : 0 < 1 + k * (y - 273.15) := by linarith
  have hdiff : T ^ 4 - S ^ 4 = (u - t) / (1 + k * (x - 273.15)) +
      t * (k * (y - x)) / ((1 + k * (x - 273.15)) * (1 + k * (y - 273.15))) := by
    rw [T4, S4]
    field_simp
    ring
  have b1 : |(u - t) / (1 + k * (x - 273.15))| ≤ |u - t| / 0.831 := by
    rw [abs_div, abs_of_pos px]
    gcongr
  have b2 : |t * (k * (y - x)) / ((1 + k * (x - 273.15)) * (1 + k * (y - 273.15)))| ≤
      tar / 2 * (1 / 1000 * (|u - t| / (4 * 221 ^ 3))) / (0.831 * 0.831) := by
    rw [abs_div, abs_mul, abs_mul, abs_of_pos (mul_pos px py), abs_sub_comm y x]
    gcongr
  have hsum : |T ^ 4 - S ^ 4| ≤ |u - t| / 0.831 + tar / 2 * (1 / 1000 * (|u - t| / (4 * 221 ^ 3))) / (0.831 * 0.831) := by
    rw [hdiff]
    exact (abs_add_le _ _).trans (add_le_add b1 b2)
  rw [div_le_iff₀ (by norm_num)]
  refine hsum.trans ?_
  have hd := abs_nonneg (u - t)
  generalize |u - t| = D at *
  have : tar * D ≤ 25384000000 * D := by
    refine mul_le_mul_of_nonneg_right ?_ hd
    linarith
  norm_num
  nlinarith

/-- The same for a pixel, as a function of its raw value. -/
theorem usual_step {p : PixelInputs} {r : Int} (h : p.Usual) (h' : ({ p with raw := r } : PixelInputs).Usual) :
    |p.temperature - ({ p with raw := r } : PixelInputs).temperature| ≤
      5 / 10 ^ 8 * (|p.table.gain / p.readings.gain| * |((p.raw - r : Int) : ℝ)| / (p.emissivity * p.sensitivity)) := by
  have hε : 0 < p.emissivity := lt_of_lt_of_le (by norm_num) h.emissivity.1
  have hα : 0 < p.sensitivity := lt_of_lt_of_le (by norm_num) h.sensitivity.1
  have key := object_step (v := p.signal) (w := ({ p with raw := r } : PixelInputs).signal) hα h.radiation.1 h.radiation.2 h.kSTo
    h.contrast h'.contrast
  have hs : p.signal - ({ p with raw := r } : PixelInputs).signal =
      p.table.gain / p.readings.gain * ((p.raw - r : Int) : ℝ) / p.emissivity := by
    unfold PixelInputs.signal pixelSignal Datasheet.compensatedSignal
    rw [sub_sub_sub_cancel_right]
    unfold Datasheet.signal
    push_cast
    rw [← sub_div]
    congr 1
    ring
  rw [hs, abs_div, abs_mul, abs_of_pos hε, div_div] at key
  exact key

theorem differ_eeprom {last : Nat} (hl : last ≤ 0x0700) {V W : Word → Word} (h : DifferInPixels last V W) :
    SameEeprom (eepromOf W) (eepromOf V) := by
  intro a h1 h2
  refine h _ ?_
  rw [BitVec.toNat_ofNat, Nat.mod_eq_of_lt (by omega)]
  omega

theorem differ_pixel_640 {V W : Word → Word} (h : DifferInPixels 0x0700 V W) (em : ℝ) (given : Option ℝ) (sp : Subpage) {i : Nat}
    (hi : i < 768) : Mlx90640Memory.pixel W em given sp i =
      { Mlx90640Memory.pixel V em given sp i with raw := (W (BitVec.ofNat 16 (0x0400 + i))).toInt } := by
  have hs := differ_eeprom le_rfl h
  have hr : Mlx90640Memory.readings W sp = Mlx90640Memory.readings V sp := by
    unfold Mlx90640Memory.readings
    rw [h 0x0700#16 (by decide), h 0x0720#16 (by decide), h 0x072A#16 (by decide), h 0x070A#16 (by decide), h 0x0708#16 (by decide),
      h 0x0728#16 (by decide)]
  have hc : W 0x800D#16 = V 0x800D#16 := h _ (by decide)
  unfold Mlx90640Memory.pixel Mlx90640Memory.comp
  dsimp only
  rw [hr, hc, hs.calibration, hs.offset hi, hs.alpha hi, hs.kV hi, hs.kTa hi, hs.interleave, hs 0x243D (by omega) (by omega),
    hs 0x243F (by omega) (by omega)]

theorem differ_pixel_641 {V W : Word → Word} (h : DifferInPixels 0x0580 V W) (D : Nat → BitVec 11) (em : ℝ) (given : Option ℝ)
    (sp : Subpage) (i : Nat) : Mlx90641Memory.pixel W D em given sp i =
      { Mlx90641Memory.pixel V D em given sp i with raw := (W (Mlx90641Memory.address sp i)).toInt } := by
  have hr : Mlx90641Memory.readings W sp = Mlx90641Memory.readings V sp := by
    unfold Mlx90641Memory.readings
    rw [h 0x0580#16 (by decide), h 0x05A0#16 (by decide), h 0x05AA#16 (by decide), h 0x058A#16 (by decide), h 0x0588#16 (by decide),
      h 0x05A8#16 (by decide)]
  have hc : W 0x800D#16 = V 0x800D#16 := h _ (by decide)
  unfold Mlx90641Memory.pixel
  rw [hr, hc]

/-- An image in exact arithmetic shows the documented temperatures. -/
theorem imaged_drawn_640 {V : Word → Word} {em : ℝ} {refl : Option ℝ} {sp : Subpage} {dest dest' : List ℝ}
    (h : Imaged Driver.new640 24 V em refl sp dest dest') (hreg : Ee640.Regular (eepromOf V))
    (hv : Fits16 ((V 0x072A#16).toInt - (Ee640.calibration (eepromOf V)).vdd25)) :
    Drawn (Mlx90640Memory.measured V sp) (Mlx90640Memory.temperature V em refl sp) dest dest' := by
  obtain ⟨σ, ER, EW, m, b, s, s', addr, d, d1, d', ops, hd, rfl, rfl, rfl, hV, hg⟩ := h
  obtain ⟨-, k1, k2, k3⟩ := C99_camera_640 m b s s' addr d hd ops dest dest' d' V hV hreg hv
  rcases hg with hg | ⟨rfl, hg⟩ | ⟨rfl, hg⟩
  · exact (k1 _ hg).2
  · exact (k2 hg).2
  · exact (k3 hg).2

theorem imaged_drawn_641 {V : Word → Word} {em : ℝ} {refl : Option ℝ} {sp : Subpage} {dest dest' : List ℝ}
    (h : Imaged Driver.new641 12 V em refl sp dest dest') (D : Nat → BitVec 11) (hreg : Ee641.Regular D)
    (hD : ∀ a ∈ Ee641.readAddresses 192, WithinOneBit (eepromOf V a) (codeword (D a)))
    (hv : Fits16 ((V 0x05AA#16).toInt - (Ee641.calibration D).vdd25)) :
    Drawn (fun i => i < 192) (Mlx90641Memory.temperature V D em refl sp) dest dest' := by
  obtain ⟨σ, ER, EW, m, b, s, s', addr, d, d1, d', ops, hd, rfl, rfl, rfl, hV, hg⟩ := h
  obtain ⟨-, k1, k2, k3⟩ := C99_camera_641 m b s s' addr d hd ops dest dest' d' V hV D hreg hD hv
  rcases hg with hg | ⟨rfl, hg⟩ | ⟨rfl, hg⟩
  · exact (k1 _ hg).2
  · exact (k2 hg).2
  · exact (k3 hg).2

/-- **C101 (MLX90640, exact arithmetic).** Two images of the same subpage, made with the same settings, on any buses and after any
calls, of frames that were heard to differ in the words of pixels only: where both are usual measurements, the temperatures of a
pixel differ by at most 5·10⁻⁸ times the change of its signal (the difference of the two words, compensated for gain and emissivity)
divided by its sensitivity. -/
theorem C101_exact_640 {V W : Word → Word} {em : ℝ} {refl : Option ℝ} {sp : Subpage} {dest dest' old old' : List ℝ}
    (h1 : Imaged Driver.new640 24 V em refl sp dest dest') (h2 : Imaged Driver.new640 24 W em refl sp old old')
    (hreg : Ee640.Regular (eepromOf V)) (hv : Fits16 ((V 0x072A#16).toInt - (Ee640.calibration (eepromOf V)).vdd25))
    (h : DifferInPixels 0x0700 V W) (i : Nat) (hm : Mlx90640Memory.measured V sp i) (hi : i < dest.length ∧ i < old.length) :
    let p := Mlx90640Memory.pixel V em refl sp i
    let q := Mlx90640Memory.pixel W em refl sp i
    p.Usual → q.Usual → ∃ x y, dest'[i]? = some x ∧ old'[i]? = some y ∧
      |x - y| ≤ 5 / 10 ^ 8 * (|p.table.gain / p.readings.gain| * |((p.raw - q.raw : Int) : ℝ)| / (em * p.sensitivity)) := by
  intro p q hp hq
  have hs := differ_eeprom le_rfl h
  have hc : W 0x800D#16 = V 0x800D#16 := h _ (by decide)
  have hmW : Mlx90640Memory.measured W sp i := by
    unfold Mlx90640Memory.measured at hm ⊢
    rw [hc]; exact hm
  have a1 := imaged_drawn_640 h1 hreg hv
  have a2 := imaged_drawn_640 h2 (differ_eeprom le_rfl (fun a ha => (h a ha).symm) |>.regular hreg) (by
    rw [h 0x072A#16 (by decide), hs.calibration]; exact hv)
  refine ⟨_, _, ((a1.2 i).1 hm hi.1), ((a2.2 i).1 hmW hi.2), ?_⟩
  have hpq : q = { p with raw := q.raw } := differ_pixel_640 h em refl sp hm.1
  have key := usual_step (p := p) (r := q.raw) hp (by rw [← hpq]; exact hq)
  rw [← hpq] at key
  exact key

/-- **C101 (MLX90641, exact arithmetic).** The same for the MLX90641. -/
theorem C101_exact_641 {V W : Word → Word} {em : ℝ} {refl : Option ℝ} {sp : Subpage} {dest dest' old old' : List ℝ}
    (h1 : Imaged Driver.new641 12 V em refl sp dest dest') (h2 : Imaged Driver.new641 12 W em refl sp old old')
    (D : Nat → BitVec 11) (hreg : Ee641.Regular D)
    (hD : ∀ a ∈ Ee641.readAddresses 192, WithinOneBit (eepromOf V a) (codeword (D a)))
    (hv : Fits16 ((V 0x05AA#16).toInt - (Ee641.calibration D).vdd25))
    (h : DifferInPixels 0x0580 V W) (i : Nat) (hm : i < 192) (hi : i < dest.length ∧ i < old.length) :
    let p := Mlx90641Memory.pixel V D em refl sp i
    let q := Mlx90641Memory.pixel W D em refl sp i
    p.Usual → q.Usual → ∃ x y, dest'[i]? = some x ∧ old'[i]? = some y ∧
      |x - y| ≤ 5 / 10 ^ 8 * (|p.table.gain / p.readings.gain| * |((p.raw - q.raw : Int) : ℝ)| / (em * p.sensitivity)) := by
  intro p q hp hq
  have hs := differ_eeprom (by decide) h
  have a1 := imaged_drawn_641 h1 D hreg hD hv
  have a2 := imaged_drawn_641 h2 D hreg (fun a ha => by
    obtain ⟨b1, b2, _⟩ := readAddresses_bounds ha
    rw [hs a (by omega) b2]
    exact hD a ha) (by rw [h 0x05AA#16 (by decide)]; exact hv)
  refine ⟨_, _, ((a1.2 i).1 hm hi.1), ((a2.2 i).1 hm hi.2), ?_⟩
  have hpq : q = { p with raw := q.raw } := differ_pixel_641 h D em refl sp i
  have key := usual_step (p := p) (r := q.raw) hp (by rw [← hpq]; exact hq)
  rw [← hpq] at key
  exact key

section
variable {F : Type} [F32Ops F] [Binary32 F]

theorem within_apart {v w : F} {a b e f c : ℝ} (hv : Within v a e) (hw : Within w b f) (h : |a - b| ≤ c) :
    ∃ x y, Is v x ∧ Is w y ∧ |x - y| ≤ e + f + c := by
  obtain ⟨x, x1, x2⟩ := hv
  obtain ⟨y, y1, y2⟩ := hw
  refine ⟨x, y, x1, y1, ?_⟩
  have : x - y = (x - a) - (y - b) + (a - b) := by ring
  rw [this]
  refine (abs_add_le _ _).trans (add_le_add ((abs_sub _ _).trans (add_le_add x2 y2)) h)

/-- **C101 (MLX90640, binary32).** In binary32 arithmetic, 1.2 °C more. -/
theorem C101_rounded_640 {V W : Word → Word} {x : F} {refl : Option F} {sp : Subpage} {dest dest' old old' : List F}
    (h1 : Imaged Driver.new640 24 V x refl sp dest dest') (h2 : Imaged Driver.new640 24 W x refl sp old old')
    (hreg : Ee640.Regular (eepromOf V)) {δ : ℝ} (hp : AccuratePowers F δ) (hδ : δ ≤ 1 / 2 ^ 22) {em : ℝ} {given : Option ℝ}
    (hem : Is x em) (hgiven : Option.Rel Is refl given)
    (h : DifferInPixels 0x0700 V W) (i : Nat) (hm : Mlx90640Memory.measured V sp i) (hi : i < dest.length ∧ i < old.length) :
    let p := Mlx90640Memory.pixel V em given sp i
    let q := Mlx90640Memory.pixel W em given sp i
    p.Usual → q.Usual → ∃ v w y z, dest'[i]? = some v ∧ old'[i]? = some w ∧ Is v y ∧ Is w z ∧
      |y - z| ≤ 1.2 + 5 / 10 ^ 8 * (|p.table.gain / p.readings.gain| * |((p.raw - q.raw : Int) : ℝ)| / (em * p.sensitivity)) := by
  intro p q hpu hqu
  have hs := differ_eeprom le_rfl h
  have hc : W 0x800D#16 = V 0x800D#16 := h _ (by decide)
  have hmW : Mlx90640Memory.measured W sp i := by
    unfold Mlx90640Memory.measured at hm ⊢
    rw [hc]; exact hm
  have drawn : ∀ (V : Word → Word) (dest dest' : List F), Imaged Driver.new640 24 V x refl sp dest dest' → Ee640.Regular (eepromOf V) →
      i < dest.length → Mlx90640Memory.measured V sp i → (Mlx90640Memory.pixel V em given sp i).Usual →
      ∃ v, dest'[i]? = some v ∧ Within v (Mlx90640Memory.pixel V em given sp i).temperature 0.6 := by
    rintro V dest dest' ⟨σ, ER, EW, m, b, s, s', addr, d, d1, d', ops, hd, rfl, rfl, rfl, hV, hg⟩ hreg hi hm hu
    obtain ⟨k1, k2, k3⟩ := C100_usual_640 m b s s' addr d hd ops dest dest' d' V hV hreg hp hδ em given i hi hem hgiven
    rcases hg with hg | ⟨rfl, hg⟩ | ⟨rfl, hg⟩
    · obtain ⟨v, v1, v2, _⟩ := k1 _ hg hm hu
      exact ⟨v, v1, v2⟩
    · obtain ⟨v, v1, v2, _⟩ := k2 hg hm hu
      exact ⟨v, v1, v2⟩
    · obtain ⟨v, v1, v2, _⟩ := k3 hg hm hu
      exact ⟨v, v1, v2⟩
  obtain ⟨v, v1, v2⟩ := drawn V dest dest' h1 hreg hi.1 hm hpu
  obtain ⟨w, w1, w2⟩ := drawn W old old' h2 (differ_eeprom le_rfl (fun a ha => (h a ha).symm) |>.regular hreg) hi.2 hmW hqu
  have hpq : q = { p with raw := q.raw } := differ_pixel_640 h em given sp hm.1
  have key := usual_step (p := p) (r := q.raw) hpu (by rw [← hpq]; exact hqu)
  rw [← hpq] at key
  obtain ⟨y, z, y1, z1, yz⟩ := within_apart v2 w2 key
  exact ⟨v, w, y, z, v1, w1, y1, z1, yz.trans (add_le_add (by norm_num) le_rfl)⟩

/-- **C101 (MLX90641, binary32).** The same for the MLX90641. -/
theorem C101_rounded_641 {V W : Word → Word} {x : F} {refl : Option F} {sp : Subpage} {dest dest' old old' : List F}
    (h1 : Imaged Driver.new641 12 V x refl sp dest dest') (h2 : Imaged Driver.new641 12 W x refl sp old old')
    (D : Nat → BitVec 11) (hreg : Ee641.Regular D)
    (hD : ∀ a ∈ Ee641.readAddresses 192, WithinOneBit (eepromOf V a) (codeword (D a))) (hmod : ModerateScales D)
    {δ : ℝ} (hp : AccuratePowers F δ) (hδ : δ ≤ 1 / 2 ^ 22) {em : ℝ} {given : Option ℝ}
    (hem : Is x em) (hgiven : Option.Rel Is refl given)
    (h : DifferInPixels 0x0580 V W) (i : Nat) (hm : i < 192) (hi : i < dest.length ∧ i < old.length) :
    let p := Mlx90641Memory.pixel V D em given sp i
    let q := Mlx90641Memory.pixel W D em given sp i
    p.Usual → q.Usual → ∃ v w y z, dest'[i]? = some v ∧ old'[i]? = some w ∧ Is v y ∧ Is w z ∧
      |y - z| ≤ 1.2 + 5 / 10 ^ 8 * (|p.table.gain / p.readings.gain| * |((p.raw - q.raw : Int) : ℝ)| / (em * p.sensitivity)) := by
  intro p q hpu hqu
  have hs := differ_eeprom (by decide) h
  have drawn : ∀ (V : Word → Word) (dest dest' : List F), Imaged Driver.new641 12 V x refl sp dest dest' →
      (∀ a ∈ Ee641.readAddresses 192, WithinOneBit (eepromOf V a) (codeword (D a))) →
      i < dest.length → (Mlx90641Memory.pixel V D em given sp i).Usual →
      ∃ v, dest'[i]? = some v ∧ Within v (Mlx90641Memory.pixel V D em given sp i).temperature 0.6 := by
    rintro V dest dest' ⟨σ, ER, EW, m, b, s, s', addr, d, d1, d', ops, hd, rfl, rfl, rfl, hV, hg⟩ hD hi hu
    obtain ⟨k1, k2, k3⟩ := C100_usual_641 m b s s' addr d hd ops dest dest' d' V hV D hreg hD hmod hp hδ em given i hi hem hgiven
    rcases hg with hg | ⟨rfl, hg⟩ | ⟨rfl, hg⟩
    · obtain ⟨v, v1, v2, _⟩ := k1 _ hg hm hu
      exact ⟨v, v1, v2⟩
    · obtain ⟨v, v1, v2, _⟩ := k2 hg hm hu
      exact ⟨v, v1, v2⟩
    · obtain ⟨v, v1, v2, _⟩ := k3 hg hm hu
      exact ⟨v, v1, v2⟩
  obtain ⟨v, v1, v2⟩ := drawn V dest dest' h1 hD hi.1 hpu
  obtain ⟨w, w1, w2⟩ := drawn W old old' h2 (fun a ha => by
    obtain ⟨b1, b2, _⟩ := readAddresses_bounds ha
    rw [hs a (by omega) b2]
    exact hD a ha) hi.2 hqu
  have hpq : q = { p with raw := q.raw } := differ_pixel_641 h D em given sp i
  have key := usual_step (p := p) (r := q.raw) hpu (by rw [← hpq]; exact hqu)
  rw [← hpq] at key
  obtain ⟨y, z, y1, z1, yz⟩ := within_apart v2 w2 key
  exact ⟨v, w, y, z, v1, w1, y1, z1, yz.trans (add_le_add (by norm_num) le_rfl)⟩

end

/-- The memory of C75's example with another raw value for pixel 367. -/
def noisyMemory (r : Word) : Word → Word := setWord sceneMemory 0x056F#16 r

theorem noisy_differs (r : Word) : DifferInPixels 0x0700 sceneMemory (noisyMemory r) := by
  intro a ha
  unfold noisyMemory setWord
  rw [if_neg]
  rintro rfl
  exact ha (by decide)

/-- A raw value that is different by up to 30 counts is also a usual measurement. -/
theorem noisy_usual (r : Word) (h : |r.toInt - 512| ≤ 30) : (Mlx90640Memory.pixel (noisyMemory r) 1 none .zero 367).Usual := by
  obtain ⟨hu, hs, hg, -⟩ := scene_usual_well
  have hraw : noisyMemory r (BitVec.ofNat 16 (0x0400 + 367)) = r := by
    unfold noisyMemory setWord
    rw [if_pos (by decide)]
  have h512 : (Mlx90640Memory.pixel sceneMemory 1 none .zero 367).raw = 512 := by rw [scene_pixel]
  have hem : (Mlx90640Memory.pixel sceneMemory 1 none .zero 367).emissivity = 1 := rfl
  rw [differ_pixel_640 (noisy_differs r) 1 none .zero (by decide), hraw]
  generalize Mlx90640Memory.pixel sceneMemory 1 none .zero 367 = p at hu hs hg h512 hem
  have hr : |(r.toInt : ℝ) - 512| ≤ 30 := by exact_mod_cast h
  refine { hu with pixel := ⟨?_, hu.pixel.reference, hu.pixel.supply, hu.pixel.ambient, hu.pixel.correction⟩, contrast := ?_ }
  · show |(r.toInt : ℝ)| ≤ 4096
    rw [abs_le] at hr ⊢
    constructor <;> linarith
  · have hs2 : ({ p with raw := r.toInt } : PixelInputs).signal = p.signal + p.table.gain / p.readings.gain * (r.toInt - 512) := by
      unfold PixelInputs.signal pixelSignal Datasheet.compensatedSignal Datasheet.signal
      rw [hem, h512]
      push_cast
      ring
    show |({ p with raw := r.toInt } : PixelInputs).signal| ≤ p.sensitivity * p.radiation / 2
    rw [hs2]
    refine (abs_add_le _ _).trans (le_trans ?_ hs)
    have : |p.table.gain / p.readings.gain * (r.toInt - 512)| ≤ 1.1 * 30 := by
      rw [abs_mul]
      exact mul_le_mul hg hr (abs_nonneg _) (by norm_num)
    linarith

/-- Images of this memory and of the one with another raw value are made with correctly rounded operations in a release build;
everything that `C101_rounded_640` assumes holds, and the temperatures differ by at most 1.2 °C and 0.55 °C per count. -/
example (r : Word) (h : |r.toInt - 512| ≤ 30) (dest : List Rounded) (hdest : dest.length = 768) :
    ∃ dest' old', Imaged (F := Rounded) Driver.new640 24 sceneMemory (lit 1) none .zero dest dest' ∧
      Imaged (F := Rounded) Driver.new640 24 (noisyMemory r) (lit 1) none .zero dest old' ∧
      ∃ v w y z, dest'[367]? = some v ∧ old'[367]? = some w ∧ Is v y ∧ Is w z ∧ |y - z| ≤ 1.2 + 0.55 * |((512 - r.toInt : Int) : ℝ)| := by
  have made : ∀ M, ∃ dest', Imaged (F := Rounded) Driver.new640 24 M (lit 1) none .zero dest dest' := by
    intro M
    obtain ⟨s', d, d', dest', hd, hg, heard, hem, hrefl⟩ := imaged_640 M .zero dest
    exact ⟨dest', _, _, _, _, _, _, _, _, d, d, d', [], hd, rfl, hem, hrefl, heard, Or.inl hg⟩
  obtain ⟨dest', h1⟩ := made sceneMemory
  obtain ⟨old', h2⟩ := made (noisyMemory r)
  refine ⟨dest', old', h1, h2, ?_⟩
  have hreg : Ee640.Regular (eepromOf sceneMemory) := SameEeprom.regular (E := eepromOf (exampleMemory words640)) scene_same example640_regular
  obtain ⟨v, w, y, z, v1, w1, y1, z1, yz⟩ := C101_rounded_640 h1 h2 hreg rounded_powers (by norm_num)
    (is_lit (by norm_num) (by simpa using value_int (m := 1) (by norm_num))) .none (noisy_differs r) 367 scene640.1 (by omega)
    scene_usual (noisy_usual r h)
  refine ⟨v, w, y, z, v1, w1, y1, z1, yz.trans (add_le_add le_rfl ?_)⟩
  have h512 : (Mlx90640Memory.pixel sceneMemory 1 none .zero 367).raw = 512 := by rw [scene_pixel]
  have hraw : (Mlx90640Memory.pixel (noisyMemory r) 1 none .zero 367).raw = r.toInt := by
    show (noisyMemory r (BitVec.ofNat 16 (0x0400 + 367))).toInt = _
    unfold noisyMemory setWord
    rw [if_pos (by decide)]
  obtain ⟨hu, -, hg, -⟩ := scene_usual_well
  rw [h512, hraw, one_mul]
  generalize Mlx90640Memory.pixel sceneMemory 1 none .zero 367 = p at hu hg ⊢
  have hα := hu.sensitivity.1
  have hα0 : 0 < p.sensitivity := lt_of_lt_of_le (by norm_num) hα
  rw [mul_div_assoc']
  rw [div_le_iff₀ hα0]
  have hd := abs_nonneg ((512 - r.toInt : Int) : ℝ)
  generalize |((512 - r.toInt : Int) : ℝ)| = D at *
  generalize |p.table.gain / p.readings.gain| = g at *
  have e1 : 5 / 10 ^ 8 * (g * D) ≤ 5 / 10 ^ 8 * (1.1 * D) := by gcongr
  have e2 : 0.55 * D * (1 / 10 ^ 7) ≤ 0.55 * D * p.sensitivity := by gcongr
  refine e1.trans (le_trans ?_ e2)
  norm_num
  linarith

end Mlx.Props
