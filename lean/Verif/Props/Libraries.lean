import Verif.Proofs.Libraries
import Verif.Props.Usual
import Verif.Props.Hold
/-
C108: builds with different libraries for floating-point functions (features `std` and `libm`).
-/
set_option linter.unusedSectionVars false
set_option autoImplicit false
namespace Mlx.Props
open Mlx Mlx.Spec Mlx.Proofs
variable {F σ ER EW : Type} {mem : σ → Word → Word}

/-- **C108 (calibration).** Two builds decode every EEPROM dump, of any length, in the same way, and make the same driver of any camera on
any bus. -/
theorem C108_same_calibration (i j : F32Ops F) (h : SameBasics i j) (m : Mode) (data : List Byte) (b : Bus σ ER EW) (s : σ) (addr : Byte) :
    @Mlx90640.fromData F j m data = @Mlx90640.fromData F i m data ∧
    @Mlx90641.fromData F j m data = @Mlx90641.fromData F i m data ∧
    @Driver.new640 F σ ER EW j m b s addr = @Driver.new640 F σ ER EW i m b s addr ∧
    @Driver.new641 F σ ER EW j m b s addr = @Driver.new641 F σ ER EW i m b s addr := by
  rw [b_fromData640 i j h, b_fromData641 i j h, b_new640 i j h, b_new641 i j h]
  exact ⟨rfl, rfl, rfl, rfl⟩

/-- **C108 (raw images).** After the same calls, with any outcomes, two builds have the same driver (with the same ambient temperature), the
bus is in the same state, the next call has the same outcome, and the next raw image is the same. -/
theorem C108_same_raw_images (i j : F32Ops F) (h : SameBasics i j) (env : Env σ ER EW) (calls : List (Op F)) (d : Driver F σ) (op : Op F)
    (sp : Subpage) (dest : List F) :
    let before := @runOps F σ ER EW i env calls d
    @runOps F σ ER EW j env calls d = before ∧
    @Op.exec F σ ER EW j env op before = @Op.exec F σ ER EW i env op before ∧
    @Driver.generateRawImageSubpageTo F σ ER EW j env sp dest before = @Driver.generateRawImageSubpageTo F σ ER EW i env sp dest before := by
  intro before
  exact ⟨b_runOps i j h env calls d, b_exec i j h env op before, b_raw i j h env sp dest before⟩

theorem b_session (i j : F32Ops F) (h : SameBasics i j) {env : Env σ ER EW} {frame : (Word → Word) → Prop} {d d1 : Driver F σ}
    {calls : List (Op F × Res (Err ER EW) Unit)} (hx : @Session F σ ER EW i env mem frame d calls d1) :
    @Session F σ ER EW j env mem frame d calls d1 := by
  induction hx with
  | start => exact @Session.start F σ ER EW j env mem frame d
  | call op hx ih =>
    have := @Session.call F σ ER EW j env mem frame d _ _ op ih
    rw [b_exec i j h] at this
    exact this
  | measurement s hx h1 h2 ih => exact @Session.measurement F σ ER EW j env mem frame d _ _ s ih h1 h2

/-- Two pixels that are both within 0.6 of a temperature, with the values that `bi` gives. -/
theorem b_close (i j : F32Ops F) (bi : @Binary32 F i) (bj : @Binary32 F j) (hv : ∀ x : F, bj.val x = bi.val x) {dest' dest'' : List F}
    {k : Nat} {T : ℝ} {P Q : F → Prop} (c1 : ∃ v, dest'[k]? = some v ∧ @Within F i bi v T 0.6 ∧ P v)
    (c2 : ∃ v, dest''[k]? = some v ∧ @Within F j bj v T 0.6 ∧ Q v) :
    ∃ v w x y, dest'[k]? = some v ∧ dest''[k]? = some w ∧ bi.val v = some x ∧ bi.val w = some y ∧ |x - y| ≤ 1.2 := by
  obtain ⟨v, v1, ⟨x, x1, x2⟩, _⟩ := c1
  obtain ⟨w, w1, ⟨y, y1, y2⟩, _⟩ := c2
  refine ⟨v, w, x, y, v1, w1, x1, (hv w).symm.trans y1, ?_⟩
  have := abs_sub_le x T y
  rw [abs_sub_comm T y] at this
  linarith

theorem b_rel (i j : F32Ops F) (bi : @Binary32 F i) (bj : @Binary32 F j) (hv : ∀ x : F, bj.val x = bi.val x) {a : Option F}
    {g : Option ℝ} (h : Option.Rel (@Is F i bi) a g) : Option.Rel (@Is F j bj) a g := by
  cases h with
  | none => exact .none
  | some hr => exact .some ((hv _).trans hr)

theorem b_outcome {α : Type} {q : Driver F σ × List F × Res (Err ER EW) α} {d : Driver F σ} {dest : List F} {o : Res (Err ER EW) α}
    (h : q.1 = (d, dest, o).1 ∧ q.2.2 = (d, dest, o).2.2) : q = (d, q.2.1, o) := by
  obtain ⟨d1, dest1, o1⟩ := q
  obtain ⟨rfl, rfl⟩ := h
  rfl

/-- **C108 (thermal images, MLX90640).** In the setting of C97, with two builds: the images are made with the same effects and outcomes, and
each pixel that is measured, and is a usual measurement, differs by at most 1.2 °C. -/
theorem C108_thermal_640 (i j : F32Ops F) (h : SameBasics i j) (bi : @Binary32 F i) (bj : @Binary32 F j)
    (hv : ∀ x : F, bj.val x = bi.val x) (m : Mode) (b : Bus σ ER EW) (s s' : σ) (addr : Byte) (hb : StaticMemory b addr mem)
    (d : Driver F σ) (hd : @Driver.new640 F σ ER EW i m b s addr = (s', .ok d)) (hreg : Ee640.Regular (eepromOf (mem s)))
    (calls : List (Op F × Res (Err ER EW) Unit)) (d1 : Driver F σ) (hx : @Session F σ ER EW i ⟨m, 24, b⟩ mem anyFrame d calls d1)
    (hn : ∀ c ∈ calls, ¬ ControlWriteFailed c.1 c.2) {δ : ℝ} (hi : @AccuratePowers F i bi δ) (hj : @AccuratePowers F j bj δ)
    (hδ : δ ≤ 1 / 2 ^ 22) (em : ℝ) (given : Option ℝ) (hem : @Is F i bi d1.effectiveEmissivity em)
    (hgiven : Option.Rel (@Is F i bi) d1.reflectedTemperature given) (dest dest' : List F) (d' : Driver F σ) :
    let env : Env σ ER EW := ⟨m, 24, b⟩
    let M := mem d1.bus
    let close := fun sp (dest'' : List F) => ∀ k, k < dest.length → Mlx90640Memory.measured M sp k → (Mlx90640Memory.pixel M em given sp k).Usual →
      ∃ v w x y, dest'[k]? = some v ∧ dest''[k]? = some w ∧ bi.val v = some x ∧ bi.val w = some y ∧ |x - y| ≤ 1.2
    (∀ sp, @Driver.generateImageSubpageTo F σ ER EW i env sp dest d1 = (d', dest', .ok ()) →
      ∃ dest'', @Driver.generateImageSubpageTo F σ ER EW j env sp dest d1 = (d', dest'', .ok ()) ∧ close sp dest'') ∧
    (@Driver.generateImageTo F σ ER EW i env dest d1 = (d', dest', .ok ()) →
      ∃ dest'', @Driver.generateImageTo F σ ER EW j env dest d1 = (d', dest'', .ok ()) ∧ close (statusSubpage (M 0x8000#16)) dest'') ∧
    (@Driver.generateImageIfReady F σ ER EW i env dest d1 = (d', dest', .ok true) →
      ∃ dest'', @Driver.generateImageIfReady F σ ER EW j env dest d1 = (d', dest'', .ok true) ∧
        close (statusSubpage (M 0x8000#16)) dest'') := by
  intro env M close
  have hd' : @Driver.new640 F σ ER EW j m b s addr = (s', .ok d) := by rw [b_new640 i j h]; exact hd
  have c1 := @C97_camera_640 F σ ER EW i bi mem m b s s' addr hb d hd hreg calls d1 hx hn δ hi hδ em given dest dest' d'
  have c2 := fun dest'' => @C97_camera_640 F σ ER EW j bj mem m b s s' addr hb d hd' hreg calls d1 (b_session i j h hx) hn δ hj hδ em
    given dest dest'' d'
  have hem' : @Is F j bj d1.effectiveEmissivity em := (hv _).trans hem
  have hgiven' := b_rel i j bi bj hv hgiven
  refine ⟨fun sp hg => ?_, fun hg => ?_, fun hg => ?_⟩
  · have hb1 := b_image i j h env sp dest d1
    rw [hg] at hb1
    refine ⟨_, b_outcome hb1, fun k hk hm hu => b_close i j bi bj hv ((c1 k hk hem hgiven).1 sp hg hm hu)
      ((c2 _ k hk hem' hgiven').1 sp (b_outcome hb1) hm hu)⟩
  · have hb1 := b_imageTo i j h env dest d1
    rw [hg] at hb1
    refine ⟨_, b_outcome hb1, fun k hk hm hu => b_close i j bi bj hv ((c1 k hk hem hgiven).2.1 hg hm hu)
      ((c2 _ k hk hem' hgiven').2.1 (b_outcome hb1) hm hu)⟩
  · have hb1 := b_ifReady i j h env dest d1
    rw [hg] at hb1
    refine ⟨_, b_outcome hb1, fun k hk hm hu => b_close i j bi bj hv ((c1 k hk hem hgiven).2.2 hg hm hu)
      ((c2 _ k hk hem' hgiven').2.2 (b_outcome hb1) hm hu)⟩

/-- **C108 (thermal images, MLX90641).** The same for the MLX90641. -/
theorem C108_thermal_641 (i j : F32Ops F) (h : SameBasics i j) (bi : @Binary32 F i) (bj : @Binary32 F j)
    (hv : ∀ x : F, bj.val x = bi.val x) (m : Mode) (b : Bus σ ER EW) (s s' : σ) (addr : Byte) (hb : StaticMemory b addr mem)
    (d : Driver F σ) (hd : @Driver.new641 F σ ER EW i m b s addr = (s', .ok d)) (D : Nat → BitVec 11) (hreg : Ee641.Regular D)
    (hD : ∀ a ∈ Ee641.readAddresses 192, WithinOneBit (eepromOf (mem s) a) (codeword (D a))) (hmod : ModerateScales D)
    (calls : List (Op F × Res (Err ER EW) Unit)) (d1 : Driver F σ) (hx : @Session F σ ER EW i ⟨m, 12, b⟩ mem anyFrame d calls d1)
    (hn : ∀ c ∈ calls, ¬ ControlWriteFailed c.1 c.2) {δ : ℝ} (hi : @AccuratePowers F i bi δ) (hj : @AccuratePowers F j bj δ)
    (hδ : δ ≤ 1 / 2 ^ 22) (em : ℝ) (given : Option ℝ) (hem : @Is F i bi d1.effectiveEmissivity em)
    (hgiven : Option.Rel (@Is F i bi) d1.reflectedTemperature given) (dest dest' : List F) (d' : Driver F σ) :
    let env : Env σ ER EW := ⟨m, 12, b⟩
    let M := mem d1.bus
    let close := fun sp (dest'' : List F) => ∀ k, k < dest.length → k < 192 → (Mlx90641Memory.pixel M D em given sp k).Usual →
      ∃ v w x y, dest'[k]? = some v ∧ dest''[k]? = some w ∧ bi.val v = some x ∧ bi.val w = some y ∧ |x - y| ≤ 1.2
    (∀ sp, @Driver.generateImageSubpageTo F σ ER EW i env sp dest d1 = (d', dest', .ok ()) →
      ∃ dest'', @Driver.generateImageSubpageTo F σ ER EW j env sp dest d1 = (d', dest'', .ok ()) ∧ close sp dest'') ∧
    (@Driver.generateImageTo F σ ER EW i env dest d1 = (d', dest', .ok ()) →
      ∃ dest'', @Driver.generateImageTo F σ ER EW j env dest d1 = (d', dest'', .ok ()) ∧ close (statusSubpage (M 0x8000#16)) dest'') ∧
    (@Driver.generateImageIfReady F σ ER EW i env dest d1 = (d', dest', .ok true) →
      ∃ dest'', @Driver.generateImageIfReady F σ ER EW j env dest d1 = (d', dest'', .ok true) ∧
        close (statusSubpage (M 0x8000#16)) dest'') := by
  intro env M close
  have hd' : @Driver.new641 F σ ER EW j m b s addr = (s', .ok d) := by rw [b_new641 i j h]; exact hd
  have c1 := @C97_camera_641 F σ ER EW i bi mem m b s s' addr hb d hd D hreg hD hmod calls d1 hx hn δ hi hδ em given dest dest' d'
  have c2 := fun dest'' => @C97_camera_641 F σ ER EW j bj mem m b s s' addr hb d hd' D hreg hD hmod calls d1 (b_session i j h hx) hn δ hj hδ em
    given dest dest'' d'
  have hem' : @Is F j bj d1.effectiveEmissivity em := (hv _).trans hem
  have hgiven' := b_rel i j bi bj hv hgiven
  refine ⟨fun sp hg => ?_, fun hg => ?_, fun hg => ?_⟩
  · have hb1 := b_image i j h env sp dest d1
    rw [hg] at hb1
    refine ⟨_, b_outcome hb1, fun k hk hm hu => b_close i j bi bj hv ((c1 k hk hem hgiven).1 sp hg hm hu)
      ((c2 _ k hk hem' hgiven').1 sp (b_outcome hb1) hm hu)⟩
  · have hb1 := b_imageTo i j h env dest d1
    rw [hg] at hb1
    refine ⟨_, b_outcome hb1, fun k hk hm hu => b_close i j bi bj hv ((c1 k hk hem hgiven).2.1 hg hm hu)
      ((c2 _ k hk hem' hgiven').2.1 (b_outcome hb1) hm hu)⟩
  · have hb1 := b_ifReady i j h env dest d1
    rw [hg] at hb1
    refine ⟨_, b_outcome hb1, fun k hk hm hu => b_close i j bi bj hv ((c1 k hk hem hgiven).2.2 hg hm hu)
      ((c2 _ k hk hem' hgiven').2.2 (b_outcome hb1) hm hu)⟩

/-- Arithmetic of whole numbers with other powers and roots. -/
@[instance_reducible] def otherOps : F32Ops Int := { toyOps with powf := fun x _ => x + 7, powi := fun x _ => x }

/-- The hypotheses of `C108_same_calibration` and `C108_same_raw_images` are met by two implementations that differ; with these, raw images
are the same and thermal images are not. -/
example : ∃ d : Driver Int SimpleCamera,
    let env : Env SimpleCamera Unit Unit := ⟨.checked, 24, simpleBus⟩
    let dest : List Int := List.replicate 768 0
    SameBasics toyOps otherOps ∧
    (Driver.generateRawImageSubpageTo env .zero dest d).2.2 = .ok () ∧
    (@Driver.generateImageSubpageTo _ _ _ _ otherOps env .zero dest d).2.1 ≠
      (@Driver.generateImageSubpageTo _ _ _ _ toyOps env .zero dest d).2.1 := by
  refine ⟨toyDriver Mlx90640.cam 768 ⟨0x33#8, holdFrame false 20#16⟩, ?_, by decide +kernel, by decide +kernel⟩
  exact ⟨fun _ => rfl, fun _ => rfl, fun _ _ => rfl, fun _ _ => rfl, fun _ _ => rfl, fun _ _ => rfl, fun _ => rfl, fun _ => rfl,
    fun _ _ => rfl, fun _ => rfl, fun _ => rfl⟩

/-- Rounded real numbers with another `powf`, whose results are one or two units in the last place too large. -/
@[instance_reducible] noncomputable def otherLibrary : F32Ops Rounded :=
  { roundedOps with powf := lift2 fun x y => x ^ y * (1 + 1 / 2 ^ 23) }

@[instance_reducible] noncomputable def otherBinary32 : @Binary32 Rounded otherLibrary :=
  @Binary32.mk Rounded otherLibrary roundedBinary32.val roundedBinary32.val_value roundedBinary32.lit_rounds roundedBinary32.ofInt_rounds
    roundedBinary32.add_rounds roundedBinary32.sub_rounds roundedBinary32.mul_rounds roundedBinary32.div_rounds
    roundedBinary32.recip_rounds roundedBinary32.neg_exact roundedBinary32.exp2_exact roundedBinary32.feq_exact roundedBinary32.feq_finite

theorem other_powers : @AccuratePowers Rounded otherLibrary otherBinary32 (1 / 2 ^ 22) := by
  refine @AccuratePowers.mk Rounded otherLibrary otherBinary32 (1 / 2 ^ 22) (by norm_num) (by norm_num) ?_ ?_
  · intro a x n ha hn h1 h2
    obtain ⟨y, y1, y2⟩ := rounded_powers.powi a x n ha hn h1 h2
    exact ⟨y, y1, y2.trans (mul_le_mul_of_nonneg_right (by norm_num) (abs_nonneg _))⟩
  · intro a b x ha hb h1
    have hx := roundedBinary32.val_value a x ha
    obtain ⟨_, rfl⟩ := of_val ha
    obtain ⟨_, rfl⟩ := of_val hb
    have x0 : 0 < x := lt_of_lt_of_le (by positivity) h1
    have hle : x ≤ maxBinary32 := by
      have := value_abs_le hx
      rwa [abs_of_pos x0] at this
    have hy : 0 < x ^ (1 / 4 : ℝ) := Real.rpow_pos_of_pos x0 _
    have hy4 : (x ^ (1 / 4 : ℝ)) ^ 4 = x := by
      rw [← Real.rpow_natCast, ← Real.rpow_mul x0.le]
      norm_num
    have hlow : (2 : ℝ) ^ (-126 : ℤ) ≤ x ^ (1 / 4 : ℝ) := by
      rcases le_total x 1 with h | h
      · refine h1.trans ?_
        have := Real.rpow_le_rpow_of_exponent_ge x0 h (show (1 / 4 : ℝ) ≤ 1 by norm_num)
        rwa [Real.rpow_one] at this
      · have := Real.one_le_rpow h (show (0 : ℝ) ≤ 1 / 4 by norm_num)
        exact (zpow_le_one_of_nonpos₀ (by norm_num) (by norm_num)).trans this
    have hr := rounded_rounds (x ^ (1 / 4 : ℝ) * (1 + 1 / 2 ^ 23))
    suffices hw : ∃ w, (rounded (x ^ (1 / 4 : ℝ) * (1 + 1 / 2 ^ 23))).map (·.1) = some w ∧
        |w - x ^ (1 / 4 : ℝ)| ≤ 1 / 2 ^ 22 * x ^ (1 / 4 : ℝ) from hw
    generalize x ^ (1 / 4 : ℝ) = y at hy hy4 hlow hr ⊢
    have hbig : y * (1 + 1 / 2 ^ 23) ≤ maxBinary32 := by
      rcases le_total y 2 with h2 | h2
      · have hm : (4 : ℝ) ≤ maxBinary32 := by
          unfold maxBinary32
          norm_num
        linarith
      · have : 2 * y ≤ y ^ 4 := by nlinarith [mul_pos hy hy, mul_nonneg (sub_nonneg.2 h2) hy.le, mul_nonneg (mul_nonneg (sub_nonneg.2 h2) hy.le) hy.le, mul_nonneg (mul_nonneg (mul_nonneg (sub_nonneg.2 h2) hy.le) hy.le) hy.le]
        rw [hy4] at this
        linarith
    have hz : 0 < y * (1 + 1 / 2 ^ 23) := by positivity
    obtain ⟨w, w1, w2⟩ := rounds_rel hr (Or.inr (by rw [abs_of_pos hz]; exact hlow.trans (le_mul_of_one_le_right hy.le (by norm_num)))) (by rw [abs_of_pos hz]; exact hbig)
    refine ⟨w, w1, ?_⟩
    rw [abs_of_pos hz] at w2
    rw [abs_le] at w2 ⊢
    constructor <;> linarith [w2.1, w2.2]

/-- The hypotheses of `C108_thermal_640` are met: a camera with the memory of C75's example, and two libraries whose powers differ. -/
example : ∃ (s' : Word → Word) (d d' : Driver Rounded (Word → Word)) (dest' : List Rounded),
    SameBasics roundedOps otherLibrary ∧ (∀ x : Rounded, otherBinary32.val x = roundedBinary32.val x) ∧
    @AccuratePowers Rounded roundedOps roundedBinary32 (1 / 2 ^ 22) ∧ @AccuratePowers Rounded otherLibrary otherBinary32 (1 / 2 ^ 22) ∧
    otherLibrary.powf (roundedOps.lit 1) (roundedOps.lit 1) ≠ roundedOps.powf (roundedOps.lit 1) (roundedOps.lit 1) ∧
    StaticMemory (cameraBus 0x33#8) 0x33#8 id ∧ Driver.new640 .wrapping (cameraBus 0x33#8) sceneMemory 0x33#8 = (s', .ok d) ∧
    Ee640.Regular (eepromOf sceneMemory) ∧ Is d.effectiveEmissivity 1 ∧ Option.Rel Is d.reflectedTemperature none ∧ d.bus = sceneMemory ∧
    Driver.generateImageSubpageTo ⟨.wrapping, 24, cameraBus 0x33#8⟩ .zero (List.replicate 768 (roundedOps.lit 0)) d = (d', dest', .ok ()) ∧
    Mlx90640Memory.measured sceneMemory .zero 367 ∧ (Mlx90640Memory.pixel sceneMemory 1 none .zero 367).Usual := by
  have hst := cameraBus_static 0x33#8
  have hreg : Ee640.Regular (eepromOf sceneMemory) := SameEeprom.regular (E := eepromOf (exampleMemory words640)) scene_same example640_regular
  obtain ⟨s', d, hd⟩ := ((C68_construction (F := Rounded) .wrapping _ sceneMemory _ hst).1 (cameraBus_serves _ _)).2 (Or.inl rfl)
  obtain ⟨hmem, c, hc, hcal⟩ := new_static hst hd
  generalize hdest : List.replicate 768 (roundedOps.lit 0) = dest
  have hok := (C68_healthy_camera_works .wrapping _ _ s' _ d 24 (Or.inl ⟨rfl, hd⟩) hst (cameraBus_serves _ _) (Or.inl rfl) [] d
    .start).2 (.generateImageSubpageTo .zero dest)
  have hok : (discardImage (Driver.generateImageSubpageTo ⟨.wrapping, 24, cameraBus 0x33#8⟩ .zero dest d)).2 = .ok () := hok
  obtain ⟨d', dest', hg⟩ : ∃ d' dest', Driver.generateImageSubpageTo ⟨.wrapping, 24, cameraBus 0x33#8⟩ .zero dest d =
      (d', dest', .ok ()) := by
    revert hok
    generalize Driver.generateImageSubpageTo ⟨.wrapping, 24, cameraBus 0x33#8⟩ .zero dest d = q
    intro hok
    obtain ⟨d', dest', r⟩ := q
    unfold discardImage discard at hok
    cases r with
    | ok u => exact ⟨d', dest', rfl⟩
    | err e => cases hok
    | panic => cases hok
  refine ⟨s', d, d', dest', ?_, fun _ => rfl, ?_, other_powers, ?_, hst, hd, hreg, ?_, ?_, hmem, hg, scene640.1, scene_usual⟩
  · exact ⟨fun _ => rfl, fun _ => rfl, fun _ _ => rfl, fun _ _ => rfl, fun _ _ => rfl, fun _ _ => rfl, fun _ => rfl, fun _ => rfl,
      fun _ _ => rfl, fun _ => rfl, fun _ => rfl⟩
  · refine ⟨by norm_num, by norm_num, fun a x n ha hn h1 h2 => ?_, fun a b x ha hb h1 => ?_⟩
    · exact Within.mono (rounded_powers.powi a x n ha hn h1 h2) (mul_le_mul_of_nonneg_right (by norm_num) (abs_nonneg _))
    · exact Within.mono (rounded_powers.powf a b x ha hb h1) (mul_le_mul_of_nonneg_right (by norm_num)
        (Real.rpow_nonneg (le_trans (by positivity) h1) _))
  · have hone : Binary32Value 1 := by simpa using value_int (m := 1) (by norm_num)
    obtain ⟨_, h1⟩ := of_val (show (roundedOps.lit 1).map (·.1) = some (1 : ℝ) by
      show (rounded ((1 : ℚ) : ℝ)).map (·.1) = _
      rw [Rat.cast_one]
      exact rounded_exact hone)
    rw [h1]
    intro hc
    have e1 : (roundedOps.powf (some ⟨1, hone⟩) (some ⟨1, hone⟩)).map (·.1) = some (1 : ℝ) := by
      rw [rounded_powf zero_le_one]
      show (rounded ((1 : ℝ) ^ (1 : ℝ))).map (·.1) = _
      rw [Real.one_rpow]
      exact rounded_exact hone
    have e2 : (otherLibrary.powf (some ⟨1, hone⟩) (some ⟨1, hone⟩)).map (·.1) = some (1 + 1 / 2 ^ 23 : ℝ) := by
      show (rounded ((1 : ℝ) ^ (1 : ℝ) * (1 + 1 / 2 ^ 23))).map (·.1) = _
      rw [Real.one_rpow, one_mul]
      refine rounded_exact ⟨2 ^ 23 + 1, -23, by norm_num, by norm_num, by norm_num, ?_⟩
      norm_num
    rw [hc, e1] at e2
    have := Option.some.inj e2
    norm_num at this
  · rw [(new_fresh hd).1, hcal]
    exact is_lit (by norm_num) (by simpa using value_int (m := 1) (by norm_num))
  · rw [(new_fresh hd).2]
    exact .none

end Mlx.Props
