import Verif.Props.Broken
import Verif.Spec.Special
/-
C112: broken pixels of an MLX90641 without gradient compensation show no temperature at all.
-/
set_option linter.unusedSectionVars false
set_option autoImplicit false
namespace Mlx.Props
open Mlx Mlx.Spec Mlx.Proofs F32Ops

section
variable {F ε : Type} [F32Ops F] [Binary32 F]

theorem zero_value : Binary32Value 0 := ⟨0, 0, by norm_num, by norm_num, by norm_num, by simp⟩

theorem zero_mul_is {a b : F} {y : ℝ} (ha : Is a 0) (hb : Is b y) : Is (a *. b) 0 :=
  Is.eq (Is.mul ha hb (by rw [zero_mul]; exact zero_value)) (zero_mul y)

theorem mul_zero_is {a b : F} {x : ℝ} (ha : Is a x) (hb : Is b 0) : Is (a *. b) 0 :=
  Is.eq (Is.mul ha hb (by rw [mul_zero]; exact zero_value)) (mul_zero x)

/-- Without sensitivity there is no temperature. -/
theorem silent_pixel [Binary32Special F] {v al tar k : F} {K : ℝ} (ha : Is al 0) (hk : Is k K) (hK : |K| ≤ 2 ^ 20) :
    NotFinite (perPixelTemperature v al tar k) := by
  unfold perPixelTemperature NotFinite
  dsimp only
  apply Binary32Special.sub_left
  refine Binary32Special.root _ _ ?_ quarter
  cases hv : Binary32.val v with
  | none => exact Binary32Special.add_left _ _ (Binary32Special.div_left _ _ hv)
  | some V =>
    cases ht : Binary32.val tar with
    | none => exact Binary32Special.add_right _ _ ht
    | some T =>
      refine Binary32Special.add_left _ _ (Binary32Special.div_zero _ _ ?_)
      have e1 : Is (powi al 3 *. v) 0 := zero_mul_is (Binary32Special.power_zero _ 3 ha (Or.inl rfl)) hv
      have e2 : Is (powi al 4 *. tar) 0 := zero_mul_is (Binary32Special.power_zero _ 4 ha (Or.inr rfl)) ht
      have e3 : Is (powi al 3 *. v +. powi al 4 *. tar) 0 := Is.eq (Is.add e1 e2 (by rw [add_zero]; exact zero_value)) (add_zero 0)
      have e4 := mul_zero_is hk (Binary32Special.root_zero _ _ e3 quarter)
      have one : Is (lit 1 : F) 1 := is_lit (by norm_num) (by simpa using value_int (m := 1) (by norm_num))
      have k0 : 0 ≤ |K| := abs_nonneg _
      have m1 := Within.mul (Is.within hk) (kelvins_within (F := F)) le_rfl (big_range (by
        rw [abs_mul, abs_of_pos (a := (273.15 : ℝ)) (by norm_num)]
        norm_num at hK ⊢
        linarith))
      obtain ⟨x, hx, hx'⟩ := m1
      have hxx : |x| ≤ 2 ^ 40 := by
        have h1 : |K * 273.15| ≤ 2 ^ 20 * 273.15 := by
          rw [abs_mul, abs_of_pos (a := (273.15 : ℝ)) (by norm_num)]
          gcongr
        have h2 : |K| * (273.15 / 2 ^ 24) ≤ 2 ^ 20 * (273.15 / 2 ^ 24) := by gcongr
        have h3 := abs_le.1 hx'
        have h4 := abs_le.1 h1
        unfold rd at h3
        have t0 := tiny
        rw [abs_le]
        norm_num at h1 h2 h3 h4 t0 ⊢
        constructor <;> linarith
      have m2 := Within.sub (Is.within one) (Is.within hx) (big_range (by
        have := abs_sub 1 x
        norm_num at this hxx ⊢
        linarith))
      obtain ⟨y, hy, -⟩ := m2
      have e5 := zero_mul_is ha hy
      exact Is.eq (Is.add e5 e4 (by rw [add_zero]; exact zero_value)) (add_zero 0)

/-- The compensated sensitivity of a pixel without sensitivity, when there is no gradient compensation. -/
theorem silent_sensitivity {al ac ks tA : F} {tg : Option F} {C K T e : ℝ} {G : Option ℝ} (ha : Is al 0) (hc : Is ac C)
    (hg : Option.Rel Is tg G) (hG : G.getD 0 = 0) (hk : Is ks K) (hK : |K| ≤ 1) (hT : Within tA T e) (T1 : |T - 25| ≤ 1025) (e0 : 0 ≤ e)
    (e1 : e ≤ 1 / 4) : Is (compensatedAlpha (tg.map fun g => ac *. g) (lit 1 +. ks *. (tA -. lit 25)) al) 0 := by
  have t25 : Is (lit 25 : F) 25 := is_lit (by norm_num) (by simpa using value_int (m := 25) (by norm_num))
  obtain ⟨x, hx, -⟩ := factor_within hk hT (Is.within t25) e0 le_rfl (by linarith) (hK.trans (by norm_num)) (T1.trans (by norm_num))
  unfold compensatedAlpha
  refine zero_mul_is ?_ hx
  cases hg with
  | none => exact ha
  | some h =>
    have h0 := mul_zero_is hc (Is.eq h hG)
    exact Is.eq (Is.sub ha h0 (by rw [sub_zero]; exact zero_value)) (sub_zero 0)

/-- What holds of a computed frame. -/
theorem silent_frame [Binary32Special F] (m : Mode) {k : Calib F} {t : Calib ℝ} (hk : ExactTable k t) (hs : Scaled t) (hq : Tempered t)
    (h0 : Within k.vdd0 3.3 (3.3 / 2 ^ 24)) (hα : ∀ s, List.Forall₂ (fun a x => Within a x (|x| / 2 ^ 22)) (k.alpha s) (t.alpha s))
    (hG : t.tgc.getD 0 = 0) {r : RamData} {actual : Resolution} {em : F} {tR : Option F} {pixels : List Byte} {s : Subpage}
    {a : AccessPattern} {valid : List Bool} {dest out : List F} {tA : F}
    (hr : Readable t (2 ^ CtrlField.resolution.code t.resolution / 2 ^ CtrlField.resolution.code actual) r)
    (h : rawPixelsToTemperatures (ε := Unit) m k em tR (resolutionCorrection k.resolution actual) pixels r s a valid dest = .ok (tA, out))
    {i : Nat} {hi lo : Byte} {offset : Int} {kV kTa K : ℝ} {comp : Option ℝ} (hv : valid[i]? = some true) (hd : i < dest.length)
    (hhi : pixels[2 * i]? = some hi) (hlo : pixels[2 * i + 1]? = some lo) (hof : (t.offsetRef s)[i]? = some offset)
    (hkv : (t.kV s)[i]? = some kV) (hkt : (t.kTa s)[i]? = some kTa) (hal : (t.alpha s)[i]? = some 0) (hap : (t.apComp a)[i]? = some comp)
    (hK : t.kSTo[t.cam.basicRange]? = some K) (hK1 : |K| ≤ 2 ^ 20) : ∃ v, out[i]? = some v ∧ NotFinite v := by
  obtain ⟨common, c1, c2, c3, c4, c5⟩ := common_within (ε := Unit) m hk hs h0 hr.plausible actual em
  obtain ⟨common', κ, n1, n2, n3, n4, hg⟩ := temps_ok h
  rw [c1] at n1
  cases n1
  obtain ⟨kv, gkv, -⟩ := rel_get (hk.kV s) hkv
  obtain ⟨kt, gkt, -⟩ := rel_get (hk.kTa s) hkt
  obtain ⟨cp, gcp, -⟩ := rel_get (hk.apComp a) hap
  obtain ⟨al, gal, ral⟩ := rel_get (hα s) hal
  obtain ⟨κ', gκ, rκ⟩ := rel_get hk.kSTo hK
  rw [hk.cam, gκ] at n3
  cases n3
  have hit : rawItem k pixels s a i = some ⟨(be16 hi lo).toInt, offset, kv, kt, cp⟩ := by
    unfold rawItem
    rw [pixelWords_get pixels i hi lo hhi hlo, hk.offsetRef, hof, gkv, gkt, gcp]
  have hde : dest[i]? = some (dest[i]'hd) := List.getElem?_eq_getElem hd
  refine ⟨tempValue (tempFrame k em tA tR s κ) al (rawValue common (cpOffset k common r s a) ⟨(be16 hi lo).toInt, offset, kv, kt, cp⟩), ?_, ?_⟩
  · rw [hg]
    unfold tempItem
    rw [hit, gal, hv, hde]
    rfl
  have ea := ambientError_nonneg t r
  have hta : Within tA (Datasheet.ambient t r) (ambientError t r) := by rw [n2]; exact c3
  have a0 : 0 ≤ |Datasheet.ambient t r| := abs_nonneg _
  have e0 : 0 ≤ ambientError t r := le_trans (by positivity) ea
  have hz : Is al 0 := by
    obtain ⟨w, w1, w2⟩ := ral
    rw [abs_zero, zero_div, sub_zero] at w2
    rw [abs_nonpos_iff.1 w2] at w1
    exact w1
  unfold tempValue tempFrame sensitivityCorrection
  dsimp only
  refine silent_pixel (silent_sensitivity hz (hk.alphaCp s) hk.tgc hG hk.kSTa hq.kSTa hta ?_ e0 hr.precise) rκ hK1
  have := abs_sub (Datasheet.ambient t r) 25
  have h1000 := hr.ambient
  rw [abs_of_pos (a := (25 : ℝ)) (by norm_num)] at this
  linarith
end

section
variable {F σ ER EW : Type} [F32Ops F] [Binary32 F] [Binary32Special F] {mem : σ → Word → Word}

theorem silent_near (D : Nat → BitVec 11) (env : Env σ ER EW) (d : Driver F σ) (hs : Supported env d) (h : StaticMemory env.bus d.addr mem)
    (hc : Caches d (mem d.bus 0x800D#16)) (hcam : d.calib.cam = Mlx90641.cam)
    (hx : ExactTable d.calib (Ee641.calibration D))
    (hα : ∀ s, List.Forall₂ (fun a x => Within a x (|x| / 2 ^ 22)) (d.calib.alpha s) ((Ee641.calibration D).alpha s))
    (h0 : Within d.calib.vdd0 3.3 (3.3 / 2 ^ 24)) (em : ℝ) (given : Option ℝ)
    (sp : Subpage) (dest dest' : List F) (d' : Driver F σ) (i : Nat) (hi : i < dest.length) (h192 : i < 192)
    (hG : (Ee641.calibration D).tgc.getD 0 = 0) (hal : Ee641.alpha D i = 0)
    (hev : (Mlx90641Memory.pixel (mem d.bus) D em given sp i).Evaluable)
    (hg : Driver.generateImageSubpageTo env sp dest d = (d', dest', .ok ())) : ∃ v, dest'[i]? = some v ∧ NotFinite v := by
  have hread : frameReadings d.calib.cam sp (mem d.bus) = Mlx90641Memory.readings (mem d.bus) sp := by
    rw [hcam]; cases sp <;> rfl
  have hrc : d.resCorr = resolutionCorrection d.calib.resolution (CtrlField.resolution.valueIn (mem d.bus 0x800D#16)) := hc.2
  have hsel : i < d.calib.cam.numPixels ∧ (d.calib.cam.pixelsInSubpage sp d.accessPattern)[i]? = some true := by
    rw [hcam, show Mlx90641.cam.numPixels = 192 from rfl]
    exact ⟨h192, (C13_mlx90641_full_subpages sp _).2 i h192⟩
  obtain ⟨px, tA, hpx, hconv, hamb, -⟩ := (C55_frame_of_memory env d hs h sp dest dest' d').1 hg
  unfold toTemperatures at hconv
  have hconv' := temps_error (ε' := Unit) hconv
  rw [hread, hrc] at hconv'
  obtain ⟨address, ht, hhi, hlo⟩ := hpx i hsel.1 hsel.2
  have hr := hev.readable
  have hr' : Readable (Ee641.calibration D) (correction (Ee641.calibration D) (mem d.bus 0x800D#16)) (Mlx90641Memory.readings (mem d.bus) sp) := hr
  rw [← ratio_correction] at hr'
  have hk : |((D 0x2437).toInt : ℝ) / 2 ^ (D 0x2434).toNat| ≤ 2 ^ 20 := by
    refine scaled_le _ ?_
    have h1 := BitVec.toInt_lt (x := D 0x2437)
    have h2 := BitVec.le_toInt (x := D 0x2437)
    rw [abs_le]
    constructor
    · have : (-1024 : ℤ) ≤ (D 0x2437).toInt := by simpa using h2
      have : (-1024 : ℝ) ≤ (D 0x2437).toInt := by exact_mod_cast this
      linarith
    · have : (D 0x2437).toInt ≤ (1024 : ℤ) := by have := h1; norm_num at this; omega
      have : ((D 0x2437).toInt : ℝ) ≤ 1024 := by exact_mod_cast this
      linarith
  refine silent_frame env.mode hx (scaled641 _) (tempered641 _) h0 hα hG hr' hconv' hsel.2 hi hhi hlo
    (table_get _ h192) (table_get _ h192) (table_get _ h192) ?_ (table_get (fun _ => none) h192) (K := ((D 0x2437).toInt : ℝ) / 2 ^ (D 0x2434).toNat) rfl hk
  have := table_get (Ee641.alpha D) h192
  rw [hal] at this
  exact this

/-- **C112 (MLX90641).** In the setting of C75, when the EEPROM asks for no gradient compensation and the frame can be evaluated: a pixel that the
factory marked as broken is never a finite number in a thermal image, whatever its raw value. -/
theorem C112_camera_641 (m : Mode) (b : Bus σ ER EW) (s s' : σ) (addr : Byte) (h : StaticMemory b addr mem)
    (d : Driver F σ) (hd : Driver.new641 m b s addr = (s', .ok d)) (D : Nat → BitVec 11) (hreg : Ee641.Regular D)
    (hD : ∀ a ∈ Ee641.readAddresses 192, WithinOneBit (eepromOf (mem s) a) (codeword (D a))) (hmod : ModerateScales D)
    (calls : List (Op F × Res (Err ER EW) Unit)) (d1 : Driver F σ) (hx : Session ⟨m, 12, b⟩ mem anyFrame d calls d1)
    (hn : ∀ c ∈ calls, ¬ ControlWriteFailed c.1 c.2) (em : ℝ) (given : Option ℝ) (dest dest' : List F) (d' : Driver F σ) (i : Nat)
    (hi : i < dest.length) (h192 : i < 192) (hb : Mlx90641Memory.broken D i) (hG : Mlx90641Memory.withoutGradient D) :
    let env : Env σ ER EW := ⟨m, 12, b⟩
    let M := mem d1.bus
    let right := fun sp => (Mlx90641Memory.pixel M D em given sp i).Evaluable → ∃ v, dest'[i]? = some v ∧ NotFinite v
    (∀ sp, Driver.generateImageSubpageTo env sp dest d1 = (d', dest', .ok ()) → right sp) ∧
    (Driver.generateImageTo env dest d1 = (d', dest', .ok ()) → right (statusSubpage (M 0x8000#16))) ∧
    (Driver.generateImageIfReady env dest d1 = (d', dest', .ok true) → right (statusSubpage (M 0x8000#16))) := by
  intro env M right
  obtain ⟨hmem, c, hc, hcal⟩ := new_static h hd
  obtain ⟨hs, ha⟩ := (C39_constructed_drivers_supported m b s addr).2 s' d hd
  have hst : StaticMemory env.bus d.addr mem := by rw [ha]; exact h
  have hca := session_caches hs hst (C47_after_construction m b s s' addr d h (Or.inr hd)) hx hn
  obtain ⟨hs1, ha1, hcal1⟩ := session_supported hs hx
  have hholds : Ee641.Holds (memBytes (mem s) 0x2400#16 1664) D (Ee641.readAddresses 192) := by
    intro a ha
    have hb := readAddresses_bounds ha
    rw [eepromWord_memBytes _ (by omega) hb.2.1]
    exact hD a ha
  have hcc : d1.calib = c.toCalib := hcal1.trans hcal
  obtain ⟨x1, x2, x3⟩ := C69_exact_641 m _ c hc D hholds hreg hmod
  rw [← hcc] at x1 x2 x3
  have hst1 : StaticMemory env.bus d1.addr mem := by rw [ha1]; exact hst
  have hG' : (Ee641.calibration D).tgc.getD 0 = 0 := by
    show ((signedAt (Ee641.widen D 0x2433) 0 9 : ℤ) : ℝ) / 2 ^ 6 = 0
    have : signedAt (Ee641.widen D 0x2433) 0 9 = 0 := by
      have hG : (D 0x2433).toNat % 2 ^ 9 = 0 := hG
      unfold signedAt
      rw [widen_toNat, pow_zero, Nat.div_one]
      unfold Int.bmod
      norm_num at hG ⊢
      omega
    rw [this]
    norm_num
  have hal : Ee641.alpha D i = 0 := by
    have hf : Ee641.isFailed (Ee641.widen D) i = true := by
      unfold Ee641.isFailed
      rw [decide_eq_true_iff]
      intro a ha
      apply BitVec.eq_of_toNat_eq
      rw [widen_toNat, hb a ha]
      rfl
    unfold Ee641.alpha
    rw [hf, if_pos rfl]
  have key := fun (s1 : σ) (hs2 : mem s1 = M) (sp : Subpage) (d2 : Driver F σ) hev hg =>
    silent_near D env { d1 with bus := s1 } ⟨hs1.1, hs1.2, hs1.3⟩ hst1
      (by show Caches d1 (mem s1 0x800D#16); rw [hs2]; exact hca) (by show d1.calib.cam = _; rw [hcc]; rfl)
      x1 x2 x3 em given sp dest dest' d2 i hi h192 hG' hal hev hg
  refine ⟨fun sp hg hev => key d1.bus rfl sp d' hev hg, fun hg hev => ?_, fun hg hev => ?_⟩
  · obtain ⟨s1, h1, h2⟩ := imageTo_reduces env d1 hst1 dest dest' d' hg
    exact key s1 h1 _ d' (by show (Mlx90641Memory.pixel (mem s1) D em given _ i).Evaluable; rw [h1]; exact hev) h2
  · obtain ⟨h3, s1, d2, h1, h4, h2⟩ := ifReady_reduces env d1 hst1 dest dest' d' hg
    exact key s1 h1 _ d2 (by show (Mlx90641Memory.pixel (mem s1) D em given _ i).Evaluable; rw [h1]; exact hev) h2
end

/-- Correctly rounded numbers, with one object for all infinities and NaN, behave so. -/
instance rounded_special : Binary32Special Rounded where
  add_left a b h := by
    cases a with
    | none => rfl
    | some x => cases h
  add_right a b h := by
    cases b with
    | none => cases a <;> rfl
    | some x => cases h
  sub_left a b h := by
    cases a with
    | none => rfl
    | some x => cases h
  div_left a b h := by
    cases a with
    | none =>
      show (F32Ops.div (none : Rounded) b).map (·.1) = none
      by_cases hb : b.map (·.1) = some 0
      · have : (F32Ops.div (none : Rounded) b) = none := if_pos hb
        rw [this]; rfl
      · have : (F32Ops.div (none : Rounded) b) = none := if_neg hb
        rw [this]; rfl
    | some x => cases h
  div_zero a b h := by
    have : (F32Ops.div a b : Rounded) = none := if_pos h
    show (F32Ops.div a b : Rounded).map (·.1) = none
    rw [this]; rfl
  root a b h _ := by
    cases a with
    | none => exact congrArg (Option.map (·.1)) (ite_self (none : Rounded))
    | some x => cases h
  root_zero a b h hb := by
    obtain ⟨_, rfl⟩ := of_val h
    obtain ⟨_, rfl⟩ := of_val hb
    rw [rounded_powf le_rfl]
    show (rounded ((0 : ℝ) ^ (1 / 4 : ℝ))).map (·.1) = _
    rw [Real.zero_rpow (by norm_num)]
    exact rounded_exact zero_value
  power_zero a n h hn := by
    obtain ⟨_, rfl⟩ := of_val h
    show (rounded ((0 : ℝ) ^ n)).map (·.1) = _
    rw [zero_pow (by omega)]
    exact rounded_exact zero_value

end Mlx.Props
