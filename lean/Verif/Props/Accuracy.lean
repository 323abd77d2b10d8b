import Verif.Proofs.Rounding
import Verif.Props.Exact
/-
C70: how accurate binary32 arithmetic is for the frame-wide quantities.
-/
set_option linter.unusedSectionVars false
set_option autoImplicit false
namespace Mlx.Props
open Mlx Mlx.Spec Mlx.Proofs F32Ops
variable {F ε : Type} [F32Ops F] [Binary32 F]

theorem int_rel_range {a b : Int} (ha : |a| ≤ 2 ^ 20) (hb : |b| ≤ 2 ^ 20) (hb0 : b ≠ 0) :
    ((a : ℝ) / b = 0 ∨ (2 : ℝ) ^ (-20 : ℤ) ≤ |(a : ℝ) / b|) ∧ |(a : ℝ) / b| ≤ 2 ^ (20 : ℤ) := by
  have ha' : |(a : ℝ)| ≤ 2 ^ 20 := by exact_mod_cast ha
  have hb' : |(b : ℝ)| ≤ 2 ^ 20 := by exact_mod_cast hb
  have hb1 : 1 ≤ |(b : ℝ)| := by exact_mod_cast Int.one_le_abs hb0
  constructor
  · by_cases h0 : a = 0
    · left; simp [h0]
    · right
      have ha1 : 1 ≤ |(a : ℝ)| := by exact_mod_cast Int.one_le_abs h0
      rw [abs_div, le_div_iff₀ (by linarith), zpow_neg, inv_mul_le_iff₀ (by positivity)]
      have e : (2 : ℝ) ^ (20 : ℤ) = 2 ^ 20 := by norm_num
      rw [e]
      nlinarith
  · rw [abs_div, div_le_iff₀ (by linarith)]
    have e : (2 : ℝ) ^ (20 : ℤ) = 2 ^ 20 := by norm_num
    rw [e]
    nlinarith

/-- Voltage difference: one rounding. -/
theorem deltaV_rel (m : Mode) {k : Calib F} {t : Calib ℝ} (h1 : k.vdd25 = t.vdd25) (h2 : k.kVdd = t.kVdd) (r : RamData)
    (hfit : Fits16 (r.vddPixel - t.vdd25)) (hk0 : t.kVdd ≠ 0) (hk : |t.kVdd| ≤ 2 ^ 20) :
    ∃ dV : F, deltaV (ε := ε) m k r.vddPixel = .ok dV ∧ Rel dV (Datasheet.deltaV t r) (1 / 2 ^ 24) := by
  have hd : |r.vddPixel - t.vdd25| ≤ 2 ^ 20 := by unfold Fits16 at hfit; rw [abs_le]; omega
  refine ⟨ofInt (r.vddPixel - t.vdd25) /. ofInt t.kVdd, ?_, ?_⟩
  · unfold deltaV
    rw [h1, h2, arith16_eq, onlyIf_pos (Or.inr hfit), wrap16_fits hfit]
    rfl
  · have hr := int_rel_range hd hk hk0
    have key := Rel.div (Is.rel (is_ofInt (F := F) (z := r.vddPixel - t.vdd25) (by omega)))
      (Is.rel (is_ofInt (F := F) (z := t.kVdd) (by omega))) le_rfl (by norm_num) le_rfl (by norm_num)
      (by exact_mod_cast hk0) (ζ := 1 / 2 ^ 24) (by norm_num)
      (hr.1.imp id fun h => le_trans (zpow_le_zpow_right₀ (by norm_num) (by norm_num)) h)
      (hr.2.trans (zpow_le_zpow_right₀ (by norm_num) (by norm_num)))
    refine Rel.eq key ?_
    unfold Datasheet.deltaV
    push_cast; rfl

theorem z24 : (2 : ℝ) ^ (-124 : ℤ) ≤ 2 ^ (-40 : ℤ) := zpow_le_zpow_right₀ (by norm_num) (by norm_num)
theorem z126 : (2 : ℝ) ^ (40 : ℤ) ≤ 2 ^ (126 : ℤ) := zpow_le_zpow_right₀ (by norm_num) (by norm_num)
theorem z127 : (2 : ℝ) ^ (40 : ℤ) ≤ 2 ^ (127 : ℤ) := zpow_le_zpow_right₀ (by norm_num) (by norm_num)
theorem z150 : (2 : ℝ) ^ (-150 : ℤ) ≤ 1 / 2 ^ 60 := by
  have e : (1 : ℝ) / 2 ^ 60 = 2 ^ (-60 : ℤ) := by norm_num
  rw [e]
  exact zpow_le_zpow_right₀ (by norm_num) (by norm_num)
theorem z150_pos : (0 : ℝ) < 2 ^ (-150 : ℤ) := by positivity

/-- Supply voltage. -/
theorem supply_within {k : Calib F} {t : Calib ℝ} {r : RamData} {dV rc : F} {ρ : ℝ} (h0 : Within k.vdd0 3.3 (3.3 / 2 ^ 24))
    (ht : t.vdd0 = 3.3) (hd : Rel dV (Datasheet.deltaV t r) (1 / 2 ^ 24)) (hρ : Is rc ρ) (h1 : 1 / 8 ≤ ρ) (h8 : ρ ≤ 8)
    (hl : Datasheet.deltaV t r = 0 ∨ (2 : ℝ) ^ (-20 : ℤ) ≤ |Datasheet.deltaV t r|)
    (hu : |Datasheet.deltaV t r| ≤ 2 ^ (20 : ℤ)) :
    Within (vDd k rc dV) (Datasheet.supply t ρ r) ((|ρ * Datasheet.deltaV t r| + 3.3) / 2 ^ 22) := by
  unfold vDd Datasheet.supply
  rw [ht]
  generalize Datasheet.deltaV t r = x at *
  have hx : 0 ≤ |x| := abs_nonneg x
  have hρ0 : |ρ| = ρ := abs_of_nonneg (by linarith)
  have e20 : (2 : ℝ) ^ (20 : ℤ) = 2 ^ 20 := by norm_num
  have hm := Rel.mul hd (Is.rel hρ) (by norm_num) (by norm_num) le_rfl (by norm_num) (ζ := 5 / 2 / 2 ^ 24) (by norm_num)
    (hl.imp (fun h => by rw [h, zero_mul]) fun h => by
      rw [abs_mul, hρ0]
      refine z24.trans ?_
      have e : (2 : ℝ) ^ (-40 : ℤ) = 2 ^ (-20 : ℤ) * 2 ^ (-20 : ℤ) := by rw [← zpow_add₀ (by norm_num)]; norm_num
      rw [e]
      have : (2 : ℝ) ^ (-20 : ℤ) ≤ ρ := le_trans (by norm_num) h1
      gcongr)
    (by
      rw [abs_mul, hρ0]
      refine le_trans ?_ z126
      have e : (2 : ℝ) ^ (40 : ℤ) = 2 ^ (20 : ℤ) * 2 ^ (20 : ℤ) := by rw [← zpow_add₀ (by norm_num)]; norm_num
      rw [e]
      have : ρ ≤ 2 ^ (20 : ℤ) := by rw [e20]; linarith
      gcongr)
  have ha : |x * ρ| ≤ 2 ^ 23 := by rw [abs_mul, hρ0]; rw [e20] at hu; nlinarith
  have hs : |x * ρ + 3.3| ≤ |x * ρ| + 3.3 := by
    refine (abs_add_le _ _).trans ?_
    rw [abs_of_pos (a := (3.3 : ℝ)) (by norm_num)]
  have key := Within.add (Rel.within hm) h0 (by
    refine le_trans ?_ z127
    have e40 : (2 : ℝ) ^ (40 : ℤ) = 2 ^ 40 := by norm_num
    rw [e40]
    linarith)
  rw [mul_comm ρ x]
  refine Within.mono key ?_
  unfold rd
  have := z150
  have h9 : 0 ≤ |x * ρ| := abs_nonneg _
  have : (|x * ρ + 3.3| + (5 / 2 / 2 ^ 24 * |x * ρ| + 3.3 / 2 ^ 24)) / 2 ^ 24 ≤
    (|x * ρ| + 3.3 + (5 / 2 / 2 ^ 24 * |x * ρ| + 3.3 / 2 ^ 24)) / 2 ^ 24 := by gcongr
  linarith

/-- What the parameters of both cameras have in common: they are scaled integers. -/
structure Scaled (t : Calib ℝ) : Prop where
  kVdd : |t.kVdd| ≤ 2 ^ 20
  kVptat : ∃ n : ℤ, |n| ≤ 2 ^ 12 ∧ t.kVptat = n / 2 ^ 12
  kTptat : ∃ n : ℤ, |n| ≤ 2 ^ 12 ∧ t.kTptat = n / 2 ^ 3
  alphaPtat : ∃ n : ℕ, n < 2 ^ 11 ∧ t.alphaPtat = n / 2 ^ 7
  vptat25 : ∃ n : ℤ, |n| ≤ 2 ^ 20 ∧ t.vptat25 = n
  vdd0 : t.vdd0 = 3.3

theorem art_rel {k : Calib F} {t : Calib ℝ} (hs : Scaled t) (hα : Is k.alphaPtat t.alphaPtat) (h0 : 0 < t.alphaPtat)
    {ptat vbe : Int} (hp : 0 < ptat) (hp' : ptat ≤ 32767) (hb : 0 ≤ vbe) (hb' : vbe ≤ 32767) :
    Rel (vPtatArt k ptat vbe) ((ptat : ℝ) / (ptat * t.alphaPtat + vbe) * 2 ^ 18) (11 / 2 / 2 ^ 24) ∧
    1 / 4 ≤ (ptat : ℝ) / (ptat * t.alphaPtat + vbe) * 2 ^ 18 ∧
    (ptat : ℝ) / (ptat * t.alphaPtat + vbe) * 2 ^ 18 ≤ 2 ^ 25 := by
  obtain ⟨n, hn, hα'⟩ := hs.alphaPtat
  have hn1 : (1 : ℝ) ≤ n := by
    have : 0 < n := by
      rcases Nat.eq_zero_or_pos n with h | h
      · rw [hα', h] at h0; simp at h0
      · exact h
    exact_mod_cast this
  have hn2 : (n : ℝ) < 2048 := by exact_mod_cast hn
  have a1 : 1 / 128 ≤ t.alphaPtat := by rw [hα']; rw [div_le_div_iff₀ (by norm_num) (by norm_num)]; linarith
  have a2 : t.alphaPtat ≤ 16 := by rw [hα', div_le_iff₀ (by norm_num)]; linarith
  have p1 : (1 : ℝ) ≤ ptat := by exact_mod_cast hp
  have p2 : (ptat : ℝ) ≤ 32767 := by exact_mod_cast hp'
  have b1 : (0 : ℝ) ≤ vbe := by exact_mod_cast hb
  have b2 : (vbe : ℝ) ≤ 32767 := by exact_mod_cast hb'
  generalize t.alphaPtat = α at *
  have hP : Is (ofInt ptat : F) (ptat : ℝ) := is_ofInt (by rw [abs_lt]; omega)
  have hB : Is (ofInt vbe : F) (vbe : ℝ) := is_ofInt (by rw [abs_lt]; omega)
  generalize (ptat : ℝ) = P at *
  generalize (vbe : ℝ) = B at *
  have pa1 : 1 / 128 ≤ P * α := by nlinarith
  have pa2 : P * α ≤ 2 ^ 19 := by nlinarith
  have e40 : (2 : ℝ) ^ (-40 : ℤ) ≤ 1 / 2 ^ 20 := by norm_num
  have e41 : (2 : ℝ) ^ 40 = 2 ^ (40 : ℤ) := by norm_num
  have lo : ∀ z : ℝ, 1 / 2 ^ 20 ≤ z → z = 0 ∨ (2 : ℝ) ^ (-124 : ℤ) ≤ |z| := fun z hz =>
    Or.inr (by rw [abs_of_nonneg (le_trans (by norm_num) hz)]; exact z24.trans (e40.trans hz))
  have hi : ∀ z : ℝ, 0 ≤ z → z ≤ 2 ^ 40 → |z| ≤ 2 ^ (126 : ℤ) := fun z h1 h2 => by
    rw [abs_of_nonneg h1]; exact h2.trans (e41 ▸ z126)
  have m1 := Rel.mul (Is.rel hP) (Is.rel hα) le_rfl (by norm_num) le_rfl (by norm_num) (ζ := 1 / 2 ^ 24) (by norm_num)
    (lo _ (by linarith)) (hi _ (by linarith) (by linarith))
  have m2 := Rel.add m1 (Rel.mono (Is.rel hB) (by norm_num)) (by norm_num) (by norm_num) (by linarith) b1
    (ζ := 5 / 2 / 2 ^ 24) (by norm_num) (lo _ (by linarith)) (hi _ (by linarith) (by linarith))
  have d1 : 1 / 128 ≤ P * α + B := by linarith
  have d2 : P * α + B ≤ 2 ^ 20 := by linarith
  have q1 : 1 / 2 ^ 20 ≤ P / (P * α + B) := by
    rw [le_div_iff₀ (by linarith)]; linarith
  have q2 : P / (P * α + B) ≤ 128 := by
    rw [div_le_iff₀ (by linarith)]; nlinarith
  have m3 := Rel.div (Is.rel hP) m2 le_rfl (by norm_num) (by norm_num) (by norm_num) (by linarith)
    (ζ := 4 / 2 ^ 24) (by norm_num) (lo _ q1) (hi _ (by linarith) (by linarith))
  have m4 := Rel.mul m3 (Is.rel (is_exp2_lit (F := F) (k := 18) (by decide))) (by norm_num) (by norm_num) le_rfl
    (by norm_num) (ζ := 11 / 2 / 2 ^ 24) (by norm_num)
    (lo _ (by linarith)) (hi _ (by linarith) (by linarith))
  exact ⟨m4, by linarith, by linarith⟩

/-- Ambient temperature. -/
theorem ambient_within {k : Calib F} {t : Calib ℝ} {r : RamData} {dV : F} (hk : ExactTable k t) (hs : Scaled t)
    (hp : Plausible t r) (hd : Rel dV (Datasheet.deltaV t r) (1 / 2 ^ 24))
    (hl : Datasheet.deltaV t r = 0 ∨ (2 : ℝ) ^ (-20 : ℤ) ≤ |Datasheet.deltaV t r|) :
    Within (ambientTemperature k (vPtatArt k r.tAPtat r.tAVbe) dV) (Datasheet.ambient t r)
      ((|ptatVoltage t r| / |t.kTptat| + |Datasheet.ambient t r| + 50) / 2 ^ 20) := by
  obtain ⟨ha, ha1, ha2⟩ := art_rel hs hk.alphaPtat hp.alphaPtat hp.ptat.1 hp.ptat.2 hp.vbe.1 hp.vbe.2
  obtain ⟨nv, hnv, ev⟩ := hs.kVptat
  obtain ⟨nt, hnt, et⟩ := hs.kTptat
  obtain ⟨n25, hn25, e25⟩ := hs.vptat25
  have hvolt := hp.voltage
  have hkt := hp.kTptat
  have ikv := hk.kVptat
  have ikt := hk.kTptat
  have i25 := hk.vptat25
  unfold ambientTemperature Datasheet.ambient ptatVoltage
  dsimp only
  generalize vPtatArt k r.tAPtat r.tAVbe = art at *
  generalize (r.tAPtat : ℝ) / (r.tAPtat * t.alphaPtat + r.tAVbe) * 2 ^ 18 = A at *
  generalize Datasheet.deltaV t r = x at *
  generalize t.kVptat = κ at *
  generalize t.kTptat = τ at *
  generalize t.vptat25 = w25 at *
  have hx0 : 0 ≤ |κ * x| := abs_nonneg _
  -- the voltage factor
  have m1 := Rel.mul (Is.rel ikv) hd le_rfl (by norm_num) (by norm_num) (by norm_num) (ζ := 5 / 2 / 2 ^ 24) (by norm_num)
    (by
      by_cases h0 : nv = 0
      · left; rw [ev, h0]; simp
      · refine hl.imp (fun h => by rw [h, mul_zero]) fun h => ?_
        have h1 : (2 : ℝ) ^ (-20 : ℤ) ≤ |κ| := by
          have : (1 : ℝ) ≤ |(nv : ℝ)| := by exact_mod_cast Int.one_le_abs h0
          rw [ev, abs_div, abs_of_pos (a := ((2 : ℝ) ^ 12)) (by norm_num), le_div_iff₀ (by norm_num)]
          refine le_trans ?_ this
          norm_num
        rw [abs_mul]
        refine z24.trans ?_
        have e : (2 : ℝ) ^ (-40 : ℤ) = 2 ^ (-20 : ℤ) * 2 ^ (-20 : ℤ) := by rw [← zpow_add₀ (by norm_num)]; norm_num
        rw [e]
        gcongr)
    (hvolt.trans (by norm_num))
  have s1 : 1 / 2 ≤ 1 + κ * x := by rw [abs_le] at hvolt; linarith
  have s2 : 1 + κ * x ≤ 3 / 2 := by rw [abs_le] at hvolt; linarith
  have one : Is (lit 1 : F) 1 := is_lit (by norm_num) (by simpa using value_int (m := 1) (by norm_num))
  have hz := z150
  have hz0 := z150_pos
  have m2 : Rel (lit 1 +. k.kVptat *. dV) (1 + κ * x) (6 / 2 ^ 24) := by
    have h := Within.add (Is.within one) (Rel.within m1) (by
      rw [abs_of_nonneg (a := 1 + κ * x) (by linarith)]
      have e40 : (2 : ℝ) ^ (40 : ℤ) = 2 ^ 40 := by norm_num
      have z := z127
      rw [e40] at z
      linarith)
    refine Within.mono h ?_
    unfold rd
    rw [abs_of_nonneg (a := 1 + κ * x) (by linarith)]
    linarith
  -- the compensated voltage
  have v1 : 1 / 8 ≤ A / (1 + κ * x) := by rw [le_div_iff₀ (by linarith)]; linarith
  have v2 : A / (1 + κ * x) ≤ 2 ^ 26 := by rw [div_le_iff₀ (by linarith)]; linarith
  have m3 := Rel.div ha m2 (by norm_num) (by norm_num) (by norm_num) (by norm_num) (by linarith)
    (ζ := 13 / 2 ^ 24) (by norm_num)
    (Or.inr (by rw [abs_of_nonneg (by linarith)]; exact (z24.trans (by norm_num)).trans v1))
    (by rw [abs_of_nonneg (by linarith)]; exact v2.trans (by norm_num))
  generalize A / (1 + κ * x) = v at *
  have e40 : (2 : ℝ) ^ (40 : ℤ) = 2 ^ 40 := by norm_num
  have z127' := z127
  rw [e40] at z127'
  have h25 : |w25| ≤ 2 ^ 20 := by rw [e25]; exact_mod_cast hn25
  have n1 : |v - w25| ≤ 2 ^ 27 := by
    refine (abs_sub _ _).trans ?_
    rw [abs_of_nonneg (a := v) (by linarith)]
    linarith
  have m4 := Within.sub (Rel.within m3) (Is.within i25) (by
    refine le_trans ?_ z127'
    rw [abs_of_nonneg (a := v) (by linarith)]
    linarith)
  rw [abs_of_nonneg (a := v) (by linarith)] at m4 ⊢
  have ht0 : 0 < |τ| := abs_pos.2 hkt
  have ht1 : 1 / 8 ≤ |τ| := by
    have : nt ≠ 0 := by rintro rfl; apply hkt; rw [et]; simp
    have : (1 : ℝ) ≤ |(nt : ℝ)| := by exact_mod_cast Int.one_le_abs this
    rw [et, abs_div, abs_of_pos (a := ((2 : ℝ) ^ 3)) (by norm_num), le_div_iff₀ (by norm_num)]
    linarith
  -- weaken the error of the numerator
  have hN0 : 0 ≤ |v - w25| := abs_nonneg _
  have m5 : Within (art /. (lit 1 +. k.kVptat *. dV) -. k.vptat25) (v - w25)
      (27 / 2 / 2 ^ 24 * v + |v - w25| / 2 ^ 24 + 2 ^ (-150 : ℤ)) := by
    refine Within.mono m4 ?_
    unfold rd
    linarith
  have hi8 : 1 / |τ| ≤ 8 := by rw [div_le_iff₀ ht0]; linarith
  have hq : |v - w25| / |τ| ≤ 2 ^ 30 := by rw [div_le_iff₀ ht0]; linarith
  have hvτ : v / |τ| ≤ 2 ^ 29 := by rw [div_le_iff₀ ht0]; linarith
  have hvτ0 : 0 ≤ v / |τ| := by positivity
  have ee : (27 / 2 / 2 ^ 24 * v + |v - w25| / 2 ^ 24 + 2 ^ (-150 : ℤ)) / |τ| =
      27 / 2 / 2 ^ 24 * (v / |τ|) + |v - w25| / |τ| / 2 ^ 24 + 2 ^ (-150 : ℤ) * (1 / |τ|) := by ring
  have eq0 : |(v - w25) / τ| = |v - w25| / |τ| := abs_div _ _
  have h150 : 2 ^ (-150 : ℤ) * (1 / |τ|) ≤ 8 / 2 ^ 60 := by
    calc (2 : ℝ) ^ (-150 : ℤ) * (1 / |τ|) ≤ 1 / 2 ^ 60 * 8 := by gcongr
      _ = 8 / 2 ^ 60 := by ring
  have hQ0 : 0 ≤ |v - w25| / |τ| := by positivity
  have m6 := Within.div m5 ikt hkt (by
    refine le_trans ?_ z127'
    rw [ee, eq0]
    linarith)
  rw [ee, eq0] at m6
  have m7 : Within ((art /. (lit 1 +. k.kVptat *. dV) -. k.vptat25) /. k.kTptat) ((v - w25) / τ)
      (14 / 2 ^ 24 * (v / |τ|) + 9 / 4 / 2 ^ 24 * (|v - w25| / |τ|) + 16 / 2 ^ 60) := by
    refine Within.mono m6 ?_
    unfold rd
    linarith
  have t25 : Is (lit 25 : F) 25 := is_lit (by norm_num) (by simpa using value_int (m := 25) (by norm_num))
  have hT0 : 0 ≤ |(v - w25) / τ + 25| := abs_nonneg _
  have hT1 : |v - w25| / |τ| ≤ |(v - w25) / τ + 25| + 25 := by
    rw [← eq0]
    have := abs_sub_abs_le_abs_sub ((v - w25) / τ) (-25)
    rw [abs_neg, sub_neg_eq_add, abs_of_pos (a := (25 : ℝ)) (by norm_num)] at this
    linarith
  have hT2 : |(v - w25) / τ + 25| ≤ |v - w25| / |τ| + 25 := by
    rw [← eq0]
    refine (abs_add_le _ _).trans ?_
    rw [abs_of_pos (a := (25 : ℝ)) (by norm_num)]
  have m8 := Within.add m7 (Is.within t25) (by
    refine le_trans ?_ z127'
    linarith)
  refine Within.mono m8 ?_
  unfold rd
  linarith

/-! ### Both cameras -/

attribute [local irreducible] signedAt bitsAt in
theorem scaled640 (E : Nat → Word) : Scaled (Ee640.calibration E) where
  kVdd := by
    have h := signed_half (E 0x2433) 8 8 (by decide)
    show |signedAt (E 0x2433) 8 8 * 2 ^ 5| ≤ 2 ^ 20
    rw [abs_mul]
    generalize |signedAt (E 0x2433) 8 8| = z at *
    norm_num at h ⊢
    omega
  kVptat := ⟨signedAt (E 0x2432) 10 6, (signed_half (E 0x2432) 10 6 (by decide)).trans (by decide), rfl⟩
  kTptat := ⟨signedAt (E 0x2432) 0 10, (signed_half (E 0x2432) 0 10 (by decide)).trans (by decide), rfl⟩
  alphaPtat := ⟨(bitsAt (E 0x2410) 12 4 / 4 + 8) * 128, by
      have := bitsAt_lt_two_pow (E 0x2410) 12 4
      omega, by
      show ((bitsAt (E 0x2410) 12 4 / 4 : Nat) : ℝ) + 8 = _
      generalize bitsAt (E 0x2410) 12 4 / 4 = n
      push_cast
      ring⟩
  vptat25 := ⟨signedAt (E 0x2431) 0 16, (signed_half (E 0x2431) 0 16 (by decide)).trans (by decide), rfl⟩
  vdd0 := rfl

theorem toInt_11 (x : BitVec 11) : |x.toInt| ≤ 2 ^ 10 := by
  have h1 := BitVec.toInt_lt (x := x)
  have h2 := BitVec.le_toInt x
  rw [abs_le]
  norm_num at h1 h2 ⊢
  omega

theorem scaled641 (D : Nat → BitVec 11) : Scaled (Ee641.calibration D) where
  kVdd := by
    have h := toInt_11 (D 0x2427)
    show |(D 0x2427).toInt * 2 ^ 5| ≤ 2 ^ 20
    rw [abs_mul]
    generalize |(D 0x2427).toInt| = z at *
    norm_num at h ⊢
    omega
  kVptat := ⟨(D 0x242B).toInt, (toInt_11 _).trans (by decide), rfl⟩
  kTptat := ⟨(D 0x242A).toInt, (toInt_11 _).trans (by decide), rfl⟩
  alphaPtat := ⟨(D 0x242C).toNat, (D 0x242C).isLt, rfl⟩
  vptat25 := ⟨32 * (D 0x2428).toNat + (D 0x2429).toNat, by
      have h1 := (D 0x2428).isLt
      have h2 := (D 0x2429).isLt
      rw [abs_of_nonneg (by omega)]
      omega, by
      show 32 * ((D 0x2428).toNat : ℝ) + (D 0x2429).toNat = _
      push_cast; rfl⟩
  vdd0 := rfl

/-- The resolution correction is exact. -/
theorem correction_is (a b : Resolution) :
    Is (resolutionCorrection (F := F) a b) (resolutionCorrection (F := ℝ) a b) ∧
    1 / 8 ≤ resolutionCorrection (F := ℝ) a b ∧ resolutionCorrection (F := ℝ) a b ≤ 8 := by
  rw [C57_resolution_correction.1, C57_resolution_correction.2.1]
  have ha : 16 ≤ a.toU8.toNat ∧ a.toU8.toNat ≤ 19 := by cases a <;> decide
  have hb : 16 ≤ b.toU8.toNat ∧ b.toU8.toNat ≤ 19 := by cases b <;> decide
  generalize a.toU8.toNat = x at *
  generalize b.toU8.toNat = y at *
  have hz : -3 ≤ (x : Int) - y ∧ (x : Int) - y ≤ 3 := by omega
  generalize (x : Int) - y = z at *
  refine ⟨Binary32.exp2_exact _ z (is_ofInt (by rw [abs_lt]; omega)) ⟨1, z, by norm_num, by omega, by omega, by simp⟩, ?_, ?_⟩
  · rw [show (1 : ℝ) / 8 = 2 ^ (-3 : ℤ) by norm_num]
    exact zpow_le_zpow_right₀ (by norm_num) hz.1
  · rw [show (8 : ℝ) = 2 ^ (3 : ℤ) by norm_num]
    exact zpow_le_zpow_right₀ (by norm_num) hz.2

/-- Frame-wide quantities, for a calibration that is exact. -/
theorem common_within (m : Mode) {k : Calib F} {t : Calib ℝ} {r : RamData} (hk : ExactTable k t) (hs : Scaled t)
    (h0 : Within k.vdd0 3.3 (3.3 / 2 ^ 24)) (hp : Plausible t r) (actual : Resolution) (em : F) :
    ∃ common : CommonIrData F,
      CommonIrData.new (ε := ε) m (resolutionCorrection k.resolution actual) em k r = .ok common ∧
      Within common.vDd (Datasheet.supply t (resolutionCorrection t.resolution actual) r)
        ((|resolutionCorrection t.resolution actual * Datasheet.deltaV t r| + 3.3) / 2 ^ 22) ∧
      Within common.tA (Datasheet.ambient t r)
        ((|ptatVoltage t r| / |t.kTptat| + |Datasheet.ambient t r| + 50) / 2 ^ 20) ∧
      common.gain = k.gain /. ofInt r.gain ∧ common.emissivity = em := by
  obtain ⟨dV, hd, hr⟩ := deltaV_rel (ε := ε) m hk.vdd25 hk.kVdd r hp.vdd hp.kVdd hs.kVdd
  have hrange : (Datasheet.deltaV t r = 0 ∨ (2 : ℝ) ^ (-20 : ℤ) ≤ |Datasheet.deltaV t r|) ∧
      |Datasheet.deltaV t r| ≤ 2 ^ (20 : ℤ) := by
    have hd : |r.vddPixel - t.vdd25| ≤ 2 ^ 20 := by have := hp.vdd; unfold Fits16 at this; rw [abs_le]; omega
    have := int_rel_range hd hs.kVdd hp.kVdd
    unfold Datasheet.deltaV
    push_cast at this
    exact this
  obtain ⟨hc, hc1, hc2⟩ := correction_is (F := F) t.resolution actual
  unfold CommonIrData.new
  rw [hd]
  refine ⟨_, rfl, ?_, ?_, rfl, rfl⟩
  · rw [hk.resolution]
    exact supply_within h0 hs.vdd0 hr hc hc1 hc2 hrange.1 hrange.2
  · exact ambient_within hk hs hp hr hrange.1

theorem correction_codes (a b : Resolution) : resolutionCorrection (F := ℝ) a b =
    2 ^ CtrlField.resolution.code a / 2 ^ CtrlField.resolution.code b := by
  have h := correction_eq { Ee640.calibration (fun _ => 0#16) with resolution := a } (BitVec.ofNat 16 (CtrlField.resolution.code b * 1024))
  have e1 : CtrlField.resolution.valueIn (BitVec.ofNat 16 (CtrlField.resolution.code b * 1024)) = b := by
    cases b <;> decide
  have e2 : bitsAt (BitVec.ofNat 16 (CtrlField.resolution.code b * 1024)) 10 2 = CtrlField.resolution.code b := by
    cases b <;> decide
  rw [e1] at h
  unfold correction at h
  rw [e2] at h
  exact h

theorem accurate (m : Mode) {k : Calib F} {t : Calib ℝ} (hk : ExactTable k t) (hs : Scaled t)
    (h0 : Within k.vdd0 3.3 (3.3 / 2 ^ 24)) : Accurate m k t := by
  intro r hp actual ρ nearAmbient
  obtain ⟨common, h1, h2, h3, _⟩ := common_within (ε := Unit) m hk hs h0 hp actual (lit 1)
  have hρ : resolutionCorrection t.resolution actual = ρ := correction_codes _ _
  rw [hρ] at h2
  refine ⟨?_, fun em tR pixels s a valid dest dest' tA => ⟨fun h => ?_, fun h => ?_⟩⟩
  · unfold CommonIrData.new at h1
    cases hd : deltaV (ε := Unit) m k r.vddPixel with
    | err e => rw [hd] at h1; cases h1
    | panic => rw [hd] at h1; cases h1
    | ok dV =>
      rw [hd] at h1
      cases h1
      exact ⟨dV, rfl, h2, h3⟩
  · obtain ⟨common', g1, _, g3, _⟩ := common_within (ε := Unit) m hk hs h0 hp actual em
    unfold rawPixelsToIrData at h
    rw [g1] at h
    cases h
    exact g3
  · obtain ⟨common', g1, _, g3, _⟩ := common_within (ε := Unit) m hk hs h0 hp actual em
    unfold rawPixelsToTemperatures at h
    rw [g1] at h
    cases hi : idx (ε := Unit) k.kSTo k.cam.basicRange with
    | err e => exact absurd h (by simp only [Bind.bind, Res.bind, hi]; intro h; cases h)
    | panic => exact absurd h (by simp only [Bind.bind, Res.bind, hi]; intro h; cases h)
    | ok v =>
      simp only [Bind.bind, Res.bind, hi] at h
      cases h
      exact g3

/-- **C70 (MLX90640).** With a calibration decoded in binary32 arithmetic from a regular dump, the supply voltage and the
ambient temperature computed in binary32 arithmetic are as accurate as `Accurate` says. (For a typical device: ambient
temperature within 0.001 °C, supply voltage within 0.000001 V.) -/
theorem C70_accurate_640 (m m' : Mode) (data : List Byte) (c : Mlx90640.Calibration F)
    (h : Mlx90640.fromData m data = .ok c) (hr : Ee640.Regular (eepromWord data)) :
    Accurate m' c.toCalib (Ee640.calibration (eepromWord data)) :=
  let ⟨h1, _, h3⟩ := C69_exact_640 m data c h hr
  accurate m' h1 (scaled640 _) h3

/-- **C70 (MLX90641).** The same for the MLX90641. -/
theorem C70_accurate_641 (m m' : Mode) (data : List Byte) (c : Mlx90641.Calibration F)
    (h : Mlx90641.fromData m data = .ok c) (D : Nat → BitVec 11) (hD : Ee641.Holds data D (Ee641.readAddresses 192))
    (hr : Ee641.Regular D) (hs : ModerateScales D) : Accurate m' c.toCalib (Ee641.calibration D) :=
  let ⟨h1, _, h3⟩ := C69_exact_641 m data c h D hD hr hs
  accurate m' h1 (scaled641 _) h3

/-! ### The hypotheses can be met -/

/-- The readings of the worked example of the datasheet (11.2.2), with the example's EEPROM: within 0.0004 °C. -/
def readings640 : RamData :=
  { tAVbe := 19442, tAPtat := 1711, vddPixel := -13115, gain := 6881, compensationPixel := -54 }

attribute [local irreducible] signedAt bitsAt in
theorem plausible640 : Plausible (Ee640.calibration (eepromWord example640)) readings640 := by
  have w : ∀ k, k < 832 → eepromWord example640 (0x2400 + k) = BitVec.ofNat 16 (words640 k) := eepromWord_dump _
  have w16 : eepromWord example640 0x2410 = 0x4210#16 := (w 16 (by decide)).trans (by decide)
  have w50 : eepromWord example640 0x2432 = 0x5952#16 := (w 50 (by decide)).trans (by decide)
  have w51 : eepromWord example640 0x2433 = 0x9d68#16 := (w 51 (by decide)).trans (by decide)
  have e1 : (Ee640.calibration (eepromWord example640)).kVdd = -3168 := by
    show signedAt (eepromWord example640 0x2433) 8 8 * 2 ^ 5 = -3168
    rw [w51]; decide +kernel
  have e2 : (Ee640.calibration (eepromWord example640)).vdd25 = -13056 := by
    show ((bitsAt (eepromWord example640 0x2433) 0 8 : Int) - 256) * 2 ^ 5 - 2 ^ 13 = -13056
    rw [w51]; decide +kernel
  have e3 : (Ee640.calibration (eepromWord example640)).kVptat = 22 / 4096 := by
    show ((signedAt (eepromWord example640 0x2432) 10 6 : Int) : ℝ) / 2 ^ 12 = _
    rw [w50, show signedAt 0x5952#16 10 6 = 22 by decide +kernel]; norm_num
  have e4 : (Ee640.calibration (eepromWord example640)).kTptat = 338 / 8 := by
    show ((signedAt (eepromWord example640 0x2432) 0 10 : Int) : ℝ) / 2 ^ 3 = _
    rw [w50, show signedAt 0x5952#16 0 10 = 338 by decide +kernel]; norm_num
  have e5 : (Ee640.calibration (eepromWord example640)).alphaPtat = 9 := by
    show ((bitsAt (eepromWord example640 0x2410) 12 4 / 4 : Nat) : ℝ) + 8 = _
    rw [w16, show bitsAt 0x4210#16 12 4 / 4 = 1 by decide +kernel]; norm_num
  exact {
    vdd := by rw [e2]; decide
    kVdd := by rw [e1]; decide
    kTptat := by rw [e4]; norm_num
    alphaPtat := by rw [e5]; norm_num
    ptat := by decide
    vbe := by decide
    voltage := by
      unfold Datasheet.deltaV
      rw [e1, e2, e3]
      unfold readings640
      norm_num }

theorem plausible641 : Plausible (Ee641.calibration values641)
    { tAVbe := 19442, tAPtat := 1711, vddPixel := -13115, gain := 6881, compensationPixel := -54 } := by
  have e1 : (Ee641.calibration values641).kVdd = -3136 := by
    show (values641 0x2427).toInt * 2 ^ 5 = _
    decide +kernel
  have e2 : (Ee641.calibration values641).vdd25 = -13568 := by
    show (values641 0x2426).toInt * 2 ^ 5 = _
    decide +kernel
  have e3 : (Ee641.calibration values641).kVptat = 23 / 4096 := by
    show ((values641 0x242B).toInt : ℝ) / 2 ^ 12 = _
    rw [show (values641 0x242B).toInt = 23 by decide +kernel]; norm_num
  have e4 : (Ee641.calibration values641).kTptat = 342 / 8 := by
    show ((values641 0x242A).toInt : ℝ) / 2 ^ 3 = _
    rw [show (values641 0x242A).toInt = 342 by decide +kernel]; norm_num
  have e5 : (Ee641.calibration values641).alphaPtat = 9 := by
    show ((values641 0x242C).toNat : ℝ) / 2 ^ 7 = _
    rw [show (values641 0x242C).toNat = 1152 by decide +kernel]; norm_num
  exact {
    vdd := by rw [e2]; decide
    kVdd := by rw [e1]; decide
    kTptat := by rw [e4]; norm_num
    alphaPtat := by rw [e5]; norm_num
    ptat := by decide
    vbe := by decide
    voltage := by
      unfold Datasheet.deltaV
      rw [e1, e2, e3]
      norm_num }

end Mlx.Props
