import Verif.Proofs.Binary32
import Mathlib.Tactic.GCongr
/-
Propagation of rounding errors through the operations.
-/
set_option linter.unusedSectionVars false
set_option autoImplicit false
namespace Mlx.Proofs
open Mlx Mlx.Spec F32Ops
variable {F : Type} [F32Ops F] [Binary32 F]

/-- The value of `a` is `x` up to a relative error. -/
def Rel (a : F) (x ε : ℝ) : Prop := ∃ y, Is a y ∧ |y - x| ≤ ε * |x|

theorem Is.rel {a : F} {x : ℝ} (h : Is a x) : Rel a x 0 := ⟨x, h, by simp⟩
theorem Is.within {a : F} {x : ℝ} (h : Is a x) : Within a x 0 := ⟨x, h, by simp⟩
theorem Rel.within {a : F} {x ε : ℝ} (h : Rel a x ε) : Within a x (ε * |x|) := h
theorem Rel.mono {a : F} {x ε η : ℝ} (h : Rel a x ε) (hl : ε ≤ η) : Rel a x η := by
  obtain ⟨y, h1, h2⟩ := h
  exact ⟨y, h1, h2.trans (mul_le_mul_of_nonneg_right hl (abs_nonneg _))⟩
theorem Within.mono {a : F} {x e f : ℝ} (h : Within a x e) (hl : e ≤ f) : Within a x f := by
  obtain ⟨y, h1, h2⟩ := h
  exact ⟨y, h1, h2.trans hl⟩
theorem Within.eq {a : F} {x y e : ℝ} (h : Within a x e) (hl : x = y) : Within a y e := hl ▸ h
theorem Rel.eq {a : F} {x y e : ℝ} (h : Rel a x e) (hl : x = y) : Rel a y e := hl ▸ h

theorem max_ge : (2 : ℝ) ^ (127 : ℤ) ≤ maxBinary32 := by unfold maxBinary32; norm_num

/-! ### Relative errors -/

theorem rel_of_rounds {r : Option ℝ} {z z' θ ζ : ℝ} (h : Rounds z' r) (hd : |z' - z| ≤ θ * |z|) (_h0 : 0 ≤ θ)
    (h1 : θ ≤ 3 / 4) (hz : (1 + θ) * (1 + 1 / 2 ^ 24) ≤ 1 + ζ)
    (hl : z = 0 ∨ (2 : ℝ) ^ (-124 : ℤ) ≤ |z|) (hu : |z| ≤ (2 : ℝ) ^ (126 : ℤ)) :
    ∃ w, r = some w ∧ |w - z| ≤ ζ * |z| := by
  have ha : 0 ≤ |z| := abs_nonneg z
  have hb1 : |z'| ≤ (1 + θ) * |z| := by
    have := abs_sub_abs_le_abs_sub z' z
    linarith
  have hb2 : 1 / 4 * |z| ≤ |z'| := by
    have h1 := abs_sub_abs_le_abs_sub z z'
    rw [abs_sub_comm] at h1
    nlinarith
  obtain ⟨w, hw, hwe⟩ := rounds_rel h (by
      rcases hl with hl | hl
      · left
        rw [hl, abs_zero, mul_zero, sub_zero] at hd
        exact abs_nonpos_iff.1 hd
      · right
        refine le_trans ?_ hb2
        have e : (2 : ℝ) ^ (-126 : ℤ) = 1 / 4 * 2 ^ (-124 : ℤ) := by
          rw [show (-124 : ℤ) = -126 + 2 by norm_num, zpow_add₀ (by norm_num)]; norm_num
        rw [e]
        gcongr)
    (by
      refine le_trans (hb1.trans ?_) max_ge
      calc (1 + θ) * |z| ≤ 2 * 2 ^ (126 : ℤ) := by gcongr; linarith
        _ = 2 ^ (127 : ℤ) := by norm_num)
  refine ⟨w, hw, ?_⟩
  have e : w - z = (w - z') + (z' - z) := by ring
  rw [e]
  calc |(w - z') + (z' - z)| ≤ |w - z'| + |z' - z| := abs_add_le _ _
    _ ≤ (1 + θ) * |z| / 2 ^ 24 + θ * |z| := by gcongr; exact hwe.trans (by gcongr)
    _ = ((1 + θ) * (1 + 1 / 2 ^ 24) - 1) * |z| := by ring
    _ ≤ ζ * |z| := by gcongr; linarith

theorem Rel.mul {a b : F} {x y ε η ζ : ℝ} (ha : Rel a x ε) (hb : Rel b y η) (e0 : 0 ≤ ε) (e1 : ε ≤ 1 / 4) (f0 : 0 ≤ η)
    (f1 : η ≤ 1 / 4) (hz : (1 + ε) * (1 + η) * (1 + 1 / 2 ^ 24) ≤ 1 + ζ)
    (hl : x * y = 0 ∨ (2 : ℝ) ^ (-124 : ℤ) ≤ |x * y|) (hu : |x * y| ≤ (2 : ℝ) ^ (126 : ℤ)) : Rel (a *. b) (x * y) ζ := by
  obtain ⟨x', hx, hx'⟩ := ha
  obtain ⟨y', hy, hy'⟩ := hb
  have hd : |x' * y' - x * y| ≤ ((1 + ε) * (1 + η) - 1) * |x * y| := by
    have e : x' * y' - x * y = (x' - x) * (y' - y) + x * (y' - y) + y * (x' - x) := by ring
    rw [e]
    calc |(x' - x) * (y' - y) + x * (y' - y) + y * (x' - x)|
        ≤ |x' - x| * |y' - y| + |x| * |y' - y| + |y| * |x' - x| := by
          refine (abs_add_le _ _).trans (add_le_add ((abs_add_le _ _).trans ?_) ?_)
          · rw [abs_mul, abs_mul]
          · rw [abs_mul]
      _ ≤ (ε * |x|) * (η * |y|) + |x| * (η * |y|) + |y| * (ε * |x|) := by gcongr
      _ = ((1 + ε) * (1 + η) - 1) * |x * y| := by rw [abs_mul]; ring
  exact rel_of_rounds (Binary32.mul_rounds _ _ _ _ hx hy) hd (by nlinarith) (by nlinarith)
    (by rw [show 1 + ((1 + ε) * (1 + η) - 1) = (1 + ε) * (1 + η) by ring]; exact hz) hl hu

theorem Rel.div {a b : F} {x y ε η ζ : ℝ} (ha : Rel a x ε) (hb : Rel b y η) (e0 : 0 ≤ ε) (e1 : ε ≤ 1 / 4) (f0 : 0 ≤ η)
    (f1 : η ≤ 1 / 4) (hy0 : y ≠ 0) (hz : (1 + ε) * (1 + 1 / 2 ^ 24) ≤ (1 + ζ) * (1 - η))
    (hl : x / y = 0 ∨ (2 : ℝ) ^ (-124 : ℤ) ≤ |x / y|) (hu : |x / y| ≤ (2 : ℝ) ^ (126 : ℤ)) : Rel (a /. b) (x / y) ζ := by
  obtain ⟨x', hx, hx'⟩ := ha
  obtain ⟨y', hy, hy'⟩ := hb
  have hyp : 0 < |y| := abs_pos.2 hy0
  have hy2 : (1 - η) * |y| ≤ |y'| := by
    have h1 := abs_sub_abs_le_abs_sub y y'
    rw [abs_sub_comm] at h1
    linarith
  have hn : 0 < 1 - η := by linarith
  have hy3 : 0 < |y'| := lt_of_lt_of_le (mul_pos hn hyp) hy2
  have hy' : y' ≠ 0 := abs_pos.1 hy3
  have hd : |x' / y' - x / y| ≤ ((1 + ε) / (1 - η) - 1) * |x / y| := by
    have e : x' / y' - x / y = ((x' - x) * y - x * (y' - y)) / (y' * y) := by field_simp; ring
    rw [e, abs_div, abs_mul y', div_le_iff₀ (by positivity)]
    calc |(x' - x) * y - x * (y' - y)| ≤ |x' - x| * |y| + |x| * |y' - y| := by
          refine (abs_sub _ _).trans ?_
          rw [abs_mul, abs_mul]
      _ ≤ (ε * |x|) * |y| + |x| * (η * |y|) := by gcongr
      _ = (ε + η) / (1 - η) * (|x| / |y|) * (((1 - η) * |y|) * |y|) := by field_simp
      _ ≤ (ε + η) / (1 - η) * (|x| / |y|) * (|y'| * |y|) := by gcongr
      _ = ((1 + ε) / (1 - η) - 1) * |x / y| * (|y'| * |y|) := by rw [abs_div]; congr 2; field_simp; ring
  refine rel_of_rounds (Binary32.div_rounds _ _ _ _ hx hy hy') hd ?_ ?_ ?_ hl hu
  · rw [sub_nonneg, le_div_iff₀ hn]; linarith
  · rw [sub_le_iff_le_add, div_le_iff₀ hn]; nlinarith
  · rw [show 1 + ((1 + ε) / (1 - η) - 1) = (1 + ε) / (1 - η) by ring, div_mul_eq_mul_div, div_le_iff₀ hn]; exact hz

theorem Rel.add {a b : F} {x y ε ζ : ℝ} (ha : Rel a x ε) (hb : Rel b y ε) (e0 : 0 ≤ ε) (e1 : ε ≤ 1 / 4)
    (hx0 : 0 ≤ x) (hy0 : 0 ≤ y) (hz : (1 + ε) * (1 + 1 / 2 ^ 24) ≤ 1 + ζ)
    (hl : x + y = 0 ∨ (2 : ℝ) ^ (-124 : ℤ) ≤ |x + y|) (hu : |x + y| ≤ (2 : ℝ) ^ (126 : ℤ)) : Rel (a +. b) (x + y) ζ := by
  obtain ⟨x', hx, hx'⟩ := ha
  obtain ⟨y', hy, hy'⟩ := hb
  refine rel_of_rounds (Binary32.add_rounds _ _ _ _ hx hy) (θ := ε) ?_ e0 (by linarith) hz hl hu
  rw [abs_of_nonneg (add_nonneg hx0 hy0)]
  rw [abs_of_nonneg hx0] at hx'
  rw [abs_of_nonneg hy0] at hy'
  calc |x' + y' - (x + y)| = |(x' - x) + (y' - y)| := by congr 1; ring
    _ ≤ |x' - x| + |y' - y| := abs_add_le _ _
    _ ≤ ε * (x + y) := by linarith

/-! ### Absolute errors -/

/-- The largest error of rounding a number of magnitude up to `m`. -/
noncomputable def rd (m : ℝ) : ℝ := m / 2 ^ 24 + 2 ^ (-150 : ℤ)

theorem rd_mono {m n : ℝ} (h : m ≤ n) : rd m ≤ rd n := by unfold rd; gcongr

theorem within_of_rounds {r : Option ℝ} {z z' e : ℝ} (h : Rounds z' r) (hd : |z' - z| ≤ e)
    (hu : |z| + e ≤ (2 : ℝ) ^ (127 : ℤ)) : ∃ w, r = some w ∧ |w - z| ≤ e + rd (|z| + e) := by
  have hb : |z'| ≤ |z| + e := by
    have := abs_sub_abs_le_abs_sub z' z
    linarith
  obtain ⟨w, hw, hwe⟩ := rounds_any h (hb.trans (hu.trans max_ge))
  refine ⟨w, hw, ?_⟩
  have e : w - z = (w - z') + (z' - z) := by ring
  rw [e]
  refine (abs_add_le _ _).trans ?_
  have : rd |z'| ≤ rd (|z| + _) := rd_mono hb
  unfold rd at this ⊢
  linarith

theorem Within.add {a b : F} {x y e f : ℝ} (ha : Within a x e) (hb : Within b y f)
    (hu : |x + y| + (e + f) ≤ (2 : ℝ) ^ (127 : ℤ)) : Within (a +. b) (x + y) (e + f + rd (|x + y| + (e + f))) := by
  obtain ⟨x', hx, hx'⟩ := ha
  obtain ⟨y', hy, hy'⟩ := hb
  refine within_of_rounds (Binary32.add_rounds _ _ _ _ hx hy) ?_ hu
  calc |x' + y' - (x + y)| = |(x' - x) + (y' - y)| := by congr 1; ring
    _ ≤ |x' - x| + |y' - y| := abs_add_le _ _
    _ ≤ e + f := by linarith

theorem Within.sub {a b : F} {x y e f : ℝ} (ha : Within a x e) (hb : Within b y f)
    (hu : |x - y| + (e + f) ≤ (2 : ℝ) ^ (127 : ℤ)) : Within (a -. b) (x - y) (e + f + rd (|x - y| + (e + f))) := by
  obtain ⟨x', hx, hx'⟩ := ha
  obtain ⟨y', hy, hy'⟩ := hb
  refine within_of_rounds (Binary32.sub_rounds _ _ _ _ hx hy) ?_ hu
  calc |x' - y' - (x - y)| = |(x' - x) - (y' - y)| := by congr 1; ring
    _ ≤ |x' - x| + |y' - y| := abs_sub _ _
    _ ≤ e + f := by linarith

theorem Within.mul {a b : F} {x y e f : ℝ} (ha : Within a x e) (hb : Within b y f) (e0 : 0 ≤ e)
    (hu : |x * y| + (|x| * f + |y| * e + e * f) ≤ (2 : ℝ) ^ (127 : ℤ)) :
    Within (a *. b) (x * y) (|x| * f + |y| * e + e * f + rd (|x * y| + (|x| * f + |y| * e + e * f))) := by
  obtain ⟨x', hx, hx'⟩ := ha
  obtain ⟨y', hy, hy'⟩ := hb
  refine within_of_rounds (Binary32.mul_rounds _ _ _ _ hx hy) ?_ hu
  have e : x' * y' - x * y = x * (y' - y) + y * (x' - x) + (x' - x) * (y' - y) := by ring
  rw [e]
  calc |x * (y' - y) + y * (x' - x) + (x' - x) * (y' - y)|
      ≤ |x| * |y' - y| + |y| * |x' - x| + |x' - x| * |y' - y| := by
        refine (abs_add_le _ _).trans (add_le_add ((abs_add_le _ _).trans ?_) ?_)
        · rw [abs_mul, abs_mul]
        · rw [abs_mul]
    _ ≤ _ := by gcongr

/-- Division by an exact number. -/
theorem Within.div {a b : F} {x y e : ℝ} (ha : Within a x e) (hb : Is b y) (hy : y ≠ 0)
    (hu : |x / y| + e / |y| ≤ (2 : ℝ) ^ (127 : ℤ)) : Within (a /. b) (x / y) (e / |y| + rd (|x / y| + e / |y|)) := by
  obtain ⟨x', hx, hx'⟩ := ha
  refine within_of_rounds (Binary32.div_rounds _ _ _ _ hx hb hy) ?_ hu
  rw [← sub_div, abs_div]
  gcongr

end Mlx.Proofs
