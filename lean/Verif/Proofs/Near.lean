import Verif.Spec.Object
import Verif.Proofs.Signal
/-
Errors relative to a scale.
-/
set_option linter.unusedSectionVars false
set_option autoImplicit false
namespace Mlx.Proofs
open Mlx Mlx.Spec F32Ops
variable {F : Type} [F32Ops F] [Binary32 F]

/-- The value of `a`, in units of `s`, is within `e` of `x`. -/
def Near (a : F) (s x e : ℝ) : Prop := ∃ y, Is a (s * y) ∧ |y - x| ≤ e

theorem Near.mono {a : F} {s x e f : ℝ} (h : Near a s x e) (hl : e ≤ f) : Near a s x f :=
  let ⟨y, h1, h2⟩ := h
  ⟨y, h1, h2.trans hl⟩

theorem Near.eq {a : F} {s s' x x' e : ℝ} (h : Near a s x e) (hs : s = s') (hx : x = x') : Near a s' x' e := hs ▸ hx ▸ h

theorem Near.nonneg {a : F} {s x e : ℝ} (h : Near a s x e) : 0 ≤ e :=
  let ⟨_, _, h2⟩ := h
  (abs_nonneg _).trans h2

theorem near_of_within {a : F} {s x e : ℝ} (hs : 0 < s) (h : Within a (s * x) (s * e)) : Near a s x e := by
  obtain ⟨y, h1, h2⟩ := h
  refine ⟨y / s, Is.eq h1 (by field_simp), ?_⟩
  have e1 : y / s - x = (y - s * x) / s := by field_simp
  rw [e1, abs_div, abs_of_pos hs, div_le_iff₀ hs]
  linarith

theorem Near.within {a : F} {s x e : ℝ} (hs : 0 < s) (h : Near a s x e) : Within a (s * x) (s * e) := by
  obtain ⟨y, h1, h2⟩ := h
  refine ⟨s * y, h1, ?_⟩
  rw [← mul_sub, abs_mul, abs_of_pos hs]
  gcongr

/-- Rounding, in units of `s`. -/
theorem near_of_rounds {a : F} {s z z' e : ℝ} (h : Rounds (s * z') (Binary32.val a)) (hd : |z' - z| ≤ e)
    (hs : 1 / 2 ^ 100 ≤ s) (hu : s * (|z| + e) ≤ 2 ^ 126) : Near a s z (e + (|z| + e) / 2 ^ 24 + 1 / 2 ^ 50) := by
  have s0 : 0 < s := lt_of_lt_of_le (by positivity) hs
  have h1 : |s * z' - s * z| ≤ s * e := by
    rw [← mul_sub, abs_mul, abs_of_pos s0]; gcongr
  have e1 : |s * z| + s * e = s * (|z| + e) := by rw [abs_mul, abs_of_pos s0]; ring
  obtain ⟨w, hw, h2⟩ := within_of_rounds h h1 (by rw [e1]; exact big_range hu)
  refine near_of_within s0 ⟨w, hw, h2.trans ?_⟩
  rw [e1]
  unfold rd
  have t : (2 : ℝ) ^ (-150 : ℤ) = 1 / 2 ^ 100 * (1 / 2 ^ 50) := by norm_num
  have : (2 : ℝ) ^ (-150 : ℤ) ≤ s * (1 / 2 ^ 50) := by rw [t]; gcongr
  have e2 : s * (e + (|z| + e) / 2 ^ 24 + 1 / 2 ^ 50) = s * e + s * (|z| + e) / 2 ^ 24 + s * (1 / 2 ^ 50) := by ring
  rw [e2]
  linarith

theorem Near.add {a b : F} {s x y e f : ℝ} (ha : Near a s x e) (hb : Near b s y f) (hs : 1 / 2 ^ 100 ≤ s)
    (hu : s * (|x + y| + (e + f)) ≤ 2 ^ 126) :
    Near (a +. b) s (x + y) (e + f + (|x + y| + (e + f)) / 2 ^ 24 + 1 / 2 ^ 50) := by
  obtain ⟨x', hx, hx'⟩ := ha
  obtain ⟨y', hy, hy'⟩ := hb
  have h := Binary32.add_rounds _ _ _ _ hx hy
  rw [← mul_add] at h
  refine near_of_rounds h ?_ hs hu
  calc |x' + y' - (x + y)| = |(x' - x) + (y' - y)| := by congr 1; ring
    _ ≤ |x' - x| + |y' - y| := abs_add_le _ _
    _ ≤ e + f := by linarith

theorem Near.sub {a b : F} {s x y e f : ℝ} (ha : Near a s x e) (hb : Near b s y f) (hs : 1 / 2 ^ 100 ≤ s)
    (hu : s * (|x - y| + (e + f)) ≤ 2 ^ 126) :
    Near (a -. b) s (x - y) (e + f + (|x - y| + (e + f)) / 2 ^ 24 + 1 / 2 ^ 50) := by
  obtain ⟨x', hx, hx'⟩ := ha
  obtain ⟨y', hy, hy'⟩ := hb
  have h := Binary32.sub_rounds _ _ _ _ hx hy
  rw [← mul_sub] at h
  refine near_of_rounds h ?_ hs hu
  calc |x' - y' - (x - y)| = |(x' - x) - (y' - y)| := by congr 1; ring
    _ ≤ |x' - x| + |y' - y| := abs_sub _ _
    _ ≤ e + f := by linarith

theorem Near.mul {a b : F} {s t x y e f : ℝ} (ha : Near a s x e) (hb : Near b t y f) (hs : 1 / 2 ^ 100 ≤ s * t)
    (hu : s * t * (|x * y| + (|x| * f + |y| * e + e * f)) ≤ 2 ^ 126) :
    Near (a *. b) (s * t) (x * y)
      (|x| * f + |y| * e + e * f + (|x * y| + (|x| * f + |y| * e + e * f)) / 2 ^ 24 + 1 / 2 ^ 50) := by
  have e0 := ha.nonneg
  obtain ⟨x', hx, hx'⟩ := ha
  obtain ⟨y', hy, hy'⟩ := hb
  have h := Binary32.mul_rounds _ _ _ _ hx hy
  rw [mul_mul_mul_comm] at h
  refine near_of_rounds h ?_ hs hu
  have e1 : x' * y' - x * y = x * (y' - y) + y * (x' - x) + (x' - x) * (y' - y) := by ring
  rw [e1]
  calc |x * (y' - y) + y * (x' - x) + (x' - x) * (y' - y)|
      ≤ |x * (y' - y)| + |y * (x' - x)| + |(x' - x) * (y' - y)| := (abs_add_le _ _).trans (by gcongr; exact abs_add_le _ _)
    _ = |x| * |y' - y| + |y| * |x' - x| + |x' - x| * |y' - y| := by rw [abs_mul, abs_mul, abs_mul]
    _ ≤ |x| * f + |y| * e + e * f := by gcongr

/-- Division, if the error of the divisor is at most a quarter of it. -/
theorem Near.div {a b : F} {s t x y e f : ℝ} (ha : Near a s x e) (hb : Near b t y f) (t0 : 0 < t) (y0 : 0 < y)
    (hf : f ≤ y / 4) (hs : 1 / 2 ^ 100 ≤ s / t)
    (hu : s / t * (|x / y| + 4 / 3 * ((e + |x / y| * f) / y)) ≤ 2 ^ 126) :
    Near (a /. b) (s / t) (x / y) (4 / 3 * ((e + |x / y| * f) / y) +
      (|x / y| + 4 / 3 * ((e + |x / y| * f) / y)) / 2 ^ 24 + 1 / 2 ^ 50) := by
  obtain ⟨x', hx, hx'⟩ := ha
  obtain ⟨y', hy, hy'⟩ := hb
  have h1 := abs_le.1 (hy'.trans hf)
  have y1 : 3 / 4 * y ≤ y' := by linarith
  have y2 : 0 < y' := by linarith
  have h := Binary32.div_rounds _ _ _ _ hx hy (by positivity)
  rw [mul_div_mul_comm] at h
  refine near_of_rounds h ?_ hs hu
  have e1 : x' / y' - x / y = ((x' - x) - x / y * (y' - y)) / y' := by field_simp; ring
  rw [e1, abs_div, abs_of_pos y2, div_le_iff₀ y2]
  have e0 : 0 ≤ e := (abs_nonneg _).trans hx'
  have f0 : 0 ≤ f := (abs_nonneg _).trans hy'
  have g0 : 0 ≤ e + |x / y| * f := by positivity
  calc |x' - x - x / y * (y' - y)| ≤ |x' - x| + |x / y * (y' - y)| := abs_sub _ _
    _ ≤ e + |x / y| * f := by rw [abs_mul]; gcongr
    _ = 4 / 3 * ((e + |x / y| * f) / y) * (3 / 4 * y) := by field_simp
    _ ≤ 4 / 3 * ((e + |x / y| * f) / y) * y' := by gcongr

/-- A fourth root takes a relative error of at most one half to a third of it. -/
theorem root_near {ξ X : ℝ} (h : |ξ| ≤ X) (hX : X ≤ 1 / 2) : |(1 + ξ) ^ (1 / 4 : ℝ) - 1| ≤ X / 3 := by
  have h1 := abs_le.1 (h.trans hX)
  have p0 : 0 ≤ 1 + ξ := by linarith
  generalize hr : (1 + ξ) ^ (1 / 4 : ℝ) = r
  have r0 : 0 ≤ r := hr ▸ Real.rpow_nonneg p0 _
  have r4 : r ^ 4 = 1 + ξ := by
    rw [← hr, ← Real.rpow_natCast, ← Real.rpow_mul p0]; norm_num
  have r1 : 5 / 6 ≤ r := by
    by_contra hc
    have hc := not_le.1 hc
    have : r ^ 4 ≤ (5 / 6) ^ 4 := by gcongr
    rw [r4] at this
    norm_num at this
    linarith
  have r3 : 3 ≤ r ^ 3 + r ^ 2 + r + 1 := by
    have h2 : (5 / 6 : ℝ) ^ 2 ≤ r ^ 2 := by gcongr
    have h3 : (5 / 6 : ℝ) ^ 3 ≤ r ^ 3 := by gcongr
    norm_num at *
    linarith
  have e1 : ξ = (r - 1) * (r ^ 3 + r ^ 2 + r + 1) := by linear_combination -r4
  rw [e1, abs_mul, abs_of_nonneg (a := r ^ 3 + r ^ 2 + r + 1) (by linarith)] at h
  rw [le_div_iff₀ (by norm_num)]
  refine le_trans ?_ h
  gcongr

/-- The fourth root of a positive number. -/
theorem Near.root {a b : F} {δ s x X : ℝ} (hp : AccuratePowers F δ) (ha : Near a (s ^ 4 * x) 1 X) (hb : Is b (1 / 4))
    (s0 : 0 < s) (x0 : 0 < x) (hX : X ≤ 1 / 2) (hl : 1 / 2 ^ 125 ≤ s ^ 4 * x) :
    Near (F32Ops.powf a b) (s * x ^ (1 / 4 : ℝ)) 1 (X / 3 + 7 / 6 * δ) := by
  obtain ⟨y, hy, hy'⟩ := ha
  have h1 := abs_le.1 (hy'.trans hX)
  have y0 : 0 ≤ y := by linarith
  have hz := hp.powf a b _ hy hb (by
    have : (2 : ℝ) ^ (-126 : ℤ) = 1 / 2 ^ 125 * (1 / 2) := by norm_num
    rw [this]
    have : 1 / 2 ≤ y := by linarith
    gcongr)
  have e : (s ^ 4 * x * y) ^ (1 / 4 : ℝ) = s * x ^ (1 / 4 : ℝ) * y ^ (1 / 4 : ℝ) := by
    rw [Real.mul_rpow (by positivity) y0, Real.mul_rpow (by positivity) x0.le]
    congr 2
    rw [← Real.rpow_natCast, ← Real.rpow_mul s0.le]; norm_num
  rw [e] at hz
  have hr := root_near (ξ := y - 1) hy' hX
  rw [add_sub_cancel] at hr
  have p0 : 0 < s * x ^ (1 / 4 : ℝ) := by positivity
  generalize s * x ^ (1 / 4 : ℝ) = S at *
  generalize y ^ (1 / 4 : ℝ) = r at *
  obtain ⟨w, hw, hw'⟩ := hz
  have d0 : 0 ≤ δ := le_trans (by norm_num) hp.unit
  refine near_of_within p0 ⟨w, hw, ?_⟩
  have r1 : r ≤ 7 / 6 := by
    have := (abs_le.1 hr).2
    linarith
  calc |w - S * 1| = |(w - S * r) + S * (r - 1)| := by congr 1; ring
    _ ≤ |w - S * r| + |S * (r - 1)| := abs_add_le _ _
    _ ≤ δ * (S * r) + S * (X / 3) := by rw [abs_mul, abs_of_pos p0]; gcongr
    _ ≤ δ * (S * (7 / 6)) + S * (X / 3) := by gcongr
    _ = S * (X / 3 + 7 / 6 * δ) := by ring

/-- The third and fourth powers. -/
theorem Near.power {a : F} {δ s e : ℝ} {n : Nat} (hp : AccuratePowers F δ) (ha : Near a s 1 e) (s0 : 0 < s)
    (hn : n = 3 ∨ n = 4) (he : e ≤ 1 / 2 ^ 8) (hl : 1 / 2 ^ 124 ≤ s ^ n) (hu : s ^ n ≤ 2 ^ 126) :
    Near (F32Ops.powi a n) (s ^ n) 1 ((n + 1 / 16) * e + 17 / 16 * δ) := by
  have e0 := ha.nonneg
  have d0 : 0 ≤ δ := le_trans (by norm_num) hp.unit
  obtain ⟨y, hy, hy'⟩ := ha
  have p0 : 0 < s ^ n := by positivity
  have hq : |y ^ n - 1| ≤ (n + 1 / 16) * e := by
    obtain ⟨t, rfl⟩ : ∃ t, y = 1 + t := ⟨y - 1, by ring⟩
    rw [add_sub_cancel_left] at hy'
    have t0 : 0 ≤ |t| := abs_nonneg t
    have h2 : |t ^ 2| ≤ 1 / 2 ^ 8 * e := by
      rw [abs_pow, pow_two]; gcongr; linarith
    have h3 : |t ^ 3| ≤ 1 / 2 ^ 8 * e := by
      rw [abs_pow, show |t| ^ 3 = |t| * |t| * |t| by ring]
      have : |t| * |t| ≤ 1 / 2 ^ 8 * 1 := by gcongr <;> linarith
      calc |t| * |t| * |t| ≤ 1 / 2 ^ 8 * 1 * e := by gcongr
        _ = _ := by ring
    have h4 : |t ^ 4| ≤ 1 / 2 ^ 8 * e := by
      rw [abs_pow, show |t| ^ 4 = |t| * |t| * |t| * |t| by ring]
      have : |t| * |t| * |t| ≤ 1 / 2 ^ 8 * 1 * 1 := by gcongr <;> linarith
      calc |t| * |t| * |t| * |t| ≤ 1 / 2 ^ 8 * 1 * 1 * e := by gcongr
        _ = _ := by ring
    rw [abs_le] at h2 h3 h4 hy' ⊢
    rcases hn with rfl | rfl
    · have e3 : (1 + t) ^ 3 - 1 = 3 * t + 3 * t ^ 2 + t ^ 3 := by ring
      rw [e3]
      push_cast
      constructor <;> linarith
    · have e4 : (1 + t) ^ 4 - 1 = 4 * t + 6 * t ^ 2 + 4 * t ^ 3 + t ^ 4 := by ring
      rw [e4]
      push_cast
      constructor <;> linarith
  have n4 : (n : ℝ) ≤ 4 := by rcases hn with rfl | rfl <;> norm_num
  have hq' : |y ^ n - 1| ≤ 1 / 32 := by
    refine hq.trans ?_
    calc ((n : ℝ) + 1 / 16) * e ≤ (4 + 1 / 16) * (1 / 2 ^ 8) := by gcongr
      _ ≤ 1 / 32 := by norm_num
  have hq'' := abs_le.1 hq'
  have y0 : 0 ≤ y ^ n := by linarith
  have hw := hp.powi a _ n hy hn
  rw [mul_pow, abs_of_nonneg (a := s ^ n * y ^ n) (by positivity)] at hw
  obtain ⟨w, h1, h2⟩ := hw (by
      have : (2 : ℝ) ^ (-126 : ℤ) = 1 / 2 ^ 124 * (1 / 4) := by norm_num
      rw [this]
      have : 1 / 4 ≤ y ^ n := by linarith
      gcongr) (by
      refine le_trans ?_ max_ge
      have : (2 : ℝ) ^ (127 : ℤ) = 2 ^ 126 * 2 := by norm_num
      rw [this]
      gcongr
      linarith)
  refine near_of_within p0 ⟨w, h1, ?_⟩
  generalize s ^ n = S at *
  generalize y ^ n = r at *
  calc |w - S * 1| = |(w - S * r) + S * (r - 1)| := by congr 1; ring
    _ ≤ |w - S * r| + |S * (r - 1)| := abs_add_le _ _
    _ ≤ δ * (S * r) + S * ((n + 1 / 16) * e) := by rw [abs_mul, abs_of_pos p0]; gcongr
    _ ≤ δ * (S * (17 / 16)) + S * ((n + 1 / 16) * e) := by gcongr; linarith
    _ = S * ((n + 1 / 16) * e + 17 / 16 * δ) := by ring

end Mlx.Proofs
