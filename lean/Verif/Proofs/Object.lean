import Verif.Proofs.Near
/-
Rounding errors of the object temperature, for given errors of the signal, the sensitivity and the reflected radiation.
-/
set_option linter.unusedSectionVars false
set_option autoImplicit false
namespace Mlx.Proofs
open Mlx Mlx.Spec F32Ops
variable {F : Type} [F32Ops F] [Binary32 F]

theorem Near.rescale {a : F} {s x e : ℝ} (h : Near a s x e) (hx : 0 < x) : Near a (s * x) 1 (e / x) := by
  obtain ⟨y, h1, h2⟩ := h
  refine ⟨y / x, Is.eq h1 (by field_simp), ?_⟩
  have e1 : y / x - 1 = (y - x) / x := by field_simp
  rw [e1, abs_div, abs_of_pos hx]
  gcongr

theorem quarter : Is (lit (1 / 4) : F) (1 / 4) := by
  refine is_lit (by norm_num) ?_
  have := value_div (m := 1) (k := 2) (by norm_num) (by norm_num)
  norm_num at this ⊢
  exact this

/-- The argument of the first root. -/
theorem argument_near {v a r : F} {α R y ηv ηα ηr δ : ℝ} (hp : AccuratePowers F δ) (hv : Near v (α * R) y ηv)
    (ha : Near a α 1 ηα) (hr : Near r R 1 ηr) (a0 : 1 / 2 ^ 30 ≤ α) (a1 : α ≤ 2 ^ 16) (r0 : 2 ^ 20 ≤ R) (r1 : R ≤ 2 ^ 44)
    (hy : |y| ≤ 2 ^ 10) (v1 : ηv ≤ 1 / 2 ^ 10) (α1 : ηα ≤ 1 / 2 ^ 10) (ρ1 : ηr ≤ 1 / 2 ^ 10) :
    Near (powi a 3 *. v +. powi a 4 *. r) (α ^ 4 * R) (1 + y) (2 * ηv + 2 * ηr + 5 * (1 + |y|) * (ηα + δ)) := by
  have p0 : 0 < α := lt_of_lt_of_le (by norm_num) a0
  have R0 : 0 < R := lt_of_lt_of_le (by norm_num) r0
  have d0 := hp.unit
  have d1 := hp.small
  have v0 := hv.nonneg
  have α0 := ha.nonneg
  have ρ0 := hr.nonneg
  have y0 : 0 ≤ |y| := abs_nonneg _
  have l3 : (1 / 2 ^ 30) ^ 3 ≤ α ^ 3 := by gcongr
  have l4 : (1 / 2 ^ 30) ^ 4 ≤ α ^ 4 := by gcongr
  have u3 : α ^ 3 ≤ (2 ^ 16) ^ 3 := by gcongr
  have u4 : α ^ 4 ≤ (2 ^ 16) ^ 4 := by gcongr
  have b126 : (1 : ℝ) * 2 ^ 60 ≤ 2 ^ 126 := by norm_num
  have h3 := ha.power (n := 3) hp p0 (Or.inl rfl) (α1.trans (by norm_num)) (le_trans (by norm_num) l3) (by linarith)
  have h4 := ha.power (n := 4) hp p0 (Or.inr rfl) (α1.trans (by norm_num)) (le_trans (by norm_num) l4) (by linarith)
  have s4 : 1 / 2 ^ 100 ≤ α ^ 4 * R := by
    have : (1 / 2 ^ 30) ^ 4 * 2 ^ 20 ≤ α ^ 4 * R := by gcongr
    refine le_trans (by norm_num) this
  have s4' : α ^ 4 * R ≤ 2 ^ 108 := by
    have : α ^ 4 * R ≤ (2 ^ 16) ^ 4 * 2 ^ 44 := by gcongr
    linarith
  have s40 : 0 < α ^ 4 * R := by positivity
  have e34 : α ^ 3 * (α * R) = α ^ 4 * R := by ring
  push_cast at h3 h4
  -- first product
  have z1 : |y| * ((3 + 1 / 16) * ηα + 17 / 16 * δ) ≤ |y| * (1 / 64) := by gcongr; linarith
  have z2 : ((3 + 1 / 16) * ηα + 17 / 16 * δ) * ηv ≤ 1 / 64 * ηv := by gcongr; linarith
  have z20 : 0 ≤ ((3 + 1 / 16) * ηα + 17 / 16 * δ) * ηv := by
    have : 0 ≤ (3 + 1 / 16) * ηα + 17 / 16 * δ := by linarith
    positivity
  have ya : 0 ≤ |y| * ηα := by positivity
  have dn : 0 ≤ δ := by linarith
  have yd : 0 ≤ |y| * δ := by positivity
  have yd' : |y| * (1 / 2 ^ 24) ≤ |y| * δ := by gcongr
  have m1 := h3.mul hv (by rw [e34]; exact s4) (by
    rw [e34, one_mul, abs_one, one_mul]
    calc α ^ 4 * R * _ ≤ 2 ^ 108 * 2 ^ 12 := by
          gcongr
          linarith
      _ ≤ 2 ^ 126 := by norm_num)
  rw [e34, one_mul, abs_one, one_mul] at m1
  have m1' : Near (powi a 3 *. v) (α ^ 4 * R) y (9 / 8 * ηv + |y| * (13 / 4 * ηα + 9 / 4 * δ) + 1 / 2 ^ 50) := by
    refine m1.mono ?_
    linarith
  clear m1
  -- second product
  have z3 : ((4 + 1 / 16) * ηα + 17 / 16 * δ) * ηr ≤ 1 / 64 * ηr := by gcongr; linarith
  have z30 : 0 ≤ ((4 + 1 / 16) * ηα + 17 / 16 * δ) * ηr := by
    have : 0 ≤ (4 + 1 / 16) * ηα + 17 / 16 * δ := by linarith
    positivity
  have m2 := h4.mul hr s4 (by
    simp only [abs_one, one_mul]
    calc α ^ 4 * R * _ ≤ 2 ^ 108 * 2 ^ 12 := by
          gcongr
          linarith
      _ ≤ 2 ^ 126 := by norm_num)
  simp only [abs_one, one_mul] at m2
  have m2' : Near (powi a 4 *. r) (α ^ 4 * R) 1 (9 / 8 * ηr + 17 / 4 * ηα + 9 / 4 * δ) := by
    refine m2.mono ?_
    linarith
  clear m2
  have hs : |y + 1| ≤ |y| + 1 := (abs_add_le _ _).trans (by rw [abs_one])
  have m3 := m1'.add m2' s4 (by
    have yα : |y| * (13 / 4 * ηα + 9 / 4 * δ) ≤ |y| * 1 := by gcongr; linarith
    calc α ^ 4 * R * _ ≤ 2 ^ 108 * 2 ^ 12 := by
          gcongr
          linarith
      _ ≤ 2 ^ 126 := by norm_num)
  refine Near.eq (m3.mono ?_) rfl (add_comm _ _)
  linarith

/-- The first estimate of the absolute temperature, times the sensitivity. -/
theorem first_near {v a r : F} {α R y ηv ηα ηr δ X : ℝ} (hp : AccuratePowers F δ) (hv : Near v (α * R) y ηv)
    (ha : Near a α 1 ηα) (hr : Near r R 1 ηr) (a0 : 1 / 2 ^ 30 ≤ α) (a1 : α ≤ 2 ^ 16) (r0 : 2 ^ 20 ≤ R) (r1 : R ≤ 2 ^ 44)
    (hy : |y| ≤ 2 ^ 10) (y0 : 0 < 1 + y) (v1 : ηv ≤ 1 / 2 ^ 10) (α1 : ηα ≤ 1 / 2 ^ 10) (ρ1 : ηr ≤ 1 / 2 ^ 10)
    (hX : (2 * ηv + 2 * ηr + 5 * (1 + |y|) * (ηα + δ)) / (1 + y) = X) (hX1 : X ≤ 1 / 2) :
    Near (powf (powi a 3 *. v +. powi a 4 *. r) (lit (1 / 4))) (α * (R * (1 + y)) ^ (1 / 4 : ℝ)) 1 (X / 3 + 7 / 6 * δ) := by
  have h := (argument_near hp hv ha hr a0 a1 r0 r1 hy v1 α1 ρ1).rescale y0
  rw [hX] at h
  have p0 : 0 < α := lt_of_lt_of_le (by norm_num) a0
  have R0 : 0 < R := lt_of_lt_of_le (by norm_num) r0
  have hy' : 1 / 2 ^ 24 ≤ 1 + y := by
    rw [← hX, div_le_iff₀ y0] at hX1
    have d0 := hp.unit
    have v0 := hv.nonneg
    have α0 := ha.nonneg
    have ρ0 := hr.nonneg
    have ya : 0 ≤ |y| * (ηα + δ) := mul_nonneg (abs_nonneg _) (by linarith)
    linarith
  refine Near.root (s := α) (x := R * (1 + y)) hp (Near.eq h (by ring) rfl) quarter p0 (by positivity) hX1 ?_
  have : (1 / 2 ^ 30) ^ 4 * (2 ^ 20 * (1 / 2 ^ 24)) ≤ α ^ 4 * (R * (1 + y)) := by gcongr
  exact le_trans (by norm_num) this

/-- The error of a literal. -/
theorem kelvins_within : Within (kelvins : F) 273.15 (273.15 / 2 ^ 24) := by
  obtain ⟨w, h1, h2⟩ := rounds_rel (Binary32.lit_rounds (F := F) (27315 / 100)) (Or.inr (by
      have : (2 : ℝ) ^ (-126 : ℤ) ≤ 1 := zpow_le_one_of_nonpos₀ (by norm_num) (by norm_num)
      refine this.trans ?_
      push_cast
      rw [abs_of_pos (by norm_num)]; norm_num)) (by
      refine le_trans ?_ max_ge
      have : (1 : ℝ) * 2 ^ 10 ≤ 2 ^ (127 : ℤ) := by norm_num
      refine le_trans ?_ this
      push_cast
      rw [abs_of_pos (by norm_num)]; norm_num)
  refine ⟨w, h1, ?_⟩
  have e : (((27315 / 100 : Rat)) : ℝ) = 273.15 := by norm_num
  rw [e, abs_of_pos (a := (273.15 : ℝ)) (by norm_num)] at h2
  exact h2

theorem is_near {a : F} {x : ℝ} (h : Is a x) : Near a 1 x 0 := ⟨x, Is.eq h (one_mul x).symm, by simp⟩

theorem within_near {a : F} {x e : ℝ} (h : Within a x e) : Near a 1 x e :=
  near_of_within one_pos (by rw [one_mul, one_mul]; exact h)

theorem near_within {a : F} {x e : ℝ} (h : Near a 1 x e) : Within a x e := by
  have := h.within one_pos
  rwa [one_mul, one_mul] at this

/-- The divisor. -/
theorem divisor_near {a k q : F} {α ηα δ E K e : ℝ} (hp : AccuratePowers F δ) (ha : Near a α 1 ηα) (hk : Is k K)
    (hq : Near q (α * E) 1 e) (a0 : 1 / 2 ^ 30 ≤ α) (a1 : α ≤ 2 ^ 16) (E0 : 0 < E) (hK : |K| * 273.15 ≤ 1 / 2)
    (hE : |K| * E ≤ 1 / 2) (α1 : ηα ≤ 1 / 2 ^ 10) (e1 : e ≤ 1 / 4) :
    Near (a *. (lit 1 -. k *. kelvins) +. k *. q) α (1 + K * (E - 273.15)) (2 * ηα + 7 * δ + 9 / 16 * e) := by
  have p0 : 0 < α := lt_of_lt_of_le (by norm_num) a0
  have d0 := hp.unit
  have d1 := hp.small
  have α0 := ha.nonneg
  have q0 := hq.nonneg
  have K0 : 0 ≤ |K| := abs_nonneg _
  have b126 : (1 : ℝ) * 2 ^ 60 ≤ 2 ^ 126 := by norm_num
  have one : Near (lit 1 : F) 1 1 0 :=
    is_near (is_lit (by norm_num) (by simpa using value_int (m := 1) (by norm_num)))
  -- k * 273.15
  have c1 := (is_near hk).mul (within_near kelvins_within) (by norm_num) (by
    rw [abs_mul, abs_of_pos (a := (273.15 : ℝ)) (by norm_num)]
    linarith)
  have c1' : Near (k *. kelvins) 1 (K * 273.15) (9 / 8 * δ) := by
    refine Near.eq (c1.mono ?_) (one_mul 1) rfl
    rw [abs_mul, abs_of_pos (a := (273.15 : ℝ)) (by norm_num)]
    linarith
  clear c1
  have hc := abs_le.1 (show |K * 273.15| ≤ 1 / 2 by
    rw [abs_mul, abs_of_pos (a := (273.15 : ℝ)) (by norm_num)]; exact hK)
  have ab : |1 - K * 273.15| ≤ 3 / 2 := by rw [abs_le]; constructor <;> linarith
  have c2 := one.sub c1' (by norm_num) (by linarith)
  have c2' : Near (lit 1 -. k *. kelvins) 1 (1 - K * 273.15) (11 / 4 * δ) := c2.mono (by linarith)
  clear c2
  have ab0 := abs_nonneg (1 - K * 273.15)
  have w1 : |1 - K * 273.15| * ηα ≤ 3 / 2 * ηα := by gcongr
  have w2 : ηα * (11 / 4 * δ) ≤ 1 / 2 ^ 10 * (11 / 4 * δ) := by gcongr
  have w10 : 0 ≤ |1 - K * 273.15| * ηα := by positivity
  have w20 : 0 ≤ ηα * (11 / 4 * δ) := mul_nonneg α0 (by linarith)
  have c3 := ha.mul c2' (by rw [mul_one]; exact le_trans (by norm_num) a0) (by
    rw [mul_one, one_mul, abs_one]
    calc α * _ ≤ 2 ^ 16 * 2 ^ 4 := by gcongr; linarith
      _ ≤ 2 ^ 126 := by norm_num)
  rw [mul_one, one_mul, abs_one] at c3
  have c3' : Near (a *. (lit 1 -. k *. kelvins)) α (1 - K * 273.15) (13 / 8 * ηα + 9 / 2 * δ) := c3.mono (by linarith)
  clear c3
  -- k * q
  have g1 : Near q α E (E * e) := by
    obtain ⟨y, h1, h2⟩ := hq
    refine ⟨E * y, Is.eq h1 (by ring), ?_⟩
    have : E * y - E = E * (y - 1) := by ring
    rw [this, abs_mul, abs_of_pos E0]
    gcongr
  have x1 : |K| * (E * e) ≤ 1 / 2 * e := by
    have : |K| * (E * e) = |K| * E * e := by ring
    rw [this]; gcongr
  have x10 : 0 ≤ |K| * (E * e) := by positivity
  have x2 : |K * E| ≤ 1 / 2 := by rw [abs_mul, abs_of_pos E0]; exact hE
  have x20 : 0 ≤ |K * E| := abs_nonneg _
  have c4 := (is_near hk).mul g1 (by rw [one_mul]; exact le_trans (by norm_num) a0) (by
    rw [one_mul]
    calc α * _ ≤ 2 ^ 16 * 2 ^ 4 := by gcongr; linarith
      _ ≤ 2 ^ 126 := by norm_num)
  rw [one_mul] at c4
  have c4' : Near (k *. q) α (K * E) (17 / 32 * e + 5 / 8 * δ) := c4.mono (by linarith)
  clear c4
  have ab2 : |1 - K * 273.15 + K * E| ≤ 3 / 2 + 1 / 2 := (abs_add_le _ _).trans (by gcongr)
  have c5 := c3'.add c4' (le_trans (by norm_num) a0) (by
    calc α * _ ≤ 2 ^ 16 * 2 ^ 4 := by gcongr; linarith
      _ ≤ 2 ^ 126 := by norm_num)
  -- the sum is at most 3/2 as both terms have the same sign
  refine Near.eq (c5.mono ?_) rfl (by ring)
  have ab3 : |1 - K * 273.15 + K * E| ≤ 3 / 2 := by
    have h1 := abs_le.1 x2
    rcases le_total 0 K with h | h
    · have : 0 ≤ K * 273.15 := by positivity
      have : 0 ≤ K * E := by positivity
      rw [abs_le]; constructor <;> linarith
    · have : K * 273.15 ≤ 0 := mul_nonpos_of_nonpos_of_nonneg h (by norm_num)
      have : K * E ≤ 0 := mul_nonpos_of_nonpos_of_nonneg h E0.le
      rw [abs_le]; constructor <;> linarith
  linarith

theorem divisor_range {K E : ℝ} (E0 : 0 < E) (hK : |K| * 273.15 ≤ 1 / 2) (hE : |K| * E ≤ 1 / 2) :
    1 / 2 ≤ 1 + K * (E - 273.15) := by
  have h1 : |K * E| ≤ 1 / 2 := by rw [abs_mul, abs_of_pos E0]; exact hE
  have h2 : |K * 273.15| ≤ 1 / 2 := by rw [abs_mul, abs_of_pos (a := (273.15 : ℝ)) (by norm_num)]; exact hK
  have h1 := abs_le.1 h1
  have h2 := abs_le.1 h2
  rcases le_total 0 K with h | h
  · have : 0 ≤ K * E := by positivity
    linarith
  · have : K * 273.15 ≤ 0 := mul_nonpos_of_nonpos_of_nonneg h (by norm_num)
    linarith

theorem root_le {x : ℝ} (h : 0 ≤ x) : x ^ (1 / 4 : ℝ) ≤ 1 + x := by
  rcases le_total x 1 with h1 | h1
  · have := Real.rpow_le_one h h1 (z := 1 / 4) (by norm_num)
    linarith
  · have := Real.rpow_le_rpow_of_exponent_le h1 (show (1 / 4 : ℝ) ≤ 1 by norm_num)
    rw [Real.rpow_one] at this
    linarith

/-- The argument of the second root. -/
theorem second_near {v a r k : F} {α R y ηv ηα ηr δ K E D z X B : ℝ} (hp : AccuratePowers F δ)
    (hv : Near v (α * R) y ηv) (ha : Near a α 1 ηα) (hr : Near r R 1 ηr) (hk : Is k K) (a0 : 1 / 2 ^ 30 ≤ α) (a1 : α ≤ 2 ^ 16)
    (r0 : 2 ^ 20 ≤ R) (r1 : R ≤ 2 ^ 44) (hy : |y| ≤ 2 ^ 10) (y0 : 0 < 1 + y) (v1 : ηv ≤ 1 / 2 ^ 10) (α1 : ηα ≤ 1 / 2 ^ 10)
    (ρ1 : ηr ≤ 1 / 2 ^ 10) (hX : (2 * ηv + 2 * ηr + 5 * (1 + |y|) * (ηα + δ)) / (1 + y) = X) (hX1 : X ≤ 1 / 2)
    (hE : (R * (1 + y)) ^ (1 / 4 : ℝ) = E) (hK : |K| * 273.15 ≤ 1 / 2) (hKE : |K| * E ≤ 1 / 2)
    (hD : 1 + K * (E - 273.15) = D) (hz : y / D = z) (hB : (ηv + |z| * (2 * ηα + 8 * δ + X / 5)) / D = B)
    (hD4 : 2 * ηα + 8 * δ + X / 5 ≤ D / 4) :
    Near (v /. (a *. (lit 1 -. k *. kelvins) +. k *. powf (powi a 3 *. v +. powi a 4 *. r) (lit (1 / 4))) +. r) R (1 + z)
      (3 / 2 * B + 2 * ηr + 3 * δ * (1 + |z|)) ∧ |z| ≤ 2 ^ 11 ∧ 0 ≤ B := by
  have p0 : 0 < α := lt_of_lt_of_le (by norm_num) a0
  have R0 : 0 < R := lt_of_lt_of_le (by norm_num) r0
  have d0 := hp.unit
  have d1 := hp.small
  have v0 := hv.nonneg
  have α0 := ha.nonneg
  have ρ0 := hr.nonneg
  have E0 : 0 < E := hE ▸ Real.rpow_pos_of_pos (by positivity) _
  have hq := first_near hp hv ha hr a0 a1 r0 r1 hy y0 v1 α1 ρ1 hX hX1
  rw [hE] at hq
  have X0 : 0 ≤ X := by
    rw [← hX]
    have : 0 ≤ ηα + δ := by linarith
    positivity
  have hden := divisor_near hp ha hk hq a0 a1 E0 hK hKE α1 (by linarith)
  have D0 : 1 / 2 ≤ D := hD ▸ divisor_range E0 hK hKE
  rw [hD] at hden
  have hden' := hden.mono (f := 2 * ηα + 8 * δ + X / 5) (by linarith)
  generalize hfd : 2 * ηα + 8 * δ + X / 5 = f at *
  have f0 : 0 ≤ f := hden'.nonneg
  have D1 : 0 < D := by linarith
  have zy : |z| ≤ 2 ^ 11 := by
    rw [← hz, abs_div, abs_of_pos D1, div_le_iff₀ D1]
    have : (2 : ℝ) ^ 11 * (1 / 2) ≤ 2 ^ 11 * D := by gcongr
    linarith
  have z1 : 0 ≤ |z| := abs_nonneg _
  have zf : |z| * f ≤ 2 ^ 11 * (D / 4) := by gcongr
  have zf0 : 0 ≤ |z| * f := by positivity
  have B0 : 0 ≤ B := by rw [← hB]; positivity
  have B1 : B ≤ 2 ^ 10 := by
    rw [← hB, div_le_iff₀ D1]
    linarith
  have eR : α * R / α = R := by field_simp
  have zd : |z| * (1 / 2 ^ 24) ≤ |z| * δ := by gcongr
  have zd0 : 0 ≤ |z| * δ := mul_nonneg z1 (by linarith)
  have q1 := hv.div hden' p0 D1 hD4 (by rw [eR]; exact le_trans (by norm_num) r0) (by
    rw [eR, hz, hB]
    calc R * _ ≤ 2 ^ 44 * 2 ^ 14 := by gcongr; linarith
      _ ≤ 2 ^ 126 := by norm_num)
  rw [eR, hz, hB] at q1
  have hs : |z + 1| ≤ |z| + 1 := (abs_add_le _ _).trans (by rw [abs_one])
  have q1' := q1.mono (f := 11 / 8 * B + |z| * δ + 1 / 2 ^ 50) (by linarith)
  clear q1
  have zd1 : |z| * δ ≤ |z| * 1 := by gcongr; linarith
  have q2 := q1'.add hr (le_trans (by norm_num) r0) (by
    calc R * _ ≤ 2 ^ 44 * 2 ^ 14 := by gcongr; linarith
      _ ≤ 2 ^ 126 := by norm_num)
  have q2' : Near _ R (1 + z) (3 / 2 * B + 2 * ηr + 3 * δ * (1 + |z|)) :=
    Near.eq (q2.mono (by linarith)) rfl (add_comm _ _)
  clear q2
  exact ⟨q2', zy, B0⟩

/-- The object temperature. -/
theorem object_within {v a r k : F} {α R y ηv ηα ηr δ K E D z X B W : ℝ} (hp : AccuratePowers F δ)
    (hv : Near v (α * R) y ηv) (ha : Near a α 1 ηα) (hr : Near r R 1 ηr) (hk : Is k K) (a0 : 1 / 2 ^ 30 ≤ α) (a1 : α ≤ 2 ^ 16)
    (r0 : 2 ^ 20 ≤ R) (r1 : R ≤ 2 ^ 44) (hy : |y| ≤ 2 ^ 10) (y0 : 0 < 1 + y) (v1 : ηv ≤ 1 / 2 ^ 10) (α1 : ηα ≤ 1 / 2 ^ 10)
    (ρ1 : ηr ≤ 1 / 2 ^ 10) (hX : (2 * ηv + 2 * ηr + 5 * (1 + |y|) * (ηα + δ)) / (1 + y) = X) (hX1 : X ≤ 1 / 2)
    (hE : (R * (1 + y)) ^ (1 / 4 : ℝ) = E) (hK : |K| * 273.15 ≤ 1 / 2) (hKE : |K| * E ≤ 1 / 2)
    (hD : 1 + K * (E - 273.15) = D) (hz : y / D = z) (hB : (ηv + |z| * (2 * ηα + 8 * δ + X / 5)) / D = B)
    (hD4 : 2 * ηα + 8 * δ + X / 5 ≤ D / 4) (z0 : 0 < 1 + z)
    (hW : (3 / 2 * B + 2 * ηr + 3 * δ * (1 + |z|)) / (1 + z) = W) (hW1 : W ≤ 1 / 2) :
    Within (perPixelTemperature v a r k) ((R * (1 + z)) ^ (1 / 4 : ℝ) - 273.15)
      ((W / 2 + 3 * δ) * (R * (1 + z)) ^ (1 / 4 : ℝ) + 3 * δ * 273.15) := by
  have R0 : 0 < R := lt_of_lt_of_le (by norm_num) r0
  have d0 := hp.unit
  have d1 := hp.small
  have v0 := hv.nonneg
  have α0 := ha.nonneg
  have ρ0 := hr.nonneg
  have z1 : 0 ≤ |z| := abs_nonneg _
  have zd0 : 0 ≤ |z| * δ := mul_nonneg z1 (by linarith)
  obtain ⟨q2', zy, B0⟩ := second_near hp hv ha hr hk a0 a1 r0 r1 hy y0 v1 α1 ρ1 hX hX1 hE hK hKE hD hz hB hD4
  have q3 := q2'.rescale z0
  rw [hW] at q3
  have hz' : 1 / 2 ^ 24 ≤ 1 + z := by
    rw [← hW, div_le_iff₀ z0] at hW1
    linarith
  have q4 := Near.root (s := 1) (x := R * (1 + z)) hp (Near.eq q3 (by ring) rfl) quarter one_pos (by positivity) hW1 (by
    have : (2 : ℝ) ^ 20 * (1 / 2 ^ 24) ≤ R * (1 + z) := by gcongr
    rw [one_pow, one_mul]
    exact le_trans (by norm_num) this)
  rw [one_mul] at q4
  have T0 : 0 < (R * (1 + z)) ^ (1 / 4 : ℝ) := Real.rpow_pos_of_pos (by positivity) _
  have T1 : (R * (1 + z)) ^ (1 / 4 : ℝ) ≤ 1 + 2 ^ 44 * (1 + 2 ^ 11) := by
    refine (root_le (by positivity)).trans ?_
    have : 1 + z ≤ 1 + 2 ^ 11 := by linarith [(abs_le.1 zy).2]
    gcongr
  generalize (R * (1 + z)) ^ (1 / 4 : ℝ) = T at *
  have W0 : 0 ≤ W := by
    have := q3.nonneg
    exact this
  have q5 := q4.within T0
  rw [mul_one] at q5
  have TW : 0 ≤ T * W := by positivity
  have Td : 0 ≤ T * δ := mul_nonneg T0.le (by linarith)
  have TW1 : T * W ≤ T * (1 / 2) := by gcongr
  have Td1 : T * δ ≤ T * (1 / 2 ^ 16) := by gcongr
  have Td2 : T * (1 / 2 ^ 24) ≤ T * δ := by gcongr
  have eT : T * (W / 3 + 7 / 6 * δ) = 1 / 3 * (T * W) + 7 / 6 * (T * δ) := by ring
  rw [eT] at q5
  have hab : |T - 273.15| ≤ T + 273.15 := (abs_sub _ _).trans (by
    rw [abs_of_pos T0, abs_of_pos (a := (273.15 : ℝ)) (by norm_num)])
  have q6 := Within.sub q5 (kelvins_within (F := F)) (big_range (by
    have : 4 * (1 + 2 ^ 44 * (1 + 2 ^ 11)) + 2 ^ 20 ≤ (2 : ℝ) ^ 126 := by norm_num
    linarith))
  refine Within.mono q6 ?_
  unfold rd
  have t0 := tiny
  have t1 : (1 : ℝ) / 2 ^ 100 ≤ 1 / 2 ^ 50 := by norm_num
  linarith

/-- The documented formula in terms of contrasts. -/
theorem object_eq {v α tar k : ℝ} (a0 : 0 < α) (r0 : 0 < tar) (y0 : 0 < 1 + contrast v α tar)
    (hd : 0 < slopeFactor v α tar k) :
    Datasheet.object v α tar k = (tar * (1 + trueContrast v α tar k)) ^ (1 / 4 : ℝ) - 273.15 := by
  unfold Datasheet.object
  dsimp only
  have e1 : α ^ 3 * v + α ^ 4 * tar = α ^ 4 * (tar * (1 + contrast v α tar)) := by
    unfold contrast; field_simp; ring
  have e2 : (α ^ 4 * (tar * (1 + contrast v α tar))) ^ (1 / 4 : ℝ) = α * firstEstimate v α tar := by
    rw [Real.mul_rpow (by positivity) (by positivity)]
    congr 1
    rw [← Real.rpow_natCast, ← Real.rpow_mul a0.le]; norm_num
  rw [e1, e2]
  have e3 : α * (1 - k * 273.15) + k * (α * firstEstimate v α tar) = α * slopeFactor v α tar k := by
    unfold slopeFactor; ring
  rw [e3]
  congr 2
  unfold trueContrast contrast
  field_simp
  ring

/-- The object temperature, in terms of the specification. -/
theorem object_accurate {v a r k : F} {V α R K ηv ηα ηr δ : ℝ} (hp : AccuratePowers F δ) (hv : Within v V (α * R * ηv))
    (ha : Within a α (α * ηα)) (hr : Within r R (R * ηr)) (hk : Is k K) (h : Spec.Measurable V α R K ηv ηα ηr δ) :
    Within (perPixelTemperature v a r k) (Datasheet.object V α R K) (objectError V α R K ηv ηα ηr δ) := by
  have p0 : 0 < α := lt_of_lt_of_le (by norm_num) h.sensitivity.1
  have R0 : 0 < R := lt_of_lt_of_le (by norm_num) h.radiation.1
  have E0 : 0 < firstEstimate V α R := by
    have := h.firstPositive
    unfold firstEstimate
    positivity
  have D0 : 1 / 2 ≤ slopeFactor V α R K := divisor_range E0 h.slope.1 h.slope.2
  have e := object_eq p0 R0 h.firstPositive (by linarith)
  have ev : α * R * contrast V α R = V := by unfold contrast; field_simp
  have key := object_within hp (near_of_within (by positivity) (by rw [ev]; exact hv))
    (near_of_within p0 (by rw [mul_one]; exact ha)) (near_of_within R0 (by rw [mul_one]; exact hr)) hk h.sensitivity.1
    h.sensitivity.2 h.radiation.1 h.radiation.2 h.contrast h.firstPositive h.errors.1 h.errors.2.1 h.errors.2.2 rfl
    h.firstError rfl h.slope.1 h.slope.2 rfl rfl rfl h.divisorError h.positive rfl h.fourthPowerError
  unfold objectError
  rw [e, sub_add_cancel]
  exact key

end Mlx.Proofs
