import Verif.Proofs.Object
/-
Rounding errors of the sensitivity of a pixel and of the radiation of the surroundings.
-/
set_option linter.unusedSectionVars false
set_option autoImplicit false
namespace Mlx.Proofs
open Mlx Mlx.Spec F32Ops
variable {F : Type} [F32Ops F] [Binary32 F]

/-- The fourth power of an absolute temperature. -/
theorem kelvin_power {x : F} {X e δ P : ℝ} (hp : AccuratePowers F δ) (hx : Within x X e) (hP : X + 273.15 = P)
    (e0 : 0 ≤ e) (e1 : e ≤ 1 / 2) (p0 : 200 ≤ P) (p1 : P ≤ 2 ^ 11) :
    Within (powi (x +. kelvins) 4) (P ^ 4) (5 * P ^ 3 * (e + 3 / 2 * δ * (P + 273.15))) := by
  have d0 := hp.unit
  have d1 := hp.small
  have t0 := tiny_pos
  have t1 := tiny
  have P0 : 0 < P := by linarith
  have m1 := Within.add hx (kelvins_within (F := F)) (by
    rw [hP, abs_of_pos P0]
    refine big_range ?_
    have : (2 : ℝ) ^ 11 + (1 / 2 + 273.15) ≤ 2 ^ 126 := by norm_num
    linarith)
  rw [hP, abs_of_pos P0] at m1
  have Pd : P * (1 / 2 ^ 24) ≤ P * δ := by gcongr
  have Pd1 : P * δ ≤ P * (1 / 2 ^ 16) := by gcongr
  have m2 : Within (x +. kelvins) P (9 / 8 * (e + δ * (P + 273.15))) := by
    refine Within.mono m1 ?_
    unfold rd
    have : (1 : ℝ) / 2 ^ 100 ≤ 1 / 2 ^ 50 := by norm_num
    linarith
  clear m1
  have m3 : Near (x +. kelvins) P 1 (9 / 8 * (e + δ * (P + 273.15)) / P) := by
    refine near_of_within P0 ?_
    rw [mul_one]
    refine Within.mono m2 (le_of_eq ?_)
    field_simp
  have m4 := Near.power (n := 4) hp m3 P0 (Or.inr rfl) (by
      rw [div_le_iff₀ P0]
      linarith) (by
      have : (200 : ℝ) ^ 4 ≤ P ^ 4 := by gcongr
      exact le_trans (by norm_num) this) (by
      have : P ^ 4 ≤ (2 ^ 11) ^ 4 := by gcongr
      exact this.trans (by norm_num))
  have m5 := m4.within (by positivity)
  rw [mul_one] at m5
  refine Within.mono m5 ?_
  have e1 : P ^ 4 * (((4 : ℕ) + 1 / 16) * (9 / 8 * (e + δ * (P + 273.15)) / P) + 17 / 16 * δ) =
      P ^ 3 * (585 / 128 * (e + δ * (P + 273.15)) + 17 / 16 * (P * δ)) := by
    push_cast
    field_simp
    ring
  rw [e1]
  have e2 : 5 * P ^ 3 * (e + 3 / 2 * δ * (P + 273.15)) = P ^ 3 * (5 * (e + 3 / 2 * δ * (P + 273.15))) := by ring
  rw [e2]
  have : 0 ≤ P * δ := mul_nonneg P0.le (by linarith)
  gcongr
  linarith

/-- The radiation of the surroundings. -/
theorem reflected_within {tA tR em : F} {T S eA eR ε δ : ℝ} (hp : AccuratePowers F δ) (hA : Within tA T eA)
    (hR : Within tR S eR) (hem : Is em ε) (eA0 : 0 ≤ eA) (eA1 : eA ≤ 1 / 2) (eR0 : 0 ≤ eR) (eR1 : eR ≤ 1 / 2)
    (p0 : 200 ≤ T + 273.15) (p1 : T + 273.15 ≤ 2 ^ 11) (q0 : 200 ≤ S + 273.15) (q1 : S + 273.15 ≤ 2 ^ 11)
    (ε0 : 1 / 2 ^ 20 ≤ |ε|) (ε1 : |ε| ≤ 2 ^ 20) :
    Within (tAr tA tR em) (Datasheet.reflected T S ε)
      (powerError δ (S + 273.15) eR + (powerError δ (S + 273.15) eR + powerError δ (T + 273.15) eA) / |ε|) := by
  have hPA := kelvin_power hp hA rfl eA0 eA1 p0 p1
  have hPR := kelvin_power hp hR rfl eR0 eR1 q0 q1
  have one : Is (lit 1 : F) 1 := is_lit (by norm_num) (by simpa using value_int (m := 1) (by norm_num))
  have d0 := hp.unit
  have d1 := hp.small
  have t0 := tiny_pos
  have t1 := tiny
  unfold tAr Datasheet.reflected powerError
  dsimp only
  generalize T + 273.15 = P at *
  generalize S + 273.15 = Q at *
  have P0 : 0 < P := by linarith
  have Q0 : 0 < Q := by linarith
  have dn : 0 ≤ δ := by linarith
  -- the errors of the powers
  have a1 : 5 * P ^ 3 * (eA + 3 / 2 * δ * (P + 273.15)) + 4 * (δ * P ^ 4) ≤
      6 * P ^ 3 * (eA + 2 * δ * (P + 273.15)) := by
    have : 0 ≤ P ^ 3 * eA := by positivity
    have : 0 ≤ P ^ 3 * δ := by positivity
    have : P ^ 3 * (δ * P) = δ * P ^ 4 := by ring
    have : 0 ≤ δ * P ^ 4 := by positivity
    linarith
  have a2 : 5 * Q ^ 3 * (eR + 3 / 2 * δ * (Q + 273.15)) + 4 * (δ * Q ^ 4) ≤
      6 * Q ^ 3 * (eR + 2 * δ * (Q + 273.15)) := by
    have : 0 ≤ Q ^ 3 * eR := by positivity
    have : 0 ≤ Q ^ 3 * δ := by positivity
    have : Q ^ 3 * (δ * Q) = δ * Q ^ 4 := by ring
    have : 0 ≤ δ * Q ^ 4 := by positivity
    linarith
  have b1 : 6 * P ^ 3 * (eA + 2 * δ * (P + 273.15)) ≤ 2 ^ 40 := by
    have : 6 * P ^ 3 * (eA + 2 * δ * (P + 273.15)) ≤ 6 * (2 ^ 11) ^ 3 * (1 / 2 + 2 * (1 / 2 ^ 16) * (2 ^ 11 + 273.15)) := by
      gcongr
    exact this.trans (by norm_num)
  have b2 : 6 * Q ^ 3 * (eR + 2 * δ * (Q + 273.15)) ≤ 2 ^ 40 := by
    have : 6 * Q ^ 3 * (eR + 2 * δ * (Q + 273.15)) ≤ 6 * (2 ^ 11) ^ 3 * (1 / 2 + 2 * (1 / 2 ^ 16) * (2 ^ 11 + 273.15)) := by
      gcongr
    exact this.trans (by norm_num)
  have g1 : 6 / 5 * (5 * P ^ 3 * (eA + 3 / 2 * δ * (P + 273.15))) ≤ 6 * P ^ 3 * (eA + 2 * δ * (P + 273.15)) := by
    have : 0 ≤ P ^ 3 * (δ * (P + 273.15)) := by positivity
    linarith
  have g2 : 6 / 5 * (5 * Q ^ 3 * (eR + 3 / 2 * δ * (Q + 273.15))) ≤ 6 * Q ^ 3 * (eR + 2 * δ * (Q + 273.15)) := by
    have : 0 ≤ Q ^ 3 * (δ * (Q + 273.15)) := by positivity
    linarith
  have c1 : 0 ≤ 5 * P ^ 3 * (eA + 3 / 2 * δ * (P + 273.15)) := by positivity
  have c2 : 0 ≤ 5 * Q ^ 3 * (eR + 3 / 2 * δ * (Q + 273.15)) := by positivity
  generalize 5 * P ^ 3 * (eA + 3 / 2 * δ * (P + 273.15)) = gA at *
  generalize 5 * Q ^ 3 * (eR + 3 / 2 * δ * (Q + 273.15)) = gR at *
  generalize 6 * P ^ 3 * (eA + 2 * δ * (P + 273.15)) = fA at *
  generalize 6 * Q ^ 3 * (eR + 2 * δ * (Q + 273.15)) = fR at *
  have P4 : (200 : ℝ) ^ 4 ≤ P ^ 4 := by gcongr
  have Q4 : (200 : ℝ) ^ 4 ≤ Q ^ 4 := by gcongr
  have P4' : P ^ 4 ≤ (2 ^ 11) ^ 4 := by gcongr
  have Q4' : Q ^ 4 ≤ (2 ^ 11) ^ 4 := by gcongr
  clear hA hR p0 p1 q0 q1 eA0 eA1 eR0 eR1
  generalize P ^ 4 = P at *
  generalize Q ^ 4 = Q at *
  clear P0 Q0
  have P0 : 0 < P := lt_of_lt_of_le (by norm_num) P4
  have Q0 : 0 < Q := lt_of_lt_of_le (by norm_num) Q4
  have dP : P * (1 / 2 ^ 24) ≤ δ * P := by rw [mul_comm δ]; gcongr
  have dQ : Q * (1 / 2 ^ 24) ≤ δ * Q := by rw [mul_comm δ]; gcongr
  have dP0 : 0 ≤ δ * P := by positivity
  have dQ0 : 0 ≤ δ * Q := by positivity
  have i0 : 0 < |ε| := lt_of_lt_of_le (by norm_num) ε0
  have fA0 : 0 ≤ fA := by linarith
  have fR0 : 0 ≤ fR := by linarith
  split
  · rename_i h
    have h1 : ε = 1 := (Binary32.feq_exact _ _ _ _ hem one).1 h
    subst h1
    rw [abs_one, div_one, div_one]
    refine Within.eq (Within.mono hPA ?_) (by ring)
    linarith
  · have y100 : (1 : ℝ) / 2 ^ 100 ≤ 1 / 2 ^ 60 := by norm_num
    have n1 : (200 : ℝ) ^ 4 = 1600000000 := by norm_num
    have hab : |Q - P| ≤ Q + P := (abs_sub _ _).trans (by rw [abs_of_pos P0, abs_of_pos Q0])
    have s1 := Within.sub hPR hPA (big_range (by
      have : (2 : ℝ) * (2 ^ 11) ^ 4 + 2 * 2 ^ 40 ≤ 2 ^ 126 := by norm_num
      linarith))
    have s1' := Within.mono s1 (f := gR + gA + 17 / 16 * (δ * P + δ * Q) + 1 / 2 ^ 24 * (fA + fR)) (by
      unfold rd
      linarith)
    clear s1
    have i1 : |ε|⁻¹ ≤ 2 ^ 20 := by
      rw [inv_le_comm₀ i0 (by positivity)]
      simpa using ε0
    have i2 : 1 / 2 ^ 20 ≤ |ε|⁻¹ := by
      rw [one_div]
      exact inv_anti₀ i0 ε1
    have i3 : 0 < |ε|⁻¹ := by positivity
    have hdiv : ∀ x : ℝ, x / |ε| = x * |ε|⁻¹ := fun x => div_eq_mul_inv _ _
    have habε : |(Q - P) / ε| ≤ Q * |ε|⁻¹ + P * |ε|⁻¹ := by
      rw [abs_div, hdiv, ← add_mul]
      gcongr
    generalize hj : |ε|⁻¹ = j at *
    have Pj : P * j ≤ (2 ^ 11) ^ 4 * 2 ^ 20 := by gcongr
    have Qj : Q * j ≤ (2 ^ 11) ^ 4 * 2 ^ 20 := by gcongr
    have Pj1 : (200 : ℝ) ^ 4 * (1 / 2 ^ 20) ≤ P * j := by gcongr
    have Qj1 : (200 : ℝ) ^ 4 * (1 / 2 ^ 20) ≤ Q * j := by gcongr
    have dPj : P * j * (1 / 2 ^ 24) ≤ δ * P * j := by
      rw [mul_right_comm]; gcongr
    have dQj : Q * j * (1 / 2 ^ 24) ≤ δ * Q * j := by
      rw [mul_right_comm]; gcongr
    have dPj0 : 0 ≤ δ * P * j := by positivity
    have dQj0 : 0 ≤ δ * Q * j := by positivity
    have gAj : 0 ≤ gA * j := by positivity
    have gRj : 0 ≤ gR * j := by positivity
    have fAj0 : 0 ≤ fA * j := by positivity
    have fRj0 : 0 ≤ fR * j := by positivity
    have fAj : fA * j ≤ 2 ^ 40 * 2 ^ 20 := by gcongr
    have fRj : fR * j ≤ 2 ^ 40 * 2 ^ 20 := by gcongr
    have a1j : gA * j + 4 * (δ * P * j) ≤ fA * j := by
      have : (gA + 4 * (δ * P)) * j ≤ fA * j := by gcongr
      linarith
    have a2j : gR * j + 4 * (δ * Q * j) ≤ fR * j := by
      have : (gR + 4 * (δ * Q)) * j ≤ fR * j := by gcongr
      linarith
    have g1j : 6 / 5 * (gA * j) ≤ fA * j := by
      have : 6 / 5 * gA * j ≤ fA * j := by gcongr
      linarith
    have g2j : 6 / 5 * (gR * j) ≤ fR * j := by
      have : 6 / 5 * gR * j ≤ fR * j := by gcongr
      linarith
    have ej : (gR + gA + 17 / 16 * (δ * P + δ * Q) + 1 / 2 ^ 24 * (fA + fR)) / |ε| =
        gR * j + gA * j + 17 / 16 * (δ * P * j + δ * Q * j) + 1 / 2 ^ 24 * (fA * j + fR * j) := by
      rw [hdiv]; ring
    have ε00 : ε ≠ 0 := abs_pos.1 i0
    have s2 := Within.div s1' hem ε00 (big_range (by
      rw [ej]
      have : (2 : ℝ) * ((2 ^ 11) ^ 4 * 2 ^ 20) + 4 * (2 ^ 40 * 2 ^ 20) ≤ 2 ^ 126 := by norm_num
      linarith))
    rw [ej] at s2
    have s2' := Within.mono s2
      (f := gR * j + gA * j + 35 / 16 * (δ * P * j + δ * Q * j) + 4 / 2 ^ 24 * (fA * j + fR * j)) (by
      unfold rd
      linarith)
    clear s2
    have hab3 : |Q - (Q - P) / ε| ≤ Q + (Q * j + P * j) := (abs_sub _ _).trans (by rw [abs_of_pos Q0]; gcongr)
    have s3 := Within.sub hPR s2' (big_range (by
      have : (2 : ℝ) * ((2 ^ 11) ^ 4) + 4 * ((2 ^ 11) ^ 4 * 2 ^ 20) + 4 * (2 ^ 40 * 2 ^ 20) + 2 ^ 40 ≤ 2 ^ 126 := by norm_num
      linarith))
    refine Within.mono s3 ?_
    rw [hdiv]
    unfold rd
    linarith

/-- The sensitivity without its dependence on the ambient temperature. -/
theorem difference_within {al ac : F} {tg : Option F} {A C : ℝ} {G : Option ℝ} (ha : Within al A (|A| / 2 ^ 22)) (hc : Is ac C)
    (hg : Option.Rel Is tg G) (A1 : |A| ≤ 2 ^ 20) (C1 : |G.getD 0 * C| ≤ 2 ^ 20) (hl : 1 / 2 ^ 60 ≤ |A| + |G.getD 0 * C|) :
    ∃ d : F, (∀ x, compensatedAlpha (tg.map fun g => ac *. g) x al = d *. x) ∧
      Within d (A - G.getD 0 * C) (3 / 4 * ((|A| + |G.getD 0 * C|) / 2 ^ 21)) := by
  have t0 := tiny_pos
  have t1 := tiny
  have t2 : (1 : ℝ) / 2 ^ 100 ≤ 1 / 2 ^ 30 * (1 / 2 ^ 60) := by norm_num
  have a0 : 0 ≤ |A| := abs_nonneg _
  cases hg with
  | none =>
    simp only [Option.map_none, Option.getD_none, zero_mul, sub_zero, abs_zero, add_zero] at *
    exact ⟨al, fun _ => rfl, Within.mono ha (by linarith)⟩
  | some h =>
    rename_i g g'
    simp only [Option.map_some, Option.getD_some] at *
    have c0 : 0 ≤ |g' * C| := abs_nonneg _
    have e : |C * g'| = |g' * C| := by rw [mul_comm]
    have m1 := Within.mul (Is.within hc) (Is.within h) le_rfl (big_range (by
      rw [mul_zero, mul_zero, mul_zero, add_zero, add_zero, add_zero, e]
      have : (2 : ℝ) ^ 20 ≤ 2 ^ 126 := by norm_num
      linarith))
    rw [mul_zero, mul_zero, mul_zero, add_zero, add_zero, add_zero, e, mul_comm C, zero_add] at m1
    have hs : |A - g' * C| ≤ |A| + |g' * C| := abs_sub _ _
    have m2 := Within.sub ha m1 (big_range (by
      unfold rd
      have : (2 : ℝ) * 2 ^ 20 + 2 * 2 ^ 20 ≤ 2 ^ 126 := by norm_num
      linarith))
    refine ⟨_, fun _ => rfl, Within.mono m2 ?_⟩
    unfold rd
    linarith

/-- The sensitivity of a pixel. -/
theorem sensitivity_within {al ac ks tA : F} {tg : Option F} {A C K T e α η : ℝ} {G : Option ℝ}
    (ha : Within al A (|A| / 2 ^ 22)) (hc : Is ac C) (hg : Option.Rel Is tg G) (hk : Is ks K) (hT : Within tA T e)
    (A1 : |A| ≤ 2 ^ 20) (C1 : |G.getD 0 * C| ≤ 2 ^ 20) (K1 : |K| ≤ 1) (T1 : |T - 25| ≤ 1025) (e0 : 0 ≤ e) (e1 : e ≤ 1 / 4)
    (hα : (A - G.getD 0 * C) * (1 + K * (T - 25)) = α) (α0 : 1 / 2 ^ 30 ≤ α) (α1 : α ≤ 2 ^ 16)
    (hη : 2 * ((|A| + |G.getD 0 * C|) / 2 ^ 21 / |A - G.getD 0 * C| +
      (|K| * e + (1 + |K| * (|T - 25| + 1)) / 2 ^ 22) / |1 + K * (T - 25)|) = η) (η1 : η ≤ 1 / 2 ^ 10) :
    Within (compensatedAlpha (tg.map fun g => ac *. g) (lit 1 +. ks *. (tA -. lit 25)) al) α (α * η) := by
  have t0 := tiny_pos
  have t1 := tiny
  have t2 : (1 : ℝ) / 2 ^ 100 ≤ 1 / 2 ^ 70 * (1 / 2 ^ 30) := by norm_num
  have p0 : 0 < α := lt_of_lt_of_le (by norm_num) α0
  have k0 : 0 ≤ |K| := abs_nonneg _
  have x0 : 0 ≤ |T - 25| := abs_nonneg _
  have t25 : Is (lit 25 : F) 25 := is_lit (by norm_num) (by simpa using value_int (m := 25) (by norm_num))
  have hf := factor_within hk hT (Is.within t25) e0 le_rfl (by linarith) (K1.trans (by norm_num)) (T1.trans (by norm_num))
  rw [add_zero] at hf
  have eF : 4 / 2 ^ 24 * (1 + |K| * (|T - 25| + 1)) = (1 + |K| * (|T - 25| + 1)) / 2 ^ 22 := by ring
  rw [eF] at hf
  have f0 : 0 ≤ |K| * e + (1 + |K| * (|T - 25| + 1)) / 2 ^ 22 := by positivity
  have f1 : |1 + K * (T - 25)| ≤ 1 + 1 * 1025 := by
    refine (abs_add_le _ _).trans ?_
    rw [abs_one, abs_mul]
    gcongr
  generalize |K| * e + (1 + |K| * (|T - 25| + 1)) / 2 ^ 22 = fe at *
  generalize 1 + K * (T - 25) = f at *
  have hs : |A - G.getD 0 * C| ≤ |A| + |G.getD 0 * C| := abs_sub _ _
  have hαab : |A - G.getD 0 * C| * |f| = α := by rw [← abs_mul, hα, abs_of_pos p0]
  have fn : 0 < |f| := by
    rcases (abs_nonneg f).lt_or_eq with h | h
    · exact h
    · rw [← h, mul_zero] at hαab; linarith
  have dn : 0 < |A - G.getD 0 * C| := by
    rcases (abs_nonneg (A - G.getD 0 * C)).lt_or_eq with h | h
    · exact h
    · rw [← h, zero_mul] at hαab; linarith
  have dl : 1 / 2 ^ 60 ≤ |A - G.getD 0 * C| := by
    have : |A - G.getD 0 * C| * |f| ≤ |A - G.getD 0 * C| * (1 + 1 * 1025) := by gcongr
    linarith
  obtain ⟨d, hx, hd⟩ := difference_within ha hc hg A1 C1 (dl.trans hs)
  rw [hx]
  generalize A - G.getD 0 * C = Δ at *
  have M0 : 0 ≤ |A| + |G.getD 0 * C| := by linarith
  generalize |A| + |G.getD 0 * C| = M at *
  have q1 : 8 / 2 ^ 24 ≤ M / 2 ^ 21 / |Δ| := by
    rw [le_div_iff₀ dn]
    linarith
  have q2 : 0 ≤ fe / |f| := by positivity
  have r1 : |Δ| * fe = α * (fe / |f|) := by rw [← hαab]; field_simp
  have r2 : |f| * (3 / 4 * (M / 2 ^ 21)) = 3 / 4 * (α * (M / 2 ^ 21 / |Δ|)) := by rw [← hαab]; field_simp
  have r3 : 3 / 4 * (M / 2 ^ 21) * fe = 3 / 4 * (α * (M / 2 ^ 21 / |Δ| * (fe / |f|))) := by rw [← hαab]; field_simp
  have m1 := Within.mul hd hf (by positivity) (big_range (by
    rw [hα, r1, r2, r3, abs_of_pos p0]
    have z1 : α * (fe / |f|) ≤ 2 ^ 16 * 1 := by gcongr; linarith
    have z2 : α * (M / 2 ^ 21 / |Δ|) ≤ 2 ^ 16 * 1 := by gcongr; linarith
    have z3 : α * (M / 2 ^ 21 / |Δ| * (fe / |f|)) ≤ 2 ^ 16 * (1 * 1) := by gcongr <;> linarith
    have : (2 : ℝ) ^ 20 ≤ 2 ^ 126 := by norm_num
    linarith))
  rw [hα, r1, r2, r3, abs_of_pos p0] at m1
  refine Within.mono m1 ?_
  rw [← hη]
  generalize fe / |f| = b at *
  generalize M / 2 ^ 21 / |Δ| = a at *
  unfold rd
  have z0 : 0 ≤ α * b := by positivity
  have a0 : 0 ≤ a := le_trans (by norm_num) q1
  have z1 : 0 ≤ α * a := by positivity
  have z3 : α * (a * b) ≤ α * (a * (1 / 2 ^ 10)) := by gcongr; linarith
  have z30 : 0 ≤ α * (a * b) := by positivity
  have z4 : α * (8 / 2 ^ 24) ≤ α * a := by gcongr
  linarith

end Mlx.Proofs
