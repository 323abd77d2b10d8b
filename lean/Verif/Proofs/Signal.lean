import Verif.Proofs.Rounding
import Mathlib.Tactic.Linarith
/-
Rounding errors of the per-pixel signal, for given errors of the ambient temperature and the supply voltage.
-/
set_option linter.unusedSectionVars false
set_option autoImplicit false
namespace Mlx.Proofs
open Mlx Mlx.Spec F32Ops
variable {F : Type} [F32Ops F] [Binary32 F]

theorem big_range {x : ℝ} (h : x ≤ 2 ^ 126) : x ≤ (2 : ℝ) ^ (127 : ℤ) := by
  have e : (2 : ℝ) ^ (127 : ℤ) = 2 * 2 ^ 126 := by norm_num
  have : (0 : ℝ) < 2 ^ 126 := by positivity
  rw [e]; linarith

theorem tiny : (2 : ℝ) ^ (-150 : ℤ) ≤ 1 / 2 ^ 100 := by
  have e : (1 : ℝ) / 2 ^ 100 = 2 ^ (-100 : ℤ) := by norm_num
  rw [e]
  exact zpow_le_zpow_right₀ (by norm_num) (by norm_num)

theorem tiny_pos : (0 : ℝ) < 2 ^ (-150 : ℤ) := by positivity

/-- `1 + γ (x - b)`: the error of `x` and `b` is multiplied by `γ`, plus four roundings. -/
theorem factor_within {c x b : F} {γ X β e f : ℝ} (hc : Is c γ) (hx : Within x X e) (hb : Within b β f) (he : 0 ≤ e)
    (hf : 0 ≤ f) (h4 : e + f ≤ 1 / 4) (hγ : |γ| ≤ 2 ^ 40) (hX : |X - β| ≤ 2 ^ 20) :
    Within (lit 1 +. c *. (x -. b)) (1 + γ * (X - β)) (|γ| * (e + f) + 4 / 2 ^ 24 * (1 + |γ| * (|X - β| + 1))) := by
  have one : Is (lit 1 : F) 1 := is_lit (by norm_num) (by simpa using value_int (m := 1) (by norm_num))
  have t0 := tiny_pos
  have t1 := tiny
  have g0 : 0 ≤ |γ| := abs_nonneg _
  have d0 : 0 ≤ |X - β| := abs_nonneg _
  have m1 := Within.sub hx hb (big_range (by
    have : (2 : ℝ) ^ 20 + 1 / 4 ≤ 2 ^ 126 := by norm_num
    linarith))
  have m1' : Within (x -. b) (X - β) (e + f + 9 / 8 / 2 ^ 24 * (|X - β| + 1)) := by
    refine Within.mono m1 ?_
    unfold rd
    linarith
  clear m1 hx hb
  generalize hD : |X - β| = D at *
  have q0 : 0 ≤ e + f + 9 / 8 / 2 ^ 24 * (D + 1) := by positivity
  have q1 : e + f + 9 / 8 / 2 ^ 24 * (D + 1) ≤ 1 := by linarith
  have m2 := Within.mul (Is.within hc) m1' le_rfl (big_range (by
    rw [abs_mul, hD]
    have h1 : |γ| * D ≤ 2 ^ 40 * 2 ^ 20 := by gcongr
    have h2 : |γ| * (e + f + 9 / 8 / 2 ^ 24 * (D + 1)) ≤ 2 ^ 40 * 1 := by gcongr
    have : (2 : ℝ) ^ 40 * 2 ^ 20 + 2 ^ 40 * 1 ≤ 2 ^ 126 := by norm_num
    linarith))
  have e1 : |γ| * (e + f + 9 / 8 / 2 ^ 24 * (D + 1)) + |X - β| * 0 + 0 * (e + f + 9 / 8 / 2 ^ 24 * (D + 1)) =
      |γ| * (e + f) + 9 / 8 / 2 ^ 24 * (|γ| * (D + 1)) := by ring
  rw [e1, abs_mul, hD] at m2
  have h5 : |γ| * (e + f) ≤ 1 / 4 * |γ| := by nlinarith
  have e2 : |γ| * (D + 1) = |γ| * D + |γ| := by ring
  have gd : 0 ≤ |γ| * D := by positivity
  have m2' : Within (c *. (x -. b)) (γ * (X - β)) (|γ| * (e + f) + 19 / 8 / 2 ^ 24 * (1 + |γ| * (D + 1))) := by
    refine Within.mono m2 ?_
    unfold rd
    rw [e2] at *
    linarith
  clear m2
  have gD : |γ| * (D + 1) ≤ 2 ^ 40 * (2 ^ 20 + 1) := by gcongr
  have hm : |1 + γ * (X - β)| ≤ 1 + |γ| * D := by
    refine (abs_add_le _ _).trans ?_
    rw [abs_one, abs_mul, hD]
  have m3 := Within.add (Is.within one) m2' (big_range (by
    have : (2 : ℝ) ^ 40 * (2 ^ 20 + 1) * 4 ≤ 2 ^ 126 := by norm_num
    linarith))
  refine Within.mono m3 ?_
  unfold rd
  rw [e2] at *
  linarith

/-- The compensated offset `o φ ψ`. -/
theorem product_within {p q : F} {o : Int} {φ ψ N A B E G : ℝ} (hp : Within p φ E) (hq : Within q ψ G) (hE : 0 ≤ E)
    (hG : 0 ≤ G) (hN : |(o : ℝ)| + 1 = N) (hN' : N ≤ 2 ^ 20) (hA : |φ| ≤ A) (hA1 : 1 ≤ A) (hA' : A ≤ 2 ^ 40) (hB : |ψ| ≤ B)
    (hB1 : 1 ≤ B) (hB' : B ≤ 2 ^ 40) (hEA : E ≤ A / 2) (hGB : G ≤ B / 2) :
    Within (ofInt o *. p *. q) (o * φ * ψ) (N * A * G + 3 / 2 * (N * B * E) + 6 / 2 ^ 24 * (N * A * B)) := by
  have t0 := tiny_pos
  have t1 := tiny
  have o0 : 0 ≤ |(o : ℝ)| := abs_nonneg _
  have n1 : 1 ≤ N := by linarith
  have hoz : |o| < 2 ^ 24 := by
    have : |(o : ℝ)| < ((2 ^ 24 : ℤ) : ℝ) := by push_cast; linarith
    exact_mod_cast this
  have io : Is (ofInt o : F) (o : ℝ) := is_ofInt hoz
  have NA1 : 1 ≤ N * A := by nlinarith
  have NAu : N * A ≤ 2 ^ 20 * 2 ^ 40 := by gcongr
  have h1 : |(o : ℝ)| * E ≤ N * E := by gcongr; linarith
  have h2 : |(o : ℝ)| * |φ| ≤ N * A := by gcongr; linarith
  have h3 : N * E ≤ N * A / 2 := by
    have : N * E ≤ N * (A / 2) := by gcongr
    linarith
  have m1 := Within.mul (Is.within io) hp le_rfl (big_range (by
    rw [abs_mul]
    have : (2 : ℝ) ^ 20 * 2 ^ 40 * 2 ≤ 2 ^ 126 := by norm_num
    linarith))
  have NE0 : 0 ≤ N * E := by positivity
  have m1' : Within (ofInt o *. p) (o * φ) (N * E + 7 / 4 / 2 ^ 24 * (N * A)) := by
    refine Within.mono m1 ?_
    unfold rd
    rw [abs_mul]
    linarith
  clear m1
  have r0 : 0 ≤ N * E + 7 / 4 / 2 ^ 24 * (N * A) := by positivity
  have r1 : N * E + 7 / 4 / 2 ^ 24 * (N * A) ≤ N * A * (5 / 8) := by linarith
  generalize hR : N * E + 7 / 4 / 2 ^ 24 * (N * A) = R at *
  have P : |(o : ℝ) * φ| ≤ N * A := by rw [abs_mul]; exact h2
  have k1 : |(o : ℝ) * φ| * G ≤ N * A * G := by gcongr
  have k2 : |ψ| * R ≤ B * R := by gcongr
  have k3 : R * G ≤ B * R / 2 := by
    have : R * G ≤ R * (B / 2) := by gcongr
    linarith
  have k4 : |(o : ℝ) * φ * ψ| ≤ N * A * B := by rw [abs_mul]; gcongr
  have k5 : N * A * G ≤ N * A * B / 2 := by
    have : N * A * G ≤ N * A * (B / 2) := by gcongr
    linarith
  have k6 : B * R ≤ 5 / 8 * (N * A * B) := by
    have : B * R ≤ B * (N * A * (5 / 8)) := by gcongr
    linarith
  have k7 : B * R = N * B * E + 7 / 4 / 2 ^ 24 * (N * A * B) := by rw [← hR]; ring
  have NAB1 : 1 ≤ N * A * B := by nlinarith
  have NABu : N * A * B ≤ 2 ^ 20 * 2 ^ 40 * 2 ^ 40 := by gcongr
  have m2 := Within.mul m1' hq r0 (big_range (by
    have : (2 : ℝ) ^ 20 * 2 ^ 40 * 2 ^ 40 * 4 ≤ 2 ^ 126 := by norm_num
    linarith))
  refine Within.mono m2 ?_
  unfold rd
  linarith

/-- A pixel reading with the gain correction, plus the compensation of the access pattern. -/
theorem gained_within {g c : F} {w : Int} {γ χ : ℝ} (hg : Rel g γ (1 / 2 ^ 24)) (hc : Is c χ) (hw : |w| ≤ 2 ^ 15)
    (hγ : |γ| ≤ 2 ^ 20) (hχ : |χ| ≤ 2 ^ 20) :
    Within (ofInt w *. g +. c) (w * γ + χ) (4 / 2 ^ 24 * (|w * γ| + |χ|) + 1 / 2 ^ 90) := by
  have t0 := tiny_pos
  have t1 := tiny
  have iw : Is (ofInt w : F) (w : ℝ) := is_ofInt (by omega)
  have hw' : |(w : ℝ)| ≤ 2 ^ 15 := by exact_mod_cast hw
  have w0 : 0 ≤ |(w : ℝ)| := abs_nonneg _
  have g0 : 0 ≤ |γ| := abs_nonneg _
  have c0 : 0 ≤ |χ| := abs_nonneg _
  have u1 : |(w : ℝ)| * |γ| ≤ 2 ^ 15 * 2 ^ 20 := by gcongr
  have e1 : |(w : ℝ)| * (1 / 2 ^ 24 * |γ|) + |γ| * 0 + 0 * (1 / 2 ^ 24 * |γ|) = 1 / 2 ^ 24 * |(w : ℝ) * γ| := by
    rw [abs_mul]; ring
  have p0 : 0 ≤ |(w : ℝ) * γ| := abs_nonneg _
  rw [← abs_mul] at u1
  have m1 := Within.mul (Is.within iw) (Rel.within hg) le_rfl (big_range (by
    rw [e1]
    have : (2 : ℝ) ^ 15 * 2 ^ 20 * 2 ≤ 2 ^ 126 := by norm_num
    linarith))
  rw [e1] at m1
  have m1' : Within (ofInt w *. g) (w * γ) (9 / 4 / 2 ^ 24 * |(w : ℝ) * γ| + 1 / 2 ^ 100) := by
    refine Within.mono m1 ?_
    unfold rd
    linarith
  clear m1
  have hs : |(w : ℝ) * γ + χ| ≤ |(w : ℝ) * γ| + |χ| := abs_add_le _ _
  have m2 := Within.add m1' (Is.within hc) (big_range (by
    have : (2 : ℝ) ^ 15 * 2 ^ 20 * 4 + 2 ^ 20 ≤ 2 ^ 126 := by norm_num
    have : (1 : ℝ) / 2 ^ 100 ≤ 1 := by norm_num
    linarith))
  refine Within.mono m2 ?_
  unfold rd
  have : (1 : ℝ) / 2 ^ 100 * 4 ≤ 1 / 2 ^ 90 := by norm_num
  linarith

/-- The error of a literal. -/
theorem lit_33 : Within (lit (33 / 10) : F) 3.3 (3.3 / 2 ^ 24) := by
  obtain ⟨w, h1, h2⟩ := rounds_rel (Binary32.lit_rounds (F := F) (33 / 10)) (Or.inr (by
      have : (2 : ℝ) ^ (-126 : ℤ) ≤ 1 := zpow_le_one_of_nonpos₀ (by norm_num) (by norm_num)
      refine this.trans ?_
      push_cast
      rw [abs_of_pos (by norm_num)]; norm_num)) (by
      refine le_trans ?_ max_ge
      have : (1 : ℝ) * 2 ^ 2 ≤ 2 ^ (127 : ℤ) := by norm_num
      refine le_trans ?_ this
      push_cast
      rw [abs_of_pos (by norm_num)]; norm_num)
  refine ⟨w, h1, ?_⟩
  have e : (((33 / 10 : Rat)) : ℝ) = 3.3 := by norm_num
  rw [e, abs_of_pos (a := (3.3 : ℝ)) (by norm_num)] at h2
  exact h2

/-- Division by the emissivity. -/
theorem divided_within {v em : F} {S Q X1 X2 M ε : ℝ}
    (m3' : Within v S (6 / 2 ^ 24 * Q + 7 / 4 * (X1 + X2) + 24 / 2 ^ 24 * M)) (hem : Is em ε) (Q0 : 0 ≤ Q) (Q1 : Q ≤ 2 ^ 40)
    (M1 : 1 ≤ M) (M2 : M ≤ 2 ^ 20 * 2 ^ 40 * 2 ^ 40) (x10 : 0 ≤ X1) (x20 : 0 ≤ X2) (x1 : X1 ≤ M / 4) (x2 : X2 ≤ M / 8)
    (hS : |S| ≤ Q + M) (ε0 : 1 / 2 ^ 20 ≤ |ε|) (ε1 : |ε| ≤ 2 ^ 20) :
    Within (v /. em) (S / ε) ((8 / 2 ^ 24 * Q + 2 * (X1 + X2) + 32 / 2 ^ 24 * M) / |ε|) := by
  have t0 := tiny_pos
  have t1 := tiny
  have y100 : (1 : ℝ) / 2 ^ 100 ≤ 1 / 2 ^ 60 := by norm_num
  have i0 : 0 < |ε| := lt_of_lt_of_le (by norm_num) ε0
  have ε00 : ε ≠ 0 := abs_pos.1 i0
  have hSε : |S / ε| ≤ (Q + M) / |ε| := by rw [abs_div]; gcongr
  have i1 : |ε|⁻¹ ≤ 2 ^ 20 := by
    rw [inv_le_comm₀ i0 (by positivity)]
    simpa using ε0
  have i2 : 1 / 2 ^ 20 ≤ |ε|⁻¹ := by
    rw [one_div]
    exact inv_anti₀ i0 ε1
  have i3 : 0 < |ε|⁻¹ := by positivity
  rw [div_eq_mul_inv _ |ε|] at hSε ⊢
  generalize hj : |ε|⁻¹ = j at *
  have ej : (6 / 2 ^ 24 * Q + 7 / 4 * (X1 + X2) + 24 / 2 ^ 24 * M) / |ε| =
      6 / 2 ^ 24 * (Q * j) + 7 / 4 * (X1 * j + X2 * j) + 24 / 2 ^ 24 * (M * j) := by
    rw [div_eq_mul_inv, hj]; ring
  have q0 : 0 ≤ Q * j := by positivity
  have q1 : Q * j ≤ 2 ^ 40 * 2 ^ 20 := by gcongr
  have mj0 : 1 / 2 ^ 20 ≤ M * j := by nlinarith
  have mj1 : M * j ≤ 2 ^ 20 * 2 ^ 40 * 2 ^ 40 * 2 ^ 20 := by gcongr
  have xj10 : 0 ≤ X1 * j := by positivity
  have xj20 : 0 ≤ X2 * j := by positivity
  have xj1 : X1 * j ≤ M * j / 4 := by
    have : X1 * j ≤ M / 4 * j := by gcongr
    linarith
  have xj2 : X2 * j ≤ M * j / 8 := by
    have : X2 * j ≤ M / 8 * j := by gcongr
    linarith
  have y' : (2 : ℝ) ^ 20 * 2 ^ 40 * 2 ^ 40 * 2 ^ 20 * 4 ≤ 2 ^ 126 := by norm_num
  have eS : (Q + M) * j = Q * j + M * j := by ring
  rw [eS] at hSε
  have m4 := Within.div m3' hem ε00 (big_range (by rw [ej]; linarith))
  rw [ej] at m4
  refine Within.mono m4 ?_
  unfold rd
  have eF : (8 / 2 ^ 24 * Q + 2 * (X1 + X2) + 32 / 2 ^ 24 * M) * j =
      8 / 2 ^ 24 * (Q * j) + 2 * (X1 * j + X2 * j) + 32 / 2 ^ 24 * (M * j) := by ring
  rw [eF]
  linarith

set_option maxHeartbeats 1000000 in
/-- The signal of a pixel. -/
theorem signal_within {common : CommonIrData F} {kv kt : F} {comp : Option F} {comp' : Option ℝ} {w o : Int}
    {γ T V eT eV ε κ ν : ℝ} (hg : Rel common.gain γ (1 / 2 ^ 24)) (hT : Within common.tA T eT)
    (hV : Within common.vDd V eV) (hem : Is common.emissivity ε) (hkt : Is kt κ) (hkv : Is kv ν)
    (hcomp : Option.Rel Is comp comp') (hw : |w| ≤ 2 ^ 15) (ho : |o| ≤ 2 ^ 19) (hγ : |γ| ≤ 2 ^ 20)
    (hχ : ∀ x ∈ comp', |x| ≤ 2 ^ 20) (hκ : |κ| ≤ 2 ^ 25) (hν : |ν| ≤ 2 ^ 25) (hT' : |T| ≤ 1000) (hV' : |V| ≤ 1000)
    (e0 : 0 ≤ eT) (e1 : eT ≤ 1 / 4) (f0 : 0 ≤ eV) (f1 : eV ≤ 1 / 8) (ε0 : 1 / 2 ^ 20 ≤ |ε|) (ε1 : |ε| ≤ 2 ^ 20) :
    let A := 1 + |κ| * (|T - 25| + 1)
    let B := 1 + |ν| * (|V - 3.3| + 1)
    let N := |(o : ℝ)| + 1
    let Q := |w * γ| + |comp'.getD 0|
    Within (perPixelVIr w common o kv kt comp) ((w * γ + comp'.getD 0 - o * (1 + κ * (T - 25)) * (1 + ν * (V - 3.3))) / ε)
      ((8 / 2 ^ 24 * Q + 2 * N * (B * |κ| * eT + A * |ν| * eV) + 32 / 2 ^ 24 * (N * A * B)) / |ε|) ∧
    |(w * γ + comp'.getD 0 - o * (1 + κ * (T - 25)) * (1 + ν * (V - 3.3))) / ε| ≤ (Q + N * A * B) / |ε| ∧
    1 ≤ N * A * B ∧ N * A * B ≤ 2 ^ 100 ∧ 0 ≤ Q ∧ Q ≤ 2 ^ 40 ∧ 0 ≤ N * (B * |κ| * eT + A * |ν| * eV) ∧
    N * (B * |κ| * eT + A * |ν| * eV) ≤ N * A * B / 2 := by
  intro A B N Q
  have t0 := tiny_pos
  have t1 := tiny
  have k0 : 0 ≤ |κ| := abs_nonneg _
  have n0 : 0 ≤ |ν| := abs_nonneg _
  have dT0 : 0 ≤ |T - 25| := abs_nonneg _
  have dV0 : 0 ≤ |V - 3.3| := abs_nonneg _
  have dT1 : |T - 25| ≤ 1025 := by
    refine (abs_sub _ _).trans ?_
    rw [abs_of_pos (a := (25 : ℝ)) (by norm_num)]; linarith
  have dV1 : |V - 3.3| ≤ 1004 := by
    refine (abs_sub _ _).trans ?_
    rw [abs_of_pos (a := (3.3 : ℝ)) (by norm_num)]; linarith
  have A1 : 1 + |κ| ≤ A := by
    have : |κ| * 1 ≤ |κ| * (|T - 25| + 1) := by gcongr; linarith
    simp only [A]; linarith
  have B1 : 1 + |ν| ≤ B := by
    have : |ν| * 1 ≤ |ν| * (|V - 3.3| + 1) := by gcongr; linarith
    simp only [B]; linarith
  have A2 : A ≤ 2 ^ 40 := by
    have : |κ| * (|T - 25| + 1) ≤ 2 ^ 25 * (1025 + 1) := by gcongr
    simp only [A]; linarith
  have B2 : B ≤ 2 ^ 40 := by
    have : |ν| * (|V - 3.3| + 1) ≤ 2 ^ 25 * (1004 + 1) := by gcongr
    simp only [B]; linarith
  have o' : |(o : ℝ)| ≤ 2 ^ 19 := by exact_mod_cast ho
  have o0 : 0 ≤ |(o : ℝ)| := abs_nonneg _
  have N1 : 1 ≤ N := by simp only [N]; linarith
  have N2 : N ≤ 2 ^ 20 := by simp only [N]; linarith
  have t25 : Is (lit 25 : F) 25 := is_lit (by norm_num) (by simpa using value_int (m := 25) (by norm_num))
  have p1 := factor_within hkt hT (Is.within t25) e0 le_rfl (by linarith) (by linarith) (by linarith)
  have p2 := factor_within hkv hV lit_33 f0 (by norm_num) (by linarith) (by linarith) (by linarith)
  have a1 : |1 + κ * (T - 25)| ≤ A := by
    refine (abs_add_le _ _).trans ?_
    rw [abs_one, abs_mul]
    have : |κ| * |T - 25| ≤ |κ| * (|T - 25| + 1) := by gcongr; linarith
    simp only [A]; linarith
  have b1 : |1 + ν * (V - 3.3)| ≤ B := by
    refine (abs_add_le _ _).trans ?_
    rw [abs_one, abs_mul]
    have : |ν| * |V - 3.3| ≤ |ν| * (|V - 3.3| + 1) := by gcongr; linarith
    simp only [B]; linarith
  rw [add_zero] at p1
  have kA : |κ| * eT ≤ A / 4 := by
    have : |κ| * eT ≤ |κ| * (1 / 4) := by gcongr
    linarith
  have nB : |ν| * eV ≤ B / 8 := by
    have : |ν| * eV ≤ |ν| * (1 / 8) := by gcongr
    linarith
  have E0 : 0 ≤ |κ| * eT + 4 / 2 ^ 24 * A := by
    have : 0 ≤ |κ| * eT := by positivity
    linarith
  have G0 : 0 ≤ |ν| * (eV + 3.3 / 2 ^ 24) + 4 / 2 ^ 24 * B := by
    have : 0 ≤ |ν| * (eV + 3.3 / 2 ^ 24) := by positivity
    linarith
  have eG : |ν| * (eV + 3.3 / 2 ^ 24) = |ν| * eV + 3.3 / 2 ^ 24 * |ν| := by ring
  have EA : |κ| * eT + 4 / 2 ^ 24 * A ≤ A / 2 := by linarith
  have GB : |ν| * (eV + 3.3 / 2 ^ 24) + 4 / 2 ^ 24 * B ≤ B / 2 := by rw [eG]; linarith
  have m1 := product_within (o := o) p1 p2 E0 G0 rfl N2 a1 (by linarith) A2 b1 (by linarith) B2 EA GB
  have A0 : 0 ≤ A := by linarith
  have B0 : 0 ≤ B := by linarith
  have N0 : 0 ≤ N := by linarith
  have M1 : 1 ≤ N * A * B := by
    have : 1 ≤ N * A := by nlinarith
    nlinarith
  have M2 : N * A * B ≤ 2 ^ 20 * 2 ^ 40 * 2 ^ 40 := by gcongr
  have x1 : N * B * (|κ| * eT) ≤ N * A * B / 4 := by
    have : N * B * (|κ| * eT) ≤ N * B * (A / 4) := by gcongr
    linarith
  have x2 : N * A * (|ν| * eV) ≤ N * A * B / 8 := by
    have : N * A * (|ν| * eV) ≤ N * A * (B / 8) := by gcongr
    linarith
  have x3 : N * A * |ν| ≤ N * A * B := by gcongr; linarith
  have x10 : 0 ≤ N * B * (|κ| * eT) := mul_nonneg (mul_nonneg (by linarith) (by linarith)) (by positivity)
  have x20 : 0 ≤ N * A * (|ν| * eV) := mul_nonneg (mul_nonneg (by linarith) (by linarith)) (by positivity)
  have eP : N * A * (|ν| * (eV + 3.3 / 2 ^ 24) + 4 / 2 ^ 24 * B) + 3 / 2 * (N * B * (|κ| * eT + 4 / 2 ^ 24 * A)) +
      6 / 2 ^ 24 * (N * A * B) = N * A * (|ν| * eV) + 3 / 2 * (N * B * (|κ| * eT)) + 3.3 / 2 ^ 24 * (N * A * |ν|) +
      16 / 2 ^ 24 * (N * A * B) := by ring
  have eX : N * (B * |κ| * eT + A * |ν| * eV) = N * B * (|κ| * eT) + N * A * (|ν| * eV) := by ring
  have m1' : Within (ofInt o *. (lit 1 +. kt *. (common.tA -. lit 25)) *. (lit 1 +. kv *. (common.vDd -. lit (33 / 10))))
      (o * (1 + κ * (T - 25)) * (1 + ν * (V - 3.3)))
      (N * A * (|ν| * eV) + 3 / 2 * (N * B * (|κ| * eT)) + 20 / 2 ^ 24 * (N * A * B)) := by
    refine Within.mono m1 ?_
    rw [eP]
    linarith
  clear m1 eP p1 p2
  have hP : |(o : ℝ) * (1 + κ * (T - 25)) * (1 + ν * (V - 3.3))| ≤ N * A * B := by
    rw [abs_mul, abs_mul]
    have : |(o : ℝ)| ≤ N := by simp only [N]; linarith
    gcongr
  -- the compensation
  have hc : Is (comp.getD (lit 0)) (comp'.getD 0) ∧ |comp'.getD 0| ≤ 2 ^ 20 := by
    cases hcomp with
    | none => exact ⟨is_lit (by norm_num) (by simpa using value_int (m := 0) (by norm_num)), by simp⟩
    | some h => exact ⟨h, hχ _ rfl⟩
  have m2 := gained_within hg hc.1 hw hγ hc.2
  have hQ : |w * γ + comp'.getD 0| ≤ Q := abs_add_le _ _
  have Q0 : 0 ≤ Q := add_nonneg (abs_nonneg _) (abs_nonneg _)
  have Q1 : Q ≤ 2 ^ 40 := by
    have hw' : |(w : ℝ)| ≤ 2 ^ 15 := by exact_mod_cast hw
    have : |w * γ| ≤ 2 ^ 15 * 2 ^ 20 := by rw [abs_mul]; gcongr
    have := hc.2
    simp only [Q]; linarith
  change Within _ _ (4 / 2 ^ 24 * Q + 1 / 2 ^ 90) at m2
  have hS : |w * γ + comp'.getD 0 - o * (1 + κ * (T - 25)) * (1 + ν * (V - 3.3))| ≤ Q + N * A * B :=
    (abs_sub _ _).trans (by linarith)
  generalize hM : N * A * B = M at *
  generalize hx1 : N * B * (|κ| * eT) = X1 at *
  generalize hx2 : N * A * (|ν| * eV) = X2 at *
  have y90 : (1 : ℝ) / 2 ^ 90 ≤ 1 / 2 ^ 60 := by norm_num
  have y100 : (1 : ℝ) / 2 ^ 100 ≤ 1 / 2 ^ 60 := by norm_num
  have y126 : (2 : ℝ) ^ 20 * 2 ^ 40 * 2 ^ 40 * 2 ^ 24 ≤ 2 ^ 126 := by norm_num
  have m3 := Within.sub m2 m1' (big_range (by linarith))
  have m3' : Within (ofInt w *. common.gain +. comp.getD (lit 0) -. ofInt o *. (lit 1 +. kt *. (common.tA -. lit 25)) *.
        (lit 1 +. kv *. (common.vDd -. lit (33 / 10))))
      (w * γ + comp'.getD 0 - o * (1 + κ * (T - 25)) * (1 + ν * (V - 3.3)))
      (6 / 2 ^ 24 * Q + 7 / 4 * (X1 + X2) + 24 / 2 ^ 24 * M) := by
    refine Within.mono m3 ?_
    unfold rd
    linarith
  clear m3
  have i0 : 0 < |ε| := lt_of_lt_of_le (by norm_num) ε0
  have ε00 : ε ≠ 0 := abs_pos.1 i0
  have hSε : |(w * γ + comp'.getD 0 - o * (1 + κ * (T - 25)) * (1 + ν * (V - 3.3))) / ε| ≤ (Q + M) / |ε| := by
    rw [abs_div]; gcongr
  refine ⟨?_, hSε, M1, M2.trans (by norm_num), Q0, Q1, by rw [eX]; linarith, by rw [eX]; linarith⟩
  have key := divided_within m3' hem Q0 Q1 M1 M2 x10 x20 x1 x2 hS ε0 ε1
  have eF : 8 / 2 ^ 24 * Q + 2 * N * (B * |κ| * eT + A * |ν| * eV) + 32 / 2 ^ 24 * M =
      8 / 2 ^ 24 * Q + 2 * (X1 + X2) + 32 / 2 ^ 24 * M := by
    rw [← hx1, ← hx2]; ring
  rw [eF]
  exact key

end Mlx.Proofs
