import Verif.Spec.Binary32
import Mathlib.Data.Int.Log
import Mathlib.Data.Set.Finite.Lattice
import Mathlib.Tactic.Linarith
import Mathlib.Tactic.Positivity
/-
Consequences of correct rounding, and an instance of `Binary32`.
-/
set_option linter.unusedSectionVars false
set_option autoImplicit false
namespace Mlx.Proofs
open Mlx Mlx.Spec F32Ops

/-! ### Representable numbers -/

theorem value_abs_le {x : ℝ} (h : Binary32Value x) : |x| ≤ maxBinary32 := by
  obtain ⟨m, e, hm, _, he, rfl⟩ := h
  have h2 : (0 : ℝ) < (2 : ℝ) ^ e := by positivity
  rw [abs_mul, abs_of_pos h2]
  unfold maxBinary32
  have h3 : (2 : ℝ) ^ e ≤ 2 ^ (104 : ℕ) := by
    rw [← zpow_natCast]
    exact zpow_le_zpow_right₀ (by norm_num) (by exact_mod_cast he)
  have h4 : |(m : ℝ)| ≤ 2 ^ 24 - 1 := by
    have : |m| ≤ 2 ^ 24 - 1 := by omega
    exact_mod_cast this
  exact mul_le_mul h4 h3 h2.le (by norm_num)

/-- An integer of at most 24 bits times a power of two in range. -/
theorem value_of {m e : ℤ} (hm : |m| < 2 ^ 24) (h1 : -149 ≤ e) (h2 : e ≤ 104) :
    Binary32Value (m * (2 : ℝ) ^ e) := ⟨m, e, hm, h1, h2, rfl⟩

theorem value_int {m : ℤ} (hm : |m| < 2 ^ 24) : Binary32Value (m : ℝ) :=
  ⟨m, 0, hm, by norm_num, by norm_num, by simp⟩

theorem value_div {m : ℤ} {k : ℕ} (hm : |m| < 2 ^ 24) (hk : k ≤ 149) : Binary32Value ((m : ℝ) / 2 ^ k) :=
  ⟨m, -k, hm, by omega, by omega, by rw [zpow_neg, zpow_natCast]; rfl⟩

theorem value_pow {k : ℕ} (hk : k ≤ 104) : Binary32Value ((2 : ℝ) ^ k) :=
  ⟨1, k, by norm_num, by omega, by omega, by rw [zpow_natCast]; simp⟩

theorem values_finite : {x : ℝ | Binary32Value x}.Finite := by
  have h : {x : ℝ | Binary32Value x} ⊆
      (fun p : ℤ × ℤ => (p.1 : ℝ) * (2 : ℝ) ^ p.2) '' (Set.Icc (-(2 ^ 24)) (2 ^ 24) ×ˢ Set.Icc (-149) 104) := by
    rintro x ⟨m, e, hm, h1, h2, rfl⟩
    rw [abs_lt] at hm
    exact ⟨(m, e), ⟨⟨hm.1.le, hm.2.le⟩, ⟨h1, h2⟩⟩, rfl⟩
  exact (((Set.finite_Icc _ _).prod (Set.finite_Icc _ _)).image _).subset h

theorem nearest_exists (z : ℝ) : ∃ w, Binary32Value w ∧ ∀ v, Binary32Value v → |w - z| ≤ |v - z| := by
  obtain ⟨w, hw, h⟩ := Set.exists_min_image {x : ℝ | Binary32Value x} (fun v => |v - z|) values_finite
    ⟨0, 0, 0, by norm_num, by norm_num, by norm_num, by simp⟩
  exact ⟨w, hw, fun v hv => h v hv⟩

/-! ### Rounding errors -/

theorem round_mono {x y : ℝ} (h : x ≤ y) : round x ≤ round y := by
  rw [round_eq, round_eq]
  exact Int.floor_mono (by linarith)

/-- A representable result is exact. -/
theorem rounds_exact {z : ℝ} {r : Option ℝ} (h : Rounds z r) (hz : Binary32Value z) : r = some z := by
  obtain ⟨w, rfl, _, h2⟩ := h (value_abs_le hz)
  have := h2 z hz
  rw [sub_self, abs_zero] at this
  have : w = z := sub_eq_zero.1 (abs_nonpos_iff.1 this)
  rw [this]

/-- Near every number of normal magnitude there is a representable one. -/
theorem near_normal {z : ℝ} (h1 : (2 : ℝ) ^ (-126 : ℤ) ≤ |z|) (h2 : |z| ≤ maxBinary32) :
    ∃ v, Binary32Value v ∧ |v - z| ≤ |z| / 2 ^ 24 := by
  have hpos : 0 < |z| := lt_of_lt_of_le (by positivity) h1
  obtain ⟨e, he⟩ : ∃ e, e = Int.log 2 |z| := ⟨_, rfl⟩
  have hl : (2 : ℝ) ^ e ≤ |z| := by rw [he]; exact_mod_cast Int.zpow_log_le_self (b := 2) (by norm_num) hpos
  have hu : |z| < (2 : ℝ) ^ (e + 1) := by rw [he]; exact_mod_cast Int.lt_zpow_succ_log_self (b := 2) (by norm_num) |z|
  have he1 : -126 ≤ e := by
    have : (2 : ℝ) ^ (-126 : ℤ) < 2 ^ (e + 1) := lt_of_le_of_lt h1 hu
    have := (zpow_lt_zpow_iff_right₀ (by norm_num : (1 : ℝ) < 2)).1 this
    omega
  have he2 : e ≤ 127 := by
    have h3 : maxBinary32 < (2 : ℝ) ^ (128 : ℤ) := by unfold maxBinary32; norm_num
    have := (zpow_lt_zpow_iff_right₀ (by norm_num : (1 : ℝ) < 2)).1 (lt_of_le_of_lt hl (lt_of_le_of_lt h2 h3))
    omega
  obtain ⟨u, hu0⟩ : ∃ u : ℝ, u = (2 : ℝ) ^ (e - 23) := ⟨_, rfl⟩
  have hup : 0 < u := by rw [hu0]; positivity
  have hue : u * 2 ^ 23 = (2 : ℝ) ^ e := by
    rw [hu0, ← zpow_natCast, ← zpow_add₀ (by norm_num)]; congr 1; norm_num
  have hue1 : u * 2 ^ 24 = (2 : ℝ) ^ (e + 1) := by
    rw [hu0, ← zpow_natCast, ← zpow_add₀ (by norm_num)]; congr 1; push_cast; ring
  have hr : |(round (z / u) : ℝ) * u - z| ≤ u / 2 := by
    have h3 := abs_sub_round (z / u)
    have : (round (z / u) : ℝ) * u - z = -((z / u - round (z / u)) * u) := by field_simp; ring
    rw [this, abs_neg, abs_mul, abs_of_pos hup]
    nlinarith
  have hbound : |(round (z / u) : ℝ) * u - z| ≤ |z| / 2 ^ 24 := by
    refine hr.trans ?_
    rw [le_div_iff₀ (by norm_num)]
    nlinarith
  have habs : |z / u| < 2 ^ 24 := by
    rw [abs_div, abs_of_pos hup, div_lt_iff₀ hup, mul_comm, hue1]; exact hu
  have hm : |round (z / u)| ≤ 2 ^ 24 := by
    rw [abs_lt] at habs
    rw [abs_le]
    constructor
    · rw [show (-2 ^ 24 : ℤ) = round ((-2 ^ 24 : ℤ) : ℝ) from (round_intCast _).symm]
      exact round_mono (by push_cast; have := habs.1.le; norm_num at this ⊢; exact this)
    · rw [show (2 ^ 24 : ℤ) = round ((2 ^ 24 : ℤ) : ℝ) from (round_intCast _).symm]
      exact round_mono (by push_cast; have := habs.2.le; norm_num at this ⊢; exact this)
  rcases lt_or_eq_of_le hm with hm | hm
  · exact ⟨_, ⟨round (z / u), e - 23, hm, by omega, by omega, by rw [hu0]⟩, hbound⟩
  · have he3 : e ≤ 126 := by
      by_contra hc
      have he4 : e = 127 := by omega
      have hu4 : u = 2 ^ 104 := by rw [hu0, he4]; norm_num
      have : |z / u| ≤ 2 ^ 24 - 1 := by
        rw [abs_div, abs_of_pos hup, div_le_iff₀ hup, hu4]; exact h2
      rw [abs_le] at this
      have hm' : |round (z / u)| ≤ 2 ^ 24 - 1 := by
        rw [abs_le]
        constructor
        · rw [show (-(2 ^ 24 - 1) : ℤ) = round ((-(2 ^ 24 - 1) : ℤ) : ℝ) from (round_intCast _).symm]
          exact round_mono (by push_cast; have := this.1; norm_num at this ⊢; exact this)
        · rw [show (2 ^ 24 - 1 : ℤ) = round ((2 ^ 24 - 1 : ℤ) : ℝ) from (round_intCast _).symm]
          exact round_mono (by push_cast; have := this.2; norm_num at this ⊢; exact this)
      omega
    refine ⟨_, ?_, hbound⟩
    rcases (abs_eq (by norm_num)).1 hm with h3 | h3
    · refine ⟨2 ^ 23, e - 22, by norm_num, by omega, by omega, ?_⟩
      rw [h3, hu0, show e - 22 = e - 23 + 1 by ring, zpow_add₀ (by norm_num)]; push_cast; ring
    · refine ⟨-2 ^ 23, e - 22, by norm_num, by omega, by omega, ?_⟩
      rw [h3, hu0, show e - 22 = e - 23 + 1 by ring, zpow_add₀ (by norm_num)]; push_cast; ring

/-- The relative error of a result of normal magnitude. -/
theorem rounds_normal {z : ℝ} {r : Option ℝ} (h : Rounds z r) (h1 : (2 : ℝ) ^ (-126 : ℤ) ≤ |z|)
    (h2 : |z| ≤ maxBinary32) : ∃ w, r = some w ∧ |w - z| ≤ |z| / 2 ^ 24 := by
  obtain ⟨w, hw, _, h3⟩ := h h2
  obtain ⟨v, hv, h4⟩ := near_normal h1 h2
  exact ⟨w, hw, (h3 v hv).trans h4⟩

/-- The error of a result of any magnitude: relative, or absolute below the normal numbers. -/
theorem rounds_any {z : ℝ} {r : Option ℝ} (h : Rounds z r) (h2 : |z| ≤ maxBinary32) :
    ∃ w, r = some w ∧ |w - z| ≤ |z| / 2 ^ 24 + 2 ^ (-150 : ℤ) := by
  rcases le_or_gt ((2 : ℝ) ^ (-126 : ℤ)) |z| with h1 | h1
  · obtain ⟨w, hw, h3⟩ := rounds_normal h h1 h2
    exact ⟨w, hw, h3.trans (le_add_of_nonneg_right (by positivity))⟩
  · obtain ⟨w, hw, _, h3⟩ := h h2
    refine ⟨w, hw, ?_⟩
    obtain ⟨u, hu⟩ : ∃ u : ℝ, u = (2 : ℝ) ^ (-149 : ℤ) := ⟨_, rfl⟩
    have hup : 0 < u := by rw [hu]; positivity
    have hue : u * 2 ^ 23 = (2 : ℝ) ^ (-126 : ℤ) := by
      rw [hu, ← zpow_natCast, ← zpow_add₀ (by norm_num)]; norm_num
    have habs : |z / u| < 2 ^ 23 := by
      rw [abs_div, abs_of_pos hup, div_lt_iff₀ hup, mul_comm, hue]; exact h1
    have hm : |round (z / u)| ≤ 2 ^ 23 := by
      rw [abs_lt] at habs
      rw [abs_le]
      constructor
      · rw [show (-2 ^ 23 : ℤ) = round ((-2 ^ 23 : ℤ) : ℝ) from (round_intCast _).symm]
        exact round_mono (by push_cast; have := habs.1.le; norm_num at this ⊢; exact this)
      · rw [show (2 ^ 23 : ℤ) = round ((2 ^ 23 : ℤ) : ℝ) from (round_intCast _).symm]
        exact round_mono (by push_cast; have := habs.2.le; norm_num at this ⊢; exact this)
    have := h3 (round (z / u) * u) ⟨round (z / u), -149, by omega, by norm_num, by norm_num, by rw [hu]⟩
    refine this.trans ?_
    have h5 := abs_sub_round (z / u)
    have e1 : (round (z / u) : ℝ) * u - z = -((z / u - round (z / u)) * u) := by field_simp; ring
    rw [e1, abs_neg, abs_mul, abs_of_pos hup]
    have e2 : (2 : ℝ) ^ (-150 : ℤ) = u / 2 := by
      rw [hu, show (-150 : ℤ) = -149 - 1 by norm_num, zpow_sub₀ (by norm_num)]; norm_num
    rw [e2]
    have h6 : 0 ≤ |z| / 2 ^ 24 := by positivity
    nlinarith


theorem rounds_rel {z : ℝ} {r : Option ℝ} (h : Rounds z r) (h1 : z = 0 ∨ (2 : ℝ) ^ (-126 : ℤ) ≤ |z|)
    (h2 : |z| ≤ maxBinary32) : ∃ w, r = some w ∧ |w - z| ≤ |z| / 2 ^ 24 := by
  rcases h1 with rfl | h1
  · refine ⟨0, rounds_exact h ⟨0, 0, by norm_num, by norm_num, by norm_num, by simp⟩, by simp⟩
  · exact rounds_normal h h1 h2

/-! ### Operations on values -/
section
variable {F : Type} [F32Ops F] [Binary32 F]

theorem Is.unique {a : F} {x y : ℝ} (h : Is a x) (h' : Is a y) : x = y :=
  Option.some.inj (h.symm.trans h')

theorem Is.eq {a : F} {x y : ℝ} (h : Is a x) (e : x = y) : Is a y := e ▸ h

theorem is_lit {q : Rat} {x : ℝ} (e : (q : ℝ) = x) (h : Binary32Value x) : Is (lit q : F) x := by
  subst e
  exact rounds_exact (Binary32.lit_rounds q) h

theorem is_ofInt {z : ℤ} (h : |z| < 2 ^ 24) : Is (ofInt z : F) z :=
  rounds_exact (Binary32.ofInt_rounds z) (value_int h)

theorem Is.add {a b : F} {x y : ℝ} (ha : Is a x) (hb : Is b y) (h : Binary32Value (x + y)) : Is (a +. b) (x + y) :=
  rounds_exact (Binary32.add_rounds a b x y ha hb) h

theorem Is.sub {a b : F} {x y : ℝ} (ha : Is a x) (hb : Is b y) (h : Binary32Value (x - y)) : Is (a -. b) (x - y) :=
  rounds_exact (Binary32.sub_rounds a b x y ha hb) h

theorem Is.mul {a b : F} {x y : ℝ} (ha : Is a x) (hb : Is b y) (h : Binary32Value (x * y)) : Is (a *. b) (x * y) :=
  rounds_exact (Binary32.mul_rounds a b x y ha hb) h

theorem Is.div {a b : F} {x y : ℝ} (ha : Is a x) (hb : Is b y) (h0 : y ≠ 0) (h : Binary32Value (x / y)) :
    Is (a /. b) (x / y) :=
  rounds_exact (Binary32.div_rounds a b x y ha hb h0) h

theorem Is.neg {a : F} {x : ℝ} (ha : Is a x) : Is (F32Ops.neg a) (-x) := Binary32.neg_exact a x ha

theorem Is.exp2 {a : F} {k : ℕ} (ha : Is a k) (hk : k ≤ 104) : Is (F32Ops.exp2 a) ((2 : ℝ) ^ k) := by
  have := Binary32.exp2_exact a (k : ℤ) (by rw [Int.cast_natCast]; exact ha) (by rw [zpow_natCast]; exact value_pow hk)
  rwa [zpow_natCast] at this

theorem is_exp2_nat {k : ℕ} (hk : k ≤ 104) : Is (exp2 (ofInt (k : ℤ)) : F) ((2 : ℝ) ^ k) := by
  refine Is.exp2 ?_ hk
  have h := is_ofInt (F := F) (z := (k : ℤ)) (by rw [abs_of_nonneg (by omega)]; omega)
  rwa [Int.cast_natCast] at h

theorem is_exp2_lit {k : ℕ} (hk : k ≤ 104) : Is (exp2 (lit (k : Rat)) : F) ((2 : ℝ) ^ k) := by
  refine Is.exp2 (is_lit (by push_cast; rfl) ?_) hk
  have := value_int (m := (k : ℤ)) (by rw [abs_of_nonneg (by omega)]; omega)
  rwa [Int.cast_natCast] at this

/-- The quotient of a 24-bit integer by a power of two. -/
theorem is_scaled {z : ℤ} {k : ℕ} {b : F} (hz : |z| < 2 ^ 24) (hk : k ≤ 104) (hb : Is b ((2 : ℝ) ^ k)) :
    Is (ofInt z /. b : F) ((z : ℝ) / 2 ^ k) :=
  Is.div (is_ofInt hz) hb (by positivity) (value_div hz (by omega))
end

/-! ### An instance -/

/-- The nearest representable number (some choice among two at equal distance). -/
noncomputable def nearest (z : ℝ) : ℝ := (nearest_exists z).choose

theorem nearest_value (z : ℝ) : Binary32Value (nearest z) := (nearest_exists z).choose_spec.1

theorem nearest_le (z v : ℝ) (h : Binary32Value v) : |nearest z - z| ≤ |v - z| := (nearest_exists z).choose_spec.2 v h

open Classical in
/-- Rounding, `none` on overflow. -/
noncomputable def rounded (z : ℝ) : Option {x : ℝ // Binary32Value x} :=
  if |z| ≤ maxBinary32 then some ⟨nearest z, nearest_value z⟩ else none

theorem rounded_rounds (z : ℝ) : Rounds z ((rounded z).map (·.1)) := by
  intro h
  refine ⟨nearest z, ?_, nearest_value z, fun v hv => nearest_le z v hv⟩
  unfold rounded
  rw [if_pos h]; rfl

/-- Finite binary32 numbers, and `none` for everything else, that is, for NaN (which is also the result of an overflow). -/
abbrev Rounded : Type := Option {x : ℝ // Binary32Value x}

noncomputable def lift1 (f : ℝ → ℝ) (a : Rounded) : Rounded := a.bind fun x => rounded (f x.1)
noncomputable def lift2 (f : ℝ → ℝ → ℝ) (a b : Rounded) : Rounded := a.bind fun x => b.bind fun y => rounded (f x.1 y.1)

open Classical in
noncomputable instance roundedOps : F32Ops Rounded where
  lit q := rounded q
  ofInt z := rounded z
  add := lift2 (· + ·)
  sub := lift2 (· - ·)
  mul := lift2 (· * ·)
  div a b := if b.map (·.1) = some 0 then none else lift2 (· / ·) a b
  neg := lift1 (fun x => -x)
  exp2 := lift1 fun x => (2 : ℝ) ^ x
  recip a := if a.map (·.1) = some 0 then none else lift1 (·⁻¹) a
  powi a n := lift1 (fun x => x ^ n) a
  powf a b := if ∃ x, a.map (·.1) = some x ∧ x < 0 then none else lift2 (· ^ ·) a b
  feq a b := decide (a = b ∧ a ≠ none)

theorem of_val {a : Rounded} {x : ℝ} (h : a.map (·.1) = some x) : ∃ hx, a = some ⟨x, hx⟩ := by
  cases a with
  | none => cases h
  | some y => cases h; exact ⟨y.2, rfl⟩

theorem rounded_powf {x y : ℝ} {hx : Binary32Value x} {hy : Binary32Value y} (h : 0 ≤ x) :
    (F32Ops.powf (some ⟨x, hx⟩) (some ⟨y, hy⟩) : Rounded) = rounded (x ^ y) := by
  refine (if_neg ?_ : (F32Ops.powf (some ⟨x, hx⟩) (some ⟨y, hy⟩) : Rounded) = lift2 (· ^ ·) _ _)
  rintro ⟨z, hz, hz0⟩
  have hz : x = z := Option.some.inj hz
  linarith

theorem rounded_exact {z : ℝ} (h : Binary32Value z) : (rounded z).map (·.1) = some z :=
  rounds_exact (rounded_rounds z) h

theorem value_neg {x : ℝ} (h : Binary32Value x) : Binary32Value (-x) := by
  obtain ⟨m, e, h1, h2, h3, rfl⟩ := h
  exact ⟨-m, e, by rwa [abs_neg], h2, h3, by push_cast; ring⟩

/-- Rounded real numbers have the properties demanded of binary32. -/
noncomputable instance roundedBinary32 : Binary32 Rounded where
  val a := a.map (·.1)
  val_value a x h := (of_val h).1
  lit_rounds q := rounded_rounds _
  ofInt_rounds z := rounded_rounds _
  add_rounds a b x y ha hb := by
    obtain ⟨_, rfl⟩ := of_val ha; obtain ⟨_, rfl⟩ := of_val hb
    exact rounded_rounds _
  sub_rounds a b x y ha hb := by
    obtain ⟨_, rfl⟩ := of_val ha; obtain ⟨_, rfl⟩ := of_val hb
    exact rounded_rounds _
  mul_rounds a b x y ha hb := by
    obtain ⟨_, rfl⟩ := of_val ha; obtain ⟨_, rfl⟩ := of_val hb
    exact rounded_rounds _
  div_rounds a b x y ha hb h0 := by
    obtain ⟨_, rfl⟩ := of_val ha; obtain ⟨_, rfl⟩ := of_val hb
    have : (F32Ops.div (some ⟨x, ‹_›⟩) (some ⟨y, ‹_›⟩) : Rounded) = rounded (x / y) :=
      if_neg (fun h => h0 (Option.some.inj h))
    rw [this]
    exact rounded_rounds _
  recip_rounds a x ha h0 := by
    obtain ⟨_, rfl⟩ := of_val ha
    have : (F32Ops.recip (some ⟨x, ‹_›⟩) : Rounded) = rounded x⁻¹ :=
      if_neg (fun h => h0 (Option.some.inj h))
    rw [this]
    exact rounded_rounds _
  neg_exact a x ha := by
    obtain ⟨hx, rfl⟩ := of_val ha
    exact rounded_exact (value_neg hx)
  exp2_exact a n ha hv := by
    obtain ⟨hx, rfl⟩ := of_val ha
    have h : (2 : ℝ) ^ ((n : ℝ)) = (2 : ℝ) ^ n := Real.rpow_intCast 2 n
    show (rounded ((2 : ℝ) ^ (n : ℝ))).map (·.1) = _
    rw [h]
    exact rounded_exact hv
  feq_exact a b x y ha hb := by
    obtain ⟨_, rfl⟩ := of_val ha; obtain ⟨_, rfl⟩ := of_val hb
    show decide _ = true ↔ _
    rw [decide_eq_true_iff, Option.some.injEq, Subtype.mk.injEq]
    exact and_iff_left nofun
  feq_finite a b y ha hb := by
    obtain ⟨_, rfl⟩ := of_val hb
    cases a with
    | none => exact decide_eq_false (fun h => nomatch h.1)
    | some x => cases ha

end Mlx.Proofs
