import Verif.Proofs.Signal
import Verif.Props.Accuracy
/-
C71: how accurate binary32 arithmetic is for the signals of the pixels.
-/
set_option linter.unusedSectionVars false
set_option autoImplicit false
namespace Mlx.Props
open Mlx Mlx.Spec Mlx.Proofs F32Ops
variable {F ε : Type} [F32Ops F] [Binary32 F]

/-- Sizes of the parameters of both cameras. -/
structure Sized (t : Calib ℝ) : Prop where
  gain : ∃ n : ℤ, |n| ≤ 2 ^ 17 ∧ t.gain = n
  offset : ∀ s, ∀ x ∈ t.offsetRef s, |x| ≤ 2 ^ 19
  offsetCp : ∀ s, |t.offsetRefCp s| ≤ 2 ^ 19
  kV : ∀ s, ∀ x ∈ t.kV s, |x| ≤ 2 ^ 25
  kVCp : ∀ s, |t.kVCp s| ≤ 2 ^ 25
  kTa : ∀ s, ∀ x ∈ t.kTa s, |x| ≤ 2 ^ 25
  kTaCp : ∀ s, |t.kTaCp s| ≤ 2 ^ 25
  tgc : ∀ x ∈ t.tgc, |x| ≤ 2 ^ 2
  comp : ∀ a, ∀ o ∈ t.apComp a, ∀ x ∈ o, |x| ≤ 2 ^ 20
  compCp : ∀ s a, ∀ x ∈ t.apCompCp s a, |x| ≤ 2 ^ 20

theorem gain_rel {k : Calib F} {t : Calib ℝ} (hk : ExactTable k t) (hz : Sized t) {g : Int} (h0 : g ≠ 0) (h : Fits16 g) :
    Rel (k.gain /. ofInt g) (t.gain / g) (1 / 2 ^ 24) ∧ |t.gain / g| ≤ 2 ^ 20 := by
  obtain ⟨n, hn, e⟩ := hz.gain
  have hg : |g| ≤ 2 ^ 20 := by unfold Fits16 at h; rw [abs_le]; omega
  have hr := int_rel_range (a := n) (hn.trans (by norm_num)) hg h0
  have hk' := hk.gain
  rw [e] at hk' ⊢
  refine ⟨Rel.div (Is.rel hk') (Is.rel (is_ofInt (by omega))) le_rfl (by norm_num) le_rfl (by norm_num)
    (by exact_mod_cast h0) (ζ := 1 / 2 ^ 24) (by norm_num)
    (hr.1.imp id fun h => le_trans (zpow_le_zpow_right₀ (by norm_num) (by norm_num)) h)
    (hr.2.trans (zpow_le_zpow_right₀ (by norm_num) (by norm_num))), ?_⟩
  refine hr.2.trans (le_of_eq (by norm_num))

theorem fits_abs {z : Int} (h : Fits16 z) : |z| ≤ 2 ^ 15 := by unfold Fits16 at h; rw [abs_le]; omega

theorem toInt_16 (x : Word) : |x.toInt| ≤ 2 ^ 15 := by
  have h1 := BitVec.toInt_lt (x := x)
  have h2 := BitVec.le_toInt x
  rw [abs_le]
  norm_num at h1 h2 ⊢
  omega

/-- Subtraction of the compensation pixel's signal. -/
theorem compensate_within {v o g : F} {S S' τ j : ℝ} {Q M X Q' M' X' : ℝ}
    (hv : Within v S ((8 / 2 ^ 24 * Q + 2 * X + 32 / 2 ^ 24 * M) * j)) (hS : |S| ≤ (Q + M) * j) (M1 : 1 ≤ M) (M2 : M ≤ 2 ^ 100)
    (Q0 : 0 ≤ Q) (Q1 : Q ≤ 2 ^ 40) (X0 : 0 ≤ X) (X1 : X ≤ M / 2)
    (ho : Within o S' ((8 / 2 ^ 24 * Q' + 2 * X' + 32 / 2 ^ 24 * M') * j)) (hS' : |S'| ≤ (Q' + M') * j) (M1' : 1 ≤ M')
    (M2' : M' ≤ 2 ^ 100) (Q0' : 0 ≤ Q') (Q1' : Q' ≤ 2 ^ 40) (X0' : 0 ≤ X') (X1' : X' ≤ M' / 2)
    (hg : Is g τ) (hτ : |τ| ≤ 2 ^ 2) (j0 : 1 / 2 ^ 20 ≤ j) (j1 : j ≤ 2 ^ 20) :
    Within (v -. g *. o) (S - τ * S') (2 * ((8 / 2 ^ 24 * Q + 2 * X + 32 / 2 ^ 24 * M) * j + |τ| *
      ((8 / 2 ^ 24 * Q' + 2 * X' + 32 / 2 ^ 24 * M') * j))) := by
  have t0 := tiny_pos
  have t1 := tiny
  have y100 : (1 : ℝ) / 2 ^ 100 ≤ 1 / 2 ^ 60 := by norm_num
  have j00 : 0 ≤ j := le_trans (by norm_num) j0
  have τ0 : 0 ≤ |τ| := abs_nonneg _
  have bound : ∀ {Q M X : ℝ}, 1 ≤ M → M ≤ 2 ^ 100 → 0 ≤ Q → Q ≤ 2 ^ 40 → 0 ≤ X → X ≤ M / 2 →
      0 ≤ (8 / 2 ^ 24 * Q + 2 * X + 32 / 2 ^ 24 * M) * j ∧
      (8 / 2 ^ 24 * Q + 2 * X + 32 / 2 ^ 24 * M) * j ≤ 2 ^ 121 ∧ (Q + M) * j ≤ 2 ^ 121 ∧
      1 / 2 ^ 24 * ((Q + M) * j) ≤ 1 / 8 * ((8 / 2 ^ 24 * Q + 2 * X + 32 / 2 ^ 24 * M) * j) ∧
      32 / 2 ^ 44 ≤ (8 / 2 ^ 24 * Q + 2 * X + 32 / 2 ^ 24 * M) * j := by
    intro Q M X M1 M2 Q0 Q1 X0 X1
    have a1 : 8 / 2 ^ 24 * Q + 2 * X + 32 / 2 ^ 24 * M ≤ 2 ^ 101 := by linarith
    have a2 : Q + M ≤ 2 ^ 101 := by linarith
    have a3 : 32 / 2 ^ 24 ≤ 8 / 2 ^ 24 * Q + 2 * X + 32 / 2 ^ 24 * M := by linarith
    have a0 : 0 ≤ 8 / 2 ^ 24 * Q + 2 * X + 32 / 2 ^ 24 * M := by positivity
    have e : (2 : ℝ) ^ 121 = 2 ^ 101 * 2 ^ 20 := by norm_num
    refine ⟨by positivity, ?_, ?_, ?_, ?_⟩
    · rw [e]; gcongr
    · rw [e]; gcongr
    · rw [← mul_assoc, ← mul_assoc]
      refine mul_le_mul_of_nonneg_right ?_ j00
      linarith
    · calc (32 : ℝ) / 2 ^ 44 = 32 / 2 ^ 24 * (1 / 2 ^ 20) := by norm_num
        _ ≤ _ := by gcongr
  obtain ⟨b0, b1, b2, b3, b4⟩ := bound M1 M2 Q0 Q1 X0 X1
  obtain ⟨c0, c1, c2, c3, c4⟩ := bound M1' M2' Q0' Q1' X0' X1'
  generalize (8 / 2 ^ 24 * Q + 2 * X + 32 / 2 ^ 24 * M) * j = e at *
  generalize (8 / 2 ^ 24 * Q' + 2 * X' + 32 / 2 ^ 24 * M') * j = f at *
  generalize (Q + M) * j = s at *
  generalize (Q' + M') * j = s' at *
  have s0 : 0 ≤ |S'| := abs_nonneg _
  have s1 : 0 ≤ s' := s0.trans hS'
  have k1 : |τ| * |S'| ≤ |τ| * s' := by gcongr
  have k2 : |τ| * s' ≤ 2 ^ 2 * 2 ^ 121 := by gcongr
  have k3 : |τ| * f ≤ 2 ^ 2 * 2 ^ 121 := by gcongr
  have k4 : 1 / 2 ^ 24 * (|τ| * s') ≤ 1 / 8 * (|τ| * f) := by
    calc 1 / 2 ^ 24 * (|τ| * s') = |τ| * (1 / 2 ^ 24 * s') := by ring
      _ ≤ |τ| * (1 / 8 * f) := by gcongr
      _ = _ := by ring
  have k5 : 0 ≤ |τ| * f := by positivity
  have y : (2 : ℝ) ^ 4 * 2 ^ 121 + 2 ^ 2 * 2 ^ 121 ≤ 2 ^ 126 := by norm_num
  have m1 := Within.mul (Is.within hg) ho le_rfl (big_range (by rw [abs_mul]; linarith))
  have m1' : Within (g *. o) (τ * S') (5 / 4 * (|τ| * f) + 1 / 2 ^ 60) := by
    refine Within.mono m1 ?_
    unfold rd
    rw [abs_mul]
    linarith
  clear m1
  have hd : |S - τ * S'| ≤ s + |τ| * s' := by
    refine (abs_sub _ _).trans ?_
    rw [abs_mul]
    linarith
  have y2 : (2 : ℝ) ^ 2 * 2 ^ 121 * 3 + 2 ^ 121 * 2 + 1 ≤ 2 ^ 126 := by norm_num
  have y60 : (1 : ℝ) / 2 ^ 60 ≤ 1 := by norm_num
  have m2 := Within.sub hv m1' (big_range (by linarith))
  refine Within.mono m2 ?_
  unfold rd
  linarith

theorem rel_get {α β : Type} {R : α → β → Prop} {l : List α} {l' : List β} (h : List.Forall₂ R l l') {i : Nat} {b : β}
    (hb : l'[i]? = some b) : ∃ a, l[i]? = some a ∧ R a b := by
  rw [List.forall₂_iff_get] at h
  obtain ⟨hl, hg⟩ := h
  obtain ⟨hi, e⟩ := List.getElem?_eq_some_iff.1 hb
  have hi' : i < l.length := by omega
  refine ⟨l[i], List.getElem?_eq_getElem hi', ?_⟩
  have := hg i hi' hi
  simp only [List.get_eq_getElem] at this
  rwa [e] at this

theorem signal_accurate (m : Mode) {k : Calib F} {t : Calib ℝ} (hk : ExactTable k t) (hs : Scaled t) (hz : Sized t)
    (h0 : Within k.vdd0 3.3 (3.3 / 2 ^ 24)) : SignalAccurate m k t := by
  intro r actual em ε pixels s a valid dest out tA ρ hr hem ε0 ε1 h i hi lo offset kV kTa comp hv hd hhi hlo hof hkv hkt hap
  obtain ⟨common, h1, h2, h3, h4, h5⟩ := common_within (ε := Unit) m hk hs h0 hr.plausible actual em
  have hρ : resolutionCorrection t.resolution actual = ρ := correction_codes _ _
  rw [hρ] at h2
  obtain ⟨common', n1, _, _, hg⟩ := rawIr_ok h
  rw [h1] at n1
  cases n1
  obtain ⟨kv, gkv, rkv⟩ := rel_get (hk.kV s) hkv
  obtain ⟨kt, gkt, rkt⟩ := rel_get (hk.kTa s) hkt
  obtain ⟨cp, gcp, rcp⟩ := rel_get (hk.apComp a) hap
  have hit : rawItem k pixels s a i = some ⟨(be16 hi lo).toInt, offset, kv, kt, cp⟩ := by
    unfold rawItem
    rw [pixelWords_get pixels i hi lo hhi hlo, hk.offsetRef, hof, gkv, gkt, gcp]
  have hde : dest[i]? = some (dest[i]'hd) := List.getElem?_eq_getElem hd
  refine ⟨rawValue common (cpOffset k common r s a) ⟨(be16 hi lo).toInt, offset, kv, kt, cp⟩, ?_, ?_⟩
  · rw [hg, hit, hv, hde]; rfl
  have hgain := gain_rel hk hz hr.gain.1 hr.gain.2
  rw [← h4] at hgain
  rw [← h5] at hem
  have he0 : 0 ≤ ambientError t r := by
    unfold ambientError
    exact div_nonneg (add_nonneg (add_nonneg (div_nonneg (abs_nonneg _) (abs_nonneg _)) (abs_nonneg _)) (by norm_num)) (by norm_num)
  have hf0 : 0 ≤ supplyError t ρ r := by
    unfold supplyError
    exact div_nonneg (add_nonneg (abs_nonneg _) (by norm_num)) (by norm_num)
  have hf1 : supplyError t ρ r ≤ 1 / 8 := by
    have hsup := hr.supply
    unfold Datasheet.supply at hsup
    rw [hs.vdd0] at hsup
    have := abs_sub_abs_le_abs_sub (ρ * Datasheet.deltaV t r) (-3.3)
    rw [abs_neg, sub_neg_eq_add, abs_of_pos (a := (3.3 : ℝ)) (by norm_num)] at this
    unfold supplyError
    rw [div_le_iff₀ (by norm_num)]
    norm_num at *
    linarith
  have key := signal_within (w := (be16 hi lo).toInt) (o := offset) hgain.1 h3 h2 hem rkt rkv rcp (toInt_16 _)
    (hz.offset s _ (List.mem_of_getElem? hof)) hgain.2 (hz.comp a _ (List.mem_of_getElem? hap))
    (hz.kTa s _ (List.mem_of_getElem? hkt)) (hz.kV s _ (List.mem_of_getElem? hkv)) hr.ambient hr.supply he0 hr.precise hf0 hf1
    ε0 ε1
  have key' := signal_within (w := r.compensationPixel) (o := t.offsetRefCp s) hgain.1 h3 h2 hem (hk.kTaCp s) (hk.kVCp s)
    (hk.apCompCp s a) (fits_abs hr.compensationPixel) (hz.offsetCp s) hgain.2 (hz.compCp s a) (hz.kTaCp s) (hz.kVCp s)
    hr.ambient hr.supply he0 hr.precise hf0 hf1 ε0 ε1
  have i0 : 0 < |ε| := lt_of_lt_of_le (by norm_num) ε0
  have j1 : |ε|⁻¹ ≤ 2 ^ 20 := by
    rw [inv_le_comm₀ i0 (by positivity)]
    simpa using ε0
  have j0 : 1 / 2 ^ 20 ≤ |ε|⁻¹ := by
    rw [one_div]
    exact inv_anti₀ i0 ε1
  dsimp only at key key'
  unfold rawValue cpOffset Datasheet.compensatedSignal compensatedError
  have ht := hk.tgc
  have hzt := hz.tgc
  revert ht hzt
  generalize k.tgc = kt'
  generalize t.tgc = tt
  intro ht hzt
  cases ht with
  | none =>
    simp only [Option.map_none, Option.getD_none, zero_mul, sub_zero, abs_zero, add_zero]
    refine Within.mono key.1 ?_
    obtain ⟨y, _, hy⟩ := key.1
    have : 0 ≤ signalError t ρ ε r (be16 hi lo).toInt offset kV kTa (comp.getD 0) := (abs_nonneg _).trans hy
    change signalError t ρ ε r (be16 hi lo).toInt offset kV kTa (comp.getD 0) ≤ _
    linarith
  | some hg =>
    simp only [Option.map_some, Option.getD_some]
    obtain ⟨w1, w2, w3, w4, w5, w6, w7, w8⟩ := key
    obtain ⟨v1, v2, v3, v4, v5, v6, v7, v8⟩ := key'
    rw [mul_assoc 2, div_eq_mul_inv _ |ε|] at w1 v1
    rw [div_eq_mul_inv _ |ε|] at w2 v2
    have key := compensate_within w1 w2 w3 w4 w5 w6 w7 w8 v1 v2 v3 v4 v5 v6 v7 v8 hg (hzt _ rfl) j0 j1
    rw [hk.offsetRefCp s]
    refine Within.mono key (le_of_eq ?_)
    unfold signalError ambientError supplyError
    dsimp only
    rw [mul_assoc 2, mul_assoc 2, div_eq_mul_inv _ |ε|, div_eq_mul_inv _ |ε|]

/-! ### Both cameras -/

theorem perPixel_mem {α : Type} {n : Nat} {f : Nat → α} {x : α} (h : x ∈ perPixel n f) : ∃ i < n, x = f i := by
  unfold perPixel at h
  obtain ⟨i, hi, rfl⟩ := List.mem_map.1 h
  exact ⟨i, List.mem_range.1 hi, rfl⟩

/-- A scaled integer is no larger than the integer. -/
theorem scaled_le {z : Int} {B : ℝ} (k : Nat) (h : |(z : ℝ)| ≤ B) : |(z : ℝ) / 2 ^ k| ≤ B := by
  rw [abs_div, abs_of_pos (a := ((2 : ℝ) ^ k)) (by positivity)]
  refine (div_le_self (abs_nonneg _) ?_).trans h
  exact one_le_pow₀ (by norm_num)

theorem signed_real (w : Word) (lo width : Nat) {B : ℝ} (h0 : 0 < width) (hB : (2 : ℝ) ^ (width - 1) ≤ B) :
    |(signedAt w lo width : ℝ)| ≤ B := by
  refine le_trans ?_ hB
  exact_mod_cast signed_half w lo width h0

theorem parity_real {a b c d : Int} {B : ℝ} (ha : |(a : ℝ)| ≤ B) (hb : |(b : ℝ)| ≤ B) (hc : |(c : ℝ)| ≤ B)
    (hd : |(d : ℝ)| ≤ B) (i : Nat) : |((Ee640.byParity a b c d i : Int) : ℝ)| ≤ B := by
  unfold Ee640.byParity
  split <;> split <;> assumption

theorem fits_real {z : Int} (h : Fits16 z) : |(z : ℝ)| ≤ 2 ^ 15 := by exact_mod_cast fits_abs h

theorem ilPattern_cases (i : Nat) : Ee640.ilPattern i = 0 ∨ Ee640.ilPattern i = 1 := by
  unfold Ee640.ilPattern; omega

theorem conversion_cases (i : Nat) : |(Ee640.conversionPattern i : ℝ)| ≤ 1 := by
  have : |Ee640.conversionPattern i| ≤ 1 := by
    unfold Ee640.conversionPattern
    rw [abs_mul]
    have h1 : |(((i + 2) / 4 : Nat) : Int) - ((i + 3) / 4 : Nat) + ((i + 1) / 4 : Nat) - (i / 4 : Nat)| ≤ 1 := by
      rw [abs_le]; omega
    have h2 : |1 - 2 * Ee640.ilPattern i| = 1 := by
      rcases ilPattern_cases i with h | h <;> rw [h] <;> rfl
    rw [h2, mul_one]
    exact h1
  exact_mod_cast this

theorem interleave_le (E : Nat → Word) (i : Nat) : |Ee640.interleave E i| ≤ 2 ^ 20 := by
  unfold Ee640.interleave
  have h1 := scaled_le 3 (signed_real (E 0x2435) 11 5 (B := 16) (by decide) (by norm_num))
  have h2 := scaled_le 1 (signed_real (E 0x2435) 6 5 (B := 16) (by decide) (by norm_num))
  rw [pow_one] at h2
  have h3 : |(2 * (Ee640.ilPattern i : ℝ) - 1)| = 1 := by
    rcases ilPattern_cases i with h | h <;> rw [h] <;> norm_num
  have h4 := conversion_cases i
  refine (abs_sub _ _).trans ?_
  rw [abs_mul, abs_mul, h3, mul_one]
  have : |(signedAt (E 0x2435) 6 5 : ℝ) / 2| * |(Ee640.conversionPattern i : ℝ)| ≤ 16 * 1 := by gcongr
  linarith

attribute [local irreducible] signedAt bitsAt in
theorem sized640 (E : Nat → Word) (hr : Ee640.Regular E) : Sized (Ee640.calibration E) where
  gain := ⟨signedAt (E 0x2430) 0 16, (signed_half _ 0 16 (by decide)).trans (by decide), rfl⟩
  offset := by
    intro s x hx
    obtain ⟨i, hi, rfl⟩ := perPixel_mem hx
    exact (fits_abs (hr i hi).1).trans (by decide)
  offsetCp := by
    have h1 := signed_half (E 0x243A) 0 10 (by decide)
    have h2 := signed_half (E 0x243A) 10 6 (by decide)
    norm_num at h1 h2
    rintro (_ | _)
    · show |signedAt (E 0x243A) 0 10| ≤ _
      norm_num
      omega
    · show |signedAt (E 0x243A) 0 10 + signedAt (E 0x243A) 10 6| ≤ _
      refine (abs_add_le _ _).trans ?_
      norm_num
      omega
  kV := by
    intro s x hx
    obtain ⟨i, hi, rfl⟩ := perPixel_mem hx
    refine scaled_le _ (parity_real ?_ ?_ ?_ ?_ i) <;> exact signed_real _ _ _ (by decide) (by norm_num)
  kVCp := fun _ => scaled_le _ (signed_real _ _ _ (by decide) (by norm_num))
  kTa := by
    intro s x hx
    obtain ⟨i, hi, rfl⟩ := perPixel_mem hx
    unfold Ee640.kTa
    split
    · rw [abs_zero]; positivity
    · rename_i h
      have := ((hr i hi).2.2 (by simpa using h)).1
      have e : ((Ee640.kTaRc E i : ℝ) + Ee640.kTaRest E i) = ((Ee640.kTaRc E i + Ee640.kTaRest E i : Int) : ℝ) := by
        push_cast; rfl
      rw [e]
      exact scaled_le _ ((fits_real this).trans (by norm_num))
  kTaCp := fun _ => scaled_le _ (signed_real _ _ _ (by decide) (by norm_num))
  tgc := by
    intro x hx
    change x ∈ (if signedAt (E 0x243C) 0 8 = 0 then none else some ((signedAt (E 0x243C) 0 8 : ℝ) / 2 ^ 5)) at hx
    split at hx
    · cases hx
    · cases hx
      have h := signed_real (E 0x243C) 0 8 (B := 128) (by decide) (by norm_num)
      rw [abs_div, abs_of_pos (a := ((2 : ℝ) ^ 5)) (by positivity), div_le_iff₀ (by positivity)]
      linarith
  comp := by
    rintro (_ | _) o ho x hx
    · obtain ⟨i, hi, rfl⟩ := perPixel_mem ho
      cases hx
    · obtain ⟨i, hi, rfl⟩ := perPixel_mem ho
      cases hx
      exact interleave_le E i
  compCp := by
    rintro (_ | _) (_ | _) x hx <;> cases hx
    exact scaled_le _ (signed_real _ _ _ (by decide) (by norm_num))

theorem linear_le {x y : Int} {k l : Nat} (hx : |x| ≤ 32) (hy : |y| ≤ 1024) (hk : k ≤ 18) :
    |((x : ℝ) * 2 ^ k + y) / 2 ^ l| ≤ 2 ^ 25 := by
  have e : ((x : ℝ) * 2 ^ k + y) = ((x * 2 ^ k + y : Int) : ℝ) := by push_cast; rfl
  rw [e]
  refine scaled_le l ?_
  have hx' : |(x : ℝ)| ≤ 32 := by exact_mod_cast hx
  have hy' : |(y : ℝ)| ≤ 1024 := by exact_mod_cast hy
  push_cast
  refine (abs_add_le _ _).trans ?_
  rw [abs_mul, abs_of_pos (a := ((2 : ℝ) ^ k)) (by positivity)]
  have h1 : (2 : ℝ) ^ k ≤ 2 ^ 18 := pow_le_pow_right₀ (by norm_num) hk
  have h2 : |(x : ℝ)| * 2 ^ k ≤ 32 * 2 ^ 18 := by gcongr
  linarith

theorem moderate_bits {x : BitVec 11} (h : x.toNat % 32 ≤ 18) (w : Word) (hw : w.toNat = x.toNat) : bitsAt w 0 5 ≤ 18 := by
  unfold bitsAt
  rw [hw]
  simpa using h

attribute [local irreducible] signedAt wrap16 bitsAt in
theorem sized641 (D : Nat → BitVec 11) (hr : Ee641.Regular D) (hm : ModerateScales D) : Sized (Ee641.calibration D) where
  gain := ⟨32 * (D 0x2424).toNat + (D 0x2425).toNat, by
      have h1 := (D 0x2424).isLt
      have h2 := (D 0x2425).isLt
      rw [abs_of_nonneg (by omega)]
      omega, by
      show 32 * ((D 0x2424).toNat : ℝ) + (D 0x2425).toNat = _
      push_cast; rfl⟩
  offset := by
    intro s x hx
    obtain ⟨i, hi, rfl⟩ := perPixel_mem hx
    unfold Ee641.offset
    split
    · decide
    · rename_i h
      exact (fits_abs (hr.2 i hi (by simpa using h) s)).trans (by decide)
  offsetCp := fun _ => by
    have h := wrap16_small (32 * (D 0x242F).toNat + (D 0x2430).toNat)
    exact h.trans (by norm_num)
  kV := by
    intro s x hx
    obtain ⟨i, hi, rfl⟩ := perPixel_mem hx
    unfold Ee641.kV
    split
    · rw [abs_zero]; positivity
    · refine linear_le ((signed_half _ 0 5 (by decide)).trans (by decide)) ((toInt_11 _).trans (by decide)) ?_
      exact moderate_bits hm.2.2.2 _ (widen_toNat D _)
  kVCp := fun _ => scaled_le _ (signed_real _ _ _ (by decide) (by norm_num))
  kTa := by
    intro s x hx
    obtain ⟨i, hi, rfl⟩ := perPixel_mem hx
    unfold Ee641.kTa
    split
    · rw [abs_zero]; positivity
    · refine linear_le ((signed_half _ 5 6 (by decide)).trans (by decide)) ((toInt_11 _).trans (by decide)) ?_
      exact moderate_bits hm.2.2.1 _ (widen_toNat D _)
  kTaCp := fun _ => scaled_le _ (signed_real _ _ _ (by decide) (by norm_num))
  tgc := by
    intro x hx
    change x ∈ some ((signedAt (Ee641.widen D 0x2433) 0 9 : ℝ) / 2 ^ 6) at hx
    cases hx
    have h := signed_real (Ee641.widen D 0x2433) 0 9 (B := 256) (by decide) (by norm_num)
    rw [abs_div, abs_of_pos (a := ((2 : ℝ) ^ 6)) (by positivity), div_le_iff₀ (by positivity)]
    linarith
  comp := by
    intro a o ho x hx
    obtain ⟨i, hi, rfl⟩ := perPixel_mem ho
    cases hx
  compCp := by
    intro s a x hx
    cases hx

/-- **C71 (MLX90640).** With a calibration decoded in binary32 arithmetic from a regular dump, every element of a raw image
computed in binary32 arithmetic is as near to the documented signal as `SignalAccurate` says. -/
theorem C71_signal_640 (m m' : Mode) (data : List Byte) (c : Mlx90640.Calibration F)
    (h : Mlx90640.fromData m data = .ok c) (hr : Ee640.Regular (eepromWord data)) :
    SignalAccurate m' c.toCalib (Ee640.calibration (eepromWord data)) :=
  let ⟨h1, _, h3⟩ := C69_exact_640 m data c h hr
  signal_accurate m' h1 (scaled640 _) (sized640 _ hr) h3

/-- **C71 (MLX90641).** The same for the MLX90641. -/
theorem C71_signal_641 (m m' : Mode) (data : List Byte) (c : Mlx90641.Calibration F)
    (h : Mlx90641.fromData m data = .ok c) (D : Nat → BitVec 11) (hD : Ee641.Holds data D (Ee641.readAddresses 192))
    (hr : Ee641.Regular D) (hs : ModerateScales D) : SignalAccurate m' c.toCalib (Ee641.calibration D) :=
  let ⟨h1, _, h3⟩ := C69_exact_641 m data c h D hD hr hs
  signal_accurate m' h1 (scaled641 _) (sized641 _ hr hs) h3

/-! ### The hypotheses can be met -/

attribute [local irreducible] signedAt bitsAt in
/-- The readings of the worked example of the datasheet (11.2.2), with the example's EEPROM and an unchanged resolution. -/
theorem readable640 : Readable (Ee640.calibration (eepromWord example640)) 1 readings640 := by
  have w : ∀ k, k < 832 → eepromWord example640 (0x2400 + k) = BitVec.ofNat 16 (words640 k) := eepromWord_dump _
  have w16 : eepromWord example640 0x2410 = 0x4210#16 := (w 16 (by decide)).trans (by decide)
  have w49 : eepromWord example640 0x2431 = BitVec.ofNat 16 (words640 49) := w 49 (by decide)
  have w50 : eepromWord example640 0x2432 = 0x5952#16 := (w 50 (by decide)).trans (by decide)
  have w51 : eepromWord example640 0x2433 = 0x9d68#16 := (w 51 (by decide)).trans (by decide)
  have e1 : (Ee640.calibration (eepromWord example640)).kVdd = -3168 := by
    show signedAt (eepromWord example640 0x2433) 8 8 * 2 ^ 5 = -3168
    rw [w51]; decide +kernel
  have e2 : (Ee640.calibration (eepromWord example640)).vdd25 = -13056 := by
    show ((bitsAt (eepromWord example640 0x2433) 0 8 : Int) - 256) * 2 ^ 5 - 2 ^ 13 = -13056
    rw [w51]; decide +kernel
  have e3 : (Ee640.calibration (eepromWord example640)).kVptat = 22 / 4096 := by
    show ((signedAt (eepromWord example640 0x2432) 10 6 : Int) : ℝ) / 2 ^ 12 = _
    rw [w50, show signedAt 0x5952#16 10 6 = 22 by decide +kernel]; norm_num
  have e4 : (Ee640.calibration (eepromWord example640)).kTptat = 338 / 8 := by
    show ((signedAt (eepromWord example640 0x2432) 0 10 : Int) : ℝ) / 2 ^ 3 = _
    rw [w50, show signedAt 0x5952#16 0 10 = 338 by decide +kernel]; norm_num
  have e5 : (Ee640.calibration (eepromWord example640)).alphaPtat = 9 := by
    show ((bitsAt (eepromWord example640 0x2410) 12 4 / 4 : Nat) : ℝ) + 8 = _
    rw [w16, show bitsAt 0x4210#16 12 4 / 4 = 1 by decide +kernel]; norm_num
  have e6 : (Ee640.calibration (eepromWord example640)).vptat25 = 12273 := by
    show ((signedAt (eepromWord example640 0x2431) 0 16 : Int) : ℝ) = _
    rw [w49, show signedAt (BitVec.ofNat 16 (words640 49)) 0 16 = 12273 by decide +kernel]; norm_num
  have a : Datasheet.ambient (Ee640.calibration (eepromWord example640)) readings640 ≤ 50 ∧
      30 ≤ Datasheet.ambient (Ee640.calibration (eepromWord example640)) readings640 := by
    unfold Datasheet.ambient Datasheet.deltaV
    rw [e1, e2, e3, e4, e5, e6]
    unfold readings640
    norm_num
  have v : |ptatVoltage (Ee640.calibration (eepromWord example640)) readings640| /
      |(Ee640.calibration (eepromWord example640)).kTptat| ≤ 400 := by
    unfold ptatVoltage Datasheet.deltaV
    rw [e1, e2, e3, e4, e5]
    unfold readings640
    norm_num [abs_of_pos]
  exact {
    plausible := plausible640
    gain := by decide
    compensationPixel := by decide
    ambient := by rw [abs_le]; constructor <;> linarith [a.1, a.2]
    supply := by
      unfold Datasheet.supply Datasheet.deltaV
      rw [e1, e2, show (Ee640.calibration (eepromWord example640)).vdd0 = 3.3 from rfl]
      unfold readings640
      norm_num [abs_of_pos]
    precise := by
      unfold ambientError
      rw [abs_of_nonneg (a := Datasheet.ambient _ _) (by linarith [a.2]), div_le_iff₀ (by norm_num)]
      linarith [a.1] }

end Mlx.Props
