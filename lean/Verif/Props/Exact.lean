import Verif.Proofs.Binary32
import Verif.Props.Access
/-
C69: decoding an EEPROM dump in binary32 arithmetic is exact. Also the frame rates of C09.
-/
set_option linter.unusedSectionVars false
set_option autoImplicit false
namespace Mlx.Props
open Mlx Mlx.Spec Mlx.Proofs F32Ops
variable {F : Type} [F32Ops F] [Binary32 F]

theorem hz_real (r : FrameRate) : ((r.hz : Rat) : ℝ) = 2 ^ r.asRaw.toNat / 2 := by
  have h : r.hz = 2 ^ r.asRaw.toNat / 2 := by
    rw [← C09_frame_rate_and_resolution_conversions.2.2.2.1 r, mul_div_cancel_right₀ _ (by decide)]
  rw [h]; push_cast; rfl

/-- **C09, binary32.** The `f32` value of a frame rate is exactly 2^(raw - 1) Hz and the duration of a frame handed to
`Duration` exactly its reciprocal; an `f32` number converts to a frame rate exactly if its value is that of the rate, and
every other number, infinities and NaN included, is an error. -/
theorem C09_frame_rate_binary32 :
    (∀ r : FrameRate, Is (r.toF32 : F) (2 ^ r.asRaw.toNat / 2) ∧ Is (r.frameSecs : F) (2 / 2 ^ r.asRaw.toNat)) ∧
    (∀ (x : F) (r : FrameRate), FrameRate.tryFromF32 x = .ok r ↔ Is x (2 ^ r.asRaw.toNat / 2)) ∧
    (∀ x : F, (∃ e, FrameRate.tryFromF32 x = .err e) ↔ ∀ r : FrameRate, ¬ Is x (2 ^ r.asRaw.toNat / 2)) := by
  have val : ∀ r : FrameRate, Binary32Value (2 ^ r.asRaw.toNat / 2 : ℝ) := by
    intro r
    have := value_div (m := 2 ^ r.asRaw.toNat) (k := 1) (by cases r <;> decide) (by decide)
    simpa using this
  have lits : ∀ r : FrameRate, Is (lit r.hz : F) (2 ^ r.asRaw.toNat / 2) := fun r => is_lit (hz_real r) (val r)
  have cmp : ∀ (x : F) (r : FrameRate), feq x (lit r.hz) = true ↔ Is x (2 ^ r.asRaw.toNat / 2) := by
    intro x r
    cases hx : Binary32.val x with
    | none =>
      rw [Binary32.feq_finite x _ _ hx (lits r)]
      refine ⟨(nomatch ·), fun h => ?_⟩
      unfold Is at h; rw [hx] at h; cases h
    | some v =>
      rw [Binary32.feq_exact x _ _ _ hx (lits r)]
      unfold Is; rw [hx, Option.some.injEq]
  have inj : ∀ r r' : FrameRate, (2 ^ r.asRaw.toNat / 2 : ℝ) = 2 ^ r'.asRaw.toNat / 2 → r = r' := by
    intro r r' h
    rw [← hz_real, ← hz_real] at h
    have h : r.hz = r'.hz := by exact_mod_cast h
    revert h
    cases r <;> cases r' <;> simp [FrameRate.hz] <;> norm_num
  have exact : ∀ r r' : FrameRate, feq (lit r.hz : F) (lit r'.hz) = decide (r = r') := by
    intro r r'
    rw [Bool.eq_iff_iff, cmp, decide_eq_true_iff]
    exact ⟨fun h => inj r r' (Is.unique (lits r) h), fun h => h ▸ lits r⟩
  have err : ∀ x : F, (∃ e, FrameRate.tryFromF32 x = .err e) ↔ ∀ r : FrameRate, ¬ Is x (2 ^ r.asRaw.toNat / 2) := by
    intro x
    rw [(C09_frame_rate_f32 exact).2 x]
    refine forall_congr' fun r => ?_
    rw [← cmp, Bool.not_eq_true]
  have found : ∀ (x : F) (r : FrameRate), FrameRate.tryFromF32 x = .ok r → Is x (2 ^ r.asRaw.toNat / 2) := by
    intro x r h
    rw [← cmp]
    unfold FrameRate.tryFromF32 at h
    repeat' split at h
    all_goals first | (cases h; assumption) | cases h
  refine ⟨fun r => ⟨lits r, ?_⟩, fun x r => ⟨found x r, fun h => ?_⟩, err⟩
  · have h2 : (2 / 2 ^ r.asRaw.toNat : ℝ) = (2 ^ r.asRaw.toNat / 2 : ℝ)⁻¹ := by rw [inv_div]
    have hv : Binary32Value (2 / 2 ^ r.asRaw.toNat : ℝ) := by
      have := value_div (m := 2) (k := r.asRaw.toNat) (by decide) (by cases r <;> decide)
      simpa using this
    rw [h2] at hv ⊢
    exact rounds_exact (Binary32.recip_rounds _ _ (lits r) (by positivity)) hv
  · cases hx : FrameRate.tryFromF32 x with
    | ok r' => rw [inj r' r (Is.unique (found x r' hx) h)]
    | err e => exact absurd h ((err x).1 ⟨e, hx⟩ r)
    | panic =>
      unfold FrameRate.tryFromF32 at hx
      repeat' split at hx
      all_goals cases hx

/-- **C57, binary32.** The resolution correction is exactly `2 ^ (calibrated - current)`. -/
theorem C57_resolution_correction_binary32 (a b : Resolution) :
    Is (resolutionCorrection a b : F) ((2 : ℝ) ^ ((a.toU8.toNat : Int) - (b.toU8.toNat : Int))) := by
  rw [C57_resolution_correction.1]
  have h1 : -3 ≤ (a.toU8.toNat : Int) - (b.toU8.toNat : Int) ∧ (a.toU8.toNat : Int) - (b.toU8.toNat : Int) ≤ 3 := by
    cases a <;> cases b <;> decide
  generalize (a.toU8.toNat : Int) - (b.toU8.toNat : Int) = n at h1
  refine Binary32.exp2_exact _ n (is_ofInt (abs_lt.2 (by omega))) ⟨1, n, by decide, by omega, by omega, by simp⟩

theorem signed_small (w : Word) (lo : Nat) {width : Nat} (h : width ≤ 16) : |signedAt w lo width| ≤ 32768 := by
  unfold signedAt
  have hp : 2 ^ width ≤ 2 ^ 16 := Nat.pow_le_pow_right (by decide) h
  have h0 : 0 < 2 ^ width := Nat.pos_of_ne_zero (by positivity)
  have h1 := Int.bmod_lt (x := ((w.toNat / 2 ^ lo : Nat) : Int)) h0
  have h2 := Int.le_bmod (x := ((w.toNat / 2 ^ lo : Nat) : Int)) h0
  generalize Int.bmod ((w.toNat / 2 ^ lo : Nat) : Int) (2 ^ width) = z at h1 h2 ⊢
  generalize 2 ^ width = p at *
  rw [abs_le]
  omega

theorem signed_24 (w : Word) (lo : Nat) {width : Nat} (h : width ≤ 16) : |signedAt w lo width| < 2 ^ 24 :=
  lt_of_le_of_lt (signed_small w lo h) (by norm_num)

theorem wrap16_small (x : Int) : |wrap16 x| ≤ 32768 := by
  unfold wrap16
  have h1 := Int.bmod_lt (x := x) (m := 65536) (by decide)
  have h2 := Int.le_bmod (x := x) (m := 65536) (by decide)
  rw [abs_le]; omega

theorem nat_24 {n : Nat} (h : n < 2 ^ 24) : |(n : Int)| < 2 ^ 24 := by rw [abs_of_nonneg (by omega)]; omega

/-- A scaled integer, in both arithmetics. -/
theorem both_nat {z : Int} {k : Nat} (hz : |z| < 2 ^ 24) (hk : k ≤ 104) :
    Is (ofInt z /. exp2 (ofInt (k : Int)) : F) (ofInt z /. exp2 (ofInt (k : Int)) : ℝ) := by
  rw [real_exp2_nat]
  exact is_scaled hz hk (is_exp2_nat hk)

theorem both_lit {z : Int} {k : Nat} (hz : |z| < 2 ^ 24) (hk : k ≤ 104) :
    Is (ofInt z /. exp2 (lit (k : Rat)) : F) (ofInt z /. exp2 (lit (k : Rat)) : ℝ) := by
  rw [real_exp2_lit]
  exact is_scaled hz hk (is_exp2_lit hk)

theorem both_div {z : Int} {q : Rat} (k : Nat) (hq : q = 2 ^ k) (hz : |z| < 2 ^ 24) (hk : k ≤ 104) :
    Is (ofInt z /. lit q : F) (ofInt z /. lit q : ℝ) := by
  have e : ((q : Rat) : ℝ) = 2 ^ k := by rw [hq]; push_cast; rfl
  have : (ofInt z /. lit q : ℝ) = (z : ℝ) / 2 ^ k := by show (z : ℝ) / ((q : Rat) : ℝ) = _; rw [e]
  rw [this]
  exact is_scaled hz hk (is_lit e (value_pow hk))

theorem both_int {z : Int} (hz : |z| < 2 ^ 24) : Is (ofInt z : F) (ofInt z : ℝ) := is_ofInt hz

theorem forall₂_of_get {α β : Type} {R : α → β → Prop} {l : List α} {l' : List β} (hl : l.length = l'.length)
    (h : ∀ i < l.length, ∀ a b, l[i]? = some a → l'[i]? = some b → R a b) : List.Forall₂ R l l' := by
  rw [List.forall₂_iff_get]
  refine ⟨hl, fun i h1 h2 => h i h1 _ _ ?_ ?_⟩
  · rw [List.getElem?_eq_getElem h1]; rfl
  · rw [List.getElem?_eq_getElem h2]; rfl

theorem bits_lt (w : Word) (lo width : Nat) (h : width ≤ 16) : bitsAt w lo width < 65536 :=
  lt_of_lt_of_le (bitsAt_lt_two_pow w lo width) (Nat.pow_le_pow_right (by decide) h)

theorem px_rel {E : Nat → Word} {α β : Type} {R : α → β → Prop} (f : Mlx90640.PixelOut F → α)
    (g : Mlx90640.PixelOut ℝ → β) (h : ∀ i < 768, R (f (pixel640 E i)) (g (pixel640 E i))) :
    List.Forall₂ R ((pixels640 (F := F) E).map f) ((pixels640 (F := ℝ) E).map g) := by
  have l1 : ((pixels640 (F := F) E).map f).length = 768 := by rw [List.length_map, pixels640_length]
  have l2 : ((pixels640 (F := ℝ) E).map g).length = 768 := by rw [List.length_map, pixels640_length]
  refine forall₂_of_get (l1.trans l2.symm) fun i hi a b ha hb => ?_
  rw [l1] at hi
  rw [px_get f i hi] at ha
  rw [px_get g i hi] at hb
  rw [← Option.some.inj ha, ← Option.some.inj hb]
  exact h i hi

theorem eq_of_forall₂ {α : Type} {l l' : List α} (h : List.Forall₂ (· = ·) l l') : l = l' := List.forall₂_eq_eq_eq ▸ h

theorem pattern_rel {a b c d e f : F} {a' b' c' d' e' f' : ℝ} (ha : Is a a') (hb : Is b b') (hc : Is c c')
    (hd : Is d d') (he : Is e e') (hf : Is f f') (p : AccessPattern) :
    List.Forall₂ (Option.Rel Is) (Mlx90640.accessPatternCompensation ((a, b, c), (d, e, f)) p)
      (Mlx90640.accessPatternCompensation ((a', b', c'), (d', e', f')) p) := by
  cases p
  · unfold Mlx90640.accessPatternCompensation
    refine forall₂_of_get (by rw [List.length_replicate, List.length_replicate]) fun i hi x y hx hy => ?_
    rw [List.length_replicate] at hi
    rw [List.getElem?_replicate_of_lt hi] at hx hy
    rw [← Option.some.inj hx, ← Option.some.inj hy]
    exact .none
  · unfold Mlx90640.accessPatternCompensation
    refine forall₂_of_get (by rw [List.length_map, List.length_map]) fun i hi x y hx hy => ?_
    rw [List.length_map, List.length_range] at hi
    rw [List.getElem?_map, List.getElem?_range hi, Option.map_some] at hx hy
    rw [← Option.some.inj hx, ← Option.some.inj hy]
    dsimp only
    split
    all_goals split
    all_goals exact .some (by assumption)

attribute [local irreducible] Mlx90640.chessboardIter Mlx90640.accessPatternCompensation signedAt bitsAt wrap16 in
theorem exact640 (E : Nat → Word) :
    ExactTable (decode640 (F := F) E).toCalib (decode640 (F := ℝ) E).toCalib ∧
    ∀ s, List.Forall₂ Is ((decode640 (F := F) E).toCalib.alpha s) ((decode640 (F := ℝ) E).toCalib.alpha s) := by
  have b1 := bitsAt_lt_two_pow (E 0x2438) 8 4
  have b2 := bitsAt_lt_two_pow (E 0x2438) 4 4
  have b3 := bitsAt_lt_two_pow (E 0x243F) 0 4
  have b4 := bitsAt_lt_two_pow (E 0x2420) 12 4
  have b5 := bitsAt_lt_two_pow (E 0x2439) 0 10
  have b6 := bitsAt_lt_two_pow (E 0x2410) 12 4
  have s1 := signed_small (E 0x2439) 10 (width := 6) (by decide)
  have s2 := signed_small (E 0x2435) 6 (width := 5) (by decide)
  have s3 := signed_small (E 0x2435) 11 (width := 5) (by decide)
  have c2 : Is (il2 E : F) (il2 E : ℝ) := both_div 1 (by norm_num) (signed_24 _ _ (by decide)) (by decide)
  have c3 : Is (il3 E : F) (il3 E : ℝ) := both_div 3 (by norm_num) (signed_24 _ _ (by decide)) (by decide)
  have v2 : (il2 E : ℝ) = (signedAt (E 0x2435) 6 5 : ℝ) / 2 := by
    show (signedAt (E 0x2435) 6 5 : ℝ) / ((2 : Rat) : ℝ) = _
    norm_num
  have v3 : (il3 E : ℝ) = (signedAt (E 0x2435) 11 5 : ℝ) / 8 := by
    show (signedAt (E 0x2435) 11 5 : ℝ) / ((8 : Rat) : ℝ) = _
    norm_num
  have cm : Is (il2 E -. il3 E : F) (il2 E - il3 E : ℝ) := by
    refine Is.sub c2 c3 ?_
    rw [v2, v3]
    have := value_div (m := 4 * signedAt (E 0x2435) 6 5 - signedAt (E 0x2435) 11 5) (k := 3)
      (by rw [abs_le] at s2 s3; rw [abs_lt]; omega) (by decide)
    push_cast at this
    convert this using 1; ring
  have cp : Is (il2 E +. il3 E : F) (il2 E + il3 E : ℝ) := by
    refine Is.add c2 c3 ?_
    rw [v2, v3]
    have := value_div (m := 4 * signedAt (E 0x2435) 6 5 + signedAt (E 0x2435) 11 5) (k := 3)
      (by rw [abs_le] at s2 s3; rw [abs_lt]; omega) (by decide)
    push_cast at this
    convert this using 1; ring
  have acp : Is (alphaCp640 E : F) (alphaCp640 E : ℝ) := both_nat (nat_24 (by omega)) (by omega)
  have va : (alphaCp640 E : ℝ) = (bitsAt (E 0x2439) 0 10 : ℝ) / 2 ^ (bitsAt (E 0x2420) 12 4 + 27) := by
    unfold alphaCp640
    rw [real_exp2_nat]
    show ((bitsAt (E 0x2439) 0 10 : Int) : ℝ) / _ = _
    rw [Int.cast_natCast]
  refine ⟨{
    cam := rfl, kVdd := rfl, vdd25 := rfl, resolution := rfl
    kVptat := both_div 12 (by norm_num) (signed_24 _ _ (by decide)) (by decide)
    kTptat := both_div 3 (by norm_num) (signed_24 _ _ (by decide)) (by decide)
    vptat25 := both_int (signed_24 _ _ (by decide))
    alphaPtat := both_int (nat_24 (by omega))
    gain := both_int (signed_24 _ _ (by decide))
    kSTa := both_lit (k := 13) (signed_24 _ _ (by decide)) (by decide)
    cornerTemps := rfl
    kSTo := ?_
    emissivity := .none
    offsetRef := ?_
    offsetRefCp := fun s => by cases s <;> rfl
    alphaCp := ?_
    kV := ?_
    kVCp := fun s => both_nat (signed_24 _ _ (by decide)) (by omega)
    kTa := ?_
    kTaCp := fun s => both_nat (signed_24 _ _ (by decide)) (by unfold Ee640.kTaScaleExp; omega)
    tgc := ?_
    apComp := ?_
    apCompCp := ?_
    failed := ?_
    outlier := ?_ }, ?_⟩
  · show List.Forall₂ Is (kSTo640 E) (kSTo640 E)
    unfold kSTo640
    dsimp only
    refine .cons ?_ (.cons ?_ (.cons ?_ (.cons ?_ .nil)))
    all_goals exact both_nat (signed_24 _ _ (by decide)) (by omega)
  · intro s
    refine eq_of_forall₂ (px_rel _ _ fun i _ => ?_)
    unfold pixel640 pixelOf
    split <;> rfl
  · intro s
    cases s
    · exact acp
    · have s1' : |signedAt (E 0x2439) 10 6| ≤ 32 := by
        with_unfolding_all
          unfold signedAt
          have h1 := Int.bmod_lt (x := (((E 0x2439).toNat / 2 ^ 10 : Nat) : Int)) (m := 2 ^ 6) (by decide)
          have h2 := Int.le_bmod (x := (((E 0x2439).toNat / 2 ^ 10 : Nat) : Int)) (m := 2 ^ 6) (by decide)
          rw [abs_le]; omega
      generalize hz : signedAt (E 0x2439) 10 6 = z at s1'
      rw [abs_le] at s1'
      have hr : Is (lit 1 +. ofInt z /. exp2 (lit 7) : F) (1 + (z : ℝ) / 2 ^ 7) := by
        refine Is.add (is_lit (by norm_num) ?_) (is_scaled (by rw [abs_lt]; omega) (by decide) (is_exp2_lit (k := 7) (by decide))) ?_
        · have := value_int (m := 1) (by norm_num)
          push_cast at this; exact this
        · have := value_div (m := 128 + z) (k := 7) (by rw [abs_lt]; omega) (by decide)
          push_cast at this
          convert this using 1; ring
      have := Is.mul acp hr (by
        rw [va]
        have := value_div (m := (bitsAt (E 0x2439) 0 10 : Int) * (128 + z)) (k := bitsAt (E 0x2420) 12 4 + 27 + 7)
          (by
            have : (0 : Int) ≤ bitsAt (E 0x2439) 0 10 := by omega
            have : (bitsAt (E 0x2439) 0 10 : Int) < 1024 := by omega
            rw [abs_lt]; constructor <;> nlinarith) (by omega)
        push_cast at this
        convert this using 1
        rw [pow_add _ _ 7]
        field_simp
        ring)
      show Is (alphaCp640 E *. (lit 1 +. ofInt (signedAt (E 0x2439) 10 6) /. exp2 (lit 7)))
        (alphaCp640 E * (lit 1 + ofInt (signedAt (E 0x2439) 10 6) / exp2 (lit ((7 : Nat) : Rat))) : ℝ)
      rw [hz, real_exp2_lit]
      refine Is.eq this ?_
      show _ = alphaCp640 E * (((1 : Rat) : ℝ) + (z : ℝ) / 2 ^ 7)
      norm_num
  · intro s
    have l1 := chess_length (decode640 (F := F) E).kVPattern
    have l2 := chess_length (decode640 (F := ℝ) E).kVPattern
    refine forall₂_of_get (l1.trans l2.symm) fun i hi a b ha hb => ?_
    rw [toCalib_kV] at ha hb hi
    rw [l1] at hi
    rw [byParity_get _ _ hi] at ha hb
    rw [← Option.some.inj ha, ← Option.some.inj hb]
    unfold Ee640.byParity
    split <;> split
    all_goals exact both_nat (signed_24 _ _ (by decide)) (by omega)
  · intro s
    refine px_rel _ _ fun i _ => ?_
    unfold pixel640 pixelOf
    split
    · exact is_lit rfl (value_int (m := 0) (by norm_num))
    · exact both_nat (lt_of_le_of_lt (wrap16_small _) (by norm_num)) (by unfold Ee640.kTaScaleExp; omega)
  · show Option.Rel Is (if signedAt (E 0x243C) 0 8 = 0 then none else some _)
      (if signedAt (E 0x243C) 0 8 = 0 then none else some _)
    by_cases h0 : signedAt (E 0x243C) 0 8 = 0
    · rw [if_pos h0, if_pos h0]; exact .none
    · rw [if_neg h0, if_neg h0]
      exact .some (both_lit (k := 5) (signed_24 _ _ (by decide)) (by decide))
  · intro a
    rw [toCalib_apComp, toCalib_apComp]
    exact pattern_rel (Is.neg c3) cm (Is.neg cp) c3 (Is.neg cm) cp a
  · intro s a
    cases s <;> cases a
    · exact .none
    · exact .none
    · exact .none
    · exact .some (both_div 4 (by norm_num) (signed_24 _ _ (by decide)) (by decide))
  · refine eq_of_forall₂ (px_rel _ _ fun i _ => ?_)
    unfold pixel640 pixelOf
    split <;> rfl
  · refine eq_of_forall₂ (px_rel _ _ fun i _ => ?_)
    unfold pixel640 pixelOf
    split <;> rfl
  · intro s
    refine px_rel _ _ fun i _ => ?_
    unfold pixel640 pixelOf
    have hb : |alphaBulk E i| ≤ 32768 := wrap16_small _
    split
    · exact both_int (lt_of_le_of_lt hb (by norm_num))
    · have hw := wrap16_small (signedAt (E (0x2440 + i)) 4 6 * 2 ^ bitsAt (E 0x2420) 0 4)
      generalize wrap16 (signedAt (E (0x2440 + i)) 4 6 * 2 ^ bitsAt (E 0x2420) 0 4) = y at hw ⊢
      generalize alphaBulk E i = x at hb ⊢
      have hxy : |x + y| < 2 ^ 24 := by rw [abs_le] at hb hw; rw [abs_lt]; omega
      have hk : Ee640.alphaScaleExp E ≤ 104 := by unfold Ee640.alphaScaleExp; omega
      have hs : Is (ofInt x +. ofInt y : F) ((x + y : Int) : ℝ) := by
        have := Is.add (is_ofInt (F := F) (z := x) (lt_of_le_of_lt hb (by norm_num)))
          (is_ofInt (F := F) (z := y) (lt_of_le_of_lt hw (by norm_num)))
          (by have := value_int hxy; push_cast at this; exact this)
        push_cast; exact this
      have := Is.div hs (is_exp2_nat (F := F) hk) (by positivity) (value_div hxy (by omega))
      refine Is.eq this ?_
      unfold alphaScale
      rw [real_exp2_nat]
      show _ = ((x : ℝ) + (y : ℝ)) / _
      push_cast; rfl

theorem vdd0_within {k : Calib F} (h : k.vdd0 = lit (33 / 10)) : Within k.vdd0 3.3 (3.3 / 2 ^ 24) := by
  obtain ⟨w, hw, he⟩ := rounds_rel (Binary32.lit_rounds (F := F) (33 / 10)) (Or.inr (by norm_num [abs_of_pos]))
    (by unfold maxBinary32; norm_num [abs_of_pos])
  refine ⟨w, ?_, ?_⟩
  · rw [h]; exact hw
  have e : (((33 / 10 : Rat)) : ℝ) = 3.3 := by norm_num
  rw [e, abs_of_pos (a := (3.3 : ℝ)) (by norm_num)] at he
  exact he

/-- **C69 (MLX90640).** In binary32 arithmetic, decoding makes no rounding error: every parameter of an accepted
calibration is exactly the documented value, except that the supply voltage constant 3.3 is the nearest binary32 number
(and nothing is said here about the corrections of the temperature ranges). -/
theorem C69_exact_640 (m : Mode) (data : List Byte) (c : Mlx90640.Calibration F) (h : Mlx90640.fromData m data = .ok c)
    (hr : Ee640.Regular (eepromWord data)) :
    ExactTable c.toCalib (Ee640.calibration (eepromWord data)) ∧
    (∀ s, List.Forall₂ Is (c.toCalib.alpha s) ((Ee640.calibration (eepromWord data)).alpha s)) ∧
    Within c.toCalib.vdd0 3.3 (3.3 / 2 ^ 24) := by
  obtain ⟨hl, hf, rfl⟩ := accepted640 h
  have hreal : Mlx90640.fromData (F := ℝ) m data = .ok (decode640 (eepromWord data)) := by
    rw [fromData_eq m hl, onlyIf_pos hf]
  rw [← C66_table_640 m data _ hreal hr]
  obtain ⟨h1, h2⟩ := exact640 (F := F) (eepromWord data)
  exact ⟨h1, h2, vdd0_within rfl⟩

/-! ### MLX90641 -/

theorem px641_rel {W : Nat → Word} {α β : Type} {R : α → β → Prop} (f : Mlx90641.PixelOut F → α)
    (g : Mlx90641.PixelOut ℝ → β) (h : ∀ i < 192, R (f (pixel641 W i)) (g (pixel641 W i))) :
    List.Forall₂ R ((pixels641 (F := F) W 192).map f) ((pixels641 (F := ℝ) W 192).map g) := by
  have l1 : ((pixels641 (F := F) W 192).map f).length = 192 := by rw [List.length_map, pixels641_length]
  have l2 : ((pixels641 (F := ℝ) W 192).map g).length = 192 := by rw [List.length_map, pixels641_length]
  refine forall₂_of_get (l1.trans l2.symm) fun i hi a b ha hb => ?_
  rw [l1] at hi
  rw [List.getElem?_map, pixels641_get W hi] at ha hb
  rw [← Option.some.inj ha, ← Option.some.inj hb]
  exact h i hi

theorem linear_exact {x y : Int} {k l : Nat} (hx : |x| ≤ 32) (hy : |y| ≤ 1024) (hk : k ≤ 18) (hl : l ≤ 63) :
    Is ((ofInt x *. exp2 (ofInt (k : Int)) +. ofInt y) /. exp2 (ofInt (l : Int)) : F)
      ((ofInt x *. exp2 (ofInt (k : Int)) +. ofInt y) /. exp2 (ofInt (l : Int)) : ℝ) := by
  have hp : (2 : Int) ^ k ≤ 2 ^ 18 := pow_le_pow_right₀ (by norm_num) hk
  have hp0 : (0 : Int) < 2 ^ k := by positivity
  rw [abs_le] at hx hy
  have hm : |x * 2 ^ k| ≤ 2 ^ 23 := by rw [abs_le]; constructor <;> nlinarith
  have hs : |x * 2 ^ k + y| < 2 ^ 24 := by rw [abs_le] at hm; rw [abs_lt]; omega
  have h1 : Is (ofInt x *. exp2 (ofInt (k : Int)) : F) ((x * 2 ^ k : Int) : ℝ) := by
    have := Is.mul (is_ofInt (F := F) (z := x) (by rw [abs_lt]; omega)) (is_exp2_nat (F := F) (k := k) (by omega))
      (by have := value_int (m := x * 2 ^ k) (by omega); push_cast at this; exact this)
    push_cast; exact this
  have h2 : Is (ofInt x *. exp2 (ofInt (k : Int)) +. ofInt y : F) ((x * 2 ^ k + y : Int) : ℝ) := by
    have := Is.add h1 (is_ofInt (F := F) (z := y) (by rw [abs_lt]; omega))
      (by have := value_int hs; push_cast at this ⊢; exact this)
    push_cast at this ⊢; exact this
  have h3 := Is.div h2 (is_exp2_nat (F := F) (k := l) (by omega)) (by positivity) (value_div hs (by omega))
  refine Is.eq h3 ?_
  rw [real_exp2_nat, real_exp2_nat]
  show _ = ((x : ℝ) * 2 ^ k + (y : ℝ)) / 2 ^ l
  push_cast; rfl

/-- Two roundings. -/
theorem alpha641_close {a r e : Nat} (ha : a < 2048) (hr : r < 2048) (he : e ≤ 83) :
    Within ((ofInt (a : Int) /. lit 2047) *. (ofInt (r : Int) /. exp2 (ofInt (e : Int))) : F)
      ((a : ℝ) / 2047 * ((r : ℝ) / 2 ^ e)) ((a : ℝ) / 2047 * ((r : ℝ) / 2 ^ e) / 2 ^ 22) := by
  have h1 : Is (ofInt (a : Int) : F) (a : ℝ) := by
    have := is_ofInt (F := F) (z := (a : Int)) (nat_24 (by omega)); rwa [Int.cast_natCast] at this
  have h2 : Is (lit 2047 : F) 2047 := is_lit (by norm_num) (by have := value_int (m := 2047) (by norm_num); push_cast at this; exact this)
  have h3 : Is (ofInt (r : Int) /. exp2 (ofInt (e : Int)) : F) ((r : ℝ) / 2 ^ e) := by
    have := is_scaled (F := F) (z := (r : Int)) (nat_24 (by omega)) (by omega) (is_exp2_nat (F := F) (k := e) (by omega))
    rwa [Int.cast_natCast] at this
  have hmax : (2 : ℝ) ^ 20 ≤ maxBinary32 := by unfold maxBinary32; norm_num
  have ha' : (a : ℝ) < 2048 := by exact_mod_cast ha
  have hr' : (r : ℝ) < 2048 := by exact_mod_cast hr
  have hq0 : (0 : ℝ) ≤ (a : ℝ) / 2047 := by positivity
  have hq1 : (a : ℝ) / 2047 ≤ 2 := by rw [div_le_iff₀ (by norm_num)]; linarith
  obtain ⟨q, hq, hqe⟩ := rounds_rel (Binary32.div_rounds _ _ _ _ h1 h2 (by norm_num)) (by
      rcases Nat.eq_zero_or_pos a with h0 | h0
      · left; simp [h0]
      · right
        rw [abs_of_nonneg hq0, le_div_iff₀ (by norm_num)]
        have : (1 : ℝ) ≤ a := by exact_mod_cast h0
        refine le_trans ?_ this
        norm_num) (by rw [abs_of_nonneg hq0]; linarith)
  rw [abs_of_nonneg hq0] at hqe
  have hp : (0 : ℝ) < 2 ^ e := by positivity
  have ht0 : (0 : ℝ) ≤ (r : ℝ) / 2 ^ e := by positivity
  have ht1 : (r : ℝ) / 2 ^ e ≤ 2048 := by
    rw [div_le_iff₀ hp]
    have : (1 : ℝ) ≤ 2 ^ e := one_le_pow₀ (by norm_num)
    nlinarith
  rw [abs_le] at hqe
  have hqq : 0 ≤ q ∧ q ≤ 4 := by constructor <;> linarith
  obtain ⟨w, hw, hwe⟩ := rounds_rel (Binary32.mul_rounds _ _ _ _ hq h3) (by
      rcases Nat.eq_zero_or_pos a with h0 | h0
      · left
        have : q = 0 := by
          have e0 : (a : ℝ) / 2047 = 0 := by simp [h0]
          rw [e0] at hqe
          linarith [hqe.1, hqe.2]
        rw [this, zero_mul]
      · rcases Nat.eq_zero_or_pos r with h4 | h4
        · left; simp [h4]
        · right
          have a1 : (1 : ℝ) ≤ a := by exact_mod_cast h0
          have r1 : (1 : ℝ) ≤ r := by exact_mod_cast h4
          have q1 : (2 : ℝ) ^ (-12 : ℤ) ≤ q := by
            have : (1 : ℝ) / 2047 ≤ (a : ℝ) / 2047 := by gcongr
            have e1 : (2 : ℝ) ^ (-12 : ℤ) = 1 / 4096 := by norm_num
            rw [e1]
            norm_num at this ⊢
            linarith
          have t1 : (2 : ℝ) ^ (-83 : ℤ) ≤ (r : ℝ) / 2 ^ e := by
            rw [zpow_neg, le_div_iff₀ hp]
            have : (2 : ℝ) ^ e ≤ 2 ^ 83 := pow_le_pow_right₀ (by norm_num) he
            have e2 : ((2 : ℝ) ^ (83 : ℤ)) = 2 ^ 83 := by norm_cast
            rw [e2, inv_mul_le_iff₀ (by positivity)]
            nlinarith
          rw [abs_of_nonneg (mul_nonneg hqq.1 ht0)]
          calc (2 : ℝ) ^ (-126 : ℤ) ≤ 2 ^ (-12 : ℤ) * 2 ^ (-83 : ℤ) := by
                rw [← zpow_add₀ (by norm_num)]; exact zpow_le_zpow_right₀ (by norm_num) (by norm_num)
            _ ≤ q * ((r : ℝ) / 2 ^ e) := mul_le_mul q1 t1 (by positivity) hqq.1)
    (by
      rw [abs_of_nonneg (mul_nonneg hqq.1 ht0)]
      refine le_trans ?_ hmax
      nlinarith)
  refine ⟨w, hw, ?_⟩
  rw [abs_of_nonneg (mul_nonneg hqq.1 ht0), abs_le] at hwe
  generalize (r : ℝ) / 2 ^ e = t at *
  generalize (a : ℝ) / 2047 = x at *
  have h5 : |q * t - x * t| ≤ x * t / 2 ^ 24 := by
    rw [← sub_mul, abs_mul, abs_of_nonneg ht0]
    have : |q - x| ≤ x / 2 ^ 24 := by rw [abs_le]; exact hqe
    calc |q - x| * t ≤ x / 2 ^ 24 * t := by gcongr
      _ = x * t / 2 ^ 24 := by ring
  rw [abs_le] at h5 ⊢
  have h6 : 0 ≤ x * t := mul_nonneg hq0 ht0
  constructor <;> linarith [hwe.1, hwe.2, h5.1, h5.2]

theorem signed_half (w : Word) (lo width : Nat) (h0 : 0 < width) : |signedAt w lo width| ≤ 2 ^ (width - 1) := by
  unfold signedAt
  obtain ⟨n, rfl⟩ : ∃ n, width = n + 1 := ⟨width - 1, by omega⟩
  have hp : (2 : Nat) ^ (n + 1) = 2 * 2 ^ n := by rw [pow_succ]; omega
  have hpos : 0 < (2 : Nat) ^ n := by positivity
  have h1 := Int.bmod_lt (x := ((w.toNat / 2 ^ lo : Nat) : Int)) (m := 2 ^ (n + 1)) (by omega)
  have h2 := Int.le_bmod (x := ((w.toNat / 2 ^ lo : Nat) : Int)) (m := 2 ^ (n + 1)) (by omega)
  generalize Int.bmod ((w.toNat / 2 ^ lo : Nat) : Int) (2 ^ (n + 1)) = z at h1 h2 ⊢
  rw [hp] at h1 h2
  rw [Nat.add_sub_cancel]
  have e : ((2 ^ n : Nat) : Int) = (2 : Int) ^ n := by push_cast; rfl
  rw [← e, abs_le]
  generalize 2 ^ n = p at *
  omega

attribute [local irreducible] signedAt bitsAt wrap16 Ee641.combined in
theorem exact641 (D : Nat → BitVec 11) (hD : ModerateScales D) :
    ExactTable (decode641 (F := F) (Ee641.widen D)).toCalib (decode641 (F := ℝ) (Ee641.widen D)).toCalib := by
  have hw : ∀ a, (Ee641.widen D a).toNat < 2048 := fun a => by rw [widen_toNat]; exact (D a).isLt
  have hk : (Ee641.widen D 0x2434).toNat ≤ 104 := by rw [widen_toNat]; exact hD.1
  have ha : (Ee641.widen D 0x242E).toNat ≤ 104 := by rw [widen_toNat]; exact hD.2.1
  have ht : bitsAt (Ee641.widen D 0x2416) 0 5 ≤ 18 := by
    have := hD.2.2.1
    with_unfolding_all
      unfold bitsAt
      rw [widen_toNat]
      simpa using this
  have hv : bitsAt (Ee641.widen D 0x2418) 0 5 ≤ 18 := by
    have := hD.2.2.2
    with_unfolding_all
      unfold bitsAt
      rw [widen_toNat]
      simpa using this
  generalize Ee641.widen D = W at *
  have b1 := bitsAt_lt_two_pow (W 0x2416) 5 6
  have b2 := bitsAt_lt_two_pow (W 0x2418) 5 6
  have b3 := bitsAt_lt_two_pow (W 0x2432) 6 5
  have b4 := bitsAt_lt_two_pow (W 0x2431) 6 5
  have n1 := (Ee641.combined W 0x2428).isLt
  have n2 := (Ee641.combined W 0x2424).isLt
  exact {
    cam := rfl, kVdd := rfl, vdd25 := rfl, resolution := rfl
    kVptat := both_div 12 (by norm_num) (signed_24 _ _ (by decide)) (by decide)
    kTptat := both_div 3 (by norm_num) (signed_24 _ _ (by decide)) (by decide)
    vptat25 := both_int (nat_24 (by omega))
    alphaPtat := both_div 7 (by norm_num) (nat_24 (by have := hw 0x242C; omega)) (by decide)
    gain := both_int (nat_24 (by omega))
    kSTa := both_lit (k := 15) (signed_24 _ _ (by decide)) (by decide)
    cornerTemps := rfl
    kSTo := by
      show List.Forall₂ Is (kSTo641 W) (kSTo641 W)
      unfold kSTo641
      dsimp only
      refine .cons ?_ (.cons ?_ (.cons ?_ (.cons ?_ (.cons ?_ (.cons ?_ (.cons ?_ (.cons ?_ .nil)))))))
      all_goals exact both_nat (signed_24 _ _ (by decide)) hk
    emissivity := .some (both_lit (k := 9) (signed_24 _ _ (by decide)) (by decide))
    offsetRef := by
      intro s
      cases s
      · refine eq_of_forall₂ (px641_rel _ _ fun i _ => ?_)
        unfold pixel641
        split <;> rfl
      · refine eq_of_forall₂ (px641_rel _ _ fun i _ => ?_)
        unfold pixel641
        split <;> rfl
    offsetRefCp := fun s => rfl
    alphaCp := fun s => both_nat (nat_24 (by have := hw 0x242D; omega)) ha
    kV := by
      intro s
      refine px641_rel _ _ fun i _ => ?_
      unfold pixel641
      split
      · exact is_lit rfl (value_int (m := 0) (by norm_num))
      · exact linear_exact ((signed_half _ _ 5 (by decide)).trans (by decide)) (signed_half _ _ 11 (by decide)) hv (by omega)
    kVCp := fun s => both_nat (signed_24 _ _ (by decide)) (by omega)
    kTa := by
      intro s
      refine px641_rel _ _ fun i _ => ?_
      unfold pixel641
      split
      · exact is_lit rfl (value_int (m := 0) (by norm_num))
      · exact linear_exact (signed_half _ _ 6 (by decide)) (signed_half _ _ 11 (by decide)) ht (by omega)
    kTaCp := fun s => both_nat (signed_24 _ _ (by decide)) (by omega)
    tgc := .some (both_div 6 (by norm_num) (signed_24 _ _ (by decide)) (by decide))
    apComp := by
      intro a
      show List.Forall₂ (Option.Rel Is) (List.replicate 192 none) (List.replicate 192 none)
      refine forall₂_of_get (by rw [List.length_replicate, List.length_replicate]) fun i hi x y hx hy => ?_
      rw [List.length_replicate] at hi
      rw [List.getElem?_replicate_of_lt hi] at hx hy
      rw [← Option.some.inj hx, ← Option.some.inj hy]
      exact .none
    apCompCp := fun s a => .none
    failed := by
      refine eq_of_forall₂ (px641_rel _ _ fun i _ => ?_)
      unfold pixel641
      split <;> rfl
    outlier := by
      refine eq_of_forall₂ (px641_rel _ _ fun i _ => ?_)
      unfold pixel641
      split <;> rfl }

/-- **C69 (MLX90641).** The same for the MLX90641, provided its scales are moderate; the sensitivities of the pixels,
which involve a division by 2047, are within two roundings (2^-22, relative). -/
theorem C69_exact_641 (m : Mode) (data : List Byte) (c : Mlx90641.Calibration F) (h : Mlx90641.fromData m data = .ok c)
    (D : Nat → BitVec 11) (hD : Ee641.Holds data D (Ee641.readAddresses 192)) (hr : Ee641.Regular D)
    (hs : ModerateScales D) :
    ExactTable c.toCalib (Ee641.calibration D) ∧
    (∀ s, List.Forall₂ (fun a x => Within a x (|x| / 2 ^ 22)) (c.toCalib.alpha s) ((Ee641.calibration D).alpha s)) ∧
    Within c.toCalib.vdd0 3.3 (3.3 / 2 ^ 24) := by
  obtain ⟨hf, rfl⟩ := decode_of_accepted h hD
  have hreal : Mlx90641.fromData (F := ℝ) m data = .ok (decode641 (Ee641.widen D)) := by
    rw [fromData641_full m (accepted641 h).1 (decoded_of_holds hD), onlyIf_pos hf]
  rw [← C66_table_641 m data _ hreal D hD hr]
  refine ⟨exact641 D hs, fun s => ?_, vdd0_within rfl⟩
  refine px641_rel _ _ fun i _ => ?_
  have hw : ∀ a, (Ee641.widen D a).toNat < 2048 := fun a => by rw [widen_toNat]; exact (D a).isLt
  generalize Ee641.widen D = W at *
  unfold pixel641
  split
  · refine ⟨0, is_lit (by norm_num) (by simpa using value_int (m := 0) (by norm_num)), ?_⟩
    show |(0 : ℝ) - (((0 : Rat) : ℝ))| ≤ _
    simp only [Rat.cast_zero, sub_zero, abs_zero]
    positivity
  · have he : Ee641.referenceExp W (Ee641.rowPair i) ≤ 83 := by
      unfold Ee641.referenceExp
      have h1 := bitsAt_lt_two_pow (W (0x2419 + Ee641.rowPair i / 2)) 5 6
      have h2 := bitsAt_lt_two_pow (W (0x2419 + Ee641.rowPair i / 2)) 0 5
      split <;> omega
    have key := alpha641_close (F := F) (a := Ee641.alphaRaw W i) (r := (W (0x241C + Ee641.rowPair i)).toNat)
      (hw _) (hw _) he
    have e : ((ofInt (Ee641.alphaRaw W i : Int) /. lit 2047) *. reference641 W (Ee641.rowPair i) : ℝ) =
        (Ee641.alphaRaw W i : ℝ) / 2047 * (((W (0x241C + Ee641.rowPair i)).toNat : ℝ) /
          2 ^ Ee641.referenceExp W (Ee641.rowPair i)) := by
      unfold reference641
      rw [real_exp2_nat]
      show ((Ee641.alphaRaw W i : Int) : ℝ) / ((2047 : Rat) : ℝ) *
        ((((W (0x241C + Ee641.rowPair i)).toNat : Int) : ℝ) / 2 ^ Ee641.referenceExp W (Ee641.rowPair i)) = _
      push_cast; rfl
    simp only
    rw [e, abs_of_nonneg (by positivity)]
    exact key

/-! ### The hypotheses can be met -/

/-- The worked examples are regular, with moderate scales, and accepted in binary32 arithmetic. -/
example (m : Mode) : (∃ c, Mlx90640.fromData (F := Rounded) m example640 = .ok c) ∧
    Ee640.Regular (eepromWord example640) := by
  refine ⟨example640_accepted m, SameEeprom.regular (E := eepromOf (exampleMemory words640)) ?_ example640_regular⟩
  intro a h1 h2
  rw [exampleMemory_eeprom _ h1 h2]
  have := eepromWord_dump words640 (a - 0x2400) (by omega)
  rw [show 0x2400 + (a - 0x2400) = a by omega] at this
  exact this.symm

example (m : Mode) : (∃ c, Mlx90641.fromData (F := Rounded) m example641 = .ok c) ∧
    Ee641.Holds example641 values641 (Ee641.readAddresses 192) ∧ Ee641.Regular values641 ∧ ModerateScales values641 :=
  ⟨example641_accepted m, example641_holds, example641_regular, by unfold ModerateScales; decide +kernel⟩

end Mlx.Props
