import Verif.Proofs.Guard
import Verif.Model.Eeprom640
/-
The row and column passes over the MLX90640 pixel calibration, and the per-pixel loop.
-/
set_option linter.unusedSectionVars false
set_option autoImplicit false
namespace Mlx.Proofs
open Mlx Mlx.Spec F32Ops
variable {ε α β : Type} {data : List Byte}

/-- Byte position of a word of a dump. -/
def pos (A : Nat) : Nat := 2 * A

/-- Word `A` of a dump. -/
def ew (data : List Byte) (A : Nat) : Word := be16 (data.getD (2 * A) 0#8) (data.getD (2 * A + 1) 0#8)

theorem pos_succ (A : Nat) : pos A + 2 = pos (A + 1) := by unfold pos; omega

theorem pos_add (A n : Nat) : pos (A + n) = pos A + 2 * n := by unfold pos; omega

theorem ew_pos (A : Nat) : ew data A = be16 (data.getD (pos A) 0#8) (data.getD (pos A + 1) 0#8) := rfl

theorem eepromWord_eq (A : Nat) : eepromWord data (0x2400 + A) = ew data A := by
  unfold eepromWord ew
  rw [Nat.add_sub_cancel_left]

attribute [irreducible] pos

theorem lift_onlyIf (P : Prop) (a : α) (s : List Byte) :
    Parser.lift (onlyIf P a : Res ε α) s = onlyIf P (a, s) := by
  unfold Parser.lift
  by_cases hp : P
  · rw [onlyIf_pos hp, onlyIf_pos hp]
  · rw [onlyIf_neg hp, onlyIf_neg hp]

theorem lift_ok (a : α) (s : List Byte) : Parser.lift (.ok a : Res ε α) s = .ok (a, s) := rfl

theorem wordToU4s_at (A : Nat) (h : pos (A + 1) ≤ data.length) :
    Mlx90640.wordToU4s (ε := ε) (data.drop (pos A)) =
      .ok ((bitsAt (ew data A) 12 4, bitsAt (ew data A) 8 4, bitsAt (ew data A) 4 4,
        bitsAt (ew data A) 0 4), data.drop (pos (A + 1))) := by
  rw [← pos_succ A] at h ⊢
  unfold Mlx90640.wordToU4s
  rw [Parser.bind_apply, getU8_at _ (by omega), Res.ok_bind, Parser.bind_apply, getU8_at _ (by omega),
    Res.ok_bind, Parser.pure_apply, ew_pos, bitsAt_hiHi, bitsAt_hiLo, bitsAt_loHi, bitsAt_loLo]

theorem wordToI4s_at (A : Nat) (h : pos (A + 1) ≤ data.length) :
    Mlx90640.wordToI4s (ε := ε) (data.drop (pos A)) =
      .ok ((signedAt (ew data A) 12 4, signedAt (ew data A) 8 4,
        signedAt (ew data A) 4 4, signedAt (ew data A) 0 4), data.drop (pos (A + 1))) := by
  rw [← pos_succ A] at h ⊢
  unfold Mlx90640.wordToI4s Mlx90640.u8ToI4s
  rw [Parser.bind_apply, getU8_at _ (by omega), Res.ok_bind, Parser.bind_apply, getU8_at _ (by omega),
    Res.ok_bind, Parser.pure_apply, ew_pos, signedAt_hiHi, signedAt_hiLo, signedAt_loHi, signedAt_loLo]

theorem getI16_word (A : Nat) (h : pos (A + 1) ≤ data.length) :
    getI16 (ε := ε) (data.drop (pos A)) =
      .ok (signedAt (ew data A) 0 16, data.drop (pos (A + 1))) := by
  rw [← pos_succ A] at h ⊢
  rw [getI16_at _ (by omega), ew_pos, signedAt_word]

theorem getU16_word (A : Nat) (h : pos (A + 1) ≤ data.length) :
    getU16 (ε := ε) (data.drop (pos A)) = .ok (ew data A, data.drop (pos (A + 1))) := by
  rw [← pos_succ A] at h ⊢
  rw [getU16_at _ (by omega), ew_pos]

theorem getI8_hi (A : Nat) (h : pos (A + 1) ≤ data.length) :
    getI8 (ε := ε) (data.drop (pos A)) =
      .ok (signedAt (ew data A) 8 8, data.drop (pos A + 1)) := by
  rw [← pos_succ A] at h
  rw [getI8_at _ (by omega), ew_pos, signedAt_hi]

theorem getI8_lo (A : Nat) (h : pos (A + 1) ≤ data.length) :
    getI8 (ε := ε) (data.drop (pos A + 1)) =
      .ok (signedAt (ew data A) 0 8, data.drop (pos (A + 1))) := by
  rw [← pos_succ A] at h ⊢
  rw [getI8_at _ (by omega), ew_pos, signedAt_lo]

theorem bitsAt_lo8 (a b : Byte) : bitsAt (be16 a b) 0 8 = b.toNat := by
  unfold bitsAt; rw [be16_toNat]; have := a.isLt; have := b.isLt; omega

theorem getU8_lo (A : Nat) (h : pos (A + 1) ≤ data.length) :
    ∃ b : Byte, getU8 (ε := ε) (data.drop (pos A + 1)) = .ok (b, data.drop (pos (A + 1))) ∧
      b.toNat = bitsAt (ew data A) 0 8 := by
  rw [← pos_succ A] at h ⊢
  refine ⟨_, getU8_at _ (by omega), ?_⟩
  rw [ew_pos, bitsAt_lo8]

theorem word610_at (A : Nat) (h : pos (A + 1) ≤ data.length) :
    Mlx90640.word610Split (ε := ε) (data.drop (pos A)) =
      .ok ((signedAt (ew data A) 10 6,
        [data.getD (pos A) 0#8 &&& 0x03#8, data.getD (pos A + 1) 0#8]), data.drop (pos (A + 1))) := by
  rw [← pos_succ A] at h ⊢
  unfold Mlx90640.word610Split
  rw [Parser.bind_apply, getU8_at _ (by omega), Res.ok_bind, Parser.bind_apply, getU8_at _ (by omega),
    Res.ok_bind, Parser.pure_apply, ew_pos, signedAt_hi6]

theorem be16_lo10 (A : Nat) :
    (be16 (data.getD (pos A) 0#8 &&& 0x03#8) (data.getD (pos A + 1) 0#8)).toNat =
      bitsAt (ew data A) 0 10 := by
  rw [ew_pos, be16_toNat]
  unfold bitsAt
  rw [be16_toNat, byte_lo2]
  have := (data.getD (pos A) 0#8).isLt; have := (data.getD (pos A + 1) 0#8).isLt; omega

theorem signedAt_lo10 (m : Mode) (A : Nat) :
    i16FromBits (ε := ε) m [data.getD (pos A) 0#8 &&& 0x03#8, data.getD (pos A + 1) 0#8] 10 =
      .ok (signedAt (ew data A) 0 10) := by
  rw [i16FromBits_two _ _ _ _ _ (by decide) (by decide), be16_lo10]
  unfold signedAt bitsAt
  refine congrArg Res.ok ?_
  simp only [Int.bmod_def, Nat.reducePow]
  omega

theorem revCoeff_eq (w : Word) (j : Nat) (h : j < 4) :
    Mlx90640.revCoeff (signedAt w 12 4, signedAt w 8 4, signedAt w 4 4, signedAt w 0 4) j =
      signedAt w (4 * j) 4 := by
  match j, h with
  | 0, _ => rfl
  | 1, _ => rfl
  | 2, _ => rfl
  | 3, _ => rfl

/-- What a series of passes over pixels does: pass `k` updates the pixels `i` with `part i = k`. -/
theorem passes_at (passes : Nat → Nat → List Int → Parser ε (List Int)) (m : Mode) (sc : Nat)
    (part nib : Nat → Nat) (hnib : ∀ i, nib i < 4)
    (h0 : ∀ k px, passes 0 k px = pure px)
    (h1 : ∀ fuel k px, passes (fuel + 1) k px = (do
      let coeffs ← Mlx90640.wordToI4s
      let px' ← Parser.lift (mapIdxRes (fun i x =>
        if part i = k then arith16 m (x + shl16 (Mlx90640.revCoeff coeffs (nib i)) sc) else .ok x) 0 px)
      passes fuel (k + 1) px'))
    (fuel k A : Nat) (xs : List Int) (hlen : pos (A + fuel) ≤ data.length) :
    passes fuel k xs (data.drop (pos A)) =
      onlyIf (∀ i x, xs[i]? = some x → k ≤ part i → part i < k + fuel →
          m = .wrapping ∨
            Fits16 (x + wrap16 (signedAt (ew data (A + (part i - k))) (4 * nib i) 4 * 2 ^ sc)))
        (xs.mapIdx (fun i x => if k ≤ part i ∧ part i < k + fuel then
            wrap16 (x + wrap16 (signedAt (ew data (A + (part i - k))) (4 * nib i) 4 * 2 ^ sc)) else x),
          data.drop (pos (A + fuel))) := by
  induction fuel generalizing k A xs with
  | zero =>
    rw [h0, Parser.pure_apply, onlyIf_pos]
    · have : (xs.mapIdx fun i x => if k ≤ part i ∧ part i < k + 0 then
          wrap16 (x + wrap16 (signedAt (ew data (A + (part i - k))) (4 * nib i) 4 * 2 ^ sc)) else x) = xs := by
        apply List.ext_getElem?
        intro i
        rw [List.getElem?_mapIdx]
        cases xs[i]? with
        | none => rfl
        | some x => simp only [Option.map_some]; rw [if_neg (by omega)]
      rw [this, Nat.add_zero]
    · intro i x _ h2 h3; omega
  | succ fuel ih =>
    have hp : pos (A + 1) ≤ data.length := by
      have := pos_add A (fuel + 1); have := pos_add A 1; omega
    rw [h1, Parser.bind_apply, wordToI4s_at A hp, Res.ok_bind, Parser.bind_apply]
    simp only
    rw [mapIdxRes_onlyIf (fun i x => part i = k → m = .wrapping ∨
        Fits16 (x + wrap16 (signedAt (ew data A) (4 * nib i) 4 * 2 ^ sc)))
      (fun i x => if part i = k then
        wrap16 (x + wrap16 (signedAt (ew data A) (4 * nib i) 4 * 2 ^ sc)) else x), lift_onlyIf]
    · have hih := ih (k + 1) (A + 1) (xs.mapIdx fun j x => if part (0 + j) = k then
          wrap16 (x + wrap16 (signedAt (ew data A) (4 * nib (0 + j)) 4 * 2 ^ sc)) else x)
        (by rw [show A + 1 + fuel = A + (fuel + 1) by omega]; exact hlen)
      refine (onlyIf_bind (f := fun r : List Int × List Byte => passes fuel (k + 1) r.1 r.2) fun _ => hih).trans ?_
      refine onlyIf_congr ?_ fun _ => ?_
      · constructor
        · rintro ⟨ha, hb⟩ i x hi h2 h3
          by_cases hk : part i = k
          · have := ha i x hi (by rw [Nat.zero_add]; exact hk)
            rw [hk, Nat.sub_self, Nat.add_zero]
            simpa only [Nat.zero_add] using this
          · have := hb i x (by
              rw [List.getElem?_mapIdx, hi, Option.map_some, Nat.zero_add, if_neg hk]) (by omega) (by omega)
            rwa [show A + 1 + (part i - (k + 1)) = A + (part i - k) by omega] at this
        · intro h
          constructor
          · intro i x hi hk
            rw [Nat.zero_add] at hk ⊢
            have := h i x hi (by omega) (by omega)
            rwa [hk, Nat.sub_self, Nat.add_zero] at this
          · intro i x hi h2 h3
            rw [List.getElem?_mapIdx] at hi
            cases hx : xs[i]? with
            | none => rw [hx] at hi; cases hi
            | some y =>
              rw [hx, Option.map_some, Nat.zero_add, if_neg (by omega)] at hi
              have := h i y hx (by omega) (by omega)
              cases hi
              rwa [show A + 1 + (part i - (k + 1)) = A + (part i - k) by omega]
      · rw [show A + 1 + fuel = A + (fuel + 1) by omega]
        congr 1
        apply List.ext_getElem?
        intro i
        rw [List.getElem?_mapIdx, List.getElem?_mapIdx, List.getElem?_mapIdx]
        cases xs[i]? with
        | none => rfl
        | some x =>
          simp only [Option.map_some, Nat.zero_add, Option.some.injEq]
          by_cases hk : part i = k
          · rw [if_pos hk, if_neg (by omega), if_pos (by omega), hk, Nat.sub_self, Nat.add_zero]
          · rw [if_neg hk]
            by_cases h2 : k + 1 ≤ part i ∧ part i < k + 1 + fuel
            · rw [if_pos h2, if_pos (by omega), show A + 1 + (part i - (k + 1)) = A + (part i - k) by omega]
            · rw [if_neg h2, if_neg (by omega)]
    · intro i x
      by_cases hk : part i = k
      · rw [if_pos hk, if_pos hk, arith16_eq, shl16_eq, revCoeff_eq _ _ (hnib i)]
        exact onlyIf_congr (by simp only [hk, true_imp_iff]) fun _ => rfl
      · rw [if_neg hk, if_neg hk, ok_eq_onlyIf]
        exact onlyIf_congr (by simp only [hk, false_imp_iff]) fun _ => rfl

/-- The sums over rows and columns for pixel `i`, from a block of words at `A`: scales, average, six words of
row coefficients, eight words of column coefficients. -/
def blockRow (data : List Byte) (A i : Nat) : Int :=
  Ee640.nibbleTable (ew data) (A + 2) (Ee640.row i) * 2 ^ bitsAt (ew data A) 8 4
def blockCol (data : List Byte) (A i : Nat) : Int :=
  Ee640.nibbleTable (ew data) (A + 8) (Ee640.col i) * 2 ^ bitsAt (ew data A) 4 4
def blockAvg (data : List Byte) (A : Nat) : Int := signedAt (ew data (A + 1)) 0 16

theorem bulk_at (m : Mode) (A : Nat) (hlen : pos (A + 16) ≤ data.length) :
    Mlx90640.bulkPixelCalibration (ε := ε) m (data.drop (pos A)) =
      onlyIf (∀ i < 768, m = .wrapping ∨
          (Fits16 (blockAvg data A + wrap16 (blockRow data A i)) ∧
           Fits16 (blockAvg data A + wrap16 (blockRow data A i) + wrap16 (blockCol data A i))))
        (((List.range 768).map fun i => wrap16 (blockAvg data A + blockRow data A i + blockCol data A i),
          bitsAt (ew data A) 0 4, bitsAt (ew data A) 12 4), data.drop (pos (A + 16))) := by
  have hl := pos_add A 16
  have e1 := pos_add A 1
  have e2 := pos_add A 2
  have e2' : pos (A + 1 + 1) = pos A + 2 * 2 := e2
  have e3 := pos_add A 8
  unfold Mlx90640.bulkPixelCalibration
  rw [Parser.bind_apply, wordToU4s_at A (by omega), Res.ok_bind, Parser.bind_apply,
    getI16_word (A + 1) (by omega), Res.ok_bind, Parser.bind_apply]
  simp only
  have hrow := passes_at (ε := ε) (data := data) (fun fuel k px => Mlx90640.rowPasses m (bitsAt (ew data A) 8 4) fuel k px) m
    (bitsAt (ew data A) 8 4) (fun i => i / (Mlx90640.width * 4)) (fun i => i / Mlx90640.width % 4)
    (fun i => Nat.mod_lt _ (by decide)) (fun _ _ => rfl) (fun _ _ _ => rfl) 6 0 (A + 2)
    (List.replicate 768 (blockAvg data A)) (by
      have : A + 2 + 6 = A + 8 := rfl
      rw [this]; omega)
  have hcol := fun xs => passes_at (ε := ε) (data := data) (fun fuel k px => Mlx90640.columnPasses m (bitsAt (ew data A) 4 4) fuel k px) m
    (bitsAt (ew data A) 4 4) (fun i => i % Mlx90640.width / 4) (fun i => i % Mlx90640.width % 4)
    (fun i => Nat.mod_lt _ (by decide)) (fun _ _ => rfl) (fun _ _ _ => rfl) 8 0 (A + 8) xs (by
      have : A + 8 + 8 = A + 16 := rfl
      rw [this]; omega)
  have ewd : Mlx90640.width = 32 := rfl
  have hd1 : Mlx90640.height / 4 = 6 := rfl
  have hd2 : Mlx90640.width / 4 = 8 := rfl
  have hn : Mlx90640.numPixels = 768 := rfl
  rw [hd1, hd2, hn]
  have hrow' : Mlx90640.rowPasses (ε := ε) m (bitsAt (ew data A) 8 4) 6 0
      (List.replicate 768 (signedAt (ew data (A + 1)) 0 16)) (data.drop (pos (A + 1 + 1))) = _ := hrow
  rw [hrow']
  refine (onlyIf_bind (Q := ∀ i < 768, m = .wrapping ∨
      Fits16 (wrap16 (blockAvg data A + wrap16 (blockRow data A i)) + wrap16 (blockCol data A i)))
    (b := (((List.range 768).map fun i => wrap16 (blockAvg data A + blockRow data A i + blockCol data A i),
      bitsAt (ew data A) 0 4, bitsAt (ew data A) 12 4), data.drop (pos (A + 16))))
    fun _ => ?_).trans ?_
  · simp only
    rw [Parser.bind_apply]
    have hx := hcol ((List.replicate 768 (blockAvg data A)).mapIdx (fun i x =>
      if 0 ≤ i / (Mlx90640.width * 4) ∧ i / (Mlx90640.width * 4) < 0 + 6 then
        wrap16 (x + wrap16 (signedAt (ew data (A + 2 + (i / (Mlx90640.width * 4) - 0)))
          (4 * (i / Mlx90640.width % 4)) 4 * 2 ^ bitsAt (ew data A) 8 4)) else x))
    have hx' : Mlx90640.columnPasses (ε := ε) m (bitsAt (ew data A) 4 4) 8 0 _ (data.drop (pos (A + 2 + 6))) = _ := hx
    rw [hx']
    have helem : ∀ i < 768, ((List.replicate 768 (blockAvg data A)).mapIdx (fun i x =>
      if 0 ≤ i / (Mlx90640.width * 4) ∧ i / (Mlx90640.width * 4) < 0 + 6 then
        wrap16 (x + wrap16 (signedAt (ew data (A + 2 + (i / (Mlx90640.width * 4) - 0)))
          (4 * (i / Mlx90640.width % 4)) 4 * 2 ^ bitsAt (ew data A) 8 4)) else x))[i]? =
        some (wrap16 (blockAvg data A + wrap16 (blockRow data A i))) := by
      intro i hi
      rw [List.getElem?_mapIdx, List.getElem?_replicate, if_pos hi, Option.map_some, ewd, if_pos (by omega)]
      unfold blockRow Ee640.nibbleTable Ee640.row
      rw [Nat.div_div_eq_div_mul, Nat.sub_zero]
    have hcolT : ∀ i, signedAt (ew data (A + 8 + (i % 32 / 4 - 0))) (4 * (i % 32 % 4)) 4 *
        2 ^ bitsAt (ew data A) 4 4 = blockCol data A i := by
      intro i; rfl
    refine (onlyIf_map _).trans (onlyIf_congr ?_ fun _ => ?_)
    · rw [ewd]
      constructor
      · intro h i hi
        have := h i _ (helem i hi) (by omega) (by omega)
        simp only [hcolT] at this
        exact this
      · intro h i x hi _ _
        have hlt : i < 768 := by
          have := (List.getElem?_eq_some_iff.1 hi).1
          rwa [List.length_mapIdx, List.length_replicate] at this
        have e := helem i hlt
        rw [ewd] at e
        rw [e] at hi
        have hi := Option.some.inj hi
        subst hi
        simp only [hcolT]
        exact h i hlt
    · simp only
      have : A + 8 + 8 = A + 16 := rfl
      rw [this]
      rw [Prod.mk.injEq, Prod.mk.injEq]
      refine ⟨⟨?_, rfl⟩, rfl⟩
      apply List.ext_getElem?
      intro i
      rw [List.getElem?_mapIdx, List.getElem?_map]
      by_cases hi : i < 768
      · rw [helem i hi, List.getElem?_range hi, Option.map_some, Option.map_some, ewd, if_pos (by omega)]
        simp only [hcolT]
        rw [wrap16_add_wrap16, wrap16_add_wrap16', add_right_comm, wrap16_add_wrap16', add_right_comm]
      · rw [List.getElem?_eq_none (by rw [List.length_mapIdx, List.length_replicate]; omega),
          List.getElem?_eq_none (by rw [List.length_range]; omega)]
        rfl
  · refine onlyIf_congr ?_ fun _ => rfl
    have hrowT : ∀ i, signedAt (ew data (A + 2 + (i / (32 * 4) - 0))) (4 * (i / 32 % 4)) 4 *
        2 ^ bitsAt (ew data A) 8 4 = blockRow data A i := by
      intro i
      unfold blockRow Ee640.nibbleTable Ee640.row
      rw [Nat.div_div_eq_div_mul, Nat.sub_zero]
    rw [ewd]
    constructor
    · rintro ⟨h1, h2⟩ i hi
      have a1 := h1 i (blockAvg data A) (by rw [List.getElem?_replicate, if_pos hi]) (by omega) (by omega)
      have a2 := h2 i hi
      simp only [hrowT] at a1
      rcases a1 with a1 | a1
      · exact Or.inl a1
      · rcases a2 with a2 | a2
        · exact Or.inl a2
        · rw [show wrap16 (blockAvg data A + wrap16 (blockRow data A i)) = _ from bmod_of_fits a1] at a2
          exact Or.inr ⟨a1, a2⟩
    · intro h
      constructor
      · intro i x hi _ _
        rw [List.getElem?_replicate] at hi
        by_cases hlt : i < 768
        · rw [if_pos hlt] at hi
          have hi := Option.some.inj hi
          subst hi
          simp only [hrowT]
          exact (h i hlt).imp id (fun a => a.1)
        · rw [if_neg hlt] at hi; cases hi
      · intro i hi
        refine (h i hi).imp id (fun a => ?_)
        rw [show wrap16 (blockAvg data A + wrap16 (blockRow data A i)) = _ from bmod_of_fits a.1]
        exact a.2

end Mlx.Proofs
