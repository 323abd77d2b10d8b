import Verif.Spec.Register
/-
Bit-level lemmas about the registers.
-/
set_option autoImplicit false
namespace Mlx.Proofs
open Mlx Mlx.Spec

/-- Two words with the same bits are equal. -/
theorem word_ext {a b : Word} (h : ∀ i, i < 16 → a.getLsbD i = b.getLsbD i) : a = b :=
  BitVec.eq_of_getLsbD_eq h

/-- `mask` has exactly the bits `lo .. lo + n - 1`. -/
def MaskAt (mask : Word) (lo n : Nat) : Prop :=
  ∀ i : Fin 16, mask.getLsbD i = decide (lo ≤ i.val ∧ i.val < lo + n)

instance (mask : Word) (lo n : Nat) : Decidable (MaskAt mask lo n) := by unfold MaskAt; infer_instance

theorem MaskAt.bit {mask : Word} {lo n : Nat} (h : MaskAt mask lo n) {i : Nat} (hi : i < 16) :
    mask.getLsbD i = decide (lo ≤ i ∧ i < lo + n) := h ⟨i, hi⟩

theorem mask_shift {mask : Word} {lo n : Nat} (h : MaskAt mask lo n) (hn : lo + n ≤ 16) (w : Word) :
    (w &&& mask) >>> lo = (w.extractLsb' lo n).setWidth 16 := by
  apply word_ext
  intro i hi
  rw [BitVec.getLsbD_ushiftRight, BitVec.getLsbD_and, BitVec.getLsbD_setWidth,
    BitVec.getLsbD_extractLsb']
  by_cases hl : lo + i < 16
  · rw [h.bit hl]
    by_cases h1 : i < n
    · have h2 : lo ≤ lo + i ∧ lo + i < lo + n := ⟨by omega, by omega⟩
      simp [h1, hi]
    · have h2 : ¬ (lo ≤ lo + i ∧ lo + i < lo + n) := by omega
      simp [h1]
  · have h1 : ¬ i < n := by omega
    have : w.getLsbD (lo + i) = false := BitVec.getLsbD_of_ge w _ (by omega)
    simp [h1, this]

theorem insert_bits {mask : Word} {lo n : Nat} (h : MaskAt mask lo n) (w v : Word)
    (hv : v.toNat < 2 ^ n) (i : Nat) (hi : i < 16) :
    (w &&& ~~~mask ||| (v <<< lo)).getLsbD i =
      if lo ≤ i ∧ i < lo + n then v.getLsbD (i - lo) else w.getLsbD i := by
  rw [BitVec.getLsbD_or, BitVec.getLsbD_and, BitVec.getLsbD_not, BitVec.getLsbD_shiftLeft, h.bit hi]
  by_cases h1 : lo ≤ i
  · by_cases h2 : i < lo + n
    · have : ¬ i < lo := by omega
      simp [h1, h2, hi, this]
    · have h3 : v.getLsbD (i - lo) = false := by
        rw [BitVec.getLsbD]
        apply Nat.testBit_lt_two_pow
        exact Nat.lt_of_lt_of_le hv (Nat.pow_le_pow_right (by omega) (by omega))
      simp [h1, h2, hi, h3]
  · have : i < lo := by omega
    simp [h1, hi, this]

/-- A one-bit mask test reads the bit. -/
theorem mask_test {mask : Word} {lo : Nat} (h : MaskAt mask lo 1) (hn : lo < 16) (w : Word) :
    decide (w &&& mask > 0#16) = w.getLsbD lo := by
  have e : w &&& mask = if w.getLsbD lo then mask else 0#16 := by
    apply word_ext
    intro i hi
    rw [BitVec.getLsbD_and, h.bit hi]
    by_cases h1 : i = lo
    · subst h1
      cases hb : w.getLsbD i
      · simp
      · have := h.bit hi
        simp at this ⊢
        exact this
    · have h2 : ¬ (lo ≤ i ∧ i < lo + 1) := by omega
      have := h.bit hi
      rw [decide_eq_false h2] at this
      cases w.getLsbD lo <;> simp [h2, this]
  rw [e]
  cases hb : w.getLsbD lo
  · simp
  · simp only [if_true, decide_eq_true_eq, gt_iff_lt]
    have hm : mask ≠ 0#16 := by
      intro h0
      have := h.bit hn
      simp [h0] at this
    have : mask.toNat ≠ 0 := fun hz => hm (BitVec.eq_of_toNat_eq (by simpa using hz))
    show (0#16).toNat < mask.toNat
    simp
    omega

theorem setBit_bits {mask : Word} {lo : Nat} (h : MaskAt mask lo 1) (w : Word) (b : Bool) (i : Nat)
    (hi : i < 16) :
    (ControlReg.setBit w mask b).getLsbD i = if i = lo then b else w.getLsbD i := by
  unfold ControlReg.setBit
  have hm := h.bit hi
  by_cases h1 : i = lo
  · subst h1
    have : mask.getLsbD i = true := by rw [hm]; simp
    cases b <;> simp [this]
  · have h2 : ¬ (lo ≤ i ∧ i < lo + 1) := by omega
    rw [decide_eq_false h2] at hm
    cases b <;> simp only [h1, if_false, Bool.false_eq_true, if_true, BitVec.getLsbD_or,
      BitVec.getLsbD_and, BitVec.getLsbD_not, hm, hi] <;> simp

theorem bitsAt_eq (w : Word) (lo n : Nat) : bitsAt w lo n = (w.extractLsb' lo n).toNat := by
  simp [bitsAt, Nat.shiftRight_eq_div_pow]

theorem bitsAt_testBit (w : Word) (lo n i : Nat) :
    (bitsAt w lo n).testBit i = (decide (i < n) && w.getLsbD (lo + i)) := by
  rw [bitsAt_eq]
  exact BitVec.getLsbD_extractLsb' ..

theorem code_lt (f : CtrlField) (v : f.Val) : f.code v < 2 ^ f.width := by
  cases f <;> cases v <;> decide

theorem code_inj (f : CtrlField) (v v' : f.Val) (h : f.code v = f.code v') : v = v' := by
  cases f <;> cases v <;> cases v' <;> first | rfl | (exact absurd h (by decide))

/-- Setters, bit by bit. -/
theorem set_bits (f : CtrlField) (c : ControlReg) (v : f.Val) (i : Nat) :
    (f.set c v).raw.getLsbD i =
      if f.Covers i then (f.code v).testBit (i - f.lo) else c.raw.getLsbD i := by
  by_cases hi : i < 16
  · cases f
    case useSubpages =>
      refine (setBit_bits (mask := ControlReg.useSubpagesMask) (lo := 0) (by decide) c.raw v i hi).trans ?_
      by_cases h : i = 0
      · subst h; cases v <;> rfl
      · have : ¬ CtrlField.useSubpages.Covers i := by simp [CtrlField.Covers, CtrlField.lo, CtrlField.width]; omega
        simp [h, this]
    case stepMode =>
      refine (setBit_bits (mask := ControlReg.stepModeMask) (lo := 1) (by decide) c.raw v i hi).trans ?_
      by_cases h : i = 1
      · subst h; cases v <;> rfl
      · have : ¬ CtrlField.stepMode.Covers i := by simp [CtrlField.Covers, CtrlField.lo, CtrlField.width]; omega
        simp [h, this]
    case dataHold =>
      refine (setBit_bits (mask := ControlReg.dataHoldMask) (lo := 2) (by decide) c.raw v i hi).trans ?_
      by_cases h : i = 2
      · subst h; cases v <;> rfl
      · have : ¬ CtrlField.dataHold.Covers i := by simp [CtrlField.Covers, CtrlField.lo, CtrlField.width]; omega
        simp [h, this]
    case subpageRepeat =>
      refine (setBit_bits (mask := ControlReg.subpageRepeatMask) (lo := 3) (by decide) c.raw v i hi).trans ?_
      by_cases h : i = 3
      · subst h; cases v <;> rfl
      · have : ¬ CtrlField.subpageRepeat.Covers i := by simp [CtrlField.Covers, CtrlField.lo, CtrlField.width]; omega
        simp [h, this]
    case subpage =>
      show (c.raw &&& ~~~ControlReg.subpageMask ||| (BitVec.ofNat 16 (Subpage.toNat v) <<< 4)).getLsbD i = _
      refine (insert_bits (mask := ControlReg.subpageMask) (lo := 4) (n := 1) (by decide) _ _ (by cases v <;> decide) _ hi).trans ?_
      have : (BitVec.ofNat 16 (Subpage.toNat v)).toNat = CtrlField.code .subpage v := by cases v <;> rfl
      rw [BitVec.getLsbD, this]
      rfl
    case frameRate =>
      show (c.raw &&& ~~~ControlReg.frameRateMask ||| (FrameRate.asRaw v <<< 7)).getLsbD i = _
      refine (insert_bits (mask := ControlReg.frameRateMask) (lo := 7) (n := 3) (by decide) _ _ (by cases v <;> decide) _ hi).trans ?_
      have : (FrameRate.asRaw v).toNat = CtrlField.code .frameRate v := by cases v <;> rfl
      rw [BitVec.getLsbD, this]
      rfl
    case resolution =>
      show (c.raw &&& ~~~ControlReg.resolutionMask ||| (Resolution.asRaw v <<< 10)).getLsbD i = _
      refine (insert_bits (mask := ControlReg.resolutionMask) (lo := 10) (n := 2) (by decide) _ _ (by cases v <;> decide) _ hi).trans ?_
      have : (Resolution.asRaw v).toNat = CtrlField.code .resolution v := by cases v <;> rfl
      rw [BitVec.getLsbD, this]
      rfl
    case accessPattern =>
      show (c.raw &&& ~~~ControlReg.accessPatternMask |||
        (BitVec.ofNat 16 (AccessPattern.toNat v) <<< 12)).getLsbD i = _
      refine (insert_bits (mask := ControlReg.accessPatternMask) (lo := 12) (n := 1) (by decide) _ _ (by cases v <;> decide) _ hi).trans ?_
      have : (BitVec.ofNat 16 (AccessPattern.toNat v)).toNat = CtrlField.code .accessPattern v := by
        cases v <;> rfl
      rw [BitVec.getLsbD, this]
      rfl
  · have h1 : ¬ f.Covers i := by
      cases f <;> simp only [CtrlField.Covers, CtrlField.lo, CtrlField.width] <;> omega
    rw [if_neg h1, BitVec.getLsbD_of_ge _ _ (by omega), BitVec.getLsbD_of_ge _ _ (by omega)]

theorem bit_cases (w : Word) (lo : Nat) : bitsAt w lo 1 = (w.getLsbD lo).toNat := by
  have h := bitsAt_testBit w lo 1 0
  have h2 : bitsAt w lo 1 < 2 := by unfold bitsAt; omega
  simp at h
  rw [← h]
  rcases (show bitsAt w lo 1 = 0 ∨ bitsAt w lo 1 = 1 by omega) with h3 | h3 <;> rw [h3] <;> rfl

theorem frameRate_table : ∀ b : BitVec 3, ∃ r : FrameRate,
    FrameRate.fromRaw (b.setWidth 16) = .ok r ∧ CtrlField.code .frameRate r = b.toNat := by
  intro b
  match b with
  | 0#3 => exact ⟨.half, rfl, rfl⟩
  | 1#3 => exact ⟨.one, rfl, rfl⟩
  | 2#3 => exact ⟨.two, rfl, rfl⟩
  | 3#3 => exact ⟨.four, rfl, rfl⟩
  | 4#3 => exact ⟨.eight, rfl, rfl⟩
  | 5#3 => exact ⟨.sixteen, rfl, rfl⟩
  | 6#3 => exact ⟨.thirtyTwo, rfl, rfl⟩
  | 7#3 => exact ⟨.sixtyFour, rfl, rfl⟩

theorem resolution_table : ∀ b : BitVec 2, ∃ r : Resolution,
    Resolution.fromRaw (b.setWidth 16) = .ok r ∧ CtrlField.code .resolution r = b.toNat := by
  intro b
  match b with
  | 0#2 => exact ⟨.sixteen, rfl, rfl⟩
  | 1#2 => exact ⟨.seventeen, rfl, rfl⟩
  | 2#2 => exact ⟨.eighteen, rfl, rfl⟩
  | 3#2 => exact ⟨.nineteen, rfl, rfl⟩

/-- Getters: they succeed and return the value whose code is stored in the field. -/
theorem get_code (f : CtrlField) (c : ControlReg) :
    ∃ v, f.get c = .ok v ∧ f.code v = bitsAt c.raw f.lo f.width := by
  cases f
  case useSubpages =>
    refine ⟨_, rfl, ?_⟩
    show Bool.toNat (decide _) = _
    rw [mask_test (mask := ControlReg.useSubpagesMask) (lo := 0) (by decide) (by decide)]; exact (bit_cases _ _).symm
  case stepMode =>
    refine ⟨_, rfl, ?_⟩
    show Bool.toNat (decide _) = _
    rw [mask_test (mask := ControlReg.stepModeMask) (lo := 1) (by decide) (by decide)]; exact (bit_cases _ _).symm
  case dataHold =>
    refine ⟨_, rfl, ?_⟩
    show Bool.toNat (decide _) = _
    rw [mask_test (mask := ControlReg.dataHoldMask) (lo := 2) (by decide) (by decide)]; exact (bit_cases _ _).symm
  case subpageRepeat =>
    refine ⟨_, rfl, ?_⟩
    show Bool.toNat (decide _) = _
    rw [mask_test (mask := ControlReg.subpageRepeatMask) (lo := 3) (by decide) (by decide)]; exact (bit_cases _ _).symm
  case subpage =>
    show ∃ v, c.subpage = .ok v ∧ _ = bitsAt c.raw 4 1
    unfold ControlReg.subpage
    rw [mask_shift (mask := ControlReg.subpageMask) (lo := 4) (n := 1) (by decide) (by decide), bitsAt_eq]
    generalize BitVec.extractLsb' 4 1 c.raw = b
    match b with
    | 0#1 => exact ⟨.zero, rfl, rfl⟩
    | 1#1 => exact ⟨.one, rfl, rfl⟩
  case frameRate =>
    show ∃ v, c.frameRate = .ok v ∧ _ = bitsAt c.raw 7 3
    unfold ControlReg.frameRate
    rw [mask_shift (mask := ControlReg.frameRateMask) (lo := 7) (n := 3) (by decide) (by decide), bitsAt_eq]
    obtain ⟨r, h1, h2⟩ := frameRate_table (BitVec.extractLsb' 7 3 c.raw)
    exact ⟨r, by rw [h1]; rfl, h2⟩
  case resolution =>
    show ∃ v, c.resolution = .ok v ∧ _ = bitsAt c.raw 10 2
    unfold ControlReg.resolution
    rw [mask_shift (mask := ControlReg.resolutionMask) (lo := 10) (n := 2) (by decide) (by decide), bitsAt_eq]
    obtain ⟨r, h1, h2⟩ := resolution_table (BitVec.extractLsb' 10 2 c.raw)
    exact ⟨r, by rw [h1]; rfl, h2⟩
  case accessPattern =>
    show ∃ v, c.accessPattern = .ok v ∧ _ = bitsAt c.raw 12 1
    unfold ControlReg.accessPattern
    rw [mask_shift (mask := ControlReg.accessPatternMask) (lo := 12) (n := 1) (by decide) (by decide), bitsAt_eq]
    generalize BitVec.extractLsb' 12 1 c.raw = b
    match b with
    | 0#1 => exact ⟨.interleave, rfl, rfl⟩
    | 1#1 => exact ⟨.chess, rfl, rfl⟩

theorem get_iff (f : CtrlField) (c : ControlReg) (v : f.Val) :
    f.get c = .ok v ↔ bitsAt c.raw f.lo f.width = f.code v := by
  obtain ⟨v', h1, h2⟩ := get_code f c
  rw [h1, ← h2]
  constructor
  · intro h; cases h; rfl
  · intro h; rw [code_inj f _ _ h]

theorem bitsAt_set (f : CtrlField) (c : ControlReg) (v : f.Val) :
    bitsAt (f.set c v).raw f.lo f.width = f.code v := by
  apply Nat.eq_of_testBit_eq
  intro i
  rw [bitsAt_testBit, set_bits]
  by_cases h : i < f.width
  · have : f.Covers (f.lo + i) := ⟨by omega, by omega⟩
    simp [h, this]
  · have : (f.code v).testBit i = false := by
      apply Nat.testBit_lt_two_pow
      exact Nat.lt_of_lt_of_le (code_lt f v) (Nat.pow_le_pow_right (by omega) (by omega))
    simp [h, this]

/-! ### Status register -/

theorem status_subpage {ε : Type} (s : StatusReg) :
    s.lastUpdatedSubpage (ε := ε) = .ok (if s.raw.getLsbD 0 then .one else .zero) := by
  unfold StatusReg.lastUpdatedSubpage
  have h := mask_shift (mask := StatusReg.subpageMask) (lo := 0) (n := 1) (by decide) (by decide) s.raw
  rw [BitVec.ushiftRight_zero] at h
  rw [h]
  have h2 := bit_cases s.raw 0
  rw [bitsAt_eq] at h2
  have h3 : ((s.raw.extractLsb' 0 1).setWidth 16).toNat = (s.raw.getLsbD 0).toNat := by
    rw [← h2, BitVec.toNat_setWidth]
    have := (s.raw.extractLsb' 0 1).isLt
    omega
  rw [h3]
  cases s.raw.getLsbD 0 <;> rfl

theorem status_newData (s : StatusReg) : s.newData = s.raw.getLsbD 3 :=
  mask_test (by decide) (by decide) _

theorem setBit_bits' {mask : Word} {lo : Nat} (h : MaskAt mask lo 1) (hl : lo < 16) (w : Word) (b : Bool)
    (i : Nat) : (ControlReg.setBit w mask b).getLsbD i = if i = lo then b else w.getLsbD i := by
  by_cases hi : i < 16
  · exact setBit_bits h w b i hi
  · have : i ≠ lo := by omega
    rw [if_neg this, BitVec.getLsbD_of_ge _ _ (by omega), BitVec.getLsbD_of_ge _ _ (by omega)]

theorem resetNewData_bits (s : StatusReg) (i : Nat) :
    s.resetNewData.raw.getLsbD i = if i = 3 then false else s.raw.getLsbD i :=
  setBit_bits' (mask := StatusReg.newDataMask) (lo := 3) (by decide) (by decide) s.raw false i

theorem setOverwrite_bits (s : StatusReg) (b : Bool) (i : Nat) :
    (s.setOverwriteEnabled b).raw.getLsbD i = if i = 4 then b else s.raw.getLsbD i := by
  have := setBit_bits' (mask := StatusReg.overwriteMask) (lo := 4) (by decide) (by decide) s.raw b i
  rw [← this]
  cases b <;> rfl

theorem setStart_bits (s : StatusReg) (i : Nat) :
    s.setStartMeasurement.raw.getLsbD i = if i = 5 then true else s.raw.getLsbD i :=
  setBit_bits' (mask := StatusReg.stepMask) (lo := 5) (by decide) (by decide) s.raw true i

/-! ### Bytes -/

theorem be16_toBe (w : Word) : be16 (hiByte w) (loByte w) = w := by
  apply word_ext
  intro i hi
  unfold be16 hiByte loByte
  rw [BitVec.getLsbD_append]
  by_cases h : i < 8
  · simp [h]
  · have h1 : i - 8 < 8 := by omega
    have h2 : 8 + (i - 8) = i := by omega
    simp [h, h1, h2]

theorem be16_toNat (a b : Byte) : (be16 a b).toNat = a.toNat * 256 + b.toNat := by
  unfold be16
  rw [BitVec.toNat_append, Nat.shiftLeft_eq, Nat.mul_comm, ← Nat.two_pow_add_eq_or_of_lt b.isLt]

theorem toBe_be16 (a b : Byte) : toBe (be16 a b) = [a, b] := by
  unfold toBe hiByte loByte be16
  congr 1
  · apply BitVec.eq_of_getLsbD_eq
    intro i hi
    rw [BitVec.getLsbD_extractLsb', BitVec.getLsbD_append]
    have : ¬ 8 + i < 8 := by omega
    have h2 : 8 + i - 8 = i := by omega
    simp [hi]
  · congr 1
    apply BitVec.eq_of_getLsbD_eq
    intro i hi
    rw [BitVec.getLsbD_extractLsb', BitVec.getLsbD_append]
    simp [hi]

theorem isBitSet16_eq (w : Word) (i : Nat) (hi : i < 16) : isBitSet16 w i = w.getLsbD i := by
  unfold isBitSet16
  apply mask_test _ hi
  intro j
  rw [BitVec.getLsbD_shiftLeft]
  have hj := j.isLt
  by_cases h : j.val = i
  · simp [h, hi]
  · by_cases h2 : j.val < i
    · have : ¬ (i ≤ j.val) := by omega
      simp [h2, this]
    · have h3 : ¬ (j.val < i + 1) := by omega
      have h4 : (1#16).getLsbD (j.val - i) = false := by
        have h5 : j.val - i ≠ 0 := by omega
        rw [BitVec.getLsbD, Nat.testBit_lt_two_pow]
        calc (1#16).toNat < 2 ^ 1 := by decide
          _ ≤ 2 ^ (j.val - i) := Nat.pow_le_pow_right (by decide) (by omega)
      simp [h3, h4]

theorem masked_eq_iff (a b m : Word) :
    a &&& m = b &&& m ↔ ∀ i, i < 16 → m.getLsbD i = true → a.getLsbD i = b.getLsbD i := by
  constructor
  · intro h i hi hm
    have := congrArg (fun x : Word => x.getLsbD i) h
    simpa only [BitVec.getLsbD_and, hm, Bool.and_true] using this
  · intro h
    apply word_ext
    intro i hi
    rw [BitVec.getLsbD_and, BitVec.getLsbD_and]
    cases hm : m.getLsbD i
    · simp
    · rw [h i hi hm]

/-! ### Enum conversions -/

theorem frameRate_err (w : Word) : (∃ e, FrameRate.fromRaw w = .err e) ↔ 8 ≤ w.toNat := by
  unfold FrameRate.fromRaw
  constructor
  · rintro ⟨e, h⟩
    repeat' split at h
    all_goals first | (cases h; done) | skip
    simp only [← BitVec.toNat_inj] at *
    simp at *
    omega
  · intro h
    have : ∀ k : Nat, k < 8 → w ≠ BitVec.ofNat 16 k := by
      intro k hk hw
      rw [hw, BitVec.toNat_ofNat] at h
      omega
    refine ⟨.invalidData "Invalid frame rate given", ?_⟩
    rw [if_neg (show ¬ w = 0 from this 0 (by decide)), if_neg (show ¬ w = 1 from this 1 (by decide)), if_neg (show ¬ w = 2 from this 2 (by decide)),
      if_neg (show ¬ w = 3 from this 3 (by decide)), if_neg (show ¬ w = 4 from this 4 (by decide)), if_neg (show ¬ w = 5 from this 5 (by decide)),
      if_neg (show ¬ w = 6 from this 6 (by decide)), if_neg (show ¬ w = 7 from this 7 (by decide))]

theorem resolution_err (w : Word) : (∃ e, Resolution.fromRaw w = .err e) ↔ 4 ≤ w.toNat := by
  unfold Resolution.fromRaw
  constructor
  · rintro ⟨e, h⟩
    repeat' split at h
    all_goals first | (cases h; done) | skip
    simp only [← BitVec.toNat_inj] at *
    simp at *
    omega
  · intro h
    have : ∀ k : Nat, k < 4 → w ≠ BitVec.ofNat 16 k := by
      intro k hk hw
      rw [hw, BitVec.toNat_ofNat] at h
      omega
    refine ⟨.invalidData "Invalid raw resolution value given", ?_⟩
    rw [if_neg (show ¬ w = 0 from this 0 (by decide)), if_neg (show ¬ w = 1 from this 1 (by decide)), if_neg (show ¬ w = 2 from this 2 (by decide)),
      if_neg (show ¬ w = 3 from this 3 (by decide))]

theorem frameRate_u8 : ∀ (b : Byte) (r : FrameRate), FrameRate.tryFromU8 b = .ok r ↔ r.hz = b.toNat := by
  have : ∀ r : FrameRate, ∀ b : Byte, FrameRate.tryFromU8 b = .ok r ↔ r.hz = b.toNat := by
    intro r
    cases r <;> decide +kernel
  exact fun b r => this r b

theorem frameRate_u8_err (b : Byte) :
    (∃ e, FrameRate.tryFromU8 b = .err e) ↔ ¬ ∃ r : FrameRate, r.hz = b.toNat := by
  constructor
  · rintro ⟨e, h⟩ ⟨r, hr⟩
    rw [(frameRate_u8 b r).2 hr] at h
    cases h
  · intro h
    cases hx : FrameRate.tryFromU8 b with
    | ok r => exact absurd ⟨r, (frameRate_u8 b r).1 hx⟩ h
    | err e => exact ⟨e, rfl⟩
    | panic =>
      unfold FrameRate.tryFromU8 at hx
      repeat' split at hx
      all_goals cases hx

theorem resolution_u8 : ∀ (b : Byte) (r : Resolution), Resolution.tryFromU8 b = .ok r ↔ r.toU8 = b := by
  have : ∀ r : Resolution, ∀ b : Byte, Resolution.tryFromU8 b = .ok r ↔ r.toU8 = b := by
    intro r
    cases r <;> decide +kernel
  exact fun b r => this r b

theorem resolution_u8_err : ∀ b : Byte,
    (∃ e, Resolution.tryFromU8 b = .err e) ↔ ¬ (16 ≤ b.toNat ∧ b.toNat ≤ 19) := by
  have : ∀ b : Byte, (Resolution.tryFromU8 b).isOk = true ↔ (16 ≤ b.toNat ∧ b.toNat ≤ 19) := by
    decide +kernel
  intro b
  rw [← this]
  cases hx : Resolution.tryFromU8 b with
  | ok r => simp [Res.isOk]
  | err e => simp [Res.isOk]
  | panic =>
    unfold Resolution.tryFromU8 at hx
    repeat' split at hx
    all_goals cases hx

end Mlx.Proofs
