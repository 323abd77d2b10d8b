import Verif.Proofs.Register
import Verif.Spec.Real
import Verif.Model.Camera
/-
C05 to C10 and C57: registers and their conversions.
-/
set_option autoImplicit false
namespace Mlx.Props
open Mlx Mlx.Spec Mlx.Proofs

/-- **C05.** For every documented field of the control register and every register value: the getter succeeds
and returns the value whose documented code is stored in the documented bits; it returns what was set; setting
what was read changes nothing; the last set wins; setting leaves every bit outside the field, hence every other
field, untouched. -/
theorem C05_control_field_laws (f : CtrlField) (c : ControlReg) :
    (∃ v, f.get c = .ok v ∧ f.code v = bitsAt c.raw f.lo f.width) ∧
    (∀ v, f.get (f.set c v) = .ok v) ∧
    (∀ v, f.get c = .ok v → f.set c v = c) ∧
    (∀ v v', f.set (f.set c v) v' = f.set c v') ∧
    (∀ v i, ¬ f.Covers i → (f.set c v).raw.getLsbD i = c.raw.getLsbD i) ∧
    (∀ v (g : CtrlField), g ≠ f → g.get (f.set c v) = g.get c) := by
  refine ⟨get_code f c, fun v => (get_iff f _ v).2 (bitsAt_set f c v), ?_, ?_, ?_, ?_⟩
  · intro v hv
    have h1 := (get_iff f c v).1 hv
    have : (f.set c v).raw = c.raw := by
      apply word_ext
      intro i hi
      rw [set_bits]
      split
      · next h =>
        have h2 : f.lo + (i - f.lo) = i := by have := h.1; omega
        have h3 : i - f.lo < f.width := by have := h.1; have := h.2; omega
        rw [← h1, bitsAt_testBit, h2]
        simp [h3]
      · rfl
    cases c
    cases h : f.set _ v
    simp_all
  · intro v v'
    have : (f.set (f.set c v) v').raw = (f.set c v').raw := by
      apply word_ext
      intro i hi
      rw [set_bits, set_bits, set_bits]
      split <;> rfl
    cases h : f.set (f.set c v) v'
    cases h' : f.set c v'
    simp_all
  · intro v i hi
    rw [set_bits, if_neg hi]
  · intro v g hg
    obtain ⟨u, hu, hc⟩ := get_code g c
    rw [hu, get_iff, hc]
    apply Nat.eq_of_testBit_eq
    intro i
    rw [bitsAt_testBit, bitsAt_testBit]
    by_cases hi : i < g.width
    · have : ¬ f.Covers (g.lo + i) := by
        intro h
        have h1 := h.1
        have h2 := h.2
        cases f <;> cases g <;>
          first
          | exact hg rfl
          | (simp only [CtrlField.lo, CtrlField.width] at h1 h2 hi; omega)
      rw [set_bits, if_neg this]
    · simp [hi]

example : CtrlField.frameRate.get ⟨0x1901#16⟩ = .ok .two ∧
    (CtrlField.frameRate.set ⟨0x1901#16⟩ FrameRate.sixtyFour).raw = 0x1B81#16 := by
  constructor <;> decide

/-- **C06.** The status register getters read bits 0, 3, 4 and 5; each mutator changes exactly one bit. -/
theorem C06_status_register_bits (s : StatusReg) :
    (s.lastUpdatedSubpage (ε := Empty) = .ok (if s.raw.getLsbD 0 then .one else .zero)) ∧
    s.newData = s.raw.getLsbD 3 ∧ s.overwriteEnabled = s.raw.getLsbD 4 ∧
    s.startMeasurement = s.raw.getLsbD 5 ∧
    (∀ i, s.resetNewData.raw.getLsbD i = if i = 3 then false else s.raw.getLsbD i) ∧
    (∀ b i, (s.setOverwriteEnabled b).raw.getLsbD i = if i = 4 then b else s.raw.getLsbD i) ∧
    (∀ i, s.setStartMeasurement.raw.getLsbD i = if i = 5 then true else s.raw.getLsbD i) := by
  refine ⟨status_subpage s, mask_test (by decide) (by decide) _, mask_test (by decide) (by decide) _,
    mask_test (by decide) (by decide) _, resetNewData_bits s, setOverwrite_bits s, setStart_bits s⟩

example : (StatusReg.mk 0x0009#16).newData = true ∧
    (StatusReg.mk 0x0009#16).lastUpdatedSubpage (ε := Empty) = .ok .one ∧
    (StatusReg.mk 0xFFFF#16).resetNewData.raw = 0xFFF7#16 := by decide

/-- **C07.** Register decoding reads the first two bytes big-endian and panics exactly on shorter buffers;
encoding is its inverse. -/
theorem C07_register_byte_encoding :
    (∀ a b rest, ∃ s, StatusReg.ofBytes (ε := Empty) (a :: b :: rest) = .ok s ∧
      s.raw.toNat = beNat a b ∧ s.toBytes = [a, b]) ∧
    (∀ a b rest, ∃ c, ControlReg.ofBytes (ε := Empty) (a :: b :: rest) = .ok c ∧
      c.raw.toNat = beNat a b ∧ c.toBytes = [a, b]) ∧
    (∀ s : StatusReg, StatusReg.ofBytes (ε := Empty) s.toBytes = .ok s) ∧
    (∀ c : ControlReg, ControlReg.ofBytes (ε := Empty) c.toBytes = .ok c) ∧
    (∀ r : I2cReg, I2cReg.ofBytes (ε := Empty) r.toBytes = .ok r) ∧
    (∀ buf, StatusReg.ofBytes (ε := Empty) buf = .panic ↔ buf.length < 2) ∧
    (∀ buf, ControlReg.ofBytes (ε := Empty) buf = .panic ↔ buf.length < 2) ∧
    (∀ buf, I2cReg.ofBytes (ε := Empty) buf = .panic ↔ buf.length < 2) := by
  have key : ∀ a b : Byte, toBe (be16 a b) = [a, b] := toBe_be16
  have num : ∀ a b : Byte, (be16 a b).toNat = beNat a b := be16_toNat
  refine ⟨fun a b rest => ⟨⟨be16 a b⟩, rfl, num a b, key a b⟩,
    fun a b rest => ⟨⟨be16 a b⟩, rfl, num a b, key a b⟩, ?_, ?_, ?_, ?_, ?_, ?_⟩
  · rintro ⟨w⟩
    show Res.ok (StatusReg.mk (be16 (hiByte w) (loByte w))) = _
    rw [be16_toBe]
  · rintro ⟨w⟩
    show Res.ok (ControlReg.mk (be16 (hiByte w) (loByte w))) = _
    rw [be16_toBe]
  · rintro ⟨a, b, c⟩
    cases a <;> cases b <;> cases c <;> decide
  all_goals
    intro buf
    match buf with
    | [] => exact ⟨fun _ => by decide, fun _ => rfl⟩
    | [_] => exact ⟨fun _ => by simp, fun _ => rfl⟩
    | _ :: _ :: _ => constructor
                     · intro h; cases h
                     · intro h; simp at h

example : StatusReg.ofBytes (ε := Empty) [0x12#8, 0x34#8, 0x56#8] = .ok ⟨0x1234#16⟩ := by decide

/-- **C08 (reserved bits are not preserved).** There are register contents whose reserved bits do not survive being read and
written back. -/
theorem C08_reserved_bits_lost : ∃ w : Word, ∃ r, I2cReg.ofBytes (ε := Empty) (toBe w) = .ok r ∧
    ∃ w' : Word, r.toBytes = toBe w' ∧ w' &&& ~~~0x0007#16 ≠ w &&& ~~~0x0007#16 :=
  ⟨0x0008#16, ⟨true, false, true⟩, by decide, 0#16, by decide, by decide⟩

/-- **C08, what does hold**: reading and writing back keeps the three configuration bits and clears every other
bit, so a value survives exactly when all its reserved bits are zero. (So the reserved bits are not preserved, whatever
`Register::write_mask` suggests.) -/
theorem C08_i2c_register_round_trip (w : Word) : ∃ r, I2cReg.ofBytes (ε := Empty) (toBe w) = .ok r ∧
    ∃ w' : Word, r.toBytes = toBe w' ∧ w' = w &&& 0x0007#16 ∧
      (w' = w ↔ w &&& ~~~0x0007#16 = 0#16) ∧
      r.fastModePlus = !w.getLsbD 0 ∧ r.thresholdHalved = w.getLsbD 1 ∧
      r.sdaCurrentLimiter = !w.getLsbD 2 := by
  rw [show (0x0007#16 : Word) = I2cReg.writeMask from rfl]
  refine ⟨_, rfl, w &&& I2cReg.writeMask, ?_, rfl, ?_, ?_, ?_, ?_⟩
  · show toBe _ = toBe _
    congr 1
    rw [be16_toBe, isBitSet16_eq _ 0 (by decide), isBitSet16_eq _ 1 (by decide),
      isBitSet16_eq _ 2 (by decide)]
    apply word_ext
    intro i hi
    have hm : I2cReg.writeMask.getLsbD i = decide (i < 3) :=
      (show ∀ i : Fin 16, I2cReg.writeMask.getLsbD i = decide (i.val < 3) by decide) ⟨i, hi⟩
    rw [BitVec.getLsbD_and, hm]
    rcases i with _|_|_|i
    · cases w.getLsbD 0 <;> cases w.getLsbD 1 <;> cases w.getLsbD 2 <;> rfl
    · cases w.getLsbD 0 <;> cases w.getLsbD 1 <;> cases w.getLsbD 2 <;> rfl
    · cases w.getLsbD 0 <;> cases w.getLsbD 1 <;> cases w.getLsbD 2 <;> rfl
    · have : decide (i + 3 < 3) = false := by simp
      simp only [this, Bool.and_false]
      have hz : ∀ (v : Word), v.toNat < 8 → v.getLsbD (i + 3) = false := by
        intro v hv
        rw [BitVec.getLsbD]
        apply Nat.testBit_lt_two_pow
        calc v.toNat < 2 ^ 3 := hv
          _ ≤ 2 ^ (i + 3) := Nat.pow_le_pow_right (by decide) (by omega)
      apply hz
      cases w.getLsbD 0 <;> cases w.getLsbD 1 <;> cases w.getLsbD 2 <;> decide
  · constructor
    · intro h
      apply word_ext
      intro i hi
      have := congrArg (fun x : Word => x.getLsbD i) h
      simp only [BitVec.getLsbD_and, BitVec.getLsbD_not, hi, decide_true, Bool.true_and,
        BitVec.getLsbD_zero] at this ⊢
      cases h1 : w.getLsbD i <;> cases h2 : I2cReg.writeMask.getLsbD i <;> simp_all
    · intro h
      apply word_ext
      intro i hi
      have := congrArg (fun x : Word => x.getLsbD i) h
      simp only [BitVec.getLsbD_and, BitVec.getLsbD_not, hi, decide_true, Bool.true_and,
        BitVec.getLsbD_zero] at this ⊢
      cases h1 : w.getLsbD i <;> cases h2 : I2cReg.writeMask.getLsbD i <;> simp_all
  · show (!isBitSet16 (be16 (hiByte w) (loByte w)) 0) = _
    rw [be16_toBe, isBitSet16_eq _ 0 (by decide)]
  · show isBitSet16 (be16 (hiByte w) (loByte w)) 1 = _
    rw [be16_toBe, isBitSet16_eq _ 1 (by decide)]
  · show (!isBitSet16 (be16 (hiByte w) (loByte w)) 2) = _
    rw [be16_toBe, isBitSet16_eq _ 2 (by decide)]

example : I2cReg.ofBytes (ε := Empty) (toBe 0x0002#16) = .ok ⟨true, true, true⟩ := by decide

/-- **C09.** Raw, `u8` and `f32` conversions of frame rates and resolutions are inverse to each other, and
everything outside their domains is an error. The `f32` conversions are for any arithmetic that compares
the eight (exactly representable) literals exactly. In real arithmetic the frame duration is the reciprocal
of the rate. -/
theorem C09_frame_rate_and_resolution_conversions :
    (∀ r : FrameRate, FrameRate.fromRaw r.asRaw = .ok r) ∧
    (∀ w r, FrameRate.fromRaw w = .ok r → r.asRaw = w) ∧
    (∀ w, (∃ e, FrameRate.fromRaw w = .err e) ↔ 8 ≤ w.toNat) ∧
    (∀ r : FrameRate, r.hz * 2 = 2 ^ r.asRaw.toNat) ∧
    (∀ (b : Byte) r, FrameRate.tryFromU8 b = .ok r ↔ r.hz = b.toNat) ∧
    (∀ b : Byte, (∃ e, FrameRate.tryFromU8 b = .err e) ↔ ¬ ∃ r : FrameRate, r.hz = b.toNat) ∧
    (∀ r : FrameRate, FrameRate.frameSecs (F := ℝ) r * (r.hz : ℝ) = 1) ∧
    (∀ r : Resolution, Resolution.fromRaw r.asRaw = .ok r) ∧
    (∀ w r, Resolution.fromRaw w = .ok r → r.asRaw = w) ∧
    (∀ w, (∃ e, Resolution.fromRaw w = .err e) ↔ 4 ≤ w.toNat) ∧
    (∀ (b : Byte) r, Resolution.tryFromU8 b = .ok r ↔ r.toU8 = b) ∧
    (∀ b : Byte, (∃ e, Resolution.tryFromU8 b = .err e) ↔ ¬ (16 ≤ b.toNat ∧ b.toNat ≤ 19)) ∧
    (∀ r : Resolution, r.toU8.toNat = 16 + r.asRaw.toNat) := by
  refine ⟨by intro r; cases r <;> decide, ?_, ?_, ?_, ?_, ?_, ?_,
    by intro r; cases r <;> decide, ?_, ?_, ?_, ?_, by intro r; cases r <;> decide⟩
  · intro w r h
    unfold FrameRate.fromRaw at h
    repeat' split at h
    all_goals first | (cases h; subst_vars; rfl) | cases h
  · intro w
    exact frameRate_err w
  · intro r; cases r <;> simp [FrameRate.hz, FrameRate.asRaw] <;> norm_num
  · intro b r
    exact frameRate_u8 b r
  · intro b
    exact frameRate_u8_err b
  · intro r
    show ((r.hz : ℝ))⁻¹ * _ = 1
    have : (r.hz : ℝ) ≠ 0 := by cases r <;> simp [FrameRate.hz]
    exact inv_mul_cancel₀ this
  · intro w r h
    unfold Resolution.fromRaw at h
    repeat' split at h
    all_goals first | (cases h; subst_vars; rfl) | cases h
  · intro w
    exact resolution_err w
  · intro b r
    exact resolution_u8 b r
  · intro b
    exact resolution_u8_err b

/-- **C09, `f32` part.** -/
theorem C09_frame_rate_f32 {F : Type} [F32Ops F]
    (exact : ∀ r r' : FrameRate, F32Ops.feq (F32Ops.lit r.hz : F) (F32Ops.lit r'.hz) = decide (r = r')) :
    (∀ r : FrameRate, FrameRate.tryFromF32 (F := F) r.toF32 = .ok r) ∧
    (∀ x : F, (∃ e, FrameRate.tryFromF32 x = .err e) ↔
      ∀ r : FrameRate, F32Ops.feq x (F32Ops.lit r.hz) = false) := by
  constructor
  · intro r
    unfold FrameRate.tryFromF32 FrameRate.toF32
    have e0 := exact r .half
    have e1 := exact r .one
    have e2 := exact r .two
    have e3 := exact r .four
    have e4 := exact r .eight
    have e5 := exact r .sixteen
    have e6 := exact r .thirtyTwo
    have e7 := exact r .sixtyFour
    simp only [FrameRate.hz] at e0 e1 e2 e3 e4 e5 e6 e7
    cases r <;> simp_all [FrameRate.hz]
  · intro x
    unfold FrameRate.tryFromF32
    constructor
    · rintro ⟨e, h⟩ r
      repeat' split at h
      all_goals first | (cases h; done) | skip
      cases r <;> simp_all [FrameRate.hz]
    · intro h
      have h0 := h .half
      have h1 := h .one
      have h2 := h .two
      have h3 := h .four
      have h4 := h .eight
      have h5 := h .sixteen
      have h6 := h .thirtyTwo
      have h7 := h .sixtyFour
      simp only [FrameRate.hz] at h0 h1 h2 h3 h4 h5 h6 h7
      exact ⟨.invalidData "The given number does not match a valid frame rate",
        by simp only [h0, h1, h2, h3, h4, h5, h6, h7, Bool.false_eq_true, if_false]⟩

/-- The hypothesis of the `f32` part is met by exact arithmetic. -/
example (r r' : FrameRate) :
    F32Ops.feq (F32Ops.lit r.hz : ℝ) (F32Ops.lit r'.hz) = decide (r = r') := by
  have : ((r.hz : ℝ) = (r'.hz : ℝ)) ↔ r = r' := by
    rw [Rat.cast_inj]
    cases r <;> cases r' <;> simp [FrameRate.hz] <;> norm_num
  show @decide ((r.hz : ℝ) = (r'.hz : ℝ)) (Classical.propDecidable _) = _
  by_cases h : r = r' <;> simp [h, this]

/-- **C10.** Registers compare equal exactly when all documented fields are equal. -/
theorem C10_register_equality :
    (∀ a b : StatusReg, a.eq b = true ↔
      (a.lastUpdatedSubpage (ε := Empty) = b.lastUpdatedSubpage ∧ a.newData = b.newData ∧
        a.overwriteEnabled = b.overwriteEnabled ∧ a.startMeasurement = b.startMeasurement)) ∧
    (∀ a b : ControlReg, a.eq b = true ↔ ∀ f : CtrlField, f.get a = f.get b) := by
  constructor
  · intro a b
    rw [status_subpage, status_subpage]
    rw [show a.newData = a.raw.getLsbD 3 from mask_test (by decide) (by decide) _,
      show b.newData = b.raw.getLsbD 3 from mask_test (by decide) (by decide) _,
      show a.overwriteEnabled = a.raw.getLsbD 4 from mask_test (by decide) (by decide) _,
      show b.overwriteEnabled = b.raw.getLsbD 4 from mask_test (by decide) (by decide) _,
      show a.startMeasurement = a.raw.getLsbD 5 from mask_test (by decide) (by decide) _,
      show b.startMeasurement = b.raw.getLsbD 5 from mask_test (by decide) (by decide) _]
    unfold StatusReg.eq
    rw [decide_eq_true_eq, masked_eq_iff]
    have hm : ∀ i : Fin 16, (StatusReg.subpageMask ||| StatusReg.newDataMask ||| StatusReg.overwriteMask |||
      StatusReg.stepMask).getLsbD i = decide (i.val = 0 ∨ i.val = 3 ∨ i.val = 4 ∨ i.val = 5) := by decide
    constructor
    · intro h
      have h0 := h 0 (by decide) (by rw [hm ⟨0, by decide⟩]; decide)
      have h3 := h 3 (by decide) (by rw [hm ⟨3, by decide⟩]; decide)
      have h4 := h 4 (by decide) (by rw [hm ⟨4, by decide⟩]; decide)
      have h5 := h 5 (by decide) (by rw [hm ⟨5, by decide⟩]; decide)
      exact ⟨by rw [h0], h3, h4, h5⟩
    · rintro ⟨h0, h3, h4, h5⟩ i hi hmi
      rw [hm ⟨i, hi⟩] at hmi
      have hmi := of_decide_eq_true hmi
      rcases hmi with h | h | h | h <;> simp only at h <;> subst h
      · cases ha : a.raw.getLsbD 0 <;> cases hb : b.raw.getLsbD 0 <;> simp_all
      · exact h3
      · exact h4
      · exact h5
  · intro a b
    unfold ControlReg.eq
    rw [decide_eq_true_eq, masked_eq_iff]
    have hm : ∀ i : Fin 16, (ControlReg.useSubpagesMask ||| ControlReg.stepModeMask |||
      ControlReg.dataHoldMask ||| ControlReg.subpageRepeatMask ||| ControlReg.subpageMask |||
      ControlReg.frameRateMask ||| ControlReg.resolutionMask ||| ControlReg.accessPatternMask).getLsbD i =
        decide (i.val ≠ 5 ∧ i.val ≠ 6 ∧ i.val < 13) := by decide
    constructor
    · intro h f
      obtain ⟨v, hv, hc⟩ := get_code f b
      rw [hv, get_iff, hc]
      apply Nat.eq_of_testBit_eq
      intro i
      rw [bitsAt_testBit, bitsAt_testBit]
      by_cases hi : i < f.width
      · have hb : f.lo + i < 16 ∧ f.lo + i ≠ 5 ∧ f.lo + i ≠ 6 ∧ f.lo + i < 13 := by
          cases f <;> simp only [CtrlField.lo, CtrlField.width] at * <;> omega
        rw [h (f.lo + i) hb.1 (by rw [hm ⟨_, hb.1⟩]; exact decide_eq_true hb.2)]
      · simp [hi]
    · intro h i hi hmi
      rw [hm ⟨i, hi⟩] at hmi
      have hmi := of_decide_eq_true hmi
      simp only at hmi
      obtain ⟨f, hf⟩ : ∃ f : CtrlField, f.Covers i := by
        have hlt := hmi.2.2
        have h5 := hmi.1
        have h6 := hmi.2.1
        match i, hlt, h5, h6 with
        | 0, _, _, _ => exact ⟨.useSubpages, by decide⟩
        | 1, _, _, _ => exact ⟨.stepMode, by decide⟩
        | 2, _, _, _ => exact ⟨.dataHold, by decide⟩
        | 3, _, _, _ => exact ⟨.subpageRepeat, by decide⟩
        | 4, _, _, _ => exact ⟨.subpage, by decide⟩
        | 5, _, h, _ => exact absurd rfl h
        | 6, _, _, h => exact absurd rfl h
        | 7, _, _, _ => exact ⟨.frameRate, by decide⟩
        | 8, _, _, _ => exact ⟨.frameRate, by decide⟩
        | 9, _, _, _ => exact ⟨.frameRate, by decide⟩
        | 10, _, _, _ => exact ⟨.resolution, by decide⟩
        | 11, _, _, _ => exact ⟨.resolution, by decide⟩
        | 12, _, _, _ => exact ⟨.accessPattern, by decide⟩
        | n + 13, h, _, _ => omega
      obtain ⟨v, hv, hc⟩ := get_code f a
      have h1 := h f
      rw [hv] at h1
      have h2 := (get_iff f b v).1 h1.symm
      rw [hc] at h2
      have h3 := congrArg (fun n => Nat.testBit n (i - f.lo)) h2
      simp only [bitsAt_testBit] at h3
      have h4 : f.lo + (i - f.lo) = i := by have := hf.1; omega
      have h5 : i - f.lo < f.width := by have := hf.1; have := hf.2; omega
      rw [h4] at h3
      simpa [h5] using h3.symm

example : (StatusReg.mk 0xFFC6#16).eq ⟨0#16⟩ = true ∧ (StatusReg.mk 8#16).eq ⟨0#16⟩ = false ∧
    (ControlReg.mk 0xE060#16).eq ⟨0#16⟩ = true := by decide

/-- **C57.** The resolution correction is `2 ^ (calibrated - current)`: in any arithmetic it is `exp2` of the
exact difference of the bit widths, and in real arithmetic it is `1` for equal resolutions and multiplicative along
chains. The subtraction of the register codes, done in `i8`, never overflows. -/
theorem C57_resolution_correction :
    (∀ (F : Type) [F32Ops F] (a b : Resolution), resolutionCorrection (F := F) a b =
      F32Ops.exp2 (F32Ops.ofInt ((a.toU8.toNat : Int) - (b.toU8.toNat : Int)))) ∧
    (∀ a b : Resolution, resolutionCorrection (F := ℝ) a b =
      (2 : ℝ) ^ ((a.toU8.toNat : Int) - (b.toU8.toNat : Int))) ∧
    (∀ a : Resolution, resolutionCorrection (F := ℝ) a a = 1) ∧
    (∀ a b c : Resolution, resolutionCorrection (F := ℝ) a b * resolutionCorrection (F := ℝ) b c =
      resolutionCorrection (F := ℝ) a c) ∧
    (∀ a b : Resolution, -3 ≤ (a.asRaw.setWidth 8).toInt - (b.asRaw.setWidth 8).toInt ∧
      (a.asRaw.setWidth 8).toInt - (b.asRaw.setWidth 8).toInt ≤ 3) := by
  have h1 : ∀ (F : Type) [F32Ops F] (a b : Resolution), resolutionCorrection (F := F) a b =
      F32Ops.exp2 (F32Ops.ofInt ((a.toU8.toNat : Int) - (b.toU8.toNat : Int))) := by
    intro F _ a b
    unfold resolutionCorrection
    congr 2
    cases a <;> cases b <;> decide
  have h2 : ∀ a b : Resolution, resolutionCorrection (F := ℝ) a b =
      (2 : ℝ) ^ ((a.toU8.toNat : Int) - (b.toU8.toNat : Int)) := by
    intro a b
    rw [h1]
    exact Real.rpow_intCast 2 _
  refine ⟨h1, h2, ?_, ?_, by intro a b; cases a <;> cases b <;> decide⟩
  · intro a; rw [h2]; simp
  · intro a b c
    rw [h2, h2, h2, ← zpow_add₀ (by norm_num)]
    congr 1
    omega

end Mlx.Props
