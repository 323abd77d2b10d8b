import Verif.Props.Register
import Verif.Spec.WriteMask
/-
C76: the write masks of the registers.
-/
set_option autoImplicit false
namespace Mlx.Props
open Mlx Mlx.Spec Mlx.Proofs

theorem maskedUpdate_eq {mask old new : Word} (h : ∀ i < 16, mask.getLsbD i = false → new.getLsbD i = old.getLsbD i) :
    maskedUpdate mask old new = new := by
  apply word_ext
  intro i hi
  unfold maskedUpdate
  rw [BitVec.getLsbD_or, BitVec.getLsbD_and, BitVec.getLsbD_and, BitVec.getLsbD_not]
  have := h i hi
  cases hm : mask.getLsbD i with
  | false => rw [this hm]; simp [hi]
  | true => simp

theorem status_mask (i : Nat) : StatusReg.writeMask.getLsbD i = decide (i = 3 ∨ i = 4 ∨ i = 5) := by
  by_cases hi : i < 16
  · exact (show ∀ i : Fin 16, StatusReg.writeMask.getLsbD i = decide (i.val = 3 ∨ i.val = 4 ∨ i.val = 5) by decide) ⟨i, hi⟩
  · rw [BitVec.getLsbD_of_ge _ _ (by omega)]
    exact (decide_eq_false (by omega)).symm

theorem control_mask (i : Nat) : ControlReg.writeMask.getLsbD i = decide (i < 13) := by
  by_cases hi : i < 16
  · exact (show ∀ i : Fin 16, ControlReg.writeMask.getLsbD i = decide (i.val < 13) by decide) ⟨i, hi⟩
  · rw [BitVec.getLsbD_of_ge _ _ (by omega)]
    exact (decide_eq_false (by omega)).symm

/-- **C76 (status).** The write mask of the status register is exactly the set of bits that its mutators can change, so after
any number of calls, writing the register back is the documented masked update of what was read. -/
theorem C76_status_write_mask :
    (∀ i, StatusReg.writeMask.getLsbD i = true ↔ ∃ s s', StatusEdit s s' ∧ s'.raw.getLsbD i ≠ s.raw.getLsbD i) ∧
    (∀ s s', Edits StatusEdit s s' → s'.toBytes = toBe (maskedUpdate StatusReg.writeMask s.raw s'.raw)) := by
  have one : ∀ s s', StatusEdit s s' → ∀ i, StatusReg.writeMask.getLsbD i = false → s'.raw.getLsbD i = s.raw.getLsbD i := by
    intro s s' h i hi
    rw [status_mask, decide_eq_false_iff_not] at hi
    obtain ⟨_, _, _, _, h5, h6, h7⟩ := C06_status_register_bits s
    cases h with
    | resetNewData => rw [h5, if_neg (by omega)]
    | setOverwriteEnabled b => rw [h6, if_neg (by omega)]
    | setStartMeasurement => rw [h7, if_neg (by omega)]
  refine ⟨fun i => ⟨fun hi => ?_, fun ⟨s, s', h, hne⟩ => ?_⟩, fun s s' h => ?_⟩
  · rw [status_mask, decide_eq_true_eq] at hi
    rcases hi with rfl | rfl | rfl
    · exact ⟨⟨0xFFFF#16⟩, _, .resetNewData, by decide⟩
    · exact ⟨⟨0#16⟩, _, .setOverwriteEnabled true, by decide⟩
    · exact ⟨⟨0#16⟩, _, .setStartMeasurement, by decide⟩
  · by_contra hc
    exact hne (one s s' h i (by simpa using hc))
  · have keep : ∀ i < 16, StatusReg.writeMask.getLsbD i = false → s'.raw.getLsbD i = s.raw.getLsbD i := by
      intro i _ hi
      induction h with
      | none => rfl
      | more _ h ih => exact (one _ _ h i hi).trans ih
    rw [maskedUpdate_eq keep]; rfl

/-- **C76 (control).** The write mask of the control register contains every bit that its mutators can change, and besides
them only bits 5 and 6 (the unused upper bits of the subpage number); so after any number of calls, writing the register
back is the documented masked update of what was read. -/
theorem C76_control_write_mask :
    (∀ i, ControlReg.writeMask.getLsbD i = true ↔
      i = 5 ∨ i = 6 ∨ ∃ c c', ControlEdit c c' ∧ c'.raw.getLsbD i ≠ c.raw.getLsbD i) ∧
    (∀ i c c', ControlEdit c c' → i = 5 ∨ i = 6 → c'.raw.getLsbD i = c.raw.getLsbD i) ∧
    (∀ c c', Edits ControlEdit c c' → c'.toBytes = toBe (maskedUpdate ControlReg.writeMask c.raw c'.raw)) := by
  have one : ∀ c c', ControlEdit c c' → ∀ i, i = 5 ∨ i = 6 ∨ ControlReg.writeMask.getLsbD i = false →
      c'.raw.getLsbD i = c.raw.getLsbD i := by
    intro c c' h i hi
    rw [control_mask, decide_eq_false_iff_not] at hi
    obtain ⟨f, v⟩ := h
    refine (C05_control_field_laws f c).2.2.2.2.1 v i fun hc => ?_
    have h1 := hc.1
    have h2 := hc.2
    cases f <;> simp only [CtrlField.lo, CtrlField.width] at h1 h2 <;> omega
  refine ⟨fun i => ⟨fun hi => ?_, ?_⟩, fun i c c' h hi => one c c' h i (by omega), fun c c' h => ?_⟩
  · rw [control_mask, decide_eq_true_eq] at hi
    by_cases h5 : i = 5
    · exact Or.inl h5
    by_cases h6 : i = 6
    · exact Or.inr (Or.inl h6)
    refine Or.inr (Or.inr ?_)
    have : i = 0 ∨ i = 1 ∨ i = 2 ∨ i = 3 ∨ i = 4 ∨ i = 7 ∨ i = 8 ∨ i = 9 ∨ i = 10 ∨ i = 11 ∨ i = 12 := by omega
    rcases this with rfl | rfl | rfl | rfl | rfl | rfl | rfl | rfl | rfl | rfl | rfl
    · exact ⟨⟨0#16⟩, _, .set .useSubpages true, by decide⟩
    · exact ⟨⟨0#16⟩, _, .set .stepMode true, by decide⟩
    · exact ⟨⟨0#16⟩, _, .set .dataHold true, by decide⟩
    · exact ⟨⟨0#16⟩, _, .set .subpageRepeat true, by decide⟩
    · exact ⟨⟨0#16⟩, _, .set .subpage .one, by decide⟩
    · exact ⟨⟨0#16⟩, _, .set .frameRate .sixtyFour, by decide⟩
    · exact ⟨⟨0#16⟩, _, .set .frameRate .sixtyFour, by decide⟩
    · exact ⟨⟨0#16⟩, _, .set .frameRate .sixtyFour, by decide⟩
    · exact ⟨⟨0#16⟩, _, .set .resolution .nineteen, by decide⟩
    · exact ⟨⟨0#16⟩, _, .set .resolution .nineteen, by decide⟩
    · exact ⟨⟨0#16⟩, _, .set .accessPattern .chess, by decide⟩
  · rintro (rfl | rfl | ⟨c, c', h, hne⟩)
    · decide
    · decide
    · by_contra hc
      exact hne (one c c' h i (Or.inr (Or.inr (by simpa using hc))))
  · have keep : ∀ i < 16, ControlReg.writeMask.getLsbD i = false → c'.raw.getLsbD i = c.raw.getLsbD i := by
      intro i _ hi
      induction h with
      | none => rfl
      | more _ h ih => exact (one _ _ h i (Or.inr (Or.inr hi))).trans ih
    rw [maskedUpdate_eq keep]; rfl

/-- **C76 (I2C configuration).** The write mask of the I2C configuration register is exactly the set of bits that its mutators
can change in what is written. What is written is the masked update of what was read only if the other bits were zero. -/
theorem C76_i2c_write_mask :
    (∀ i, I2cReg.writeMask.getLsbD i = true ↔ ∃ (r r' : I2cReg) (w w' : Word), I2cEdit r r' ∧ r.toBytes = toBe w ∧
      r'.toBytes = toBe w' ∧ w'.getLsbD i ≠ w.getLsbD i) ∧
    (∀ (w w' : Word) (r r' : I2cReg), I2cReg.ofBytes (ε := Empty) (toBe w) = .ok r → Edits I2cEdit r r' →
      r'.toBytes = toBe w' → (w' = maskedUpdate I2cReg.writeMask w w' ↔ w &&& ~~~I2cReg.writeMask = 0#16)) := by
  have mask : ∀ i, I2cReg.writeMask.getLsbD i = decide (i < 3) := by
    intro i
    by_cases hi : i < 16
    · exact (show ∀ i : Fin 16, I2cReg.writeMask.getLsbD i = decide (i.val < 3) by decide) ⟨i, hi⟩
    · rw [BitVec.getLsbD_of_ge _ _ (by omega)]
      exact (decide_eq_false (by omega)).symm
  have high : ∀ (r : I2cReg) (w : Word), r.toBytes = toBe w → w &&& ~~~I2cReg.writeMask = 0#16 := by
    intro r w h
    obtain ⟨a, b, c⟩ := r
    have hw : w = 0#16 ∨ w = 1#16 ∨ w = 2#16 ∨ w = 3#16 ∨ w = 4#16 ∨ w = 5#16 ∨ w = 6#16 ∨ w = 7#16 := by
      have inj : ∀ v : Word, toBe v = toBe w → w = v := by
        intro v hv
        have h1 := be16_toBe v
        have h2 := be16_toBe w
        have h3 : hiByte v = hiByte w ∧ loByte v = loByte w := by
          simp only [toBe, List.cons.injEq, and_true] at hv; exact hv
        rw [← h1, ← h2, h3.1, h3.2]
      cases a <;> cases b <;> cases c
      · exact .inr (.inr (.inr (.inr (.inr (.inl (inj _ h))))))
      · exact .inr (.inl (inj _ h))
      · exact .inr (.inr (.inr (.inr (.inr (.inr (.inr (inj _ h)))))))
      · exact .inr (.inr (.inr (.inl (inj _ h))))
      · exact .inr (.inr (.inr (.inr (.inl (inj _ h)))))
      · exact .inl (inj _ h)
      · exact .inr (.inr (.inr (.inr (.inr (.inr (.inl (inj _ h)))))))
      · exact .inr (.inr (.inl (inj _ h)))
    rcases hw with rfl | rfl | rfl | rfl | rfl | rfl | rfl | rfl <;> decide
  have bit : ∀ (w : Word) (i : Nat), w &&& ~~~I2cReg.writeMask = 0#16 → I2cReg.writeMask.getLsbD i = false → w.getLsbD i = false := by
    intro w i hw hi
    by_cases h16 : i < 16
    · have := congrArg (fun x : Word => x.getLsbD i) hw
      simp only [BitVec.getLsbD_and, BitVec.getLsbD_not, h16, hi, decide_true, BitVec.getLsbD_zero] at this
      simpa using this
    · exact BitVec.getLsbD_of_ge _ _ (by omega)
  refine ⟨fun i => ⟨fun hi => ?_, fun ⟨r, r', w, w', _, h1, h2, hne⟩ => ?_⟩, fun w w' r r' _ _ h2 => ⟨fun h => ?_, fun h => ?_⟩⟩
  · rw [mask, decide_eq_true_eq] at hi
    have : i = 0 ∨ i = 1 ∨ i = 2 := by omega
    rcases this with rfl | rfl | rfl
    · exact ⟨⟨true, false, true⟩, _, 0#16, 1#16, .setFastModePlus false, by decide, by decide, by decide⟩
    · exact ⟨⟨true, false, true⟩, _, 0#16, 2#16, .setThresholdHalved true, by decide, by decide, by decide⟩
    · exact ⟨⟨true, false, true⟩, _, 0#16, 4#16, .setSdaCurrentLimiter false, by decide, by decide, by decide⟩
  · by_contra hc
    have hc : I2cReg.writeMask.getLsbD i = false := by simpa using hc
    exact hne ((bit w' i (high r' w' h2) hc).trans (bit w i (high r w h1) hc).symm)
  · apply word_ext
    intro i hi
    have e := congrArg (fun x : Word => x.getLsbD i) h
    have hz := bit w' i (high r' w' h2)
    unfold maskedUpdate at e
    simp only [BitVec.getLsbD_or, BitVec.getLsbD_and, BitVec.getLsbD_not, hi, decide_true, Bool.true_and] at e
    rw [BitVec.getLsbD_and, BitVec.getLsbD_not, BitVec.getLsbD_zero]
    cases hm : I2cReg.writeMask.getLsbD i with
    | true => simp
    | false => rw [hm, hz hm] at e; simpa [hi] using e
  · refine (maskedUpdate_eq fun i _ hi => ?_).symm
    rw [bit w' i (high r' w' h2) hi, bit w i h hi]

/-- **C76 (setters of the I2C configuration).** Each setter changes, in the word that is written, exactly the documented bit:
bit 0 is set iff fast mode plus is off, bit 1 iff the threshold is halved, bit 2 iff the current limiter is off. -/
theorem C76_i2c_setters (r : I2cReg) (b : Bool) (w : Word) (hw : r.toBytes = toBe w) :
    (∃ w', (r.setFastModePlus b).toBytes = toBe w' ∧ ∀ i, w'.getLsbD i = if i = 0 then !b else w.getLsbD i) ∧
    (∃ w', (r.setThresholdHalved b).toBytes = toBe w' ∧ ∀ i, w'.getLsbD i = if i = 1 then b else w.getLsbD i) ∧
    (∃ w', (r.setSdaCurrentLimiter b).toBytes = toBe w' ∧ ∀ i, w'.getLsbD i = if i = 2 then !b else w.getLsbD i) := by
  have inj : ∀ v : Word, toBe v = toBe w → w = v := by
    intro v hv
    have h3 : hiByte v = hiByte w ∧ loByte v = loByte w := by
      simp only [toBe, List.cons.injEq, and_true] at hv; exact hv
    rw [← be16_toBe v, ← be16_toBe w, h3.1, h3.2]
  have low : ∀ (v v' : Word) (k : Nat) (x : Bool), (∀ i : Fin 16, v'.getLsbD i = if i.val = k then x else v.getLsbD i) → k < 16 →
      ∀ i, v'.getLsbD i = if i = k then x else v.getLsbD i := by
    intro v v' k x h hk i
    by_cases hi : i < 16
    · exact h ⟨i, hi⟩
    · rw [if_neg (by omega), BitVec.getLsbD_of_ge _ _ (by omega), BitVec.getLsbD_of_ge _ _ (by omega)]
  obtain ⟨x, y, z⟩ := r
  cases x <;> cases y <;> cases z <;>
    (have e := inj _ hw
     subst e
     cases b <;>
     refine ⟨⟨_, rfl, low _ _ _ _ ?_ (by decide)⟩, ⟨_, rfl, low _ _ _ _ ?_ (by decide)⟩, ⟨_, rfl, low _ _ _ _ ?_ (by decide)⟩⟩ <;>
     decide)

/-- Reserved bits of the status register survive an edit: 0xFF00 with the "start measurement" bit set. -/
example : StatusEdit ⟨0xFF00#16⟩ ⟨0xFF20#16⟩ ∧ maskedUpdate StatusReg.writeMask 0xFF00#16 0xFF20#16 = 0xFF20#16 :=
  ⟨.setStartMeasurement, by decide⟩

end Mlx.Props
