import Verif.Proofs.Hamming
/-
C01 to C04: the MLX90641 EEPROM error-correcting code.
-/
set_option autoImplicit false
namespace Mlx.Props
open Mlx Mlx.Spec Mlx.Hamming Mlx.Proofs

/-- **C01.** Encoding any eleven-bit value succeeds, gives the documented codeword, whose low eleven bits are
the value, and decodes to the value; a word with any of the top five bits set is refused. -/
theorem C01_checksum_round_trip :
    (∀ d : BitVec 11, ∃ w, addChecksum (d.setWidth 16) = .ok w ∧ w = codeword d ∧ w.setWidth 11 = d ∧
      validateChecksum w = .ok (d.setWidth 16)) ∧
    (∀ w : Word, 2 ^ 11 ≤ w.toNat → ∃ e, addChecksum w = .err e) := by
  constructor
  · intro d
    refine ⟨codeword d, codeword_table d, rfl, low11_codeword d, ?_⟩
    have := validate_translate d 0#16
    rw [validate_zero] at this
    simpa [codeword_and_mask] using this
  · intro w hw
    unfold addChecksum
    rw [if_pos]
    · exact ⟨_, rfl⟩
    · intro h
      have h1 : w &&& dataMask = w := by
        apply BitVec.eq_of_getLsbD_eq
        intro i hi
        have := congrArg (fun x : Word => x.getLsbD i) h
        simp only [BitVec.getLsbD_and, BitVec.getLsbD_not, hi, decide_true, Bool.true_and] at this ⊢
        simp only [BitVec.getLsbD_zero] at this
        cases h2 : w.getLsbD i <;> cases h3 : dataMask.getLsbD i <;> simp_all
      have h2 : (w &&& dataMask).toNat < 2 ^ 11 := by
        rw [← setWidth_low11, BitVec.toNat_setWidth]
        have := (low11 w).isLt
        omega
      rw [h1] at h2
      omega

example : addChecksum 0x123#16 = .ok 0x8923#16 := by decide +kernel

/-- **C02.** Any single flipped bit of any codeword is corrected. -/
theorem C02_single_bit_errors_corrected (d : BitVec 11) (i : Fin 16) (w : Word)
    (hw : addChecksum (d.setWidth 16) = .ok w) :
    validateChecksum (flipBit w i) = .ok (d.setWidth 16) := by
  rw [codeword_table] at hw
  cases hw
  rw [flipBit, validate_translate, validate_single]
  simp [codeword_and_mask]

example : ∃ w, addChecksum ((0x2A5#11).setWidth 16) = .ok w ∧ flipBit w 12 ≠ w :=
  ⟨_, codeword_table _, by decide +kernel⟩

/-- **C03.** Any two flipped bits of any codeword are reported, with the corrupted word; never
mis-corrected. -/
theorem C03_double_bit_errors_detected (d : BitVec 11) (i j : Fin 16) (hij : i ≠ j) (w : Word)
    (hw : addChecksum (d.setWidth 16) = .ok w) :
    validateChecksum (flipBit (flipBit w i) j) = .err (.checksum (flipBit (flipBit w i) j)) := by
  rw [codeword_table] at hw
  cases hw
  rw [flipBit, flipBit, BitVec.xor_assoc, validate_translate, validate_double i j hij]

example : ∃ w, addChecksum ((0x2A5#11).setWidth 16) = .ok w ∧ flipBit (flipBit w 12) 3 ≠ w :=
  ⟨_, codeword_table _, by decide +kernel⟩

/-- **C04.** The decoder accepts a word exactly when it is within one bit of a codeword, returns that codeword's
data (which is therefore unique), and reports every other word as a checksum error carrying that word. -/
theorem C04_decoder_characterisation (w : Word) :
    (∀ v, validateChecksum w = .ok v ↔ ∃ d : BitVec 11, v = d.setWidth 16 ∧ WithinOneBit w (codeword d)) ∧
    ((¬ ∃ d : BitVec 11, WithinOneBit w (codeword d)) → validateChecksum w = .err (.checksum w)) ∧
    (∀ d d' : BitVec 11, WithinOneBit w (codeword d) → WithinOneBit w (codeword d') → d = d') := by
  have back : ∀ d : BitVec 11, WithinOneBit w (codeword d) → validateChecksum w = .ok (d.setWidth 16) := by
    rintro d (rfl | ⟨i, rfl⟩)
    · have := validate_translate d 0#16
      rw [validate_zero] at this
      simpa [codeword_and_mask] using this
    · exact C02_single_bit_errors_corrected d i _ (codeword_table d)
  obtain ⟨e, he⟩ := split_codeword w
  have tab := validate_parity_only e
  have tr := validate_translate (low11 w) (e ++ 0#11)
  rw [← he] at tr
  have fwd : ∀ v, validateChecksum w = .ok v →
      ∃ d : BitVec 11, v = d.setWidth 16 ∧ WithinOneBit w (codeword d) := by
    intro v hv
    rw [tr] at hv
    cases hx : validateChecksum (e ++ 0#11) with
    | ok x =>
      rw [hx] at hv tab
      simp only [Res.ok.injEq] at hv
      obtain ⟨hlt, hd⟩ := of_decide_eq_true tab
      have hx16 : (x.setWidth 11).setWidth 16 = x := by
        apply BitVec.eq_of_toNat_eq
        simp only [BitVec.toNat_setWidth]
        omega
      refine ⟨low11 w ^^^ x.setWidth 11, ?_, ?_⟩
      · rw [← hv, codeword_and_mask, BitVec.setWidth_xor, hx16]
      · rw [codeword_xor]
        rcases hd with h | ⟨i, h⟩
        · left
          rw [← h]
          exact he
        · right
          refine ⟨i, ?_⟩
          rw [flipBit, BitVec.xor_assoc]
          unfold flipBit at h
          rw [← h]
          exact he
    | err x => rw [hx] at hv; cases hv
    | panic => rw [hx] at hv; cases hv
  refine ⟨fun v => ⟨fwd v, ?_⟩, ?_, ?_⟩
  · rintro ⟨d, rfl, hd⟩
    exact back d hd
  · intro hno
    cases hv : validateChecksum w with
    | ok v =>
      obtain ⟨d, _, hd⟩ := fwd v hv
      exact absurd ⟨d, hd⟩ hno
    | err x =>
      rw [tr] at hv
      cases hx : validateChecksum (e ++ 0#11) with
      | ok _ => rw [hx] at hv; cases hv
      | err _ => rw [hx] at hv; simp only [Res.err.injEq] at hv; rw [← hv]
      | panic => rw [hx] at hv; cases hv
    | panic =>
      rw [tr] at hv
      cases hx : validateChecksum (e ++ 0#11) with
      | ok _ => rw [hx] at hv; cases hv
      | err _ => rw [hx] at hv; cases hv
      | panic => rw [hx] at tab; cases tab
  · intro d d' h h'
    have h1 := back d h
    have h2 := back d' h'
    rw [h1] at h2
    have h3 := Res.ok.inj h2
    have := congrArg (BitVec.setWidth 11) h3
    simpa using this

example : WithinOneBit (flipBit (codeword 5#11) 14) (codeword 5#11) := Or.inr ⟨14, rfl⟩
example : validateChecksum 0x0003#16 = .err (.checksum 0x0003#16) := by decide +kernel

end Mlx.Props
