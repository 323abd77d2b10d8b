import Verif.Spec.Hamming
import Verif.Model.Hamming
/-
Lemmas about the Hamming code: the code is linear, the implementation computes it, and decoding commutes
with adding a codeword.
-/
set_option autoImplicit false
namespace Mlx.Proofs
open Mlx Mlx.Spec Mlx.Hamming

/-- Low eleven bits. -/
def low11 (w : Word) : BitVec 11 := w.setWidth 11

theorem codeword_table : ∀ d : BitVec 11, addChecksum (d.setWidth 16) = .ok (codeword d) := by
  decide +kernel

theorem codeword_getLsbD (d : BitVec 11) (i : Nat) (h : i < 11) :
    (codeword d).getLsbD i = d.getLsbD i := by
  unfold codeword
  rw [BitVec.getLsbD_ofBoolListLE]
  rcases i with _|_|_|_|_|_|_|_|_|_|_|i <;> first | rfl | omega

instance : Std.Commutative Bool.xor := ⟨Bool.xor_comm⟩

theorem codeword_xor (a b : BitVec 11) : codeword (a ^^^ b) = codeword a ^^^ codeword b := by
  apply BitVec.eq_of_getLsbD_eq
  intro i hi
  rw [BitVec.getLsbD_xor]
  unfold codeword
  simp only [BitVec.getLsbD_ofBoolListLE, BitVec.getLsbD_xor]
  match i, hi with
  | 0, _ | 1, _ | 2, _ | 3, _ | 4, _ | 5, _ | 6, _ | 7, _ | 8, _ | 9, _ | 10, _ => rfl
  | 11, _ | 12, _ | 13, _ | 14, _ | 15, _ =>
    simp only [List.getElem?_cons_zero, List.getElem?_cons_succ, Option.getD_some, List.getD]
    ac_rfl
  | n + 16, h => omega

theorem setWidth_low11 (w : Word) : (low11 w).setWidth 16 = w &&& dataMask := by
  apply BitVec.eq_of_getLsbD_eq
  intro i hi
  have : ∀ i : Fin 16, dataMask.getLsbD i = decide ((i : Nat) < 11) := by decide
  have := this ⟨i, hi⟩
  simp only at this
  rw [BitVec.getLsbD_and, this, low11, BitVec.getLsbD_setWidth, BitVec.getLsbD_setWidth]
  simp [hi, Bool.and_comm]

theorem low11_xor (a b : Word) : low11 (a ^^^ b) = low11 a ^^^ low11 b := by
  simp [low11, BitVec.setWidth_xor]

theorem low11_codeword (d : BitVec 11) : low11 (codeword d) = d := by
  apply BitVec.eq_of_getLsbD_eq
  intro i hi
  simp [low11, hi, codeword_getLsbD d i hi]

theorem addChecksum_masked (w : Word) : addChecksum (w &&& dataMask) = .ok (codeword (low11 w)) := by
  rw [← setWidth_low11, codeword_table]

/-- The decoder in terms of the code. -/
theorem validate_eq (w : Word) : validateChecksum w =
    if codeword (low11 w) ≠ w then
      let c := w ^^^ errorBits (((w ^^^ codeword (low11 w)) &&& ~~~dataMask) >>> 11)
      if codeword (low11 c) = c then .ok (c &&& dataMask) else .err (.checksum w)
    else .ok (w &&& dataMask) := by
  unfold validateChecksum
  rw [addChecksum_masked]
  simp only [Res.ok_bind, addChecksum_masked, Res.ok.injEq]
  have : (w &&& ~~~dataMask) ^^^ (codeword (low11 w) &&& ~~~dataMask) =
      (w ^^^ codeword (low11 w)) &&& ~~~dataMask := by
    apply BitVec.eq_of_getLsbD_eq
    intro i hi
    simp only [BitVec.getLsbD_xor, BitVec.getLsbD_and]
    cases w.getLsbD i <;> cases (codeword (low11 w)).getLsbD i <;> simp
  rw [this]

/-- Decoding commutes with adding a codeword. -/
theorem validate_translate (c : BitVec 11) (x : Word) : validateChecksum (codeword c ^^^ x) =
    match validateChecksum x with
    | .ok d => .ok ((codeword c &&& dataMask) ^^^ d)
    | .err _ => .err (.checksum (codeword c ^^^ x))
    | .panic => .panic := by
  rw [validate_eq, validate_eq]
  have h1 : low11 (codeword c ^^^ x) = c ^^^ low11 x := by rw [low11_xor, low11_codeword]
  have h2 : codeword (low11 (codeword c ^^^ x)) = codeword c ^^^ codeword (low11 x) := by
    rw [h1, codeword_xor]
  have cancel : ∀ a b e : Word, (a ^^^ b = a ^^^ e) ↔ b = e := by
    intro a b e
    constructor
    · intro h
      have : a ^^^ (a ^^^ b) = a ^^^ (a ^^^ e) := by rw [h]
      simpa [← BitVec.xor_assoc] using this
    · rintro rfl; rfl
  have h3 : (codeword c ^^^ x) ^^^ codeword (low11 (codeword c ^^^ x)) = x ^^^ codeword (low11 x) := by
    rw [h2]
    have : (codeword c ^^^ x) ^^^ (codeword c ^^^ codeword (low11 x)) =
        (codeword c ^^^ codeword c) ^^^ (x ^^^ codeword (low11 x)) := by ac_rfl
    rw [this]; simp
  have hm : ∀ a b : Word, (a ^^^ b) &&& dataMask = (a &&& dataMask) ^^^ (b &&& dataMask) := by
    intro a b
    apply BitVec.eq_of_getLsbD_eq
    intro i hi
    simp only [BitVec.getLsbD_xor, BitVec.getLsbD_and]
    cases a.getLsbD i <;> cases b.getLsbD i <;> simp
  simp only [h3]
  rw [h2]
  generalize errorBits (((x ^^^ codeword (low11 x)) &&& ~~~dataMask) >>> 11) = e
  have h4 : (codeword (low11 (codeword c ^^^ x ^^^ e)) = codeword c ^^^ x ^^^ e) ↔
      codeword (low11 (x ^^^ e)) = x ^^^ e := by
    rw [BitVec.xor_assoc, low11_xor, low11_codeword, codeword_xor, cancel]
  by_cases h5 : codeword (low11 x) = x
  · simp [h5, hm]
  · have h6 : ¬ (codeword c ^^^ codeword (low11 x) = codeword c ^^^ x) := by rw [cancel]; exact h5
    simp only [h5, h6, ne_eq, not_false_eq_true, if_true, h4]
    by_cases h7 : codeword (low11 (x ^^^ e)) = x ^^^ e
    · simp [h7, hm, BitVec.xor_assoc]
    · simp [h7]

theorem validate_single : ∀ i : Fin 16, validateChecksum (1#16 <<< (i : Nat)) = .ok 0#16 := by
  decide +kernel

theorem validate_zero : validateChecksum 0#16 = .ok 0#16 := by decide +kernel

theorem validate_double : ∀ i j : Fin 16, i ≠ j →
    validateChecksum ((1#16 <<< (i : Nat)) ^^^ (1#16 <<< (j : Nat))) =
      .err (.checksum ((1#16 <<< (i : Nat)) ^^^ (1#16 <<< (j : Nat)))) := by
  decide +kernel

theorem validate_parity_only : ∀ e : BitVec 5,
    (match validateChecksum (e ++ 0#11) with
      | .ok d => decide (d.toNat < 2048 ∧ WithinOneBit (e ++ 0#11) (codeword (d.setWidth 11)))
      | .err _ => true
      | .panic => false) = true := by
  decide +kernel

theorem split_codeword (w : Word) : ∃ e : BitVec 5, w = codeword (low11 w) ^^^ (e ++ 0#11) := by
  refine ⟨(w ^^^ codeword (low11 w)).extractLsb' 11 5, ?_⟩
  apply BitVec.eq_of_getLsbD_eq
  intro i hi
  rw [BitVec.getLsbD_xor, BitVec.getLsbD_append]
  by_cases h : i < 11
  · simp [h, codeword_getLsbD, low11]
  · simp only [h, BitVec.getLsbD_extractLsb', BitVec.getLsbD_xor]
    have h1 : 11 + (i - 11) = i := by omega
    have h2 : i - 11 < 5 := by omega
    simp only [h1, h2, decide_true, Bool.true_and]
    cases w.getLsbD i <;> cases (codeword (low11 w)).getLsbD i <;> rfl

theorem codeword_and_mask (d : BitVec 11) : codeword d &&& dataMask = d.setWidth 16 := by
  rw [← setWidth_low11, low11_codeword]

end Mlx.Proofs
