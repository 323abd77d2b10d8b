import Verif.Proofs.Bits
import Verif.Spec.Eeprom
/-
Computations that either succeed with a known value or panic, and parsers over `data.drop k`.
-/
set_option linter.unusedSectionVars false
set_option autoImplicit false
namespace Mlx.Proofs
open Mlx Mlx.Spec F32Ops
variable {ε α β : Type}

open Classical in
/-- Succeeds with `a` if `P`, panics otherwise. -/
noncomputable def onlyIf (P : Prop) (a : α) : Res ε α := if P then .ok a else .panic

theorem onlyIf_pos {P : Prop} (h : P) (a : α) : (onlyIf P a : Res ε α) = .ok a := by
  unfold onlyIf; rw [if_pos h]

theorem onlyIf_neg {P : Prop} (h : ¬ P) (a : α) : (onlyIf P a : Res ε α) = .panic := by
  unfold onlyIf; rw [if_neg h]

theorem onlyIf_bind {P Q : Prop} {a : α} {f : α → Res ε β} {b : β} (h : P → f a = onlyIf Q b) :
    ((onlyIf P a : Res ε α) >>= f) = onlyIf (P ∧ Q) b := by
  by_cases hp : P
  · rw [onlyIf_pos hp, Res.ok_bind, h hp]
    simp only [hp, true_and]
  · rw [onlyIf_neg hp, onlyIf_neg (fun h => hp h.1)]; rfl

theorem onlyIf_map {P : Prop} {a : α} (f : α → β) :
    ((onlyIf P a : Res ε α) >>= fun x => Res.ok (f x)) = onlyIf P (f a) := by
  by_cases hp : P
  · rw [onlyIf_pos hp, onlyIf_pos hp]; rfl
  · rw [onlyIf_neg hp, onlyIf_neg hp]; rfl

theorem onlyIf_congr {P Q : Prop} {a b : α} (h : P ↔ Q) (hab : P → a = b) :
    (onlyIf P a : Res ε α) = onlyIf Q b := by
  by_cases hp : P
  · rw [onlyIf_pos hp, onlyIf_pos (h.1 hp), hab hp]
  · rw [onlyIf_neg hp, onlyIf_neg (fun hq => hp (h.2 hq))]

theorem ok_eq_onlyIf (a : α) : (Res.ok a : Res ε α) = onlyIf True a := (onlyIf_pos trivial a).symm

theorem onlyIf_ok {P : Prop} {a b : α} (h : (onlyIf P a : Res ε α) = .ok b) : P ∧ b = a := by
  by_cases hp : P
  · rw [onlyIf_pos hp] at h; exact ⟨hp, (Res.ok.inj h).symm⟩
  · rw [onlyIf_neg hp] at h; cases h

theorem bmod_of_fits {x : Int} (h : Fits16 x) : x.bmod 65536 = x := by
  unfold Fits16 at h
  rw [Int.bmod_def]
  split <;> omega

theorem arith16_eq (m : Mode) (x : Int) :
    arith16 (ε := ε) m x = onlyIf (m = .wrapping ∨ Fits16 x) (wrap16 x) := by
  unfold arith16
  by_cases h : Fits16 x
  · have h' : -32768 ≤ x ∧ x ≤ 32767 := h
    rw [if_pos h', onlyIf_pos (Or.inr h), wrap16, bmod_of_fits h]
  · have h' : ¬ (-32768 ≤ x ∧ x ≤ 32767) := h
    rw [if_neg h']
    cases m with
    | checked => rw [onlyIf_neg]; rintro (h' | h') <;> simp_all
    | wrapping => rw [onlyIf_pos (Or.inl rfl)]; rfl

theorem wrap16_add_wrap16 (x y : Int) : wrap16 (wrap16 x + y) = wrap16 (x + y) := by
  unfold wrap16; exact Int.bmod_add_bmod

theorem wrap16_add_wrap16' (x y : Int) : wrap16 (x + wrap16 y) = wrap16 (x + y) := by
  unfold wrap16; exact Int.add_bmod_bmod

theorem shl16_eq (x : Int) (n : Nat) : shl16 x n = wrap16 (x * 2 ^ n) := rfl

/-- A fallible update of every element. -/
theorem mapIdxRes_onlyIf {ε α β : Type} (P : Nat → α → Prop) (v : Nat → α → β) (s : Nat) (xs : List α)
    (f : Nat → α → Res ε β) (hf : ∀ i x, f i x = onlyIf (P i x) (v i x)) :
    mapIdxRes f s xs =
      onlyIf (∀ j x, xs[j]? = some x → P (s + j) x) (xs.mapIdx fun j x => v (s + j) x) := by
  induction xs generalizing s with
  | nil =>
    rw [onlyIf_pos]
    · rfl
    · intro j x h; simp at h
  | cons x xs ih =>
    unfold mapIdxRes
    rw [hf]
    refine (onlyIf_bind (Q := ∀ j y, xs[j]? = some y → P (s + 1 + j) y)
      (b := v s x :: xs.mapIdx fun j y => v (s + 1 + j) y) fun _ => ?_).trans ?_
    · rw [ih (s + 1)]
      exact onlyIf_map _
    · refine onlyIf_congr ?_ fun _ => ?_
      · constructor
        · rintro ⟨h0, h⟩ j y hj
          cases j with
          | zero => simp only [List.getElem?_cons_zero, Option.some.injEq] at hj; subst hj; exact h0
          | succ j => have := h j y (by simpa using hj); rwa [show s + (j + 1) = s + 1 + j by omega]
        · intro h
          refine ⟨h 0 x rfl, fun j y hj => ?_⟩
          have := h (j + 1) y (by simpa using hj)
          rwa [show s + (j + 1) = s + 1 + j by omega] at this
      · rw [List.mapIdx_cons]
        congr 1
        have : (fun j y => v (s + 1 + j) y) = fun j => (fun j y => v (s + j) y) (j + 1) := by
          funext j y
          show v (s + 1 + j) y = v (s + (j + 1)) y
          rw [show s + (j + 1) = s + 1 + j by omega]
        rw [this]

/-! ### Reading from `data.drop k` -/

variable {data : List Byte}

theorem drop_cons (k : Nat) (h : k < data.length) : data.drop k = data.getD k 0#8 :: data.drop (k + 1) := by
  rw [List.drop_eq_getElem_cons h, List.getD_eq_getElem?_getD, List.getElem?_eq_getElem h, Option.getD_some]

theorem advance_zero (n : Nat) (h : n ≤ data.length) : advance (ε := ε) n data = .ok ((), data.drop n) := by
  unfold advance; rw [if_pos h]

theorem getU8_at (k : Nat) (h : k < data.length) :
    getU8 (ε := ε) (data.drop k) = .ok (data.getD k 0#8, data.drop (k + 1)) := by
  rw [drop_cons k h]; rfl

theorem getI8_at (k : Nat) (h : k < data.length) :
    getI8 (ε := ε) (data.drop k) = .ok ((data.getD k 0#8).toInt, data.drop (k + 1)) := by
  rw [drop_cons k h]; rfl

theorem getU16_at (k : Nat) (h : k + 1 < data.length) :
    getU16 (ε := ε) (data.drop k) = .ok (be16 (data.getD k 0#8) (data.getD (k + 1) 0#8), data.drop (k + 2)) := by
  rw [drop_cons k (by omega), drop_cons (k + 1) h]; rfl

theorem getI16_at (k : Nat) (h : k + 1 < data.length) :
    getI16 (ε := ε) (data.drop k) =
      .ok ((be16 (data.getD k 0#8) (data.getD (k + 1) 0#8)).toInt, data.drop (k + 2)) := by
  rw [drop_cons k (by omega), drop_cons (k + 1) h]; rfl

/-! ### Bit fields of words made of two bytes -/

theorem byte_hiNib (a : Byte) : (a &&& 0xF0#8).toNat = a.toNat / 16 * 16 := by
  revert a; decide +kernel
theorem byte_loNib (a : Byte) : (a &&& 0x0F#8).toNat = a.toNat % 16 := by
  revert a; decide +kernel
theorem byte_hi4 (a : Byte) : ((a &&& 0xF0#8) >>> 4).toNat = a.toNat / 16 := by
  revert a; decide +kernel
theorem byte_lo2 (a : Byte) : (a &&& 0x03#8).toNat = a.toNat % 4 := by
  revert a; decide +kernel

theorem toInt_bmod (b : Byte) : b.toInt = Int.bmod b.toNat 256 := BitVec.toInt_eq_toNat_bmod b

theorem bitsAt_hiHi (a b : Byte) : bitsAt (be16 a b) 12 4 = ((a &&& 0xF0#8) >>> 4).toNat := by
  unfold bitsAt; rw [be16_toNat, byte_hi4]; have := a.isLt; have := b.isLt; omega
theorem bitsAt_hiLo (a b : Byte) : bitsAt (be16 a b) 8 4 = (a &&& 0x0F#8).toNat := by
  unfold bitsAt; rw [be16_toNat, byte_loNib]; have := a.isLt; have := b.isLt; omega
theorem bitsAt_loHi (a b : Byte) : bitsAt (be16 a b) 4 4 = ((b &&& 0xF0#8) >>> 4).toNat := by
  unfold bitsAt; rw [be16_toNat, byte_hi4]; have := a.isLt; have := b.isLt; omega
theorem bitsAt_loLo (a b : Byte) : bitsAt (be16 a b) 0 4 = (b &&& 0x0F#8).toNat := by
  unfold bitsAt; rw [be16_toNat, byte_loNib]; have := a.isLt; have := b.isLt; omega

theorem i4_hi (a : Byte) : sar (a &&& 0xF0#8).toInt 4 = Int.bmod (a.toNat / 16 : Nat) 16 := by
  revert a; decide +kernel
theorem i4_lo (a : Byte) : sar ((a &&& 0x0F#8) <<< 4).toInt 4 = Int.bmod (a.toNat : Nat) 16 := by
  revert a; decide +kernel
theorem i6_hi (a : Byte) : sar a.toInt 2 = Int.bmod (a.toNat / 4 : Nat) 64 := by
  revert a; decide +kernel

theorem signedAt_hiHi (a b : Byte) : signedAt (be16 a b) 12 4 = sar (a &&& 0xF0#8).toInt 4 := by
  rw [i4_hi]; unfold signedAt; rw [be16_toNat]; have := a.isLt; have := b.isLt
  congr 1; omega
theorem signedAt_hiLo (a b : Byte) : signedAt (be16 a b) 8 4 = sar ((a &&& 0x0F#8) <<< 4).toInt 4 := by
  rw [i4_lo]; unfold signedAt; rw [be16_toNat]; have := a.isLt; have := b.isLt
  congr 1; omega
theorem signedAt_loHi (a b : Byte) : signedAt (be16 a b) 4 4 = sar (b &&& 0xF0#8).toInt 4 := by
  rw [i4_hi]; unfold signedAt; rw [be16_toNat]; have := a.isLt; have := b.isLt
  simp only [Int.bmod_def, Nat.reducePow]
  omega
theorem signedAt_loLo (a b : Byte) : signedAt (be16 a b) 0 4 = sar ((b &&& 0x0F#8) <<< 4).toInt 4 := by
  rw [i4_lo]; unfold signedAt; rw [be16_toNat]; have := a.isLt; have := b.isLt
  simp only [Int.bmod_def, Nat.reducePow]
  omega
theorem signedAt_hi (a b : Byte) : signedAt (be16 a b) 8 8 = a.toInt := by
  rw [toInt_bmod]; unfold signedAt; rw [be16_toNat]; have := a.isLt; have := b.isLt
  congr 1; omega
theorem signedAt_lo (a b : Byte) : signedAt (be16 a b) 0 8 = b.toInt := by
  rw [toInt_bmod]; unfold signedAt; rw [be16_toNat]; have := a.isLt; have := b.isLt
  simp only [Int.bmod_def, Nat.reducePow]
  omega
theorem signedAt_word (w : Word) : signedAt w 0 16 = w.toInt := by
  rw [BitVec.toInt_eq_toNat_bmod]; unfold signedAt
  congr 1; simp
theorem signedAt_hi6 (a b : Byte) : signedAt (be16 a b) 10 6 = sar a.toInt 2 := by
  rw [i6_hi]; unfold signedAt; rw [be16_toNat]; have := a.isLt; have := b.isLt
  congr 1; omega

end Mlx.Proofs
