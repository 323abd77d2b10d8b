import Mathlib.Tactic.Positivity
import Mathlib.Data.Nat.Cast.Order.Ring
import Mathlib.Tactic.IntervalCases
import Verif.Proofs.Register
/-
Sign extension and integer encodings.
-/
set_option autoImplicit false
namespace Mlx.Proofs
open Mlx Mlx.Spec

/-- Shifting left and arithmetically right keeps the low `n` bits, sign extended. -/
theorem sar_shl16 (x : Int) (n : Nat) (h1 : 1 ≤ n) (h2 : n ≤ 16) :
    sar (shl16 x (16 - n)) (16 - n) = x.bmod (2 ^ n) := by
  unfold sar shl16
  match n, h1, h2 with
  | 1, _, _ | 2, _, _ | 3, _, _ | 4, _, _ | 5, _, _ | 6, _, _ | 7, _, _ | 8, _, _ | 9, _, _ | 10, _, _
  | 11, _, _ | 12, _, _ | 13, _, _ | 14, _, _ | 15, _, _ | 16, _, _ =>
    simp only [Int.bmod_def, Nat.reducePow, Nat.reduceSub, Int.reducePow]
    omega
  | n + 17, _, h => omega

theorem be16_toInt (a b : Byte) : (be16 a b).toInt = Int.bmod (be16 a b).toNat 65536 := by
  rw [BitVec.toInt_eq_toNat_bmod]

theorem i16FromBits_two {ε : Type} (m : Mode) (a b : Byte) (rest : List Byte) (n : Nat) (h1 : 1 ≤ n)
    (h2 : n ≤ 16) :
    i16FromBits (ε := ε) m (a :: b :: rest) n = .ok (Int.bmod (be16 a b).toNat (2 ^ n)) := by
  have key : sar (shl16 (be16 a b).toInt (16 - n)) (16 - n) = Int.bmod (be16 a b).toNat (2 ^ n) := by
    rw [sar_shl16 _ n h1 h2, be16_toInt, Int.bmod_bmod_of_dvd]
    exact Nat.pow_dvd_pow 2 h2
  unfold i16FromBits
  cases rest <;> (simp only [Res.ok_bind]; rw [if_pos ⟨h1, h2⟩, key])

theorem i16FromBits_one {ε : Type} (m : Mode) (a : Byte) (n : Nat) (h1 : 1 ≤ n) (h2 : n ≤ 16) :
    i16FromBits (ε := ε) m [a] n = .ok (Int.bmod a.toInt (2 ^ n)) := by
  unfold i16FromBits
  simp only [Res.ok_bind]
  rw [if_pos ⟨h1, h2⟩, sar_shl16 _ n h1 h2]

theorem bmod_pow_range (x : Int) (n : Nat) (h : 1 ≤ n) :
    -2 ^ (n - 1) ≤ x.bmod (2 ^ n) ∧ x.bmod (2 ^ n) < 2 ^ (n - 1) := by
  obtain ⟨k, rfl⟩ : ∃ k, n = k + 1 := ⟨n - 1, by omega⟩
  have hpos : 0 < 2 ^ (k + 1) := by positivity
  have hp : (2 ^ (k + 1) : Nat) = 2 * 2 ^ k := by rw [Nat.pow_succ, Nat.mul_comm]
  have h1 := Int.le_bmod (x := x) hpos
  have h2 := Int.bmod_lt (x := x) hpos
  rw [hp] at *
  simp only [Nat.add_sub_cancel]
  have : ((2 : Int) ^ k) = ((2 ^ k : Nat) : Int) := by push_cast; rfl
  rw [this]
  omega

end Mlx.Proofs
