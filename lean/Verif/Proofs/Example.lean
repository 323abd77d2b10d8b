import Verif.Proofs.Bulk640
import Verif.Spec.Example
/-
Words of the example images.
-/
set_option autoImplicit false
namespace Mlx.Proofs
open Mlx Mlx.Spec

theorem getD_pairs {α : Type} (f g : Nat → α) (d : α) (n s k : Nat) (h : k < n) :
    ((List.range' s n).flatMap fun k => [f k, g k]).getD (2 * k) d = f (s + k) ∧
    ((List.range' s n).flatMap fun k => [f k, g k]).getD (2 * k + 1) d = g (s + k) := by
  induction n generalizing s k with
  | zero => omega
  | succ n ih =>
    rw [List.range'_succ, List.flatMap_cons]
    cases k with
    | zero => exact ⟨rfl, rfl⟩
    | succ k =>
      have := ih (s + 1) k (by omega)
      rw [show s + 1 + k = s + (k + 1) by omega] at this
      exact this

theorem dump_length (words : Nat → Nat) : (dump words).length = 1664 := by
  unfold dump
  rw [List.length_flatMap]
  simp only [List.length_cons, List.length_nil, List.map_const', List.sum_replicate_nat, List.length_range]

theorem eepromWord_dump (words : Nat → Nat) (k : Nat) (h : k < 832) :
    eepromWord (dump words) (0x2400 + k) = BitVec.ofNat 16 (words k) := by
  unfold eepromWord dump
  rw [Nat.add_sub_cancel_left, List.range_eq_range']
  obtain ⟨h1, h2⟩ := getD_pairs (fun k => BitVec.ofNat 8 (words k / 256)) (fun k => BitVec.ofNat 8 (words k)) 0#8 832 0 k h
  rw [h1, h2, Nat.zero_add]
  apply BitVec.eq_of_toNat_eq
  rw [be16_toNat]
  simp only [BitVec.toNat_ofNat]
  omega

end Mlx.Proofs
