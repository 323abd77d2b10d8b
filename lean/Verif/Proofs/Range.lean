import Verif.Proofs.Guard
/-
`alpha_correction_coefficients`.
-/
set_option linter.unusedSectionVars false
set_option autoImplicit false
namespace Mlx.Proofs
open Mlx Mlx.Spec F32Ops
variable {F ε : Type} [F32Ops F]

/-- The factor between ranges `k` and `k + 1`. -/
def rangeFactor (ct : List Int) (ks : List F) (k : Nat) : F :=
  lit 1 +. ks.getD k (lit 0) *. ofInt (ct.getD (k + 1) 0 - ct.getD k 0)

/-- The correction `k` ranges above the basic range. -/
def corrUp (basic : Nat) (ct : List Int) (ks : List F) : Nat → F
  | 0 => lit 1
  | k + 1 => rangeFactor ct ks (basic + k) *. corrUp basic ct ks k

/-- The correction `k` ranges below the basic range. -/
def corrDown (basic : Nat) (ct : List Int) (ks : List F) : Nat → F
  | 0 => lit 1
  | k + 1 => recip (rangeFactor ct ks (basic - (k + 1))) *. corrDown basic ct ks k

def corr (basic : Nat) (ct : List Int) (ks : List F) (n : Nat) : F :=
  if basic ≤ n then corrUp basic ct ks (n - basic) else corrDown basic ct ks (basic - n)

theorem idx_eq {α : Type} (xs : List α) (i : Nat) (d : α) (h : i < xs.length) :
    idx (ε := ε) xs i = .ok (xs.getD i d) := by
  unfold idx
  rw [List.getElem?_eq_getElem h, List.getD_eq_getElem?_getD, List.getElem?_eq_getElem h, Option.getD_some]

theorem arith16_fits (m : Mode) {x : Int} (h : Fits16 x) : arith16 (ε := ε) m x = .ok x := by
  unfold arith16; exact if_pos h

theorem alphaCorrN_ok (m : Mode) (basic : Nat) (ct : List Int) (ks : List F) (n : Nat)
    (hn : n < ct.length) (hb : basic < ct.length) (hl : ks.length = ct.length)
    (hd : ∀ k, k + 1 < ct.length → Fits16 (ct.getD (k + 1) 0 - ct.getD k 0)) :
    alphaCorrN (ε := ε) m basic ct ks n = .ok (corr basic ct ks n) := by
  have up : ∀ k, basic + k < ct.length →
      alphaCorrN (ε := ε) m basic ct ks (basic + k) = .ok (corrUp basic ct ks k) := by
    intro k
    induction k with
    | zero => intro _; unfold alphaCorrN; rw [if_pos (by omega)]; rfl
    | succ k ih =>
      intro h
      unfold alphaCorrN
      rw [if_neg (by omega), if_neg (by omega), idx_eq ks _ (lit 0) (by omega), idx_eq ct _ 0 (by omega),
        idx_eq ct _ 0 (by omega)]
      simp only [Res.ok_bind]
      rw [show basic + (k + 1) - 1 = basic + k by omega, show basic + (k + 1) = basic + k + 1 by omega,
        arith16_fits m (hd (basic + k) (by omega)), Res.ok_bind, ih (by omega), Res.ok_bind]
      rfl
  have down : ∀ k, k ≤ basic →
      alphaCorrN (ε := ε) m basic ct ks (basic - k) = .ok (corrDown basic ct ks k) := by
    intro k
    induction k with
    | zero => intro _; unfold alphaCorrN; rw [if_pos (by omega)]; rfl
    | succ k ih =>
      intro h
      unfold alphaCorrN
      rw [if_neg (by omega), if_pos (by omega), idx_eq ks _ (lit 0) (by omega), idx_eq ct _ 0 (by omega),
        idx_eq ct _ 0 (by omega)]
      simp only [Res.ok_bind]
      rw [arith16_fits m (hd (basic - (k + 1)) (by omega)), Res.ok_bind,
        show basic - (k + 1) + 1 = basic - k by omega, ih (by omega), Res.ok_bind]
      rw [corrDown, rangeFactor, show basic - (k + 1) + 1 = basic - k by omega]
  unfold corr
  by_cases h : basic ≤ n
  · rw [if_pos h]
    have := up (n - basic) (by omega)
    rwa [show basic + (n - basic) = n by omega] at this
  · rw [if_neg h]
    have := down (basic - n) (by omega)
    rwa [show basic - (basic - n) = n by omega] at this

theorem mapM_ok {α β : Type} (f : α → Res ε β) (g : α → β) (xs : List α) (h : ∀ x ∈ xs, f x = .ok (g x)) :
    xs.mapM f = .ok (xs.map g) := by
  induction xs with
  | nil => rfl
  | cons x xs ih =>
    rw [List.mapM_cons, h x (List.mem_cons_self ..), ih (fun y hy => h y (List.mem_cons_of_mem _ hy))]
    rfl

theorem alphaCorrection_ok (m : Mode) (n basic : Nat) (ct : List Int) (ks : List F)
    (hn : n = ct.length) (hb : basic < ct.length) (hl : ks.length = ct.length)
    (hd : ∀ k, k + 1 < ct.length → Fits16 (ct.getD (k + 1) 0 - ct.getD k 0)) :
    alphaCorrectionCoefficients (ε := ε) m n basic ct ks = .ok ((List.range n).map (corr basic ct ks)) := by
  unfold alphaCorrectionCoefficients
  exact mapM_ok _ _ _ fun x hx => alphaCorrN_ok m basic ct ks x (by rw [← hn]; exact List.mem_range.1 hx) hb hl hd

end Mlx.Proofs
