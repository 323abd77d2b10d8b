import Verif.Spec.Calc
/-
Concrete data for the examples that show hypotheses can be met. Nothing here models the crate.
-/
set_option autoImplicit false
namespace Mlx.Spec
open Mlx F32Ops

/-- Integer arithmetic as a computable instance of the floating-point interface, for examples only. -/
instance toyOps : F32Ops Int where
  lit q := q.floor
  ofInt z := z
  add := (· + ·)
  sub := (· - ·)
  mul := (· * ·)
  div := (· / ·)
  neg := fun x => -x
  exp2 x := 2 ^ x.toNat
  recip x := 1 / x
  powi x n := x ^ n.toNat
  powf x _ := x
  feq x y := x == y

/-- A calibration with `n` pixels, constants typical of a camera. -/
def toyCalib {F : Type} [F32Ops F] (cam : Cam) (n : Nat) (tgc : Option F) : Calib F where
  cam := cam
  kVdd := -3168
  vdd25 := -12544
  resolution := .eighteen
  vdd0 := lit (33/10)
  kVptat := lit 0
  kTptat := lit 42
  vptat25 := lit 12273
  alphaPtat := lit 9
  gain := lit 7383
  kSTa := lit 0
  cornerTemps := [-40, 0, 160, 320]
  kSTo := [lit 1, lit 2, lit 3, lit 4, lit 5]
  alphaCorrection := [lit 1, lit 1, lit 1, lit 1]
  emissivity := none
  offsetRef := fun _ => (List.range n).map fun i : Nat => (-64 + i : Int)
  offsetRefCp := fun s => match s with | .zero => -75 | .one => -77
  alpha := fun _ => (List.range n).map fun i : Nat => ofInt (100 + i : Int)
  alphaCp := fun _ => lit 3
  kV := fun _ => List.replicate n (lit 2)
  kVCp := fun _ => lit 1
  kTa := fun _ => List.replicate n (lit 1)
  kTaCp := fun _ => lit 1
  tgc := tgc
  apComp := fun _ => List.replicate n none
  apCompCp := fun _ _ => none
  failed := List.replicate n false
  outlier := List.replicate n false

/-- Frame-wide readings typical of a camera. -/
def toyRam : RamData :=
  { tAVbe := 19442, tAPtat := 1711, vddPixel := -13115, gain := 6881, compensationPixel := -54 }

theorem toyCalib_complete {F : Type} [F32Ops F] (cam : Cam) (n : Nat) (tgc : Option F)
    (h : cam.basicRange < 5) : Complete (toyCalib cam n tgc) n := by
  constructor <;> intros <;> simp [toyCalib, h]

end Mlx.Spec
