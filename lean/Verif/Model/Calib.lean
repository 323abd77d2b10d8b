import Verif.Model.Camera
/-
The `CalibrationData` trait (`common.rs:71-238`) as a record, and the helpers shared by both cameras'
calibration decoders.
-/
set_option autoImplicit false
namespace Mlx
open F32Ops

/-- Everything `CalibrationData` exposes (`common.rs:71-238`). An iterator is given by the list of items it
yields. `cam` stands for the associated type `Camera`. -/
structure Calib (F : Type) where
  /-- `type Camera` (`common.rs:73`) -/
  cam : Cam
  /-- `k_v_dd` (`common.rs:76`) -/
  kVdd : Int
  /-- `v_dd_25` (`common.rs:79`) -/
  vdd25 : Int
  /-- `resolution` (`common.rs:82`) -/
  resolution : Resolution
  /-- `v_dd_0` (`common.rs:89-91`) -/
  vdd0 : F
  /-- `k_v_ptat` (`common.rs:94`) -/
  kVptat : F
  /-- `k_t_ptat` (`common.rs:97`) -/
  kTptat : F
  /-- `v_ptat_25` (`common.rs:100`) -/
  vptat25 : F
  /-- `alpha_ptat` (`common.rs:103`) -/
  alphaPtat : F
  /-- `gain` (`common.rs:106`) -/
  gain : F
  /-- `k_s_ta` (`common.rs:109`) -/
  kSTa : F
  /-- `corner_temperatures` (`common.rs:116`) -/
  cornerTemps : List Int
  /-- `k_s_to` (`common.rs:128`) -/
  kSTo : List F
  /-- `alpha_correction` (`common.rs:138`) -/
  alphaCorrection : List F
  /-- `emissivity` (`common.rs:144-146`) -/
  emissivity : Option F
  /-- `offset_reference_pixels` (`common.rs:156`) -/
  offsetRef : Subpage → List Int
  /-- `offset_reference_cp` (`common.rs:160`) -/
  offsetRefCp : Subpage → Int
  /-- `alpha_pixels` (`common.rs:169`) -/
  alpha : Subpage → List F
  /-- `alpha_cp` (`common.rs:173`) -/
  alphaCp : Subpage → F
  /-- `k_v_pixels` (`common.rs:182`) -/
  kV : Subpage → List F
  /-- `k_v_cp` (`common.rs:186`) -/
  kVCp : Subpage → F
  /-- `k_ta_pixels` (`common.rs:195`) -/
  kTa : Subpage → List F
  /-- `k_ta_cp` (`common.rs:199`) -/
  kTaCp : Subpage → F
  /-- `temperature_gradient_coefficient` (`common.rs:204`) -/
  tgc : Option F
  /-- `access_pattern_compensation_pixels` (`common.rs:213-216`) -/
  apComp : AccessPattern → List (Option F)
  /-- `access_pattern_compensation_cp` (`common.rs:219-223`) -/
  apCompCp : Subpage → AccessPattern → Option F
  /-- `failed_pixels` (`common.rs:230`), one flag per pixel -/
  failed : List Bool
  /-- `outlier_pixels` (`common.rs:237`), one flag per pixel -/
  outlier : List Bool

/-- Slice indexing `xs[i]`: panics out of bounds. -/
def idx {ε α : Type} (xs : List α) (i : Nat) : Res ε α :=
  match xs[i]? with
  | some x => .ok x
  | none => .panic

/-- `FlaggedPixels::any` for `BitSlice` (`common.rs:50-52`). -/
def flagsAny (flags : List Bool) : Bool := flags.any id

/-- `FlaggedPixels::iter_flagged` for `BitSlice` (`common.rs:56-58`): indices of the set bits. -/
def iterFlagged (flags : List Bool) : List Nat :=
  (flags.zipIdx.filter fun p => p.1).map fun p => p.2

/-- `alpha_corr_n` (`common.rs:400-412`). -/
def alphaCorrN {F ε : Type} [F32Ops F] (m : Mode) (basic : Nat) (ct : List Int) (ks : List F)
    (n : Nat) : Res ε F :=
  if n = basic then .ok (lit 1)
  else if n < basic then do
    let k ← idx ks n
    let hi ← idx ct (n + 1)
    let lo ← idx ct n
    let d ← arith16 m (hi - lo)
    let rest ← alphaCorrN m basic ct ks (n + 1)
    .ok (recip (lit 1 +. k *. ofInt d) *. rest)
  else do
    let k ← idx ks (n - 1)
    let hi ← idx ct n
    let lo ← idx ct (n - 1)
    let d ← arith16 m (hi - lo)
    let rest ← alphaCorrN m basic ct ks (n - 1)
    .ok ((lit 1 +. k *. ofInt d) *. rest)
termination_by (n - basic) + (basic - n)

/-- `alpha_correction_coefficients` (`common.rs:381-396`); `numRanges` is the const generic. -/
def alphaCorrectionCoefficients {F ε : Type} [F32Ops F] (m : Mode) (numRanges basic : Nat)
    (ct : List Int) (ks : List F) : Res ε (List F) :=
  (List.range numRanges).mapM (alphaCorrN m basic ct ks)

/-- Run a fallible update at every index of a list. -/
def mapIdxRes {ε α β : Type} (f : Nat → α → Res ε β) : Nat → List α → Res ε (List β)
  | _, [] => .ok []
  | i, x :: xs => do
    let y ← f i x
    let ys ← mapIdxRes f (i + 1) xs
    .ok (y :: ys)

end Mlx
