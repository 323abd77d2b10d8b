import Verif.Model.Calc
/-
Vocabulary for stating what the conversion functions depend on.
-/
set_option autoImplicit false
namespace Mlx.Spec
open Mlx F32Ops
variable {F : Type}

/-- Every per-pixel calibration sequence has `n` items, for every subpage and access pattern, as the
documentation of `CalibrationData` requires. -/
structure Complete (c : Calib F) (n : Nat) : Prop where
  offsetRef : ∀ s, (c.offsetRef s).length = n
  alpha : ∀ s, (c.alpha s).length = n
  kV : ∀ s, (c.kV s).length = n
  kTa : ∀ s, (c.kTa s).length = n
  apComp : ∀ a, (c.apComp a).length = n
  kSTo : c.cam.basicRange < c.kSTo.length

/-- Two calibrations agree on everything that is not per pixel, for subpage `s` and access pattern `a`. -/
structure SameFrame (c c' : Calib F) (s : Subpage) (a : AccessPattern) : Prop where
  kVdd : c.kVdd = c'.kVdd
  vdd25 : c.vdd25 = c'.vdd25
  vdd0 : c.vdd0 = c'.vdd0
  kVptat : c.kVptat = c'.kVptat
  kTptat : c.kTptat = c'.kTptat
  vptat25 : c.vptat25 = c'.vptat25
  alphaPtat : c.alphaPtat = c'.alphaPtat
  gain : c.gain = c'.gain
  kSTa : c.kSTa = c'.kSTa
  tgc : c.tgc = c'.tgc
  offsetRefCp : c.offsetRefCp s = c'.offsetRefCp s
  alphaCp : c.alphaCp s = c'.alphaCp s
  kVCp : c.kVCp s = c'.kVCp s
  kTaCp : c.kTaCp s = c'.kTaCp s
  apCompCp : c.apCompCp s a = c'.apCompCp s a
  kSToBasic : c.kSTo[c.cam.basicRange]? = c'.kSTo[c'.cam.basicRange]?
  selfHeating : c.cam.selfHeating = c'.cam.selfHeating

/-- Two calibrations agree on the constants of pixel `i`. -/
structure SamePixel (c c' : Calib F) (s : Subpage) (a : AccessPattern) (i : Nat) : Prop where
  offsetRef : (c.offsetRef s)[i]? = (c'.offsetRef s)[i]?
  alpha : (c.alpha s)[i]? = (c'.alpha s)[i]?
  kV : (c.kV s)[i]? = (c'.kV s)[i]?
  kTa : (c.kTa s)[i]? = (c'.kTa s)[i]?
  apComp : (c.apComp a)[i]? = (c'.apComp a)[i]?

/-- Two raw pixel buffers agree on the two bytes of pixel `i`. -/
def SameBytes (px px' : List Byte) (i : Nat) : Prop :=
  px[2 * i]? = px'[2 * i]? ∧ px[2 * i + 1]? = px'[2 * i + 1]?

/-- The pixel is not converted: not selected, or beyond the raw data or one of the calibration sequences. -/
def Skipped (c : Calib F) (px : List Byte) (s : Subpage) (a : AccessPattern) (valid : List Bool) (i : Nat) :
    Prop :=
  valid[i]? ≠ some true ∨ px.length < 2 * i + 2 ∨ (c.offsetRef s).length ≤ i ∨ (c.kV s).length ≤ i ∨
    (c.kTa s).length ≤ i ∨ (c.apComp a).length ≤ i

/-- The final image after converting the two subpages one after the other, in the order `s`, other. -/
def bothSubpages {ε : Type} (conv : Subpage → List F → Res ε (F × List F)) (first second : Subpage) (dest : List F) :
    Res ε (List F) :=
  conv first dest >>= fun r => conv second r.2 >>= fun r' => pure r'.2

/-- Temperature conversion of subpage `s` of an MLX90640 from the RAM contents read for it. -/
def convTemp [F32Ops F] {ε : Type} (m : Mode) (c : Calib F) (em rc : F) (tR : Option F) (px : Subpage → List Byte)
    (ram : Subpage → RamData) (a : AccessPattern) (s : Subpage) (dest : List F) : Res ε (F × List F) :=
  rawPixelsToTemperatures m c em tR rc (px s) (ram s) s a (Mlx90640.cam.pixelsInSubpage s a) dest

/-- IR conversion of subpage `s` of an MLX90640 from the RAM contents read for it. -/
def convIr [F32Ops F] {ε : Type} (m : Mode) (c : Calib F) (em rc : F) (px : Subpage → List Byte)
    (ram : Subpage → RamData) (a : AccessPattern) (s : Subpage) (dest : List F) : Res ε (F × List F) :=
  rawPixelsToIrData m c em rc (px s) (ram s) s a (Mlx90640.cam.pixelsInSubpage s a) dest

/-- Some conversion, with whatever arguments, reported the ambient temperature `tA` for this calibration and
these readings. -/
def Reports [F32Ops F] (ε : Type) (m : Mode) (c : Calib F) (ram : RamData) (tA : F) : Prop :=
  ∃ (em rc : F) (tR : Option F) (px : List Byte) (s : Subpage) (a : AccessPattern) (valid : List Bool)
    (dest out : List F),
    rawPixelsToIrData (ε := ε) m c em rc px ram s a valid dest = .ok (tA, out) ∨
    rawPixelsToTemperatures (ε := ε) m c em tR rc px ram s a valid dest = .ok (tA, out)

end Mlx.Spec
