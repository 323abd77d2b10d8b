import Verif.Model.Calib
/-
Model of `calculations.rs`: from raw RAM data to IR images and temperatures.
-/
set_option autoImplicit false
namespace Mlx
open F32Ops
variable {F ε : Type} [F32Ops F]

/-- `KELVINS_TO_CELSIUS` (`calculations.rs:146`). -/
def kelvins : F := lit (27315/100)

/-- `RamData` (`calculations.rs:247-268`). -/
structure RamData where
  tAVbe : Int
  tAPtat : Int
  vddPixel : Int
  gain : Int
  compensationPixel : Int
  deriving DecidableEq, Repr

/-- `delta_v` (`calculations.rs:161-163`): the subtraction is on `i16`. -/
def deltaV (m : Mode) (c : Calib F) (vddPixel : Int) : Res ε F := do
  let d ← arith16 m (vddPixel - c.vdd25)
  .ok (ofInt d /. ofInt c.kVdd)

/-- `v_dd` (`calculations.rs:185-191`). -/
def vDd (c : Calib F) (resCorr dV : F) : F := dV *. resCorr +. c.vdd0

/-- `v_ptat_art` (`calculations.rs:206-214`). -/
def vPtatArt (c : Calib F) (tAPtat tAVbe : Int) : F :=
  let denom := ofInt tAPtat *. c.alphaPtat +. ofInt tAVbe
  ofInt tAPtat /. denom *. exp2 (lit 18)

/-- `ambient_temperature` (`calculations.rs:231-239`). -/
def ambientTemperature (c : Calib F) (vPtatArt dV : F) : F :=
  let numerator := (vPtatArt /. (lit 1 +. c.kVptat *. dV)) -. c.vptat25
  numerator /. c.kTptat +. lit 25

/-- `CommonIrData` (`calculations.rs:326-357`). -/
structure CommonIrData (F : Type) where
  gain : F
  vDd : F
  emissivity : F
  tA : F

/-- `CommonIrData::new` (`calculations.rs:366-387`). -/
def CommonIrData.new (m : Mode) (resCorr emissivity : F) (c : Calib F) (ram : RamData) :
    Res ε (CommonIrData F) := do
  let dV ← deltaV m c ram.vddPixel
  let v := Mlx.vDd c resCorr dV
  let art := vPtatArt c ram.tAPtat ram.tAVbe
  let tA := ambientTemperature c art dV
  .ok { gain := c.gain /. ofInt ram.gain, vDd := v, emissivity := emissivity, tA := tA }

/-- `per_pixel_v_ir` (`calculations.rs:419-434`). -/
def perPixelVIr (pixelData : Int) (common : CommonIrData F) (refOffset : Int) (kV kTa : F)
    (comp : Option F) : F :=
  let pixelGain := ofInt pixelData *. common.gain
  let pixelOffset := pixelGain +. comp.getD (lit 0)
    -. ofInt refOffset *. (lit 1 +. kTa *. (common.tA -. lit 25))
        *. (lit 1 +. kV *. (common.vDd -. lit (33/10)))
  pixelOffset /. common.emissivity

/-- `pixel_data.chunks_exact(2)`, each chunk read by `i16::from_be_bytes`
(`calculations.rs:492`, `509-510`). -/
def pixelWords : List Byte → List Int
  | a :: b :: rest => (be16 a b).toInt :: pixelWords rest
  | _ => []

/-- `destination.iter_mut().zip(items).filter(|_| valid.next().unwrap_or_default()).for_each(..)`
(`calculations.rs:489-526`, `657-669`, `724-765`): the zip stops at the shorter side, the flags are
consumed once per zipped item, a missing flag counts as `false`, unselected elements stay. `f` computes the
new element from the item and the old element. -/
def applyValid {α : Type} (f : α → F → F) : List F → List α → List Bool → List F
  | [], _, _ => []
  | dest, [], _ => dest
  | d :: dest, x :: xs, valid =>
    (if valid.headD false then f x d else d) :: applyValid f dest xs valid.tail

/-- The compensation pixel term `tgc * v_ir(cp)` (`calculations.rs:470-483`, `696-709`). -/
def cpOffset (c : Calib F) (common : CommonIrData F) (ram : RamData) (s : Subpage)
    (a : AccessPattern) : Option F :=
  c.tgc.map fun tgc =>
    tgc *. perPixelVIr ram.compensationPixel common (c.offsetRefCp s) (c.kVCp s) (c.kTaCp s)
      (c.apCompCp s a)

/-- `raw_pixels_to_ir_data` (`calculations.rs:452-528`): returns the ambient temperature and the new
destination. -/
def rawPixelsToIrData (m : Mode) (c : Calib F) (emissivity resCorr : F) (pixelData : List Byte)
    (ram : RamData) (s : Subpage) (a : AccessPattern) (valid : List Bool) (dest : List F) :
    Res ε (F × List F) := do
  let common ← CommonIrData.new m resCorr emissivity c ram
  let cp := cpOffset c common ram s a
  let items := ((((pixelWords pixelData).zip (c.offsetRef s)).zip (c.kV s)).zip (c.kTa s)).zip
    (c.apComp a)
  let dest' := applyValid (fun x _ =>
    let v := perPixelVIr x.1.1.1.1 common x.1.1.1.2 x.1.1.2 x.1.2 x.2
    match cp with
    | some o => v -. o
    | none => v) dest items valid
  .ok (common.tA, dest')

/-- `t_ar` (`calculations.rs:546-562`). -/
def tAr (tA tR emissivity : F) : F :=
  let tAK4 := powi (tA +. kelvins) 4
  if feq emissivity (lit 1) then tAK4
  else
    let tRK4 := powi (tR +. kelvins) 4
    tRK4 -. ((tRK4 -. tAK4) /. emissivity)

/-- `sensitivity_correction_coefficient` (`calculations.rs:571-579`). -/
def sensitivityCorrection (c : Calib F) (tA : F) : F :=
  lit 1 +. c.kSTa *. (tA -. lit 25)

/-- `per_pixel_temperature` (`calculations.rs:620-626`). -/
def perPixelTemperature (vIr alpha tAr kSTo : F) : F :=
  let sX := kSTo *. powf (powi alpha 3 *. vIr +. powi alpha 4 *. tAr) (lit (1/4))
  let root := powf (vIr /. (alpha *. (lit 1 -. kSTo *. kelvins) +. sX) +. tAr) (lit (1/4))
  root -. kelvins

/-- The compensated sensitivity of a pixel (`calculations.rs:664-667`, `759-762`). -/
def compensatedAlpha (alphaCp : Option F) (coefficient alpha : F) : F :=
  (match alphaCp with
    | some cp => alpha -. cp
    | none => alpha) *. coefficient

/-- `raw_ir_to_temperatures` (`calculations.rs:635-670`): returns the new destination. -/
def rawIrToTemperatures (c : Calib F) (emissivity tA : F) (tR : Option F) (s : Subpage)
    (valid : List Bool) (dest : List F) : Res ε (List F) := do
  let alphaCp := c.tgc.map fun tgc => c.alphaCp s *. tgc
  let kSTo ← idx c.kSTo c.cam.basicRange
  let coefficient := sensitivityCorrection c tA
  let tR := tR.getD (tA -. lit c.cam.selfHeating)
  let tar := tAr tA tR emissivity
  .ok (applyValid (fun alpha vIr =>
    perPixelTemperature vIr (compensatedAlpha alphaCp coefficient alpha) tar kSTo)
    dest (c.alpha s) valid)

/-- `raw_pixels_to_temperatures` (`calculations.rs:677-767`): returns the ambient temperature and the new
destination. -/
def rawPixelsToTemperatures (m : Mode) (c : Calib F) (emissivity : F) (tR : Option F) (resCorr : F)
    (pixelData : List Byte) (ram : RamData) (s : Subpage) (a : AccessPattern) (valid : List Bool)
    (dest : List F) : Res ε (F × List F) := do
  let common ← CommonIrData.new m resCorr emissivity c ram
  let cp := cpOffset c common ram s a
  let alphaCp := c.tgc.map fun tgc => c.alphaCp s *. tgc
  let kSTo ← idx c.kSTo c.cam.basicRange
  let coefficient := sensitivityCorrection c common.tA
  let tR := tR.getD (common.tA -. lit c.cam.selfHeating)
  let tar := tAr common.tA tR emissivity
  let items := (((((pixelWords pixelData).zip (c.offsetRef s)).zip (c.kV s)).zip (c.kTa s)).zip
    (c.alpha s)).zip (c.apComp a)
  let dest' := applyValid (fun x _ =>
    let v := perPixelVIr x.1.1.1.1.1 common x.1.1.1.1.2 x.1.1.1.2 x.1.1.2 x.2
    let v := match cp with
      | some o => v -. o
      | none => v
    perPixelTemperature v (compensatedAlpha alphaCp coefficient x.1.2) tar kSTo) dest items valid
  .ok (common.tA, dest')

end Mlx
