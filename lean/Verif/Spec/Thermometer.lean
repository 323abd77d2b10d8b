import Verif.Spec.Datasheet
import Verif.Spec.Eeprom641
import Verif.Spec.Ram
import Verif.Spec.Register
/-
The cameras as documented, from memory to temperatures: the calibration parameters as a table of formulas over EEPROM
words, and the temperature of a pixel as a function of the whole memory (EEPROM, RAM and control register) of the camera.
In exact arithmetic.
-/
set_option autoImplicit false
namespace Mlx.Spec
open Mlx

/-- The list of the values `f 0` to `f (n - 1)`. -/
@[irreducible] def perPixel {α : Type} (n : Nat) (f : Nat → α) : List α := (List.range n).map f

namespace Ee640
section
variable (E : Nat → Word)

/-- The documented sums for pixel `i` fit 16 bits, those of a broken pixel without the part stored for the pixel. -/
def Regular : Prop :=
  ∀ i < 768,
    Fits16 (offsetAverage E + offsetRow E i + offsetCol E i + if isFailed E i then 0 else offsetRest E i) ∧
    Fits16 (alphaAverage E + alphaRow E i + alphaCol E i) ∧
    (isFailed E i = false → Fits16 (kTaRc E i + kTaRest E i) ∧ Fits16 (alphaRest E i))

/-- The parameters of pixel `i`. Nothing is stored for a broken pixel; what the crate takes its parameters to be is
described here as well. -/
def offset (i : Nat) : Int :=
  offsetAverage E + offsetRow E i + offsetCol E i + if isFailed E i then 0 else offsetRest E i
noncomputable def alpha (i : Nat) : ℝ :=
  if isFailed E i then (alphaAverage E + alphaRow E i + alphaCol E i : Int)
  else (alphaAverage E + alphaRow E i + alphaCol E i + alphaRest E i : ℝ) / 2 ^ alphaScaleExp E
noncomputable def kTa (i : Nat) : ℝ := if isFailed E i then 0 else (kTaRc E i + kTaRest E i : ℝ) / 2 ^ kTaScaleExp E
noncomputable def kV (i : Nat) : ℝ := kVRaw E i / 2 ^ bitsAt (E 0x2438) 8 4

noncomputable def kSTo : List ℝ :=
  [(signedAt (E 0x243D) 0 8 : ℝ) / 2 ^ (bitsAt (E 0x243F) 0 4 + 8),
   (signedAt (E 0x243D) 8 8 : ℝ) / 2 ^ (bitsAt (E 0x243F) 0 4 + 8),
   (signedAt (E 0x243E) 0 8 : ℝ) / 2 ^ (bitsAt (E 0x243F) 0 4 + 8),
   (signedAt (E 0x243E) 8 8 : ℝ) / 2 ^ (bitsAt (E 0x243F) 0 4 + 8)]
/-- Corner temperatures. -/
def ranges : List Int := [-40, 0, ct3 E, ct4 E]

/-- The compensation of pixel `i` in interleaved mode. -/
noncomputable def interleave (i : Nat) : ℝ :=
  (signedAt (E 0x2435) 11 5 : ℝ) / 2 ^ 3 * (2 * ilPattern i - 1) - (signedAt (E 0x2435) 6 5 : ℝ) / 2 * conversionPattern i

/-- The table of parameters. The sensitivity of the compensation pixel of subpage 0 is `EE[0x2439][9:0]` scaled by three
binary digits less than the pixels. `alpha_PTAT` is the documented value rounded down (see C61). -/
noncomputable def calibration : Calib ℝ where
  cam := Mlx90640.cam
  kVdd := signedAt (E 0x2433) 8 8 * 2 ^ 5
  vdd25 := ((bitsAt (E 0x2433) 0 8 : Int) - 256) * 2 ^ 5 - 2 ^ 13
  resolution := CtrlField.resolution.decode (bitsAt (E 0x2438) 12 2)
  vdd0 := 3.3
  kVptat := signedAt (E 0x2432) 10 6 / 2 ^ 12
  kTptat := signedAt (E 0x2432) 0 10 / 2 ^ 3
  vptat25 := signedAt (E 0x2431) 0 16
  alphaPtat := (bitsAt (E 0x2410) 12 4 / 4 : Nat) + 8
  gain := signedAt (E 0x2430) 0 16
  kSTa := signedAt (E 0x243C) 8 8 / 2 ^ 13
  cornerTemps := ranges E
  kSTo := kSTo E
  alphaCorrection := (List.range 4).map (rangeCorrection 1 (ranges E) (kSTo E))
  emissivity := none
  offsetRef _ := perPixel 768 (offset E)
  offsetRefCp := fun
    | .zero => signedAt (E 0x243A) 0 10
    | .one => signedAt (E 0x243A) 0 10 + signedAt (E 0x243A) 10 6
  alpha _ := perPixel 768 (alpha E)
  alphaCp := fun
    | .zero => bitsAt (E 0x2439) 0 10 / 2 ^ (bitsAt (E 0x2420) 12 4 + 27)
    | .one => bitsAt (E 0x2439) 0 10 / 2 ^ (bitsAt (E 0x2420) 12 4 + 27) * (1 + signedAt (E 0x2439) 10 6 / 2 ^ 7)
  kV _ := perPixel 768 (kV E)
  kVCp _ := signedAt (E 0x243B) 8 8 / 2 ^ bitsAt (E 0x2438) 8 4
  kTa _ := perPixel 768 (kTa E)
  kTaCp _ := signedAt (E 0x243B) 0 8 / 2 ^ (bitsAt (E 0x2438) 4 4 + 8)
  tgc := if signedAt (E 0x243C) 0 8 = 0 then none else some (signedAt (E 0x243C) 0 8 / 2 ^ 5)
  apComp := fun
    | .chess => perPixel 768 fun _ => none
    | .interleave => perPixel 768 fun i => some (interleave E i)
  apCompCp := fun
    | .one, .interleave => some (signedAt (E 0x2435) 0 6 / 2 ^ 4)
    | _, _ => none
  failed := perPixel 768 (isFailed E)
  outlier := perPixel 768 (isOutlier E)

end
end Ee640

namespace Ee641
section
variable (D : Nat → BitVec 11)

/-- The documented offsets fit 16 bits, and second halves of parameters stored in two words have no more than five
bits. -/
def Regular : Prop :=
  (∀ a ∈ [0x2412, 0x2425, 0x2429, 0x2430], (D a).toNat < 32) ∧
  ∀ i < 192, isFailed (widen D) i = false → ∀ s,
    Fits16 (offsetAverage (widen D) + offsetRaw (widen D) s i * 2 ^ offsetExp (widen D))

/-- The parameters of pixel `i`; those of a broken pixel are zero. -/
def offset (s : Subpage) (i : Nat) : Int :=
  if isFailed (widen D) i then 0 else offsetAverage (widen D) + offsetRaw (widen D) s i * 2 ^ offsetExp (widen D)
noncomputable def alpha (i : Nat) : ℝ :=
  if isFailed (widen D) i then 0 else (alphaRaw (widen D) i : ℝ) / 2047 *
    (((D (0x241C + rowPair i)).toNat : ℝ) / 2 ^ referenceExp (widen D) (rowPair i))
noncomputable def kTa (i : Nat) : ℝ :=
  if isFailed (widen D) i then 0 else
    ((kTaRaw (widen D) i : ℝ) * 2 ^ bitsAt (widen D 0x2416) 0 5 + (D 0x2415).toInt) / 2 ^ bitsAt (widen D 0x2416) 5 6
noncomputable def kV (i : Nat) : ℝ :=
  if isFailed (widen D) i then 0 else
    ((kVRaw (widen D) i : ℝ) * 2 ^ bitsAt (widen D 0x2418) 0 5 + (D 0x2417).toInt) / 2 ^ bitsAt (widen D 0x2418) 5 6

noncomputable def kSTo : List ℝ :=
  [0x2435, 0x2436, 0x2437, 0x2438, 0x2439, 0x243B, 0x243D, 0x243F].map fun a => ((D a).toInt : ℝ) / 2 ^ (D 0x2434).toNat
/-- Corner temperatures. -/
def ranges : List Int := [-40, -20, 0, 80, 120, ((D 0x243A).toNat : Int), ((D 0x243C).toNat : Int), ((D 0x243E).toNat : Int)]

/-- The table of parameters. -/
noncomputable def calibration : Calib ℝ where
  cam := Mlx90641.cam
  kVdd := (D 0x2427).toInt * 2 ^ 5
  vdd25 := (D 0x2426).toInt * 2 ^ 5
  resolution := CtrlField.resolution.decode (bitsAt (widen D 0x2433) 9 2)
  vdd0 := 3.3
  kVptat := (D 0x242B).toInt / 2 ^ 12
  kTptat := (D 0x242A).toInt / 2 ^ 3
  vptat25 := 32 * (D 0x2428).toNat + (D 0x2429).toNat
  alphaPtat := (D 0x242C).toNat / 2 ^ 7
  gain := 32 * (D 0x2424).toNat + (D 0x2425).toNat
  kSTa := (D 0x2422).toInt / 2 ^ 15
  cornerTemps := ranges D
  kSTo := kSTo D
  alphaCorrection := (List.range 8).map (rangeCorrection 2 (ranges D) (kSTo D))
  emissivity := some ((D 0x2423).toInt / 2 ^ 9)
  offsetRef s := perPixel 192 (offset D s)
  offsetRefCp _ := wrap16 (32 * (D 0x242F).toNat + (D 0x2430).toNat)
  alpha _ := perPixel 192 (alpha D)
  alphaCp _ := (D 0x242D).toNat / 2 ^ (D 0x242E).toNat
  kV _ := perPixel 192 (kV D)
  kVCp _ := signedAt (widen D 0x2432) 0 6 / 2 ^ bitsAt (widen D 0x2432) 6 5
  kTa _ := perPixel 192 (kTa D)
  kTaCp _ := signedAt (widen D 0x2431) 0 6 / 2 ^ bitsAt (widen D 0x2431) 6 5
  tgc := some (signedAt (widen D 0x2433) 0 9 / 2 ^ 6)
  apComp _ := perPixel 192 fun _ => none
  apCompCp _ _ := none
  failed := perPixel 192 (isFailed (widen D))
  outlier := perPixel 192 (isFailed (widen D))

end
end Ee641

/-! ### From memory to temperature -/

/-- The EEPROM words of a camera memory. -/
def eepromOf (M : Word → Word) (a : Nat) : Word := M (BitVec.ofNat 16 a)

/-- The resolution correction for a calibration made at one resolution and a control word that sets another one. -/
noncomputable def correction (c : Calib ℝ) (control : Word) : ℝ :=
  2 ^ CtrlField.resolution.code c.resolution / 2 ^ bitsAt control 10 2

/-- Subpages are read in the interleaved pattern or the chess pattern, according to bit 12 of the control word. -/
def pattern (control : Word) : AccessPattern := if control.getLsbD 12 then .chess else .interleave

/-- The signal and the temperature of a pixel, from its raw value, its parameters, the frame-wide readings, the
control word, and the user's emissivity and reflected temperature. -/
noncomputable def pixelSignal (c : Calib ℝ) (control : Word) (readings : RamData) (em : ℝ) (sp : Subpage)
    (raw offset : Int) (kV kTa comp : ℝ) : ℝ :=
  Datasheet.compensatedSignal c (correction c control) em readings sp (pattern control) raw offset kV kTa comp
noncomputable def pixelTemperature (c : Calib ℝ) (control : Word) (readings : RamData) (em : ℝ) (tR : Option ℝ) (heating : ℝ)
    (sp : Subpage) (raw offset : Int) (alpha kV kTa comp kSTo : ℝ) : ℝ :=
  let tA := Datasheet.ambient c readings
  Datasheet.object (pixelSignal c control readings em sp raw offset kV kTa comp) (Datasheet.sensitivity c readings sp alpha)
    (Datasheet.reflected tA (tR.getD (tA - heating)) em) kSTo

namespace Mlx90640Memory
variable (M : Word → Word)

/-- The words of a frame that concern all pixels. -/
def readings (sp : Subpage) : RamData where
  tAVbe := (M 0x0700#16).toInt
  tAPtat := (M 0x0720#16).toInt
  vddPixel := (M 0x072A#16).toInt
  gain := (M 0x070A#16).toInt
  compensationPixel := (match sp with | .zero => M 0x0708#16 | .one => M 0x0728#16).toInt

/-- The interleaving compensation of pixel `i`. -/
noncomputable def comp (i : Nat) : ℝ :=
  match pattern (M 0x800D#16) with
  | .chess => 0
  | .interleave => Ee640.interleave (eepromOf M) i

/-- Pixel `i` is measured for subpage `sp`: chess board, or rows by turns. -/
def measured (sp : Subpage) (i : Nat) : Prop :=
  i < 768 ∧ (match pattern (M 0x800D#16) with
    | .chess => (i / 32 + i % 32) % 2
    | .interleave => i / 32 % 2) = sp.toNat

/-- The signal of pixel `i`. -/
noncomputable def signal (em : ℝ) (sp : Subpage) (i : Nat) : ℝ :=
  let E := eepromOf M
  pixelSignal (Ee640.calibration E) (M 0x800D#16) (readings M sp) em sp (M (BitVec.ofNat 16 (0x0400 + i))).toInt
    (Ee640.offset E i) (Ee640.kV E i) (Ee640.kTa E i) (comp M i)

/-- The temperature of pixel `i`, assuming that a surrounding of unknown temperature is 8 °C below the sensor, using the
slope of the range from 0 °C on. -/
noncomputable def temperature (em : ℝ) (tR : Option ℝ) (sp : Subpage) (i : Nat) : ℝ :=
  let E := eepromOf M
  pixelTemperature (Ee640.calibration E) (M 0x800D#16) (readings M sp) em tR 8 sp (M (BitVec.ofNat 16 (0x0400 + i))).toInt
    (Ee640.offset E i) (Ee640.alpha E i) (Ee640.kV E i) (Ee640.kTa E i) (comp M i)
    ((signedAt (E 0x243D) 8 8 : ℝ) / 2 ^ (bitsAt (E 0x243F) 0 4 + 8))

end Mlx90640Memory

namespace Mlx90641Memory
variable (M : Word → Word)

/-- The words of a frame that concern all pixels. -/
def readings (sp : Subpage) : RamData where
  tAVbe := (M 0x0580#16).toInt
  tAPtat := (M 0x05A0#16).toInt
  vddPixel := (M 0x05AA#16).toInt
  gain := (M 0x058A#16).toInt
  compensationPixel := (match sp with | .zero => M 0x0588#16 | .one => M 0x05A8#16).toInt

/-- The RAM address of pixel `i`: 32 words of the one subpage, then 32 of the other. -/
def address (sp : Subpage) (i : Nat) : Word := BitVec.ofNat 16 (0x0400 + 64 * (i / 32) + 32 * sp.toNat + i % 32)

/-- The signal of pixel `i`, the EEPROM holding the values `D`. -/
noncomputable def signal (D : Nat → BitVec 11) (em : ℝ) (sp : Subpage) (i : Nat) : ℝ :=
  pixelSignal (Ee641.calibration D) (M 0x800D#16) (readings M sp) em sp (M (address sp i)).toInt
    (Ee641.offset D sp i) (Ee641.kV D i) (Ee641.kTa D i) 0

/-- The temperature of pixel `i`, assuming that a surrounding of unknown temperature is 5 °C below the sensor, using the
slope of the range from 0 °C on. -/
noncomputable def temperature (D : Nat → BitVec 11) (em : ℝ) (tR : Option ℝ) (sp : Subpage) (i : Nat) : ℝ :=
  pixelTemperature (Ee641.calibration D) (M 0x800D#16) (readings M sp) em tR 5 sp (M (address sp i)).toInt
    (Ee641.offset D sp i) (Ee641.alpha D i) (Ee641.kV D i) (Ee641.kTa D i) 0
    (((D 0x2437).toInt : ℝ) / 2 ^ (D 0x2434).toNat)

end Mlx90641Memory

/-- An image: `new` is `old` with the measured pixels replaced. -/
def Drawn (measured : Nat → Prop) (value : Nat → ℝ) (old new : List ℝ) : Prop :=
  new.length = old.length ∧ ∀ i, (measured i → i < old.length → new[i]? = some (value i)) ∧
    (¬ measured i → new[i]? = old[i]?)

end Mlx.Spec
