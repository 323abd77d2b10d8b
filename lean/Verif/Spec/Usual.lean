import Verif.Spec.Law
/-
Measurements in the usual range, for which a single bound of the error holds.
-/
set_option autoImplicit false
namespace Mlx.Spec
open Mlx

/-- Usual parameters of a pixel or a compensation pixel: an offset of at most 1000 counts, a supply voltage
coefficient of at most 1, an ambient temperature coefficient of at most 1/64, a pattern correction of at most
16 counts, and a raw value of at most 4096 counts. -/
structure UsualPixel (raw offset : Int) (kV kTa comp : ℝ) : Prop where
  value : |(raw : ℝ)| ≤ 4096
  reference : |(offset : ℝ)| ≤ 1000
  supply : |kV| ≤ 1
  ambient : |kTa| ≤ 1 / 64
  correction : |comp| ≤ 16

/-- A usual measurement: readings that make sense, gain compensated by at most a factor of two, a PTAT voltage of at most 500 times its
change per degree; an ambient temperature from 0 to 50 °C, surroundings from -10 to 50 °C that count (with the emissivity) as having at
least -10 and at most 126 °C; a supply within 0.5 V of 3.3 V; an emissivity from 0.8 to 1; usual parameters, a gradient coefficient of at
most 1; offsets of pixel and compensation pixel that together change by at most 2.2 counts per degree; a sensitivity of at least 10⁻⁷, that a compensation pixel reduces by at most a quarter and an ambient degree changes by at
most 1/256; a slope of at most 1/1000 per degree. Nothing is said of the object yet. -/
structure PixelInputs.UsualScene (p : PixelInputs) : Prop where
  plausible : Plausible p.table p.readings
  gain : p.readings.gain ≠ 0 ∧ Fits16 p.readings.gain ∧ |p.table.gain / p.readings.gain| ≤ 2
  ptat : |ptatVoltage p.table p.readings| ≤ 500 * |p.table.kTptat|
  ambient : 0 ≤ p.ambient ∧ p.ambient ≤ 50
  surroundings : -10 ≤ p.surroundings ∧ p.surroundings ≤ 50
  radiation : (-10 + 273.15) ^ 4 ≤ p.radiation ∧ p.radiation ≤ (126 + 273.15) ^ 4
  supply : |correction p.table p.control * Datasheet.deltaV p.table p.readings| ≤ 0.5 ∧
    |Datasheet.supply p.table (correction p.table p.control) p.readings - 3.3| ≤ 0.5
  emissivity : 0.8 ≤ p.emissivity ∧ p.emissivity ≤ 1
  pixel : UsualPixel p.raw p.offset p.kV p.kTa p.comp
  compensation : UsualPixel p.readings.compensationPixel (p.table.offsetRefCp p.subpage) (p.table.kVCp p.subpage)
    (p.table.kTaCp p.subpage) ((p.table.apCompCp p.subpage (pattern p.control)).getD 0)
  gradient : |p.table.tgc.getD 0| ≤ 1
  drift : |(p.offset : ℝ)| * |p.kTa| +
    |p.table.tgc.getD 0| * (|(p.table.offsetRefCp p.subpage : ℝ)| * |p.table.kTaCp p.subpage|) ≤ 2.2
  sensitivity : 1 / 10 ^ 7 ≤ p.sensitivity ∧ p.sensitivity ≤ 2 ^ 16
  alpha : 0 < p.alpha ∧ |p.table.tgc.getD 0 * p.table.alphaCp p.subpage| ≤ p.alpha / 4
  kSTa : |p.table.kSTa| ≤ 1 / 256
  kSTo : |p.kSTo| ≤ 1 / 1000

/-- And, besides, an object that emits between half as much and half as much more than its surroundings. -/
structure PixelInputs.Usual (p : PixelInputs) : Prop extends p.UsualScene where
  contrast : |p.signal| ≤ p.sensitivity * p.radiation / 2

end Mlx.Spec
