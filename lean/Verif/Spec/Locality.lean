import Verif.Spec.Thermometer
import Verif.Spec.Session
import Verif.Spec.Static
import Verif.Spec.Hamming
/-
Which words of a camera's memory a pixel of an image depends on.
-/
set_option autoImplicit false
namespace Mlx.Spec
open Mlx F32Ops
variable {F σ ER EW : Type} [F32Ops F]

/-- `d1` is a driver in use: constructed on a bus with a camera whose memory `mem` is only changed by writes and by measurements,
and then used for any calls (none of which failed to write the control register) while the camera measures between them. -/
def InUse640 (m : Mode) (b : Bus σ ER EW) (mem : σ → Word → Word) (d1 : Driver F σ) : Prop :=
  ∃ s s' addr d calls, StaticMemory b addr mem ∧ Driver.new640 m b s addr = (s', .ok d) ∧
    Session ⟨m, 24, b⟩ mem anyFrame d calls d1 ∧ ∀ c ∈ calls, ¬ ControlWriteFailed c.1 c.2
/-- The same for the MLX90641. -/
def InUse641 (m : Mode) (b : Bus σ ER EW) (mem : σ → Word → Word) (d1 : Driver F σ) : Prop :=
  ∃ s s' addr d calls, StaticMemory b addr mem ∧ Driver.new641 m b s addr = (s', .ok d) ∧
    Session ⟨m, 12, b⟩ mem anyFrame d calls d1 ∧ ∀ c ∈ calls, ¬ ControlWriteFailed c.1 c.2

/-- The addresses of the words that pixel `i` of an MLX90640 may depend on in an image of subpage `sp`: the calibration of the whole
sensor, that of the pixel; the pixel, and the words of the frame that are not pixels (of the two compensation pixels, that of the
subpage); and the control register. -/
def Concerns640 (sp : Subpage) (i : Nat) (a : Word) : Prop :=
  0x2410 ≤ a.toNat ∧ a.toNat < 0x2440 ∨ a.toNat = 0x2440 + i ∨
  a.toNat = 0x0400 + i ∨ a ∈ [0x0700#16, 0x070A#16, 0x0720#16, 0x072A#16] ∨ a = (match sp with | .zero => 0x0708#16 | .one => 0x0728#16) ∨
  a = 0x800D#16

/-- Two EEPROM words of an MLX90641 are equal, or hold the same value with at most one wrong bit each. -/
def SameValue (w w' : Word) : Prop := w = w' ∨ ∃ v, WithinOneBit w (codeword v) ∧ WithinOneBit w' (codeword v)

/-- The addresses of the EEPROM words that pixel `i` of an MLX90641 may depend on: those of the calibration of the whole sensor (but
for 0x2413 and 0x2414), and four for the pixel. -/
def Calibrates641 (i : Nat) (a : Word) : Prop :=
  0x2410 ≤ a.toNat ∧ a.toNat < 0x2440 ∧ a ≠ 0x2413#16 ∧ a ≠ 0x2414#16 ∨
  a.toNat = 0x2440 + i ∨ a.toNat = 0x2500 + i ∨ a.toNat = 0x25C0 + i ∨ a.toNat = 0x2680 + i

/-- The addresses of the RAM and register words that pixel `i` of an MLX90641 may depend on in an image of subpage `sp`. -/
def Concerns641 (sp : Subpage) (i : Nat) (a : Word) : Prop :=
  a = Mlx90641Memory.address sp i ∨ a ∈ [0x0580#16, 0x058A#16, 0x05A0#16, 0x05AA#16] ∨
  a = (match sp with | .zero => 0x0588#16 | .one => 0x05A8#16) ∨ a = 0x800D#16

end Mlx.Spec
