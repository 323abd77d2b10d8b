import Verif.Spec.Driver
import Verif.Spec.Eeprom
/-
A driver in use, while its camera goes on measuring.
-/
set_option autoImplicit false
namespace Mlx.Spec
open Mlx
variable {F σ ER EW : Type} [F32Ops F]

/-- What a camera changes by itself, when it measures: words of its RAM and the status register. -/
def Volatile (a : Word) : Prop := (0x0400 ≤ a.toNat ∧ a.toNat < 0x0800) ∨ a = 0x8000#16

/-- A session that starts with the driver `d`, on a bus with a camera whose memory is `mem`: any number of calls of any
methods, each of them with any outcome, and between them any number of measurements, which change the RAM and the status
register at will, as long as what they leave in the memory satisfies `frame`. The list has the calls with their outcomes in
order. -/
inductive Session (env : Env σ ER EW) (mem : σ → Word → Word) (frame : (Word → Word) → Prop) (d : Driver F σ) :
    List (Op F × Res (Err ER EW) Unit) → Driver F σ → Prop
  | start : Session env mem frame d [] d
  | call {calls : List (Op F × Res (Err ER EW) Unit)} {d1 : Driver F σ} (op : Op F) :
      Session env mem frame d calls d1 →
      Session env mem frame d (calls ++ [(op, (op.exec env d1).2)]) (op.exec env d1).1
  | measurement {calls : List (Op F × Res (Err ER EW) Unit)} {d1 : Driver F σ} (s : σ) :
      Session env mem frame d calls d1 → (∀ a, ¬ Volatile a → mem s a = mem d1.bus a) → frame (mem s) →
      Session env mem frame d calls { d1 with bus := s }

/-- Any memory. -/
def anyFrame : (Word → Word) → Prop := fun _ => True

/-- The supply voltage word in the camera's RAM is within 16 bits of its reference (a build without overflow checks does not
mind). -/
def SupplyFits (m : Mode) (c : Calib F) (M : Word → Word) : Prop :=
  m = .wrapping ∨ Fits16 ((M c.cam.vddPixel).toInt - c.vdd25)

end Mlx.Spec
