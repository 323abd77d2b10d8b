import Verif.Spec.Restart
import Verif.Spec.History
/-
A camera that somebody else may change too.
-/
set_option autoImplicit false
namespace Mlx.Spec
open Mlx
variable {F σ ER EW : Type} [F32Ops F]

/-- A driver in use on a bus that others use too: any number of calls of any methods, each with any outcome, and between
them any changes at all of whatever is on the bus: a second program may set registers, rewrite the EEPROM, or swap the camera.
The list has the calls with their outcomes, and with the control register of the camera after each of them. -/
inductive Disturbed (env : Env σ ER EW) (mem : σ → Word → Word) (d : Driver F σ) :
    List (Op F × Res (Err ER EW) Unit × Word) → Driver F σ → Prop
  | start : Disturbed env mem d [] d
  | call {calls : List (Op F × Res (Err ER EW) Unit × Word)} {d1 : Driver F σ} (op : Op F) :
      Disturbed env mem d calls d1 →
      Disturbed env mem d (calls ++ [(op, (op.exec env d1).2, mem (op.exec env d1).1.bus 0x800D#16)]) (op.exec env d1).1
  | disturbance {calls : List (Op F × Res (Err ER EW) Unit × Word)} {d1 : Driver F σ} (s : σ) :
      Disturbed env mem d calls d1 → Disturbed env mem d calls { d1 with bus := s }

/-- What a call shows about a field of the control register that was taken to be `v` before: `w` is the register after
the call. A successful call of a getter or a setter of any field of this register has seen all of them. So has a setter that
fails to write, and it takes the value asked for as set. Other calls show nothing. -/
def shows (f : CtrlField) (v : f.Val) (op : Op F) (outcome : Res (Err ER EW) Unit) (w : Word) : f.Val :=
  match usesControl op, outcome with
  | true, .ok () => f.valueIn w
  | true, .err (.i2cWrite _) => (asks op f).getD (f.valueIn w)
  | _, _ => v

/-- What the user of a driver can believe about a field of the control register by the calls made so far, without knowing what
others do; it was `v` at first. -/
def believed (f : CtrlField) (v : f.Val) (calls : List (Op F × Res (Err ER EW) Unit × Word)) : f.Val :=
  calls.foldl (fun v c => shows f v c.1 c.2.1 c.2.2) v

/-- The memory `M`, but with the EEPROM of `E` and the control register `w`. -/
def seenAs (E : Word → Word) (w : Word) (M : Word → Word) : Word → Word := fun a =>
  if a = 0x800D#16 then w else if 0x2400 ≤ a.toNat ∧ a.toNat < 0x2740 then E a else M a

end Mlx.Spec
