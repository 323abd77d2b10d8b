import Verif.Spec.Driver
import Verif.Spec.Static
import Verif.Spec.Access
/-
What has been heard of a camera on the bus, and a camera that holds still.
-/
set_option autoImplicit false
namespace Mlx.Spec
open Mlx
variable {F σ ER EW : Type}

/-- What a transaction with the device `addr` says about its word at address `a`: the word received, if the transaction is a
successful read that includes it; the word sent, if it is a write (even if that failed); otherwise nothing. -/
def Txn.says (addr : Byte) (a : Word) : Txn ER EW → Option Word
  | .read device [hi, lo] count (.ok bytes) =>
    let k := (a - be16 hi lo).toNat
    if device = addr ∧ 2 * k + 1 < count then
      match bytes[2 * k]?, bytes[2 * k + 1]? with
      | some x, some y => some (be16 x y)
      | _, _ => none
    else none
  | .write device [hi, lo, x, y] _ => if device = addr ∧ be16 hi lo = a then some (be16 x y) else none
  | _ => none

/-- The last thing that a list of transactions says about the word at address `a` of the device `addr`. -/
def lastWord (addr : Byte) (a : Word) (log : List (Txn ER EW)) : Option Word :=
  log.reverse.findSome? (Txn.says addr a)

/-- The memory `V` is what was last heard of the device. (Anything, where nothing was heard.) -/
def AsHeard (addr : Byte) (log : List (Txn ER EW)) (V : Word → Word) : Prop :=
  ∀ a w, lastWord addr a log = some w → V a = w

/-- A driver freshly constructed by `construct` at address `addr`, for a camera that does nothing but hold the memory `V`, on a bus
without errors, and then given the emissivity `em` and the reflected temperature `refl`. -/
def OnStill [F32Ops F] (construct : Mode → Bus (Word → Word) Unit Unit → (Word → Word) → Byte →
      (Word → Word) × Res (Err Unit Unit) (Driver F (Word → Word))) (m : Mode) (height : Nat) (addr : Byte) (V : Word → Word)
    (em : F) (refl : Option F) (e : Driver F (Word → Word)) : Prop :=
  ∃ c e0, construct m (cameraBus addr) V addr = (c, .ok e0) ∧
    e = runOps ⟨m, height, cameraBus addr⟩ [.overrideEmissivity em, .setReflectedTemperature refl] e0

end Mlx.Spec
