import Verif.Spec.History
/-
Vocabulary for comparing builds of the crate with and without overflow checks.
-/
set_option autoImplicit false
namespace Mlx.Spec
open Mlx
variable {F σ ER EW ε α : Type}

/-- The first outcome is a panic, or it is the second. -/
def PanicsOr (p q : Res ε α) : Prop := p = .panic ∨ p = q

end Mlx.Spec

namespace Mlx.Spec
open Mlx
variable {F σ ER EW : Type}

/-- The outcome of a call reports its transactions `ts`: it is an error exactly when one of them failed, which
is then the last one, and the error is the one of that transaction. -/
def AccountsFor (ts : List (Txn ER EW)) : Res (Err ER EW) Unit → Prop
  | .err e => FailsAtEnd ts e
  | _ => ∀ t ∈ ts, t.succeeded = true

/-- One of the transactions received, from the supply voltage reading of the camera type, a word whose difference
to the calibration's reference value `v_dd_25` is not a 16-bit number. -/
def VoltageOverflow (addr : Byte) (c : Calib F) (ts : List (Txn ER EW)) : Prop :=
  ∃ w : Word, .readReg addr c.cam.vddPixel (.ok w) ∈ ts ∧
    ¬ (-32768 ≤ w.toInt - c.vdd25 ∧ w.toInt - c.vdd25 ≤ 32767)

/-- The environment with another overflow mode. -/
def inBuild (env : Env σ ER EW) (m : Mode) : Env σ ER EW := { env with mode := m }

/-- What a call leaves in the destination passed to it (nothing for methods without one). -/
def destinationAfter [F32Ops F] (env : Env σ ER EW) : Op F → Driver F σ → List F
  | .generateRawImageSubpageTo sp dest, d => (Driver.generateRawImageSubpageTo env sp dest d).2.1
  | .generateImageSubpageTo sp dest, d => (Driver.generateImageSubpageTo env sp dest d).2.1
  | .generateImageTo dest, d => (Driver.generateImageTo env dest d).2.1
  | .generateImageIfReady dest, d => (Driver.generateImageIfReady env dest d).2.1
  | _, _ => []

/-- The outcomes of the calls of a history, in order, each with the contents of its destination. -/
def images [F32Ops F] (env : Env σ ER EW) : List (Op F) → Driver F σ → List (Res (Err ER EW) Unit × List F)
  | [], _ => []
  | op :: ops, d => ((op.exec env d).2, destinationAfter env op d) :: images env ops (op.exec env d).1

end Mlx.Spec
