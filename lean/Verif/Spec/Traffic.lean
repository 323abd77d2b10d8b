import Verif.Spec.Ram
/-
How much a call may use the bus.
-/
set_option autoImplicit false
namespace Mlx.Spec
open Mlx F32Ops
variable {F σ ER EW : Type} [F32Ops F]

/-- The data bytes of a transaction, sent and received (not counting the I²C address bytes). -/
def Txn.bytes : Txn ER EW → Nat
  | .read _ sent count _ => sent.length + count
  | .write _ sent _ => sent.length

/-- The data bytes of several transactions. -/
def traffic (ts : List (Txn ER EW)) : Nat := (ts.map Txn.bytes).sum

/-- A number of transactions and a number of bytes. -/
structure Cost where
  transactions : Nat
  bytes : Nat
  deriving DecidableEq

/-- Reading a register: two address bytes, two data bytes. -/
def registerRead : Cost := ⟨1, 4⟩

/-- Reading and writing a register. -/
def registerUpdate : Cost := ⟨2, 8⟩

/-- Reading a frame: the pixels and five further words. An MLX90640 in chess pattern reads all 768 pixels at once; in interleaved
pattern twelve rows of 32 pixels; an MLX90641 six blocks of 32 pixels. -/
def frameCost (rows : Nat) (ap : AccessPattern) : Cost :=
  if rows = 24 then
    match ap with
    | .chess => ⟨1 + 5, (2 + 2 * 768) + 5 * 4⟩
    | .interleave => ⟨12 + 5, 12 * (2 + 2 * 32) + 5 * 4⟩
  else ⟨6 + 5, 6 * (2 + 2 * 32) + 5 * 4⟩

/-- The most that a call may use the bus, for a camera with `rows` rows and access pattern `ap`. `synchronize` polls the
status register after updating it. -/
def cost (rows : Nat) (ap : AccessPattern) : Op F → Cost
  | .overrideEmissivity _ => ⟨0, 0⟩
  | .useDefaultEmissivity => ⟨0, 0⟩
  | .setReflectedTemperature _ => ⟨0, 0⟩
  | .generateRawImageSubpageTo _ _ => frameCost rows ap
  | .generateImageSubpageTo _ _ => frameCost rows ap
  | .generateImageTo _ => ⟨(frameCost rows ap).transactions + 1, (frameCost rows ap).bytes + 4⟩
  | .generateImageIfReady _ => ⟨(frameCost rows ap).transactions + 2, (frameCost rows ap).bytes + 8⟩
  | .synchronize polls => ⟨2 + polls, 8 + 4 * polls⟩
  | .lastMeasuredSubpage => registerRead
  | .dataAvailable => registerRead
  | .overwriteEnabled => registerRead
  | .subpagesEnabled => registerRead
  | .dataHoldEnabled => registerRead
  | .subpageRepeat => registerRead
  | .selectedSubpage => registerRead
  | .frameRate => registerRead
  | .resolution => registerRead
  | .accessPattern => registerRead
  | _ => registerUpdate

/-- The times a call polls the status register. -/
def polls : Op F → Nat
  | .synchronize n => n
  | _ => 0

/-- Constructing a driver: one read of the 832 words of the EEPROM, one of the control register. -/
def constructionCost : Cost := ⟨1 + 1, (2 + 2 * 832) + 4⟩

/-- From `log` to `log'`, at most `c` was spent. -/
def Spends (log log' : List (Txn ER EW)) (c : Cost) : Prop :=
  ∃ ts, log' = log ++ ts ∧ ts.length ≤ c.transactions ∧ traffic ts ≤ c.bytes

/-- From `log` to `log'`, exactly `c` was spent. -/
def SpendsAll (log log' : List (Txn ER EW)) (c : Cost) : Prop :=
  ∃ ts, log' = log ++ ts ∧ ts.length = c.transactions ∧ traffic ts = c.bytes

end Mlx.Spec
