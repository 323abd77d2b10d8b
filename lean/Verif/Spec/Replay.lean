import Verif.Spec.Builds
import Verif.Spec.Shared
/-
A recording of the traffic on a bus, played back.
-/
set_option autoImplicit false
namespace Mlx.Spec
open Mlx
variable {F σ ER EW : Type} [F32Ops F]

/-- A strict mock of a bus that plays back a recording: it expects exactly the transactions of the recording, in order, and answers
each with the recorded result. A failing read leaves the caller's buffer as it is. At any other transaction its state becomes
`none` and stays so. -/
def playback : Bus (Option (List (Txn ER EW))) ER EW where
  writeRead s addr out buf :=
    match s with
    | some (.read a o n result :: rest) =>
      if a = addr ∧ o = out ∧ n = buf.length then
        match result with
        | .ok bytes => (some rest, if bytes.length = buf.length then bytes else buf, none)
        | .error e => (some rest, buf, some e)
      else (none, buf, none)
    | _ => (none, buf, none)
  write s addr out :=
    match s with
    | some (.write a o e :: rest) => if a = addr ∧ o = out then (some rest, e) else (none, none)
    | _ => (none, none)
  length_eq s addr out buf := by
    split
    · split
      · split
        · simp only; split <;> simp_all
        · rfl
      · rfl
    · rfl

/-- The driver as it is, but on a mock that is still to play back `log`, and with other contents of its pixel buffer (which nothing
shows). -/
def onPlayback (d : Driver F (σ × List (Txn ER EW))) (log : List (Txn ER EW)) (buf : List Byte) :
    Driver F (Option (List (Txn ER EW))) :=
  { view (fun _ => some log) d with pixelBuf := buf }

/-- The call `call`, made on a recorded bus with the driver `d` and the result `r`, can be played back: made on a mock that plays the
transactions of the call (and then anything), it has the same result, leaves the same driver, and has used up exactly these
transactions. -/
def PlaysBack {α : Type} (d : Driver F (σ × List (Txn ER EW))) (r : Driver F (σ × List (Txn ER EW)) × α)
    (call : Driver F (Option (List (Txn ER EW))) → Driver F (Option (List (Txn ER EW))) × α) : Prop :=
  ∃ ts, r.1.bus.2 = d.bus.2 ++ ts ∧ ∀ rest buf, buf.length = d.pixelBuf.length →
    ∃ buf', buf'.length = d.pixelBuf.length ∧ call (onPlayback d (ts ++ rest) buf) = (onPlayback r.1 rest buf', r.2)

end Mlx.Spec
