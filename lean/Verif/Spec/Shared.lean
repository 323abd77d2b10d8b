import Verif.Spec.Bus
/-
Several devices on one bus.
-/
set_option autoImplicit false
namespace Mlx.Spec
open Mlx F32Ops
variable {F σ τ ER EW : Type} [F32Ops F]

/-- Addressed at `addr`, the bus `big` behaves like the bus `small`, whose state `proj` finds in the state of `big`. -/
structure ActsAs (big : Bus τ ER EW) (addr : Byte) (proj : τ → σ) (small : Bus σ ER EW) : Prop where
  writeRead : ∀ t out buf, small.writeRead (proj t) addr out buf =
    (proj (big.writeRead t addr out buf).1, (big.writeRead t addr out buf).2)
  write : ∀ t out, small.write (proj t) addr out = (proj (big.write t addr out).1, (big.write t addr out).2)

/-- Transactions with the device at `addr` do not change what `rest` sees of the state of the bus. -/
structure Leaves {ρ : Type} (b : Bus τ ER EW) (addr : Byte) (rest : τ → ρ) : Prop where
  writeRead : ∀ t out buf, rest (b.writeRead t addr out buf).1 = rest t
  write : ∀ t out, rest (b.write t addr out).1 = rest t

/-- The driver as one that has the bus to itself. -/
def view (proj : τ → σ) (d : Driver F τ) : Driver F σ :=
  { bus := proj d.bus, addr := d.addr, calib := d.calib, pixelBuf := d.pixelBuf, resCorr := d.resCorr,
    ambient := d.ambient, emissivity := d.emissivity, accessPattern := d.accessPattern, reflected := d.reflected }

/-- Two buses with arbitrary devices joined to one: what is addressed to `a` goes to the first, everything else to the
second. -/
def joined (a : Byte) (first : Bus σ ER EW) (second : Bus τ ER EW) : Bus (σ × τ) ER EW where
  writeRead s addr out buf :=
    if addr = a then
      (((first.writeRead s.1 addr out buf).1, s.2), (first.writeRead s.1 addr out buf).2)
    else ((s.1, (second.writeRead s.2 addr out buf).1), (second.writeRead s.2 addr out buf).2)
  write s addr out :=
    if addr = a then (((first.write s.1 addr out).1, s.2), (first.write s.1 addr out).2)
    else ((s.1, (second.write s.2 addr out).1), (second.write s.2 addr out).2)
  length_eq s addr out buf := by
    split
    · exact first.length_eq s.1 addr out buf
    · exact second.length_eq s.2 addr out buf

/-- Two drivers that share a bus (for example by handles of a bus manager), each of any camera model: a call by one of them
leaves the bus in the state in which the other finds it. `true` is the first driver's turn. -/
def together (m : Mode) (b : Bus σ ER EW) (n1 n2 : Nat) :
    List (Bool × Op F) → Driver F σ × Driver F σ → Driver F σ × Driver F σ
  | [], ds => ds
  | (true, op) :: rest, (d1, d2) =>
    let d1' := (op.exec ⟨m, n1, b⟩ d1).1
    together m b n1 n2 rest (d1', { d2 with bus := d1'.bus })
  | (false, op) :: rest, (d1, d2) =>
    let d2' := (op.exec ⟨m, n2, b⟩ d2).1
    together m b n1 n2 rest ({ d1 with bus := d2'.bus }, d2')

/-- The calls made by one of the drivers. -/
def callsOf (who : Bool) (calls : List (Bool × Op F)) : List (Op F) :=
  (calls.filter fun c => c.1 == who).map Prod.snd

/-- A driver for a camera with `n` rows was constructed: an `Mlx90640Driver` (24) or an `Mlx90641Driver` (12). -/
def Made (m : Mode) (n : Nat) (b : Bus σ ER EW) (s : σ) (addr : Byte) (s' : σ) (d : Driver F σ) : Prop :=
  (n = 24 ∧ Driver.new640 m b s addr = (s', .ok d)) ∨ (n = 12 ∧ Driver.new641 m b s addr = (s', .ok d))

end Mlx.Spec
