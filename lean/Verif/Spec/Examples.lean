import Verif.Spec.Thermometer
import Verif.Model.Examples
/-
What the example programs are for.
-/
set_option autoImplicit false
namespace Mlx.Spec
open Mlx
variable {F σ ER EW : Type}

/-- A picture of `height` rows of `width` values as text: each row is preceded by a new line, each value followed by two
spaces. -/
def picture (format : F → List Char) (height width : Nat) (value : Nat → F) : List Char :=
  (List.range height).flatMap fun r => '\n' :: (List.range width).flatMap fun c => format (value (r * width + c)) ++ [' ', ' ']

/-- What each of some pictures, the newest one first, shows in place `i`, if anything; and what is seen of them in the end:
the newest value, zero where there is none. -/
noncomputable def newest : List (Nat → Option ℝ) → Nat → ℝ
  | [], _ => 0
  | f :: fs, i => (f i).getD (newest fs i)

open Classical in
/-- The picture of an MLX90640 with the memory `M`, if it has new data: the pixels of the subpage just measured. -/
noncomputable def frame640 (M : Word → Word) (em : ℝ) (i : Nat) : Option ℝ :=
  let sp := if (M 0x8000#16).getLsbD 0 then Subpage.one else Subpage.zero
  if (M 0x8000#16).getLsbD 3 = true ∧ Mlx90640Memory.measured M sp i then some (Mlx90640Memory.temperature M em none sp i) else none

/-- The picture of an MLX90641 with the memory `M` and the EEPROM data `D`, if it has new data: all pixels. -/
noncomputable def frame641 (M : Word → Word) (D : Nat → BitVec 11) (em : ℝ) (i : Nat) : Option ℝ :=
  let sp := if (M 0x8000#16).getLsbD 0 then Subpage.one else Subpage.zero
  if (M 0x8000#16).getLsbD 3 = true ∧ i < 192 then some (Mlx90641Memory.temperature M D em none sp i) else none

/-- The number that a sequence of digits denotes. -/
def denotes (radix : Nat) (digit : Char → Option Nat) : List Char → Option Nat
  | [] => some 0
  | c :: cs => do
    let v ← digit c
    let rest ← denotes radix digit cs
    pure (v * radix ^ cs.length + rest)

/-- Decimal and hexadecimal digits. -/
def decimalDigit (c : Char) : Option Nat := "0123456789".toList.idxOf? c
def hexadecimalDigit (c : Char) : Option Nat := ("0123456789abcdef".toList.idxOf? c).or ("0123456789ABCDEF".toList.idxOf? c)

/-- `l` are the subpages that successive calls of `last_measured_subpage` returned, and the times after these calls. -/
inductive Polls [F32Ops F] (env : Env σ ER EW) (now : σ → Nat) : Driver F σ → List (Subpage × Nat) → Driver F σ → Prop
  | nil (d : Driver F σ) : Polls env now d [] d
  | cons {d d1 d2 : Driver F σ} {sp : Subpage} {l : List (Subpage × Nat)} :
      Driver.lastMeasuredSubpage env d = (d1, .ok sp) → Polls env now d1 l d2 →
      Polls env now d ((sp, now d1.bus) :: l) d2

/-- The times at which the subpage was another one than the time before. -/
def changes : Subpage → List (Subpage × Nat) → List Nat
  | _, [] => []
  | last, (sp, t) :: l => if sp = last then changes sp l else t :: changes sp l

/-- `m` is a most frequent element of `l`, the smallest one if there are several. -/
def IsMode (l : List Nat) (m : Nat) : Prop :=
  m ∈ l ∧ ∀ x ∈ l, l.count x ≤ l.count m ∧ (l.count x = l.count m → m ≤ x)

/-- A number in a text: at least one digit, possibly after a plus sign. -/
def Numeral (radix : Nat) (digit : Char → Option Nat) (text : List Char) (n : Nat) : Prop :=
  ∃ digits, digits ≠ [] ∧ (text = digits ∨ text = '+' :: digits) ∧ denotes radix digit digits = some n

end Mlx.Spec
