/-
Basic vocabulary shared by every model file: outcomes, overflow modes, fixed-width
integers and byte parsing.
-/
set_option autoImplicit false
namespace Mlx

/-- A byte (`u8`). -/
abbrev Byte := BitVec 8
/-- A 16-bit word (`u16`), the word size of the cameras (`util.rs:5`). -/
abbrev Word := BitVec 16

/-- Outcome of a Rust function returning `Result<α, ε>` (or a plain `α`, then `err` is unused).
`panic` stands for every panic: slice index out of bounds, `split_at` past the end, arithmetic
overflow in a checked build, `unwrap` of an error, `ArrayVec` capacity exceeded. -/
inductive Res (ε : Type) (α : Type) where
  | ok (a : α)
  | err (e : ε)
  | panic
  deriving DecidableEq, Repr

namespace Res
variable {ε α β γ : Type}

/-- Rust's `?` operator together with panic propagation. -/
@[inline] def bind (x : Res ε α) (f : α → Res ε β) : Res ε β :=
  match x with
  | ok a => f a
  | err e => err e
  | panic => panic

instance : Monad (Res ε) where
  pure := Res.ok
  bind := Res.bind

@[simp] theorem pure_eq (a : α) : (pure a : Res ε α) = ok a := rfl
@[simp] theorem ok_bind (a : α) (f : α → Res ε β) : ((ok a : Res ε α) >>= f) = f a := rfl
@[simp] theorem err_bind (e : ε) (f : α → Res ε β) : ((err e : Res ε α) >>= f) = err e := rfl
@[simp] theorem panic_bind (f : α → Res ε β) : ((panic : Res ε α) >>= f) = panic := rfl

instance : LawfulMonad (Res ε) := LawfulMonad.mk' (m := Res ε)
  (id_map := by intro α x; cases x <;> rfl)
  (pure_bind := by intros; rfl)
  (bind_assoc := by intro α β γ x f g; cases x <;> rfl)

/-- `Result::map_err` (panics pass through). -/
def mapErr {ε' : Type} (f : ε → ε') : Res ε α → Res ε' α
  | ok a => ok a
  | err e => err (f e)
  | panic => panic

/-- The outcome is a success. -/
def isOk : Res ε α → Bool
  | ok _ => true
  | _ => false

end Res

/-- The overflow behaviour the crate was compiled with: `checked` is a debug build (or
`overflow-checks = true`), where integer overflow panics; `wrapping` is a release build. -/
inductive Mode where
  | checked
  | wrapping
  deriving DecidableEq, Repr

/-- Result of an `i16` addition, subtraction or multiplication whose exact value is `x`:
in range it is `x`; out of range a checked build panics and a release build wraps. -/
def arith16 {ε : Type} (m : Mode) (x : Int) : Res ε Int :=
  if -32768 ≤ x ∧ x ≤ 32767 then .ok x
  else match m with
    | .checked => .panic
    | .wrapping => .ok (x.bmod 65536)

/-- Result of a `u16` addition or multiplication whose exact value is `x`. -/
def arithU16 {ε : Type} (m : Mode) (x : Nat) : Res ε Nat :=
  if x ≤ 65535 then .ok x
  else match m with
    | .checked => .panic
    | .wrapping => .ok (x % 65536)

/-- `i16 << n` for a shift amount `n < 16`: Rust drops the bits shifted out, without a panic. -/
def shl16 (x : Int) (n : Nat) : Int := (x * 2 ^ n).bmod 65536

/-- `i8 << n` for a shift amount `n < 8`. -/
def shl8 (x : Int) (n : Nat) : Int := (x * 2 ^ n).bmod 256

/-- `>>` on a signed integer is arithmetic: floor division by `2 ^ n`. -/
def sar (x : Int) (n : Nat) : Int := x / 2 ^ n

/-- `u16::from_be_bytes`. -/
def be16 (hi lo : Byte) : Word := hi ++ lo

/-- `u16::to_be_bytes`, high byte. -/
def hiByte (w : Word) : Byte := w.extractLsb' 8 8
/-- `u16::to_be_bytes`, low byte. -/
def loByte (w : Word) : Byte := w.extractLsb' 0 8
/-- `u16::to_be_bytes`; `Address::as_bytes` (`common.rs:253-255`). -/
def toBe (w : Word) : List Byte := [hiByte w, loByte w]

/-! ### The `Buffer` trait for `&[u8]` (`util.rs:97-133`)

A parser consumes bytes from the front of a slice. `split_at`/indexing past the end panics. -/

/-- A computation over a `&mut &[u8]` cursor that may fail with `ε` or panic. -/
def Parser (ε α : Type) : Type := List Byte → Res ε (α × List Byte)

namespace Parser
variable {ε α β : Type}

/-- Sequencing of two cursor reads (`?` on failure). -/
@[inline] def bind (p : Parser ε α) (f : α → Parser ε β) : Parser ε β := fun s =>
  match p s with
  | .ok (a, s') => f a s'
  | .err e => .err e
  | .panic => .panic

instance : Monad (Parser ε) where
  pure a := fun s => .ok (a, s)
  bind := Parser.bind

/-- Run a computation that does not touch the cursor. -/
def lift (r : Res ε α) : Parser ε α := fun s =>
  match r with
  | .ok a => .ok (a, s)
  | .err e => .err e
  | .panic => .panic

theorem bind_apply (p : Parser ε α) (f : α → Parser ε β) (s : List Byte) :
    (p >>= f) s = (p s >>= fun (r : α × List Byte) => f r.1 r.2) := by
  show Parser.bind p f s = _
  unfold Parser.bind
  cases p s <;> rfl

theorem pure_apply (a : α) (s : List Byte) : (pure a : Parser ε α) s = .ok (a, s) := rfl

end Parser

/-- `Buffer::advance` (`util.rs:106-108`): panics when advancing past the end. -/
def advance {ε : Type} (n : Nat) : Parser ε Unit := fun s =>
  if n ≤ s.length then .ok ((), s.drop n) else .panic

/-- `Buffer::get_u8` (`util.rs:110-114`). -/
def getU8 {ε : Type} : Parser ε Byte
  | b :: s => .ok (b, s)
  | [] => .panic

/-- `Buffer::get_i8` (`util.rs:116-120`). -/
def getI8 {ε : Type} : Parser ε Int
  | b :: s => .ok (b.toInt, s)
  | [] => .panic

/-- `Buffer::get_u16` (`util.rs:122-126`). -/
def getU16 {ε : Type} : Parser ε Word
  | a :: b :: s => .ok (be16 a b, s)
  | _ => .panic

/-- `Buffer::get_i16` (`util.rs:128-132`). -/
def getI16 {ε : Type} : Parser ε Int
  | a :: b :: s => .ok ((be16 a b).toInt, s)
  | _ => .panic

/-- `is_bit_set` for `u16` (`util.rs:141-146`): `(value & (1 << index)) > 0`. Only called with
indices below the width, so the shift cannot overflow. -/
def isBitSet16 (w : Word) (i : Nat) : Bool := decide ((w &&& (1#16 <<< i)) > 0#16)

/-- `is_bit_set` for `u8` (`util.rs:141-146`). -/
def isBitSet8 (b : Byte) (i : Nat) : Bool := decide ((b &&& (1#8 <<< i)) > 0#8)

/-- `i16_from_bits` (`util.rs:149-156`): one byte is read as `i8` and widened, any other length is
read as the first big-endian `i16` (panicking when there are fewer than two bytes); then the value is
shifted left and arithmetically right by `16 - num_bits`. For `num_bits = 0` the shift amount is 16 and for
`num_bits > 16` the `u8` subtraction overflows: a checked build panics. A release build masks the
shift amount to its low four bits. -/
def i16FromBits {ε : Type} (m : Mode) (bytes : List Byte) (numBits : Nat) : Res ε Int := do
  let num ← (match bytes with
    | [b] => Res.ok b.toInt
    | a :: b :: _ => Res.ok (be16 a b).toInt
    | [] => Res.panic)
  if 1 ≤ numBits ∧ numBits ≤ 16 then
    .ok (sar (shl16 num (16 - numBits)) (16 - numBits))
  else match m with
    | .checked => .panic
    | .wrapping =>
      let k := (16 + 256 - numBits % 256) % 16
      .ok (sar (shl16 num k) k)

/-! ### Library errors (`error.rs:11-24`) -/

/-- `LibraryError` (`error.rs:12-24`); static message strings are kept as `String`. -/
inductive LibErr where
  | invalidData (msg : String)
  | other (msg : String)
  | checksum (w : Word)
  deriving DecidableEq, Repr

end Mlx
