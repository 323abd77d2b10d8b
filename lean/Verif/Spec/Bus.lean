import Verif.Model.Driver
/-
Specification vocabulary for bus traffic: a recording wrapper, and what it means for a bus to be connected
to a device with memory. None of this models code of the crate; it is used to state properties.
-/
set_option autoImplicit false
namespace Mlx.Spec
open Mlx

/-- One bus transaction as seen by an observer on the wire. -/
inductive Txn (ER EW : Type) where
  /-- A combined write-then-read: I²C address, bytes sent, number of bytes requested, and the bytes received or
  the error. -/
  | read (addr : Byte) (sent : List Byte) (count : Nat) (result : Except ER (List Byte))
  /-- A write: I²C address, bytes sent, and the error if it failed. -/
  | write (addr : Byte) (sent : List Byte) (error : Option EW)

namespace Txn
variable {ER EW : Type}

/-- The transaction is a write. -/
def isWrite : Txn ER EW → Bool
  | .write .. => true
  | .read .. => false

/-- The I²C address of a transaction. -/
def addr : Txn ER EW → Byte
  | .read a .. => a
  | .write a .. => a

/-- The transaction succeeded. -/
def succeeded : Txn ER EW → Bool
  | .read _ _ _ (.ok _) => true
  | .read _ _ _ (.error _) => false
  | .write _ _ none => true
  | .write _ _ (some _) => false

/-- The error of a failed transaction, as the library reports it. -/
def error : Txn ER EW → Option (Err ER EW)
  | .read _ _ _ (.ok _) => none
  | .read _ _ _ (.error e) => some (.i2cWriteRead e)
  | .write _ _ none => none
  | .write _ _ (some e) => some (.i2cWrite e)

/-- Reading the 16-bit register `reg`: the word received or the error. -/
def readReg (addr : Byte) (reg : Word) (result : Except ER Word) : Txn ER EW :=
  .read addr (toBe reg) 2 (match result with | .ok w => .ok (toBe w) | .error e => .error e)

/-- Writing the word `w` to the 16-bit register `reg`. -/
def writeReg (addr : Byte) (reg w : Word) (error : Option EW) : Txn ER EW :=
  .write addr (toBe reg ++ toBe w) error

end Txn

variable {σ ER EW : Type}

/-- The bus `b` with a recorder attached: the state carries the list of all transactions so far, oldest
first. It behaves exactly like `b`. -/
def recorded (b : Bus σ ER EW) : Bus (σ × List (Txn ER EW)) ER EW where
  writeRead s addr out buf :=
    let r := b.writeRead s.1 addr out buf
    ((r.1, s.2 ++ [.read addr out buf.length
      (match r.2.2 with | none => .ok r.2.1 | some e => .error e)]), r.2)
  write s addr out :=
    let r := b.write s.1 addr out
    ((r.1, s.2 ++ [.write addr out r.2]), r.2)
  length_eq s addr out buf := b.length_eq s.1 addr out buf

/-- A recorder attached to the bus of an environment. -/
def recordedEnv (env : Env σ ER EW) : Env (σ × List (Txn ER EW)) ER EW :=
  { mode := env.mode, height := env.height, bus := recorded env.bus }

/-- The bytes a camera sends for a read of `count` bytes from `base`: big-endian words at consecutive
addresses. -/
def memBytes (mem : Word → Word) (base : Word) (count : Nat) : List Byte :=
  (List.range count).map fun i =>
    let w := mem (base + BitVec.ofNat 16 (i / 2))
    if i % 2 = 0 then hiByte w else loByte w

/-- Memory with one word replaced. -/
def setWord (mem : Word → Word) (a v : Word) : Word → Word := fun x => if x = a then v else mem x

/-- `b` is connected, at I²C address `addr`, to a device whose memory `mem s` is static: successful reads
return it, successful four-byte writes store one word, nothing else changes it. Transactions may fail at any
time. -/
structure StaticMemory (b : Bus σ ER EW) (addr : Byte) (mem : σ → Word → Word) : Prop where
  read_data : ∀ s base buf, (b.writeRead s addr (toBe base) buf).2.2 = none →
    (b.writeRead s addr (toBe base) buf).2.1 = memBytes (mem s) base buf.length
  read_mem : ∀ s base buf, mem (b.writeRead s addr (toBe base) buf).1 = mem s
  write_ok : ∀ s reg v, (b.write s addr (toBe reg ++ toBe v)).2 = none →
    mem (b.write s addr (toBe reg ++ toBe v)).1 = setWord (mem s) reg v
  write_err : ∀ s reg v, (b.write s addr (toBe reg ++ toBe v)).2 ≠ none →
    mem (b.write s addr (toBe reg ++ toBe v)).1 = mem s

/-- A simple camera: memory behind a fixed I²C address. -/
structure SimpleCamera where
  addr : Byte
  mem : Word → Word

/-- A bus with a simple camera on it; anything not addressed to it, or malformed, is not acknowledged. -/
def simpleBus : Bus SimpleCamera Unit Unit where
  writeRead s addr out buf :=
    if addr = s.addr then
      match out with
      | [h, l] => (s, memBytes s.mem (be16 h l) buf.length, none)
      | _ => (s, buf, some ())
    else (s, buf, some ())
  write s addr out :=
    if addr = s.addr then
      match out with
      | [h, l, vh, vl] => ({ s with mem := setWord s.mem (be16 h l) (be16 vh vl) }, none)
      | _ => (s, some ())
    else (s, some ())
  length_eq s addr out buf := by
    split
    · split <;> simp [memBytes]
    · rfl

/-- The transactions and outcome of polling the status register at most `fuel` times: words without new data,
then a word with new data (success), or an error (returned), or the polls are used up. -/
def Polling (addr : Byte) (fuel : Nat) (ts : List (Txn ER EW)) (r : Res (Err ER EW) Bool) : Prop :=
  ∃ stale : List Word, (∀ w ∈ stale, w.getLsbD 3 = false) ∧
    ((∃ w, w.getLsbD 3 = true ∧ r = .ok true ∧ stale.length < fuel ∧
        ts = stale.map (fun w => .readReg addr 0x8000#16 (.ok w)) ++ [.readReg addr 0x8000#16 (.ok w)]) ∨
     (∃ e, r = .err (.i2cWriteRead e) ∧ stale.length < fuel ∧
        ts = stale.map (fun w => .readReg addr 0x8000#16 (.ok w)) ++ [.readReg addr 0x8000#16 (.error e)]) ∨
     (r = .ok false ∧ stale.length = fuel ∧ ts = stale.map (fun w => .readReg addr 0x8000#16 (.ok w))))

/-- Reads of the status register, one after the other, on a bus in state `s`: the bus state after `k` of them. -/
def statusPolls (b : Bus σ ER EW) (addr : Byte) (s : σ) : Nat → σ
  | 0 => s
  | k + 1 => (b.writeRead (statusPolls b addr s k) addr [0x80#8, 0x00#8] [0#8, 0#8]).1

/-- What the `k`th of them gets (counted from 0): an error, or two bytes. -/
def statusPoll (b : Bus σ ER EW) (addr : Byte) (s : σ) (k : Nat) : Except ER Word :=
  let r := b.writeRead (statusPolls b addr s k) addr [0x80#8, 0x00#8] [0#8, 0#8]
  match r.2.2 with
  | some e => .error e
  | none => .ok (be16 (r.2.1.getD 0 0#8) (r.2.1.getD 1 0#8))

/-- The configuration word of an I²C register: bit 0 disables Fast Mode+, bit 1 halves the threshold, bit 2 disables the
current limiter, and all other bits are zero. -/
def i2cWord (r : I2cReg) : Word :=
  BitVec.ofNat 16 ((if r.fastModePlus then 0 else 1) + (if r.thresholdHalved then 2 else 0) +
    (if r.sdaCurrentLimiter then 0 else 4))

/-- What `from_i2c` of a register does: one combined transaction that sends the two bytes `sent` and asks for two; the
result is decoded from the word received, and an error is passed on. -/
def OneRead {α : Type} (addr : Byte) (sent : List Byte) (decode : Word → α) (log : List (Txn ER EW))
    (r : (σ × List (Txn ER EW)) × Res (Err ER EW) α) : Prop :=
  (∃ w : Word, r.1.2 = log ++ [.read addr sent 2 (.ok [hiByte w, loByte w])] ∧ r.2 = .ok (decode w)) ∨
  ∃ e, r.1.2 = log ++ [.read addr sent 2 (.error e)] ∧ r.2 = .err (.i2cWriteRead e)

/-- What `to_i2c` of a register does: one write of the two address bytes and the two bytes of a word; an error is passed
on. -/
def OneWrite (addr : Byte) (sent : List Byte) (w : Word) (log : List (Txn ER EW))
    (r : (σ × List (Txn ER EW)) × Res (Err ER EW) Unit) : Prop :=
  (r.1.2 = log ++ [.write addr (sent ++ [hiByte w, loByte w]) none] ∧ r.2 = .ok ()) ∨
  ∃ e, r.1.2 = log ++ [.write addr (sent ++ [hiByte w, loByte w]) (some e)] ∧ r.2 = .err (.i2cWrite e)

end Mlx.Spec
