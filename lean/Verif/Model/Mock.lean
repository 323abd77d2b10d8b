import Verif.Model.Bus
/-
The mock camera of the workspace (`mlx9064x-test-data/src/i2c_mock.rs`), which implements the I²C bus traits and is what
the tests of the crate and of its users run the driver against.
-/
set_option autoImplicit false
namespace Mlx

/-- A `[u8; n]`. -/
structure Bytes (n : Nat) where
  bytes : List Byte
  length_eq : bytes.length = n

namespace Bytes
variable {n : Nat}

/-- `self[start..start + data.len()].copy_from_slice(data)` once the range is known to be in bounds. -/
def splice (x : Bytes n) (start : Nat) (data : List Byte) : Bytes n :=
  if h : start + data.length ≤ n then
    ⟨x.1.take start ++ data ++ x.1.drop (start + data.length), by
      rw [List.length_append, List.length_append, List.length_take, List.length_drop, x.2]; omega⟩
  else x

/-- `self.copy_from_slice(data)`: panics unless the lengths agree. -/
def copyFrom {ε : Type} (n : Nat) (data : List Byte) : Res ε (Bytes n) :=
  if h : data.length = n then .ok ⟨data, h⟩ else .panic

/-- `[hi, lo]` as two bytes of a big-endian word. -/
def ofWord (w : Word) : Bytes 2 := ⟨toBe w, rfl⟩

/-- `u16::from_be_bytes` of a two-byte array. -/
def toWord (x : Bytes 2) : Word := be16 (x.1.getD 0 0#8) (x.1.getD 1 0#8)

end Bytes

/-- `MockError` (`i2c_mock.rs:63-87`). -/
inductive MockErr where
  | illegalAccess (address : Word)
  | illegalWriteAddress (address : Word)
  | illegalWriteValue (address value : Word)
  | unknownMemoryAddress (address : Word)
  | unknownI2cAddress (address : Byte)
  | illegalOperation
  deriving DecidableEq, Repr

/-- `I2cOperation` (`i2c_mock.rs:89-93`). -/
inductive MockOp where
  | write (address : Word) (length : Nat)
  | read (address : Word) (length : Nat)
  deriving DecidableEq, Repr

/-- The fields of `MockCameraBus` that are set at construction and that no method assigns (`i2c_mock.rs:98-103`), and the
const generic `RAM_LENGTH`. Ranges are given by their inclusive bounds. Simplification: they are parameters of the mock
instead of a part of its state. -/
structure MockConfig where
  i2cAddress : Byte
  romRange : Nat × Nat
  ramRange : Nat × Nat
  eepromRange : Nat × Nat
  registerRange : Nat × Nat
  ramLength : Nat

/-- `RangeInclusive::contains`. -/
def inRange (r : Nat × Nat) (a : Nat) : Prop := r.1 ≤ a ∧ a ≤ r.2

instance (r : Nat × Nat) (a : Nat) : Decidable (inRange r a) := by unfold inRange; infer_instance

/-- The configuration `new_mlx90640` makes (`i2c_mock.rs:112-145`), `MLX90640_RAM_LENGTH` (`i2c_mock.rs:23`). -/
def MockConfig.mlx90640 (i2cAddress : Byte) : MockConfig where
  i2cAddress := i2cAddress
  romRange := (0x0000, 0x03FF)
  ramRange := (0x0400, 0x073F)
  eepromRange := (0x2400, 0x273F)
  registerRange := (0x8000, 0x8016)
  ramLength := (0x0740 - 0x0400) * 2

/-- The configuration `mock_mlx90641_at_address` makes (`i2c_mock.rs:470-484`), `MLX90641_RAM_LENGTH`
(`i2c_mock.rs:30`). -/
def MockConfig.mlx90641 (i2cAddress : Byte) : MockConfig where
  i2cAddress := i2cAddress
  romRange := (0x0000, 0x03FF)
  ramRange := (0x0400, 0x05BF)
  eepromRange := (0x2400, 0x273F)
  registerRange := (0x8000, 0x8016)
  ramLength := (0x05C0 - 0x0400) * 2

/-- The contents of a `MockCameraBus` (`i2c_mock.rs:104-110`). Simplification: the `Rc<RefCell<_>>`s are plain fields;
clones of a mock, which share them, are the same mock. The queue has its front first. -/
@[ext] structure Mock (c : MockConfig) where
  eeprom : Bytes 1664
  ram : Bytes c.ramLength
  status : Bytes 2
  control : Bytes 2
  i2cConfig : Bytes 2
  recent : List MockOp

/-- `&l[start..stop]`. -/
def slice {ε : Type} (l : List Byte) (start stop : Nat) : Res ε (List Byte) :=
  if start ≤ stop ∧ stop ≤ l.length then .ok ((l.drop start).take (stop - start)) else .panic

/-- `u16` subtraction `a - b`. -/
def subU16 {ε : Type} (m : Mode) (a b : Nat) : Res ε Nat :=
  if b ≤ a then .ok (a - b)
  else match m with
    | .checked => .panic
    | .wrapping => .ok (a + 65536 - b)

/-- The words of `chunks_exact(2)`: an odd last byte is left out. -/
def words : List Byte → List Word
  | h :: l :: rest => be16 h l :: words rest
  | _ => []

/-- `check_new_against_mask` (`i2c_mock.rs:402-404`). -/
def checkNewAgainstMask (existing mask new : Word) : Bool := new &&& ~~~mask == existing &&& ~~~mask

/-- The loop over the zipped chunks in `set` (`i2c_mock.rs:254-263`): the index and the new word of the first chunk that
changes a protected bit. -/
def firstRefused : Nat → List Word → List Word → List Word → Option (Nat × Word)
  | i, e :: es, k :: ks, v :: vs =>
    if checkNewAgainstMask e k v then firstRefused (i + 1) es ks vs else some (i, v)
  | _, _, _, _ => none

namespace Mock
variable {c : MockConfig}

/-- `STATUS_REGISTER_WRITE_MASK` (`i2c_mock.rs:36`). -/
def statusMask : List Byte := [0x00#8, 0x3F#8]
/-- `CONTROL_REGISTER_1_WRITE_MASK` (`i2c_mock.rs:41`). -/
def controlMask : List Byte := [0x1F#8, 0xFF#8]
/-- `CONTROL_REGISTER_2_WRITE_MASK` (`i2c_mock.rs:44`). -/
def control2Mask : List Byte := [0x00#8, 0x00#8]
/-- `I2C_CONFIG_REGISTER_WRITE_MASK` (`i2c_mock.rs:49`). -/
def i2cConfigMask : List Byte := [0x00#8, 0x0F#8]
/-- The mask of the words 0x240C to 0x240F of the EEPROM (`i2c_mock.rs:240-246`). -/
def eepromMask : List Byte := controlMask ++ control2Mask ++ i2cConfigMask ++ [0x00#8, 0x7F#8]

/-- `extract_address` (`i2c_mock.rs:148-161`). -/
def extractAddress (c : MockConfig) (bytes : List Byte) : Res MockErr Word :=
  match bytes with
  | h :: l :: _ =>
    let address := be16 h l
    if inRange c.romRange address.toNat ∨ inRange c.ramRange address.toNat ∨ inRange c.eepromRange address.toNat ∨
        inRange c.registerRange address.toNat then
      .ok address
    else .err (.unknownMemoryAddress address)
  | _ => .panic

/-- The two branches of `get` for RAM and EEPROM (`i2c_mock.rs:176-198`): `count` bytes of `data`, which is at
addresses `range`. -/
def getFrom (m : Mode) (range : Nat × Nat) (data : List Byte) (start stop count : Nat) : Res MockErr (List Byte) := do
  let last ← subU16 m stop 1
  if inRange range last then
    let first ← subU16 m start range.1
    slice data (first * 2) (first * 2 + count)
  else .err (.illegalAccess (BitVec.ofNat 16 stop))

/-- `get` (`i2c_mock.rs:164-222`). -/
def get (m : Mode) (s : Mock c) (address : Word) (count : Nat) : Res MockErr (List Byte) := do
  let start := address.toNat
  let stop ← arithU16 m (start + count / 2 % 65536)
  if count % 2 ≠ 0 then .err .illegalOperation
  else if inRange c.romRange start then .err (.illegalAccess address)
  else if inRange c.ramRange start then getFrom m c.ramRange s.ram.1 start stop count
  else if inRange c.eepromRange start then getFrom m c.eepromRange s.eeprom.1 start stop count
  else if inRange c.registerRange start then
    if count ≠ 2 then .err (.illegalAccess (BitVec.ofNat 16 stop))
    else if start = 0x8000 then .ok s.status.1
    else if start = 0x800D then .ok s.control.1
    else if start = 0x800F then .ok s.i2cConfig.1
    else .err (.illegalAccess address)
  else .err (.unknownMemoryAddress address)

/-- The EEPROM branch of `set` (`i2c_mock.rs:231-266`). Simplification: the address of a refused word is added without
overflow (it is below 0x2740). -/
def setEeprom (m : Mode) (s : Mock c) (address : Word) (data : List Byte) : Res MockErr (Mock c) := do
  let start := address.toNat
  let first ← subU16 m start c.eepromRange.1
  let existing ← slice s.eeprom.1 (first * 2) (first * 2 + data.length)
  let maskStart ← subU16 m start 0x240C
  let mask ← slice eepromMask (maskStart * 2) data.length
  match firstRefused 0 (words existing) (words mask) (words data) with
  | some (index, word) => .err (.illegalWriteValue (address + BitVec.ofNat 16 index) word)
  | none => .ok { s with eeprom := s.eeprom.splice (first * 2) data }

/-- `set` (`i2c_mock.rs:224-316`). -/
def set (m : Mode) (s : Mock c) (address : Word) (data : List Byte) : Res MockErr (Mock c) := do
  let start := address.toNat
  let stop ← arithU16 m (start + data.length % 65536 / 2)
  if inRange c.romRange start ∨ inRange c.ramRange start then .err (.illegalWriteAddress address)
  else if inRange c.eepromRange start then setEeprom m s address data
  else if inRange c.registerRange start then
    match data with
    | [h, l] =>
      let new : Bytes 2 := ⟨[h, l], rfl⟩
      let refused : Res MockErr (Mock c) := .err (.illegalWriteValue address new.toWord)
      if start = 0x8000 then
        if checkNewAgainstMask s.status.toWord (Bytes.toWord ⟨statusMask, rfl⟩) new.toWord then
          .ok { s with status := new } else refused
      else if start = 0x800D then
        if checkNewAgainstMask s.control.toWord (Bytes.toWord ⟨controlMask, rfl⟩) new.toWord then
          .ok { s with control := new } else refused
      else if start = 0x800F then
        if checkNewAgainstMask s.i2cConfig.toWord (Bytes.toWord ⟨i2cConfigMask, rfl⟩) new.toWord then
          .ok { s with i2cConfig := new } else refused
      else .err (.illegalWriteAddress address)
    | _ => .err (.illegalWriteAddress (BitVec.ofNat 16 stop))
  else .err (.unknownMemoryAddress address)

/-- `update_frame` (`i2c_mock.rs:323-328`). -/
def updateFrame (s : Mock c) (ram status : List Byte) : Res MockErr (Mock c) := do
  let ram ← Bytes.copyFrom c.ramLength ram
  let status ← Bytes.copyFrom 2 status
  .ok { s with ram := ram, status := status }

/-- `set_data_available` (`i2c_mock.rs:331-337`). -/
def setDataAvailable (s : Mock c) (available : Bool) : Mock c :=
  let low := s.status.1.getD 1 0#8
  { s with status := s.status.splice 1 [if available then low ||| 0x08#8 else low &&& 0x07#8] }

/-- `add_operation` (`i2c_mock.rs:339-343`), `RECENT_OPERATIONS_QUEUE_LENGTH` (`i2c_mock.rs:51`). -/
def addOperation (s : Mock c) (op : MockOp) : Mock c := { s with recent := (op :: s.recent).take 32 }

/-- `clear_recent_operations` (`i2c_mock.rs:349-351`). -/
def clearRecentOperations (s : Mock c) : Mock c := { s with recent := [] }

/-- `i2c::Write::write` (`i2c_mock.rs:354-372`). -/
def write (m : Mode) (s : Mock c) (i2cAddress : Byte) (bytes : List Byte) : Res MockErr (Mock c) := do
  if i2cAddress ≠ c.i2cAddress then .err (.unknownI2cAddress i2cAddress)
  else
    let address ← extractAddress c bytes
    let payload := bytes.drop 2
    let s ← set m s address payload
    .ok (s.addOperation (.write address payload.length))

/-- `i2c::WriteRead::write_read` (`i2c_mock.rs:374-400`): the new state, and the bytes that are copied to the caller's
buffer or why there are none. -/
def writeRead (m : Mode) (s : Mock c) (i2cAddress : Byte) (out : List Byte) (length : Nat) :
    Mock c × Res MockErr (List Byte) :=
  if i2cAddress ≠ c.i2cAddress then (s, .err (.unknownI2cAddress i2cAddress))
  else if out.length ≠ 2 ∨ length = 0 then (s, .err .illegalOperation)
  else match extractAddress c out with
    | .ok address =>
      let s := s.addOperation (.read address length)
      (s, s.get m address length >>= fun data => if data.length = length then .ok data else .panic)
    | .err e => (s, .err e)
    | .panic => (s, .panic)

end Mock

/-- Why a transaction with the mock did not succeed: the error it returned, or its panic (which a `Bus` cannot otherwise
express; nothing a mock does after a panic is modelled). -/
inductive MockFailure where
  | error (e : MockErr)
  | panic
  deriving DecidableEq, Repr

/-- The mock as an I²C bus (`i2c_mock.rs:354-400`). -/
def mockBus (m : Mode) (c : MockConfig) : Bus (Mock c) MockFailure MockFailure where
  writeRead s addr out buf :=
    match s.writeRead m addr out buf.length with
    | (s, .ok data) => (s, if data.length = buf.length then data else buf, none)
    | (s, .err e) => (s, buf, some (.error e))
    | (s, .panic) => (s, buf, some .panic)
  write s addr bytes :=
    match s.write m addr bytes with
    | .ok s => (s, none)
    | .err e => (s, some (.error e))
    | .panic => (s, some .panic)
  length_eq s addr out buf := by
    generalize s.writeRead m addr out buf.length = r
    obtain ⟨s, data | e | _⟩ := r
    · dsimp only; split <;> simp_all
    · rfl
    · rfl

end Mlx
