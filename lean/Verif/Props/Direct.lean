import Verif.Props.Register
import Verif.Props.Static
/-
C72: registers read and written directly over a bus (`FromI2C` and `ToI2C`), without a driver, and the documented
power-up values.
-/
set_option linter.unusedSectionVars false
set_option autoImplicit false
namespace Mlx.Props
open Mlx Mlx.Spec Mlx.Proofs F32Ops
variable {σ ER EW : Type}

theorem i2c_toBytes (r : I2cReg) : r.toBytes = toBe (i2cWord r) := by
  obtain ⟨a, b, c⟩ := r
  cases a <;> cases b <;> cases c <;> decide

theorem readI2cReg_eq (b : Bus σ ER EW) (s : σ) (addr : Byte) :
    readI2cReg b s addr = ((regRead b s addr 0x800F#16).1,
      match (regRead b s addr 0x800F#16).2 with
      | .ok w => .ok ⟨!w.getLsbD 0, w.getLsbD 1, !w.getLsbD 2⟩
      | .error e => .err (.i2cWriteRead e)) := by
  unfold readI2cReg readRegister
  rw [show I2cReg.address = 0x800F#16 from rfl, bus_read_reg]
  cases (regRead b s addr 0x800F#16).2 with
  | error e => rfl
  | ok w =>
    show (_, Res.ok (I2cReg.mk (!isBitSet16 (be16 (hiByte w) (loByte w)) 0) (isBitSet16 (be16 (hiByte w) (loByte w)) 1)
      (!isBitSet16 (be16 (hiByte w) (loByte w)) 2))) = _
    rw [be16_toBe, isBitSet16_eq _ 0 (by decide), isBitSet16_eq _ 1 (by decide), isBitSet16_eq _ 2 (by decide)]

theorem writeI2cReg_eq (b : Bus σ ER EW) (s : σ) (addr : Byte) (r : I2cReg) :
    writeI2cReg b s addr r = ((regWrite b s addr 0x800F#16 (i2cWord r)).1,
      match (regWrite b s addr 0x800F#16 (i2cWord r)).2 with
      | none => .ok ()
      | some e => .err (.i2cWrite e)) := by
  unfold writeI2cReg writeRegister regWrite
  rw [i2c_toBytes]
  show (match b.write s addr (toBe 0x800F#16 ++ toBe (i2cWord r)) with
    | (s', none) => (s', Res.ok ())
    | (s', some e) => (s', .err (Err.i2cWrite e))) = _
  rcases b.write s addr (toBe 0x800F#16 ++ toBe (i2cWord r)) with ⟨s', e⟩
  cases e <;> rfl

theorem oneRead_of {α : Type} (b : Bus σ ER EW) (s : σ × List (Txn ER EW)) (addr : Byte) (reg : Word) (sent : List Byte)
    (hs : toBe reg = sent) (decode : Word → α) (r : (σ × List (Txn ER EW)) × Res (Err ER EW) α)
    (h : r = ((regRead (recorded b) s addr reg).1,
      match (regRead (recorded b) s addr reg).2 with
      | .ok w => .ok (decode w)
      | .error e => .err (.i2cWriteRead e))) : OneRead addr sent decode s.2 r := by
  subst h hs
  rw [regRead_recorded]
  unfold Txn.readReg OneRead
  cases (regRead b s.1 addr reg).2 with
  | ok w => exact Or.inl ⟨w, rfl, rfl⟩
  | error e => exact Or.inr ⟨e, rfl, rfl⟩

theorem oneWrite_of (b : Bus σ ER EW) (s : σ × List (Txn ER EW)) (addr : Byte) (reg w : Word) (sent : List Byte)
    (hs : toBe reg = sent) (r : (σ × List (Txn ER EW)) × Res (Err ER EW) Unit)
    (h : r = ((regWrite (recorded b) s addr reg w).1,
      match (regWrite (recorded b) s addr reg w).2 with
      | none => .ok ()
      | some e => .err (.i2cWrite e))) : OneWrite addr sent w s.2 r := by
  subst h hs
  rw [regWrite_recorded]
  unfold Txn.writeReg OneWrite
  cases (regWrite b s.1 addr reg w).2 with
  | none => exact Or.inl ⟨rfl, rfl⟩
  | some e => exact Or.inr ⟨e, rfl, rfl⟩

/-- **C72.** Without a driver: reading the status, control or I²C configuration register is exactly one combined
transaction on 0x8000, 0x800D or 0x800F, whose two bytes, big-endian, become the register; writing it is exactly one
four-byte write; bus errors are passed on, and nothing panics. -/
theorem C72_one_transaction (b : Bus σ ER EW) (s : σ × List (Txn ER EW)) (addr : Byte) :
    OneRead addr [0x80, 0x00] StatusReg.mk s.2 (readStatus (recorded b) s addr) ∧
    OneRead addr [0x80, 0x0D] ControlReg.mk s.2 (readControl (recorded b) s addr) ∧
    OneRead addr [0x80, 0x0F] (fun w => ⟨!w.getLsbD 0, w.getLsbD 1, !w.getLsbD 2⟩) s.2 (readI2cReg (recorded b) s addr) ∧
    (∀ r, OneWrite addr [0x80, 0x00] r.raw s.2 (writeStatus (recorded b) s addr r)) ∧
    (∀ r, OneWrite addr [0x80, 0x0D] r.raw s.2 (writeControl (recorded b) s addr r)) ∧
    (∀ r, OneWrite addr [0x80, 0x0F] (i2cWord r) s.2 (writeI2cReg (recorded b) s addr r)) :=
  ⟨oneRead_of b s addr _ _ (by decide) _ _ (readStatus_eq ..), oneRead_of b s addr _ _ (by decide) _ _ (readControl_eq ..),
    oneRead_of b s addr _ _ (by decide) _ _ (readI2cReg_eq ..), fun _ => oneWrite_of b s addr _ _ _ (by decide) _ (writeStatus_eq ..),
    fun _ => oneWrite_of b s addr _ _ _ (by decide) _ (writeControl_eq ..),
    fun _ => oneWrite_of b s addr _ _ _ (by decide) _ (writeI2cReg_eq ..)⟩

/-- **C72 (I²C configuration).** On a camera whose memory changes by writes only: if an I²C configuration `r` is written
successfully, and then read successfully, it is `r`; the write sets the word 0x800F to the three configured bits (and its
reserved bits to zero) and changes nothing else, a failed write changes nothing, and reading changes nothing. -/
theorem C72_i2c_configuration {b : Bus σ ER EW} {addr : Byte} {mem : σ → Word → Word} (h : StaticMemory b addr mem) (s : σ)
    (r : I2cReg) :
    (∀ s', writeI2cReg b s addr r = (s', .ok ()) →
      (mem s' 0x800F#16).toNat = (if r.fastModePlus then 0 else 1) + (if r.thresholdHalved then 2 else 0) +
        (if r.sdaCurrentLimiter then 0 else 4) ∧
      (∀ a, a ≠ 0x800F#16 → mem s' a = mem s a) ∧
      ∀ s'' r', readI2cReg b s' addr = (s'', .ok r') → r' = r ∧ mem s'' = mem s') ∧
    ∀ s' e, writeI2cReg b s addr r = (s', .err e) → mem s' = mem s := by
  have hw := static_regWrite h s 0x800F#16 (i2cWord r)
  rw [writeI2cReg_eq]
  constructor
  · intro s' hs
    cases he : (regWrite b s addr 0x800F#16 (i2cWord r)).2 with
    | some e => rw [he] at hs; cases hs
    | none =>
      rw [he] at hs hw
      cases hs
      dsimp only at hw
      rw [hw]
      refine ⟨?_, fun a ha => ?_, fun s'' r' hr => ?_⟩
      · unfold setWord
        dsimp only
        rw [if_pos rfl]
        obtain ⟨x, y, z⟩ := r
        cases x <;> cases y <;> cases z <;> decide
      · unfold setWord
        dsimp only
        rw [if_neg ha]
      · have hrd := static_regRead h (regWrite b s addr 0x800F#16 (i2cWord r)).1 0x800F#16
        rw [readI2cReg_eq] at hr
        cases hx : (regRead b (regWrite b s addr 0x800F#16 (i2cWord r)).1 addr 0x800F#16).2 with
        | error e => rw [hx] at hr; cases hr
        | ok w =>
          rw [hx] at hr
          have hv := hrd.2 w hx
          rw [hw] at hv
          unfold setWord at hv
          dsimp only at hv
          rw [if_pos rfl] at hv
          have hm := hrd.1
          cases hr
          refine ⟨?_, by rw [hm, hw]⟩
          rw [hv]
          obtain ⟨x, y, z⟩ := r
          cases x <;> cases y <;> cases z <;> decide
  · intro s' e hs
    cases he : (regWrite b s addr 0x800F#16 (i2cWord r)).2 with
    | none => rw [he] at hs; cases hs
    | some e => rw [he] at hs hw; cases hs; exact hw

/-- **C72 (power-up values).** The default registers are those of the datasheets: subpages on, no step mode, no data hold,
no repetition, subpage 0, 2 Hz, 18 bits, chess pattern on the MLX90640 and the other one on the MLX90641; and the I²C
configuration with all bits zero. -/
theorem C72_defaults :
    (∀ f : CtrlField, f.valueIn ControlReg.default640.raw = match f with
      | .useSubpages => true | .stepMode => false | .dataHold => false | .subpageRepeat => false
      | .subpage => Subpage.zero | .frameRate => FrameRate.two | .resolution => Resolution.eighteen
      | .accessPattern => AccessPattern.chess) ∧
    (∀ f : CtrlField, f.valueIn ControlReg.default641.raw = match f with
      | .useSubpages => true | .stepMode => false | .dataHold => false | .subpageRepeat => false
      | .subpage => Subpage.zero | .frameRate => FrameRate.two | .resolution => Resolution.eighteen
      | .accessPattern => AccessPattern.interleave) ∧
    ControlReg.default640.raw &&& 0xE060#16 = 0 ∧ ControlReg.default641.raw &&& 0xE060#16 = 0 ∧
    I2cReg.default.toBytes = [0, 0] ∧ FrameRate.default.hz = 2 ∧ Resolution.default.toU8 = 18#8 := by
  refine ⟨fun f => ?_, fun f => ?_, by decide, by decide, by decide, rfl, rfl⟩ <;> cases f <;> decide

/-- The hypotheses of `C72_i2c_configuration` are met: writing to a simple camera succeeds, and reads back. -/
example : ∃ s' s'', writeI2cReg simpleBus ⟨0x33, fun _ => 0xFFFF#16⟩ 0x33 ⟨false, true, true⟩ = (s', .ok ()) ∧
    readI2cReg simpleBus s' 0x33 = (s'', .ok ⟨false, true, true⟩) ∧ s'.mem 0x800F#16 = 3#16 := ⟨_, _, rfl, rfl, rfl⟩

end Mlx.Props
