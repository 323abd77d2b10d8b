import Verif.Proofs.Register
import Verif.Spec.Bus
/-
What each driver method does to a recorded bus, as rewriting lemmas.
-/
set_option linter.unusedSectionVars false
set_option autoImplicit false
namespace Mlx.Proofs
open Mlx Mlx.Spec F32Ops
variable {F σ ER EW ε : Type} [F32Ops F]

/-! ### Register fields -/

theorem code_decode (f : CtrlField) (n : Nat) (h : n < 2 ^ f.width) : f.code (f.decode n) = n := by
  cases f <;> simp only [CtrlField.width] at h
  case frameRate =>
    rcases (show n = 0 ∨ n = 1 ∨ n = 2 ∨ n = 3 ∨ n = 4 ∨ n = 5 ∨ n = 6 ∨ n = 7 by omega) with
      h | h | h | h | h | h | h | h <;> subst h <;> rfl
  case resolution =>
    rcases (show n = 0 ∨ n = 1 ∨ n = 2 ∨ n = 3 by omega) with h | h | h | h <;> subst h <;> rfl
  all_goals
    rcases (show n = 0 ∨ n = 1 by omega) with h | h <;> subst h <;> rfl

theorem bitsAt_lt (w : Word) (lo n : Nat) : bitsAt w lo n < 2 ^ n := Nat.mod_lt _ (Nat.pow_pos (by decide))

theorem get_valueIn (f : CtrlField) (w : Word) : f.get ⟨w⟩ = .ok (f.valueIn w) := by
  rw [get_iff]
  exact (code_decode f _ (bitsAt_lt ..)).symm

theorem res_cast {α : Type} (x : Res Empty α) (v : α) (h : x = .ok v) :
    x.mapErr (fun e => (nomatch e : ε)) = .ok v := by subst h; rfl

theorem subpage_val (w : Word) : (⟨w⟩ : ControlReg).subpage (ε := ε) = .ok (CtrlField.subpage.valueIn w) := by
  rw [← res_cast _ _ (get_valueIn .subpage w)]
  show Subpage.ofRaw _ = Res.mapErr _ (Subpage.ofRaw _)
  unfold Subpage.ofRaw
  split
  · rfl
  · split <;> rfl

theorem accessPattern_val (w : Word) :
    (⟨w⟩ : ControlReg).accessPattern (ε := ε) = .ok (CtrlField.accessPattern.valueIn w) := by
  rw [← res_cast _ _ (get_valueIn .accessPattern w)]
  show AccessPattern.ofRaw _ = Res.mapErr _ (AccessPattern.ofRaw _)
  unfold AccessPattern.ofRaw
  split
  · rfl
  · split <;> rfl

theorem unwrap_cast {α ε' : Type} (x : Res ε' α) :
    (x.unwrap : Res ε α) = (x.unwrap : Res Empty α).mapErr (fun e => (nomatch e : ε)) := by
  cases x <;> rfl

theorem frameRate_val (w : Word) :
    (⟨w⟩ : ControlReg).frameRate (ε := ε) = .ok (CtrlField.frameRate.valueIn w) := by
  rw [← res_cast _ _ (get_valueIn .frameRate w)]
  exact unwrap_cast _

theorem resolution_val (w : Word) :
    (⟨w⟩ : ControlReg).resolution (ε := ε) = .ok (CtrlField.resolution.valueIn w) := by
  rw [← res_cast _ _ (get_valueIn .resolution w)]
  exact unwrap_cast _

/-! ### Single transactions -/

/-- Reading a two-byte register on a bus: the new bus state, and the word or the error. -/
def regRead (b : Bus σ ER EW) (s : σ) (addr : Byte) (reg : Word) : σ × Except ER Word :=
  let r := b.writeRead s addr (toBe reg) [0#8, 0#8]
  (r.1, match r.2.2 with
    | some e => .error e
    | none => .ok (be16 (r.2.1.getD 0 0#8) (r.2.1.getD 1 0#8)))

theorem two_bytes (l : List Byte) (h : l.length = 2) : l = [l.getD 0 0#8, l.getD 1 0#8] := by
  match l, h with
  | [a, b], _ => rfl

theorem bus_read_reg (b : Bus σ ER EW) (s : σ) (addr : Byte) (reg : Word) :
    b.read s addr (toBe reg) [0#8, 0#8] = ((regRead b s addr reg).1,
      match (regRead b s addr reg).2 with
      | .ok w => .ok (toBe w)
      | .error e => .err (.i2cWriteRead e)) := by
  have hl := two_bytes _ (b.length_eq s addr (toBe reg) [0#8, 0#8])
  unfold Bus.read regRead
  rcases h : b.writeRead s addr (toBe reg) [0#8, 0#8] with ⟨s', buf, e⟩
  rw [h] at hl
  cases e with
  | some e => rfl
  | none =>
    simp only [toBe_be16]
    simp only at hl
    rw [← hl]

theorem readStatus_eq (b : Bus σ ER EW) (s : σ) (addr : Byte) :
    readStatus b s addr = ((regRead b s addr 0x8000#16).1,
      match (regRead b s addr 0x8000#16).2 with
      | .ok w => .ok ⟨w⟩
      | .error e => .err (.i2cWriteRead e)) := by
  unfold readStatus readRegister
  rw [show StatusReg.address = 0x8000#16 from rfl, bus_read_reg]
  cases (regRead b s addr 0x8000#16).2 with
  | error e => rfl
  | ok w =>
    show (_, Res.ok (StatusReg.mk (be16 (hiByte w) (loByte w)))) = _
    rw [be16_toBe]

theorem readControl_eq (b : Bus σ ER EW) (s : σ) (addr : Byte) :
    readControl b s addr = ((regRead b s addr 0x800D#16).1,
      match (regRead b s addr 0x800D#16).2 with
      | .ok w => .ok ⟨w⟩
      | .error e => .err (.i2cWriteRead e)) := by
  unfold readControl readRegister
  rw [show ControlReg.address = 0x800D#16 from rfl, bus_read_reg]
  cases (regRead b s addr 0x800D#16).2 with
  | error e => rfl
  | ok w =>
    show (_, Res.ok (ControlReg.mk (be16 (hiByte w) (loByte w)))) = _
    rw [be16_toBe]

theorem readRamValue_eq (b : Bus σ ER EW) (s : σ) (addr : Byte) (a : Word) :
    readRamValue b s addr a = ((regRead b s addr a).1,
      match (regRead b s addr a).2 with
      | .ok w => .ok w.toInt
      | .error e => .err (.i2cWriteRead e)) := by
  unfold readRamValue
  rw [bus_read_reg]
  cases (regRead b s addr a).2 with
  | error e => rfl
  | ok w =>
    show (_, Res.ok (be16 (hiByte w) (loByte w)).toInt) = _
    rw [be16_toBe]

theorem recorded_writeRead (b : Bus σ ER EW) (s : σ × List (Txn ER EW)) (addr : Byte) (out buf : List Byte) :
    (recorded b).writeRead s addr out buf =
      (((b.writeRead s.1 addr out buf).1, s.2 ++ [.read addr out buf.length
        (match (b.writeRead s.1 addr out buf).2.2 with
          | none => .ok (b.writeRead s.1 addr out buf).2.1 | some e => .error e)]),
        (b.writeRead s.1 addr out buf).2) := rfl

/-- The recorder adds exactly the register read. -/
theorem regRead_recorded (b : Bus σ ER EW) (s : σ × List (Txn ER EW)) (addr : Byte) (reg : Word) :
    regRead (recorded b) s addr reg =
      (((regRead b s.1 addr reg).1, s.2 ++ [Txn.readReg addr reg (regRead b s.1 addr reg).2]),
        (regRead b s.1 addr reg).2) := by
  have hl := two_bytes _ (b.length_eq s.1 addr (toBe reg) [0#8, 0#8])
  unfold regRead Txn.readReg
  simp only [recorded_writeRead]
  generalize b.writeRead s.1 addr (toBe reg) [0#8, 0#8] = r at hl ⊢
  obtain ⟨s', buf, e⟩ := r
  cases e with
  | some e => rfl
  | none =>
    simp only at hl
    simp only [List.length_cons, List.length_nil]
    rw [show toBe (be16 (buf.getD 0 0#8) (buf.getD 1 0#8)) = buf from (toBe_be16 _ _).trans hl.symm]

/-- Writing a two-byte register. -/
def regWrite (b : Bus σ ER EW) (s : σ) (addr : Byte) (reg w : Word) : σ × Option EW :=
  b.write s addr (toBe reg ++ toBe w)

theorem writeStatus_eq (b : Bus σ ER EW) (s : σ) (addr : Byte) (r : StatusReg) :
    writeStatus b s addr r = ((regWrite b s addr 0x8000#16 r.raw).1,
      match (regWrite b s addr 0x8000#16 r.raw).2 with
      | none => .ok ()
      | some e => .err (.i2cWrite e)) := by
  unfold writeStatus writeRegister regWrite
  show (match b.write s addr (toBe 0x8000#16 ++ toBe r.raw) with
    | (s', none) => (s', Res.ok ())
    | (s', some e) => (s', .err (Err.i2cWrite e))) = _
  rcases b.write s addr (toBe 0x8000#16 ++ toBe r.raw) with ⟨s', e⟩
  cases e <;> rfl

theorem writeControl_eq (b : Bus σ ER EW) (s : σ) (addr : Byte) (r : ControlReg) :
    writeControl b s addr r = ((regWrite b s addr 0x800D#16 r.raw).1,
      match (regWrite b s addr 0x800D#16 r.raw).2 with
      | none => .ok ()
      | some e => .err (.i2cWrite e)) := by
  unfold writeControl writeRegister regWrite
  show (match b.write s addr (toBe 0x800D#16 ++ toBe r.raw) with
    | (s', none) => (s', Res.ok ())
    | (s', some e) => (s', .err (Err.i2cWrite e))) = _
  rcases b.write s addr (toBe 0x800D#16 ++ toBe r.raw) with ⟨s', e⟩
  cases e <;> rfl

theorem regWrite_recorded (b : Bus σ ER EW) (s : σ × List (Txn ER EW)) (addr : Byte) (reg w : Word) :
    regWrite (recorded b) s addr reg w =
      (((regWrite b s.1 addr reg w).1, s.2 ++ [Txn.writeReg addr reg w (regWrite b s.1 addr reg w).2]),
        (regWrite b s.1 addr reg w).2) := rfl

/-! ### Register access by the driver -/

section
variable (env : Env σ ER EW) (d : Driver F σ)

theorem statusRegister_eq : Driver.statusRegister env d =
    ({ d with bus := (regRead env.bus d.bus d.addr 0x8000#16).1 },
      match (regRead env.bus d.bus d.addr 0x8000#16).2 with
      | .ok w => .ok ⟨w⟩
      | .error e => .err (.i2cWriteRead e)) := by
  unfold Driver.statusRegister
  rw [readStatus_eq]

theorem setStatusRegister_eq (r : StatusReg) : Driver.setStatusRegister env r d =
    ({ d with bus := (regWrite env.bus d.bus d.addr 0x8000#16 r.raw).1 },
      match (regWrite env.bus d.bus d.addr 0x8000#16 r.raw).2 with
      | none => .ok ()
      | some e => .err (.i2cWrite e)) := by
  unfold Driver.setStatusRegister
  rw [writeStatus_eq]

/-- The driver after it has seen the control word `w`. -/
def sawControl (d : Driver F σ) (w : Word) : Driver F σ :=
  { d with
    resCorr := resolutionCorrection d.calib.resolution (CtrlField.resolution.valueIn w)
    accessPattern := CtrlField.accessPattern.valueIn w }

theorem updateControlRegister_eq (r : ControlReg) :
    Driver.updateControlRegister (ER := ER) (EW := EW) r d = (sawControl d r.raw, .ok ()) := by
  show DM.bind _ _ d = _
  unfold DM.bind DM.lift
  have h1 := resolution_val (ε := Err ER EW) r.raw
  have h2 := accessPattern_val (ε := Err ER EW) r.raw
  simp only [h1]
  show DM.bind _ _ d = _
  unfold DM.bind DM.modify
  simp only
  show DM.bind _ _ _ = _
  unfold DM.bind
  simp only [h2]
  rfl

theorem rawControl_eq : Driver.rawControlRegister env d =
    ({ d with bus := (regRead env.bus d.bus d.addr 0x800D#16).1 },
      match (regRead env.bus d.bus d.addr 0x800D#16).2 with
      | .ok w => .ok ⟨w⟩
      | .error e => .err (.i2cWriteRead e)) := by
  unfold Driver.rawControlRegister
  rw [readControl_eq]

theorem controlRegister_eq : Driver.controlRegister env d =
    match (regRead env.bus d.bus d.addr 0x800D#16).2 with
    | .ok w => (sawControl { d with bus := (regRead env.bus d.bus d.addr 0x800D#16).1 } w, .ok ⟨w⟩)
    | .error e => ({ d with bus := (regRead env.bus d.bus d.addr 0x800D#16).1 }, .err (.i2cWriteRead e)) := by
  unfold Driver.controlRegister
  show DM.bind _ _ d = _
  unfold DM.bind
  rw [rawControl_eq]
  cases (regRead env.bus d.bus d.addr 0x800D#16).2 with
  | error e => rfl
  | ok w =>
    show DM.bind _ _ _ = _
    unfold DM.bind
    rw [updateControlRegister_eq]
    rfl

theorem setControlRegister_eq (r : ControlReg) : Driver.setControlRegister env r d =
    ({ sawControl d r.raw with bus := (regWrite env.bus d.bus d.addr 0x800D#16 r.raw).1 },
      match (regWrite env.bus d.bus d.addr 0x800D#16 r.raw).2 with
      | none => .ok ()
      | some e => .err (.i2cWrite e)) := by
  unfold Driver.setControlRegister
  show DM.bind _ _ d = _
  unfold DM.bind
  rw [updateControlRegister_eq]
  show Driver.rawSetControlRegister env r _ = _
  unfold Driver.rawSetControlRegister
  rw [writeControl_eq]
  rfl

theorem dm_bind {α β : Type} (x : DM F σ ER EW α) (f : α → DM F σ ER EW β) :
    (x >>= f) d = match x d with
      | (d', .ok a) => f a d'
      | (d', .err e) => (d', .err e)
      | (d', .panic) => (d', .panic) := rfl

/-- A getter built on the control register. -/
theorem ctrlGetter_eq {α : Type} (get : ControlReg → Res (Err ER EW) α) (v : Word → α)
    (hg : ∀ w, get ⟨w⟩ = .ok (v w)) (p : DM F σ ER EW α)
    (hp : p = Driver.controlRegister env >>= fun r => DM.lift (get r)) :
    p d = match (regRead env.bus d.bus d.addr 0x800D#16).2 with
      | .ok w => (sawControl { d with bus := (regRead env.bus d.bus d.addr 0x800D#16).1 } w, .ok (v w))
      | .error e => ({ d with bus := (regRead env.bus d.bus d.addr 0x800D#16).1 }, .err (.i2cWriteRead e)) := by
  rw [hp, dm_bind, controlRegister_eq]
  cases (regRead env.bus d.bus d.addr 0x800D#16).2 with
  | error e => rfl
  | ok w => simp only [DM.lift, hg]

/-- A setter built on the control register. -/
theorem ctrlSetter_eq {α : Type} [DecidableEq α] (get : ControlReg → Res (Err ER EW) α)
    (set : ControlReg → α → ControlReg) (val : Word → α) (hg : ∀ w, get ⟨w⟩ = .ok (val w)) (v : α) :
    Driver.setControlField env get set v d =
      match (regRead env.bus d.bus d.addr 0x800D#16).2 with
      | .error e => ({ d with bus := (regRead env.bus d.bus d.addr 0x800D#16).1 }, .err (.i2cWriteRead e))
      | .ok w =>
        let s' := (regRead env.bus d.bus d.addr 0x800D#16).1
        if val w = v then (sawControl { d with bus := s' } w, .ok ())
        else
          let w' := (set ⟨w⟩ v).raw
          ({ sawControl d w' with bus := (regWrite env.bus s' d.addr 0x800D#16 w').1 },
            match (regWrite env.bus s' d.addr 0x800D#16 w').2 with
            | none => .ok ()
            | some e => .err (.i2cWrite e)) := by
  unfold Driver.setControlField
  rw [dm_bind, controlRegister_eq]
  cases (regRead env.bus d.bus d.addr 0x800D#16).2 with
  | error e => rfl
  | ok w =>
    simp only
    rw [dm_bind]
    simp only [DM.lift, hg]
    by_cases h : val w = v
    · rw [if_pos h]
      simp only [h, ne_eq, not_true_eq_false, if_false]
      rfl
    · rw [if_neg h]
      simp only [ne_eq, h, not_false_eq_true, if_true]
      rw [setControlRegister_eq]
      rfl

end

end Mlx.Proofs
