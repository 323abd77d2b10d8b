import Verif.Props.Failures
import Verif.Props.Table
import Verif.Props.Static
import Verif.Props.Register
/-
Lemmas for the way from camera memory to an image.
-/
set_option autoImplicit false
set_option linter.unusedSectionVars false
namespace Mlx.Proofs
open Mlx Mlx.Spec Mlx.Props F32Ops

variable {F σ ER EW : Type} [F32Ops F] {mem : σ → Word → Word}

theorem table_get {α : Type} {n : Nat} (f : Nat → α) {i : Nat} (hi : i < n) : (perPixel n f)[i]? = some (f i) := by
  unfold perPixel
  rw [List.getElem?_map, List.getElem?_range hi]; rfl

theorem table_congr {α : Type} {n : Nat} {f g : Nat → α} (h : ∀ i < n, f i = g i) : perPixel n f = perPixel n g := by
  unfold perPixel
  exact List.map_congr_left fun i hi => h i (List.mem_range.1 hi)

/-- The words of a dump read from memory. -/
theorem eepromWord_memBytes (M : Word → Word) {a : Nat} (h1 : 0x2400 ≤ a) (h2 : a < 0x2740) :
    eepromWord (memBytes M 0x2400#16 1664) a = eepromOf M a := by
  obtain ⟨k, rfl⟩ : ∃ k, a = 0x2400 + k := ⟨a - 0x2400, by omega⟩
  have hk : k < 832 := by omega
  unfold eepromWord eepromOf
  rw [show 0x2400 + k - 0x2400 = k by omega, List.getD_eq_getElem?_getD, List.getD_eq_getElem?_getD,
    memBytes_get M _ _ _ (by omega : 2 * k < 1664), memBytes_get M _ _ _ (by omega : 2 * k + 1 < 1664),
    if_pos (by omega : 2 * k % 2 = 0), if_neg (by omega : ¬ (2 * k + 1) % 2 = 0)]
  rw [show 2 * k / 2 = k by omega, show (2 * k + 1) / 2 = k by omega]
  rw [Option.getD_some, Option.getD_some]
  have : (0x2400#16 + BitVec.ofNat 16 k : Word) = BitVec.ofNat 16 (0x2400 + k) := by
    rw [BitVec.ofNat_add]
  rw [this]
  exact be16_toBe _

/-- Construction on static memory: the calibration is decoded from the memory, which is left alone. -/
theorem new_static {C : Type} {fromData : List Byte → Res LibErr C} {toCalib : C → Calib F} {b : Bus σ ER EW} {n : Nat}
    {s s' : σ} {addr : Byte} {d : Driver F σ} (h : StaticMemory b addr mem)
    (hd : Driver.new fromData toCalib b n s addr = (s', .ok d)) :
    mem d.bus = mem s ∧ ∃ c, fromData (memBytes (mem s) 0x2400#16 1664) = .ok c ∧ d.calib = toCalib c := by
  unfold Driver.new calibFromI2c Bus.read at hd
  have h1 := h.read_data s 0x2400#16 (List.replicate ((0x273F - 0x2400 + 1) * 2) 0#8)
  have h2 := h.read_mem s 0x2400#16 (List.replicate ((0x273F - 0x2400 + 1) * 2) 0#8)
  rw [List.length_replicate] at h1
  generalize b.writeRead s addr (toBe 0x2400#16) (List.replicate ((0x273F - 0x2400 + 1) * 2) 0#8) = q at h1 h2 hd
  obtain ⟨s1, bytes, _ | e⟩ := q
  · have hb : bytes = memBytes (mem s) 0x2400#16 1664 := h1 rfl
    simp only at hd h2
    cases hf : fromData bytes with
    | panic => rw [hf] at hd; simp [Res.mapErr] at hd
    | err e => rw [hf] at hd; simp [Res.mapErr] at hd
    | ok c =>
      rw [hf] at hd
      simp only [Res.mapErr] at hd
      unfold Driver.newWithCalibration at hd
      rw [readControl_eq] at hd
      have hr := (static_regRead h s1 0x800D#16).1
      generalize regRead b s1 addr 0x800D#16 = q at hd hr
      obtain ⟨s2, e | w⟩ := q
      · simp at hd
      · simp only [resolution_val, accessPattern_val, Res.ok_bind, Prod.mk.injEq, Res.ok.injEq] at hd
        obtain ⟨_, rfl⟩ := hd
        exact ⟨hr.trans h2, c, by rw [← hb]; exact hf, rfl⟩
  · simp at hd

/-- A history changes nothing in memory but the two registers. -/
theorem history_static (env : Env σ ER EW) (d : Driver F σ) (hs : Supported env d)
    (h : StaticMemory env.bus d.addr mem) (ops : List (Op F)) (a : Word) (h1 : a ≠ 0x8000#16) (h2 : a ≠ 0x800D#16) :
    mem (runOps env ops d).bus a = mem d.bus a := by
  induction ops generalizing d with
  | nil => rfl
  | cons op ops ih =>
    obtain ⟨hs1, ha, _⟩ := exec_supported hs op
    refine (ih _ hs1 (by rw [ha]; exact h)).trans ?_
    cases hu : usesControl op with
    | false => exact (exec_static_other hs h op hu).1 a h1
    | true => exact (exec_static_control h op hu).1 a h2

/-! ### The table depends on EEPROM words only -/

/-- Agreement on the EEPROM addresses. -/
def SameEeprom (E E' : Nat → Word) : Prop := ∀ a, 0x2400 ≤ a → a < 0x2740 → E a = E' a

section
variable {E E' : Nat → Word} (h : SameEeprom E E')
include h

theorem SameEeprom.nibble {base k : Nat} (h1 : 0x2400 ≤ base) (h2 : base + k / 4 < 0x2740) :
    Ee640.nibbleTable E base k = Ee640.nibbleTable E' base k := by
  unfold Ee640.nibbleTable
  rw [h _ (by omega) h2]

theorem SameEeprom.pixel {i : Nat} (hi : i < 768) : E (0x2440 + i) = E' (0x2440 + i) := h _ (by omega) (by omega)

theorem SameEeprom.failed {i : Nat} (hi : i < 768) : Ee640.isFailed E i = Ee640.isFailed E' i := by
  unfold Ee640.isFailed; rw [h.pixel hi]

theorem SameEeprom.outlier {i : Nat} (hi : i < 768) : Ee640.isOutlier E i = Ee640.isOutlier E' i := by
  unfold Ee640.isOutlier; rw [h.pixel hi]

theorem SameEeprom.offsets {i : Nat} (hi : i < 768) : Ee640.offsetAverage E = Ee640.offsetAverage E' ∧
    Ee640.offsetRow E i = Ee640.offsetRow E' i ∧ Ee640.offsetCol E i = Ee640.offsetCol E' i ∧
    Ee640.offsetRest E i = Ee640.offsetRest E' i := by
  have hr : i / 32 / 4 < 8 := by omega
  have hc : i % 32 / 4 < 8 := by omega
  unfold Ee640.offsetAverage Ee640.offsetRow Ee640.offsetCol Ee640.offsetRest Ee640.row Ee640.col
  rw [h 0x2411 (by omega) (by omega), h 0x2410 (by omega) (by omega), h.pixel hi, h.nibble (by omega) (by omega),
    h.nibble (by omega) (by omega)]
  exact ⟨rfl, rfl, rfl, rfl⟩

theorem SameEeprom.alphas {i : Nat} (hi : i < 768) : Ee640.alphaAverage E = Ee640.alphaAverage E' ∧
    Ee640.alphaRow E i = Ee640.alphaRow E' i ∧ Ee640.alphaCol E i = Ee640.alphaCol E' i ∧
    Ee640.alphaRest E i = Ee640.alphaRest E' i ∧ Ee640.alphaScaleExp E = Ee640.alphaScaleExp E' := by
  have hr : i / 32 / 4 < 8 := by omega
  have hc : i % 32 / 4 < 8 := by omega
  unfold Ee640.alphaAverage Ee640.alphaRow Ee640.alphaCol Ee640.alphaRest Ee640.row Ee640.col Ee640.alphaScaleExp
  rw [h 0x2421 (by omega) (by omega), h 0x2420 (by omega) (by omega), h.pixel hi, h.nibble (by omega) (by omega),
    h.nibble (by omega) (by omega)]
  exact ⟨rfl, rfl, rfl, rfl, rfl⟩

theorem SameEeprom.kTas {i : Nat} (hi : i < 768) : Ee640.kTaRc E i = Ee640.kTaRc E' i ∧
    Ee640.kTaRest E i = Ee640.kTaRest E' i ∧ Ee640.kTaScaleExp E = Ee640.kTaScaleExp E' ∧
    Ee640.kVRaw E i = Ee640.kVRaw E' i := by
  unfold Ee640.kTaRc Ee640.kTaRest Ee640.kTaScaleExp Ee640.kVRaw
  rw [h 0x2436 (by omega) (by omega), h 0x2437 (by omega) (by omega), h 0x2438 (by omega) (by omega),
    h 0x2434 (by omega) (by omega), h.pixel hi]
  exact ⟨rfl, rfl, rfl, rfl⟩

theorem SameEeprom.offset {i : Nat} (hi : i < 768) : Ee640.offset E i = Ee640.offset E' i := by
  obtain ⟨h1, h2, h3, h4⟩ := h.offsets hi
  unfold Ee640.offset
  rw [h1, h2, h3, h4, h.failed hi]

theorem SameEeprom.alpha {i : Nat} (hi : i < 768) : Ee640.alpha E i = Ee640.alpha E' i := by
  obtain ⟨h1, h2, h3, h4, h5⟩ := h.alphas hi
  unfold Ee640.alpha
  rw [h1, h2, h3, h4, h5, h.failed hi]

theorem SameEeprom.kTa {i : Nat} (hi : i < 768) : Ee640.kTa E i = Ee640.kTa E' i := by
  obtain ⟨h1, h2, h3, h4⟩ := h.kTas hi
  unfold Ee640.kTa
  rw [h1, h2, h3, h.failed hi]

theorem SameEeprom.kV {i : Nat} (hi : i < 768) : Ee640.kV E i = Ee640.kV E' i := by
  obtain ⟨_, _, _, h4⟩ := h.kTas hi
  unfold Ee640.kV
  rw [h4, h 0x2438 (by omega) (by omega)]

theorem SameEeprom.interleave {i : Nat} : Ee640.interleave E i = Ee640.interleave E' i := by
  unfold Ee640.interleave
  rw [h 0x2435 (by omega) (by omega)]

theorem SameEeprom.regular : Ee640.Regular E → Ee640.Regular E' := by
  intro hr i hi
  have := hr i hi
  obtain ⟨a1, a2, a3, a4⟩ := h.offsets hi
  obtain ⟨b1, b2, b3, b4, b5⟩ := h.alphas hi
  obtain ⟨c1, c2, c3, c4⟩ := h.kTas hi
  rw [a1, a2, a3, a4, b1, b2, b3, b4, c1, c2, h.failed hi] at this
  exact this

theorem SameEeprom.calibration : Ee640.calibration E = Ee640.calibration E' := by
  have e : ∀ a, 0x2400 ≤ a → a < 0x2740 → E a = E' a := h
  have hr : Ee640.ranges E = Ee640.ranges E' := by
    unfold Ee640.ranges Ee640.ct3 Ee640.ct4 Ee640.ct3 Ee640.ctStep
    rw [e 0x243F (by omega) (by omega)]
  have hk : Ee640.kSTo E = Ee640.kSTo E' := by
    unfold Ee640.kSTo
    rw [e 0x243F (by omega) (by omega), e 0x243D (by omega) (by omega), e 0x243E (by omega) (by omega)]
  unfold Ee640.calibration
  rw [e 0x2433 (by omega) (by omega), e 0x2438 (by omega) (by omega), e 0x2432 (by omega) (by omega),
    e 0x2431 (by omega) (by omega), e 0x2410 (by omega) (by omega), e 0x2430 (by omega) (by omega),
    e 0x243C (by omega) (by omega), e 0x243A (by omega) (by omega), e 0x2439 (by omega) (by omega),
    e 0x2420 (by omega) (by omega), e 0x243B (by omega) (by omega), e 0x2435 (by omega) (by omega), hr, hk,
    table_congr (fun i hi => h.offset hi), table_congr (fun i hi => h.alpha hi),
    table_congr (fun i hi => h.kV hi), table_congr (fun i hi => h.kTa hi),
    table_congr (fun i hi => h.failed hi), table_congr (fun i hi => h.outlier hi),
    table_congr (f := fun i => some (Ee640.interleave E i)) (g := fun i => some (Ee640.interleave E' i))
      (fun i _ => congrArg some h.interleave)]

end

/-! ### Control words -/

theorem pattern_valueIn (w : Word) : CtrlField.accessPattern.valueIn w = pattern w := by
  refine code_inj .accessPattern _ _ ?_
  unfold CtrlField.valueIn
  rw [code_decode _ _ (bitsAt_lt ..)]
  have h1 : bitsAt w 12 1 < 2 := bitsAt_lt w 12 1
  have h2 := bitsAt_testBit w 12 1 0
  show bitsAt w 12 1 = _
  unfold pattern
  cases hb : w.getLsbD 12
  · rw [hb] at h2
    rcases (show bitsAt w 12 1 = 0 ∨ bitsAt w 12 1 = 1 by omega) with h | h
    · rw [h]; rfl
    · rw [h] at h2; exact absurd h2 (by decide)
  · rw [hb] at h2
    rcases (show bitsAt w 12 1 = 0 ∨ bitsAt w 12 1 = 1 by omega) with h | h
    · rw [h] at h2; exact absurd h2 (by decide)
    · rw [h]; rfl

theorem correction_eq (c : Calib ℝ) (w : Word) :
    resolutionCorrection c.resolution (CtrlField.resolution.valueIn w) = correction c w := by
  unfold correction
  have h1 : bitsAt w 10 2 = CtrlField.resolution.code (CtrlField.resolution.valueIn w) := by
    unfold CtrlField.valueIn
    rw [code_decode _ _ (bitsAt_lt ..)]
    rfl
  rw [h1, C57_resolution_correction.2.1]
  have hc : ∀ r : Resolution, (r.toU8.toNat : Int) = (CtrlField.resolution.code r : Int) + 16 := by
    intro r; cases r <;> rfl
  generalize CtrlField.resolution.valueIn w = r at *
  rw [hc, hc, show ((CtrlField.resolution.code c.resolution : Int) + 16 - ((CtrlField.resolution.code r : Int) + 16)) =
    (CtrlField.resolution.code c.resolution : Int) - (CtrlField.resolution.code r : Int) by ring,
    zpow_sub₀ (by norm_num), zpow_natCast, zpow_natCast]

end Mlx.Proofs
