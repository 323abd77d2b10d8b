import Verif.Proofs.Ops
import Verif.Spec.Static
/-
The recorder does not change behaviour.
-/
set_option linter.unusedSectionVars false
set_option autoImplicit false
namespace Mlx.Proofs
open Mlx Mlx.Spec F32Ops
variable {F σ ER EW : Type} [F32Ops F]

theorem recorded_regRead (b : Bus σ ER EW) (s : σ × List (Txn ER EW)) (addr : Byte) (reg : Word) :
    ((regRead (recorded b) s addr reg).1.1, (regRead (recorded b) s addr reg).2) = regRead b s.1 addr reg := by
  rw [regRead_recorded]

theorem recorded_readRanges (b : Bus σ ER EW) (addr : Byte) (rs : List PixelRange) (s : σ × List (Txn ER EW))
    (buf : List Byte) :
    ((readRanges (recorded b) addr rs s buf).1.1, (readRanges (recorded b) addr rs s buf).2) =
      readRanges b addr rs s.1 buf := by
  induction rs generalizing s buf with
  | nil => rfl
  | cons r rs ih =>
    unfold readRanges
    by_cases hfit : r.bufferOffset + r.length ≤ buf.length
    · rw [if_pos hfit, if_pos hfit]
      rcases hq : b.writeRead s.1 addr (toBe (BitVec.ofNat 16 r.startAddress))
        ((buf.drop r.bufferOffset).take r.length) with ⟨s1, sub, _ | e⟩
      · simp only [recorded_writeRead, hq]
        exact ih _ _
      · simp only [recorded_writeRead, hq]
    · rw [if_neg hfit, if_neg hfit]

theorem recorded_ramData (cam : Cam) (b : Bus σ ER EW) (s : σ × List (Txn ER EW)) (addr : Byte) (sp : Subpage) :
    ((ramDataFromI2c cam (recorded b) s addr sp).1.1, (ramDataFromI2c cam (recorded b) s addr sp).2) =
      ramDataFromI2c cam b s.1 addr sp := by
  unfold ramDataFromI2c
  simp only [readRamValue_eq, regRead_recorded]
  generalize regRead b s.1 addr cam.tAVbe = q1
  obtain ⟨s1, _ | w1⟩ := q1
  · rfl
  simp only
  generalize regRead b s1 addr cam.tAPtat = q2
  obtain ⟨s2, _ | w2⟩ := q2
  · rfl
  simp only
  generalize regRead b s2 addr cam.vddPixel = q3
  obtain ⟨s3, _ | w3⟩ := q3
  · rfl
  simp only
  generalize regRead b s3 addr cam.gain = q4
  obtain ⟨s4, _ | w4⟩ := q4
  · rfl
  simp only
  generalize regRead b s4 addr (cam.compensationPixel sp) = q5
  obtain ⟨s5, _ | w5⟩ := q5 <;> rfl

theorem recorded_readRam (env : Env σ ER EW) (sp : Subpage) (d : Driver F (σ × List (Txn ER EW))) :
    (forget (Driver.readRam (recordedEnv env) sp d).1, (Driver.readRam (recordedEnv env) sp d).2) =
      Driver.readRam env sp (forget d) := by
  unfold Driver.readRam Mlx.readRam forget
  simp only
  have hm : (recordedEnv env).mode = env.mode := rfl
  have hh : (recordedEnv env).height = env.height := rfl
  have hb : (recordedEnv env).bus = recorded env.bus := rfl
  rw [hm, hh, hb]
  cases d.calib.cam.collectRanges env.mode sp d.accessPattern env.height with
  | panic => rfl
  | err e => exact nomatch e
  | ok rs =>
    simp only
    rw [← recorded_readRanges]
    generalize readRanges (recorded env.bus) d.addr rs d.bus d.pixelBuf = q
    obtain ⟨s1, px, _ | e | _⟩ := q
    · simp only
      rw [← recorded_ramData]
    · rfl
    · rfl

theorem recorded_image (env : Env σ ER EW) (sp : Subpage) (dest : List F) (d : Driver F (σ × List (Txn ER EW)))
    (conv : Driver F (σ × List (Txn ER EW)) → List Byte → RamData → Res (Err ER EW) (F × List F))
    (conv' : Driver F σ → List Byte → RamData → Res (Err ER EW) (F × List F))
    (hc : ∀ d px ram, conv d px ram = conv' (forget d) px ram) :
    (forget (imageWith (recordedEnv env) sp dest d conv).1, (imageWith (recordedEnv env) sp dest d conv).2) =
      imageWith env sp dest (forget d) conv' := by
  unfold imageWith
  rw [← recorded_readRam]
  generalize Driver.readRam (recordedEnv env) sp d = q
  obtain ⟨d1, ram | e | _⟩ := q
  · simp only [hc]
    have : (forget d1).pixelBuf = d1.pixelBuf := rfl
    rw [this]
    cases conv' (forget d1) d1.pixelBuf ram <;> rfl
  · rfl
  · rfl

theorem recorded_poll (env : Env σ ER EW) (fuel : Nat) (d : Driver F (σ × List (Txn ER EW))) :
    (forget (Driver.pollStatus (recordedEnv env) fuel d).1, (Driver.pollStatus (recordedEnv env) fuel d).2) =
      Driver.pollStatus env fuel (forget d) := by
  induction fuel generalizing d with
  | zero => rfl
  | succ n ih =>
    unfold Driver.pollStatus
    rw [dm_bind, dm_bind, statusRegister_eq, statusRegister_eq]
    have hb : (recordedEnv env).bus = recorded env.bus := rfl
    have hd : regRead env.bus (forget d).bus (forget d).addr 0x8000#16 = regRead env.bus d.bus.1 d.addr 0x8000#16 := rfl
    rw [hb, regRead_recorded, hd]
    generalize regRead env.bus d.bus.1 d.addr 0x8000#16 = q
    obtain ⟨s, e | w⟩ := q
    · rfl
    · simp only
      split
      · rfl
      · exact ih _

end Mlx.Proofs
