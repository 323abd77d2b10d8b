import Verif.Proofs.Hold
import Verif.Props.Heard
import Verif.Props.Recorder
import Verif.Props.Static
/-
C105: with data hold, images are of whole frames.
-/
set_option linter.unusedSectionVars false
set_option autoImplicit false
namespace Mlx.Props
open Mlx Mlx.Spec Mlx.Proofs F32Ops
variable {F σ ER EW : Type} [F32Ops F] {mem : σ → Word → Word}

/-- A property of the camera's memory that neither running nor gentle calls end. -/
theorem inUse_stable {env : Env σ ER EW} {d : Driver F σ} (hs : Supported env d) (h : FreeRunning Runs env.bus d.addr mem)
    {P : (Word → Word) → Prop} (hP : Stable P) {calls : List (Op F × Res (Err ER EW) Unit)} {d1 : Driver F σ}
    (hu : InUse Runs env mem d calls d1) (hn : ∀ c ∈ calls, ¬ Thaws c.1) :
    (Supported env d1 ∧ d1.addr = d.addr ∧ d1.calib = d.calib) ∧ (P (mem d.bus) → P (mem d1.bus)) := by
  induction hu with
  | start => exact ⟨⟨hs, rfl, rfl⟩, fun hp => hp⟩
  | call op hu ih =>
    obtain ⟨⟨k1, k2, k3⟩, k4⟩ := ih fun c hc => hn c (List.mem_append_left _ hc)
    obtain ⟨q1, q2, q3⟩ := exec_supported k1 op
    refine ⟨⟨q1, q2.trans k2, q3.trans k3⟩, fun hp => ?_⟩
    exact exec_edit k1 op (stable_gentle (by rw [k2]; exact h) _ hP (hn _ (List.mem_append_right _ (List.mem_singleton.2 rfl))))
      (k4 hp)
  | later s hu hr ih =>
    obtain ⟨⟨k1, k2, k3⟩, k4⟩ := ih hn
    exact ⟨⟨⟨k1.1, k1.2, k1.3⟩, k2, k3⟩, fun hp => hP.runs _ _ hr (k4 hp)⟩

/-- **C105 (held data stay).** While a camera holds its data, no calls but those that thaw end this, whatever their outcomes and
whenever the camera measures; and the RAM stays as it was. -/
theorem C105_held_data_stay (env : Env σ ER EW) (d : Driver F σ) (hs : Supported env d) (h : FreeRunning Runs env.bus d.addr mem)
    (hh : Held (mem d.bus)) (calls : List (Op F × Res (Err ER EW) Unit)) (d1 : Driver F σ) (hu : InUse Runs env mem d calls d1)
    (hn : ∀ c ∈ calls, ¬ Thaws c.1) : Held (mem d1.bus) ∧ SameRam (mem d.bus) (mem d1.bus) := by
  have := (inUse_stable hs h (held_stable (mem d.bus)) hu hn).2 ⟨hh, fun _ _ => rfl⟩
  exact ⟨this.1, fun a _ ha => this.2 a ha⟩

theorem hold_value (w : Word) : CtrlField.dataHold.valueIn w = w.getLsbD 2 := by
  show decide (w.toNat / 2 ^ 2 % 2 ^ 1 = 1) = w.toNat.testBit 2
  rw [Nat.testBit_eq_decide_div_mod_eq]

/-- What a successful call that asks for data hold, or for no overwriting, leaves in the registers. -/
theorem hold_set {env : Env σ ER EW} {d : Driver F σ} (h : FreeRunning Runs env.bus d.addr mem) :
    ((Op.exec (F := F) env (.setDataHold true) d).2 = .ok () →
      (mem (Op.exec env (.setDataHold true) d).1.bus 0x800D#16).getLsbD 2 = true) ∧
    ((Op.exec (F := F) env (.setOverwriteEnabled false) d).2 = .ok () →
      (mem (Op.exec env (.setOverwriteEnabled false) d).1.bus 0x8000#16).getLsbD 4 = false) ∧
    ∀ fuel, (Op.exec (F := F) env (.synchronize fuel) d).2 = .ok () →
      (mem (Op.exec env (.synchronize fuel) d).1.bus 0x8000#16).getLsbD 4 = true := by
  refine ⟨?_, ?_, ?_⟩
  · show (discard (driverSet env .dataHold (by decide) true d)).2 = .ok () →
      (mem (discard (driverSet env .dataHold (by decide) true d)).1.bus 0x800D#16).getLsbD 2 = true
    unfold discard
    rw [driverSet_eq]
    obtain ⟨hr, hv⟩ := free_regRead h d.bus 0x800D#16
    generalize regRead env.bus d.bus d.addr 0x800D#16 = q at hr hv ⊢
    obtain ⟨s1, e | w⟩ := q
    · intro hc; exact nomatch hc
    · have hw : w = mem s1 0x800D#16 := by rw [hr.fixed _ (by unfold Volatile; decide)]; exact hv w rfl
      dsimp only
      by_cases hcode : CtrlField.dataHold.code (CtrlField.dataHold.valueIn w) = CtrlField.dataHold.code true
      · rw [if_pos hcode]
        intro _
        have := code_inj .dataHold _ _ hcode
        rw [hold_value] at this
        show (mem s1 0x800D#16).getLsbD 2 = true
        rw [← hw]
        exact this
      · rw [if_neg hcode]
        intro hok
        have hwr := h.write_ok s1 0x800D#16 (CtrlField.dataHold.set ⟨w⟩ true).raw
        unfold regWrite at hok ⊢
        revert hok hwr
        generalize env.bus.write s1 d.addr (toBe 0x800D#16 ++ toBe (CtrlField.dataHold.set ⟨w⟩ true).raw) = q
        obtain ⟨s2, _ | e⟩ := q
        · intro _ hwr
          show (mem s2 0x800D#16).getLsbD 2 = true
          rw [(hwr rfl).fixed _ (by unfold Volatile; decide), setWord, if_pos rfl]
          exact hold_bit w true
        · intro hc; exact nomatch hc
  · show (discard (Driver.setOverwriteEnabled env false d)).2 = .ok () →
      (mem (discard (Driver.setOverwriteEnabled env false d)).1.bus 0x8000#16).getLsbD 4 = false
    unfold discard
    rw [setOverwrite_eq]
    obtain ⟨hr, hv⟩ := free_regRead h d.bus 0x8000#16
    generalize regRead env.bus d.bus d.addr 0x8000#16 = q at hr hv ⊢
    obtain ⟨s1, e | w⟩ := q
    · intro hc; exact nomatch hc
    · have hw := hv w rfl
      dsimp only
      by_cases h4 : w.getLsbD 4 = false
      · rw [if_pos h4]
        intro _
        show (mem s1 0x8000#16).getLsbD 4 = false
        rw [hr.overwrite, ← hw]
        exact h4
      · rw [if_neg h4]
        intro hok
        have hwr := h.write_ok s1 0x8000#16 (StatusReg.setOverwriteEnabled ⟨w⟩ false).raw
        unfold regWrite at hok ⊢
        revert hok hwr
        generalize env.bus.write s1 d.addr (toBe 0x8000#16 ++ toBe (StatusReg.setOverwriteEnabled ⟨w⟩ false).raw) = q
        obtain ⟨s2, _ | e⟩ := q
        · intro _ hwr
          show (mem s2 0x8000#16).getLsbD 4 = false
          rw [(hwr rfl).overwrite, setWord, if_pos rfl, setOverwrite_bits, if_pos rfl]
        · intro hc; exact nomatch hc
  · intro fuel
    show (discard (Driver.synchronize env fuel d)).2 = .ok () →
      (mem (discard (Driver.synchronize env fuel d)).1.bus 0x8000#16).getLsbD 4 = true
    unfold discard
    rw [synchronize_eq]
    obtain ⟨hr, hv⟩ := free_regRead h d.bus 0x8000#16
    generalize regRead env.bus d.bus d.addr 0x8000#16 = q at hr hv ⊢
    obtain ⟨s1, e | w⟩ := q
    · intro hc; exact nomatch hc
    · dsimp only
      have hwr := h.write_ok s1 0x8000#16 (syncWord w)
      unfold regWrite
      revert hwr
      generalize env.bus.write s1 d.addr (toBe 0x8000#16 ++ toBe (syncWord w)) = q
      obtain ⟨s2, _ | e⟩ := q
      · intro hwr _
        have hb : (mem s2 0x8000#16).getLsbD 4 = true := by
          rw [(hwr rfl).overwrite, setWord, if_pos rfl, syncWord_bits]
          rfl
        exact SurvivesReads.poll (Inv := fun s => (mem s 0x8000#16).getLsbD 4 = true) fuel (d := { d with bus := s2 })
          (fun s base buf _ hi => by
            have hr := h.read s base buf
            show (mem _ 0x8000#16).getLsbD 4 = true
            rw [hr.overwrite]; exact hi) hb
      · intro _ hc; exact nomatch hc

/-- What a successful call establishes and gentle calls preserve. -/
theorem inUse_established {env : Env σ ER EW} {d : Driver F σ} (hs : Supported env d) (h : FreeRunning Runs env.bus d.addr mem)
    {P : (Word → Word) → Prop} (hP : Stable P) (op : Op F)
    (hset : ∀ d0 : Driver F σ, d0.addr = d.addr → (op.exec env d0).2 = .ok () → P (mem (op.exec env d0).1.bus))
    {calls : List (Op F × Res (Err ER EW) Unit)} {d1 : Driver F σ} (hu : InUse Runs env mem d calls d1) (hn : ∀ c ∈ calls, ¬ Thaws c.1)
    (hm : (op, .ok ()) ∈ calls) : P (mem d1.bus) := by
  induction hu with
  | start => exact nomatch hm
  | call op' hu ih =>
    have hn' := fun c hc => hn c (List.mem_append_left _ hc)
    obtain ⟨⟨k1, k2, k3⟩, k4⟩ := inUse_stable hs h hP hu hn'
    rcases List.mem_append.1 hm with hm | hm
    · exact exec_edit k1 op' (stable_gentle (by rw [k2]; exact h) _ hP
        (hn _ (List.mem_append_right _ (List.mem_singleton.2 rfl)))) (ih hn' hm)
    · rw [List.mem_singleton, Prod.mk.injEq] at hm
      obtain ⟨rfl, hm⟩ := hm
      exact hset _ k2 hm.symm
  | later s hu hr ih => exact hP.runs _ _ hr (ih hn hm)

/-- **C105 (how to hold).** After calls among which `set_data_hold(true)` and `set_overwrite_enabled(false)` succeeded, in any order,
and none of which thaws, the camera holds its data. -/
theorem C105_hold_takes_effect (env : Env σ ER EW) (d : Driver F σ) (hs : Supported env d) (h : FreeRunning Runs env.bus d.addr mem)
    (calls : List (Op F × Res (Err ER EW) Unit)) (d1 : Driver F σ) (hu : InUse Runs env mem d calls d1)
    (hn : ∀ c ∈ calls, ¬ Thaws c.1) (h1 : (.setDataHold true, .ok ()) ∈ calls) (h2 : (.setOverwriteEnabled false, .ok ()) ∈ calls) :
    Held (mem d1.bus) :=
  ⟨inUse_established hs h dataHold_stable _ (fun d0 ha => (hold_set (by rw [ha]; exact h)).1) hu hn h1,
    inUse_established hs h noOverwrite_stable _ (fun d0 ha => (hold_set (by rw [ha]; exact h)).2.1) hu hn h2⟩

/-- **C105 (`synchronize` thaws).** After a successful `synchronize` the camera does not hold its data, whatever it did before. -/
theorem C105_synchronize_thaws (env : Env σ ER EW) (d : Driver F σ) (h : FreeRunning Runs env.bus d.addr mem) (fuel : Nat)
    (hok : (Op.exec (F := F) env (.synchronize fuel) d).2 = .ok ()) : ¬ Held (mem (Op.exec env (.synchronize fuel) d).1.bus) := by
  intro hc
  have h1 := (hold_set h).2.2 fuel hok
  rw [hc.2] at h1
  exact nomatch h1

/-! ### Images of held data -/

/-- Reads of a memory that has the RAM of `M` are heard as `M`. -/
theorem read_heard {b : Bus σ ER EW} {addr : Byte} (h : ∀ s base buf, (b.writeRead s addr (toBe base) buf).2.2 = none →
      (b.writeRead s addr (toBe base) buf).2.1 = memBytes (mem s) base buf.length)
    (s : σ × List (Txn ER EW)) (base : Word) (buf : List Byte) (M : Word → Word)
    (hM : ∀ a : Word, a.toNat < 0x0800 → mem s.1 a = M a) (hl : ∀ a w, a.toNat < 0x0800 → lastWord addr a s.2 = some w → M a = w) :
    ∀ a w, a.toNat < 0x0800 → lastWord addr a ((recorded b).writeRead s addr (toBe base) buf).1.2 = some w → M a = w := by
  intro a w ha hw
  have hw : lastWord addr a (s.2 ++ [_]) = some w := hw
  rw [lastWord_snoc] at hw
  have hd := h s.1 base buf
  generalize b.writeRead s.1 addr (toBe base) buf = q at hw hd
  obtain ⟨s1, bytes, _ | e⟩ := q
  · have hb : bytes = memBytes (mem s.1) base buf.length := hd rfl
    subst hb
    simp only at hw
    rw [says_read] at hw
    have hk : BitVec.ofNat 16 (a - base).toNat = a - base := by rw [BitVec.ofNat_toNat, BitVec.setWidth_eq]
    have hsum : base + (a - base) = a := by rw [BitVec.add_comm, BitVec.sub_add_cancel]
    split at hw
    · rename_i hlt
      rw [memBytes_get _ _ _ _ (by omega), memBytes_get _ _ _ _ hlt] at hw
      rw [if_pos (show 2 * (a - base).toNat % 2 = 0 by omega), if_neg (show ¬ (2 * (a - base).toNat + 1) % 2 = 0 by omega),
        show 2 * (a - base).toNat / 2 = (a - base).toNat by omega, show (2 * (a - base).toNat + 1) / 2 = (a - base).toNat by omega,
        hk, hsum] at hw
      simp only [be16_toBe, Option.some_or, Option.some.injEq] at hw
      rw [← hM a ha]
      exact hw
    · exact hl a w ha hw
  · exact hl a w ha hw

theorem recorded_heard {b : Bus σ ER EW} {addr : Byte} (h : FreeRunning Runs b addr mem) (cam : Cam) (M : Word → Word) :
    SurvivesReads (recorded b) cam addr fun s => (Held (mem s.1) ∧ ∀ a : Word, a.toNat < 0x0800 → mem s.1 a = M a) ∧
      ∀ a w, a.toNat < 0x0800 → lastWord addr a s.2 = some w → M a = w :=
  fun s base buf _ hi => ⟨(held_stable M).runs _ _ (h.read s.1 base buf) hi.1, read_heard h.read_data s base buf M hi.1.2 hi.2⟩

/-- The driver with a recorder attached. -/
def recording (d : Driver F σ) : Driver F (σ × List (Txn ER EW)) :=
  { bus := (d.bus, []), addr := d.addr, calib := d.calib, pixelBuf := d.pixelBuf, resCorr := d.resCorr,
    ambient := d.ambient, emissivity := d.emissivity, accessPattern := d.accessPattern, reflected := d.reflected }

/-- If all that was heard of the RAM during an image method is in `M`, the image is the one of a camera that holds `M`. -/
theorem heard_still {env : Env σ ER EW} {d d' : Driver F σ} (hs : Supported env d) (hk : Complete d.calib d.calib.cam.numPixels)
    (M : Word → Word) {Inv : σ × List (Txn ER EW) → Prop} (hsv : SurvivesReads (recorded env.bus) d.calib.cam d.addr Inv)
    (hi : Inv (d.bus, []))
    (hend : ∀ log, Inv (d'.bus, log) → ∀ a w, a.toNat < 0x0800 → lastWord d.addr a log = some w → M a = w)
    (sp : Subpage) (dest dest' : List F) :
    (Driver.generateRawImageSubpageTo env sp dest d = (d', dest', .ok ()) →
      ∃ e', Driver.generateRawImageSubpageTo ⟨env.mode, env.height, cameraBus d.addr⟩ sp dest (Driver.onStill d M) = (e', dest', .ok ()) ∧
        e'.ambientTemp = d'.ambientTemp) ∧
    (Driver.generateImageSubpageTo env sp dest d = (d', dest', .ok ()) →
      ∃ e', Driver.generateImageSubpageTo ⟨env.mode, env.height, cameraBus d.addr⟩ sp dest (Driver.onStill d M) = (e', dest', .ok ()) ∧
        e'.ambientTemp = d'.ambientTemp) := by
  let dR : Driver F (σ × List (Txn ER EW)) := recording d
  have hsR : Supported (recordedEnv env) dR := ⟨hs.1, hs.2, hs.3⟩
  have hset : SameSettings dR (Driver.onStill d M) := ⟨rfl, rfl, rfl, rfl, rfl, rfl⟩
  have hse : Supported (⟨env.mode, env.height, cameraBus dR.addr⟩ : Env (Word → Word) Unit Unit) (Driver.onStill d M) :=
    ⟨hs.1, hs.2, hs.3⟩
  have hi : Inv dR.bus := hi
  constructor
  · intro hg
    have hrec := recorded_image env sp dest dR (fun d => toRawImage env.mode d sp dest) (fun d => toRawImage env.mode d sp dest)
      (fun _ _ _ => rfl)
    have hg : imageWith env sp dest (forget dR) (fun d => toRawImage env.mode d sp dest) = (d', dest', .ok ()) := hg
    rw [hg] at hrec
    have hinv := SurvivesReads.image hsR hsv sp dest (fun d => toRawImage env.mode d sp dest) hi
    obtain ⟨rs, ts, s', px, hrs, hq, hcase⟩ := imageWith_cases env dR sp dest hsR
      (fun d => toRawImage env.mode d sp dest) (fun d px ram e => toRawImage_no_err _ _ _ _ _ _ _) (fun _ _ _ _ => rfl)
    rcases hcase with ⟨e, _, h5⟩ | ⟨ram, _, h5, ⟨tA, dest1, h6, h7⟩ | ⟨_, h7⟩⟩
    · rw [h5] at hrec; simp at hrec
    · rw [h7] at hrec hinv
      simp only [Prod.mk.injEq, and_true] at hrec
      obtain ⟨rfl, rfl⟩ := hrec
      exact (still_image hsR hk hset hse hrs h5 [] (hend _ hinv) dest dest1 tA).1 h6
    · rw [h7] at hrec; simp at hrec
  · intro hg
    have hrec := recorded_image env sp dest dR (fun d => toTemperatures env.mode d sp dest) (fun d => toTemperatures env.mode d sp dest)
      (fun _ _ _ => rfl)
    have hg : imageWith env sp dest (forget dR) (fun d => toTemperatures env.mode d sp dest) = (d', dest', .ok ()) := hg
    rw [hg] at hrec
    have hinv := SurvivesReads.image hsR hsv sp dest (fun d => toTemperatures env.mode d sp dest) hi
    obtain ⟨rs, ts, s', px, hrs, hq, hcase⟩ := imageWith_cases env dR sp dest hsR
      (fun d => toTemperatures env.mode d sp dest) (fun d px ram e => toTemperatures_no_err _ _ _ _ _ _ _) (fun _ _ _ _ => rfl)
    rcases hcase with ⟨e, _, h5⟩ | ⟨ram, _, h5, ⟨tA, dest1, h6, h7⟩ | ⟨_, h7⟩⟩
    · rw [h5] at hrec; simp at hrec
    · rw [h7] at hrec hinv
      simp only [Prod.mk.injEq, and_true] at hrec
      obtain ⟨rfl, rfl⟩ := hrec
      exact (still_image hsR hk hset hse hrs h5 [] (hend _ hinv) dest dest1 tA).2 h6
    · rw [h7] at hrec; simp at hrec

theorem held_still {env : Env σ ER EW} {d : Driver F σ} (hs : Supported env d) (hk : Complete d.calib d.calib.cam.numPixels)
    (h : FreeRunning Runs env.bus d.addr mem) (hh : Held (mem d.bus)) (M : Word → Word)
    (hM : ∀ a : Word, a.toNat < 0x0800 → mem d.bus a = M a) (sp : Subpage) (dest dest' : List F) (d' : Driver F σ) :
    (Driver.generateRawImageSubpageTo env sp dest d = (d', dest', .ok ()) →
      ∃ e', Driver.generateRawImageSubpageTo ⟨env.mode, env.height, cameraBus d.addr⟩ sp dest (Driver.onStill d M) = (e', dest', .ok ()) ∧
        e'.ambientTemp = d'.ambientTemp) ∧
    (Driver.generateImageSubpageTo env sp dest d = (d', dest', .ok ()) →
      ∃ e', Driver.generateImageSubpageTo ⟨env.mode, env.height, cameraBus d.addr⟩ sp dest (Driver.onStill d M) = (e', dest', .ok ()) ∧
        e'.ambientTemp = d'.ambientTemp) :=
  heard_still hs hk M (recorded_heard h d.calib.cam M) ⟨⟨hh, hM⟩, fun _ _ _ hc => nomatch hc⟩ (fun _ hi => hi.2) sp dest dest'

/-- **C105 (whole frames).** From a moment on at which the camera holds its data, through any calls that do not thaw, with the camera
measuring whenever it likes: every image is what the same driver makes of a camera that does nothing but hold the RAM of that moment
(and, for the methods that ask for the subpage, the status register of the moment at which they are called). -/
theorem C105_whole_frames (env : Env σ ER EW) (d0 d d' : Driver F σ) (hs : Supported env d0)
    (hk : Complete d0.calib d0.calib.cam.numPixels) (h : FreeRunning Runs env.bus d0.addr mem) (hh : Held (mem d0.bus))
    (calls : List (Op F × Res (Err ER EW) Unit)) (hu : InUse Runs env mem d0 calls d) (hn : ∀ c ∈ calls, ¬ Thaws c.1)
    (dest dest' : List F) :
    let still : Env (Word → Word) Unit Unit := ⟨env.mode, env.height, cameraBus d.addr⟩
    let frame : Word → Word := setWord (mem d0.bus) 0x8000#16 (mem d.bus 0x8000#16)
    (∀ sp, Driver.generateRawImageSubpageTo env sp dest d = (d', dest', .ok ()) →
      ∃ e', Driver.generateRawImageSubpageTo still sp dest (Driver.onStill d frame) = (e', dest', .ok ()) ∧
        e'.ambientTemp = d'.ambientTemp) ∧
    (∀ sp, Driver.generateImageSubpageTo env sp dest d = (d', dest', .ok ()) →
      ∃ e', Driver.generateImageSubpageTo still sp dest (Driver.onStill d frame) = (e', dest', .ok ()) ∧
        e'.ambientTemp = d'.ambientTemp) ∧
    (Driver.generateImageTo env dest d = (d', dest', .ok ()) →
      ∃ e', Driver.generateImageTo still dest (Driver.onStill d frame) = (e', dest', .ok ()) ∧
        e'.ambientTemp = d'.ambientTemp) ∧
    (Driver.generateImageIfReady env dest d = (d', dest', .ok true) →
      ∃ e', Driver.generateImageIfReady still dest (Driver.onStill d frame) = (e', dest', .ok true) ∧
        e'.ambientTemp = d'.ambientTemp) ∧
    (Driver.generateImageIfReady env dest d = (d', dest', .ok false) →
      ∃ e', Driver.generateImageIfReady still dest (Driver.onStill d frame) = (e', dest', .ok false)) := by
  intro still frame
  obtain ⟨⟨hs1, ha1, hc1⟩, hP⟩ := inUse_stable hs h (held_stable (mem d0.bus)) hu hn
  obtain ⟨hh1, hM0⟩ := hP ⟨hh, fun _ _ => rfl⟩
  have h1 : FreeRunning Runs env.bus d.addr mem := by rw [ha1]; exact h
  have hk1 : Complete d.calib d.calib.cam.numPixels := by rw [hc1]; exact hk
  have hM : ∀ a : Word, a.toNat < 0x0800 → mem d.bus a = frame a := by
    intro a ha
    show _ = setWord _ _ _ a
    rw [setWord, if_neg (by rintro rfl; revert ha; decide)]
    exact hM0 a ha
  have hst : frame 0x8000#16 = mem d.bus 0x8000#16 := by
    show setWord _ _ _ _ = _
    rw [setWord, if_pos rfl]
  -- reading the status register
  obtain ⟨hr, hv⟩ := free_regRead h1 d.bus 0x8000#16
  have hM' : ∀ a : Word, a.toNat < 0x0800 → mem (regRead env.bus d.bus d.addr 0x8000#16).1 a = frame a := by
    have := (held_stable frame).runs _ _ hr ⟨hh1, hM⟩
    exact this.2
  have hh' := hr.held hh1
  refine ⟨fun sp => (held_still hs1 hk1 h1 hh1 frame hM sp dest dest' d').1,
    fun sp => (held_still hs1 hk1 h1 hh1 frame hM sp dest dest' d').2, fun hg => ?_, fun hg => ?_, fun hg => ?_⟩
  · rw [generateImageTo_eq] at hg
    generalize regRead env.bus d.bus d.addr 0x8000#16 = q at hr hv hM' hh' hg
    obtain ⟨s1, e | w⟩ := q
    · simp at hg
    · have hw : w = mem d.bus 0x8000#16 := hv w rfl
      obtain ⟨e', r1, r2⟩ := (held_still (d := { d with bus := s1 }) ⟨hs1.1, hs1.2, hs1.3⟩ hk1 h1 hh' frame hM'
        (statusSubpage w) dest dest' d').2 hg
      refine ⟨e', ?_, r2⟩
      have := still_imageTo (m := env.mode) (n := env.height) (e := Driver.onStill d frame) dest
      rw [show still = ⟨env.mode, env.height, cameraBus (Driver.onStill d frame).addr⟩ from rfl, this,
        show (Driver.onStill d frame).bus 0x8000#16 = frame 0x8000#16 from rfl, hst, ← hw]
      exact r1
  · rw [ifReady_eq] at hg ⊢
    have hsr : regRead still.bus (Driver.onStill d frame).bus (Driver.onStill d frame).addr 0x8000#16 = (frame, .ok (frame 0x8000#16)) :=
      still_regRead d.addr frame 0x8000#16
    rw [hsr, hst]
    generalize regRead env.bus d.bus d.addr 0x8000#16 = q at hr hv hM' hh' hg
    obtain ⟨s1, e | w⟩ := q
    · simp at hg
    · have hw : w = mem d.bus 0x8000#16 := hv w rfl
      rw [← hw]
      dsimp only at hg ⊢
      by_cases h3 : w.getLsbD 3 = true
      · rw [if_pos h3] at hg ⊢
        cases hi : Driver.generateImageSubpageTo env (if w.getLsbD 0 then .one else .zero) dest { d with bus := s1 } with
        | mk d2 rest =>
          obtain ⟨dest2, r⟩ := rest
          rw [hi] at hg
          cases r with
          | err e => simp at hg
          | panic => simp at hg
          | ok u =>
            obtain ⟨e', r1, r2⟩ := (held_still (d := { d with bus := s1 }) ⟨hs1.1, hs1.2, hs1.3⟩ hk1 h1 hh' frame hM'
              (statusSubpage w) dest dest2 d2).2 hi
            have r1 : Driver.generateImageSubpageTo still (if w.getLsbD 0 then .one else .zero) dest
              { Driver.onStill d frame with bus := frame } = (e', dest2, .ok ()) := r1
            rw [r1]
            have hwr : (regWrite env.bus d2.bus d2.addr 0x8000#16 (StatusReg.resetNewData ⟨w⟩).raw).2 = none ∧
                dest2 = dest' ∧ d'.ambientTemp = d2.ambientTemp := by
              dsimp only at hg
              rw [Prod.mk.injEq, Prod.mk.injEq] at hg
              obtain ⟨g1, g2, g3⟩ := hg
              refine ⟨?_, g2, by rw [← g1]; rfl⟩
              revert g3
              cases (regWrite env.bus d2.bus d2.addr 0x8000#16 (StatusReg.resetNewData ⟨w⟩).raw).2 with
              | none => exact fun _ => rfl
              | some e => exact fun hc => nomatch hc
            have hea : e'.addr = d.addr := by
              have := (imageWith_keeps still (if w.getLsbD 0 then .one else .zero) dest { Driver.onStill d frame with bus := frame }
                (fun d => toTemperatures still.mode d (if w.getLsbD 0 then .one else .zero) dest)).1.addr
              rw [← imageSubpage_eq, r1] at this
              exact this
            have hsw : (regWrite still.bus e'.bus e'.addr 0x8000#16 (StatusReg.resetNewData ⟨w⟩).raw).2 = none := by
              rw [hea]
              show ((cameraBus d.addr).write e'.bus d.addr (toBe _ ++ toBe _)).2 = none
              simp only [cameraBus, toBe, if_true, List.cons_append, List.nil_append]
            dsimp only
            rw [hsw, hwr.2.1, hwr.2.2]
            exact ⟨_, rfl, r2⟩
      · rw [if_neg h3] at hg
        simp at hg
  · rw [ifReady_eq] at hg ⊢
    have hsr : regRead still.bus (Driver.onStill d frame).bus (Driver.onStill d frame).addr 0x8000#16 = (frame, .ok (frame 0x8000#16)) :=
      still_regRead d.addr frame 0x8000#16
    rw [hsr, hst]
    generalize regRead env.bus d.bus d.addr 0x8000#16 = q at hr hv hM' hh' hg
    obtain ⟨s1, e | w⟩ := q
    · simp at hg
    · have hw : w = mem d.bus 0x8000#16 := hv w rfl
      rw [← hw]
      dsimp only at hg ⊢
      by_cases h3 : w.getLsbD 3 = true
      · rw [if_pos h3] at hg
        cases hi : Driver.generateImageSubpageTo env (if w.getLsbD 0 then .one else .zero) dest { d with bus := s1 } with
        | mk d2 rest =>
          obtain ⟨dest2, r⟩ := rest
          rw [hi] at hg
          cases r with
          | err e => simp at hg
          | panic => simp at hg
          | ok u =>
            dsimp only at hg
            rw [Prod.mk.injEq, Prod.mk.injEq] at hg
            obtain ⟨_, _, g3⟩ := hg
            revert g3
            cases (regWrite env.bus d2.bus d2.addr 0x8000#16 (StatusReg.resetNewData ⟨w⟩).raw).2 with
            | none => exact fun hc => nomatch hc
            | some e => exact fun hc => nomatch hc
      · rw [if_neg h3] at hg ⊢
        simp only [Prod.mk.injEq, and_true] at hg
        exact ⟨_, by rw [hg.2]⟩

/-! ### A camera that runs by a schedule -/

theorem measurement_runs (M next : Word → Word) : Runs M (measurement M next) where
  fixed a ha := by
    unfold measurement
    rw [if_neg (fun hc => ha (Or.inr hc)), if_neg (fun hc => ha (Or.inl hc))]
  overwrite := by
    unfold measurement
    rw [if_pos rfl]
    simp
  hold hh a h1 h2 := by
    unfold measurement
    rw [if_neg (by rintro rfl; revert h2; decide), if_pos ⟨h1, h2⟩, hh.1, hh.2]
    rfl

theorem tick_runs {runs : (Word → Word) → (Word → Word) → Prop} (h0 : ∀ M, runs M M) (h1 : ∀ M next, runs M (measurement M next))
    (c : ScheduledCamera) (now : SimpleCamera) : runs now.mem (c.tick now).now.mem := by
  unfold ScheduledCamera.tick
  cases c.schedule 0 with
  | none => exact h0 _
  | some next => exact h1 _ _

/-- A camera that measures by any schedule is one of those that the theorems are about. -/
theorem scheduled_runs {runs : (Word → Word) → (Word → Word) → Prop} (h0 : ∀ M, runs M M) (h1 : ∀ M next, runs M (measurement M next))
    (addr : Byte) : FreeRunning runs scheduledBus addr fun c => c.now.mem where
  read_data c base buf h := by
    have h : (simpleBus.writeRead c.now addr (toBe base) buf).2.2 = none := h
    exact (simple_static addr).1 c.now base buf h
  read c base buf := by
    have := (simple_static addr).2 c.now base buf
    have hr := tick_runs h0 h1 c (simpleBus.writeRead c.now addr (toBe base) buf).1
    rw [this] at hr
    exact hr
  write_ok c reg v h := by
    have h : (simpleBus.write c.now addr (toBe reg ++ toBe v)).2 = none := h
    have := (simple_static addr).3 c.now reg v h
    have hr := tick_runs h0 h1 c (simpleBus.write c.now addr (toBe reg ++ toBe v)).1
    rw [this] at hr
    exact hr
  write_err c reg v h := by
    have h : (simpleBus.write c.now addr (toBe reg ++ toBe v)).2 ≠ none := h
    have := (simple_static addr).4 c.now reg v h
    have hr := tick_runs h0 h1 c (simpleBus.write c.now addr (toBe reg ++ toBe v)).1
    rw [this] at hr
    exact Or.inl hr

theorem scheduled_free (addr : Byte) : FreeRunning Runs scheduledBus addr fun c => c.now.mem :=
  scheduled_runs (fun _ => ⟨fun _ _ => rfl, rfl, fun _ _ _ _ => rfl⟩) measurement_runs addr

/-- A memory with a new frame of subpage 0, all of whose words are `v`, chess pattern, and data hold as given. -/
def holdFrame (hold : Bool) (v : Word) : Word → Word := fun a =>
  if a = 0x8000#16 then 0x0008#16 else if a = 0x800D#16 then (if hold then 0x1905#16 else 0x1901#16) else v

/-- A driver for a camera that finishes another measurement with every single transaction. -/
def busyDriver : Driver Int ScheduledCamera :=
  toyDriver Mlx90640.cam 768 ⟨⟨0x33#8, holdFrame false 20#16⟩, fun n => some fun _ => BitVec.ofNat 16 (30 + n)⟩

/-- The hypotheses of `C105_hold_takes_effect` and `C105_whole_frames` are met: a camera that measures with every transaction is told
to hold its data; then an image is made. -/
example : ∃ d0 : Driver Int ScheduledCamera,
    let env : Env ScheduledCamera Unit Unit := ⟨.checked, 24, scheduledBus⟩
    Supported env busyDriver ∧ Complete busyDriver.calib busyDriver.calib.cam.numPixels ∧
    FreeRunning Runs env.bus busyDriver.addr (fun c : ScheduledCamera => c.now.mem) ∧
    InUse Runs env (fun c : ScheduledCamera => c.now.mem) busyDriver
      [(.setDataHold true, .ok ()), (.setOverwriteEnabled false, .ok ())] d0 ∧
    (∀ c ∈ [((.setDataHold true : Op Int), (.ok () : Res (Err Unit Unit) Unit)), (.setOverwriteEnabled false, .ok ())], ¬ Thaws c.1) ∧
    Held d0.bus.now.mem ∧ (Driver.generateImageIfReady env (List.replicate 768 0) d0).2.2 = .ok true := by
  let env : Env ScheduledCamera Unit Unit := ⟨.checked, 24, scheduledBus⟩
  let d1 := (Op.exec env (.setDataHold true) busyDriver).1
  let d2 := (Op.exec env (.setOverwriteEnabled false) d1).1
  have e1 : (Op.exec env (.setDataHold true) busyDriver).2 = .ok () := by decide +kernel
  have e2 : (Op.exec env (.setOverwriteEnabled false) d1).2 = .ok () := by decide +kernel
  have hs : Supported env busyDriver := ⟨Or.inl rfl, rfl, List.length_replicate⟩
  have hu : InUse Runs env (fun c : ScheduledCamera => c.now.mem) busyDriver
      [(.setDataHold true, .ok ()), (.setOverwriteEnabled false, .ok ())] d2 := by
    have h1 := InUse.call (.setDataHold true) (InUse.start (runs := Runs) (env := env) (mem := fun c : ScheduledCamera => c.now.mem) (d := busyDriver))
    have h2 := InUse.call (.setOverwriteEnabled false) h1
    rw [e1] at h2
    have h2 : InUse Runs env (fun c : ScheduledCamera => c.now.mem) busyDriver
      ([(.setDataHold true, .ok ())] ++ [(.setOverwriteEnabled false, (Op.exec env (.setOverwriteEnabled false) d1).2)]) d2 := h2
    rw [e2] at h2
    exact h2
  have hn : ∀ c ∈ [((.setDataHold true : Op Int), (.ok () : Res (Err Unit Unit) Unit)), (.setOverwriteEnabled false, .ok ())],
      ¬ Thaws c.1 := by
    intro c hc
    simp only [List.mem_cons, List.not_mem_nil, or_false] at hc
    rcases hc with rfl | rfl <;> exact fun h => h
  refine ⟨d2, hs, toyCalib_complete _ _ _ (by decide), scheduled_free _, hu, hn, ?_, ?_⟩
  · exact C105_hold_takes_effect env busyDriver hs (scheduled_free _) _ d2 hu hn (by simp) (by simp)
  · decide +kernel

/-- **C105 (overwriting tears).** With data hold on, but overwriting on as well (as `synchronize` leaves it), an image can be that of
neither the frame before nor the frame after a measurement that finishes during the call; with overwriting off, the same call on the
same camera with the same schedule makes the image of the frame before. -/
theorem C105_overwriting_tears :
    ∃ (d : Driver Int ScheduledCamera) (dest : List Int) (M₁ M₂ : Word → Word),
      let env : Env ScheduledCamera Unit Unit := ⟨.checked, 24, scheduledBus⟩
      d.bus.now.mem = M₁ ∧ (M₁ 0x800D#16).getLsbD 2 = true ∧ d.bus.schedule 6 = some M₂ ∧ (∀ n, n ≠ 6 → d.bus.schedule n = none) ∧
      (let torn := Driver.generateImageIfReady env dest (Op.exec env (.setOverwriteEnabled true) d).1
       torn.2.2 = .ok true ∧ torn.2.1 ≠ quietImage M₁ dest ∧ torn.2.1 ≠ quietImage M₂ dest) ∧
      (let whole := Driver.generateImageIfReady env dest (Op.exec env (.setOverwriteEnabled false) d).1
       whole.2.2 = .ok true ∧ whole.2.1 = quietImage M₁ dest) := by
  refine ⟨toyDriver Mlx90640.cam 768 ⟨⟨0x33#8, holdFrame true 20#16⟩, fun n => if n = 6 then some (holdFrame true 30#16) else none⟩,
    List.replicate 768 0, holdFrame true 20#16, holdFrame true 30#16, rfl, rfl, rfl, fun n hn => if_neg hn, ⟨?_, ?_, ?_⟩, ?_, ?_⟩ <;>
    decide +kernel

/-- The hypotheses of `C105_synchronize_thaws` are met, by a camera that holds its data. -/
example : ∃ (d : Driver Int ScheduledCamera) (fuel : Nat), Held d.bus.now.mem ∧
    FreeRunning Runs scheduledBus d.addr (fun c : ScheduledCamera => c.now.mem) ∧
    (Op.exec (⟨.checked, 24, scheduledBus⟩ : Env ScheduledCamera Unit Unit) (.synchronize fuel) d).2 = .ok () :=
  ⟨toyDriver Mlx90640.cam 768 ⟨⟨0x33#8, holdFrame true 20#16⟩, fun n => some fun _ => BitVec.ofNat 16 (30 + n)⟩, 3, ⟨rfl, rfl⟩,
    scheduled_free _, by decide +kernel⟩

end Mlx.Props
