import Verif.Props.Flagged
/-
C107: at most one image for each measurement, whenever measurements finish.
-/
set_option linter.unusedSectionVars false
set_option autoImplicit false
namespace Mlx.Props
open Mlx Mlx.Spec Mlx.Proofs F32Ops
variable {F σ ER EW : Type} [F32Ops F] {mem : σ → Word → Word} {count : σ → Nat}

theorem counted_flag {M M' : Word → Word} {n n' : Nat} (h : RunsCounted M n M' n') (hf : (M 0x8000#16).getLsbD 3 = true) :
    (M' 0x8000#16).getLsbD 3 = true := by
  rcases h.measured with ⟨_, _, h⟩ | ⟨_, h⟩
  · rw [h]; exact hf
  · exact h

theorem counting_flagged {b : Bus σ ER EW} {addr : Byte} (h : Counting b addr mem count) : FreeRunning RunsFlagged b addr mem := by
  have conv : ∀ {M M' : Word → Word} {n n' : Nat}, RunsCounted M n M' n' → RunsFlagged M M' := by
    intro M M' n n' hr
    refine ⟨hr.fixed, ?_⟩
    rcases hr.measured with ⟨_, h1, h2⟩ | ⟨_, h2⟩
    · exact Or.inl ⟨h1, h2⟩
    · exact Or.inr h2
  exact ⟨h.read_data, fun s base buf => conv (h.read s base buf), fun s reg v hw => conv (h.write_ok s reg v hw),
    fun s reg v hw => (h.write_err s reg v hw).imp conv conv⟩

/-- One if the flag is set. -/
def pending (M : Word → Word) : Nat := if (M 0x8000#16).getLsbD 3 = true then 1 else 0

theorem pending_le (M : Word → Word) : pending M ≤ 1 := by
  unfold pending
  split <;> omega

/-- A measurement adds one to the count when it sets the flag. -/
theorem pending_runs {M M' : Word → Word} {n n' k j : Nat} (h : RunsCounted M n M' n') (hi : pending M + k ≤ n + j) :
    pending M' + k ≤ n' + j := by
  rcases h.measured with ⟨h1, _, h3⟩ | ⟨h1, _⟩
  · have : pending M' = pending M := by unfold pending; rw [h3]
    omega
  · have := pending_le M'
    omega

theorem edit_flag {op : Op F} {w w' : Word} (h : OpEdit op 0x8000#16 w w') (hw : w'.getLsbD 3 = true) : w.getLsbD 3 = true := by
  have nope : (0x8000#16 : Word) ≠ 0x800D#16 := by decide
  cases op with
  | setOverwriteEnabled v =>
    obtain ⟨_, rfl⟩ := h
    rw [setOverwrite_bits, if_neg (by decide)] at hw
    exact hw
  | resetDataAvailable =>
    obtain ⟨_, rfl⟩ := h
    rw [resetNewData_bits, if_pos rfl] at hw
    exact nomatch hw
  | generateImageIfReady _ =>
    obtain ⟨_, rfl⟩ := h
    rw [resetNewData_bits, if_pos rfl] at hw
    exact nomatch hw
  | synchronize _ =>
    obtain ⟨_, rfl⟩ := h
    rw [syncWord_bits, if_pos rfl] at hw
    exact nomatch hw
  | setDataHold v => exact absurd h.1 nope
  | _ => exact absurd h.2.1 nope

theorem pending_set {M : Word → Word} {w : Word} (h : w.getLsbD 3 = true → (M 0x8000#16).getLsbD 3 = true) :
    pending (setWord M 0x8000#16 w) ≤ pending M := by
  unfold pending
  rw [setWord, if_pos rfl]
  by_cases hw : w.getLsbD 3 = true
  · rw [if_pos hw, if_pos (h hw)]
  · rw [if_neg hw]
    exact Nat.zero_le _

theorem pending_other {M : Word → Word} {w : Word} : pending (setWord M 0x800D#16 w) = pending M := by
  unfold pending
  rw [show setWord M 0x800D#16 w 0x8000#16 = M 0x8000#16 from if_neg (by decide)]

/-- No call sets the flag. -/
theorem pending_op {b : Bus σ ER EW} {addr : Byte} (h : Counting b addr mem count) (cam : Cam) (op : Op F) (k j : Nat) :
    SurvivesOp b cam addr op (fun s => pending (mem s) + k ≤ count s + j)
      (fun reg w s => reg = 0x8000#16 → w.getLsbD 3 = true → (mem s 0x8000#16).getLsbD 3 = true) where
  read s base buf _ hi := pending_runs (h.read s base buf) hi
  keeps reg w s base buf _ hi e hw := counted_flag (h.read s base buf) (hi e hw)
  knows s reg w _ _ hq e hw := by
    subst e
    obtain ⟨_, hv⟩ := free_regRead (counting_flagged h) s 0x8000#16
    have hv := hv w hq
    exact counted_flag (h.read s 0x8000#16 [0#8, 0#8]) (by rw [← hv]; exact hw)
  write s reg w w' hreg hh hg hi := by
    have hset : pending (setWord (mem s) reg w') + k ≤ count s + j := by
      rcases hreg with rfl | rfl
      · have := pending_set (M := mem s) (w := w') fun hw => hh rfl (edit_flag hg hw)
        omega
      · rw [pending_other]; exact hi
    by_cases he : (b.write s addr (toBe reg ++ toBe w')).2 = none
    · exact pending_runs (h.write_ok s reg w' he) hset
    · rcases h.write_err s reg w' he with hr | hr
      · exact pending_runs hr hi
      · exact pending_runs hr hset

/-- An image takes the flag. -/
theorem pending_image {env : Env σ ER EW} {d d2 : Driver F σ} (hs : Supported env d) (h : Counting env.bus d.addr mem count)
    {dest dest' : List F} (hg : Driver.generateImageIfReady env dest d = (d2, dest', .ok true)) (k j : Nat)
    (hi : pending (mem d.bus) + k ≤ count d.bus + j) : pending (mem d2.bus) + (k + 1) ≤ count d2.bus + j := by
  rw [ifReady_eq] at hg
  obtain ⟨_, hv⟩ := free_regRead (counting_flagged h) d.bus 0x8000#16
  have hr : RunsCounted (mem d.bus) (count d.bus) (mem (regRead env.bus d.bus d.addr 0x8000#16).1)
    (count (regRead env.bus d.bus d.addr 0x8000#16).1) := h.read d.bus 0x8000#16 [0#8, 0#8]
  generalize regRead env.bus d.bus d.addr 0x8000#16 = q at hr hv hg
  obtain ⟨s1, e | w⟩ := q
  · simp at hg
  · have hw : w = mem d.bus 0x8000#16 := hv w rfl
    dsimp only at hg
    by_cases h3 : w.getLsbD 3 = true
    · rw [if_pos h3] at hg
      have hf1 : (mem s1 0x8000#16).getLsbD 3 = true := counted_flag hr (by rw [← hw]; exact h3)
      have hi1 : pending (mem s1) + k ≤ count s1 + j := pending_runs hr hi
      have hs' : Supported env { d with bus := s1 } := ⟨hs.1, hs.2, hs.3⟩
      have hsv : SurvivesReads env.bus d.calib.cam d.addr
          (fun s => pending (mem s) + k ≤ count s + j ∧ (mem s 0x8000#16).getLsbD 3 = true) :=
        fun s base buf _ hi => ⟨pending_runs (h.read s base buf) hi.1, counted_flag (h.read s base buf) hi.2⟩
      have hm := SurvivesReads.image hs' hsv (if w.getLsbD 0 then .one else .zero) dest
        (fun d => toTemperatures env.mode d (if w.getLsbD 0 then .one else .zero) dest) ⟨hi1, hf1⟩
      have hka := (imageWith_keeps env (if w.getLsbD 0 then .one else .zero) dest { d with bus := s1 }
        (fun d => toTemperatures env.mode d (if w.getLsbD 0 then .one else .zero) dest)).1.addr
      rw [imageSubpage_eq] at hg
      generalize imageWith env (if w.getLsbD 0 then .one else .zero) dest { d with bus := s1 }
        (fun d => toTemperatures env.mode d (if w.getLsbD 0 then .one else .zero) dest) = q at hm hka hg
      obtain ⟨d3, dest3, _ | e | _⟩ := q
      · dsimp only at hm hka hg
        rw [hka] at hg
        have hwr := h.write_ok d3.bus 0x8000#16 (StatusReg.resetNewData ⟨w⟩).raw
        unfold regWrite at hg
        generalize env.bus.write d3.bus d.addr (toBe 0x8000#16 ++ toBe (StatusReg.resetNewData ⟨w⟩).raw) = q at hwr hg
        obtain ⟨s4, _ | e⟩ := q
        · rw [Prod.mk.injEq] at hg
          obtain ⟨rfl, _⟩ := hg
          refine pending_runs (hwr rfl) ?_
          have hz : pending (setWord (mem d3.bus) 0x8000#16 (StatusReg.resetNewData ⟨w⟩).raw) = 0 := by
            unfold pending
            rw [setWord, if_pos rfl, resetNewData_bits, if_pos rfl]
            rfl
          have hone : pending (mem d3.bus) = 1 := by
            unfold pending
            rw [if_pos hm.2]
          have := hm.1
          omega
        · simp at hg
      · simp at hg
      · simp at hg
    · rw [if_neg h3] at hg
      simp at hg

/-- **C107 (no measurement makes two images).** On a camera that may finish measurements at any time, also during calls, with any
other calls in between and any errors of the bus: there are never more images than measurements, but for one more if the new-data
flag was set to begin with. -/
theorem C107_images_at_most_measurements (env : Env σ ER EW) (d d1 : Driver F σ) (hs : Supported env d)
    (h : Counting env.bus d.addr mem count) (images : Nat) (hp : Polled env mem count d images d1) :
    images + (if (mem d1.bus 0x8000#16).getLsbD 3 = true then 1 else 0) + count d.bus ≤
      count d1.bus + (if (mem d.bus 0x8000#16).getLsbD 3 = true then 1 else 0) := by
  suffices key : (Supported env d1 ∧ d1.addr = d.addr) ∧
      pending (mem d1.bus) + (images + count d.bus) ≤ count d1.bus + pending (mem d.bus) by
    have := key.2
    unfold pending at this
    omega
  induction hp with
  | start => exact ⟨⟨hs, rfl⟩, by omega⟩
  | call op hp ih =>
    obtain ⟨⟨k1, k2⟩, k3⟩ := ih
    obtain ⟨q1, q2, _⟩ := exec_supported k1 op
    exact ⟨⟨q1, q2.trans k2⟩, exec_edit k1 op (pending_op (by rw [k2]; exact h) _ op _ _) k3⟩
  | image hp hg ih =>
    rename_i n d1 d2 dest dest'
    obtain ⟨⟨k1, k2⟩, k3⟩ := ih
    obtain ⟨q1, q2, _⟩ := exec_supported k1 (.generateImageIfReady dest)
    have hd : (Op.exec env (.generateImageIfReady dest) d1).1 = d2 := by
      show (discardImage (Driver.generateImageIfReady env dest d1)).1 = d2
      rw [hg]
      rfl
    rw [hd] at q1 q2
    have := pending_image k1 (by rw [k2]; exact h) hg _ _ k3
    exact ⟨⟨q1, q2.trans k2⟩, by omega⟩
  | later s hp hr ih =>
    obtain ⟨⟨k1, k2⟩, k3⟩ := ih
    exact ⟨⟨⟨k1.1, k1.2, k1.3⟩, k2⟩, pending_runs hr k3⟩

/-- **C107 (`synchronize` waits for a measurement).** When `synchronize` has returned `Ok`, a measurement has finished since it was
called. -/
theorem C107_synchronize_measured (env : Env σ ER EW) (d d1 : Driver F σ) (h : Counting env.bus d.addr mem count) (fuel : Nat)
    (hok : Driver.synchronize env fuel d = (d1, .ok true)) : count d.bus < count d1.bus := by
  rw [synchronize_eq] at hok
  have hr : RunsCounted (mem d.bus) (count d.bus) (mem (regRead env.bus d.bus d.addr 0x8000#16).1)
    (count (regRead env.bus d.bus d.addr 0x8000#16).1) := h.read d.bus 0x8000#16 [0#8, 0#8]
  have mono : ∀ {M M' : Word → Word} {n n' : Nat}, RunsCounted M n M' n' → n ≤ n' := by
    intro M M' n n' hr
    rcases hr.measured with ⟨h1, _⟩ | ⟨h1, _⟩ <;> omega
  generalize regRead env.bus d.bus d.addr 0x8000#16 = q at hr hok
  obtain ⟨s1, e | w⟩ := q
  · simp at hok
  · dsimp only at hok
    have hwr := h.write_ok s1 0x8000#16 (syncWord w)
    unfold regWrite at hok
    generalize env.bus.write s1 d.addr (toBe 0x8000#16 ++ toBe (syncWord w)) = q at hwr hok
    obtain ⟨s2, _ | e⟩ := q
    · dsimp only at hok
      have hwr : RunsCounted (setWord (mem s1) 0x8000#16 (syncWord w)) (count s1) (mem s2) (count s2) := hwr rfl
      have h1 := mono hr
      dsimp only at h1
      -- from then on: if the flag is set, a measurement has finished
      have hstart : (mem s2 0x8000#16).getLsbD 3 = true → count d.bus < count s2 := by
        intro hf
        rcases hwr.measured with ⟨_, _, h3⟩ | ⟨h2, _⟩
        · rw [h3, setWord, if_pos rfl, syncWord_bits, if_pos rfl] at hf
          exact nomatch hf
        · omega
      have step : ∀ fuel (d' : Driver F σ), d'.addr = d.addr → count d.bus ≤ count d'.bus → ((mem d'.bus 0x8000#16).getLsbD 3 = true → count d.bus < count d'.bus) →
          Driver.pollStatus env fuel d' = (d1, .ok true) → count d.bus < count d1.bus := by
        intro fuel
        induction fuel with
        | zero => intro d' _ _ _ hc; unfold Driver.pollStatus at hc; exact nomatch (Prod.mk.inj hc).2
        | succ n ih =>
          intro d' ha hle hi hc
          unfold Driver.pollStatus at hc
          rw [dm_bind, statusRegister_eq] at hc
          have h' : Counting env.bus d'.addr mem count := by rw [ha]; exact h
          obtain ⟨_, hv⟩ := free_regRead (counting_flagged h') d'.bus 0x8000#16
          have hr' : RunsCounted (mem d'.bus) (count d'.bus) (mem (regRead env.bus d'.bus d'.addr 0x8000#16).1)
            (count (regRead env.bus d'.bus d'.addr 0x8000#16).1) := h'.read d'.bus 0x8000#16 [0#8, 0#8]
          generalize regRead env.bus d'.bus d'.addr 0x8000#16 = q at hv hr' hc
          obtain ⟨s3, e | w3⟩ := q
          · simp at hc
          · have hw3 := hv w3 rfl
            simp only [status_newData] at hc
            have hmono := mono hr'
            dsimp only at hmono
            by_cases h3 : w3.getLsbD 3 = true
            · rw [if_pos h3] at hc
              have := hi (by rw [← hw3]; exact h3)
              cases hc
              show count d.bus < count s3
              omega
            · rw [if_neg h3] at hc
              refine ih { d' with bus := s3 } ha (hle.trans hmono) ?_ hc
              intro hf
              rcases hr'.measured with ⟨_, _, h5⟩ | ⟨h5, _⟩
              · rw [h5, ← hw3] at hf
                exact absurd hf h3
              · show count d.bus < count s3
                dsimp only at h5
                omega
      exact step fuel { d with bus := s2 } rfl (h1.trans (mono hwr)) hstart hok
    · simp at hok

/-- **C107 (no measurement is missed).** A measurement whose flag is set is not missed by the next poll: whatever calls come in between,
unless they write the status register, `generate_image_if_ready` does not return `Ok(false)`. -/
theorem C107_not_missed (env : Env σ ER EW) (d d1 d2 : Driver F σ) (hs : Supported env d)
    (h : FreeRunning RunsFlagged env.bus d.addr mem) (hf : (mem d.bus 0x8000#16).getLsbD 3 = true)
    (calls : List (Op F × Res (Err ER EW) Unit)) (hu : InUse RunsFlagged env mem d calls d1) (hn : ∀ c ∈ calls, ¬ WritesStatus c.1)
    (dest dest' : List F) (ready : Bool) (hg : Driver.generateImageIfReady env dest d1 = (d2, dest', .ok ready)) : ready = true := by
  obtain ⟨⟨_, ha, _⟩, hP⟩ := inUse_flagStable hs h hu hn
  have hf1 := hP _ flag_stable hf
  rw [ifReady_eq] at hg
  obtain ⟨_, hv⟩ := free_regRead (by rw [ha]; exact h : FreeRunning RunsFlagged env.bus d1.addr mem) d1.bus 0x8000#16
  generalize regRead env.bus d1.bus d1.addr 0x8000#16 = q at hv hg
  obtain ⟨s1, e | w⟩ := q
  · simp at hg
  · have hw : w = mem d1.bus 0x8000#16 := hv w rfl
    dsimp only at hg
    rw [if_pos (by rw [hw]; exact hf1)] at hg
    generalize Driver.generateImageSubpageTo env (if w.getLsbD 0 then .one else .zero) dest { d1 with bus := s1 } = q at hg
    obtain ⟨d3, dest3, _ | e | _⟩ := q
    · dsimp only at hg
      generalize regWrite env.bus d3.bus d3.addr 0x8000#16 (StatusReg.resetNewData ⟨w⟩).raw = q at hg
      obtain ⟨s4, _ | e⟩ := q
      · simp at hg
        exact hg.2.2
      · simp at hg
    · simp at hg
    · simp at hg

theorem counted_counting (addr : Byte) : Counting countedBus addr (fun c => c.1.now.mem) (fun c => c.2) := by
  have hr := scheduled_flagged addr
  have tick : ∀ (c : ScheduledCamera) (n : Nat) (now : SimpleCamera),
      RunsCounted now.mem n (c.tick now).now.mem (n + if (c.schedule 0).isSome then 1 else 0) := by
    intro c n now
    unfold ScheduledCamera.tick
    cases c.schedule 0 with
    | none => exact ⟨fun _ _ => rfl, Or.inl ⟨rfl, fun _ _ _ => rfl, rfl⟩⟩
    | some next =>
      refine ⟨(measurement_flagged now.mem next).fixed, Or.inr ⟨Nat.lt_succ_self n, ?_⟩⟩
      rcases (measurement_flagged now.mem next).flag with hc | hc
      all_goals
        show (measurement now.mem next 0x8000#16).getLsbD 3 = true
        unfold measurement
        rw [if_pos rfl]
        simp
  constructor
  · intro s base buf hok
    exact hr.read_data s.1 base buf hok
  · intro s base buf
    have ht := tick s.1 s.2 (simpleBus.writeRead s.1.now addr (toBe base) buf).1
    rw [(simple_static addr).2 s.1.now base buf] at ht
    exact ht
  · intro s reg v hok
    have hok : (simpleBus.write s.1.now addr (toBe reg ++ toBe v)).2 = none := hok
    have ht := tick s.1 s.2 (simpleBus.write s.1.now addr (toBe reg ++ toBe v)).1
    rw [(simple_static addr).3 s.1.now reg v hok] at ht
    exact ht
  · intro s reg v hok
    have hok : (simpleBus.write s.1.now addr (toBe reg ++ toBe v)).2 ≠ none := hok
    have ht := tick s.1 s.2 (simpleBus.write s.1.now addr (toBe reg ++ toBe v)).1
    rw [(simple_static addr).4 s.1.now reg v hok] at ht
    exact Or.inl ht

/-- A driver for a camera that has a new frame, and finishes measurements with the transactions 10 and 20 from now. -/
def countedDriver : Driver Int (ScheduledCamera × Nat) :=
  toyDriver Mlx90640.cam 768 (⟨⟨0x33#8, holdFrame false 20#16⟩,
    fun k => if k = 10 ∨ k = 20 then some (holdFrame false (BitVec.ofNat 16 k)) else none⟩, 0)

/-- The hypotheses of `C107_images_at_most_measurements` and `C107_synchronize_measured` are met, and the bound is reached: an image of
the frame that was there, an image of each of the two measurements, and then no more. -/
example : ∃ d1 : Driver Int (ScheduledCamera × Nat),
    let env : Env (ScheduledCamera × Nat) Unit Unit := ⟨.checked, 24, countedBus⟩
    let mem : ScheduledCamera × Nat → Word → Word := fun c => c.1.now.mem
    Supported env countedDriver ∧ Counting env.bus countedDriver.addr mem (fun c => c.2) ∧
    Polled env mem (fun c => c.2) countedDriver 3 d1 ∧ d1.bus.2 = 2 ∧
    (Driver.generateImageIfReady env (List.replicate 768 0) d1).2.2 = .ok false ∧
    (Driver.synchronize env 20 countedDriver).2 = .ok true := by
  let env : Env (ScheduledCamera × Nat) Unit Unit := ⟨.checked, 24, countedBus⟩
  let dest : List Int := List.replicate 768 0
  let r1 := Driver.generateImageIfReady env dest countedDriver
  let d2 := (Op.exec env .dataAvailable (Op.exec env .dataAvailable (Op.exec env .dataAvailable r1.1).1).1).1
  let r3 := Driver.generateImageIfReady env dest d2
  let d4 := (Op.exec env .dataAvailable (Op.exec env .dataAvailable (Op.exec env .dataAvailable r3.1).1).1).1
  let r5 := Driver.generateImageIfReady env dest d4
  have e1 : r1.2.2 = .ok true := by decide +kernel
  have e3 : r3.2.2 = .ok true := by decide +kernel
  have e5 : r5.2.2 = .ok true := by decide +kernel
  refine ⟨r5.1, ⟨Or.inl rfl, rfl, List.length_replicate⟩, counted_counting _, ?_, by decide +kernel, by decide +kernel, by decide +kernel⟩
  have p1 : Polled env (fun c => c.1.now.mem) (fun c => c.2) countedDriver 1 r1.1 :=
    Polled.image (dest := dest) (dest' := r1.2.1) Polled.start (by show r1 = _; rw [← e1])
  have p3 : Polled env (fun c => c.1.now.mem) (fun c => c.2) countedDriver 2 r3.1 :=
    Polled.image (dest := dest) (dest' := r3.2.1)
      (Polled.call .dataAvailable (Polled.call .dataAvailable (Polled.call .dataAvailable p1))) (by show r3 = _; rw [← e3])
  exact Polled.image (dest := dest) (dest' := r5.2.1)
      (Polled.call .dataAvailable (Polled.call .dataAvailable (Polled.call .dataAvailable p3))) (by show r5 = _; rw [← e5])

/-- The hypotheses of `C107_not_missed` are met: a new frame, another setting, and then the image. -/
example : ∃ d1 : Driver Int ScheduledCamera,
    let env : Env ScheduledCamera Unit Unit := ⟨.checked, 24, scheduledBus⟩
    let mem : ScheduledCamera → Word → Word := fun c => c.now.mem
    Supported env (dueDriver 3) ∧ FreeRunning RunsFlagged env.bus (dueDriver 3).addr mem ∧
    (mem (dueDriver 3).bus 0x8000#16).getLsbD 3 = true ∧
    InUse RunsFlagged env mem (dueDriver 3) [(.setFrameRate .four, .ok ())] d1 ∧
    (Driver.generateImageIfReady env (List.replicate 768 0) d1).2.2 = .ok true := by
  let env : Env ScheduledCamera Unit Unit := ⟨.checked, 24, scheduledBus⟩
  have e1 : (Op.exec env (.setFrameRate .four) (dueDriver 3)).2 = .ok () := by decide +kernel
  refine ⟨(Op.exec env (.setFrameRate .four) (dueDriver 3)).1, ⟨Or.inl rfl, rfl, List.length_replicate⟩, scheduled_flagged _,
    by decide +kernel, ?_, by decide +kernel⟩
  have h1 := InUse.call (.setFrameRate .four) (InUse.start (runs := RunsFlagged) (env := env)
    (mem := fun c : ScheduledCamera => c.now.mem) (d := dueDriver 3))
  rw [e1] at h1
  exact h1

end Mlx.Props
