import Verif.Props.Hold
/-
C106: images checked with the new-data flag.
-/
set_option linter.unusedSectionVars false
set_option autoImplicit false
namespace Mlx.Props
open Mlx Mlx.Spec Mlx.Proofs F32Ops
variable {F σ ER EW : Type} [F32Ops F] {mem : σ → Word → Word}

/-- A property of memories that running with flags preserves, and writes to the control register. -/
structure FlagStable (P : (Word → Word) → Prop) : Prop where
  runs : ∀ M M', RunsFlagged M M' → P M → P M'
  write : ∀ M w, P M → P (setWord M 0x800D#16 w)

theorem flagStable_op {b : Bus σ ER EW} {addr : Byte} (h : FreeRunning RunsFlagged b addr mem) (cam : Cam)
    {P : (Word → Word) → Prop} (hP : FlagStable P) {op : Op F} (ht : ¬ WritesStatus op) :
    SurvivesOp b cam addr op (fun s => P (mem s)) (fun _ _ _ => True) where
  read s base buf _ hi := hP.runs _ _ (h.read s base buf) hi
  keeps _ _ _ _ _ _ _ := trivial
  knows _ _ _ _ _ _ := trivial
  write s reg w w' _ _ hg hi := by
    have hreg := edit_control ht hg
    subst hreg
    rcases free_write h s 0x800D#16 w' with hr | hr
    · exact hP.runs _ _ hr hi
    · exact hP.runs _ _ hr (hP.write _ _ hi)

theorem inUse_flagStable {env : Env σ ER EW} {d : Driver F σ} (hs : Supported env d) (h : FreeRunning RunsFlagged env.bus d.addr mem)
    {calls : List (Op F × Res (Err ER EW) Unit)} {d1 : Driver F σ} (hu : InUse RunsFlagged env mem d calls d1)
    (hn : ∀ c ∈ calls, ¬ WritesStatus c.1) :
    (Supported env d1 ∧ d1.addr = d.addr ∧ d1.calib = d.calib) ∧
      ∀ P : (Word → Word) → Prop, FlagStable P → P (mem d.bus) → P (mem d1.bus) := by
  induction hu with
  | start => exact ⟨⟨hs, rfl, rfl⟩, fun _ _ hp => hp⟩
  | call op hu ih =>
    obtain ⟨⟨k1, k2, k3⟩, k4⟩ := ih fun c hc => hn c (List.mem_append_left _ hc)
    obtain ⟨q1, q2, q3⟩ := exec_supported k1 op
    refine ⟨⟨q1, q2.trans k2, q3.trans k3⟩, fun P hP hp => ?_⟩
    exact exec_edit k1 op (flagStable_op (by rw [k2]; exact h) _ hP (hn _ (List.mem_append_right _ (List.mem_singleton.2 rfl))))
      (k4 P hP hp)
  | later s hu hr ih =>
    obtain ⟨⟨k1, k2, k3⟩, k4⟩ := ih hn
    exact ⟨⟨⟨k1.1, k1.2, k1.3⟩, k2, k3⟩, fun P hP hp => hP.runs _ _ hr (k4 P hP hp)⟩

theorem flag_stable : FlagStable fun M => (M 0x8000#16).getLsbD 3 = true where
  runs M M' hr hi := by
    rcases hr.flag with h | h
    · rw [h.2]; exact hi
    · exact h
  write M w hi := by rw [setWord, if_neg (by decide)]; exact hi

/-- As long as the flag is not set, RAM is as it was. -/
theorem ram_stable (M0 : Word → Word) :
    FlagStable fun M => (M 0x8000#16).getLsbD 3 = true ∨ ∀ a : Word, a.toNat < 0x0800 → M a = M0 a where
  runs M M' hr hi := by
    rcases hi with hi | hi
    · exact Or.inl (flag_stable.runs M M' hr hi)
    · rcases hr.flag with h | h
      · refine Or.inr fun a ha => ?_
        by_cases h4 : 0x0400 ≤ a.toNat
        · rw [h.1 a h4 ha, hi a ha]
        · rw [hr.fixed a, hi a ha]
          rintro (hc | hc)
          · exact h4 hc.1
          · rw [hc] at ha; revert ha; decide
      · exact Or.inl h
  write M w hi := by
    rcases hi with hi | hi
    · exact Or.inl (flag_stable.write M w hi)
    · refine Or.inr fun a ha => ?_
      rw [setWord, if_neg (by rintro rfl; revert ha; decide)]
      exact hi a ha

theorem flagged_heard {b : Bus σ ER EW} {addr : Byte} (h : FreeRunning RunsFlagged b addr mem) (cam : Cam) (M : Word → Word) :
    SurvivesReads (recorded b) cam addr fun s => (mem s.1 0x8000#16).getLsbD 3 = true ∨
      ((∀ a : Word, a.toNat < 0x0800 → mem s.1 a = M a) ∧ ∀ a w, a.toNat < 0x0800 → lastWord addr a s.2 = some w → M a = w) := by
  intro s base buf _ hi
  have hr := h.read s.1 base buf
  rcases hi with hi | ⟨hi, hl⟩
  · exact Or.inl (flag_stable.runs _ _ hr hi)
  · rcases (ram_stable M).runs _ _ hr (Or.inr hi) with hf | hf
    · exact Or.inl hf
    · exact Or.inr ⟨hf, read_heard h.read_data s base buf M hi hl⟩

/-- When `data_available` finds nothing, the flag was not set. -/
theorem dataAvailable_none {env : Env σ ER EW} {d : Driver F σ} (h : FreeRunning RunsFlagged env.bus d.addr mem)
    (hd : (Driver.dataAvailable env d).2 = .ok none) : (mem d.bus 0x8000#16).getLsbD 3 = false := by
  unfold Driver.dataAvailable at hd
  rw [dm_bind, statusRegister_eq] at hd
  obtain ⟨_, hv⟩ := free_regRead h d.bus 0x8000#16
  generalize regRead env.bus d.bus d.addr 0x8000#16 = q at hv hd
  obtain ⟨s1, e | w⟩ := q
  · exact nomatch hd
  · have hw := hv w rfl
    simp only [status_newData] at hd
    rw [← hw]
    cases h3 : w.getLsbD 3 with
    | false => rfl
    | true =>
      rw [h3, if_pos rfl, dm_bind] at hd
      simp only [DM.lift, status_subpage] at hd
      exact nomatch hd

/-- **C106 (checked images).** On a camera that may measure at any time but sets the new-data flag when it does: if after an image
`data_available` says that there is nothing new, and no call before or after the image (from the first moment on to that check) wrote
the status register, then the RAM never changed in that time, and the image is what the same driver makes of a camera that does nothing
but hold this RAM (and the status register of the moment of the call). -/
theorem C106_checked_images (env : Env σ ER EW) (d0 d d' d2 : Driver F σ) (hs : Supported env d0)
    (hk : Complete d0.calib d0.calib.cam.numPixels) (h : FreeRunning RunsFlagged env.bus d0.addr mem)
    (before after : List (Op F × Res (Err ER EW) Unit)) (hu : InUse RunsFlagged env mem d0 before d)
    (hn : ∀ c ∈ before, ¬ WritesStatus c.1) (hu2 : InUse RunsFlagged env mem d' after d2) (hn2 : ∀ c ∈ after, ¬ WritesStatus c.1)
    (hcheck : (Driver.dataAvailable env d2).2 = .ok none) (dest dest' : List F) :
    let still : Env (Word → Word) Unit Unit := ⟨env.mode, env.height, cameraBus d.addr⟩
    let frame : Word → Word := setWord (mem d0.bus) 0x8000#16 (mem d.bus 0x8000#16)
    (∀ sp, Driver.generateRawImageSubpageTo env sp dest d = (d', dest', .ok ()) →
      SameRam (mem d0.bus) (mem d2.bus) ∧
      ∃ e', Driver.generateRawImageSubpageTo still sp dest (Driver.onStill d frame) = (e', dest', .ok ()) ∧
        e'.ambientTemp = d'.ambientTemp) ∧
    (∀ sp, Driver.generateImageSubpageTo env sp dest d = (d', dest', .ok ()) →
      SameRam (mem d0.bus) (mem d2.bus) ∧
      ∃ e', Driver.generateImageSubpageTo still sp dest (Driver.onStill d frame) = (e', dest', .ok ()) ∧
        e'.ambientTemp = d'.ambientTemp) ∧
    (Driver.generateImageTo env dest d = (d', dest', .ok ()) →
      SameRam (mem d0.bus) (mem d2.bus) ∧
      ∃ e', Driver.generateImageTo still dest (Driver.onStill d frame) = (e', dest', .ok ()) ∧
        e'.ambientTemp = d'.ambientTemp) := by
  intro still frame
  obtain ⟨⟨hs1, ha1, hc1⟩, hP⟩ := inUse_flagStable hs h hu hn
  have h1 : FreeRunning RunsFlagged env.bus d.addr mem := by rw [ha1]; exact h
  have hk1 : Complete d.calib d.calib.cam.numPixels := by rw [hc1]; exact hk
  have hst : frame 0x8000#16 = mem d.bus 0x8000#16 := by
    show setWord _ _ _ _ = _
    rw [setWord, if_pos rfl]
  -- what is known of the moment after the image
  have hend : ∀ op : Op F, ¬ WritesStatus op → (op.exec env d).1 = d' →
      SameRam (mem d0.bus) (mem d2.bus) ∧ (mem d.bus 0x8000#16).getLsbD 3 = false ∧ (mem d'.bus 0x8000#16).getLsbD 3 = false := by
    intro op hop hop'
    obtain ⟨q1, q2, q3⟩ := exec_supported hs1 op
    rw [hop'] at q1 q2
    have h2 : FreeRunning RunsFlagged env.bus d'.addr mem := by rw [q2]; exact h1
    obtain ⟨⟨hs2, ha2, _⟩, hP2⟩ := inUse_flagStable q1 h2 hu2 hn2
    have hflag := dataAvailable_none (by rw [ha2]; exact h2) hcheck
    have hf' : (mem d'.bus 0x8000#16).getLsbD 3 = false := by
      by_contra hc
      rw [hP2 _ flag_stable (by simpa using hc)] at hflag
      exact nomatch hflag
    have step : ∀ P : (Word → Word) → Prop, FlagStable P → P (mem d.bus) → P (mem d'.bus) := by
      intro P hPs hp
      rw [← hop']
      exact exec_edit hs1 op (flagStable_op h1 _ hPs hop) hp
    refine ⟨?_, ?_, hf'⟩
    · rcases hP2 _ (ram_stable (mem d0.bus)) (step _ (ram_stable (mem d0.bus)) (hP _ (ram_stable (mem d0.bus)) (Or.inr fun _ _ => rfl)))
        with hx | hx
      · rw [hflag] at hx; exact nomatch hx
      · exact fun a _ ha => hx a ha
    · by_contra hc
      rw [step _ flag_stable (by simpa using hc)] at hf'
      exact nomatch hf'
  have hM : (mem d.bus 0x8000#16).getLsbD 3 = false → ∀ a : Word, a.toNat < 0x0800 → mem d.bus a = frame a := by
    intro hf a ha
    show _ = setWord _ _ _ a
    rw [setWord, if_neg (by rintro rfl; revert ha; decide)]
    rcases hP _ (ram_stable (mem d0.bus)) (Or.inr fun _ _ => rfl) with hx | hx
    · rw [hf] at hx; exact nomatch hx
    · exact hx a ha
  have key : ∀ (s1 : σ), (mem d'.bus 0x8000#16).getLsbD 3 = false →
      ((mem s1 0x8000#16).getLsbD 3 = true ∨ ∀ a : Word, a.toNat < 0x0800 → mem s1 a = frame a) → ∀ sp,
      (Driver.generateRawImageSubpageTo env sp dest { d with bus := s1 } = (d', dest', .ok ()) →
        ∃ e', Driver.generateRawImageSubpageTo still sp dest (Driver.onStill d frame) = (e', dest', .ok ()) ∧
          e'.ambientTemp = d'.ambientTemp) ∧
      (Driver.generateImageSubpageTo env sp dest { d with bus := s1 } = (d', dest', .ok ()) →
        ∃ e', Driver.generateImageSubpageTo still sp dest (Driver.onStill d frame) = (e', dest', .ok ()) ∧
          e'.ambientTemp = d'.ambientTemp) := by
    intro s1 hf' hs1' sp
    refine heard_still (d := { d with bus := s1 }) ⟨hs1.1, hs1.2, hs1.3⟩ hk1 frame (flagged_heard h1 d.calib.cam frame) ?_ ?_ sp dest dest'
    · rcases hs1' with hx | hx
      · exact Or.inl hx
      · exact Or.inr ⟨hx, fun a w _ hc => nomatch hc⟩
    · intro log hi
      rcases hi with hi | hi
      · rw [hf'] at hi; exact nomatch hi
      · exact hi.2
  refine ⟨fun sp hg => ?_, fun sp hg => ?_, fun hg => ?_⟩
  · obtain ⟨r1, r2, r3⟩ := hend (.generateRawImageSubpageTo sp dest) (fun hc => hc)
      (by show (discardImage (Driver.generateRawImageSubpageTo env sp dest d)).1 = d'; rw [hg]; rfl)
    exact ⟨r1, (key d.bus r3 (Or.inr (hM r2)) sp).1 hg⟩
  · obtain ⟨r1, r2, r3⟩ := hend (.generateImageSubpageTo sp dest) (fun hc => hc)
      (by show (discardImage (Driver.generateImageSubpageTo env sp dest d)).1 = d'; rw [hg]; rfl)
    exact ⟨r1, (key d.bus r3 (Or.inr (hM r2)) sp).2 hg⟩
  · obtain ⟨r1, r2, r3⟩ := hend (.generateImageTo dest) (fun hc => hc)
      (by show (discardImage (Driver.generateImageTo env dest d)).1 = d'; rw [hg]; rfl)
    refine ⟨r1, ?_⟩
    rw [generateImageTo_eq] at hg
    obtain ⟨hr, hv⟩ := free_regRead h1 d.bus 0x8000#16
    generalize regRead env.bus d.bus d.addr 0x8000#16 = q at hr hv hg
    obtain ⟨s1, e | w⟩ := q
    · simp at hg
    · have hw : w = mem d.bus 0x8000#16 := hv w rfl
      have hsm := (ram_stable frame).runs _ _ hr (Or.inr (hM r2))
      obtain ⟨e', k1, k2⟩ := (key s1 r3 hsm (statusSubpage w)).2 hg
      refine ⟨e', ?_, k2⟩
      have := still_imageTo (m := env.mode) (n := env.height) (e := Driver.onStill d frame) dest
      rw [show still = ⟨env.mode, env.height, cameraBus (Driver.onStill d frame).addr⟩ from rfl, this,
        show (Driver.onStill d frame).bus 0x8000#16 = frame 0x8000#16 from rfl, hst, ← hw]
      exact k1

theorem measurement_flagged (M next : Word → Word) : RunsFlagged M (measurement M next) where
  fixed := (measurement_runs M next).fixed
  flag := by
    refine Or.inr ?_
    unfold measurement
    rw [if_pos rfl]
    simp

theorem scheduled_flagged (addr : Byte) : FreeRunning RunsFlagged scheduledBus addr fun c => c.now.mem :=
  scheduled_runs (fun _ => ⟨fun _ _ => rfl, Or.inl ⟨fun _ _ _ => rfl, rfl⟩⟩) measurement_flagged addr

/-- A driver for a camera that finishes a measurement with the transaction `n` from now. -/
def dueDriver (n : Nat) : Driver Int ScheduledCamera :=
  toyDriver Mlx90640.cam 768 ⟨⟨0x33#8, holdFrame false 20#16⟩, fun k => if k = n then some (holdFrame false 30#16) else none⟩

/-- The hypotheses of `C106_checked_images` are met: the flag is cleared, a setting is changed, an image is made, another setting is
changed, and `data_available` finds nothing; the next measurement comes after all this. -/
example : ∃ d0 d1 d' d2 dest',
    let env : Env ScheduledCamera Unit Unit := ⟨.checked, 24, scheduledBus⟩
    let mem : ScheduledCamera → Word → Word := fun c => c.now.mem
    d0 = (Op.exec env .resetDataAvailable (dueDriver 60)).1 ∧ Supported env d0 ∧ Complete d0.calib d0.calib.cam.numPixels ∧
    FreeRunning RunsFlagged env.bus d0.addr mem ∧ InUse RunsFlagged env mem d0 [(.setFrameRate .four, .ok ())] d1 ∧
    Driver.generateImageSubpageTo env .zero (List.replicate 768 0) d1 = (d', dest', .ok ()) ∧
    InUse RunsFlagged env mem d' [(.setFrameRate .eight, .ok ())] d2 ∧ (Driver.dataAvailable env d2).2 = .ok none := by
  let env : Env ScheduledCamera Unit Unit := ⟨.checked, 24, scheduledBus⟩
  let d0 := (Op.exec env .resetDataAvailable (dueDriver 60)).1
  let d1 := (Op.exec env (.setFrameRate .four) d0).1
  let r := Driver.generateImageSubpageTo env .zero (List.replicate 768 0) d1
  let d2 := (Op.exec env (.setFrameRate .eight) r.1).1
  have e1 : (Op.exec env (.setFrameRate .four) d0).2 = .ok () := by decide +kernel
  have e2 : r.2.2 = .ok () := by decide +kernel
  have e3 : (Op.exec env (.setFrameRate .eight) r.1).2 = .ok () := by decide +kernel
  refine ⟨d0, d1, r.1, d2, r.2.1, rfl, ?_, toyCalib_complete _ _ _ (by decide), scheduled_flagged _, ?_, ?_, ?_, ?_⟩
  · exact (exec_supported (⟨Or.inl rfl, rfl, List.length_replicate⟩ : Supported env (dueDriver 60)) .resetDataAvailable).1
  · have h1 := InUse.call (.setFrameRate .four) (InUse.start (runs := RunsFlagged) (env := env)
      (mem := fun c : ScheduledCamera => c.now.mem) (d := d0))
    rw [e1] at h1
    exact h1
  · show r = (r.1, r.2.1, .ok ())
    rw [← e2]
  · have h1 := InUse.call (.setFrameRate .eight) (InUse.start (runs := RunsFlagged) (env := env)
      (mem := fun c : ScheduledCamera => c.now.mem) (d := r.1))
    rw [e3] at h1
    exact h1
  · decide +kernel

/-- **C106 (a torn image is found out).** A measurement that ends during the image: `data_available` finds it afterwards. -/
theorem C106_torn_image_found :
    ∃ (d0 : Driver Int ScheduledCamera) (dest : List Int) (M₁ M₂ : Word → Word) (n : Nat),
      let env : Env ScheduledCamera Unit Unit := ⟨.checked, 24, scheduledBus⟩
      let image := Driver.generateImageSubpageTo env .zero dest d0
      SameRam M₁ d0.bus.now.mem ∧ d0.bus.schedule n = some M₂ ∧ (∀ k, k ≠ n → d0.bus.schedule k = none) ∧
      (Driver.dataAvailable env d0).2 = .ok none ∧
      image.2.2 = .ok () ∧ image.2.1 ≠ quietImage M₁ dest ∧ image.2.1 ≠ quietImage M₂ dest ∧
      (Driver.dataAvailable env image.1).2 = .ok (some .zero) := by
  refine ⟨(Op.exec (⟨.checked, 24, scheduledBus⟩ : Env ScheduledCamera Unit Unit) .resetDataAvailable (dueDriver 5)).1,
    List.replicate 768 0, holdFrame false 20#16, holdFrame false 30#16, 3, ?_, ?_, ?_, by decide +kernel, by decide +kernel,
    by decide +kernel, by decide +kernel, by decide +kernel⟩
  · have hx : (Op.exec (⟨.checked, 24, scheduledBus⟩ : Env ScheduledCamera Unit Unit) .resetDataAvailable (dueDriver 5)).1.bus.now.mem =
        setWord (holdFrame false 20#16) 0x8000#16 0#16 := rfl
    rw [hx]
    intro a h1 h2
    rw [setWord, if_neg (by rintro rfl; revert h2; decide)]
  · rfl
  · intro k hk
    show (if k + 1 + 1 = 5 then _ else none) = _
    rw [if_neg (by omega)]

/-- **C106 (the flag can be lost).** Calls that write the status register have to be excluded: if a measurement ends while
`set_overwrite_enabled` is between its read and its write, its flag is lost. Before and after the call `data_available` finds nothing,
but the RAM is another. -/
theorem C106_flag_lost :
    ∃ d0 : Driver Int ScheduledCamera,
      let env : Env ScheduledCamera Unit Unit := ⟨.checked, 24, scheduledBus⟩
      let d1 := (Driver.dataAvailable env d0).1
      let d2 := (Op.exec env (.setOverwriteEnabled true) d1).1
      (Driver.dataAvailable env d0).2 = .ok none ∧ (Op.exec env (.setOverwriteEnabled true) d1).2 = .ok () ∧
      (Driver.dataAvailable env d2).2 = .ok none ∧ ¬ SameRam d0.bus.now.mem d2.bus.now.mem := by
  refine ⟨(Op.exec (⟨.checked, 24, scheduledBus⟩ : Env ScheduledCamera Unit Unit) .resetDataAvailable (dueDriver 3)).1,
    by decide +kernel, by decide +kernel, by decide +kernel, fun hc => ?_⟩
  have := hc 0x0400#16 (by decide) (by decide)
  revert this
  decide +kernel

end Mlx.Props
