import Verif.Proofs.Image
import Verif.Spec.History
/-
The image methods on any bus with a recorder attached: C43 to C46.
-/
set_option linter.unusedSectionVars false
set_option autoImplicit false
namespace Mlx.Props
open Mlx Mlx.Spec Mlx.Proofs F32Ops
variable {F σ ER EW : Type} [F32Ops F]

/-- `generate_image_if_ready` by cases. -/
theorem ifReady_cases (env : Env σ ER EW) (d : Driver F (σ × List (Txn ER EW))) (dest : List F)
    (h : Supported (recordedEnv env) d) (out : Driver.ImageResult F (σ × List (Txn ER EW)) ER EW Bool)
    (hout : Driver.generateImageIfReady (recordedEnv env) dest d = out) :
    (∃ e, out.1.bus.2 = d.bus.2 ++ [.readReg d.addr 0x8000#16 (.error e)] ∧ out.2.1 = dest ∧
        out.2.2 = .err (.i2cWriteRead e) ∧ out.1 = { d with bus := out.1.bus }) ∨
    (∃ w, w.getLsbD 3 = false ∧ out.1.bus.2 = d.bus.2 ++ [.readReg d.addr 0x8000#16 (.ok w)] ∧
        out.2.1 = dest ∧ out.2.2 = .ok false ∧ out.1 = { d with bus := out.1.bus }) ∨
    (∃ w ts e, w.getLsbD 3 = true ∧ out.1.bus.2 = d.bus.2 ++ (.readReg d.addr 0x8000#16 (.ok w) :: ts) ∧
        FailsAtEnd ts (.i2cWriteRead e) ∧ (∀ t ∈ ts, RamRead d.addr t) ∧ out.2.1 = dest ∧
        out.2.2 = .err (.i2cWriteRead e) ∧
        out.1 = { d with bus := out.1.bus, pixelBuf := out.1.pixelBuf }) ∨
    (∃ w ts, w.getLsbD 3 = true ∧ out.1.bus.2 = d.bus.2 ++ (.readReg d.addr 0x8000#16 (.ok w) :: ts) ∧
        (∀ t ∈ ts, t.succeeded = true) ∧ (∀ t ∈ ts, RamRead d.addr t) ∧ out.2.1 = dest ∧
        out.2.2 = .panic ∧ out.1 = { d with bus := out.1.bus, pixelBuf := out.1.pixelBuf }) ∨
    (∃ w w' ts we, w.getLsbD 3 = true ∧
        out.1.bus.2 = d.bus.2 ++ (.readReg d.addr 0x8000#16 (.ok w) :: ts ++
          [.writeReg d.addr 0x8000#16 w' we]) ∧
        (∀ t ∈ ts, t.succeeded = true) ∧ (∀ t ∈ ts, RamRead d.addr t) ∧
        (∀ i, w'.getLsbD i = if i = 3 then false else w.getLsbD i) ∧
        Converted env d dest w ts out.1 out.2.1 ∧
        out.2.2 = match we with | none => .ok true | some e => .err (.i2cWrite e)) := by
  have hb : (recordedEnv env).bus = recorded env.bus := rfl
  rw [ifReady_eq, hb, regRead_recorded] at hout
  generalize regRead env.bus d.bus.1 d.addr 0x8000#16 = q at hout
  obtain ⟨s1, e | w⟩ := q
  · subst hout
    exact Or.inl ⟨e, rfl, rfl, rfl, rfl⟩
  · simp only at hout
    refine Or.inr ?_
    by_cases h3 : w.getLsbD 3 = true
    · rw [if_pos h3] at hout
      refine Or.inr ?_
      have hsup : Supported (recordedEnv env)
          { d with bus := (s1, d.bus.2 ++ [Txn.readReg d.addr 0x8000#16 (.ok w)]) } := ⟨h.1, h.2, h.3⟩
      obtain ⟨rs, ts, s', px, hrs, hnw, hcase⟩ := imageWith_cases env
        { d with bus := (s1, d.bus.2 ++ [Txn.readReg d.addr 0x8000#16 (.ok w)]) } (statusSubpage w) dest hsup
        (fun d => toTemperatures env.mode d (statusSubpage w) dest)
        (fun d px ram e => toTemperatures_no_err _ _ _ _ _ _ _) (fun _ _ _ _ => rfl)
      have himg := imageSubpage_eq (recordedEnv env) (statusSubpage w) dest
        { d with bus := (s1, d.bus.2 ++ [Txn.readReg d.addr 0x8000#16 (.ok w)]) }
      rcases hcase with ⟨e, h4, h5⟩ | ⟨ram, h4, h5, ⟨tA, dest', h6, h7⟩ | ⟨h6, h7⟩⟩
      · refine Or.inl ?_
        have hg := himg.trans h5
        unfold statusSubpage at hg
        rw [hg] at hout
        subst hout
        obtain ⟨h8, e', rfl⟩ := h4.fails
        exact ⟨w, ts, e', h3, by simp, h8, hnw, rfl, rfl, rfl⟩
      · refine Or.inr (Or.inr ?_)
        have hg := himg.trans h7
        unfold statusSubpage at hg
        rw [hg] at hout
        simp only [regWrite_recorded] at hout
        subst hout
        refine ⟨w, (StatusReg.resetNewData ⟨w⟩).raw, ts, _, h3, by simp only [List.append_assoc]; rfl,
          h4.all_ok, hnw, fun i => resetNewData_bits ⟨w⟩ i, ⟨rs, px, ram, tA, hrs, h5, h6, rfl, rfl⟩, rfl⟩
      · refine Or.inr (Or.inl ?_)
        have hg := himg.trans h7
        unfold statusSubpage at hg
        rw [hg] at hout
        subst hout
        exact ⟨w, ts, h3, by simp, h4.all_ok, hnw, rfl, rfl, rfl⟩
    · rw [if_neg h3] at hout
      subst hout
      exact Or.inl ⟨w, by simpa using h3, rfl, rfl, rfl, rfl⟩

/-- **C43.** `generate_image_if_ready` reads the status register first. If bit 3 of the word received is clear
that is the only transaction, the result is `Ok(false)`, and the destination and every driver setting keep their
values. `Ok(false)` is returned in no other case. -/
theorem C43_not_ready_no_effect (env : Env σ ER EW) (d : Driver F (σ × List (Txn ER EW))) (dest : List F)
    (h : Supported (recordedEnv env) d) :
    ∃ (res : Except ER Word) (rest : List (Txn ER EW)) (d' : Driver F (σ × List (Txn ER EW))) (dest' : List F)
      (r : Res (Err ER EW) Bool),
      Driver.generateImageIfReady (recordedEnv env) dest d = (d', dest', r) ∧
      d'.bus.2 = d.bus.2 ++ .readReg d.addr 0x8000#16 res :: rest ∧
      (∀ w, res = .ok w → w.getLsbD 3 = false →
        rest = [] ∧ r = .ok false ∧ dest' = dest ∧ d' = { d with bus := d'.bus }) ∧
      (r = .ok false → ∃ w, res = .ok w ∧ w.getLsbD 3 = false) := by
  have hc := ifReady_cases env d dest h _ rfl
  generalize Driver.generateImageIfReady (recordedEnv env) dest d = out at hc ⊢
  obtain ⟨d', dest', r⟩ := out
  simp only at hc
  obtain ⟨e, h1, h2, h3, h4⟩ | ⟨w, h0, h1, h2, h3, h4⟩ | ⟨w, ts, e, h0, h1, h2, h3, h4, h5, h6⟩ |
    ⟨w, ts, h0, h1, h2, h3, h4, h5, h6⟩ | ⟨w, w', ts, we, h0, h1, h2, h3, h4, h5, h6⟩ := hc
  · refine ⟨.error e, [], _, _, _, rfl, h1, ?_, ?_⟩
    · intro w hw; cases hw
    · intro hr; rw [h3] at hr; cases hr
  · refine ⟨.ok w, [], _, _, _, rfl, h1, ?_, ?_⟩
    · intro _ _ _; exact ⟨rfl, h3, h2, h4⟩
    · intro _; exact ⟨w, rfl, h0⟩
  · refine ⟨.ok w, ts, _, _, _, rfl, h1, ?_, ?_⟩
    · intro w' hw' h7; cases hw'; rw [h0] at h7; cases h7
    · intro hr; rw [h5] at hr; cases hr
  · refine ⟨.ok w, ts, _, _, _, rfl, h1, ?_, ?_⟩
    · intro w' hw' h7; cases hw'; rw [h0] at h7; cases h7
    · intro hr; rw [h5] at hr; cases hr
  · refine ⟨.ok w, ts ++ [.writeReg d.addr 0x8000#16 w' we], _, _, _, rfl, by rw [h1]; rfl, ?_, ?_⟩
    · intro w' hw' h7; cases hw'; rw [h0] at h7; cases h7
    · intro hr; rw [h6] at hr; cases we <;> cases hr

/-- **C44.** If every transaction of `generate_image_if_ready` succeeds, the status word received first has bit 3
set, and the conversion does not panic, then the result is `Ok(true)`; and whenever the result is `Ok(true)`, the
destination and ambient temperature are those of the conversion of the frame read after the status word, of the
subpage named in it, and the only write is the last transaction: the status word received with only bit 3
cleared. -/
theorem C44_ready_frame_converted_then_acknowledged (env : Env σ ER EW) (d : Driver F (σ × List (Txn ER EW)))
    (dest : List F) (h : Supported (recordedEnv env) d) :
    ∃ (ts : List (Txn ER EW)) (d' : Driver F (σ × List (Txn ER EW))) (dest' : List F) (r : Res (Err ER EW) Bool),
      Driver.generateImageIfReady (recordedEnv env) dest d = (d', dest', r) ∧ d'.bus.2 = d.bus.2 ++ ts ∧
      ((∀ t ∈ ts, t.succeeded = true) →
        (∃ w, ts.head? = some (.readReg d.addr 0x8000#16 (.ok w)) ∧ w.getLsbD 3 = true) → r ≠ .panic →
        r = .ok true) ∧
      (r = .ok true → ∃ w w' frame, w.getLsbD 3 = true ∧
        ts = .readReg d.addr 0x8000#16 (.ok w) :: frame ++ [.writeReg d.addr 0x8000#16 w' none] ∧
        (∀ t ∈ frame, t.isWrite = false ∧ t.succeeded = true) ∧
        (∀ i, w'.getLsbD i = if i = 3 then false else w.getLsbD i) ∧
        Converted env d dest w frame d' dest') := by
  have hc := ifReady_cases env d dest h _ rfl
  generalize Driver.generateImageIfReady (recordedEnv env) dest d = out at hc ⊢
  obtain ⟨d', dest', r⟩ := out
  simp only at hc
  obtain ⟨e, h1, h2, h3, h4⟩ | ⟨w, h0, h1, h2, h3, h4⟩ | ⟨w, ts, e, h0, h1, h2, h3, h4, h5, h6⟩ |
    ⟨w, ts, h0, h1, h2, h3, h4, h5, h6⟩ | ⟨w, w', ts, we, h0, h1, h2, h3, h4, h5, h6⟩ := hc
  · refine ⟨_, _, _, _, rfl, h1, ?_, ?_⟩
    · intro hs
      have := hs _ (List.mem_singleton.2 rfl)
      cases this
    · intro hr; rw [h3] at hr; cases hr
  · refine ⟨_, _, _, _, rfl, h1, ?_, ?_⟩
    · rintro _ ⟨w1, hw, hw3⟩ _
      simp only [List.head?_cons, Option.some.injEq, Txn.readReg, Txn.read.injEq, Except.ok.injEq, true_and] at hw
      have := congrArg (fun l => be16 (l.getD 0 0#8) (l.getD 1 0#8)) hw
      have hw : w = w1 := by
        have e1 := be16_toBe w
        have e2 := be16_toBe w1
        simp only [toBe, List.getD_cons_zero, List.getD_cons_succ] at this
        rw [e1, e2] at this
        exact this
      rw [← hw, h0] at hw3; cases hw3
    · intro hr; rw [h3] at hr; cases hr
  · refine ⟨_, _, _, _, rfl, h1, ?_, ?_⟩
    · intro hs
      obtain ⟨init, last, hl, _, he⟩ := h2
      have hlast := hs last (by rw [hl]; simp)
      cases last with
      | read a b c q => cases q <;> simp [Txn.succeeded, Txn.error] at hlast he
      | write a b q => cases q <;> simp [Txn.succeeded, Txn.error] at hlast he
    · intro hr; rw [h5] at hr; cases hr
  · refine ⟨_, _, _, _, rfl, h1, ?_, ?_⟩
    · intro _ _ hp; exact absurd h5 hp
    · intro hr; rw [h5] at hr; cases hr
  · refine ⟨_, _, _, _, rfl, h1, ?_, ?_⟩
    · intro hs _ _
      cases we with
      | none => exact h6
      | some e =>
        have := hs (.writeReg d.addr 0x8000#16 w' (some e)) (by simp)
        cases this
    · intro hr
      rw [h6] at hr
      cases we with
      | some e => cases hr
      | none => exact ⟨w, w', ts, h0, rfl, fun t ht => ⟨(h3 t ht).1, h2 t ht⟩, h4, h5⟩

/-- **C45.** `generate_image_if_ready` returns an error exactly when one of its transactions fails; that is then
the last one, and its error is returned. When it is a read, nothing was written and destination and ambient
temperature keep their values. When it is the acknowledging write, destination and ambient temperature are
already those of the new frame. -/
theorem C45_failures_if_ready (env : Env σ ER EW) (d : Driver F (σ × List (Txn ER EW))) (dest : List F)
    (h : Supported (recordedEnv env) d) :
    ∃ (ts : List (Txn ER EW)) (d' : Driver F (σ × List (Txn ER EW))) (dest' : List F) (r : Res (Err ER EW) Bool),
      Driver.generateImageIfReady (recordedEnv env) dest d = (d', dest', r) ∧ d'.bus.2 = d.bus.2 ++ ts ∧
      ((∃ t ∈ ts, t.succeeded = false) → ∃ e, r = .err e) ∧
      (∀ e, r = .err e → FailsAtEnd ts e ∧
        ((∃ e', e = .i2cWriteRead e' ∧ (∀ t ∈ ts, t.isWrite = false) ∧ dest' = dest ∧
            d'.ambientTemp = d.ambientTemp) ∨
         (∃ e' w w' frame, e = .i2cWrite e' ∧
            ts = .readReg d.addr 0x8000#16 (.ok w) :: frame ++ [.writeReg d.addr 0x8000#16 w' (some e')] ∧
            (∀ t ∈ frame, t.isWrite = false) ∧ Converted env d dest w frame d' dest'))) := by
  have hc := ifReady_cases env d dest h _ rfl
  generalize Driver.generateImageIfReady (recordedEnv env) dest d = out at hc ⊢
  obtain ⟨d', dest', r⟩ := out
  simp only at hc
  obtain ⟨e, h1, h2, h3, h4⟩ | ⟨w, h0, h1, h2, h3, h4⟩ | ⟨w, ts, e, h0, h1, h2, h3, h4, h5, h6⟩ |
    ⟨w, ts, h0, h1, h2, h3, h4, h5, h6⟩ | ⟨w, w', ts, we, h0, h1, h2, h3, h4, h5, h6⟩ := hc
  · refine ⟨_, _, _, _, rfl, h1, fun _ => ⟨_, h3⟩, ?_⟩
    intro e' he
    rw [h3] at he; cases he
    refine ⟨⟨[], _, rfl, by simp, rfl⟩, Or.inl ⟨e, rfl, ?_, h2, by rw [h4]; rfl⟩⟩
    intro t ht
    rw [List.mem_singleton] at ht
    subst ht
    rfl
  · refine ⟨_, _, _, _, rfl, h1, ?_, ?_⟩
    · rintro ⟨t, ht, hf⟩
      rw [List.mem_singleton] at ht
      subst ht
      cases hf
    · intro e he; rw [h3] at he; cases he
  · refine ⟨_, _, _, _, rfl, h1, fun _ => ⟨_, h5⟩, ?_⟩
    intro e' he
    rw [h5] at he; cases he
    obtain ⟨init, last, hl, hi, he⟩ := h2
    refine ⟨⟨_ :: init, last, by rw [hl]; rfl, ?_, he⟩, Or.inl ⟨e, rfl, ?_, h4, by rw [h6]; rfl⟩⟩
    · intro t ht
      rcases List.mem_cons.1 ht with rfl | ht
      · rfl
      · exact hi t ht
    · intro t ht
      rcases List.mem_cons.1 ht with rfl | ht
      · rfl
      · exact (h3 t ht).1
  · refine ⟨_, _, _, _, rfl, h1, ?_, ?_⟩
    · rintro ⟨t, ht, hf⟩
      rcases List.mem_cons.1 ht with rfl | ht
      · cases hf
      · rw [h2 t ht] at hf; cases hf
    · intro e he; rw [h5] at he; cases he
  · refine ⟨_, _, _, _, rfl, h1, ?_, ?_⟩
    · rintro ⟨t, ht, hf⟩
      simp only [List.cons_append, List.mem_cons, List.mem_append, List.not_mem_nil, or_false] at ht
      rcases ht with rfl | ht | rfl
      · cases hf
      · rw [h2 t ht] at hf; cases hf
      · cases we with
        | none => cases hf
        | some e => exact ⟨_, h6⟩
    · intro e he
      rw [h6] at he
      cases we with
      | none => cases he
      | some e' =>
        cases he
        refine ⟨⟨_ :: ts, _, rfl, ?_, rfl⟩, Or.inr ⟨e', w, w', ts, rfl, rfl, fun t ht => (h3 t ht).1, h5⟩⟩
        intro t ht
        rcases List.mem_cons.1 ht with rfl | ht
        · rfl
        · exact h2 t ht

theorem imageWith_failsCleanly (env : Env σ ER EW) (d : Driver F (σ × List (Txn ER EW))) (sp : Subpage)
    (dest : List F) (h : Supported (recordedEnv env) d)
    (conv : Driver F (σ × List (Txn ER EW)) → List Byte → RamData → Res (Err ER EW) (F × List F))
    (hne : ∀ d px ram e, conv d px ram ≠ .err e)
    (hconv : ∀ bus px px' ram, conv { d with bus := bus, pixelBuf := px' } px ram = conv d px ram) :
    FailsCleanly d dest (imageWith (recordedEnv env) sp dest d conv) := by
  obtain ⟨rs, ts, s', px, hrs, hnw, hcase⟩ := imageWith_cases env d sp dest h conv hne hconv
  have hok : ∀ p, Follows d.addr p ts none → ¬ ∃ t ∈ ts, t.succeeded = false := by
    rintro p hp ⟨t, ht, hf⟩
    rw [hp.all_ok t ht] at hf
    cases hf
  rcases hcase with ⟨e, h4, h5⟩ | ⟨ram, h4, h5, ⟨tA, dest', h6, h7⟩ | ⟨h6, h7⟩⟩
  · rw [h5]
    refine ⟨ts, rfl, fun t ht => (hnw t ht).1, fun _ => ⟨e, rfl⟩, ?_⟩
    intro e' he
    cases he
    exact ⟨h4.fails.1, h4.fails.2, rfl, rfl⟩
  · rw [h7]
    exact ⟨ts, rfl, fun t ht => (hnw t ht).1, fun hf => absurd hf (hok _ h4), by intro e he; cases he⟩
  · rw [h7]
    exact ⟨ts, rfl, fun t ht => (hnw t ht).1, fun hf => absurd hf (hok _ h4), by intro e he; cases he⟩

/-- **C45 (unconditional methods).** The three methods that convert a frame unconditionally return an error
exactly when one of their transactions fails, which is then the last and a read; destination and ambient
temperature keep their values and nothing is written. -/
theorem C45_failures_unconditional (env : Env σ ER EW) (d : Driver F (σ × List (Txn ER EW))) (dest : List F)
    (h : Supported (recordedEnv env) d) :
    (∀ sp, FailsCleanly d dest (Driver.generateRawImageSubpageTo (recordedEnv env) sp dest d)) ∧
    (∀ sp, FailsCleanly d dest (Driver.generateImageSubpageTo (recordedEnv env) sp dest d)) ∧
    FailsCleanly d dest (Driver.generateImageTo (recordedEnv env) dest d) := by
  refine ⟨fun sp => ?_, fun sp => ?_, ?_⟩
  · rw [rawImageSubpage_eq]
    exact imageWith_failsCleanly env d sp dest h _ (fun d px ram e => toRawImage_no_err _ _ _ _ _ _ _)
      (fun _ _ _ _ => rfl)
  · rw [imageSubpage_eq]
    exact imageWith_failsCleanly env d sp dest h _ (fun d px ram e => toTemperatures_no_err _ _ _ _ _ _ _)
      (fun _ _ _ _ => rfl)
  · rw [generateImageTo_eq]
    have hb : (recordedEnv env).bus = recorded env.bus := rfl
    rw [hb, regRead_recorded]
    generalize regRead env.bus d.bus.1 d.addr 0x8000#16 = q
    obtain ⟨s1, e | w⟩ := q
    · refine ⟨_, rfl, ?_, fun _ => ⟨_, rfl⟩, ?_⟩
      · intro t ht; rw [List.mem_singleton] at ht; subst ht; rfl
      · intro e he; cases he; exact ⟨⟨[], _, rfl, by simp, rfl⟩, ⟨_, rfl⟩, rfl, rfl⟩
    · simp only
      rw [imageSubpage_eq]
      have hsup : Supported (recordedEnv env)
          { d with bus := (s1, d.bus.2 ++ [Txn.readReg d.addr 0x8000#16 (.ok w)]) } := ⟨h.1, h.2, h.3⟩
      obtain ⟨ts, h1, h2, h3, h4⟩ := imageWith_failsCleanly env _ (if w.getLsbD 0 then .one else .zero) dest hsup
        (fun d => toTemperatures (recordedEnv env).mode d (if w.getLsbD 0 then .one else .zero) dest)
        (fun d px ram e => toTemperatures_no_err _ _ _ _ _ _ _)
        (fun _ _ _ _ => rfl)
      refine ⟨_ :: ts, by rw [h1, List.append_assoc]; rfl, ?_, ?_, ?_⟩
      · intro t ht
        rcases List.mem_cons.1 ht with rfl | ht
        · rfl
        · exact h2 t ht
      · rintro ⟨t, ht, hf⟩
        rcases List.mem_cons.1 ht with rfl | ht
        · cases hf
        · exact h3 ⟨t, ht, hf⟩
      · intro e he
        obtain ⟨⟨init, last, h5, h6, h7⟩, h8⟩ := h4 e he
        refine ⟨⟨_ :: init, last, by rw [h5]; rfl, ?_, h7⟩, h8⟩
        intro t ht
        rcases List.mem_cons.1 ht with rfl | ht
        · rfl
        · exact h6 t ht

/-- **C46.** `generate_image_to`, `generate_image_subpage_to` and `generate_raw_image_subpage_to` never write to
the bus, whatever the bus does, and even for camera types other than the two of the crate. -/
theorem C46_unconditional_methods_never_write (env : Env σ ER EW) (d : Driver F (σ × List (Txn ER EW)))
    (dest : List F) :
    (∀ sp, ∃ ts, (Driver.generateRawImageSubpageTo (recordedEnv env) sp dest d).1.bus.2 = d.bus.2 ++ ts ∧
      ∀ t ∈ ts, t.isWrite = false) ∧
    (∀ sp, ∃ ts, (Driver.generateImageSubpageTo (recordedEnv env) sp dest d).1.bus.2 = d.bus.2 ++ ts ∧
      ∀ t ∈ ts, t.isWrite = false) ∧
    (∃ ts, (Driver.generateImageTo (recordedEnv env) dest d).1.bus.2 = d.bus.2 ++ ts ∧
      ∀ t ∈ ts, t.isWrite = false) := by
  refine ⟨fun sp => ?_, fun sp => ?_, ?_⟩
  · rw [rawImageSubpage_eq]
    obtain ⟨ts, h1, h2⟩ := imageWith_reads env d sp dest (fun d => toRawImage (recordedEnv env).mode d sp dest)
    exact ⟨ts, h1, fun t ht => (h2 t ht).1⟩
  · rw [imageSubpage_eq]
    obtain ⟨ts, h1, h2⟩ := imageWith_reads env d sp dest (fun d => toTemperatures (recordedEnv env).mode d sp dest)
    exact ⟨ts, h1, fun t ht => (h2 t ht).1⟩
  · obtain ⟨ts, h1, h2⟩ := generateImageTo_reads env d dest
    exact ⟨ts, h1, fun t ht => (h2 t ht).1⟩

/-- A camera with a new frame: the image is made and the flag cleared. -/
example : (Driver.generateImageIfReady (recordedEnv (σ := SimpleCamera) ⟨.checked, 24, simpleBus⟩)
      (List.replicate 768 (0 : Int)) (toyDriver Mlx90640.cam 768 (toyCamera 9, []))).2.2 = .ok true ∧
    (Driver.generateImageIfReady (recordedEnv (σ := SimpleCamera) ⟨.checked, 24, simpleBus⟩)
      (List.replicate 768 (0 : Int)) (toyDriver Mlx90640.cam 768 (toyCamera 9, []))).1.bus.1.mem 0x8000#16 =
      1#16 := by
  constructor <;> decide +kernel

end Mlx.Props
