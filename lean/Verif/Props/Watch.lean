import Verif.Proofs.Watch
import Verif.Proofs.View
import Verif.Props.Access
import Verif.Props.Geometry
/-
C82 and C83: watching a camera.
-/
set_option linter.unusedSectionVars false
set_option autoImplicit false
namespace Mlx.Props
open Mlx Mlx.Spec Mlx.Proofs F32Ops
variable {F σ ER EW : Type} [F32Ops F] {mem : σ → Word → Word}

/-- The last element of a list, when it is not the one at which the list was split. -/
theorem split_last {α : Type} {x e : α} {l before after : List α} (hne : e ≠ x) (heq : l ++ [e] = before ++ x :: after) :
    ∃ after', after = after' ++ [e] ∧ l = before ++ x :: after' := by
  rcases List.eq_nil_or_concat after with rfl | ⟨after', e', rfl⟩
  · have := (List.append_inj' heq rfl).2
    simp only [List.cons.injEq, and_true] at this
    exact absurd this hne
  · rw [List.concat_eq_append] at heq ⊢
    rw [← List.cons_append, ← List.append_assoc] at heq
    obtain ⟨h1, h2⟩ := List.append_inj' heq rfl
    simp only [List.cons.injEq, and_true] at h2
    exact ⟨after', by rw [h2], h1⟩

section
variable {env : Env σ ER EW} {d d1 : Driver F σ} {dest dest1 : List F} {events : List (Event F ER EW)}

/-- What a poll that was not ready has seen and done. -/
theorem ifReady_idle {d2 : Driver F σ} {dest2 : List F} (h : StaticMemory env.bus d1.addr mem)
    (hp : Driver.generateImageIfReady env dest1 d1 = (d2, dest2, .ok false)) :
    (mem d1.bus 0x8000#16).getLsbD 3 = false ∧ dest2 = dest1 := by
  obtain ⟨hr, hv⟩ := static_regRead h d1.bus 0x8000#16
  rw [ifReady_eq] at hp
  revert hv hr hp
  generalize regRead env.bus d1.bus d1.addr 0x8000#16 = q
  obtain ⟨s1, e | w⟩ := q
  · intro hp; cases hp
  · intro hp hr hv
    have hw : w = mem d1.bus 0x8000#16 := hv w rfl
    simp only at hp
    by_cases h3 : w.getLsbD 3 = true
    · simp only [if_pos h3] at hp
      revert hp
      generalize Driver.generateImageSubpageTo env (if w.getLsbD 0 then .one else .zero) dest1 { d1 with bus := s1 } = q
      obtain ⟨d3, dest3, _ | e | _⟩ := q
      · intro hp
        simp only [Prod.mk.injEq] at hp
        obtain ⟨_, _, hp⟩ := hp
        split at hp <;> cases hp
      · intro hp; cases hp
      · intro hp; cases hp
    · simp only [if_neg h3, Prod.mk.injEq] at hp
      rw [← hw]
      exact ⟨by simpa using h3, hp.2.1.symm⟩

theorem exec_ifReady {d2 : Driver F σ} {dest2 : List F} {r : Res (Err ER EW) Bool}
    (hp : Driver.generateImageIfReady env dest1 d1 = (d2, dest2, r)) :
    (Op.generateImageIfReady dest1).exec env d1 = (d2, discard (d2, r) |>.2) := by
  show discardImage (Driver.generateImageIfReady env dest1 d1) = _
  rw [hp]
  rfl

/-- What happens while watching is a session. -/
theorem watch_session (hx : Watch env mem d dest events d1 dest1) :
    ∃ calls, Session env mem anyFrame d calls d1 ∧ ∀ c ∈ calls, .call c.1 c.2 ∈ events ∨ setsControl c.1 = false := by
  induction hx with
  | start => exact ⟨[], .start, fun c hc => (nomatch hc)⟩
  | measured s _ h1 _ ih =>
    obtain ⟨calls, h2, h3⟩ := ih
    exact ⟨calls, .measurement s h2 h1 trivial, fun c hc => (h3 c hc).imp (List.mem_append_left _) id⟩
  | call op _ ih =>
    obtain ⟨calls, h2, h3⟩ := ih
    refine ⟨_, .call op h2, fun c hc => ?_⟩
    rcases List.mem_append.1 hc with hc | hc
    · exact (h3 c hc).imp (List.mem_append_left _) id
    · rw [List.mem_singleton] at hc
      subst hc
      exact Or.inl (List.mem_append_right _ (List.mem_singleton_self _))
  | image hx hp ih =>
    rename_i ev d1 d2 dest1 dest2
    obtain ⟨calls, h2, h3⟩ := ih
    have h4 := Session.call (Op.generateImageIfReady dest1) h2
    rw [exec_ifReady hp] at h4
    refine ⟨_, h4, fun c hc => ?_⟩
    rcases List.mem_append.1 hc with hc | hc
    · exact (h3 c hc).imp (List.mem_append_left _) id
    · rw [List.mem_singleton] at hc
      subst hc
      exact Or.inr rfl
  | idle hx hp ih =>
    rename_i ev d1 d2 dest1 dest2
    obtain ⟨calls, h2, h3⟩ := ih
    have h4 := Session.call (Op.generateImageIfReady dest1) h2
    rw [exec_ifReady hp] at h4
    refine ⟨_, h4, fun c hc => ?_⟩
    rcases List.mem_append.1 hc with hc | hc
    · exact (h3 c hc).imp (List.mem_append_left _) id
    · rw [List.mem_singleton] at hc
      subst hc
      exact Or.inr rfl
  | failed hx hp ih =>
    rename_i ev d1 d2 dest1 dest2 e
    obtain ⟨calls, h2, h3⟩ := ih
    have h4 := Session.call (Op.generateImageIfReady dest1) h2
    rw [exec_ifReady hp] at h4
    refine ⟨_, h4, fun c hc => ?_⟩
    rcases List.mem_append.1 hc with hc | hc
    · exact (h3 c hc).imp (List.mem_append_left _) id
    · rw [List.mem_singleton] at hc
      subst hc
      exact Or.inr rfl

/-- The driver keeps its camera and address. -/
theorem watch_supported (hs : Supported env d) (hx : Watch env mem d dest events d1 dest1) :
    Supported env d1 ∧ d1.addr = d.addr ∧ d1.calib = d.calib := by
  obtain ⟨calls, h, _⟩ := watch_session hx
  exact session_supported hs h

/-- What a poll does to the status register, whatever its outcome. -/
theorem poll_status {d2 : Driver F σ} {dest2 : List F} {r : Res (Err ER EW) Bool} (hs : Supported env d1)
    (h : StaticMemory env.bus d1.addr mem) (hp : Driver.generateImageIfReady env dest1 d1 = (d2, dest2, r)) :
    StatusStep (.generateImageIfReady dest1) (discard (d2, r)).2 (mem d1.bus 0x8000#16) (mem d2.bus 0x8000#16) := by
  have := exec_status hs h (.generateImageIfReady dest1)
  rw [exec_ifReady hp] at this
  exact this

theorem poll_memory {d2 : Driver F σ} {dest2 : List F} {r : Res (Err ER EW) Bool} (hs : Supported env d1)
    (h : StaticMemory env.bus d1.addr mem) (hp : Driver.generateImageIfReady env dest1 d1 = (d2, dest2, r))
    (a : Word) (h1 : a ≠ 0x8000#16) (h2 : a ≠ 0x800D#16) : mem d2.bus a = mem d1.bus a := by
  have := exec_static hs h (.generateImageIfReady dest1) a h1 h2
  rw [exec_ifReady hp] at this
  exact this

/-- The flag is set only if a measurement set it and nothing has cleared it since. -/
theorem flag_pending (hs : Supported env d) (h : StaticMemory env.bus d.addr mem)
    (hx : Watch env mem d dest events d1 dest1) (hf : (mem d1.bus 0x8000#16).getLsbD 3 = true) :
    (∃ before M after, events = before ++ .measured M :: after ∧ ∀ e ∈ after, ¬ e.clears) ∨
    ((mem d.bus 0x8000#16).getLsbD 3 = true ∧ ∀ e ∈ events, ¬ e.clears) := by
  have add : ∀ {events : List (Event F ER EW)} {e : Event F ER EW}, ¬ e.clears →
      ((∃ before M after, events = before ++ .measured M :: after ∧ ∀ e ∈ after, ¬ e.clears) ∨
        ((mem d.bus 0x8000#16).getLsbD 3 = true ∧ ∀ e ∈ events, ¬ e.clears)) →
      ((∃ before M after, events ++ [e] = before ++ .measured M :: after ∧ ∀ e ∈ after, ¬ e.clears) ∨
        ((mem d.bus 0x8000#16).getLsbD 3 = true ∧ ∀ e' ∈ events ++ [e], ¬ e'.clears)) := by
    rintro events e he (⟨before, M, after, rfl, h2⟩ | ⟨h1, h2⟩)
    · refine Or.inl ⟨before, M, after ++ [e], by simp, fun e' he' => ?_⟩
      rcases List.mem_append.1 he' with he' | he'
      · exact h2 e' he'
      · rw [List.mem_singleton] at he'; rw [he']; exact he
    · refine Or.inr ⟨h1, fun e' he' => ?_⟩
      rcases List.mem_append.1 he' with he' | he'
      · exact h2 e' he'
      · rw [List.mem_singleton] at he'; rw [he']; exact he
  induction hx with
  | start => exact Or.inr ⟨hf, fun e he => (nomatch he)⟩
  | measured s _ _ _ _ => exact Or.inl ⟨_, _, [], rfl, fun e he => (nomatch he)⟩
  | call op hx ih =>
    obtain ⟨hs1, ha, _⟩ := watch_supported hs hx
    have st := exec_status hs1 (by rw [ha]; exact h) op
    refine add ?_ (ih (st.never hf))
    rintro ⟨hc, ho⟩
    have := st.clear hc ho
    rw [hf] at this
    cases this
  | image hx hp ih =>
    obtain ⟨hs1, ha, _⟩ := watch_supported hs hx
    have := (poll_status hs1 (by rw [ha]; exact h) hp).clear rfl rfl
    rw [hf] at this
    cases this
  | idle hx hp ih =>
    obtain ⟨hs1, ha, _⟩ := watch_supported hs hx
    have := (poll_status hs1 (by rw [ha]; exact h) hp).clear rfl rfl
    rw [hf] at this
    cases this
  | failed hx hp ih =>
    obtain ⟨hs1, ha, _⟩ := watch_supported hs hx
    exact add (fun hc => hc) (ih ((poll_status hs1 (by rw [ha]; exact h) hp).never hf))

/-- A measurement sets the flag, and it stays set until something may clear it. -/
theorem flag_stays (hs : Supported env d) (h : StaticMemory env.bus d.addr mem)
    (hx : Watch env mem d dest events d1 dest1) (before after : List (Event F ER EW)) (M : Word → Word)
    (he : events = before ++ .measured M :: after) (hn : ∀ e ∈ after, ¬ e.mayClear) :
    (mem d1.bus 0x8000#16).getLsbD 3 = true := by
  induction hx generalizing after with
  | start => cases before <;> cases he
  | measured s _ _ hf _ => exact hf
  | call op hx ih =>
    obtain ⟨hs1, ha, _⟩ := watch_supported hs hx
    obtain ⟨after', rfl, h2⟩ := split_last (by rintro ⟨⟩) he
    have st := exec_status hs1 (by rw [ha]; exact h) op
    rw [st.keep ?_]
    · exact ih after' h2 fun e he => hn e (List.mem_append_left _ he)
    · exact hn _ (List.mem_append_right _ (List.mem_singleton_self _))
  | image hx hp ih =>
    obtain ⟨after', rfl, _⟩ := split_last (by rintro ⟨⟩) he
    exact absurd trivial (hn _ (List.mem_append_right _ (List.mem_singleton_self _)))
  | idle hx hp ih =>
    obtain ⟨hs1, ha, _⟩ := watch_supported hs hx
    obtain ⟨after', rfl, h2⟩ := split_last (by rintro ⟨⟩) he
    have h3 := ih after' h2 fun e he => hn e (List.mem_append_left _ he)
    rw [(ifReady_idle (by rw [ha]; exact h) hp).1] at h3
    cases h3
  | failed hx hp ih =>
    obtain ⟨hs1, ha, _⟩ := watch_supported hs hx
    obtain ⟨after', rfl, h2⟩ := split_last (by rintro ⟨⟩) he
    rw [(poll_status hs1 (by rw [ha]; exact h) hp).keep ?_]
    · exact ih after' h2 fun e he => hn e (List.mem_append_left _ he)
    · rintro ⟨_, hc | ⟨_, hc⟩⟩
      · cases hc
      · cases hc

/-- Until the next measurement the frame stays what it is. -/
theorem frame_stays (hs : Supported env d) (h : StaticMemory env.bus d.addr mem)
    (hx : Watch env mem d dest events d1 dest1) (before after : List (Event F ER EW)) (M : Word → Word)
    (he : events = before ++ .measured M :: after) (hn : ∀ e ∈ after, e.isMeasurement = false) :
    (∀ a, a ≠ 0x8000#16 → a ≠ 0x800D#16 → mem d1.bus a = M a) ∧
    (∀ i, ¬ (3 ≤ i ∧ i ≤ 5) → (mem d1.bus 0x8000#16).getLsbD i = (M 0x8000#16).getLsbD i) := by
  have poll : ∀ {d1 d2 : Driver F σ} {dest1 dest2 : List F} {r : Res (Err ER EW) Bool}, Supported env d1 → d1.addr = d.addr →
      Driver.generateImageIfReady env dest1 d1 = (d2, dest2, r) →
      ((∀ a, a ≠ 0x8000#16 → a ≠ 0x800D#16 → mem d1.bus a = M a) ∧
        (∀ i, ¬ (3 ≤ i ∧ i ≤ 5) → (mem d1.bus 0x8000#16).getLsbD i = (M 0x8000#16).getLsbD i)) →
      (∀ a, a ≠ 0x8000#16 → a ≠ 0x800D#16 → mem d2.bus a = M a) ∧
        (∀ i, ¬ (3 ≤ i ∧ i ≤ 5) → (mem d2.bus 0x8000#16).getLsbD i = (M 0x8000#16).getLsbD i) := by
    intro d1 d2 dest1 dest2 r hs1 ha hp hi
    have h' : StaticMemory env.bus d1.addr mem := by rw [ha]; exact h
    exact ⟨fun a h1 h2 => (poll_memory hs1 h' hp a h1 h2).trans (hi.1 a h1 h2),
      fun i hi' => ((poll_status hs1 h' hp).other i hi').trans (hi.2 i hi')⟩
  induction hx generalizing after with
  | start => cases before <;> cases he
  | measured s hx hk hf ih =>
    rcases List.eq_nil_or_concat after with rfl | ⟨after', e', rfl⟩
    · have := (List.append_inj' he rfl).2
      simp only [List.cons.injEq, Event.measured.injEq, and_true] at this
      rw [← this]
      exact ⟨fun _ _ _ => rfl, fun _ _ => rfl⟩
    · rw [List.concat_eq_append] at he hn
      rw [← List.cons_append, ← List.append_assoc] at he
      have h2 := (List.append_inj' he rfl).2
      simp only [List.cons.injEq, and_true] at h2
      have := hn _ (List.mem_append_right _ (List.mem_singleton_self _))
      rw [← h2] at this
      cases this
  | call op hx ih =>
    obtain ⟨hs1, ha, _⟩ := watch_supported hs hx
    obtain ⟨after', rfl, h2⟩ := split_last (by rintro ⟨⟩) he
    have hi := ih after' h2 fun e he => hn e (List.mem_append_left _ he)
    have h' := h
    rw [← ha] at h'
    exact ⟨fun a h1 h2 => (exec_static hs1 h' op a h1 h2).trans (hi.1 a h1 h2),
      fun i hi' => ((exec_status hs1 h' op).other i hi').trans (hi.2 i hi')⟩
  | image hx hp ih =>
    obtain ⟨hs1, ha, _⟩ := watch_supported hs hx
    obtain ⟨after', rfl, h2⟩ := split_last (by rintro ⟨⟩) he
    exact poll hs1 ha hp (ih after' h2 fun e he => hn e (List.mem_append_left _ he))
  | idle hx hp ih =>
    obtain ⟨hs1, ha, _⟩ := watch_supported hs hx
    obtain ⟨after', rfl, h2⟩ := split_last (by rintro ⟨⟩) he
    exact poll hs1 ha hp (ih after' h2 fun e he => hn e (List.mem_append_left _ he))
  | failed hx hp ih =>
    obtain ⟨hs1, ha, _⟩ := watch_supported hs hx
    obtain ⟨after', rfl, h2⟩ := split_last (by rintro ⟨⟩) he
    exact poll hs1 ha hp (ih after' h2 fun e he => hn e (List.mem_append_left _ he))

/-- Images and a flag that is still set never outnumber measurements and a flag that was set at the start. -/
theorem images_counted (hs : Supported env d) (h : StaticMemory env.bus d.addr mem)
    (hx : Watch env mem d dest events d1 dest1) :
    events.countP Event.isImage + (if (mem d1.bus 0x8000#16).getLsbD 3 = true then 1 else 0) ≤
      events.countP Event.isMeasurement + (if (mem d.bus 0x8000#16).getLsbD 3 = true then 1 else 0) := by
  have le : ∀ {W W' : Word}, (W'.getLsbD 3 = true → W.getLsbD 3 = true) →
      (if W'.getLsbD 3 = true then 1 else 0) ≤ (if W.getLsbD 3 = true then 1 else 0) := by
    intro W W' hle
    by_cases h1 : W'.getLsbD 3 = true
    · rw [if_pos h1, if_pos (hle h1)]
    · rw [if_neg h1]; exact Nat.zero_le _
  induction hx with
  | start => simp
  | measured s hx hk hf ih =>
    rw [List.countP_append, List.countP_append]
    simp only [List.countP_singleton, Event.isImage, Event.isMeasurement, if_pos hf, if_true]
    simp only [Bool.false_eq_true, if_false]
    omega
  | call op hx ih =>
    obtain ⟨hs1, ha, _⟩ := watch_supported hs hx
    have := le (exec_status hs1 (by rw [ha]; exact h) op).never
    rw [List.countP_append, List.countP_append]
    simp only [List.countP_singleton, Event.isImage, Event.isMeasurement, Bool.false_eq_true, if_false]
    omega
  | image hx hp ih =>
    obtain ⟨hs1, ha, _⟩ := watch_supported hs hx
    have h' := h
    rw [← ha] at h'
    have h1 := (poll_status hs1 h' hp).clear rfl rfl
    obtain ⟨h2, _⟩ := ifReady_reduces env _ h' _ _ _ hp
    rw [List.countP_append, List.countP_append]
    simp only [List.countP_singleton, Event.isImage, Event.isMeasurement, Bool.false_eq_true, if_false, if_true, h1]
    rw [if_pos h2] at ih
    omega
  | idle hx hp ih =>
    obtain ⟨hs1, ha, _⟩ := watch_supported hs hx
    have := le (poll_status hs1 (by rw [ha]; exact h) hp).never
    rw [List.countP_append, List.countP_append]
    simp only [List.countP_singleton, Event.isImage, Event.isMeasurement, Bool.false_eq_true, if_false]
    omega
  | failed hx hp ih =>
    obtain ⟨hs1, ha, _⟩ := watch_supported hs hx
    have := le (poll_status hs1 (by rw [ha]; exact h) hp).never
    rw [List.countP_append, List.countP_append]
    simp only [List.countP_singleton, Event.isImage, Event.isMeasurement, Bool.false_eq_true, if_false]
    omega

/-- The length of the buffer. -/
theorem watch_length (hs : Supported env d) (hx : Watch env mem d dest events d1 dest1) : dest1.length = dest.length := by
  have poll : ∀ {d1 d2 : Driver F σ} {dest1 dest2 : List F} {r : Res (Err ER EW) Bool}, Supported env d1 →
      Driver.generateImageIfReady env dest1 d1 = (d2, dest2, r) → dest2.length = dest1.length := by
    intro d1 d2 dest1 dest2 r hs1 hp
    have := (C73_destinations hs1 dest1 []).2.2.2.2.2.1
    rw [hp] at this
    exact this
  induction hx with
  | start => rfl
  | measured s _ _ _ ih => exact ih
  | call op _ ih => exact ih
  | image hx hp ih => exact (poll (watch_supported hs hx).1 hp).trans ih
  | idle hx hp ih => exact (poll (watch_supported hs hx).1 hp).trans ih
  | failed hx hp ih => exact (poll (watch_supported hs hx).1 hp).trans ih

/-- An image method that fails leaves the buffer alone, and its error is that of a read. -/
theorem image_err {d2 : Driver F σ} {dest2 : List F} {sp : Subpage} {e : Err ER EW} (hs : Supported env d1)
    (hp : Driver.generateImageSubpageTo env sp dest1 d1 = (d2, dest2, .err e)) :
    dest2 = dest1 ∧ ∃ x, e = .i2cWriteRead x := by
  have hv : ActsAs (recorded env.bus) d1.addr Prod.fst env.bus := by constructor <;> intros <;> rfl
  have h1 := view_subpage (m := env.mode) (n := env.height) (d := ({ d1 with bus := (d1.bus, []) } :
    Driver F (σ × List (Txn ER EW)))) hv sp dest1
  have h2 := imageWith_cases env ({ d1 with bus := (d1.bus, []) } : Driver F (σ × List (Txn ER EW))) sp dest1
    ⟨hs.1, hs.2, hs.3⟩ (fun d => toTemperatures env.mode d sp dest1) (fun d px ram e => toTemperatures_no_err _ _ _ _ _ _ _)
    (fun _ _ _ _ => rfl)
  have h1 : Driver.generateImageSubpageTo env sp dest1 d1 =
    (view Prod.fst (imageWith (recordedEnv env) sp dest1 ({ d1 with bus := (d1.bus, []) } : Driver F (σ × List (Txn ER EW)))
      (fun d => toTemperatures env.mode d sp dest1)).1,
    (imageWith (recordedEnv env) sp dest1 ({ d1 with bus := (d1.bus, []) } : Driver F (σ × List (Txn ER EW)))
      (fun d => toTemperatures env.mode d sp dest1)).2) := h1
  rw [hp] at h1
  obtain ⟨rs, ts, s', px, _, _, ⟨e', hf, h3⟩ | ⟨ram, _, _, ⟨tA, dest', _, h3⟩ | ⟨_, h3⟩⟩⟩ := h2
  · rw [h3, Prod.mk.injEq, Prod.mk.injEq] at h1
    obtain ⟨_, h4, h5⟩ := h1
    cases h5
    refine ⟨h4, ?_⟩
    have key : ∀ {a : Byte} {plan : List (Word × Nat)} {ts : List (Txn ER EW)} {r : Option (Err ER EW)},
        Follows a plan ts r → ∀ e, r = some e → ∃ x, e = .i2cWriteRead x := by
      intro a plan ts r hf
      induction hf with
      | done => intro e he; cases he
      | next _ _ ih => exact ih
      | failed => intro e he; cases he; exact ⟨_, rfl⟩
    exact key hf e rfl
  · rw [h3, Prod.mk.injEq, Prod.mk.injEq] at h1
    exact nomatch h1.2.2
  · rw [h3, Prod.mk.injEq, Prod.mk.injEq] at h1
    exact nomatch h1.2.2

/-- A `generate_image_if_ready` that was successful, or that failed only when it acknowledged the image, has made an image of the
subpage in the status register, after reading that. (The getter `overwrite_enabled` also does one read of it, and nothing else.) -/
theorem ifReady_draws {d2 : Driver F σ} {dest2 : List F} {r : Res (Err ER EW) Bool} (hs : Supported env d1)
    (h : StaticMemory env.bus d1.addr mem) (hp : Driver.generateImageIfReady env dest1 d1 = (d2, dest2, r))
    (hr : r = .ok true ∨ ∃ x, r = .err (.i2cWrite x)) :
    ∃ s1 d3, (Op.overwriteEnabled.exec env d1).1 = { d1 with bus := s1 } ∧ mem s1 = mem d1.bus ∧
      Driver.generateImageSubpageTo env (statusSubpage (mem d1.bus 0x8000#16)) dest1 { d1 with bus := s1 } =
        (d3, dest2, .ok ()) := by
  have he : (Op.overwriteEnabled.exec env d1).1 = { d1 with bus := (regRead env.bus d1.bus d1.addr 0x8000#16).1 } := by
    show (discard (Driver.overwriteEnabled env d1)).1 = _
    unfold Driver.overwriteEnabled
    rw [dm_bind, statusRegister_eq]
    cases (regRead env.bus d1.bus d1.addr 0x8000#16).2 <;> rfl
  rw [he]
  obtain ⟨hm, hv⟩ := static_regRead h d1.bus 0x8000#16
  rw [ifReady_eq] at hp
  generalize regRead env.bus d1.bus d1.addr 0x8000#16 = q at hm hv hp ⊢
  obtain ⟨s1, x | w⟩ := q
  · rw [Prod.mk.injEq, Prod.mk.injEq] at hp
    rcases hr with rfl | ⟨y, rfl⟩
    · exact nomatch hp.2.2
    · exact nomatch hp.2.2
  · have hw : w = mem d1.bus 0x8000#16 := hv w rfl
    simp only at hm hp ⊢
    refine ⟨s1, ?_⟩
    unfold statusSubpage
    rw [← hw]
    by_cases h3 : w.getLsbD 3 = true
    · rw [if_pos h3] at hp
      have hne := fun d2 dest2 e => image_err (d2 := d2) (dest2 := dest2) (e := e) (dest1 := dest1)
        (sp := if w.getLsbD 0 then .one else .zero) (d1 := { d1 with bus := s1 }) ⟨hs.1, hs.2, hs.3⟩
      generalize Driver.generateImageSubpageTo env (if w.getLsbD 0 then .one else .zero) dest1 { d1 with bus := s1 } = q
        at hp hne ⊢
      obtain ⟨d3, dest3, _ | e | _⟩ := q
      · simp only [Prod.mk.injEq] at hp
        obtain ⟨_, rfl, _⟩ := hp
        exact ⟨d3, rfl, hm, rfl⟩
      · simp only [Prod.mk.injEq] at hp
        obtain ⟨_, x, rfl⟩ := hne _ _ _ rfl
        obtain ⟨_, _, hp⟩ := hp
        rcases hr with rfl | ⟨y, rfl⟩
        · exact nomatch hp
        · exact nomatch (Res.err.inj hp)
      · simp only [Prod.mk.injEq] at hp
        obtain ⟨_, _, rfl⟩ := hp
        rcases hr with hr | ⟨y, hr⟩
        · exact nomatch hr
        · exact nomatch hr
    · rw [if_neg h3, Prod.mk.injEq, Prod.mk.injEq] at hp
      obtain ⟨_, _, rfl⟩ := hp
      rcases hr with hr | ⟨y, hr⟩
      · exact nomatch (Res.ok.inj hr)
      · exact nomatch hr

/-- Any other error of `generate_image_if_ready` leaves the buffer alone. -/
theorem ifReady_failed {d2 : Driver F σ} {dest2 : List F} {e : Err ER EW} (hs : Supported env d1)
    (hp : Driver.generateImageIfReady env dest1 d1 = (d2, dest2, .err e)) (hr : ∀ x, e ≠ .i2cWrite x) : dest2 = dest1 := by
  rw [ifReady_eq] at hp
  generalize regRead env.bus d1.bus d1.addr 0x8000#16 = q at hp
  obtain ⟨s1, x | w⟩ := q
  · rw [Prod.mk.injEq, Prod.mk.injEq] at hp
    exact hp.2.1.symm
  · simp only at hp
    by_cases h3 : w.getLsbD 3 = true
    · rw [if_pos h3] at hp
      have hne := fun d2 dest2 e => image_err (d2 := d2) (dest2 := dest2) (e := e) (dest1 := dest1)
        (sp := if w.getLsbD 0 then .one else .zero) (d1 := { d1 with bus := s1 }) ⟨hs.1, hs.2, hs.3⟩
      generalize Driver.generateImageSubpageTo env (if w.getLsbD 0 then .one else .zero) dest1 { d1 with bus := s1 } = q
        at hp hne
      obtain ⟨d3, dest3, _ | e' | _⟩ := q
      · simp only [Prod.mk.injEq] at hp
        obtain ⟨_, _, hp⟩ := hp
        generalize (regWrite env.bus d3.bus d3.addr 0x8000#16 (StatusReg.resetNewData ⟨w⟩).raw).2 = y at hp
        cases y with
        | none => exact nomatch hp
        | some y => exact absurd (Res.err.inj hp).symm (hr y)
      · simp only [Prod.mk.injEq] at hp
        rw [← hp.2.1]
        exact (hne _ _ _ rfl).1
      · simp only [Prod.mk.injEq] at hp
        exact nomatch hp.2.2
    · rw [if_neg h3, Prod.mk.injEq, Prod.mk.injEq] at hp
      exact nomatch hp.2.2

/-- The buffer is assembled from the newest images: if every image puts a good value into each element it covers and leaves
the others alone, then after any events every element is a good value of the newest event that drew an image which covers it. -/
theorem watch_drawn (hs : Supported env d) (hx : Watch env mem d dest events d1 dest1)
    (covers : (Word → Word) → Nat → Prop) (good : (Word → Word) → F → Option F → Nat → F → Prop)
    (P : List (Event F ER EW) → Prop) (hP : ∀ ev e, P (ev ++ [e]) → P ev) (hp : P events)
    (h : StaticMemory env.bus d.addr mem)
    (step : ∀ ev e d1 dest1 s1 d3 dest2, Watch env mem d dest ev d1 dest1 → P (ev ++ [e]) →
      e.draws = some (mem d1.bus, d1.effectiveEmissivity, d1.reflectedTemperature) →
      (Op.overwriteEnabled.exec env d1).1 = { d1 with bus := s1 } → mem s1 = mem d1.bus →
      Driver.generateImageSubpageTo env (statusSubpage (mem d1.bus 0x8000#16)) dest1 { d1 with bus := s1 } =
        (d3, dest2, .ok ()) → ∀ i,
        (covers (mem d1.bus) i → i < dest1.length →
          ∃ v, dest2[i]? = some v ∧ good (mem d1.bus) d1.effectiveEmissivity d1.reflectedTemperature i v) ∧
        (¬ covers (mem d1.bus) i → dest2[i]? = dest1[i]?)) (i : Nat) :
    (∀ before e M em tr after, events = before ++ e :: after → e.draws = some (M, em, tr) → covers M i →
      (∀ e' ∈ after, ∀ M' em' tr', e'.draws = some (M', em', tr') → ¬ covers M' i) → i < dest.length →
      ∃ v, dest1[i]? = some v ∧ good M em tr i v) ∧
    ((∀ e ∈ events, ∀ M em tr, e.draws = some (M, em, tr) → ¬ covers M i) → dest1[i]? = dest[i]?) := by
  have sing : ∀ {α : Type} {l : List α} {x : α}, x ∈ l ++ [x] :=
    fun {_ _ _} => List.mem_append_right _ (List.mem_singleton_self _)
  -- an event that leaves the buffer alone
  have quiet : ∀ {ev : List (Event F ER EW)} {x : Event F ER EW} {dest1 : List F}, x.draws = none →
      ((∀ before e M em tr after, ev = before ++ e :: after → e.draws = some (M, em, tr) → covers M i →
        (∀ e' ∈ after, ∀ M' em' tr', e'.draws = some (M', em', tr') → ¬ covers M' i) → i < dest.length →
        ∃ v, dest1[i]? = some v ∧ good M em tr i v) ∧
      ((∀ e ∈ ev, ∀ M em tr, e.draws = some (M, em, tr) → ¬ covers M i) → dest1[i]? = dest[i]?)) →
      ((∀ before e M em tr after, ev ++ [x] = before ++ e :: after → e.draws = some (M, em, tr) → covers M i →
        (∀ e' ∈ after, ∀ M' em' tr', e'.draws = some (M', em', tr') → ¬ covers M' i) → i < dest.length →
        ∃ v, dest1[i]? = some v ∧ good M em tr i v) ∧
      ((∀ e ∈ ev ++ [x], ∀ M em tr, e.draws = some (M, em, tr) → ¬ covers M i) → dest1[i]? = dest[i]?)) := by
    rintro ev x dest1 hq ⟨h1, h2⟩
    refine ⟨fun before e M em tr after he hd hc hn hi => ?_, fun hn => ?_⟩
    · obtain ⟨after', rfl, h4⟩ := split_last (by rintro rfl; rw [hq] at hd; exact nomatch hd) he
      exact h1 before e M em tr after' h4 hd hc (fun e' hm => hn e' (List.mem_append_left _ hm)) hi
    · exact h2 fun e hm => hn e (List.mem_append_left _ hm)
  -- an event that draws
  have draw : ∀ {ev : List (Event F ER EW)} {x : Event F ER EW} {dest1 dest2 : List F} {d1 : Driver F σ},
      dest1.length = dest.length → x.draws = some (mem d1.bus, d1.effectiveEmissivity, d1.reflectedTemperature) →
      ((covers (mem d1.bus) i → i < dest1.length →
          ∃ v, dest2[i]? = some v ∧ good (mem d1.bus) d1.effectiveEmissivity d1.reflectedTemperature i v) ∧
        (¬ covers (mem d1.bus) i → dest2[i]? = dest1[i]?)) →
      ((∀ before e M em tr after, ev = before ++ e :: after → e.draws = some (M, em, tr) → covers M i →
        (∀ e' ∈ after, ∀ M' em' tr', e'.draws = some (M', em', tr') → ¬ covers M' i) → i < dest.length →
        ∃ v, dest1[i]? = some v ∧ good M em tr i v) ∧
      ((∀ e ∈ ev, ∀ M em tr, e.draws = some (M, em, tr) → ¬ covers M i) → dest1[i]? = dest[i]?)) →
      ((∀ before e M em tr after, ev ++ [x] = before ++ e :: after → e.draws = some (M, em, tr) → covers M i →
        (∀ e' ∈ after, ∀ M' em' tr', e'.draws = some (M', em', tr') → ¬ covers M' i) → i < dest.length →
        ∃ v, dest2[i]? = some v ∧ good M em tr i v) ∧
      ((∀ e ∈ ev ++ [x], ∀ M em tr, e.draws = some (M, em, tr) → ¬ covers M i) → dest2[i]? = dest[i]?)) := by
    rintro ev x dest1 dest2 d1 hlen hq ⟨h3, h4⟩ ⟨h1, h2⟩
    refine ⟨fun before e M em tr after he hd hc hn hi => ?_, fun hn => ?_⟩
    · rcases List.eq_nil_or_concat after with rfl | ⟨after', e', rfl⟩
      · have := (List.append_inj' he rfl).2
        simp only [List.cons.injEq, and_true] at this
        rw [← this, hq, Option.some.injEq, Prod.mk.injEq, Prod.mk.injEq] at hd
        obtain ⟨rfl, rfl, rfl⟩ := hd
        exact h3 hc (by rw [hlen]; exact hi)
      · rw [List.concat_eq_append] at he hn
        rw [← List.cons_append, ← List.append_assoc] at he
        obtain ⟨h5, h6⟩ := List.append_inj' he rfl
        simp only [List.cons.injEq, and_true] at h6
        subst h6
        rw [h4 (hn _ sing _ _ _ hq)]
        exact h1 before e M em tr after' h5 hd hc (fun e' hm => hn e' (List.mem_append_left _ hm)) hi
    · rw [h4 (hn _ sing _ _ _ hq)]
      exact h2 fun e hm => hn e (List.mem_append_left _ hm)
  induction hx with
  | start => exact ⟨fun before e M em tr after he => (by cases before <;> cases he), fun _ => rfl⟩
  | measured s hx _ _ ih => exact quiet rfl (ih (hP _ _ hp))
  | call op hx ih => exact quiet rfl (ih (hP _ _ hp))
  | image hx hq ih =>
    obtain ⟨hs1, ha, _⟩ := watch_supported hs hx
    obtain ⟨s1, d3, h1, h2, h3⟩ := ifReady_draws hs1 (by rw [ha]; exact h) hq (Or.inl rfl)
    exact draw (watch_length hs hx) rfl (step _ _ _ _ _ _ _ hx hp rfl h1 h2 h3 i) (ih (hP _ _ hp))
  | idle hx hq ih =>
    have ha := (watch_supported hs hx).2.1
    have hd := (ifReady_idle (by rw [ha]; exact h) hq).2
    rw [hd]
    exact quiet rfl (ih (hP _ _ hp))
  | @failed ev d1 d2 dest1 dest2 e hx hq ih =>
    obtain ⟨hs1, ha, _⟩ := watch_supported hs hx
    cases e with
    | i2cWrite x =>
      obtain ⟨s1, d3, h1, h2, h3⟩ := ifReady_draws hs1 (by rw [ha]; exact h) hq (Or.inr ⟨x, rfl⟩)
      exact draw (watch_length hs hx) rfl (step _ _ _ _ _ _ _ hx hp rfl h1 h2 h3 i) (ih (hP _ _ hp))
    | i2cWriteRead x =>
      rw [ifReady_failed hs1 hq (fun _ => nofun)]
      exact quiet rfl (ih (hP _ _ hp))
    | library x =>
      rw [ifReady_failed hs1 hq (fun _ => nofun)]
      exact quiet rfl (ih (hP _ _ hp))

end

theorem supported_of_new (m : Mode) {b : Bus σ ER EW} {s s' : σ} {addr : Byte} {d : Driver F σ} {n : Nat}
    (hd : (n = 24 ∧ Driver.new640 m b s addr = (s', .ok d)) ∨ (n = 12 ∧ Driver.new641 m b s addr = (s', .ok d))) :
    Supported (⟨m, n, b⟩ : Env σ ER EW) d ∧ d.addr = addr := by
  rcases hd with ⟨rfl, hd⟩ | ⟨rfl, hd⟩
  · exact (C39_constructed_drivers_supported m b s addr).1 s' d hd
  · exact (C39_constructed_drivers_supported m b s addr).2 s' d hd

/-- **C82.** Watching a camera with `generate_image_if_ready`, on a bus that may fail at any time, and calling any other methods
in between:
* there are never more images than measurements (and one, if the new-data flag was set when the driver was made);
* an image is made only of a measurement that has not been acknowledged before - by an image, `reset_data_available` or
  `synchronize` -;
* no measurement is lost: after it, until an image (or a successful `reset_data_available`, or a `synchronize`),
  `generate_image_if_ready` never returns `Ok(false)`, even if it failed before;
* until the next measurement, what is read is that measurement: its RAM and its subpage. -/
theorem C82_each_measurement_once (m : Mode) (b : Bus σ ER EW) (s s' : σ) (addr : Byte) (h : StaticMemory b addr mem)
    (d : Driver F σ) (n : Nat)
    (hd : (n = 24 ∧ Driver.new640 m b s addr = (s', .ok d)) ∨ (n = 12 ∧ Driver.new641 m b s addr = (s', .ok d)))
    (dest : List F) (events : List (Event F ER EW)) (d1 : Driver F σ) (dest1 : List F)
    (hx : Watch ⟨m, n, b⟩ mem d dest events d1 dest1) :
    events.countP Event.isImage ≤
      events.countP Event.isMeasurement + (if (mem s 0x8000#16).getLsbD 3 = true then 1 else 0) ∧
    (∀ d2 dest2, Driver.generateImageIfReady ⟨m, n, b⟩ dest1 d1 = (d2, dest2, .ok true) →
      (∃ before M after, events = before ++ .measured M :: after ∧ ∀ e ∈ after, ¬ e.clears) ∨
      ((mem s 0x8000#16).getLsbD 3 = true ∧ ∀ e ∈ events, ¬ e.clears)) ∧
    (∀ before M after, events = before ++ .measured M :: after → (∀ e ∈ after, ¬ e.mayClear) →
      ∀ d2 dest2, Driver.generateImageIfReady ⟨m, n, b⟩ dest1 d1 ≠ (d2, dest2, .ok false)) ∧
    (∀ before M after, events = before ++ .measured M :: after → (∀ e ∈ after, e.isMeasurement = false) →
      (∀ a, a ≠ 0x8000#16 → a ≠ 0x800D#16 → mem d1.bus a = M a) ∧
      statusSubpage (mem d1.bus 0x8000#16) = statusSubpage (M 0x8000#16)) := by
  obtain ⟨hs, ha⟩ := supported_of_new m hd
  have hmem : mem d.bus = mem s := by
    rcases hd with ⟨rfl, hd⟩ | ⟨rfl, hd⟩
    · exact (new_static h hd).1
    · exact (new_static h hd).1
  have hst : StaticMemory (⟨m, n, b⟩ : Env σ ER EW).bus d.addr mem := by rw [ha]; exact h
  have hst1 : StaticMemory (⟨m, n, b⟩ : Env σ ER EW).bus d1.addr mem := by
    rw [(watch_supported hs hx).2.1]; exact hst
  rw [← hmem]
  refine ⟨?_, fun d2 dest2 hp => ?_, fun before M after he hn d2 dest2 hp => ?_, fun before M after he hn => ?_⟩
  · exact le_trans (Nat.le_add_right _ _) (images_counted hs hst hx)
  · exact flag_pending hs hst hx (ifReady_reduces _ _ hst1 _ _ _ hp).1
  · have h1 := flag_stays hs hst hx before after M he hn
    rw [(ifReady_idle hst1 hp).1] at h1
    cases h1
  · obtain ⟨h1, h2⟩ := frame_stays hs hst hx before after M he hn
    refine ⟨h1, ?_⟩
    unfold statusSubpage
    rw [h2 0 (by omega)]

/-- **C82 (a healthy camera).** On a bus that serves the documented accesses (and with overflow checks, if the supply voltage
word is not too far from its reference), after a measurement and until a call that clears the flag,
`generate_image_if_ready` returns `Ok(true)`. -/
theorem C82_ready_after_measurement (m : Mode) (b : Bus σ ER EW) (s s' : σ) (addr : Byte) (h : StaticMemory b addr mem)
    (d : Driver F σ) (n : Nat)
    (hd : (n = 24 ∧ Driver.new640 m b s addr = (s', .ok d)) ∨ (n = 12 ∧ Driver.new641 m b s addr = (s', .ok d)))
    (hv : Serves b d.calib.cam addr mem)
    (dest : List F) (before after : List (Event F ER EW)) (M : Word → Word) (d1 : Driver F σ) (dest1 : List F)
    (hx : Watch ⟨m, n, b⟩ mem d dest (before ++ .measured M :: after) d1 dest1)
    (hfit : SupplyFits m d.calib (mem d1.bus)) (hn : ∀ e ∈ after, ¬ e.mayClear) :
    ∃ d2 dest2, Driver.generateImageIfReady ⟨m, n, b⟩ dest1 d1 = (d2, dest2, .ok true) := by
  obtain ⟨hs, ha⟩ := supported_of_new m hd
  obtain ⟨hs1, ha1, hc1⟩ := watch_supported hs hx
  have hst1 : StaticMemory (⟨m, n, b⟩ : Env σ ER EW).bus d1.addr mem := by rw [ha1, ha]; exact h
  have hk := (constructed_complete (hd.imp And.right And.right)).kSTo
  have ok := healthy_call hs1 (by rw [hc1]; exact hk) hst1 (by rw [hc1, ha1, ha]; exact hv) (by rw [hc1]; exact hfit)
    (.generateImageIfReady dest1)
  have no := fun d2 dest2 => (C82_each_measurement_once m b s s' addr h d n hd dest _ d1 dest1 hx).2.2.1
    before M after rfl hn d2 dest2
  have ok : (discardImage (Driver.generateImageIfReady ⟨m, n, b⟩ dest1 d1)).2 = .ok () := ok
  revert ok no
  generalize Driver.generateImageIfReady ⟨m, n, b⟩ dest1 d1 = q
  obtain ⟨d2, dest2, r⟩ := q
  intro no ok
  unfold discardImage discard at ok
  match r, ok, no with
  | .ok true, _, _ => exact ⟨d2, dest2, rfl⟩
  | .ok false, _, no => exact absurd rfl (no d2 dest2)
  | .err e, ok, _ => cases ok
  | .panic, ok, _ => cases ok

/-- The session up to a drawing, including the read of the status register. -/
theorem drawing_session {env : Env σ ER EW} {d d1 : Driver F σ} {dest dest1 : List F} {ev : List (Event F ER EW)} {s1 : σ}
    (hx : Watch env mem d dest ev d1 dest1) (hn : ∀ op outcome, .call op outcome ∈ ev → ¬ ControlWriteFailed op outcome)
    (h1 : (Op.overwriteEnabled.exec env d1).1 = { d1 with bus := s1 }) :
    ∃ calls, Session env mem anyFrame d calls { d1 with bus := s1 } ∧ ∀ c ∈ calls, ¬ ControlWriteFailed c.1 c.2 := by
  obtain ⟨calls, hses, hcalls⟩ := watch_session hx
  refine ⟨_, h1 ▸ Session.call .overwriteEnabled hses, fun c hc => ?_⟩
  rcases List.mem_append.1 hc with hc | hc
  · rcases hcalls c hc with h2 | h2
    · exact hn _ _ h2
    · rintro ⟨h3, _⟩
      rw [h2] at h3
      cases h3
  · rw [List.mem_singleton.1 hc]
    rintro ⟨h3, _⟩
    cases h3

/-- **C83 (MLX90640).** Watching a camera: after any events (without a failing control register write, and with supply voltages
within 16 bits of their reference), every element of the buffer is the documented temperature - as a function of the camera's
memory and the settings at the time of that image - of the newest image that covers its pixel, including images that were
completed but could not be acknowledged; what no image covered still is what it was, whatever else failed. (In exact
arithmetic.) -/
theorem C83_newest_pixels_640 (m : Mode) (b : Bus σ ER EW) (s s' : σ) (addr : Byte) (h : StaticMemory b addr mem)
    (d : Driver ℝ σ) (hd : Driver.new640 m b s addr = (s', .ok d)) (hreg : Ee640.Regular (eepromOf (mem s)))
    (dest : List ℝ) (events : List (Event ℝ ER EW)) (d1 : Driver ℝ σ) (dest1 : List ℝ)
    (hx : Watch ⟨m, 24, b⟩ mem d dest events d1 dest1)
    (hn : ∀ op outcome, .call op outcome ∈ events → ¬ ControlWriteFailed op outcome)
    (hfit : ∀ e ∈ events, ∀ M em tr, e.draws = some (M, em, tr) →
      Fits16 ((M 0x072A#16).toInt - (Ee640.calibration (eepromOf M)).vdd25)) :
    dest1.length = dest.length ∧ ∀ i,
      (∀ before e M em tr after, events = before ++ e :: after → e.draws = some (M, em, tr) → covers640 M i →
        (∀ e' ∈ after, ∀ M' em' tr', e'.draws = some (M', em', tr') → ¬ covers640 M' i) → i < dest.length →
        dest1[i]? = some (Mlx90640Memory.temperature M em tr (statusSubpage (M 0x8000#16)) i)) ∧
      ((∀ e ∈ events, ∀ M em tr, e.draws = some (M, em, tr) → ¬ covers640 M i) → dest1[i]? = dest[i]?) := by
  obtain ⟨hs, ha⟩ := supported_of_new m (n := 24) (Or.inl ⟨rfl, hd⟩)
  have hst : StaticMemory (⟨m, 24, b⟩ : Env σ ER EW).bus d.addr mem := by rw [ha]; exact h
  refine ⟨watch_length hs hx, fun i => ?_⟩
  have key := watch_drawn hs hx covers640
    (fun M em tr i v => v = Mlx90640Memory.temperature M em tr (statusSubpage (M 0x8000#16)) i)
    (fun events => (∀ op outcome, .call op outcome ∈ events → ¬ ControlWriteFailed op outcome) ∧
      ∀ e ∈ events, ∀ M em tr, e.draws = some (M, em, tr) →
        Fits16 ((M 0x072A#16).toInt - (Ee640.calibration (eepromOf M)).vdd25))
    (fun ev e hp => ⟨fun op o hm => hp.1 op o (List.mem_append_left _ hm), fun e hm => hp.2 e (List.mem_append_left _ hm)⟩)
    ⟨hn, hfit⟩ hst (fun ev e d1 dest1 s1 d3 dest2 hx hp hdr h1 hm hq i => ?_) i
  · refine ⟨fun before e M em tr after he hdr hc hl hi => ?_, key.2⟩
    obtain ⟨v, h1, rfl⟩ := key.1 before e M em tr after he hdr hc hl hi
    exact h1
  · obtain ⟨calls, hses, hno⟩ := drawing_session hx (fun op o hm => hp.1 op o (List.mem_append_left _ hm)) h1
    have c66 := (C66_camera_640 m b s s' addr h d hd hreg calls _ hses hno dest1 dest2 d3).2
    simp only [hm] at c66
    obtain ⟨_, _, h2⟩ := (c66 (hp.2 _ (List.mem_append_right _ (List.mem_singleton_self _)) _ _ _ hdr)).2.1 _ hq
    exact ⟨fun hc hi => ⟨_, (h2 i).1 hc hi, rfl⟩, (h2 i).2⟩

/-- **C83 (MLX90641).** The same for the MLX90641, whose images cover all pixels: every element is from the newest image. -/
theorem C83_newest_pixels_641 (m : Mode) (b : Bus σ ER EW) (s s' : σ) (addr : Byte) (h : StaticMemory b addr mem)
    (d : Driver ℝ σ) (hd : Driver.new641 m b s addr = (s', .ok d)) (D : Nat → BitVec 11) (hreg : Ee641.Regular D)
    (hD : ∀ a ∈ Ee641.readAddresses 192, WithinOneBit (eepromOf (mem s) a) (codeword (D a)))
    (dest : List ℝ) (events : List (Event ℝ ER EW)) (d1 : Driver ℝ σ) (dest1 : List ℝ)
    (hx : Watch ⟨m, 12, b⟩ mem d dest events d1 dest1)
    (hn : ∀ op outcome, .call op outcome ∈ events → ¬ ControlWriteFailed op outcome)
    (hfit : ∀ e ∈ events, ∀ M em tr, e.draws = some (M, em, tr) →
      Fits16 ((M 0x05AA#16).toInt - (Ee641.calibration D).vdd25)) :
    dest1.length = dest.length ∧ ∀ i,
      (∀ before e M em tr after, events = before ++ e :: after → e.draws = some (M, em, tr) → i < 192 →
        (∀ e' ∈ after, e'.draws = none) → i < dest.length →
        dest1[i]? = some (Mlx90641Memory.temperature M D em tr (statusSubpage (M 0x8000#16)) i)) ∧
      ((192 ≤ i ∨ ∀ e ∈ events, e.draws = none) → dest1[i]? = dest[i]?) := by
  obtain ⟨hs, ha⟩ := supported_of_new m (n := 12) (Or.inr ⟨rfl, hd⟩)
  have hst : StaticMemory (⟨m, 12, b⟩ : Env σ ER EW).bus d.addr mem := by rw [ha]; exact h
  refine ⟨watch_length hs hx, fun i => ?_⟩
  have key := watch_drawn hs hx (fun _ i => i < 192)
    (fun M em tr i v => v = Mlx90641Memory.temperature M D em tr (statusSubpage (M 0x8000#16)) i)
    (fun events => (∀ op outcome, .call op outcome ∈ events → ¬ ControlWriteFailed op outcome) ∧
      ∀ e ∈ events, ∀ M em tr, e.draws = some (M, em, tr) → Fits16 ((M 0x05AA#16).toInt - (Ee641.calibration D).vdd25))
    (fun ev e hp => ⟨fun op o hm => hp.1 op o (List.mem_append_left _ hm), fun e hm => hp.2 e (List.mem_append_left _ hm)⟩)
    ⟨hn, hfit⟩ hst (fun ev e d1 dest1 s1 d3 dest2 hx hp hdr h1 hm hq i => ?_) i
  · refine ⟨fun before e M em tr after he hdr hc hl hi => ?_, fun hl => key.2 fun e hm M em tr hdr => ?_⟩
    · obtain ⟨v, h1, rfl⟩ := key.1 before e M em tr after he hdr hc
        (fun e' hm M' em' tr' hdr => by rw [hl e' hm] at hdr; exact nomatch hdr) hi
      exact h1
    · rcases hl with hl | hl
      · omega
      · rw [hl e hm] at hdr
        exact nomatch hdr
  · obtain ⟨calls, hses, hno⟩ := drawing_session hx (fun op o hm => hp.1 op o (List.mem_append_left _ hm)) h1
    have c66 := (C66_camera_641 m b s s' addr h d hd D hreg hD calls _ hses hno dest1 dest2 d3).2
    simp only [hm] at c66
    obtain ⟨_, _, h2⟩ := (c66 (hp.2 _ (List.mem_append_right _ (List.mem_singleton_self _)) _ _ _ hdr)).2.1 _ hq
    exact ⟨fun hc hi => ⟨_, (h2 i).1 hc hi, rfl⟩, (h2 i).2⟩

/-- In the same access pattern, every pixel is covered by one of the two subpages, and only by one. -/
theorem covers_either {M1 M2 : Word → Word} (hp : pattern (M1 0x800D#16) = pattern (M2 0x800D#16))
    (hne : statusSubpage (M1 0x8000#16) ≠ statusSubpage (M2 0x8000#16)) {i : Nat} (hi : i < 768) :
    covers640 M1 i ↔ ¬ covers640 M2 i := by
  unfold covers640 Mlx90640Memory.measured
  rw [hp]
  have h1 : (i / 32 + i % 32) % 2 < 2 := Nat.mod_lt _ (by decide)
  have h2 : i / 32 % 2 < 2 := Nat.mod_lt _ (by decide)
  generalize (i / 32 + i % 32) % 2 = p at *
  generalize i / 32 % 2 = q at *
  have z : Subpage.zero.toNat = 0 := rfl
  have o : Subpage.one.toNat = 1 := rfl
  revert hne
  cases statusSubpage (M1 0x8000#16) <;> cases statusSubpage (M2 0x8000#16) <;> cases pattern (M2 0x800D#16) <;> intro hne
  all_goals first
    | exact absurd rfl hne
    | (simp only [z, o]; omega)

/-- **C83 (a whole MLX90640 picture).** When the two newest images are of different subpages in the same access pattern, every
pixel of the buffer is from one of these two - no pixel is older -: those of the newest image's subpage from the newest, all
others from the one before. -/
theorem C83_two_subpages_640 (m : Mode) (b : Bus σ ER EW) (s s' : σ) (addr : Byte) (h : StaticMemory b addr mem)
    (d : Driver ℝ σ) (hd : Driver.new640 m b s addr = (s', .ok d)) (hreg : Ee640.Regular (eepromOf (mem s)))
    (dest : List ℝ) (events : List (Event ℝ ER EW)) (d1 : Driver ℝ σ) (dest1 : List ℝ)
    (hx : Watch ⟨m, 24, b⟩ mem d dest events d1 dest1)
    (hn : ∀ op outcome, .call op outcome ∈ events → ¬ ControlWriteFailed op outcome)
    (hfit : ∀ e ∈ events, ∀ M em tr, e.draws = some (M, em, tr) →
      Fits16 ((M 0x072A#16).toInt - (Ee640.calibration (eepromOf M)).vdd25))
    (before mid after : List (Event ℝ ER EW)) (e1 e2 : Event ℝ ER EW) (M1 M2 : Word → Word) (em1 em2 : ℝ) (tr1 tr2 : Option ℝ)
    (he : events = before ++ e1 :: (mid ++ e2 :: after))
    (hd1 : e1.draws = some (M1, em1, tr1)) (hd2 : e2.draws = some (M2, em2, tr2))
    (hmid : ∀ e ∈ mid ++ after, e.draws = none)
    (hsub : statusSubpage (M1 0x8000#16) ≠ statusSubpage (M2 0x8000#16))
    (hpat : pattern (M1 0x800D#16) = pattern (M2 0x800D#16)) (i : Nat) (hi : i < 768) (hlen : i < dest.length) :
    (Mlx90640Memory.measured M2 (statusSubpage (M2 0x8000#16)) i ∧
      dest1[i]? = some (Mlx90640Memory.temperature M2 em2 tr2 (statusSubpage (M2 0x8000#16)) i)) ∨
    (Mlx90640Memory.measured M1 (statusSubpage (M1 0x8000#16)) i ∧
      dest1[i]? = some (Mlx90640Memory.temperature M1 em1 tr1 (statusSubpage (M1 0x8000#16)) i)) := by
  have key := ((C83_newest_pixels_640 m b s s' addr h d hd hreg dest events d1 dest1 hx hn hfit).2 i).1
  have none : ∀ e ∈ mid ++ after, ∀ M' em' tr', e.draws = some (M', em', tr') → ¬ covers640 M' i := by
    intro e hm M' em' tr' hdr
    rw [hmid e hm] at hdr
    exact nomatch hdr
  by_cases hc : covers640 M2 i
  · exact Or.inl ⟨hc, key (before ++ e1 :: mid) e2 M2 em2 tr2 after (by rw [he]; simp) hd2 hc
      (fun e' hm => none e' (List.mem_append_right _ hm)) hlen⟩
  · have hc1 := (covers_either hpat hsub hi).2 hc
    refine Or.inr ⟨hc1, key before e1 M1 em1 tr1 _ he hd1 hc1 (fun e' hm => ?_) hlen⟩
    rcases List.mem_append.1 hm with hm | hm
    · exact none e' (List.mem_append_left _ hm)
    · rcases List.mem_cons.1 hm with rfl | hm
      · intro M' em' tr' hdr
        rw [hd2, Option.some.injEq, Prod.mk.injEq] at hdr
        rw [← hdr.1]; exact hc
      · exact none e' (List.mem_append_right _ hm)

/-- A camera with the EEPROM of the worked example: two measurements, of subpage 0 and of subpage 1, each of which is turned
into an image. Everything that C82 and C83 assume holds. -/
example (m : Mode) (dest : List ℝ) :
    ∃ s' d, Driver.new640 m (cameraBus 0x33#8) (exampleMemory words640) 0x33#8 = (s', .ok d) ∧
    ∃ M1 M2 M1' M2' em1 em2 tr1 tr2 d1 dest1, Watch ⟨m, 24, cameraBus 0x33#8⟩ id d dest
        [.measured M1, .image M1' em1 tr1, .measured M2, .image M2' em2 tr2] d1 dest1 ∧
      statusSubpage (M1' 0x8000#16) ≠ statusSubpage (M2' 0x8000#16) ∧ pattern (M1' 0x800D#16) = pattern (M2' 0x800D#16) ∧
      Ee640.Regular (eepromOf (exampleMemory words640)) ∧
      Fits16 ((M1' 0x072A#16).toInt - (Ee640.calibration (eepromOf M1')).vdd25) ∧
      Fits16 ((M2' 0x072A#16).toInt - (Ee640.calibration (eepromOf M2')).vdd25) := by
  obtain ⟨s', d, hd, hreg, hfit, hcal, hbus, hsup⟩ := camera640_example m
  have hst := cameraBus_static 0x33#8
  have hv : Serves (cameraBus 0x33#8) d.calib.cam 0x33#8 id := cameraBus_serves _ _
  have hn : (24 = 24 ∧ Driver.new640 m (cameraBus 0x33#8) (exampleMemory words640) 0x33#8 = (s', .ok d)) ∨
      (24 = 12 ∧ Driver.new641 m (cameraBus 0x33#8) (exampleMemory words640) 0x33#8 = (s', .ok d)) := Or.inl ⟨rfl, hd⟩
  have hs := (supported_of_new m hn)
  let env : Env (Word → Word) Unit Unit := ⟨m, 24, cameraBus 0x33#8⟩
  let M1 := setWord (exampleMemory words640) 0x8000#16 0x0008#16
  have same : ∀ (M : Word → Word), (∀ a, a ≠ 0x8000#16 → M a = exampleMemory words640 a) → SupplyFits m d.calib M ∧
      Fits16 ((M 0x072A#16).toInt - (Ee640.calibration (eepromOf M)).vdd25) := by
    intro M hM
    have he : Ee640.calibration (eepromOf M) = Ee640.calibration (eepromOf (exampleMemory words640)) := by
      refine SameEeprom.calibration fun a h1 h2 => hM _ fun hc => (eeprom_still h1 h2).1 (Or.inr hc)
    rw [he, hM _ (by decide)]
    refine ⟨Or.inr ?_, hfit⟩
    rw [hcal]
    show Fits16 ((M 0x072A#16).toInt - _)
    rw [hM _ (by decide)]
    exact hfit
  have w1 : Watch env id d dest ([] ++ [.measured M1]) { d with bus := M1 } dest := by
    refine .measured (mem := id) M1 .start (fun a ha => ?_)
      (by show (setWord _ _ _ _).getLsbD 3 = true; unfold setWord; rw [if_pos rfl]; decide)
    show setWord _ _ _ a = d.bus a
    rw [hbus]
    unfold setWord
    rw [if_neg fun hc => ha (Or.inr hc)]
  have m1 : ∀ a, a ≠ 0x8000#16 → M1 a = exampleMemory words640 a := fun a ha => by
    show setWord _ _ _ a = _
    unfold setWord
    rw [if_neg ha]
  obtain ⟨d2, dest2, p1⟩ := C82_ready_after_measurement m _ _ s' _ hst d 24 hn hv dest [] [] M1 _ dest w1
    (same M1 m1).1 (fun e he => nomatch he)
  have w2 := Watch.image w1 p1
  have hs2 := watch_supported hs.1 w2
  have b2 : ∀ a, a ≠ 0x8000#16 → a ≠ 0x800D#16 → d2.bus a = exampleMemory words640 a := by
    intro a h1 h2
    have := poll_memory (mem := id) (watch_supported hs.1 w1).1 (by rw [hs.2]; exact hst) p1 a h1 h2
    exact this.trans (m1 a h1)
  have hctl : d2.bus 0x800D#16 = M1 0x800D#16 := by
    have := (exec_static_other (mem := id) (watch_supported hs.1 w1).1 (by rw [hs.2]; exact hst)
      (.generateImageIfReady dest) rfl).1 0x800D#16 (by decide)
    rw [exec_ifReady p1] at this
    exact this
  let M2 := setWord d2.bus 0x8000#16 0x0009#16
  have w3 := Watch.measured (env := env) (mem := id) M2 w2 (fun a ha => by
    show setWord _ _ _ a = d2.bus a
    unfold setWord
    rw [if_neg fun hc => ha (Or.inr hc)]) (by
    show (setWord _ _ _ _).getLsbD 3 = true
    unfold setWord
    rw [if_pos rfl]
    decide)
  have m2 : ∀ a, a ≠ 0x8000#16 → M2 a = exampleMemory words640 a := fun a ha => by
    show setWord _ _ _ a = _
    unfold setWord
    rw [if_neg ha]
    by_cases hc : a = 0x800D#16
    · subst hc
      rw [hctl, m1 _ ha]
    · exact b2 a ha hc
  obtain ⟨d4, dest4, p2⟩ := C82_ready_after_measurement m _ _ s' _ hst d 24 hn hv dest _ [] M2 _ dest2 w3
    (same M2 m2).1 (fun e he => nomatch he)
  refine ⟨s', d, hd, M1, M2, M1, M2, _, _, _, _, d4, dest4, .image w3 p2, ?_, ?_, hreg, (same M1 m1).2, (same M2 m2).2⟩
  · show statusSubpage 0x0008#16 ≠ statusSubpage 0x0009#16
    decide
  · show pattern (M1 0x800D#16) = pattern (M2 0x800D#16)
    rw [m1 _ (by decide), m2 _ (by decide)]

end Mlx.Props
