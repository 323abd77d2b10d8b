import Verif.Spec.Watch
import Verif.Proofs.Session
/-
The new-data flag and the frame while a camera is watched.
-/
set_option linter.unusedSectionVars false
set_option autoImplicit false
namespace Mlx.Proofs
open Mlx Mlx.Spec Mlx.Props F32Ops
variable {F σ ER EW : Type} [F32Ops F] {env : Env σ ER EW} {mem : σ → Word → Word}
variable {d : Driver F σ}

/-- What a call does to the status register: `W` before, `W'` after. -/
structure StatusStep (op : Op F) (outcome : Res (Err ER EW) Unit) (W W' : Word) : Prop where
  other : ∀ i, ¬ (3 ≤ i ∧ i ≤ 5) → W'.getLsbD i = W.getLsbD i
  keep : ¬ (clearsFlag op = true ∧ (outcome = .ok () ∨ ∃ fuel, op = .synchronize fuel)) → W'.getLsbD 3 = W.getLsbD 3
  never : W'.getLsbD 3 = true → W.getLsbD 3 = true
  clear : clearsFlag op = true → outcome = .ok () → W'.getLsbD 3 = false

theorem StatusStep.same {op : Op F} {outcome : Res (Err ER EW) Unit} {W W' : Word} (h : W' = W)
    (hc : clearsFlag op = true → outcome = .ok () → W.getLsbD 3 = false) : StatusStep op outcome W W' := by
  subst h
  exact ⟨fun _ _ => rfl, fun _ => rfl, id, hc⟩

/-- After a write attempt the register has the new word or the old one. -/
theorem write_status {b : Bus σ ER EW} {addr : Byte} (h : StaticMemory b addr mem) (s : σ) (w : Word) (M : Word → Word)
    (hM : mem s = M) :
    ((regWrite b s addr 0x8000#16 w).2 = none ∧ mem (regWrite b s addr 0x8000#16 w).1 0x8000#16 = w) ∨
    ((∃ e, (regWrite b s addr 0x8000#16 w).2 = some e) ∧
      mem (regWrite b s addr 0x8000#16 w).1 0x8000#16 = M 0x8000#16) := by
  rw [static_regWrite h]
  cases (regWrite b s addr 0x8000#16 w).2 with
  | none => exact Or.inl ⟨rfl, by simp only [setWord, if_true]⟩
  | some e => exact Or.inr ⟨⟨e, rfl⟩, by simp only [hM]⟩

theorem exec_status (hs : Supported env d) (h : StaticMemory env.bus d.addr mem) (op : Op F) :
    StatusStep op (op.exec env d).2 (mem d.bus 0x8000#16) (mem (op.exec env d).1.bus 0x8000#16) := by
  obtain ⟨hr, hv⟩ := static_regRead h d.bus 0x8000#16
  have ctrl : ∀ op : Op F, usesControl op = true → clearsFlag op = false →
      StatusStep op (op.exec env d).2 (mem d.bus 0x8000#16) (mem (op.exec env d).1.bus 0x8000#16) := by
    intro op hu hc
    refine .same ((exec_static_control h op hu).1 _ (by decide)) fun hc' => ?_
    rw [hc] at hc'; cases hc'
  cases hcl : clearsFlag op with
  | false =>
    revert hcl
    refine op_cases env (P := fun op => clearsFlag op = false →
      StatusStep op (op.exec env d).2 (mem d.bus 0x8000#16) (mem (op.exec env d).1.bus 0x8000#16))
      ?_ ?_ ?_ ?_ ?_ ?_ ?_ ?_ ?_ ?_ ?_ ?_ ?_ op
    · intro op f hf he _ _ _ hu hc; exact ctrl op hu hc
    · intro op f hf v he _ _ _ hu hc; exact ctrl op hu hc
    · intro op he _ _ _ _ hc
      rw [he]
      exact .same (by rw [hr]) fun hc' => by rw [hc] at hc'; cases hc'
    · intro v hc
      show StatusStep _ (discard (Driver.setOverwriteEnabled env v d)).2 _ (mem (Driver.setOverwriteEnabled env v d).1.bus _)
      rw [setOverwrite_eq]
      revert hv hr
      generalize regRead env.bus d.bus d.addr 0x8000#16 = q
      obtain ⟨s1, e | w⟩ := q
      · intro hr _; exact .same (by rw [hr]) fun hc' => by cases hc'
      · intro hr hv
        have hw : w = mem d.bus 0x8000#16 := hv w rfl
        simp only at hr ⊢
        split
        · exact .same (by rw [hr]) fun hc' => by cases hc'
        · have hb := setOverwrite_bits ⟨w⟩ v
          rcases write_status h s1 (StatusReg.setOverwriteEnabled ⟨w⟩ v).raw _ hr with ⟨_, h2⟩ | ⟨_, h2⟩
          · simp only [h2]
            refine ⟨fun i hi => ?_, fun _ => ?_, fun h3 => ?_, fun hc' => by cases hc'⟩
            · rw [hb, if_neg (by omega), hw]
            · rw [hb, if_neg (by omega), hw]
            · rw [hb, if_neg (by omega), hw] at h3; exact h3
          · exact .same h2 fun hc' => by cases hc'
    · intro hc; cases hc
    · intro v _; exact .same rfl fun hc' => by cases hc'
    · intro _; exact .same rfl fun hc' => by cases hc'
    · intro v _; exact .same rfl fun hc' => by cases hc'
    · intro sp dest _
      exact .same (congrFun (static_image hs h sp dest (fun d => toRawImage env.mode d sp dest)) _) fun hc' => by cases hc'
    · intro sp dest _
      exact .same (congrFun (static_image hs h sp dest (fun d => toTemperatures env.mode d sp dest)) _) fun hc' => by cases hc'
    · intro dest _
      refine .same ?_ fun hc' => by cases hc'
      show mem (Driver.generateImageTo env dest d).1.bus _ = _
      rw [generateImageTo_eq]
      cases (regRead env.bus d.bus d.addr 0x8000#16).2 with
      | error e => exact congrFun hr _
      | ok w =>
        simp only
        rw [imageSubpage_eq]
        have hs' : Supported env { d with bus := (regRead env.bus d.bus d.addr 0x8000#16).1 } := ⟨hs.1, hs.2, hs.3⟩
        have hm := static_image hs' h (if w.getLsbD 0 then .one else .zero) dest
          (fun d => toTemperatures env.mode d (if w.getLsbD 0 then .one else .zero) dest)
        exact congrFun (hm.trans hr) _
    · intro dest hc; cases hc
    · intro fuel hc; cases hc
  | true =>
    have hnot : ∀ {W W' : Word} {out : Res (Err ER EW) Unit}, W' = W → out ≠ .ok () → StatusStep op out W W' :=
      fun he ho => .same he fun _ hc => absurd hc ho
    have hedit : ∀ {W' : Word} {out : Res (Err ER EW) Unit},
        (∀ i, W'.getLsbD i = if i = 3 then false else if i = 4 ∨ i = 5 then W'.getLsbD i else
          (mem d.bus 0x8000#16).getLsbD i) → (out = .ok () ∨ ∃ fuel, op = .synchronize fuel) →
        StatusStep op out (mem d.bus 0x8000#16) W' := by
      intro W' out hb ho
      have h3 : W'.getLsbD 3 = false := by rw [hb]; rfl
      refine ⟨fun i hi => ?_, fun hc => ?_, fun hc => ?_, fun _ _ => h3⟩
      · rw [hb, if_neg (by omega), if_neg (by omega)]
      · exact absurd ⟨hcl, ho⟩ hc
      · rw [h3] at hc; cases hc
    cases op with
    | resetDataAvailable =>
      show StatusStep _ (discard (Driver.resetDataAvailable env d)).2 _ (mem (Driver.resetDataAvailable env d).1.bus _)
      rw [resetDataAvailable_eq]
      revert hv hr
      generalize regRead env.bus d.bus d.addr 0x8000#16 = q
      obtain ⟨s1, e | w⟩ := q
      · intro hr _; exact hnot (congrFun hr _) (fun hc => by cases hc)
      · intro hr hv
        have hw : w = mem d.bus 0x8000#16 := hv w rfl
        simp only at hr ⊢
        have hb := resetNewData_bits ⟨w⟩
        rcases write_status h s1 (StatusReg.resetNewData ⟨w⟩).raw _ hr with ⟨h1, h2⟩ | ⟨⟨e, h1⟩, h2⟩
        · rw [h2]
          refine hedit (fun i => ?_) (Or.inl (by rw [h1]; rfl))
          rw [hb, hw]
          split
          · rfl
          · split <;> rfl
        · rw [h1]
          exact hnot h2 (fun hc => by cases hc)
    | generateImageIfReady dest =>
      show StatusStep _ (discardImage (Driver.generateImageIfReady env dest d)).2 _
        (mem (Driver.generateImageIfReady env dest d).1.bus _)
      rw [ifReady_eq]
      revert hv hr
      have hs' : ∀ s1, Supported env { d with bus := s1 } := fun _ => ⟨hs.1, hs.2, hs.3⟩
      generalize regRead env.bus d.bus d.addr 0x8000#16 = q
      obtain ⟨s1, e | w⟩ := q
      · intro hr _; exact hnot (congrFun hr _) (fun hc => by cases hc)
      · intro hr hv
        have hw : w = mem d.bus 0x8000#16 := hv w rfl
        simp only at hr ⊢
        by_cases h3 : w.getLsbD 3 = true
        · simp only [if_pos h3]
          rw [imageSubpage_eq]
          have hk := imageWith_keeps env (if w.getLsbD 0 then .one else .zero) dest { d with bus := s1 }
            (fun d => toTemperatures env.mode d (if w.getLsbD 0 then .one else .zero) dest)
          have hm := static_image (hs' s1) h (if w.getLsbD 0 then .one else .zero) dest
            (fun d => toTemperatures env.mode d (if w.getLsbD 0 then .one else .zero) dest)
          generalize imageWith env (if w.getLsbD 0 then .one else .zero) dest { d with bus := s1 }
            (fun d => toTemperatures env.mode d (if w.getLsbD 0 then .one else .zero) dest) = q at hk hm ⊢
          obtain ⟨d1, dest1, _ | e | _⟩ := q
          · simp only at hk hm ⊢
            have ha : d1.addr = d.addr := hk.1.addr
            have h' : StaticMemory env.bus d1.addr mem := by rw [ha]; exact h
            have hb := resetNewData_bits ⟨w⟩
            rcases write_status h' d1.bus (StatusReg.resetNewData ⟨w⟩).raw _ (hm.trans hr) with ⟨h1, h2⟩ | ⟨⟨e, h1⟩, h2⟩
            · rw [h2]
              refine hedit (fun i => ?_) (Or.inl (by rw [h1]; rfl))
              rw [hb, hw]
              split
              · rfl
              · split <;> rfl
            · rw [h1]
              exact hnot h2 (fun hc => by cases hc)
          · exact hnot (congrFun (hm.trans hr) _) (fun hc => by cases hc)
          · exact hnot (congrFun (hm.trans hr) _) (fun hc => by cases hc)
        · simp only [if_neg h3]
          refine .same (congrFun hr _) fun _ _ => ?_
          rw [← hw]
          simpa using h3
    | synchronize fuel =>
      show StatusStep _ (discard (Driver.synchronize env fuel d)).2 _ (mem (Driver.synchronize env fuel d).1.bus _)
      rw [Props.synchronize_eq]
      revert hv hr
      generalize regRead env.bus d.bus d.addr 0x8000#16 = q
      obtain ⟨s1, e | w⟩ := q
      · intro hr _; exact hnot (congrFun hr _) (fun hc => by cases hc)
      · intro hr hv
        have hw : w = mem d.bus 0x8000#16 := hv w rfl
        simp only at hr ⊢
        rcases write_status h s1 (Props.syncWord w) _ hr with ⟨h1, h2⟩ | ⟨⟨e, h1⟩, h2⟩
        · simp only [h1]
          rw [static_poll (mem := mem) fuel (d := { d with bus := (regWrite env.bus s1 d.addr 0x8000#16 (Props.syncWord w)).1 }) h]
          simp only [h2]
          refine hedit (fun i => ?_) (Or.inr ⟨fuel, rfl⟩)
          rw [Props.syncWord_bits, hw]
          split
          · rfl
          · split <;> rfl
        · simp only [h1]
          exact hnot h2 (fun hc => by cases hc)
    | _ => cases hcl

end Mlx.Proofs
