import Verif.Spec.Session
import Verif.Props.Static
import Verif.Proofs.Thermometer
/-
What a session leaves unchanged.
-/
set_option linter.unusedSectionVars false
set_option autoImplicit false
namespace Mlx.Proofs
open Mlx Mlx.Spec Mlx.Props F32Ops
variable {F σ ER EW : Type} [F32Ops F] {env : Env σ ER EW} {mem : σ → Word → Word} {frame : (Word → Word) → Prop}
variable {d d1 : Driver F σ} {calls : List (Op F × Res (Err ER EW) Unit)}

theorem session_mono {frame' : (Word → Word) → Prop} (hf : ∀ M, frame M → frame' M)
    (hx : Session env mem frame d calls d1) : Session env mem frame' d calls d1 := by
  induction hx with
  | start => exact .start
  | call op _ ih => exact .call op ih
  | measurement s _ h1 h2 ih => exact .measurement s ih h1 (hf _ h2)

theorem session_any (hx : Session env mem frame d calls d1) : Session env mem anyFrame d calls d1 :=
  session_mono (fun _ _ => trivial) hx

theorem session_supported (hs : Supported env d) (hx : Session env mem frame d calls d1) :
    Supported env d1 ∧ d1.addr = d.addr ∧ d1.calib = d.calib := by
  induction hx with
  | start => exact ⟨hs, rfl, rfl⟩
  | call op _ ih =>
    obtain ⟨h1, h2, h3⟩ := ih
    obtain ⟨h4, h5, h6⟩ := exec_supported h1 op
    exact ⟨h4, h5.trans h2, h6.trans h3⟩
  | measurement s _ _ _ ih => exact ⟨⟨ih.1.1, ih.1.2, ih.1.3⟩, ih.2⟩

/-- A call changes no word but the two registers. -/
theorem exec_static (hs : Supported env d) (h : StaticMemory env.bus d.addr mem) (op : Op F) (a : Word)
    (h1 : a ≠ 0x8000#16) (h2 : a ≠ 0x800D#16) : mem (op.exec env d).1.bus a = mem d.bus a :=
  history_static env d hs h [op] a h1 h2

theorem session_memory (hs : Supported env d) (h : StaticMemory env.bus d.addr mem)
    (hx : Session env mem frame d calls d1) (a : Word) (h1 : ¬ Volatile a) (h2 : a ≠ 0x800D#16) :
    mem d1.bus a = mem d.bus a := by
  induction hx with
  | start => rfl
  | call op hx ih =>
    obtain ⟨hs1, ha, _⟩ := session_supported hs hx
    exact (exec_static hs1 (by rw [ha]; exact h) op a (fun hc => h1 (Or.inr hc)) h2).trans ih
  | measurement s _ hk _ ih => exact (hk a h1).trans ih

theorem session_caches (hs : Supported env d) (h : StaticMemory env.bus d.addr mem) (hc : Caches d (mem d.bus 0x800D#16))
    (hx : Session env mem frame d calls d1) (hn : ∀ c ∈ calls, ¬ ControlWriteFailed c.1 c.2) :
    Caches d1 (mem d1.bus 0x800D#16) := by
  induction hx with
  | start => exact hc
  | call op hx ih =>
    obtain ⟨hs1, ha, _⟩ := session_supported hs hx
    refine (C47_each_call env _ hs1 (by rw [ha]; exact h) op).1 (ih fun c hc => hn c (List.mem_append_left _ hc)) ?_
    exact hn _ (List.mem_append_right _ (List.mem_singleton_self _))
  | measurement s _ hk _ ih =>
    have := hk 0x800D#16 (by unfold Volatile; decide)
    rw [this]
    exact ih hn

theorem session_frame (hs : Supported env d) (h : StaticMemory env.bus d.addr mem)
    (hframe : ∀ M M' : Word → Word, (∀ a, a ≠ 0x8000#16 → a ≠ 0x800D#16 → M' a = M a) → frame M → frame M')
    (h0 : frame (mem d.bus)) (hx : Session env mem frame d calls d1) : frame (mem d1.bus) := by
  induction hx with
  | start => exact h0
  | call op hx ih =>
    obtain ⟨hs1, ha, _⟩ := session_supported hs hx
    exact hframe _ _ (fun a h1 h2 => exec_static hs1 (by rw [ha]; exact h) op a h1 h2) ih
  | measurement s _ _ hf _ => exact hf

/-- Words of the EEPROM are changed neither by the camera nor by calls. -/
theorem eeprom_still {a : Nat} (h1 : 0x2400 ≤ a) (h2 : a < 0x2740) :
    ¬ Volatile (BitVec.ofNat 16 a) ∧ BitVec.ofNat 16 a ≠ 0x800D#16 := by
  have ha : (BitVec.ofNat 16 a).toNat = a := by
    rw [BitVec.toNat_ofNat, Nat.mod_eq_of_lt (by omega)]
  constructor
  · rintro (hc | hc)
    · rw [ha] at hc; omega
    · have := congrArg BitVec.toNat hc
      rw [ha] at this
      norm_num at this
      omega
  · intro hc
    have := congrArg BitVec.toNat hc
    rw [ha] at this
    norm_num at this
    omega

/-- Histories are sessions. -/
theorem history_session (ops : List (Op F)) (hx : Session env mem frame d calls d1) :
    ∃ calls', Session env mem frame d calls' (runOps env ops d1) ∧ ∀ c ∈ calls', c ∈ calls ∨
      ∃ before op after, ops = before ++ op :: after ∧ c = (op, (op.exec env (runOps env before d1)).2) := by
  induction ops generalizing d1 calls with
  | nil => exact ⟨calls, hx, fun c hc => Or.inl hc⟩
  | cons op ops ih =>
    obtain ⟨calls', h1, h2⟩ := ih (.call op hx)
    refine ⟨calls', h1, fun c hc => ?_⟩
    rcases h2 c hc with h3 | ⟨before, op', after, h3, h4⟩
    · rcases List.mem_append.1 h3 with h3 | h3
      · exact Or.inl h3
      · rw [List.mem_singleton] at h3
        exact Or.inr ⟨[], op, ops, rfl, h3⟩
    · exact Or.inr ⟨op :: before, op', after, by rw [h3]; rfl, h4⟩

end Mlx.Proofs
