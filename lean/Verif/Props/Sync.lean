import Verif.Proofs.Image
/-
`synchronize` on any bus with a recorder attached: C48.
-/
set_option linter.unusedSectionVars false
set_option autoImplicit false
namespace Mlx.Props
open Mlx Mlx.Spec Mlx.Proofs F32Ops
variable {F σ ER EW : Type} [F32Ops F]

theorem pollStatus_polling (env : Env σ ER EW) (fuel : Nat) (d : Driver F (σ × List (Txn ER EW))) :
    ∃ s' ts r, Driver.pollStatus (recordedEnv env) fuel d = ({ d with bus := (s', d.bus.2 ++ ts) }, r) ∧
      Polling d.addr fuel ts r := by
  induction fuel generalizing d with
  | zero => exact ⟨d.bus.1, [], .ok false, by simp [Driver.pollStatus]; rfl, [], by simp, Or.inr (Or.inr ⟨rfl, rfl, rfl⟩)⟩
  | succ n ih =>
    have hb : (recordedEnv env).bus = recorded env.bus := rfl
    unfold Driver.pollStatus
    rw [dm_bind, statusRegister_eq, hb, regRead_recorded]
    generalize regRead env.bus d.bus.1 d.addr 0x8000#16 = q
    obtain ⟨s1, e | w⟩ := q
    · exact ⟨s1, _, _, rfl, [], by simp, Or.inr (Or.inl ⟨e, rfl, by simp, rfl⟩)⟩
    · simp only [status_newData]
      by_cases h3 : w.getLsbD 3 = true
      · rw [if_pos h3]
        exact ⟨s1, _, _, rfl, [], by simp, Or.inl ⟨w, h3, rfl, by simp, rfl⟩⟩
      · rw [if_neg h3]
        obtain ⟨s', ts, r, h1, stale, h2, h4⟩ := ih
          { d with bus := (s1, d.bus.2 ++ [Txn.readReg d.addr 0x8000#16 (.ok w)]) }
        rw [h1]
        refine ⟨s', .readReg d.addr 0x8000#16 (.ok w) :: ts, r, by simp, w :: stale, ?_, ?_⟩
        · intro w' hw'
          rcases List.mem_cons.1 hw' with rfl | hw'
          · simpa using h3
          · exact h2 w' hw'
        · rcases h4 with ⟨w', g1, g2, g3, g4⟩ | ⟨e, g2, g3, g4⟩ | ⟨g2, g3, g4⟩
          · exact Or.inl ⟨w', g1, g2, by simpa using g3, by rw [g4]; rfl⟩
          · exact Or.inr (Or.inl ⟨e, g2, by simpa using g3, by rw [g4]; rfl⟩)
          · exact Or.inr (Or.inr ⟨g2, by simpa using g3, by rw [g4]; rfl⟩)

/-- The word `synchronize` writes. -/
def syncWord (w : Word) : Word := (((StatusReg.resetNewData ⟨w⟩).setOverwriteEnabled true).setStartMeasurement).raw

theorem syncWord_bits (w : Word) (i : Nat) : (syncWord w).getLsbD i =
    if i = 3 then false else if i = 4 ∨ i = 5 then true else w.getLsbD i := by
  unfold syncWord
  rw [setStart_bits, setOverwrite_bits, resetNewData_bits]
  by_cases h5 : i = 5
  · subst h5; rfl
  · by_cases h4 : i = 4
    · subst h4; rfl
    · simp [h4, h5]

theorem synchronize_eq (env : Env σ ER EW) (fuel : Nat) (d : Driver F σ) :
    Driver.synchronize env fuel d =
      match (regRead env.bus d.bus d.addr 0x8000#16).2 with
      | .error e => ({ d with bus := (regRead env.bus d.bus d.addr 0x8000#16).1 }, .err (.i2cWriteRead e))
      | .ok w =>
        let s1 := (regRead env.bus d.bus d.addr 0x8000#16).1
        let q := regWrite env.bus s1 d.addr 0x8000#16 (syncWord w)
        match q.2 with
        | some e => ({ d with bus := q.1 }, .err (.i2cWrite e))
        | none => Driver.pollStatus env fuel { d with bus := q.1 } := by
  unfold Driver.synchronize
  rw [dm_bind, statusRegister_eq]
  cases (regRead env.bus d.bus d.addr 0x8000#16).2 with
  | error e => rfl
  | ok w =>
    simp only
    have hx : (((StatusReg.resetNewData ⟨w⟩).setOverwriteEnabled true).setStartMeasurement) = ⟨syncWord w⟩ := rfl
    rw [hx, dm_bind, setStatusRegister_eq]
    simp only [status_newData, syncWord_bits, if_true]
    cases (regWrite env.bus (regRead env.bus d.bus d.addr 0x8000#16).1 d.addr 0x8000#16 (syncWord w)).2 with
    | some e => rfl
    | none => rfl

/-- **C48.** `synchronize`, observed after at most `fuel` polls, for any `fuel`: it reads the status register
once; writes it once, with bit 3 cleared, bits 4 and 5 set and all other bits as received; then polls the status
register. It succeeds only after a poll, later than the write, has received a word with bit 3 set, with all
earlier polls without; a bus error ends it and is returned. Nothing but the bus changes. -/
theorem C48_synchronize_waits_for_fresh_data (env : Env σ ER EW) (fuel : Nat)
    (d : Driver F (σ × List (Txn ER EW))) :
    ∃ s' ts r, Driver.synchronize (recordedEnv env) fuel d = ({ d with bus := (s', d.bus.2 ++ ts) }, r) ∧
      ((∃ e, ts = [.readReg d.addr 0x8000#16 (.error e)] ∧ r = .err (.i2cWriteRead e)) ∨
       (∃ w w' we polls, ts = .readReg d.addr 0x8000#16 (.ok w) :: .writeReg d.addr 0x8000#16 w' we :: polls ∧
          (∀ i, w'.getLsbD i = if i = 3 then false else if i = 4 ∨ i = 5 then true else w.getLsbD i) ∧
          ((∃ e, we = some e ∧ polls = [] ∧ r = .err (.i2cWrite e)) ∨
           (we = none ∧ Polling d.addr fuel polls r)))) := by
  have hb : (recordedEnv env).bus = recorded env.bus := rfl
  rw [synchronize_eq, hb, regRead_recorded]
  generalize regRead env.bus d.bus.1 d.addr 0x8000#16 = q
  obtain ⟨s1, e | w⟩ := q
  · exact ⟨s1, _, _, rfl, Or.inl ⟨e, rfl, rfl⟩⟩
  · simp only [regWrite_recorded]
    generalize regWrite env.bus s1 d.addr 0x8000#16 (syncWord w) = q
    obtain ⟨s2, we⟩ := q
    cases we with
    | some e =>
      exact ⟨s2, [.readReg d.addr 0x8000#16 (.ok w), .writeReg d.addr 0x8000#16 (syncWord w) (some e)], _,
        by simp, Or.inr ⟨w, syncWord w, some e, [], rfl, syncWord_bits w, Or.inl ⟨e, rfl, rfl, rfl⟩⟩⟩
    | none =>
      simp only
      obtain ⟨s', ts, r, h1, h2⟩ := pollStatus_polling env fuel { d with bus := (s2, d.bus.2 ++
        [Txn.readReg d.addr 0x8000#16 (.ok w)] ++ [Txn.writeReg d.addr 0x8000#16 (syncWord w) none]) }
      rw [h1]
      exact ⟨s', .readReg d.addr 0x8000#16 (.ok w) :: .writeReg d.addr 0x8000#16 (syncWord w) none :: ts, r,
        by simp, Or.inr ⟨w, syncWord w, none, ts, rfl, syncWord_bits w, Or.inr ⟨rfl, h2⟩⟩⟩

/-- **C48 (polls do not matter).** A run that has returned within `fuel` polls is the run for every larger number
of polls: the bound is only the point of observation. -/
theorem C48_bound_is_only_observation (env : Env σ ER EW) (fuel more : Nat) (d : Driver F σ)
    (h : (Driver.synchronize env fuel d).2 ≠ .ok false) :
    Driver.synchronize env (fuel + more) d = Driver.synchronize env fuel d := by
  have key : ∀ (fuel : Nat) (d : Driver F σ), (Driver.pollStatus env fuel d).2 ≠ .ok false →
      Driver.pollStatus env (fuel + more) d = Driver.pollStatus env fuel d := by
    intro fuel
    induction fuel with
    | zero => intro d hd; exact absurd rfl hd
    | succ n ih =>
      intro d hd
      rw [show n + 1 + more = (n + more) + 1 by omega]
      unfold Driver.pollStatus at hd ⊢
      rw [dm_bind, statusRegister_eq] at hd ⊢
      rw [dm_bind, statusRegister_eq]
      cases hq : (regRead env.bus d.bus d.addr 0x8000#16).2 with
      | error e => rfl
      | ok w =>
        rw [hq] at hd
        simp only [status_newData] at hd ⊢
        by_cases h3 : w.getLsbD 3 = true
        · rw [if_pos h3, if_pos h3]
        · rw [if_neg h3] at hd
          rw [if_neg h3, if_neg h3]
          exact ih _ hd
  rw [synchronize_eq] at h ⊢
  rw [synchronize_eq]
  cases hq : (regRead env.bus d.bus d.addr 0x8000#16).2 with
  | error e => rfl
  | ok w =>
    rw [hq] at h
    simp only at h ⊢
    cases hq2 : (regWrite env.bus (regRead env.bus d.bus d.addr 0x8000#16).1 d.addr 0x8000#16 (syncWord w)).2 with
    | some e => rfl
    | none =>
      rw [hq2] at h
      exact key _ _ h

theorem statusPolls_succ (b : Bus σ ER EW) (addr : Byte) (s : σ) (k : Nat) :
    statusPolls b addr (regRead b s addr 0x8000#16).1 k = statusPolls b addr s (k + 1) := by
  induction k with
  | zero => rfl
  | succ k ih => unfold statusPolls; rw [ih]

theorem statusPoll_succ (b : Bus σ ER EW) (addr : Byte) (s : σ) (k : Nat) :
    statusPoll b addr (regRead b s addr 0x8000#16).1 k = statusPoll b addr s (k + 1) := by
  unfold statusPoll
  rw [statusPolls_succ]

theorem statusPoll_zero (b : Bus σ ER EW) (addr : Byte) (s : σ) :
    statusPoll b addr s 0 = (regRead b s addr 0x8000#16).2 := rfl

theorem pollStatus_waiting (env : Env σ ER EW) (fuel : Nat) (d : Driver F σ) :
    (Driver.pollStatus env fuel d).2 = .ok false ↔
      ∀ k < fuel, ∃ w, statusPoll env.bus d.addr d.bus k = .ok w ∧ w.getLsbD 3 = false := by
  induction fuel generalizing d with
  | zero => exact ⟨fun _ k hk => absurd hk (Nat.not_lt_zero k), fun _ => rfl⟩
  | succ n ih =>
    unfold Driver.pollStatus
    rw [dm_bind, statusRegister_eq]
    have hz := statusPoll_zero env.bus d.addr d.bus
    have hs := statusPoll_succ env.bus d.addr d.bus
    revert hz hs
    generalize regRead env.bus d.bus d.addr 0x8000#16 = q
    obtain ⟨s1, e | w⟩ := q
    · intro hz _
      refine ⟨fun hc => (by cases hc), fun hc => ?_⟩
      obtain ⟨w, h1, _⟩ := hc 0 (Nat.succ_pos n)
      rw [hz] at h1
      cases h1
    · intro hz hs
      simp only [status_newData]
      by_cases h3 : w.getLsbD 3 = true
      · rw [if_pos h3]
        refine ⟨fun hc => (by cases hc), fun hc => ?_⟩
        obtain ⟨w', h1, h2⟩ := hc 0 (Nat.succ_pos n)
        rw [hz] at h1
        cases h1
        rw [h3] at h2
        cases h2
      · rw [if_neg h3, ih]
        dsimp only
        constructor
        · intro hc k hk
          cases k with
          | zero => exact ⟨w, hz, by simpa using h3⟩
          | succ k =>
            rw [← hs]
            exact hc k (Nat.lt_of_succ_lt_succ hk)
        · intro hc k hk
          rw [hs]
          exact hc (k + 1) (Nat.succ_lt_succ hk)

/-- **C48 (when it returns).** Once its write has succeeded, leaving the bus in state `s`, `synchronize` returns if and only
if some poll of the status register fails or gets a word with bit 3 set; it does so at the first such poll, and otherwise
spins forever. -/
theorem C48_returns_iff (env : Env σ ER EW) (d : Driver F σ) (w : Word) (s : σ)
    (hread : statusPoll env.bus d.addr d.bus 0 = .ok w)
    (hwrite : ∀ w', (∀ i, w'.getLsbD i = if i = 3 then false else if i = 4 ∨ i = 5 then true else w.getLsbD i) →
      env.bus.write (statusPolls env.bus d.addr d.bus 1) d.addr (toBe 0x8000#16 ++ toBe w') = (s, none)) (fuel : Nat) :
    ((Driver.synchronize env fuel d).2 ≠ .ok false ↔
      ∃ k < fuel, ∀ w, statusPoll env.bus d.addr s k = .ok w → w.getLsbD 3 = true) ∧
    ((∃ fuel, (Driver.synchronize env fuel d).2 ≠ .ok false) ↔
      ∃ k, ∀ w, statusPoll env.bus d.addr s k = .ok w → w.getLsbD 3 = true) := by
  have key : ∀ fuel, ((Driver.synchronize env fuel d).2 ≠ .ok false ↔
      ∃ k < fuel, ∀ w, statusPoll env.bus d.addr s k = .ok w → w.getLsbD 3 = true) := by
    intro fuel
    have hw := hwrite (syncWord w) (syncWord_bits w)
    have hq : regWrite env.bus (regRead env.bus d.bus d.addr 0x8000#16).1 d.addr 0x8000#16 (syncWord w) = (s, none) := hw
    rw [synchronize_eq, ← statusPoll_zero, hread]
    dsimp only
    rw [hq]
    dsimp only
    rw [not_iff_comm, pollStatus_waiting]
    dsimp only
    constructor
    · intro hc k hk
      by_contra hno
      refine hc ⟨k, hk, fun w' h1 => ?_⟩
      by_contra h3
      exact hno ⟨w', h1, by simpa using h3⟩
    · rintro hc ⟨k, hk, h⟩
      obtain ⟨w', h1, h2⟩ := hc k hk
      rw [h w' h1] at h2
      cases h2
  refine ⟨key fuel, ?_⟩
  constructor
  · rintro ⟨f, hf⟩
    obtain ⟨k, _, h⟩ := (key f).1 hf
    exact ⟨k, h⟩
  · rintro ⟨k, h⟩
    exact ⟨k + 1, (key (k + 1)).2 ⟨k, Nat.lt_succ_self k, h⟩⟩

/-- A camera that has new data at every third status read after a write. -/
def slowBus : Bus (Word × Nat) Unit Unit where
  writeRead s _ _ buf :=
    let w := if s.2 % 3 = 2 then s.1 ||| 8#16 else s.1
    ((s.1, s.2 + 1), (List.range buf.length).map fun i => if i % 2 = 0 then hiByte w else loByte w, none)
  write s _ out :=
    match out with
    | [_, _, vh, vl] => ((be16 vh vl, 0), none)
    | _ => (s, some ())
  length_eq := by intros; simp

example : (Driver.synchronize (recordedEnv ⟨.checked, 24, slowBus⟩) 10
      (toyDriver Mlx90640.cam 1 ((0x0009#16, 0), []))).2 = .ok true ∧
    (Driver.synchronize (recordedEnv ⟨.checked, 24, slowBus⟩) 10
      (toyDriver Mlx90640.cam 1 ((0x0009#16, 0), []))).1.bus.2.length = 5 ∧
    (Driver.synchronize (recordedEnv ⟨.checked, 24, slowBus⟩) 2
      (toyDriver Mlx90640.cam 1 ((0x0009#16, 0), []))).2 = .ok false := by
  refine ⟨?_, ?_, ?_⟩ <;> decide +kernel

/-- The same camera meets the assumptions of `C48_returns_iff`, and a poll that makes `synchronize` return exists. -/
example :
    statusPoll slowBus 0x33#8 (0x0009#16, 0) 0 = .ok 0x0009#16 ∧
    (∀ w', (∀ i, w'.getLsbD i = if i = 3 then false else if i = 4 ∨ i = 5 then true else (0x0009#16).getLsbD i) →
      slowBus.write (statusPolls slowBus 0x33#8 (0x0009#16, 0) 1) 0x33#8 (toBe 0x8000#16 ++ toBe w') =
        ((0x0031#16, 0), none)) ∧
    (∀ w, statusPoll slowBus 0x33#8 (0x0031#16, 0) 2 = .ok w → w.getLsbD 3 = true) ∧
    statusPoll slowBus 0x33#8 (0x0031#16, 0) 1 = .ok 0x0031#16 := by
  refine ⟨by decide +kernel, fun w' h => ?_, fun w h => ?_, by decide +kernel⟩
  · obtain rfl : w' = 0x0031#16 := by
      refine word_ext fun i hi => ?_
      rw [h]
      revert i
      decide
    decide +kernel
  · have h2 : statusPoll slowBus 0x33#8 (0x0031#16, 0) 2 = .ok 0x0039#16 := by decide +kernel
    rw [h2] at h
    cases h
    decide

end Mlx.Props
