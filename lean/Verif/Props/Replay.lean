import Verif.Proofs.Replay
import Verif.Props.Shared
import Verif.Props.Access
/-
Record and play back: C102.
-/
set_option linter.unusedSectionVars false
set_option autoImplicit false
namespace Mlx.Props
open Mlx Mlx.Spec Mlx.Proofs F32Ops
variable {F σ ER EW : Type} [F32Ops F]

/-- **C102 (calls).** On any bus, with any outcome: every call of a driver of either camera can be played back from a recording of
its transactions, with its result, the value it returns and the image it makes. -/
theorem C102_calls (m : Mode) (n : Nat) (b : Bus σ ER EW) (d : Driver F (σ × List (Txn ER EW)))
    (hs : Supported ⟨m, n, recorded b⟩ d) :
    let recording : Env (σ × List (Txn ER EW)) ER EW := ⟨m, n, recorded b⟩
    let mock : Env (Option (List (Txn ER EW))) ER EW := ⟨m, n, playback⟩
    (∀ op : Op F, PlaysBack d (op.exec recording d) (op.exec mock)) ∧
    (∀ sp dest, PlaysBack d (Driver.generateRawImageSubpageTo recording sp dest d) (Driver.generateRawImageSubpageTo mock sp dest)) ∧
    (∀ sp dest, PlaysBack d (Driver.generateImageSubpageTo recording sp dest d) (Driver.generateImageSubpageTo mock sp dest)) ∧
    (∀ dest, PlaysBack d (Driver.generateImageTo recording dest d) (Driver.generateImageTo mock dest)) ∧
    (∀ dest, PlaysBack d (Driver.generateImageIfReady recording dest d) (Driver.generateImageIfReady mock dest)) ∧
    PlaysBack d (Driver.dataAvailable recording d) (Driver.dataAvailable mock) ∧
    PlaysBack d (Driver.lastMeasuredSubpage recording d) (Driver.lastMeasuredSubpage mock) ∧
    PlaysBack d (Driver.overwriteEnabled recording d) (Driver.overwriteEnabled mock) ∧
    (∀ f hf, PlaysBack d (driverGet recording f hf d) (driverGet mock f hf)) :=
  have hp := playback_strict
  ⟨playback_exec hp d hs, playback_raw hp d hs, playback_subpage hp d hs, playback_imageTo hp d hs, playback_ifReady hp d hs,
    playback_dataAvailable hp d, playback_lastMeasured hp d, playback_overwriteEnabled hp d, playback_get hp d⟩

theorem session_replays {C : Type} (fromData : List Byte → Res LibErr C) (toCalib : C → Calib F) (k : Nat) (m : Mode) (n : Nat)
    (b : Bus σ ER EW) (s : σ) (addr : Byte)
    (hsup : ∀ s' d, Driver.new fromData toCalib (recorded b) k (s, []) addr = (s', .ok d) → Supported ⟨m, n, recorded b⟩ d) :
    (∀ s' e, Driver.new fromData toCalib (recorded b) k (s, []) addr = (s', .err e) →
      Driver.new fromData toCalib playback k (some s'.2) addr = (some [], .err e)) ∧
    (∀ s', Driver.new fromData toCalib (recorded b) k (s, []) addr = (s', .panic) →
      Driver.new fromData toCalib playback k (some s'.2) addr = (some [], .panic)) ∧
    (∀ s' d, Driver.new fromData toCalib (recorded b) k (s, []) addr = (s', .ok d) → ∀ ops : List (Op F),
      let d' := runOps ⟨m, n, recorded b⟩ ops d
      ∃ log e buf, Driver.new fromData toCalib playback k (some d'.bus.2) addr = (some log, .ok e) ∧
        images ⟨m, n, playback⟩ ops e = images ⟨m, n, recorded b⟩ ops d ∧
        runOps ⟨m, n, playback⟩ ops e = onPlayback d' [] buf) := by
  obtain ⟨ts, h1, h2⟩ := playback_new (playback_strict (ER := ER) (EW := EW)) (b := b) fromData toCalib k addr (s, [])
  refine ⟨fun s' e h => ?_, fun s' h => ?_, fun s' d h ops => ?_⟩
  · rw [h] at h1 h2
    simp only [List.nil_append] at h1
    rw [h1]
    have := h2 []
    rwa [List.append_nil] at this
  · rw [h] at h1 h2
    simp only [List.nil_append] at h1
    rw [h1]
    have := h2 []
    rwa [List.append_nil] at this
  · have hs := hsup s' d h
    have hbus := new_bus h
    rw [h] at h1 h2
    simp only [List.nil_append] at h1
    obtain ⟨ts', h3, h4⟩ := playback_history playback_strict d hs ops
    obtain ⟨h5, buf, h6⟩ := h4 [] d.pixelBuf rfl
    rw [List.append_nil] at h5 h6
    refine ⟨ts', onPlayback d ts' d.pixelBuf, buf, ?_, h5, h6⟩
    rw [h3, hbus, h1, h2]

/-- **C102 (sessions, MLX90640).** For any bus: the transactions of a whole session (construction and any calls, with any outcomes)
are recorded, and the same program is run with a mock that expects exactly these transactions and answers them with the recorded
results. Construction fails or succeeds as it did; each call has the same outcome and makes the same image; the driver ends in the
same state; and the mock has seen exactly the transactions it expected. -/
theorem C102_session_640 (m : Mode) (b : Bus σ ER EW) (s : σ) (addr : Byte) :
    (∀ s' e, Driver.new640 (F := F) m (recorded b) (s, []) addr = (s', .err e) →
      Driver.new640 (F := F) m playback (some s'.2) addr = (some [], .err e)) ∧
    (∀ s', Driver.new640 (F := F) m (recorded b) (s, []) addr = (s', .panic) →
      Driver.new640 (F := F) m playback (some s'.2) addr = (some [], .panic)) ∧
    (∀ s' d, Driver.new640 (F := F) m (recorded b) (s, []) addr = (s', .ok d) → ∀ ops : List (Op F),
      let d' := runOps ⟨m, 24, recorded b⟩ ops d
      ∃ log e buf, Driver.new640 m playback (some d'.bus.2) addr = (some log, .ok e) ∧
        images ⟨m, 24, playback⟩ ops e = images ⟨m, 24, recorded b⟩ ops d ∧
        runOps ⟨m, 24, playback⟩ ops e = onPlayback d' [] buf) :=
  session_replays _ _ _ m 24 b s addr fun s' d h => ((C39_constructed_drivers_supported m (recorded b) (s, []) addr).1 s' d h).1

/-- **C102 (sessions, MLX90641).** -/
theorem C102_session_641 (m : Mode) (b : Bus σ ER EW) (s : σ) (addr : Byte) :
    (∀ s' e, Driver.new641 (F := F) m (recorded b) (s, []) addr = (s', .err e) →
      Driver.new641 (F := F) m playback (some s'.2) addr = (some [], .err e)) ∧
    (∀ s', Driver.new641 (F := F) m (recorded b) (s, []) addr = (s', .panic) →
      Driver.new641 (F := F) m playback (some s'.2) addr = (some [], .panic)) ∧
    (∀ s' d, Driver.new641 (F := F) m (recorded b) (s, []) addr = (s', .ok d) → ∀ ops : List (Op F),
      let d' := runOps ⟨m, 12, recorded b⟩ ops d
      ∃ log e buf, Driver.new641 m playback (some d'.bus.2) addr = (some log, .ok e) ∧
        images ⟨m, 12, playback⟩ ops e = images ⟨m, 12, recorded b⟩ ops d ∧
        runOps ⟨m, 12, playback⟩ ops e = onPlayback d' [] buf) :=
  session_replays _ _ _ m 12 b s addr fun s' d h => ((C39_constructed_drivers_supported m (recorded b) (s, []) addr).2 s' d h).1

/-- A bus with a recorder is like the bus. -/
theorem recorded_like (b : Bus σ ER EW) (addr : Byte) : ActsAs (recorded b) addr Prod.fst b := ⟨fun _ _ _ => rfl, fun _ _ => rfl⟩

/-- A non-trivial session: a camera with the example memory, used with a recorder. Its construction can be recorded, so that
any calls can, and then played back. -/
example (m : Mode) (ops : List (Op ℝ)) :
    ∃ s' d, Driver.new640 (F := ℝ) m (recorded (cameraBus 0x33#8)) (exampleMemory words640, []) 0x33#8 = (s', .ok d) ∧
      ∃ log e buf, Driver.new640 m playback (some (runOps ⟨m, 24, recorded (cameraBus 0x33#8)⟩ ops d).bus.2) 0x33#8 =
          (some log, .ok e) ∧
        runOps ⟨m, 24, playback⟩ ops e = onPlayback (runOps ⟨m, 24, recorded (cameraBus 0x33#8)⟩ ops d) [] buf := by
  obtain ⟨s0, d0, hd0, -⟩ := camera640_example m
  generalize exampleMemory words640 = V at hd0 ⊢
  obtain ⟨s', d, hd, -, -⟩ := made_of_view (t := (V, [])) (recorded_like (cameraBus 0x33#8) 0x33#8) (Or.inl ⟨rfl, hd0⟩)
  rcases hd with ⟨-, hd⟩ | ⟨hc, -⟩
  · obtain ⟨log, e, buf, h1, -, h2⟩ := (C102_session_640 (F := ℝ) m (cameraBus 0x33#8) V 0x33#8).2.2 s' d hd ops
    exact ⟨s', d, hd, log, e, buf, h1, h2⟩
  · exact absurd hc (by decide)

/-- The mock is strict: it answers the recorded transaction, and notices another register, another device, another length and a
write instead of a read. -/
example : let log : List (Txn Unit Unit) := [.readReg 0x33#8 0x8000#16 (.ok 0x0019#16)]
    regRead playback (some log) 0x33#8 0x8000#16 = (some [], .ok 0x0019#16) ∧
    (regRead playback (some log) 0x33#8 0x800D#16).1 = none ∧ (regRead playback (some log) 0x32#8 0x8000#16).1 = none ∧
    (playback.writeRead (some log) 0x33#8 [0x80#8, 0#8] [0#8]).1 = none ∧
    (regWrite playback (some log) 0x33#8 0x8000#16 0#16).1 = none := by
  refine ⟨playback_regRead _ _ _ _, ?_, ?_, ?_, ?_⟩ <;> rfl

end Mlx.Props
