import Verif.Proofs.View
import Verif.Props.Mock
import Verif.Props.Watch
/-
Several devices on one bus: C84.
-/
set_option linter.unusedSectionVars false
set_option autoImplicit false
namespace Mlx.Props
open Mlx Mlx.Spec Mlx.Proofs F32Ops
variable {F σ τ ER EW : Type} [F32Ops F]

/-- **C84 (a device among others).** If a bus, addressed at `addr`, behaves like a bus with one device, a driver for that address
cannot tell them apart: construction has the same outcome and makes the same driver; every method has the same outcome and
leaves the same driver and device; the image methods produce the same images and the getters the same values. -/
theorem C84_like_alone (m : Mode) (n : Nat) (big : Bus τ ER EW) (addr : Byte) (proj : τ → σ) (small : Bus σ ER EW)
    (h : ActsAs big addr proj small) :
    (∀ t, Driver.new640 (F := F) m small (proj t) addr =
      (proj (Driver.new640 (F := F) m big t addr).1,
        match (Driver.new640 m big t addr).2 with
        | .ok d => .ok (view proj d)
        | .err e => .err e
        | .panic => .panic)) ∧
    (∀ t, Driver.new641 (F := F) m small (proj t) addr =
      (proj (Driver.new641 (F := F) m big t addr).1,
        match (Driver.new641 m big t addr).2 with
        | .ok d => .ok (view proj d)
        | .err e => .err e
        | .panic => .panic)) ∧
    ∀ d : Driver F τ, d.addr = addr →
      (∀ op : Op F, op.exec ⟨m, n, small⟩ (view proj d) =
        (view proj (op.exec ⟨m, n, big⟩ d).1, (op.exec ⟨m, n, big⟩ d).2)) ∧
      (∀ dest, Driver.generateImageIfReady ⟨m, n, small⟩ dest (view proj d) =
        (view proj (Driver.generateImageIfReady ⟨m, n, big⟩ dest d).1,
          (Driver.generateImageIfReady ⟨m, n, big⟩ dest d).2)) ∧
      (∀ dest, Driver.generateImageTo ⟨m, n, small⟩ dest (view proj d) =
        (view proj (Driver.generateImageTo ⟨m, n, big⟩ dest d).1, (Driver.generateImageTo ⟨m, n, big⟩ dest d).2)) ∧
      (∀ sp dest, Driver.generateImageSubpageTo ⟨m, n, small⟩ sp dest (view proj d) =
        (view proj (Driver.generateImageSubpageTo ⟨m, n, big⟩ sp dest d).1,
          (Driver.generateImageSubpageTo ⟨m, n, big⟩ sp dest d).2)) ∧
      (∀ sp dest, Driver.generateRawImageSubpageTo ⟨m, n, small⟩ sp dest (view proj d) =
        (view proj (Driver.generateRawImageSubpageTo ⟨m, n, big⟩ sp dest d).1,
          (Driver.generateRawImageSubpageTo ⟨m, n, big⟩ sp dest d).2)) ∧
      (Driver.dataAvailable ⟨m, n, small⟩ (view proj d) =
        (view proj (Driver.dataAvailable ⟨m, n, big⟩ d).1, (Driver.dataAvailable ⟨m, n, big⟩ d).2)) ∧
      (Driver.lastMeasuredSubpage ⟨m, n, small⟩ (view proj d) =
        (view proj (Driver.lastMeasuredSubpage ⟨m, n, big⟩ d).1, (Driver.lastMeasuredSubpage ⟨m, n, big⟩ d).2)) ∧
      (Driver.overwriteEnabled ⟨m, n, small⟩ (view proj d) =
        (view proj (Driver.overwriteEnabled ⟨m, n, big⟩ d).1, (Driver.overwriteEnabled ⟨m, n, big⟩ d).2)) ∧
      (∀ f hf, driverGet ⟨m, n, small⟩ f hf (view proj d) =
        (view proj (driverGet ⟨m, n, big⟩ f hf d).1, (driverGet ⟨m, n, big⟩ f hf d).2)) := by
  refine ⟨fun t => view_new _ _ h _ t, fun t => view_new _ _ h _ t, ?_⟩
  rintro d rfl
  exact ⟨view_exec d h, view_ifReady d h, view_imageTo d h, view_subpage d h, view_raw d h, view_dataAvailable d h,
    view_lastMeasured d h, view_overwriteEnabled d h, view_get d h⟩

/-- The first of two joined buses. -/
theorem joined_first (a : Byte) (first : Bus σ ER EW) (second : Bus τ ER EW) :
    ActsAs (joined a first second) a Prod.fst first ∧ Leaves (joined a first second) a Prod.snd := by
  refine ⟨⟨fun t out buf => ?_, fun t out => ?_⟩, ⟨fun t out buf => ?_, fun t out => ?_⟩⟩
  all_goals
    unfold joined
    dsimp only
    rw [if_pos rfl]

/-- The second of two joined buses. -/
theorem joined_second (a b : Byte) (hb : b ≠ a) (first : Bus σ ER EW) (second : Bus τ ER EW) :
    ActsAs (joined a first second) b Prod.snd second ∧ Leaves (joined a first second) b Prod.fst := by
  refine ⟨⟨fun t out buf => ?_, fun t out => ?_⟩, ⟨fun t out buf => ?_, fun t out => ?_⟩⟩
  all_goals
    unfold joined
    dsimp only
    rw [if_neg hb]

/-- The bus of a new driver. -/
theorem new_bus {C : Type} {fromData : List Byte → Res LibErr C} {toCalib : C → Calib F} {b : Bus τ ER EW} {k : Nat}
    {t t' : τ} {addr : Byte} {d : Driver F τ} (hd : Driver.new fromData toCalib b k t addr = (t', .ok d)) : d.bus = t' := by
  unfold Driver.new at hd
  generalize calibFromI2c fromData b t addr = q at hd
  obtain ⟨t1, c | e | _⟩ := q
  · simp only at hd
    unfold Driver.newWithCalibration at hd
    rw [readControl_eq] at hd
    generalize regRead b t1 addr 0x800D#16 = q at hd
    obtain ⟨t2, e | w⟩ := q
    · simp only [Prod.mk.injEq] at hd
      exact nomatch hd.2
    · simp only [resolution_val, accessPattern_val] at hd
      obtain ⟨rfl, h2⟩ := Prod.mk.inj hd
      exact (congrArg Driver.bus (Res.ok.inj h2)).symm
  · exact nomatch (Prod.mk.inj hd).2
  · exact nomatch (Prod.mk.inj hd).2

/-- Construction leaves the other devices alone. -/
theorem made_leaves {ρ : Type} {m : Mode} {n : Nat} {b : Bus τ ER EW} {t t' : τ} {addr : Byte} {d : Driver F τ} {rest : τ → ρ}
    (hl : Leaves b addr rest) (hd : Made m n b t addr t' d) : d.bus = t' ∧ rest t' = rest t := by
  rcases hd with ⟨_, hd⟩ | ⟨_, hd⟩
  all_goals
    exact ⟨new_bus hd, (new_survives (cam := d.calib.cam) (Inv := fun s => rest s = rest t)
      (fun s _ buf _ hi => (hl.writeRead s _ buf).trans hi) (fun s buf _ hi => (hl.writeRead s _ buf).trans hi) hd rfl).1⟩

/-- Calls leave the other devices alone. -/
theorem exec_leaves {ρ : Type} {env : Env τ ER EW} {d : Driver F τ} {rest : τ → ρ} (hs : Supported env d)
    (hl : Leaves env.bus d.addr rest) (op : Op F) : rest (op.exec env d).1.bus = rest d.bus :=
  exec_survives (Inv := fun s => rest s = rest d.bus) hs
    ⟨fun s _ buf _ hi => (hl.writeRead s _ buf).trans hi, fun s _ _ _ hi => (hl.write s _).trans hi⟩ op rfl

theorem made_view {m : Mode} {n : Nat} {big : Bus τ ER EW} {small : Bus σ ER EW} {proj : τ → σ} {t t' : τ} {addr : Byte}
    {d : Driver F τ} (h : ActsAs big addr proj small) (hd : Made m n big t addr t' d) :
    Made m n small (proj t) addr (proj t') (view proj d) := by
  rcases hd with ⟨hn, hd⟩ | ⟨hn, hd⟩
  · exact Or.inl ⟨hn, by rw [(C84_like_alone m n big addr proj small h).1, hd]⟩
  · exact Or.inr ⟨hn, by rw [(C84_like_alone m n big addr proj small h).2.1, hd]⟩

/-- Construction succeeds on a shared bus if it does alone. -/
theorem made_of_view {m : Mode} {n : Nat} {big : Bus τ ER EW} {small : Bus σ ER EW} {proj : τ → σ} {t : τ} {s' : σ}
    {addr : Byte} {e : Driver F σ} (h : ActsAs big addr proj small) (hd : Made m n small (proj t) addr s' e) :
    ∃ t' d, Made m n big t addr t' d ∧ proj t' = s' ∧ view proj d = e := by
  have key : ∀ {x : σ × Res (Err ER EW) (Driver F σ)} {y : τ × Res (Err ER EW) (Driver F τ)},
      x = (proj y.1, match y.2 with | .ok d => .ok (view proj d) | .err e => .err e | .panic => .panic) →
      x = (s', .ok e) → ∃ t' d, y = (t', .ok d) ∧ proj t' = s' ∧ view proj d = e := by
    rintro x ⟨t', d | e | _⟩ h1 h2
    · rw [h1] at h2
      obtain ⟨h3, h4⟩ := Prod.mk.inj h2
      exact ⟨t', d, rfl, h3, Res.ok.inj h4⟩
    · rw [h1] at h2
      exact nomatch (Prod.mk.inj h2).2
    · rw [h1] at h2
      exact nomatch (Prod.mk.inj h2).2
  rcases hd with ⟨hn, hd⟩ | ⟨hn, hd⟩
  · obtain ⟨t', d, h1, h2⟩ := key ((C84_like_alone m n big addr proj small h).1 t) hd
    exact ⟨t', d, Or.inl ⟨hn, h1⟩, h2⟩
  · obtain ⟨t', d, h1, h2⟩ := key ((C84_like_alone m n big addr proj small h).2.1 t) hd
    exact ⟨t', d, Or.inr ⟨hn, h1⟩, h2⟩

/-- Two drivers on joined buses. -/
theorem together_view {m : Mode} {n1 n2 : Nat} {a b : Byte} (hb : b ≠ a) {first : Bus σ ER EW} {second : Bus τ ER EW}
    (calls : List (Bool × Op F)) (d1 d2 : Driver F (σ × τ)) (hs1 : Supported ⟨m, n1, joined a first second⟩ d1)
    (hs2 : Supported ⟨m, n2, joined a first second⟩ d2) (ha1 : d1.addr = a) (ha2 : d2.addr = b) (hbus : d1.bus = d2.bus) :
    let r := together m (joined a first second) n1 n2 calls (d1, d2)
    view Prod.fst r.1 = runOps ⟨m, n1, first⟩ (callsOf true calls) (view Prod.fst d1) ∧
    view Prod.snd r.2 = runOps ⟨m, n2, second⟩ (callsOf false calls) (view Prod.snd d2) ∧
    r.1.bus = r.2.bus ∧ r.1.addr = a ∧ r.2.addr = b := by
  induction calls generalizing d1 d2 with
  | nil => exact ⟨rfl, rfl, hbus, ha1, ha2⟩
  | cons c calls ih =>
    obtain ⟨who, op⟩ := c
    cases who with
    | true =>
      have h1 := (joined_first a first second).1
      have hl := (joined_first a first second).2
      have hk := exec_supported hs1 op
      have hx := view_exec (m := m) (n := n1) d1 (by rw [ha1]; exact h1) op
      have ho := exec_leaves hs1 (by rw [ha1]; exact hl) op
      obtain ⟨i1, i2, i3⟩ := ih (op.exec ⟨m, n1, joined a first second⟩ d1).1
        { d2 with bus := (op.exec ⟨m, n1, joined a first second⟩ d1).1.bus } hk.1 ⟨hs2.1, hs2.2, hs2.3⟩
        (hk.2.1.trans ha1) ha2 rfl
      refine ⟨?_, ?_, i3⟩
      · refine i1.trans ?_
        rw [show callsOf true ((true, op) :: calls) = op :: callsOf true calls from rfl]
        unfold runOps
        rw [List.foldl_cons, hx]
      · refine i2.trans ?_
        rw [show callsOf false ((true, op) :: calls) = callsOf false calls from rfl]
        congr 1
        unfold view
        rw [ho, hbus]
    | false =>
      have h1 := (joined_second a b hb first second).1
      have hl := (joined_second a b hb first second).2
      have hk := exec_supported hs2 op
      have hx := view_exec (m := m) (n := n2) d2 (by rw [ha2]; exact h1) op
      have ho := exec_leaves hs2 (by rw [ha2]; exact hl) op
      obtain ⟨i1, i2, i3⟩ := ih { d1 with bus := (op.exec ⟨m, n2, joined a first second⟩ d2).1.bus }
        (op.exec ⟨m, n2, joined a first second⟩ d2).1 ⟨hs1.1, hs1.2, hs1.3⟩ hk.1 ha1
        (hk.2.1.trans ha2) rfl
      refine ⟨?_, ?_, i3⟩
      · refine i1.trans ?_
        rw [show callsOf true ((false, op) :: calls) = callsOf true calls from rfl]
        congr 1
        unfold view
        rw [ho, hbus]
      · refine i2.trans ?_
        rw [show callsOf false ((false, op) :: calls) = op :: callsOf false calls from rfl]
        unfold runOps
        rw [List.foldl_cons, hx]

/-- **C84 (two cameras on one bus).** Two cameras - of the same or of different models - with different addresses on one bus, each
with a driver of its own; any devices, any errors, and the calls of the two drivers interleaved in any way. Each driver and each
device ends up exactly as if it had been alone with its own calls, and so does every further call: same outcome, same image. -/
theorem C84_two_cameras (m : Mode) (n1 n2 : Nat) (a b : Byte) (hb : b ≠ a) (first : Bus σ ER EW) (second : Bus τ ER EW)
    (s : σ) (t : τ) (st1 st2 : σ × τ) (d1 d2 : Driver F (σ × τ))
    (h1 : Made m n1 (joined a first second) (s, t) a st1 d1) (h2 : Made m n2 (joined a first second) st1 b st2 d2)
    (calls : List (Bool × Op F)) :
    ∃ s' e1 t' e2, Made m n1 first s a s' e1 ∧ Made m n2 second t b t' e2 ∧
      let r := together m (joined a first second) n1 n2 calls ({ d1 with bus := st2 }, d2)
      let alone1 := runOps ⟨m, n1, first⟩ (callsOf true calls) e1
      let alone2 := runOps ⟨m, n2, second⟩ (callsOf false calls) e2
      view Prod.fst r.1 = alone1 ∧ view Prod.snd r.2 = alone2 ∧ r.1.bus = r.2.bus ∧
      (∀ op : Op F, (op.exec ⟨m, n1, joined a first second⟩ r.1).2 = (op.exec ⟨m, n1, first⟩ alone1).2) ∧
      (∀ op : Op F, (op.exec ⟨m, n2, joined a first second⟩ r.2).2 = (op.exec ⟨m, n2, second⟩ alone2).2) ∧
      (∀ dest, (Driver.generateImageIfReady ⟨m, n1, joined a first second⟩ dest r.1).2 =
        (Driver.generateImageIfReady ⟨m, n1, first⟩ dest alone1).2) ∧
      (∀ dest, (Driver.generateImageIfReady ⟨m, n2, joined a first second⟩ dest r.2).2 =
        (Driver.generateImageIfReady ⟨m, n2, second⟩ dest alone2).2) := by
  obtain ⟨f1, l1⟩ := joined_first a first second
  obtain ⟨f2, l2⟩ := joined_second a b hb first second
  have m1 := made_view f1 h1
  have m2 := made_view f2 h2
  have k1 := made_leaves l1 h1
  have k2 := made_leaves l2 h2
  rw [k1.2] at m2
  obtain ⟨s1, a1⟩ := supported_of_new m h1
  obtain ⟨s2, a2⟩ := supported_of_new m h2
  refine ⟨_, _, _, _, m1, m2, ?_⟩
  have e1 : view Prod.fst ({ d1 with bus := st2 } : Driver F (σ × τ)) = view Prod.fst d1 := by
    unfold view
    rw [k1.1, k2.2]
  obtain ⟨v1, v2, v3, v4, v5⟩ := together_view hb calls { d1 with bus := st2 } d2 ⟨s1.1, s1.2, s1.3⟩ s2 a1 a2 k2.1.symm
  rw [e1] at v1
  simp only
  rw [← v1, ← v2]
  refine ⟨rfl, rfl, v3, fun op => ?_, fun op => ?_, fun dest => ?_, fun dest => ?_⟩
  · rw [view_exec _ (by rw [v4]; exact f1)]
  · rw [view_exec _ (by rw [v5]; exact f2)]
  · rw [view_ifReady _ (by rw [v4]; exact f1)]
  · rw [view_ifReady _ (by rw [v5]; exact f2)]

/-- An MLX90640 at 0x33 and an MLX90641 at 0x32, with the EEPROMs of the worked examples, on one bus: both drivers are
constructed, so that what C84 assumes holds; and then images of both, alternating, are those of each alone. -/
example (m : Mode) (dest1 dest2 : List ℝ) :
    ∃ st1 st2, ∃ d1 d2 : Driver ℝ ((Word → Word) × (Word → Word)), Made m 24 (joined 0x33#8 (cameraBus 0x33#8) (cameraBus 0x32#8))
        (exampleMemory words640, exampleMemory words641) 0x33#8 st1 d1 ∧
      Made m 12 (joined 0x33#8 (cameraBus 0x33#8) (cameraBus 0x32#8)) st1 0x32#8 st2 d2 ∧
      callsOf true [(true, Op.generateImageIfReady dest1), (false, Op.generateImageIfReady dest2), (true, .frameRate)] =
        [.generateImageIfReady dest1, .frameRate] := by
  obtain ⟨f1, l1⟩ := joined_first 0x33#8 (cameraBus 0x33#8) (cameraBus 0x32#8)
  obtain ⟨f2, l2⟩ := joined_second 0x33#8 0x32#8 (by decide) (cameraBus 0x33#8) (cameraBus 0x32#8)
  obtain ⟨s', d, hd, _⟩ := camera640_example m
  obtain ⟨st1, d1, h1, _⟩ := made_of_view (t := (exampleMemory words640, exampleMemory words641)) f1 (Or.inl ⟨rfl, hd⟩)
  have hw : ∀ a ∈ Ee641.readAddresses 192,
      WithinOneBit (eepromOf (exampleMemory words641) a) (codeword (values641 a)) := by
    have key : ∀ a ∈ Ee641.readAddresses 192,
      WithinOneBit (BitVec.ofNat 16 (words641 (a - 0x2400))) (codeword (values641 a)) := by decide +kernel
    intro a ha
    obtain ⟨h1, h2, _⟩ := readAddresses_bounds ha
    rw [exampleMemory_eeprom _ (by omega) (by omega)]
    exact key a ha
  obtain ⟨s', e, he⟩ := ((C68_construction (F := ℝ) m _ (exampleMemory words641) _ (cameraBus_static 0x32#8)).2
    (cameraBus_serves _ _)).2 ⟨values641, hw, Or.inr example641_fits⟩
  have he' : Made m 12 (cameraBus 0x32#8) st1.2 0x32#8 s' e := by
    rw [(made_leaves l1 h1).2]
    exact Or.inr ⟨rfl, he⟩
  obtain ⟨st2, d2, h2, _⟩ := made_of_view f2 he'
  exact ⟨st1, st2, d1, d2, h1, h2, rfl⟩

end Mlx.Props
