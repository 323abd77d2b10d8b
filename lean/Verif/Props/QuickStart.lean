import Verif.Props.Examples
import Verif.Spec.QuickStart
/-
C116: the quick start of the crate's documentation.
-/
set_option linter.unusedSectionVars false
set_option autoImplicit false
namespace Mlx.Props
open Mlx Mlx.Spec Mlx.Proofs F32Ops
variable {σ ER EW : Type} {mem : σ → Word → Word}

section
variable (m : Mode) (b : Bus σ ER EW) (s s' : σ) (addr : Byte)

/-- Reading the frame rate of a camera that serves the documented accesses. -/
theorem rate_read {n : Nat} {d : Driver ℝ σ} (h : StaticMemory b d.addr mem)
    (hv : Serves b d.calib.cam d.addr mem) :
    ∃ d1, Driver.frameRate ⟨m, n, b⟩ d = (d1, .ok (rateSet (mem d.bus))) ∧ mem d1.bus = mem d.bus ∧
      d1.reflected = d.reflected ∧ d1.emissivity = d.emissivity ∧
      Op.frameRate.exec (⟨m, n, b⟩ : Env σ ER EW) d = (d1, .ok ()) := by
  have e := driverGet_eq (⟨m, n, b⟩ : Env σ ER EW) d .frameRate (by decide)
  obtain ⟨hm, hw⟩ := static_regRead h d.bus 0x800D#16
  obtain ⟨w, ok⟩ : ∃ w, (regRead b d.bus d.addr 0x800D#16).2 = .ok w := by
    unfold regRead
    dsimp only
    rw [hv.read d.bus 0x800D#16 [0#8, 0#8] (Or.inl ⟨rfl, Or.inr rfl⟩)]
    exact ⟨_, rfl⟩
  obtain rfl := hw w ok
  have e' : Driver.frameRate (⟨m, n, b⟩ : Env σ ER EW) d = (sawControl { d with bus := (regRead b d.bus d.addr 0x800D#16).1 }
      (mem d.bus 0x800D#16), .ok (rateSet (mem d.bus))) := by
    refine Eq.trans e ?_
    dsimp only
    rw [ok]
    rfl
  refine ⟨_, e', hm, rfl, rfl, ?_⟩
  show discard (Driver.frameRate (⟨m, n, b⟩ : Env σ ER EW) d) = _
  unfold discard
  rw [e']

theorem quick_generic (sleep : FrameRate → σ → σ) {n w : Nat} (make : Bus σ ER EW → σ → Byte → σ × Res (Err ER EW) (Driver ℝ σ))
    (d : Driver ℝ σ) (hd : make b s addr = (s', .ok d))
    (hmem : mem d.bus = mem s) (hr : d.reflected = none)
    (h : StaticMemory b d.addr mem) (hv : Serves b d.calib.cam d.addr mem)
    {fits : (Word → Word) → Prop} {frame : (Word → Word) → Nat → Option ℝ}
    (ht : ∀ (calls : List (Op ℝ × Res (Err ER EW) Unit)) (d1 : Driver ℝ σ),
      Session (⟨m, n, b⟩ : Env σ ER EW) mem anyFrame d calls d1 → (∀ c ∈ calls, ¬ ControlWriteFailed c.1 c.2) →
      mem d1.bus = mem s → d1.reflected = none → d1.emissivity = d.emissivity →
      Twice (mem := mem) m n w b s (sleep (rateSet (mem s))) fits frame d1) :
    ∃ x, (∀ a, a ≠ 0x8000#16 → mem x a = mem s a) ∧ (mem x 0x8000#16).getLsbD 3 = false ∧
      (∀ i, ¬ (3 ≤ i ∧ i ≤ 5) → (mem x 0x8000#16).getLsbD i = (mem s 0x8000#16).getLsbD i) ∧
      let y := sleep (rateSet (mem s)) x
      (fits (mem y) → ∃ s'' picture, quickStart m make n w b sleep s addr = (s'', .ok picture) ∧ picture.length = n * w ∧
        ∀ i < n * w, picture[i]? = some (newest [frame (mem y), frame (mem s)] i)) := by
  obtain ⟨d1, e1, e2, e3, e4, e5⟩ := rate_read m b (n := n) h hv
  have hx := Session.call (frame := anyFrame) (mem := mem) .frameRate (Session.start (env := (⟨m, n, b⟩ : Env σ ER EW)) (d := d))
  rw [e5] at hx
  obtain ⟨d2, dest2, v, h1, h6, h7, h8, h9⟩ := ht _ d1 hx (by
    rintro c hc ⟨_, e, he⟩
    rw [List.nil_append, List.mem_singleton] at hc
    rw [hc] at he
    cases he) (e2.trans hmem) (e3.trans hr) e4
  refine ⟨d2.bus, h6, h7, h8, fun hfit2 => ?_⟩
  obtain ⟨d3, dest3, v', k1, hl, hval⟩ := h9 hfit2
  refine ⟨d3.bus, dest3, ?_, hl, hval⟩
  unfold quickStart
  rw [hd]
  simp only [e1, h1]
  rw [hmem]
  simp only [k1]

/-- **C116 (MLX90640).** On a bus that serves the documented accesses, with an MLX90640 of regular EEPROM: the quick start ends
without an error, having slept for one frame at the rate in the control register. Each of the 768 values in the buffer is the
documented temperature, at emissivity 1, of the picture that the camera has after the pause, if it has a new one that covers the
pixel; otherwise of the picture that it had before, if that was new and covers the pixel; otherwise 0. -/
theorem C116_quick_start_640
    (sleep : FrameRate → σ → σ)
    (h : StaticMemory b addr mem) (hv : Serves b Mlx90640.cam addr mem) (d : Driver ℝ σ)
    (hd : Driver.new640 m b s addr = (s', .ok d)) (hreg : Ee640.Regular (eepromOf (mem s)))
    (hsleep : ∀ v x a, ¬ Volatile a → mem (sleep v x) a = mem x a)
    (hfit : Fits16 ((mem s 0x072A#16).toInt - (Ee640.calibration (eepromOf (mem s))).vdd25)) :
    ∃ x, (∀ a, a ≠ 0x8000#16 → mem x a = mem s a) ∧ (mem x 0x8000#16).getLsbD 3 = false ∧
      (∀ i, ¬ (3 ≤ i ∧ i ≤ 5) → (mem x 0x8000#16).getLsbD i = (mem s 0x8000#16).getLsbD i) ∧
      let y := sleep (rateSet (mem s)) x
      (Fits16 ((mem y 0x072A#16).toInt - (Ee640.calibration (eepromOf (mem s))).vdd25) →
        ∃ s'' picture, quickStart m (Driver.new640 m) 24 32 b sleep s addr = (s'', .ok picture) ∧ picture.length = 768 ∧
          ∀ i < 768, picture[i]? = some (newest [frame640 (mem y) 1, frame640 (mem s) 1] i)) := by
  obtain ⟨_, ha⟩ := supported_of_new (n := 24) m (Or.inl ⟨rfl, hd⟩)
  have hcam : d.calib.cam = Mlx90640.cam := by
    obtain ⟨_, c, _, hcal⟩ := new_static h hd
    rw [hcal]; rfl
  obtain ⟨hmem, hrefl, ht⟩ := twice_640 m b s s' addr (sleep (rateSet (mem s))) h hv d hd hreg (fun x a ha => hsleep _ x a ha) hfit
  exact quick_generic m b s s' addr sleep (Driver.new640 m) d hd hmem hrefl (by rw [ha]; exact h) (by rw [ha, hcam]; exact hv) ht

/-- **C116 (MLX90641).** The same for an MLX90641 whose EEPROM words have at most one wrong bit each, at the emissivity in the
EEPROM: every new picture covers all 192 pixels. -/
theorem C116_quick_start_641
    (sleep : FrameRate → σ → σ)
    (h : StaticMemory b addr mem) (hv : Serves b Mlx90641.cam addr mem) (d : Driver ℝ σ)
    (hd : Driver.new641 m b s addr = (s', .ok d)) (D : Nat → BitVec 11) (hreg : Ee641.Regular D)
    (hD : ∀ a ∈ Ee641.readAddresses 192, WithinOneBit (eepromOf (mem s) a) (codeword (D a)))
    (hsleep : ∀ v x a, ¬ Volatile a → mem (sleep v x) a = mem x a)
    (hfit : Fits16 ((mem s 0x05AA#16).toInt - (Ee641.calibration D).vdd25)) :
    ∃ x, (∀ a, a ≠ 0x8000#16 → mem x a = mem s a) ∧ (mem x 0x8000#16).getLsbD 3 = false ∧
      (∀ i, ¬ (3 ≤ i ∧ i ≤ 5) → (mem x 0x8000#16).getLsbD i = (mem s 0x8000#16).getLsbD i) ∧
      let y := sleep (rateSet (mem s)) x
      (Fits16 ((mem y 0x05AA#16).toInt - (Ee641.calibration D).vdd25) →
        ∃ s'' picture, quickStart m (Driver.new641 m) 12 16 b sleep s addr = (s'', .ok picture) ∧ picture.length = 192 ∧
          ∀ i < 192, picture[i]? = some (newest [frame641 (mem y) D ((D 0x2423).toInt / 2 ^ 9),
            frame641 (mem s) D ((D 0x2423).toInt / 2 ^ 9)] i)) := by
  obtain ⟨_, ha⟩ := supported_of_new (n := 12) m (Or.inr ⟨rfl, hd⟩)
  have hcam : d.calib.cam = Mlx90641.cam := by
    obtain ⟨_, c, _, hcal⟩ := new_static h hd
    rw [hcal]; rfl
  obtain ⟨hmem, hrefl, ht⟩ := twice_641 m b s s' addr (sleep (rateSet (mem s))) h hv d hd D hreg hD (fun x a ha => hsleep _ x a ha) hfit
  exact quick_generic m b s s' addr sleep (Driver.new641 m) d hd hmem hrefl (by rw [ha]; exact h) (by rw [ha, hcam]; exact hv) ht

end

/-- **C116 (complete).** The two pictures cover all pixels of an MLX90640, each pixel once, if both were new and of different
subpages. -/
theorem C116_complete {M1 M2 : Word → Word} (hp : M2 0x800D#16 = M1 0x800D#16) (h1 : (M1 0x8000#16).getLsbD 3 = true)
    (h2 : (M2 0x8000#16).getLsbD 3 = true) (hne : (M1 0x8000#16).getLsbD 0 ≠ (M2 0x8000#16).getLsbD 0) (em : ℝ) :
    ∀ i < 768, ((frame640 M1 em i).isSome ∧ frame640 M2 em i = none) ∨ (frame640 M1 em i = none ∧ (frame640 M2 em i).isSome) := by
  intro i hi
  unfold frame640 Mlx90640Memory.measured
  rw [hp, h1, h2]
  dsimp only
  cases pattern (M1 0x800D#16) <;> cases hb1 : (M1 0x8000#16).getLsbD 0 <;> cases hb2 : (M2 0x8000#16).getLsbD 0 <;>
    (first | (rw [hb1, hb2] at hne; exact absurd rfl hne) | skip) <;>
    simp only [hi, Subpage.toNat, true_and, if_true, if_false, Bool.false_eq_true] <;>
    [rcases Nat.mod_two_eq_zero_or_one (i / 32 + i % 32) with hm | hm; rcases Nat.mod_two_eq_zero_or_one (i / 32 + i % 32) with hm | hm;
     rcases Nat.mod_two_eq_zero_or_one (i / 32) with hm | hm; rcases Nat.mod_two_eq_zero_or_one (i / 32) with hm | hm] <;>
    simp [hm]

/-- **C116 (incomplete).** Otherwise all pixels of one of the subpages still hold the zeros of the buffer. -/
theorem C116_incomplete {M1 M2 : Word → Word} (hp : M2 0x800D#16 = M1 0x800D#16)
    (h : ¬ ((M1 0x8000#16).getLsbD 3 = true ∧ (M2 0x8000#16).getLsbD 3 = true ∧
      (M1 0x8000#16).getLsbD 0 ≠ (M2 0x8000#16).getLsbD 0)) (em : ℝ) :
    ∃ sp, ∀ i, Mlx90640Memory.measured M1 sp i → newest [frame640 M2 em, frame640 M1 em] i = 0 := by
  classical
  have none_of : ∀ {M : Word → Word} {i : Nat}, (M 0x8000#16).getLsbD 3 = false → frame640 M em i = none := by
    intro M i h3
    unfold frame640
    dsimp only
    rw [if_neg]
    rw [h3]
    exact fun hc => nomatch hc.1
  have other : ∀ {M : Word → Word} {i : Nat} {sp : Subpage}, M 0x800D#16 = M1 0x800D#16 → Mlx90640Memory.measured M1 sp i →
      sp ≠ (if (M 0x8000#16).getLsbD 0 then Subpage.one else Subpage.zero) → frame640 M em i = none := by
    intro M i sp h0 hi hne
    unfold frame640
    dsimp only
    rw [if_neg]
    rintro ⟨_, hc⟩
    unfold Mlx90640Memory.measured at hi hc
    rw [h0] at hc
    have e := hi.2.symm.trans hc.2
    revert e hne
    cases sp <;> cases (M 0x8000#16).getLsbD 0 <;> simp [Subpage.toNat]
  by_cases h1 : (M1 0x8000#16).getLsbD 3 = true
  · by_cases h2 : (M2 0x8000#16).getLsbD 3 = true
    · have he : (M1 0x8000#16).getLsbD 0 = (M2 0x8000#16).getLsbD 0 := by
        by_contra hc
        exact h ⟨h1, h2, hc⟩
      refine ⟨if (M1 0x8000#16).getLsbD 0 then Subpage.zero else Subpage.one, fun i hi => ?_⟩
      unfold newest newest newest
      rw [other rfl hi, other hp hi]
      · rfl
      · rw [← he]
        cases (M1 0x8000#16).getLsbD 0 <;> decide
      · cases (M1 0x8000#16).getLsbD 0 <;> decide
    · refine ⟨if (M1 0x8000#16).getLsbD 0 then Subpage.zero else Subpage.one, fun i hi => ?_⟩
      unfold newest newest newest
      rw [none_of (by simpa using h2), other rfl hi]
      · rfl
      · cases (M1 0x8000#16).getLsbD 0 <;> decide
  · refine ⟨if (M2 0x8000#16).getLsbD 0 then Subpage.zero else Subpage.one, fun i hi => ?_⟩
    unfold newest newest newest
    rw [none_of (M := M1) (by simpa using h1), other hp hi]
    · rfl
    · cases (M2 0x8000#16).getLsbD 0 <;> decide

/-- The hypotheses are met: a camera with the EEPROM of the datasheet's example, whose picture of subpage 1 is new and which has a
new one of subpage 0 after the pause. The buffer then has a temperature everywhere. -/
example (m : Mode) : ∃ (x : Word → Word) (s'' : Word → Word) (picture : List ℝ),
    quickStart m (Driver.new640 m) 24 32 (cameraBus 0x33#8) (fun _ M a => if a = 0x8000#16 then 8#16 else M a)
        (exampleMemory words640) 0x33#8 = (s'', .ok picture) ∧ picture.length = 768 ∧
      ∀ i < 768, picture[i]? = some (newest [frame640 (fun a => if a = 0x8000#16 then 8#16 else x a) 1,
        frame640 (exampleMemory words640) 1] i) := by
  obtain ⟨s', d, hd, hreg, hfit, _⟩ := camera640_example m
  obtain ⟨x, h1, _, _, h4⟩ := C116_quick_start_640 (mem := id) m (cameraBus 0x33#8) (exampleMemory words640) s' 0x33#8
    (fun _ M a => if a = 0x8000#16 then 8#16 else M a) (cameraBus_static _) (cameraBus_serves _ _) d hd hreg
    (fun v M a ha => if_neg fun hc => ha (Or.inr hc)) hfit
  have hx : x 0x072A#16 = exampleMemory words640 0x072A#16 := h1 _ (by decide)
  obtain ⟨s'', p, h5, h6, h7⟩ := h4 (by
    show Fits16 ((x 0x072A#16).toInt - _)
    rw [hx]
    exact hfit)
  exact ⟨x, s'', p, h5, h6, h7⟩

/-- And these two pictures are of different subpages. -/
example (x : Word → Word) (hx : x 0x800D#16 = exampleMemory words640 0x800D#16) : ∀ i < 768,
    ((frame640 (exampleMemory words640) 1 i).isSome ∧ frame640 (fun a => if a = 0x8000#16 then 8#16 else x a) 1 i = none) ∨
    (frame640 (exampleMemory words640) 1 i = none ∧ (frame640 (fun a => if a = 0x8000#16 then 8#16 else x a) 1 i).isSome) :=
  C116_complete (M1 := exampleMemory words640) (M2 := fun a => if a = 0x8000#16 then 8#16 else x a)
    ((if_neg (by decide)).trans hx) (by decide +kernel) (by simp) (by
      have : (exampleMemory words640 0x8000#16).getLsbD 0 = true := by decide +kernel
      rw [this]
      simp) 1

end Mlx.Props
