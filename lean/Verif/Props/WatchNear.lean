import Verif.Props.Watch
import Verif.Props.Nearness
/-
C83 in binary32 arithmetic.
-/
set_option linter.unusedSectionVars false
set_option autoImplicit false
namespace Mlx.Props
open Mlx Mlx.Spec Mlx.Proofs F32Ops
variable {F σ ER EW : Type} [F32Ops F] [Binary32 F] {mem : σ → Word → Word}

/-- **C83 (binary32, MLX90640).** The same as `C83_newest_pixels_640`, for the numbers that the crate computes with: after any
events (without a failing control register write, and with finite emissivities and reflected temperatures), every element of the
buffer for which the conditions of C74 hold is within the bound of C74 of the documented temperature of the newest image that
covers its pixel; what no image covered still is what it was. -/
theorem C83_newest_pixels_640_binary32 (m : Mode) (b : Bus σ ER EW) (s s' : σ) (addr : Byte) (h : StaticMemory b addr mem)
    (d : Driver F σ) (hd : Driver.new640 m b s addr = (s', .ok d)) (hreg : Ee640.Regular (eepromOf (mem s)))
    {δ : ℝ} (hpow : AccuratePowers F δ) (dest : List F) (events : List (Event F ER EW)) (d1 : Driver F σ) (dest1 : List F)
    (hx : Watch ⟨m, 24, b⟩ mem d dest events d1 dest1)
    (hn : ∀ op outcome, .call op outcome ∈ events → ¬ ControlWriteFailed op outcome)
    (hfin : ∀ e ∈ events, ∀ M em tr, e.draws = some (M, em, tr) →
      ∃ emissivity given, Is em emissivity ∧ Option.Rel Is tr given) :
    dest1.length = dest.length ∧ ∀ i,
      (∀ before e M em tr after, events = before ++ e :: after → e.draws = some (M, em, tr) → covers640 M i →
        (∀ e' ∈ after, ∀ M' em' tr', e'.draws = some (M', em', tr') → ¬ covers640 M' i) → i < dest.length →
        ∀ emissivity given, Is em emissivity → Option.Rel Is tr given →
          let p := Mlx90640Memory.pixel M emissivity given (statusSubpage (M 0x8000#16)) i
          p.Computable δ → ∃ v, dest1[i]? = some v ∧ Within v p.temperature (p.temperatureError δ)) ∧
      ((∀ e ∈ events, ∀ M em tr, e.draws = some (M, em, tr) → ¬ covers640 M i) → dest1[i]? = dest[i]?) := by
  obtain ⟨hs, ha⟩ := supported_of_new m (n := 24) (Or.inl ⟨rfl, hd⟩)
  have hst : StaticMemory (⟨m, 24, b⟩ : Env σ ER EW).bus d.addr mem := by rw [ha]; exact h
  refine ⟨watch_length hs hx, fun i => ?_⟩
  have key := watch_drawn hs hx covers640
    (fun M em tr i v => ∀ emissivity given, Is em emissivity → Option.Rel Is tr given →
      (Mlx90640Memory.pixel M emissivity given (statusSubpage (M 0x8000#16)) i).Computable δ →
      Within v (Mlx90640Memory.pixel M emissivity given (statusSubpage (M 0x8000#16)) i).temperature
        ((Mlx90640Memory.pixel M emissivity given (statusSubpage (M 0x8000#16)) i).temperatureError δ))
    (fun events => (∀ op outcome, .call op outcome ∈ events → ¬ ControlWriteFailed op outcome) ∧
      ∀ e ∈ events, ∀ M em tr, e.draws = some (M, em, tr) →
        ∃ emissivity given, Is em emissivity ∧ Option.Rel Is tr given)
    (fun ev e hp => ⟨fun op o hm => hp.1 op o (List.mem_append_left _ hm), fun e hm => hp.2 e (List.mem_append_left _ hm)⟩)
    ⟨hn, hfin⟩ hst (fun ev e d1 dest1 s1 d3 dest2 hx hp hdr h1 hm hq i => ?_) i
  · refine ⟨fun before e M em tr after he hdr hc hl hi em' given hem hgiven hcomp => ?_, key.2⟩
    obtain ⟨v, h1, h2⟩ := key.1 before e M em tr after he hdr hc hl hi
    exact ⟨v, h1, h2 em' given hem hgiven hcomp⟩
  · obtain ⟨calls, hses, hno⟩ := drawing_session hx (fun op o hm => hp.1 op o (List.mem_append_left _ hm)) h1
    have c75 := fun em given hem hgiven =>
      (C75_camera_640 m b s s' addr h d hd hreg calls _ hses hno hpow em given dest1 dest2 d3 hem hgiven).2.1
    simp only [hm] at c75
    obtain ⟨em0, given0, hem0, hgiven0⟩ := hp.2 _ (List.mem_append_right _ (List.mem_singleton_self _)) _ _ _ hdr
    obtain ⟨hlen, hpix⟩ := (c75 em0 given0 hem0 hgiven0 _ hq).2
    refine ⟨fun hc hi => ?_, (hpix i).2⟩
    have hi2 : i < dest2.length := by rw [hlen]; exact hi
    refine ⟨dest2[i], List.getElem?_eq_getElem hi2, fun em given hem hgiven hcomp => ?_⟩
    obtain ⟨v, h2, h3⟩ := ((c75 em given hem hgiven _ hq).2.2 i).1 hc hcomp hi
    rw [List.getElem?_eq_getElem hi2, Option.some.injEq] at h2
    rw [h2]
    exact h3

/-- **C83 (binary32, MLX90641).** The same as `C83_newest_pixels_641`, for the numbers that the crate computes with: after any
events (without a failing control register write, and with finite emissivities and reflected temperatures), every element of the
buffer for which the conditions of C74 hold is within the bound of C74 of the documented temperature of the newest image that
covers its pixel; what no image covered still is what it was. -/
theorem C83_newest_pixels_641_binary32 (m : Mode) (b : Bus σ ER EW) (s s' : σ) (addr : Byte) (h : StaticMemory b addr mem)
    (d : Driver F σ) (hd : Driver.new641 m b s addr = (s', .ok d)) (D : Nat → BitVec 11) (hreg : Ee641.Regular D)
    (hD : ∀ a ∈ Ee641.readAddresses 192, WithinOneBit (eepromOf (mem s) a) (codeword (D a))) (hmod : ModerateScales D)
    {δ : ℝ} (hpow : AccuratePowers F δ) (dest : List F) (events : List (Event F ER EW)) (d1 : Driver F σ) (dest1 : List F)
    (hx : Watch ⟨m, 12, b⟩ mem d dest events d1 dest1)
    (hn : ∀ op outcome, .call op outcome ∈ events → ¬ ControlWriteFailed op outcome)
    (hfin : ∀ e ∈ events, ∀ M em tr, e.draws = some (M, em, tr) →
      ∃ emissivity given, Is em emissivity ∧ Option.Rel Is tr given) :
    dest1.length = dest.length ∧ ∀ i,
      (∀ before e M em tr after, events = before ++ e :: after → e.draws = some (M, em, tr) → covers641 M i →
        (∀ e' ∈ after, ∀ M' em' tr', e'.draws = some (M', em', tr') → ¬ covers641 M' i) → i < dest.length →
        ∀ emissivity given, Is em emissivity → Option.Rel Is tr given →
          let p := Mlx90641Memory.pixel M D emissivity given (statusSubpage (M 0x8000#16)) i
          p.Computable δ → ∃ v, dest1[i]? = some v ∧ Within v p.temperature (p.temperatureError δ)) ∧
      ((∀ e ∈ events, ∀ M em tr, e.draws = some (M, em, tr) → ¬ covers641 M i) → dest1[i]? = dest[i]?) := by
  obtain ⟨hs, ha⟩ := supported_of_new m (n := 12) (Or.inr ⟨rfl, hd⟩)
  have hst : StaticMemory (⟨m, 12, b⟩ : Env σ ER EW).bus d.addr mem := by rw [ha]; exact h
  refine ⟨watch_length hs hx, fun i => ?_⟩
  have key := watch_drawn hs hx covers641
    (fun M em tr i v => ∀ emissivity given, Is em emissivity → Option.Rel Is tr given →
      (Mlx90641Memory.pixel M D emissivity given (statusSubpage (M 0x8000#16)) i).Computable δ →
      Within v (Mlx90641Memory.pixel M D emissivity given (statusSubpage (M 0x8000#16)) i).temperature
        ((Mlx90641Memory.pixel M D emissivity given (statusSubpage (M 0x8000#16)) i).temperatureError δ))
    (fun events => (∀ op outcome, .call op outcome ∈ events → ¬ ControlWriteFailed op outcome) ∧
      ∀ e ∈ events, ∀ M em tr, e.draws = some (M, em, tr) →
        ∃ emissivity given, Is em emissivity ∧ Option.Rel Is tr given)
    (fun ev e hp => ⟨fun op o hm => hp.1 op o (List.mem_append_left _ hm), fun e hm => hp.2 e (List.mem_append_left _ hm)⟩)
    ⟨hn, hfin⟩ hst (fun ev e d1 dest1 s1 d3 dest2 hx hp hdr h1 hm hq i => ?_) i
  · refine ⟨fun before e M em tr after he hdr hc hl hi em' given hem hgiven hcomp => ?_, key.2⟩
    obtain ⟨v, h1, h2⟩ := key.1 before e M em tr after he hdr hc hl hi
    exact ⟨v, h1, h2 em' given hem hgiven hcomp⟩
  · obtain ⟨calls, hses, hno⟩ := drawing_session hx (fun op o hm => hp.1 op o (List.mem_append_left _ hm)) h1
    have c75 := fun em given hem hgiven =>
      (C75_camera_641 m b s s' addr h d hd D hreg hD hmod calls _ hses hno hpow em given dest1 dest2 d3 hem hgiven).2.1
    simp only [hm] at c75
    obtain ⟨em0, given0, hem0, hgiven0⟩ := hp.2 _ (List.mem_append_right _ (List.mem_singleton_self _)) _ _ _ hdr
    obtain ⟨hlen, hpix⟩ := (c75 em0 given0 hem0 hgiven0 _ hq).2
    refine ⟨fun hc hi => ?_, (hpix i).2⟩
    have hi2 : i < dest2.length := by rw [hlen]; exact hi
    refine ⟨dest2[i], List.getElem?_eq_getElem hi2, fun em given hem hgiven hcomp => ?_⟩
    obtain ⟨v, h2, h3⟩ := ((c75 em given hem hgiven _ hq).2.2 i).1 hc hcomp hi
    rw [List.getElem?_eq_getElem hi2, Option.some.injEq] at h2
    rw [h2]
    exact h3

/-- A camera measures the scene of `scene640`, in a release build with correctly rounded operations; the image is made; pixel 367
of the buffer is within 0.09 °C of the documented temperature. -/
example (dest : List Rounded) (hdest : dest.length = 768) :
    ∃ s' d d1 dest1 em v, Driver.new640 .wrapping (cameraBus 0x33#8) sceneMemory 0x33#8 = (s', .ok d) ∧
      Watch ⟨.wrapping, 24, cameraBus 0x33#8⟩ id d dest [.measured sceneMemory, .image sceneMemory em none] d1 dest1 ∧
      dest1[367]? = some v ∧ Within v (Mlx90640Memory.pixel sceneMemory 1 none .zero 367).temperature 0.09 := by
  have hst := cameraBus_static 0x33#8
  have hreg : Ee640.Regular (eepromOf sceneMemory) :=
    SameEeprom.regular (E := eepromOf (exampleMemory words640)) scene_same example640_regular
  obtain ⟨s', d, hd⟩ := ((C68_construction (F := Rounded) .wrapping _ sceneMemory _ hst).1 (cameraBus_serves _ _)).2 (Or.inl rfl)
  obtain ⟨hmem, c, hc, hcal⟩ := new_static hst hd
  have hmem : d.bus = sceneMemory := hmem
  have hstatus : sceneMemory 0x8000#16 = 0x0008#16 := by decide +kernel
  have w1 : Watch ⟨.wrapping, 24, cameraBus 0x33#8⟩ id d dest ([] ++ [.measured sceneMemory]) { d with bus := sceneMemory } dest := by
    refine .measured (mem := id) sceneMemory .start (fun a _ => ?_) ?_
    · show sceneMemory a = d.bus a
      rw [hmem]
    · show (sceneMemory 0x8000#16).getLsbD 3 = true
      rw [hstatus]
      decide
  obtain ⟨d2, dest2, p1⟩ := C82_ready_after_measurement .wrapping _ _ s' _ hst d 24 (Or.inl ⟨rfl, hd⟩) (cameraBus_serves _ _) dest
    [] [] sceneMemory _ dest w1 (Or.inl rfl) (fun e he => nomatch he)
  have w2 := Watch.image w1 p1
  have hem : Is d.effectiveEmissivity (1 : ℝ) := by
    rw [(new_fresh hd).1, hcal]
    exact is_lit (by norm_num) (by simpa using value_int (m := 1) (by norm_num))
  have htr : d.reflectedTemperature = none := (new_fresh hd).2
  obtain ⟨hm, hcomp, herr⟩ := scene640
  have hsub : statusSubpage (sceneMemory 0x8000#16) = .zero := by rw [hstatus]; decide
  have hset : ∀ M em tr, (Event.image (ER := Unit) (EW := Unit) sceneMemory d.effectiveEmissivity d.reflectedTemperature).draws =
      some (M, em, tr) → ∃ emissivity given, Is em emissivity ∧ Option.Rel Is tr given := by
    intro M em tr hq
    unfold Event.draws at hq
    rw [Option.some.injEq, Prod.mk.injEq, Prod.mk.injEq] at hq
    rw [← hq.2.1, ← hq.2.2, htr]
    exact ⟨1, none, hem, .none⟩
  have key := (C83_newest_pixels_640_binary32 .wrapping _ sceneMemory s' _ hst d hd hreg rounded_powers dest _ _ _ w2
    (fun op o ho => by simp at ho) (fun e he M em tr hq => by
      simp only [List.nil_append, List.cons_append, List.mem_cons, List.not_mem_nil, or_false] at he
      rcases he with rfl | rfl
      · exact nomatch hq
      · exact hset M em tr hq)).2 367
  obtain ⟨v, v1, v2⟩ := key.1 [.measured sceneMemory] _ sceneMemory d.effectiveEmissivity d.reflectedTemperature [] rfl rfl
    (by unfold covers640; rw [hsub]; exact hm) (fun e he => nomatch he) (by omega) 1 none hem (by rw [htr]; exact .none)
    (by rw [hsub]; exact hcomp)
  rw [hsub] at v2
  refine ⟨s', d, d2, dest2, d.effectiveEmissivity, v, hd, ?_, v1, Within.mono v2 herr⟩
  rw [← htr]
  exact w2

end Mlx.Props
