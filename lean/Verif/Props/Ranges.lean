import Verif.Props.Locality
/-
C110: the coefficients of the other temperature ranges never reach an image.
-/
set_option linter.unusedSectionVars false
set_option autoImplicit false
namespace Mlx.Props
open Mlx Mlx.Spec Mlx.Proofs F32Ops
variable {F : Type} [F32Ops F]
variable {σ τ ER EW ER' EW' : Type} {mem : σ → Word → Word} {mem' : τ → Word → Word}

/-- **C110 (MLX90640).** With any arithmetic, and bit for bit: of the words with the coefficients of the temperature ranges, an image
depends only on K_s_To2 and the scale of the K_s_To. Two drivers in use, whose cameras agree on these and on the other words that concern
a pixel, agree on the pixel and on the ambient temperature, whatever the other K_s_To and the corner temperatures - and however far from
the basic range the temperature is. -/
theorem C110_ranges_640 (m : Mode) (b : Bus σ ER EW) (b' : Bus τ ER' EW') (d : Driver F σ) (e : Driver F τ)
    (h : InUse640 m b mem d) (h' : InUse640 m b' mem' e) (hem : d.effectiveEmissivity = e.effectiveEmissivity)
    (href : d.reflectedTemperature = e.reflectedTemperature) (sp : Subpage) (i : Nat)
    (hw : ∀ a, Concerns640 sp i a → a ∉ ranges640 → mem d.bus a = mem' e.bus a)
    (hb : SameBasic640 (mem d.bus) (mem' e.bus))
    (dest out dest' out' : List F) (hd : dest[i]? = dest'[i]?) (d1 : Driver F σ) (e1 : Driver F τ) :
    let env : Env σ ER EW := ⟨m, 24, b⟩
    let env' : Env τ ER' EW' := ⟨m, 24, b'⟩
    let same := d1.ambientTemp = e1.ambientTemp ∧ out[i]? = out'[i]?
    (Driver.generateRawImageSubpageTo env sp dest d = (d1, out, .ok ()) →
      Driver.generateRawImageSubpageTo env' sp dest' e = (e1, out', .ok ()) → same) ∧
    (Driver.generateImageSubpageTo env sp dest d = (d1, out, .ok ()) →
      Driver.generateImageSubpageTo env' sp dest' e = (e1, out', .ok ()) → same) ∧
    (statusSubpage (mem d.bus 0x8000#16) = sp → statusSubpage (mem' e.bus 0x8000#16) = sp →
      (Driver.generateImageTo env dest d = (d1, out, .ok ()) →
        Driver.generateImageTo env' dest' e = (e1, out', .ok ()) → same) ∧
      (Driver.generateImageIfReady env dest d = (d1, out, .ok true) →
        Driver.generateImageIfReady env' dest' e = (e1, out', .ok true) → same)) := by
  intro env env' same
  have ha := alike_basic_640 h h' hem href hw hb
  obtain ⟨k1, k2, k3, -⟩ := inUse_640 h
  obtain ⟨k1', k2', k3', -⟩ := inUse_640 h'
  obtain ⟨r1, r2⟩ := alike_images m 24 24 b b' d e k1 k1' k2 k2' k3 k3' sp i ha dest out dest' out' hd d1 e1
  exact ⟨r1, r2, fun s1 s2 => alike_chosen m 24 24 b b' d e k1 k1' k2 k2' k3 k3' sp i ha dest out dest' out' hd d1 e1 s1 s2⟩

/-- **C110 (MLX90641).** The same for the MLX90641: of the coefficients of the temperature ranges, only K_s_To3 and the scale matter. -/
theorem C110_ranges_641 (m : Mode) (b : Bus σ ER EW) (b' : Bus τ ER' EW') (d : Driver F σ) (e : Driver F τ)
    (h : InUse641 m b mem d) (h' : InUse641 m b' mem' e) (hem : d.effectiveEmissivity = e.effectiveEmissivity)
    (href : d.reflectedTemperature = e.reflectedTemperature) (sp : Subpage) (i : Nat)
    (hw : ∀ a, Concerns641 sp i a → mem d.bus a = mem' e.bus a)
    (hv : ∀ a, Calibrates641 i a → a ∉ ranges641 → SameValue (mem d.bus a) (mem' e.bus a))
    (dest out dest' out' : List F) (hd : dest[i]? = dest'[i]?) (d1 : Driver F σ) (e1 : Driver F τ) :
    let env : Env σ ER EW := ⟨m, 12, b⟩
    let env' : Env τ ER' EW' := ⟨m, 12, b'⟩
    let same := d1.ambientTemp = e1.ambientTemp ∧ out[i]? = out'[i]?
    (Driver.generateRawImageSubpageTo env sp dest d = (d1, out, .ok ()) →
      Driver.generateRawImageSubpageTo env' sp dest' e = (e1, out', .ok ()) → same) ∧
    (Driver.generateImageSubpageTo env sp dest d = (d1, out, .ok ()) →
      Driver.generateImageSubpageTo env' sp dest' e = (e1, out', .ok ()) → same) ∧
    (statusSubpage (mem d.bus 0x8000#16) = sp → statusSubpage (mem' e.bus 0x8000#16) = sp →
      (Driver.generateImageTo env dest d = (d1, out, .ok ()) →
        Driver.generateImageTo env' dest' e = (e1, out', .ok ()) → same) ∧
      (Driver.generateImageIfReady env dest d = (d1, out, .ok true) →
        Driver.generateImageIfReady env' dest' e = (e1, out', .ok true) → same)) := by
  intro env env' same
  have ha := alike_basic_641 h h' hem href hw hv
  obtain ⟨k1, k2, k3, -⟩ := inUse_641 h
  obtain ⟨k1', k2', k3', -⟩ := inUse_641 h'
  obtain ⟨r1, r2⟩ := alike_images m 12 12 b b' d e k1 k1' k2 k2' k3 k3' sp i ha dest out dest' out' hd d1 e1
  exact ⟨r1, r2, fun s1 s2 => alike_chosen m 12 12 b b' d e k1 k1' k2 k2' k3 k3' sp i ha dest out dest' out' hd d1 e1 s1 s2⟩

/-- A camera that is `sceneMemory` but for the temperature ranges. -/
def otherRanges : Word → Word :=
  Function.update (Function.update (Function.update sceneMemory 0x243D#16 (sceneMemory 0x243D#16 ^^^ 0x0055#16)) 0x243E#16 0x1234#16)
    0x243F#16 (sceneMemory 0x243F#16 ^^^ 0x1110#16)

/-- Two cameras that differ in all their temperature ranges, also in the corner temperatures that a driver reports: their images of
both subpages are the same. -/
example (sp : Subpage) (dest : List F) : ∃ (d e d' e' : Driver F (Word → Word)) (out : List F),
    d.bus = sceneMemory ∧ e.bus = otherRanges ∧ d.calib.cornerTemps ≠ e.calib.cornerTemps ∧
    Driver.generateImageSubpageTo ⟨.wrapping, 24, cameraBus 0x33#8⟩ sp dest d = (d', out, .ok ()) ∧
    Driver.generateImageSubpageTo ⟨.wrapping, 24, cameraBus 0x33#8⟩ sp dest e = (e', out, .ok ()) := by
  obtain ⟨d, hu, hm, hr, hem, hn, d', out, hg⟩ := camera_draws (F := F) sceneMemory sp dest
  obtain ⟨e, hu', hm', hr', hem', hn', e', out', hg'⟩ := camera_draws (F := F) otherRanges sp dest
  have key : out = out' := by
    refine List.ext_getElem? fun i => ((C110_ranges_640 (mem := id) (mem' := id) .wrapping _ _ d e hu hu' ?_ ?_ sp i ?_ ?_
      dest out dest out' rfl d' e').2.1 hg hg').2
    · rw [hem, hem', hn, hn']
    · rw [hr, hr']
    · intro a _ ha
      simp only [ranges640, List.mem_cons, List.not_mem_nil, or_false, not_or] at ha
      simp only [hm, hm', id, otherRanges, Function.update_of_ne ha.1, Function.update_of_ne ha.2.1, Function.update_of_ne ha.2.2]
    · rw [hm, hm']
      constructor <;> decide +kernel
  refine ⟨d, e, d', e', out, hm, hm', ?_, hg, key ▸ hg'⟩
  have hc : ∀ c : Mlx90640.Calibration F, c.toCalib.cornerTemps = c.cornerTemps := fun _ => rfl
  have hcc : ∀ E : Nat → Word, (decode640 (F := F) E).cornerTemps = cornerTemps640 E := fun _ => rfl
  rw [(inUse_640 hu).2.2.2.2, (inUse_640 hu').2.2.2.2, hc, hc, hcc, hcc]
  simp only [hm, hm', id]
  decide +kernel

/-- An MLX90641 with these values, encoded without errors. -/
def codedMemory (V : Nat → BitVec 11) : Word → Word := fun a =>
  if 0x2410 ≤ a.toNat ∧ a.toNat < 0x2740 then codeword (V a.toNat) else exampleMemory words641 a

/-- It makes images. -/
theorem camera_draws_coded (V : Nat → BitVec 11) (hreg : Ee641.Regular V) (sp : Subpage) (dest : List ℝ) :
    ∃ d : Driver ℝ (Word → Word), InUse641 .wrapping (cameraBus 0x33#8) id d ∧ d.bus = codedMemory V ∧ d.reflectedTemperature = none ∧
    d.calib = Ee641.calibration V ∧ d.effectiveEmissivity = (Ee641.calibration V).emissivity.getD (lit 1) ∧
    ∃ d' out, Driver.generateImageSubpageTo ⟨.wrapping, 12, cameraBus 0x33#8⟩ sp dest d = (d', out, .ok ()) := by
  have hst := cameraBus_static 0x33#8
  have hw : ∀ a ∈ Ee641.readAddresses 192, WithinOneBit (eepromOf (codedMemory V) a) (codeword (V a)) := by
    intro a ha
    obtain ⟨h1, h2, _⟩ := readAddresses_bounds ha
    have hn : (BitVec.ofNat 16 a).toNat = a := by
      rw [BitVec.toNat_ofNat]
      omega
    unfold eepromOf codedMemory
    rw [hn, if_pos ⟨by omega, by omega⟩]
    exact Or.inl rfl
  obtain ⟨s', d, hd⟩ := ((C68_construction (F := ℝ) .wrapping _ (codedMemory V) _ hst).2
    (cameraBus_serves _ _)).2 ⟨V, hw, Or.inl rfl⟩
  obtain ⟨hmem, c, hc, hcal⟩ := new_static hst hd
  have hholds : Ee641.Holds (memBytes (codedMemory V) 0x2400#16 1664) V (Ee641.readAddresses 192) := by
    intro a ha
    have hb := readAddresses_bounds ha
    rw [eepromWord_memBytes _ (by omega) hb.2.1]
    exact hw a ha
  have htab : d.calib = Ee641.calibration V := by
    rw [hcal, C66_table_641 .wrapping _ c hc _ hholds hreg]
  have hok := (C68_healthy_camera_works .wrapping _ _ s' _ d 12 (Or.inr ⟨rfl, hd⟩) hst (cameraBus_serves _ _) (Or.inl rfl) [] d
    .start).2 (.generateImageSubpageTo sp dest)
  exact ⟨d, ⟨_, _, _, _, _, hst, hd, .start, fun c hc => nomatch hc⟩, hmem, (new_fresh hd).2, htab, by rw [(new_fresh hd).1, htab],
    image_result hok⟩

/-- The values of `values641` with other temperature ranges: all K_s_To but K_s_To3, and the corner temperatures CT6 to CT8. -/
def valuesRanges (a : Nat) : BitVec 11 :=
  if a ∈ ranges641.map BitVec.toNat then values641 a ^^^ 0x155#11 else values641 a

theorem valuesRanges_regular : Ee641.Regular valuesRanges := by decide +kernel

/-- Two MLX90641 that differ in all their temperature ranges, also in the corner temperatures that a driver reports: their images of both
subpages are the same. -/
example (sp : Subpage) (dest : List ℝ) : ∃ (d e d' e' : Driver ℝ (Word → Word)) (out out' : List ℝ),
    d.bus = codedMemory values641 ∧ e.bus = codedMemory valuesRanges ∧ d.calib.cornerTemps ≠ e.calib.cornerTemps ∧
    Driver.generateImageSubpageTo ⟨.wrapping, 12, cameraBus 0x33#8⟩ sp dest d = (d', out, .ok ()) ∧
    Driver.generateImageSubpageTo ⟨.wrapping, 12, cameraBus 0x33#8⟩ sp dest e = (e', out', .ok ()) ∧
    ∀ i < 192, out[i]? = out'[i]? := by
  obtain ⟨d, hu, hm, hr, hcal, hem, d', out, hg⟩ := camera_draws_coded _ example641_regular sp dest
  obtain ⟨e, hu', hm', hr', hcal', hem', e', out', hg'⟩ := camera_draws_coded _ valuesRanges_regular sp dest
  have hnot : ∀ a : Word, ¬ (0x2410 ≤ a.toNat ∧ a.toNat < 0x2740) → codedMemory values641 a = codedMemory valuesRanges a := by
    intro a ha
    unfold codedMemory
    rw [if_neg ha, if_neg ha]
  have hin : ∀ a : Word, a ∉ ranges641 → codedMemory values641 a = codedMemory valuesRanges a := by
    intro a ha
    have hn : a.toNat ∉ ranges641.map BitVec.toNat := by
      intro hc
      obtain ⟨x, hx, hxa⟩ := List.mem_map.1 hc
      exact ha (BitVec.eq_of_toNat_eq hxa ▸ hx)
    unfold codedMemory valuesRanges
    rw [if_neg hn]
  have key : ∀ i < 192, out[i]? = out'[i]? := by
    intro i hi
    refine ((C110_ranges_641 (mem := id) (mem' := id) .wrapping _ _ d e hu hu' ?_ ?_ sp i ?_ ?_
      dest out dest out' rfl d' e').2.1 hg hg').2
    · have h0 : values641 0x2423 = valuesRanges 0x2423 := by decide +kernel
      have h1 : ∀ V, (Ee641.calibration V).emissivity = some ((V 0x2423).toInt / 2 ^ 9 : ℝ) := fun _ => rfl
      rw [hem, hem', h1, h1, h0]
    · rw [hr, hr']
    · intro a ha
      simp only [hm, hm', id]
      refine hnot a ?_
      rcases ha with rfl | ha | ha | rfl
      · have key : ∀ sp i, i < 192 → (Mlx90641Memory.address sp i).toNat < 0x2410 := by
          intro sp i
          revert i
          cases sp <;> decide +kernel
        have := key sp i hi
        omega
      · simp only [List.mem_cons, List.not_mem_nil, or_false] at ha
        rcases ha with rfl | rfl | rfl | rfl <;> decide
      · cases sp <;> subst ha <;> decide
      · decide
    · intro a _ ha
      simp only [hm, hm', id]
      exact Or.inl (hin a ha)
  refine ⟨d, e, d', e', out, out', hm, hm', ?_, hg, hg', key⟩
  rw [hcal, hcal']
  show [-40, -20, 0, 80, 120, _, _, _] ≠ [-40, -20, 0, 80, 120, _, _, _]
  decide +kernel

end Mlx.Props
