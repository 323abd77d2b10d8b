import Verif.Props.Nearness
import Verif.Spec.Locality
import Verif.Spec.Ranges
/-
C95, C96: what a pixel of an image depends on.
-/
set_option linter.unusedSectionVars false
set_option autoImplicit false
namespace Mlx.Props
open Mlx Mlx.Spec Mlx.Proofs F32Ops
variable {F : Type} [F32Ops F]

/-- Two driver states that agree on everything that concerns pixel `i` of subpage `sp`. -/
structure Alike {σ τ : Type} (d : Driver F σ) (e : Driver F τ) (M N : Word → Word) (sp : Subpage) (i : Nat) : Prop where
  cam : d.calib.cam = e.calib.cam
  emissivity : d.emissivity = e.emissivity
  reflected : d.reflected = e.reflected
  pattern : d.accessPattern = e.accessPattern
  resCorr : d.resCorr = e.resCorr
  frame : SameFrame d.calib e.calib sp d.accessPattern
  pixel : i < d.calib.cam.numPixels → SamePixel d.calib e.calib sp d.accessPattern i
  readings : frameReadings d.calib.cam sp M = frameReadings d.calib.cam sp N
  word : i < d.calib.cam.numPixels → ∀ address, PixelAt d.calib.cam sp i address → M address = N address

section
variable {σ τ ER EW ER' EW' : Type} {mem : σ → Word → Word} {mem' : τ → Word → Word}

theorem pixelAt_unique {cam : Cam} {sp : Subpage} {i : Nat} {a a' : Word} (h : PixelAt cam sp i a) (h' : PixelAt cam sp i a') : a = a' := by
  have hne : Mlx90640.cam ≠ Mlx90641.cam := fun h => absurd (congrArg Cam.numPixels h) (show ¬ ((768 : Nat) = 192) by decide)
  rcases h with ⟨h1, h2⟩ | ⟨h1, h2⟩ <;> rcases h' with ⟨h3, h4⟩ | ⟨h3, h4⟩
  · rw [h2, h4]
  · exact absurd (h1.symm.trans h3) hne
  · exact absurd (h3.symm.trans h1) hne
  · rw [h2, h4]

/-- Alike drivers convert frames alike. -/
theorem alike_converted (m : Mode) (d : Driver F σ) (e : Driver F τ)
    (hk : Complete d.calib d.calib.cam.numPixels) (hk' : Complete e.calib e.calib.cam.numPixels) (sp : Subpage) (i : Nat)
    (M N : Word → Word) (ha : Alike d e M N sp i) (dest out dest' out' : List F) (hd : dest[i]? = dest'[i]?)
    (px px' : List Byte) (hpx : HoldsFrame d.calib.cam sp d.accessPattern M px)
    (hpx' : HoldsFrame e.calib.cam sp e.accessPattern N px') (tA tA' : F) :
    (toRawImage (ER := ER) (EW := EW) m d sp dest px (frameReadings d.calib.cam sp M) = .ok (tA, out) →
      toRawImage (ER := ER') (EW := EW') m e sp dest' px' (frameReadings e.calib.cam sp N) = .ok (tA', out') →
      tA = tA' ∧ out[i]? = out'[i]?) ∧
    (toTemperatures (ER := ER) (EW := EW) m d sp dest px (frameReadings d.calib.cam sp M) = .ok (tA, out) →
      toTemperatures (ER := ER') (EW := EW') m e sp dest' px' (frameReadings e.calib.cam sp N) = .ok (tA', out') →
      tA = tA' ∧ out[i]? = out'[i]?) := by
  have hby : i < d.calib.cam.numPixels →
      (d.calib.cam.pixelsInSubpage sp d.accessPattern)[i]? = some true → SameBytes px px' i := by
    intro hi hv
    obtain ⟨a, h1, h2, h3⟩ := hpx i hi hv
    obtain ⟨a', h1', h2', h3'⟩ := hpx' i (by rw [← ha.cam]; exact hi) (by rw [← ha.cam, ← ha.pattern]; exact hv)
    rw [← ha.cam] at h1'
    obtain rfl := pixelAt_unique h1 h1'
    unfold SameBytes
    rw [h2, h3, h2', h3', ha.word hi a h1]
    exact ⟨rfl, rfl⟩
  constructor
  · intro hconv hconv'
    unfold toRawImage at hconv hconv'
    have c1 := raw_error (ε' := Unit) hconv
    have c2 := raw_error (ε' := Unit) hconv'
    rw [← ha.cam, ← ha.emissivity, ← ha.pattern, ← ha.resCorr, ← ha.readings] at c2
    constructor
    · obtain ⟨_, k1, t1, -⟩ := rawIr_ok c1
      obtain ⟨_, k2, t2, -⟩ := rawIr_ok c2
      rw [new_congr ha.frame, k2] at k1
      cases k1
      rw [t1, t2]
    · by_cases hv : (d.calib.cam.pixelsInSubpage sp d.accessPattern)[i]? = some true ∧ i < d.calib.cam.numPixels
      · exact (C18_pixels_are_independent (ε := Unit) m d.calib e.calib _ _ tA tA' none px px' _ sp _ _ _ dest dest' out out' i
          ha.frame (ha.pixel hv.2) (hby hv.2 hv.1) rfl hd).1 c1 c2
      · rw [(C18_unselected_pixels_kept m d.calib _ _ tA none px _ sp _ _ dest out).1 c1 |>.2 i ?_,
          (C18_unselected_pixels_kept m e.calib _ _ tA' none px' _ sp _ _ dest' out').1 c2 |>.2 i ?_, hd]
        · rcases not_and_or.1 hv with hf | hf
          · exact Or.inl hf
          · exact Or.inr (Or.inr (Or.inl (by rw [hk'.offsetRef, ← ha.cam]; omega)))
        · rcases not_and_or.1 hv with hf | hf
          · exact Or.inl hf
          · exact Or.inr (Or.inr (Or.inl (by rw [hk.offsetRef]; omega)))
  · intro hconv hconv'
    unfold toTemperatures at hconv hconv'
    have c1 := temps_error (ε' := Unit) hconv
    have c2 := temps_error (ε' := Unit) hconv'
    rw [← ha.cam, ← ha.emissivity, ← ha.pattern, ← ha.resCorr, ← ha.readings, ← ha.reflected] at c2
    constructor
    · obtain ⟨_, _, k1, t1, -⟩ := temps_ok c1
      obtain ⟨_, _, k2, t2, -⟩ := temps_ok c2
      rw [new_congr ha.frame, k2] at k1
      cases k1
      rw [t1, t2]
    · by_cases hv : (d.calib.cam.pixelsInSubpage sp d.accessPattern)[i]? = some true ∧ i < d.calib.cam.numPixels
      · exact (C18_pixels_are_independent (ε := Unit) m d.calib e.calib _ _ tA tA' _ px px' _ sp _ _ _ dest dest' out out' i
          ha.frame (ha.pixel hv.2) (hby hv.2 hv.1) rfl hd).2.1 c1 c2
      · rw [(C18_unselected_pixels_kept m d.calib _ _ tA _ px _ sp _ _ dest out).2.1 c1 |>.2 i ?_,
          (C18_unselected_pixels_kept m e.calib _ _ tA' _ px' _ sp _ _ dest' out').2.1 c2 |>.2 i ?_, hd]
        · rcases not_and_or.1 hv with hf | hf
          · exact Or.inl (Or.inl hf)
          · exact Or.inl (Or.inr (Or.inr (Or.inl (by rw [hk'.offsetRef, ← ha.cam]; omega))))
        · rcases not_and_or.1 hv with hf | hf
          · exact Or.inl (Or.inl hf)
          · exact Or.inl (Or.inr (Or.inr (Or.inl (by rw [hk.offsetRef]; omega))))

/-- Alike drivers draw alike pixels. -/
theorem alike_images (m : Mode) (n n' : Nat) (b : Bus σ ER EW) (b' : Bus τ ER' EW') (d : Driver F σ) (e : Driver F τ)
    (hs : Supported ⟨m, n, b⟩ d) (hs' : Supported ⟨m, n', b'⟩ e) (h : StaticMemory b d.addr mem) (h' : StaticMemory b' e.addr mem')
    (hk : Complete d.calib d.calib.cam.numPixels) (hk' : Complete e.calib e.calib.cam.numPixels) (sp : Subpage) (i : Nat)
    (ha : Alike d e (mem d.bus) (mem' e.bus) sp i) (dest out dest' out' : List F) (hd : dest[i]? = dest'[i]?)
    (d1 : Driver F σ) (e1 : Driver F τ) :
    (Driver.generateRawImageSubpageTo ⟨m, n, b⟩ sp dest d = (d1, out, .ok ()) →
      Driver.generateRawImageSubpageTo ⟨m, n', b'⟩ sp dest' e = (e1, out', .ok ()) →
      d1.ambientTemp = e1.ambientTemp ∧ out[i]? = out'[i]?) ∧
    (Driver.generateImageSubpageTo ⟨m, n, b⟩ sp dest d = (d1, out, .ok ()) →
      Driver.generateImageSubpageTo ⟨m, n', b'⟩ sp dest' e = (e1, out', .ok ()) →
      d1.ambientTemp = e1.ambientTemp ∧ out[i]? = out'[i]?) := by
  constructor
  · intro hg hg'
    obtain ⟨px, tA, hpx, hconv, hamb, -⟩ := (C55_frame_of_memory ⟨m, n, b⟩ d hs h sp dest out d1).2 hg
    obtain ⟨px', tA', hpx', hconv', hamb', -⟩ := (C55_frame_of_memory ⟨m, n', b'⟩ e hs' h' sp dest' out' e1).2 hg'
    obtain ⟨h1, h2⟩ := (alike_converted (ER := ER) (EW := EW) (ER' := ER') (EW' := EW') m d e hk hk' sp i _ _ ha dest out
      dest' out' hd px px' hpx hpx' tA tA').1 hconv hconv'
    exact ⟨by rw [hamb, hamb', h1], h2⟩
  · intro hg hg'
    obtain ⟨px, tA, hpx, hconv, hamb, -⟩ := (C55_frame_of_memory ⟨m, n, b⟩ d hs h sp dest out d1).1 hg
    obtain ⟨px', tA', hpx', hconv', hamb', -⟩ := (C55_frame_of_memory ⟨m, n', b'⟩ e hs' h' sp dest' out' e1).1 hg'
    obtain ⟨h1, h2⟩ := (alike_converted (ER := ER) (EW := EW) (ER' := ER') (EW' := EW') m d e hk hk' sp i _ _ ha dest out
      dest' out' hd px px' hpx hpx' tA tA').2 hconv hconv'
    exact ⟨by rw [hamb, hamb', h1], h2⟩

/-! ### MLX90640 -/

/-- What is known of a driver in use. -/
theorem inUse_640 {m : Mode} {b : Bus σ ER EW} {d : Driver F σ} (h : InUse640 m b mem d) :
    Supported ⟨m, 24, b⟩ d ∧ StaticMemory b d.addr mem ∧ Complete d.calib d.calib.cam.numPixels ∧
      Caches d (mem d.bus 0x800D#16) ∧ d.calib = (decode640 (eepromOf (mem d.bus))).toCalib := by
  obtain ⟨s, s', addr, d0, calls, h, hd, hx, hn⟩ := h
  obtain ⟨hmem, c, hc, hcal⟩ := new_static h hd
  obtain ⟨hs, ha⟩ := (C39_constructed_drivers_supported m b s addr).1 s' d0 hd
  have hk := constructed_complete (Or.inl hd)
  have hst : StaticMemory b d0.addr mem := by rw [ha]; exact h
  have hca := session_caches hs hst (C47_after_construction m b s s' addr d0 h (Or.inl hd)) hx hn
  obtain ⟨hs1, ha1, hcal1⟩ := session_supported hs hx
  refine ⟨hs1, by rw [ha1]; exact hst, by rw [hcal1]; exact hk, hca, ?_⟩
  have hlen : 1664 ≤ (memBytes (mem s) 0x2400#16 1664).length := by
    by_contra hl
    have hl := not_le.1 hl
    rcases Nat.lt_or_ge (memBytes (mem s) 0x2400#16 1664).length 831 with h2 | h2
    · rw [fromData_tooShort m h2] at hc; cases hc
    · rw [fromData_short m h2 hl] at hc; cases hc
  rw [fromData_eq m hlen] at hc
  have hc' : c = decode640 (eepromWord (memBytes (mem s) 0x2400#16 1664)) := by
    by_cases hp : ∀ i < 768, m = .wrapping ∨ Ee640.SumsFit (eepromWord (memBytes (mem s) 0x2400#16 1664)) i
    · rw [onlyIf_pos hp] at hc
      exact (Res.ok.inj hc).symm
    · rw [onlyIf_neg hp] at hc; cases hc
  rw [hcal1, hcal, hc']
  refine congrArg _ (decode640_congr fun k h1 h2 => ?_).1
  rw [eepromWord_memBytes _ (by omega) (by omega)]
  have hstill := eeprom_still (a := 0x2400 + k) (by omega) (by omega)
  unfold eepromOf
  rw [session_memory hs hst hx _ hstill.1 hstill.2, hmem]

theorem sameFrame640 {E E' : Nat → Word} (ha : ∀ a, 0x2410 ≤ a → a < 0x243D → E a = E' a)
    (h1 : signedAt (E 0x243D) 8 8 = signedAt (E' 0x243D) 8 8) (h2 : bitsAt (E 0x243F) 0 4 = bitsAt (E' 0x243F) 0 4)
    (outs outs' : List (Mlx90640.PixelOut F)) (sp : Subpage) (a : AccessPattern) :
    SameFrame (decode640With E outs).toCalib (decode640With E' outs').toCalib sp a := by
  have hk : (kSTo640 (F := F) E)[1]? = (kSTo640 E')[1]? := by
    show some _ = some _
    rw [h1, h2]
  have h0 : SameFrame (decode640With E' outs).toCalib (decode640With (F := F) E' outs').toCalib sp a := by constructor <;> rfl
  rw [ranges640_congr ha]
  have key : ∀ (C : Mlx90640.Calibration F) (c : Calib F) ct ks corr, SameFrame C.toCalib c sp a → ks[1]? = C.kSTo[1]? →
      SameFrame { C with cornerTemps := ct, kSTo := ks, alphaCorrection := corr }.toCalib c sp a := by
    intro C c ct ks corr g hg
    exact ⟨g.1, g.2, g.3, g.4, g.5, g.6, g.7, g.8, g.9, g.10, g.11, g.12, g.13, g.14, g.15, hg.trans g.16, g.17⟩
  exact key _ _ _ _ _ h0 hk

theorem sameSettings640 (E : Nat → Word) (outs : List (Mlx90640.PixelOut F)) :
    (decode640With E outs).toCalib.resolution = CtrlField.resolution.decode (bitsAt (E 0x2438) 12 2) ∧
    (decode640With E outs).toCalib.cam = Mlx90640.cam := ⟨rfl, rfl⟩

theorem samePixel640 {E E' : Nat → Word} (ha : ∀ a, 0x2410 ≤ a → a < 0x243D → E a = E' a)
    (outs outs' : List (Mlx90640.PixelOut F)) (sp : Subpage) (a : AccessPattern) (i : Nat)
    (h : outs[i]? = outs'[i]?) : SamePixel (decode640With E outs).toCalib (decode640With E' outs').toCalib sp a i := by
  rw [ranges640_congr ha]
  constructor
  · show (List.map _ _)[i]? = (List.map _ _)[i]?
    rw [List.getElem?_map, List.getElem?_map, h]
  · show (List.map _ _)[i]? = (List.map _ _)[i]?
    rw [List.getElem?_map, List.getElem?_map, h]
  · rfl
  · show (List.map _ _)[i]? = (List.map _ _)[i]?
    rw [List.getElem?_map, List.getElem?_map, h]
  · rfl

/-- Drivers in use that agree on what concerns a pixel, except on temperature ranges that images are not computed for. -/
theorem alike_basic_640 {m : Mode} {b : Bus σ ER EW} {b' : Bus τ ER' EW'} {d : Driver F σ} {e : Driver F τ}
    (h : InUse640 m b mem d) (h' : InUse640 m b' mem' e) (hem : d.effectiveEmissivity = e.effectiveEmissivity)
    (href : d.reflectedTemperature = e.reflectedTemperature) {sp : Subpage} {i : Nat}
    (hw : ∀ a, Concerns640 sp i a → a ∉ ranges640 → mem d.bus a = mem' e.bus a)
    (hb : SameBasic640 (mem d.bus) (mem' e.bus)) : Alike d e (mem d.bus) (mem' e.bus) sp i := by
  have hr : ∀ a : Word, a.toNat < 0x243D ∨ 0x2440 ≤ a.toNat → a ∉ ranges640 := by
    intro a ha hc
    simp only [ranges640, List.mem_cons, List.not_mem_nil, or_false] at hc
    rcases hc with rfl | rfl | rfl <;> revert ha <;> decide
  obtain ⟨-, -, -, hca, hc⟩ := inUse_640 h
  obtain ⟨-, -, -, hca', hc'⟩ := inUse_640 h'
  have hctl : mem d.bus 0x800D#16 = mem' e.bus 0x800D#16 := hw _ (Or.inr (Or.inr (Or.inr (Or.inr (Or.inr rfl))))) (hr _ (by decide))
  have hcam : d.calib.cam = Mlx90640.cam := by rw [hc]; exact (sameSettings640 _ _).2
  have hcam' : e.calib.cam = Mlx90640.cam := by rw [hc']; exact (sameSettings640 _ _).2
  have hsh : ∀ a, 0x2410 ≤ a → a < 0x243D → eepromOf (mem d.bus) a = eepromOf (mem' e.bus) a := by
    intro a h1 h2
    have ha : (BitVec.ofNat 16 a).toNat = a := by rw [BitVec.toNat_ofNat, Nat.mod_eq_of_lt (by omega)]
    exact hw _ (Or.inl (by rw [ha]; exact ⟨h1, by omega⟩)) (hr _ (by omega))
  have k2 := pixel640_congr (F := F) hsh
  have hpx : i < 768 → pixel640 (F := F) (eepromOf (mem d.bus)) i = pixel640 (eepromOf (mem' e.bus)) i := by
    intro hi
    have ht : (BitVec.ofNat 16 (0x2440 + i)).toNat = 0x2440 + i := by rw [BitVec.toNat_ofNat, Nat.mod_eq_of_lt (by omega)]
    exact (k2 i hi (hw _ (Or.inr (Or.inl ht)) (hr _ (by omega)))).1
  unfold decode640 at hc hc'
  have hres : d.calib.resolution = e.calib.resolution := by
    rw [hc, hc', (sameSettings640 _ _).1, (sameSettings640 _ _).1, hsh 0x2438 (by decide) (by decide)]
  have hap : d.accessPattern = e.accessPattern := by rw [hca.1, hca'.1, hctl]
  refine ⟨hcam.trans hcam'.symm, hem, href, hap, by rw [hca.2, hca'.2, hctl, hres], ?_, fun hi => ?_, ?_, ?_⟩
  · rw [hc, hc']
    refine sameFrame640 hsh ?_ ?_ _ _ _ _
    · unfold signedAt
      show (((mem d.bus 0x243D#16).toNat / 256 : Nat) : Int).bmod _ = (((mem' e.bus 0x243D#16).toNat / 256 : Nat) : Int).bmod _
      rw [hb.1]
    · unfold bitsAt
      show (mem d.bus 0x243F#16).toNat / 1 % 16 = (mem' e.bus 0x243F#16).toNat / 1 % 16
      rw [Nat.div_one, Nat.div_one, hb.2]
  · rw [hcam] at hi
    have hi : i < 768 := hi
    have hpp : (pixels640 (F := F) (eepromOf (mem d.bus)))[i]? = (pixels640 (eepromOf (mem' e.bus)))[i]? := by
      rw [Proofs.pixels640_get _ hi, Proofs.pixels640_get _ hi, hpx hi]
    rw [hc, hc']
    exact samePixel640 hsh _ _ _ _ _ hpp
  · rw [hcam]
    have r1 : ∀ a ∈ [0x0700#16, 0x070A#16, 0x0720#16, 0x072A#16], mem d.bus a = mem' e.bus a := fun a ha =>
      hw a (Or.inr (Or.inr (Or.inr (Or.inl ha)))) (hr _ (by
        simp only [List.mem_cons, List.not_mem_nil, or_false] at ha
        rcases ha with rfl | rfl | rfl | rfl <;> decide))
    have r2 := hw _ (Or.inr (Or.inr (Or.inr (Or.inr (Or.inl rfl))))) (hr _ (by cases sp <;> decide))
    have e1 : frameReadings Mlx90640.cam sp (mem d.bus) = Mlx90640Memory.readings (mem d.bus) sp := by cases sp <;> rfl
    have e2 : frameReadings Mlx90640.cam sp (mem' e.bus) = Mlx90640Memory.readings (mem' e.bus) sp := by cases sp <;> rfl
    rw [e1, e2]
    unfold Mlx90640Memory.readings
    rw [r1 0x0700#16 (by simp), r1 0x070A#16 (by simp), r1 0x0720#16 (by simp), r1 0x072A#16 (by simp)]
    cases sp
    · rw [show mem d.bus 0x0708#16 = _ from r2]
    · rw [show mem d.bus 0x0728#16 = _ from r2]
  · intro hi a ha
    rw [hcam] at ha hi
    have hi : i < 768 := hi
    rcases ha with ⟨-, ha⟩ | ⟨ha, -⟩
    · have ht : a.toNat = 0x0400 + i := by rw [ha, BitVec.toNat_ofNat, Nat.mod_eq_of_lt (by omega)]
      exact hw a (Or.inr (Or.inr (Or.inl ht))) (hr _ (by omega))
    · exact absurd (congrArg Cam.numPixels ha) (show ¬ ((768 : Nat) = 192) by decide)

theorem alike_640 {m : Mode} {b : Bus σ ER EW} {b' : Bus τ ER' EW'} {d : Driver F σ} {e : Driver F τ}
    (h : InUse640 m b mem d) (h' : InUse640 m b' mem' e) (hem : d.effectiveEmissivity = e.effectiveEmissivity)
    (href : d.reflectedTemperature = e.reflectedTemperature) {sp : Subpage} {i : Nat}
    (hw : ∀ a, Concerns640 sp i a → mem d.bus a = mem' e.bus a) : Alike d e (mem d.bus) (mem' e.bus) sp i :=
  alike_basic_640 h h' hem href (fun a ha _ => hw a ha)
    ⟨by rw [hw 0x243D#16 (Or.inl ⟨by decide, by decide⟩)], by rw [hw 0x243F#16 (Or.inl ⟨by decide, by decide⟩)]⟩

/-! ### MLX90641 -/

/-- Each pixel depends on the first words of the shared calibration and on its own four words. -/
theorem pixel641_congr {W W' : Nat → Word} (ha : ∀ a, 0x2410 ≤ a → a < 0x2434 → a ≠ 0x2413 → a ≠ 0x2414 → W a = W' a)
    (i : Nat) (hi : i < 192) (hp : ∀ a ∈ Ee641.pixelAddresses i, W a = W' a) : pixel641 (F := F) W i = pixel641 W' i := by
  have hl : ∀ a, 0x2415 ≤ a → a < 0x2434 → W a = W' a := fun a h1 h2 => ha a (by omega) h2 (by omega) (by omega)
  have h10 := ha 0x2410 (by decide) (by decide) (by decide) (by decide)
  have h11 : Ee641.combined W 0x2411 = Ee641.combined W' 0x2411 := by
    unfold Ee641.combined
    rw [ha 0x2411 (by decide) (by decide) (by decide) (by decide), ha (0x2411 + 1) (by decide) (by decide) (by decide) (by decide)]
  have hr : Ee641.rowPair i < 6 := by unfold Ee641.rowPair; omega
  have hf : Ee641.isFailed W i = Ee641.isFailed W' i := by
    unfold Ee641.isFailed
    rw [decide_eq_decide]
    exact forall₂_congr fun a h => by rw [hp a h]
  have p0 := hp (0x2440 + i) (by simp [Ee641.pixelAddresses])
  have p1 := hp (0x2680 + i) (by simp [Ee641.pixelAddresses])
  have p2 := hp (0x2500 + i) (by simp [Ee641.pixelAddresses])
  have p3 := hp (0x25C0 + i) (by simp [Ee641.pixelAddresses])
  have hre : Ee641.referenceExp W (Ee641.rowPair i) = Ee641.referenceExp W' (Ee641.rowPair i) := by
    unfold Ee641.referenceExp
    rw [hl (0x2419 + Ee641.rowPair i / 2) (by omega) (by omega)]
  unfold pixel641 reference641 Ee641.offsetRaw Ee641.alphaRaw Ee641.kTaRaw Ee641.kVRaw Ee641.offsetAverage Ee641.offsetExp
  simp only
  rw [hf, p0, p1, p2, p3, h10, h11, hre, hl (0x241C + Ee641.rowPair i) (by omega) (by omega), hl 0x2416 (by decide) (by decide),
    hl 0x2415 (by decide) (by decide), hl 0x2418 (by decide) (by decide), hl 0x2417 (by decide) (by decide)]

/-- Everything but the pixels depends only on the words below 0x2440, and those from 0x2434 on are only used for the temperature ranges. -/
theorem ranges641_congr {W W' : Nat → Word} (ha : ∀ a, 0x2410 ≤ a → a < 0x2434 → a ≠ 0x2413 → a ≠ 0x2414 → W a = W' a)
    (outs : List (Mlx90641.PixelOut F)) :
    decode641With (F := F) W outs = { decode641With (F := F) W' outs with
      cornerTemps := cornerTemps641 W
      kSTo := kSTo641 W
      alphaCorrection := (List.range 8).map (corr 2 (cornerTemps641 W) (kSTo641 W)) } := by
  have hl : ∀ a, 0x2415 ≤ a → a < 0x2434 → W a = W' a := fun a h1 h2 => ha a (by omega) h2 (by omega) (by omega)
  have hc : ∀ a, 0x2415 ≤ a → a < 0x2433 → Ee641.combined W a = Ee641.combined W' a := by
    intro a h1 h2
    unfold Ee641.combined
    rw [hl a h1 (by omega), hl (a + 1) (by omega) (by omega)]
  unfold decode641With
  rw [hc 0x2428 (by decide) (by decide), hc 0x2424 (by decide) (by decide), hc 0x242F (by decide) (by decide),
    hl 0x2427 (by decide) (by decide), hl 0x2426 (by decide) (by decide), hl 0x2433 (by decide) (by decide),
    hl 0x242B (by decide) (by decide), hl 0x242A (by decide) (by decide), hl 0x242C (by decide) (by decide),
    hl 0x2422 (by decide) (by decide), hl 0x2423 (by decide) (by decide), hl 0x242D (by decide) (by decide),
    hl 0x242E (by decide) (by decide), hl 0x2432 (by decide) (by decide), hl 0x2431 (by decide) (by decide)]

/-- Everything but the pixels depends only on the words below 0x2440, each pixel on these and on its own four words. -/
theorem shared641_congr {W W' : Nat → Word} (ha : ∀ a, 0x2410 ≤ a → a < 0x2440 → a ≠ 0x2413 → a ≠ 0x2414 → W a = W' a) :
    (∀ outs, decode641With (F := F) W outs = decode641With W' outs) ∧
    ∀ i < 192, (∀ a ∈ Ee641.pixelAddresses i, W a = W' a) → pixel641 (F := F) W i = pixel641 W' i := by
  have hl : ∀ a, 0x2415 ≤ a → a < 0x2440 → W a = W' a := fun a h1 h2 => ha a (by omega) h2 (by omega) (by omega)
  have hb : ∀ a, 0x2410 ≤ a → a < 0x2434 → a ≠ 0x2413 → a ≠ 0x2414 → W a = W' a := fun a h1 h2 => ha a h1 (by omega)
  refine ⟨fun outs => ?_, pixel641_congr hb⟩
  have c1 : cornerTemps641 W = cornerTemps641 W' := by
    unfold cornerTemps641
    rw [hl 0x243A (by decide) (by decide), hl 0x243C (by decide) (by decide), hl 0x243E (by decide) (by decide)]
  have c2 : kSTo641 (F := F) W = kSTo641 W' := by
    unfold kSTo641
    rw [hl 0x2434 (by decide) (by decide), hl 0x2435 (by decide) (by decide), hl 0x2436 (by decide) (by decide),
      hl 0x2437 (by decide) (by decide), hl 0x2438 (by decide) (by decide), hl 0x2439 (by decide) (by decide),
      hl 0x243B (by decide) (by decide), hl 0x243D (by decide) (by decide), hl 0x243F (by decide) (by decide)]
  rw [ranges641_congr hb outs, c1, c2]
  exact (ranges641_congr (fun _ _ _ _ _ => rfl) outs).symm

/-- What is known of a driver in use. -/
theorem inUse_641 {m : Mode} {b : Bus σ ER EW} {d : Driver F σ} (h : InUse641 m b mem d) :
    Supported ⟨m, 12, b⟩ d ∧ StaticMemory b d.addr mem ∧ Complete d.calib d.calib.cam.numPixels ∧
      Caches d (mem d.bus 0x800D#16) ∧
      ∃ D, (∀ a ∈ Ee641.readAddresses 192, WithinOneBit (eepromOf (mem d.bus) a) (codeword (D a))) ∧
        d.calib = (decode641 (Ee641.widen D)).toCalib := by
  obtain ⟨s, s', addr, d0, calls, h, hd, hx, hn⟩ := h
  obtain ⟨hmem, c, hc, hcal⟩ := new_static h hd
  obtain ⟨hs, ha⟩ := (C39_constructed_drivers_supported m b s addr).2 s' d0 hd
  have hk := constructed_complete (Or.inr hd)
  have hst : StaticMemory b d0.addr mem := by rw [ha]; exact h
  have hca := session_caches hs hst (C47_after_construction m b s s' addr d0 h (Or.inr hd)) hx hn
  obtain ⟨hs1, ha1, hcal1⟩ := session_supported hs hx
  refine ⟨hs1, by rw [ha1]; exact hst, by rw [hcal1]; exact hk, hca, ?_⟩
  obtain ⟨D, hD⟩ := holds_of_accepted hc
  refine ⟨D, fun a hA => ?_, ?_⟩
  · have hb := readAddresses_bounds hA
    have h1 : 0x2400 ≤ a := by omega
    have := hD a hA
    rw [eepromWord_memBytes _ h1 hb.2.1] at this
    have hstill := eeprom_still h1 hb.2.1
    unfold eepromOf
    rw [session_memory hs hst hx _ hstill.1 hstill.2, hmem]
    exact this
  · rw [fromData641_full m (accepted641 hc).1 (decoded_of_holds hD)] at hc
    rw [hcal1, hcal]
    refine congrArg _ ?_
    by_cases hp : m = .wrapping ∨ Ee641.OffsetsFit (Ee641.widen D)
    · rw [onlyIf_pos hp] at hc
      exact (Res.ok.inj hc).symm
    · rw [onlyIf_neg hp] at hc; cases hc

theorem sameFrame641 {W W' : Nat → Word} (ha : ∀ a, 0x2410 ≤ a → a < 0x2434 → a ≠ 0x2413 → a ≠ 0x2414 → W a = W' a)
    (h1 : W 0x2434 = W' 0x2434) (h2 : W 0x2437 = W' 0x2437)
    (outs outs' : List (Mlx90641.PixelOut F)) (sp : Subpage) (a : AccessPattern) :
    SameFrame (decode641With W outs).toCalib (decode641With W' outs').toCalib sp a := by
  have hk : (kSTo641 (F := F) W)[2]? = (kSTo641 W')[2]? := by
    show some _ = some _
    rw [h1, h2]
  have h0 : SameFrame (decode641With W' outs).toCalib (decode641With (F := F) W' outs').toCalib sp a := by constructor <;> rfl
  rw [ranges641_congr ha]
  have key : ∀ (C : Mlx90641.Calibration F) (c : Calib F) ct ks corr, SameFrame C.toCalib c sp a → ks[2]? = C.kSTo[2]? →
      SameFrame { C with cornerTemps := ct, kSTo := ks, alphaCorrection := corr }.toCalib c sp a := by
    intro C c ct ks corr g hg
    exact ⟨g.1, g.2, g.3, g.4, g.5, g.6, g.7, g.8, g.9, g.10, g.11, g.12, g.13, g.14, g.15, hg.trans g.16, g.17⟩
  exact key _ _ _ _ _ h0 hk

theorem sameSettings641 (W : Nat → Word) (outs : List (Mlx90641.PixelOut F)) :
    (decode641With W outs).toCalib.resolution = CtrlField.resolution.decode (bitsAt (W 0x2433) 9 2) ∧
    (decode641With W outs).toCalib.cam = Mlx90641.cam := ⟨rfl, rfl⟩

theorem samePixel641 (W W' : Nat → Word)
    (outs outs' : List (Mlx90641.PixelOut F)) (sp : Subpage) (a : AccessPattern) (i : Nat)
    (h : outs[i]? = outs'[i]?) : SamePixel (decode641With W outs).toCalib (decode641With W' outs').toCalib sp a i := by
  constructor
  · cases sp
    · show (List.map _ _)[i]? = (List.map _ _)[i]?
      rw [List.getElem?_map, List.getElem?_map, h]
    · show (List.map _ _)[i]? = (List.map _ _)[i]?
      rw [List.getElem?_map, List.getElem?_map, h]
  · show (List.map _ _)[i]? = (List.map _ _)[i]?
    rw [List.getElem?_map, List.getElem?_map, h]
  · show (List.map _ _)[i]? = (List.map _ _)[i]?
    rw [List.getElem?_map, List.getElem?_map, h]
  · show (List.map _ _)[i]? = (List.map _ _)[i]?
    rw [List.getElem?_map, List.getElem?_map, h]
  · rfl

/-- Drivers in use that agree on what concerns a pixel, except on temperature ranges that images are not computed for. -/
theorem alike_basic_641 {m : Mode} {b : Bus σ ER EW} {b' : Bus τ ER' EW'} {d : Driver F σ} {e : Driver F τ}
    (h : InUse641 m b mem d) (h' : InUse641 m b' mem' e) (hem : d.effectiveEmissivity = e.effectiveEmissivity)
    (href : d.reflectedTemperature = e.reflectedTemperature) {sp : Subpage} {i : Nat}
    (hw : ∀ a, Concerns641 sp i a → mem d.bus a = mem' e.bus a)
    (hv : ∀ a, Calibrates641 i a → a ∉ ranges641 → SameValue (mem d.bus a) (mem' e.bus a)) : Alike d e (mem d.bus) (mem' e.bus) sp i := by
  obtain ⟨-, -, -, hca, D, hD, hc⟩ := inUse_641 h
  obtain ⟨-, -, -, hca', D', hD', hc'⟩ := inUse_641 h'
  have hctl : mem d.bus 0x800D#16 = mem' e.bus 0x800D#16 := hw _ (Or.inr (Or.inr (Or.inr rfl)))
  have hcam : d.calib.cam = Mlx90641.cam := by rw [hc]; exact (sameSettings641 _ _).2
  have hcam' : e.calib.cam = Mlx90641.cam := by rw [hc']; exact (sameSettings641 _ _).2
  have hval : ∀ a, a ∈ Ee641.readAddresses 192 → Calibrates641 i (BitVec.ofNat 16 a) → BitVec.ofNat 16 a ∉ ranges641 → Ee641.widen D a = Ee641.widen D' a := by
    intro a h1 h2 h3
    have w1 := hD a h1
    have w2 := hD' a h1
    unfold eepromOf at w1 w2
    unfold Ee641.widen
    rcases hv _ h2 h3 with hs | ⟨v, v1, v2⟩
    · rw [hs] at w1
      rw [(C04_decoder_characterisation _).2.2 _ _ w1 w2]
    · rw [(C04_decoder_characterisation _).2.2 _ _ w1 v1, (C04_decoder_characterisation _).2.2 _ _ w2 v2]
  have hr : ∀ a : Word, a.toNat < 0x2435 ∨ a.toNat = 0x2437 ∨ 0x2440 ≤ a.toNat → a ∉ ranges641 := by
    intro a ha hc
    simp only [ranges641, List.mem_cons, List.not_mem_nil, or_false] at hc
    rcases hc with rfl | rfl | rfl | rfl | rfl | rfl | rfl | rfl | rfl | rfl <;> revert ha <;> decide
  have hsa : ∀ a, 0x2410 ≤ a → a < 0x2435 ∨ a = 0x2437 → a ≠ 0x2413 → a ≠ 0x2414 → Ee641.widen D a = Ee641.widen D' a := by
    intro a h1 h2 h3 h4
    have ht : (BitVec.ofNat 16 a).toNat = a := by rw [BitVec.toNat_ofNat, Nat.mod_eq_of_lt (by omega)]
    refine hval a ?_ (Or.inl ⟨by rw [ht]; exact h1, by rw [ht]; omega, fun hc => h3 ?_, fun hc => h4 ?_⟩) (hr _ (by rw [ht]; omega))
    · obtain ⟨k, rfl⟩ := Nat.exists_eq_add_of_le (show 0x2400 ≤ a by omega)
      by_cases hk : 34 ≤ k
      · exact mem_scalars hk (by omega)
      · exact mem_shared (by omega)
    · rw [← ht, hc]; rfl
    · rw [← ht, hc]; rfl
  have hsh : ∀ a, 0x2410 ≤ a → a < 0x2434 → a ≠ 0x2413 → a ≠ 0x2414 → Ee641.widen D a = Ee641.widen D' a :=
    fun a h1 h2 => hsa a h1 (by omega)
  have k2 := pixel641_congr (F := F) hsh
  have hpx : i < 192 → pixel641 (F := F) (Ee641.widen D) i = pixel641 (Ee641.widen D') i := by
    intro hi
    refine k2 i hi fun a hA => ?_
    have hA' := hA
    simp only [Ee641.pixelAddresses, List.mem_cons, List.not_mem_nil, or_false] at hA'
    have ht : (BitVec.ofNat 16 a).toNat = a := by rw [BitVec.toNat_ofNat, Nat.mod_eq_of_lt (by omega)]
    exact hval a (mem_pixels hi hA) (Or.inr (by rw [ht]; omega)) (hr _ (by rw [ht]; omega))
  unfold decode641 at hc hc'
  have hres : d.calib.resolution = e.calib.resolution := by
    rw [hc, hc', (sameSettings641 _ _).1, (sameSettings641 _ _).1, hsh 0x2433 (by decide) (by decide) (by decide) (by decide)]
  have hap : d.accessPattern = e.accessPattern := by rw [hca.1, hca'.1, hctl]
  refine ⟨hcam.trans hcam'.symm, hem, href, hap, by rw [hca.2, hca'.2, hctl, hres], ?_, fun hi => ?_, ?_, ?_⟩
  · rw [hc, hc']
    exact sameFrame641 hsh (hsa _ (by decide) (by decide) (by decide) (by decide)) (hsa _ (by decide) (by decide) (by decide) (by decide))
      _ _ _ _
  · rw [hcam] at hi
    have hi : i < 192 := hi
    have hpp : (pixels641 (F := F) (Ee641.widen D) 192)[i]? = (pixels641 (Ee641.widen D') 192)[i]? := by
      rw [Proofs.pixels641_get _ hi, Proofs.pixels641_get _ hi, hpx hi]
    rw [hc, hc']
    exact samePixel641 _ _ _ _ _ _ _ hpp
  · rw [hcam]
    have r1 : ∀ a ∈ [0x0580#16, 0x058A#16, 0x05A0#16, 0x05AA#16], mem d.bus a = mem' e.bus a := fun a ha =>
      hw a (Or.inr (Or.inl ha))
    have r2 := hw _ (Or.inr (Or.inr (Or.inl rfl)))
    have e1 : frameReadings Mlx90641.cam sp (mem d.bus) = Mlx90641Memory.readings (mem d.bus) sp := by cases sp <;> rfl
    have e2 : frameReadings Mlx90641.cam sp (mem' e.bus) = Mlx90641Memory.readings (mem' e.bus) sp := by cases sp <;> rfl
    rw [e1, e2]
    unfold Mlx90641Memory.readings
    rw [r1 0x0580#16 (by simp), r1 0x058A#16 (by simp), r1 0x05A0#16 (by simp), r1 0x05AA#16 (by simp)]
    cases sp
    · rw [show mem d.bus 0x0588#16 = _ from r2]
    · rw [show mem d.bus 0x05A8#16 = _ from r2]
  · intro hi a ha
    rw [hcam] at ha
    rcases ha with ⟨ha, -⟩ | ⟨-, ha⟩
    · exact absurd (congrArg Cam.numPixels ha) (show ¬ ((192 : Nat) = 768) by decide)
    · exact hw a (Or.inl ha)

theorem alike_641 {m : Mode} {b : Bus σ ER EW} {b' : Bus τ ER' EW'} {d : Driver F σ} {e : Driver F τ}
    (h : InUse641 m b mem d) (h' : InUse641 m b' mem' e) (hem : d.effectiveEmissivity = e.effectiveEmissivity)
    (href : d.reflectedTemperature = e.reflectedTemperature) {sp : Subpage} {i : Nat}
    (hw : ∀ a, Concerns641 sp i a → mem d.bus a = mem' e.bus a)
    (hv : ∀ a, Calibrates641 i a → SameValue (mem d.bus a) (mem' e.bus a)) : Alike d e (mem d.bus) (mem' e.bus) sp i :=
  alike_basic_641 h h' hem href hw fun a ha _ => hv a ha

/-! ### The properties -/

/-- The methods that choose the subpage themselves. -/
theorem alike_chosen (m : Mode) (n n' : Nat) (b : Bus σ ER EW) (b' : Bus τ ER' EW') (d : Driver F σ) (e : Driver F τ)
    (hs : Supported ⟨m, n, b⟩ d) (hs' : Supported ⟨m, n', b'⟩ e) (h : StaticMemory b d.addr mem) (h' : StaticMemory b' e.addr mem')
    (hk : Complete d.calib d.calib.cam.numPixels) (hk' : Complete e.calib e.calib.cam.numPixels) (sp : Subpage) (i : Nat)
    (ha : Alike d e (mem d.bus) (mem' e.bus) sp i) (dest out dest' out' : List F) (hd : dest[i]? = dest'[i]?)
    (d1 : Driver F σ) (e1 : Driver F τ) (h1 : statusSubpage (mem d.bus 0x8000#16) = sp)
    (h2 : statusSubpage (mem' e.bus 0x8000#16) = sp) :
    (Driver.generateImageTo ⟨m, n, b⟩ dest d = (d1, out, .ok ()) →
      Driver.generateImageTo ⟨m, n', b'⟩ dest' e = (e1, out', .ok ()) →
      d1.ambientTemp = e1.ambientTemp ∧ out[i]? = out'[i]?) ∧
    (Driver.generateImageIfReady ⟨m, n, b⟩ dest d = (d1, out, .ok true) →
      Driver.generateImageIfReady ⟨m, n', b'⟩ dest' e = (e1, out', .ok true) →
      d1.ambientTemp = e1.ambientTemp ∧ out[i]? = out'[i]?) := by
  have key := fun (s : σ) (t : τ) (hm : mem s = mem d.bus) (hm' : mem' t = mem' e.bus) (d1 : Driver F σ) (e1 : Driver F τ) =>
    (alike_images (F := F) (mem := mem) (mem' := mem') m n n' b b' { d with bus := s } { e with bus := t } ⟨hs.1, hs.2, hs.3⟩ ⟨hs'.1, hs'.2, hs'.3⟩ h h' hk hk'
      sp i (by
        show Alike { d with bus := s } { e with bus := t } (mem s) (mem' t) sp i
        rw [hm, hm']
        exact ⟨ha.1, ha.2, ha.3, ha.4, ha.5, ha.6, ha.7, ha.8, ha.9⟩) dest out dest' out' hd d1 e1).2
  constructor
  · intro g1 g2
    obtain ⟨s, s1, s2⟩ := imageTo_reduces _ d h dest out d1 g1
    obtain ⟨t, t1, t2⟩ := imageTo_reduces _ e h' dest' out' e1 g2
    rw [h1] at s2
    rw [h2] at t2
    exact key s t s1 t1 d1 e1 s2 t2
  · intro g1 g2
    obtain ⟨-, s, d2, s1, s3, s2⟩ := ifReady_reduces _ d h dest out d1 g1
    obtain ⟨-, t, e2, t1, t3, t2⟩ := ifReady_reduces _ e h' dest' out' e1 g2
    rw [h1] at s2
    rw [h2] at t2
    rw [s3, t3]
    exact key s t s1 t1 d2 e2 s2 t2

/-- **C95 (MLX90640).** With any arithmetic, and bit for bit: a pixel of an image depends on nothing but the words of the camera's
memory that concern it and the user's emissivity and reflected temperature. If two drivers in use, for two different cameras on two
different buses and with different histories, agree on these, then whenever both make an image, they agree on the pixel, and on the
ambient temperature - however different all other words, among them the calibration of all other pixels, are. -/
theorem C95_pixels_640 (m : Mode) (b : Bus σ ER EW) (b' : Bus τ ER' EW') (d : Driver F σ) (e : Driver F τ)
    (h : InUse640 m b mem d) (h' : InUse640 m b' mem' e) (hem : d.effectiveEmissivity = e.effectiveEmissivity)
    (href : d.reflectedTemperature = e.reflectedTemperature) (sp : Subpage) (i : Nat)
    (hw : ∀ a, Concerns640 sp i a → mem d.bus a = mem' e.bus a)
    (dest out dest' out' : List F) (hd : dest[i]? = dest'[i]?) (d1 : Driver F σ) (e1 : Driver F τ) :
    let env : Env σ ER EW := ⟨m, 24, b⟩
    let env' : Env τ ER' EW' := ⟨m, 24, b'⟩
    let same := d1.ambientTemp = e1.ambientTemp ∧ out[i]? = out'[i]?
    (Driver.generateRawImageSubpageTo env sp dest d = (d1, out, .ok ()) →
      Driver.generateRawImageSubpageTo env' sp dest' e = (e1, out', .ok ()) → same) ∧
    (Driver.generateImageSubpageTo env sp dest d = (d1, out, .ok ()) →
      Driver.generateImageSubpageTo env' sp dest' e = (e1, out', .ok ()) → same) ∧
    (statusSubpage (mem d.bus 0x8000#16) = sp → statusSubpage (mem' e.bus 0x8000#16) = sp →
      (Driver.generateImageTo env dest d = (d1, out, .ok ()) →
        Driver.generateImageTo env' dest' e = (e1, out', .ok ()) → same) ∧
      (Driver.generateImageIfReady env dest d = (d1, out, .ok true) →
        Driver.generateImageIfReady env' dest' e = (e1, out', .ok true) → same)) := by
  intro env env' same
  have ha := alike_640 h h' hem href hw
  obtain ⟨k1, k2, k3, -⟩ := inUse_640 h
  obtain ⟨k1', k2', k3', -⟩ := inUse_640 h'
  obtain ⟨r1, r2⟩ := alike_images m 24 24 b b' d e k1 k1' k2 k2' k3 k3' sp i ha dest out dest' out' hd d1 e1
  exact ⟨r1, r2, fun s1 s2 => alike_chosen m 24 24 b b' d e k1 k1' k2 k2' k3 k3' sp i ha dest out dest' out' hd d1 e1 s1 s2⟩

/-- **C95 (MLX90641).** The same for the MLX90641; the EEPROM words need not be equal, as long as they hold the same value with at most
one wrong bit each. -/
theorem C95_pixels_641 (m : Mode) (b : Bus σ ER EW) (b' : Bus τ ER' EW') (d : Driver F σ) (e : Driver F τ)
    (h : InUse641 m b mem d) (h' : InUse641 m b' mem' e) (hem : d.effectiveEmissivity = e.effectiveEmissivity)
    (href : d.reflectedTemperature = e.reflectedTemperature) (sp : Subpage) (i : Nat)
    (hw : ∀ a, Concerns641 sp i a → mem d.bus a = mem' e.bus a)
    (hv : ∀ a, Calibrates641 i a → SameValue (mem d.bus a) (mem' e.bus a))
    (dest out dest' out' : List F) (hd : dest[i]? = dest'[i]?) (d1 : Driver F σ) (e1 : Driver F τ) :
    let env : Env σ ER EW := ⟨m, 12, b⟩
    let env' : Env τ ER' EW' := ⟨m, 12, b'⟩
    let same := d1.ambientTemp = e1.ambientTemp ∧ out[i]? = out'[i]?
    (Driver.generateRawImageSubpageTo env sp dest d = (d1, out, .ok ()) →
      Driver.generateRawImageSubpageTo env' sp dest' e = (e1, out', .ok ()) → same) ∧
    (Driver.generateImageSubpageTo env sp dest d = (d1, out, .ok ()) →
      Driver.generateImageSubpageTo env' sp dest' e = (e1, out', .ok ()) → same) ∧
    (statusSubpage (mem d.bus 0x8000#16) = sp → statusSubpage (mem' e.bus 0x8000#16) = sp →
      (Driver.generateImageTo env dest d = (d1, out, .ok ()) →
        Driver.generateImageTo env' dest' e = (e1, out', .ok ()) → same) ∧
      (Driver.generateImageIfReady env dest d = (d1, out, .ok true) →
        Driver.generateImageIfReady env' dest' e = (e1, out', .ok true) → same)) := by
  intro env env' same
  have ha := alike_641 h h' hem href hw hv
  obtain ⟨k1, k2, k3, -⟩ := inUse_641 h
  obtain ⟨k1', k2', k3', -⟩ := inUse_641 h'
  obtain ⟨r1, r2⟩ := alike_images m 12 12 b b' d e k1 k1' k2 k2' k3 k3' sp i ha dest out dest' out' hd d1 e1
  exact ⟨r1, r2, fun s1 s2 => alike_chosen m 12 12 b b' d e k1 k1' k2 k2' k3 k3' sp i ha dest out dest' out' hd d1 e1 s1 s2⟩

/-- **C96.** With any arithmetic, and bit for bit: an image does not depend on history. If two drivers for the same camera type have been
used in different ways, but the words of the cameras' memories are the same now, and so are the user's emissivity and reflected
temperature, then making an image gives the same image and the same ambient temperature. -/
theorem C96_history_independence (m : Mode) (b : Bus σ ER EW) (b' : Bus τ ER' EW') (d : Driver F σ) (e : Driver F τ) (n : Nat)
    (h : n = 24 ∧ InUse640 m b mem d ∧ InUse640 m b' mem' e ∨ n = 12 ∧ InUse641 m b mem d ∧ InUse641 m b' mem' e)
    (hem : d.effectiveEmissivity = e.effectiveEmissivity) (href : d.reflectedTemperature = e.reflectedTemperature)
    (hw : ∀ a, mem d.bus a = mem' e.bus a) (dest out out' : List F) (d1 : Driver F σ) (e1 : Driver F τ) :
    let env : Env σ ER EW := ⟨m, n, b⟩
    let env' : Env τ ER' EW' := ⟨m, n, b'⟩
    let same := d1.ambientTemp = e1.ambientTemp ∧ out = out'
    (∀ sp, Driver.generateRawImageSubpageTo env sp dest d = (d1, out, .ok ()) →
      Driver.generateRawImageSubpageTo env' sp dest e = (e1, out', .ok ()) → same) ∧
    (∀ sp, Driver.generateImageSubpageTo env sp dest d = (d1, out, .ok ()) →
      Driver.generateImageSubpageTo env' sp dest e = (e1, out', .ok ()) → same) ∧
    (Driver.generateImageTo env dest d = (d1, out, .ok ()) →
      Driver.generateImageTo env' dest e = (e1, out', .ok ()) → same) ∧
    (Driver.generateImageIfReady env dest d = (d1, out, .ok true) →
      Driver.generateImageIfReady env' dest e = (e1, out', .ok true) → same) := by
  intro env env' same
  have facts : Supported env d ∧ StaticMemory b d.addr mem ∧ Complete d.calib d.calib.cam.numPixels ∧
      Supported env' e ∧ StaticMemory b' e.addr mem' ∧ Complete e.calib e.calib.cam.numPixels ∧
      ∀ sp i, Alike d e (mem d.bus) (mem' e.bus) sp i := by
    rcases h with ⟨rfl, h, h'⟩ | ⟨rfl, h, h'⟩
    · obtain ⟨k1, k2, k3, -⟩ := inUse_640 h
      obtain ⟨k1', k2', k3', -⟩ := inUse_640 h'
      exact ⟨k1, k2, k3, k1', k2', k3', fun sp i => alike_640 h h' hem href fun a _ => hw a⟩
    · obtain ⟨k1, k2, k3, -⟩ := inUse_641 h
      obtain ⟨k1', k2', k3', -⟩ := inUse_641 h'
      exact ⟨k1, k2, k3, k1', k2', k3', fun sp i => alike_641 h h' hem href (fun a _ => hw a) fun a _ => Or.inl (hw a)⟩
  obtain ⟨k1, k2, k3, k1', k2', k3', ha⟩ := facts
  have key := fun sp i => alike_images m n n b b' d e k1 k1' k2 k2' k3 k3' sp i (ha sp i) dest out dest out' rfl d1 e1
  have key' := fun i => alike_chosen m n n b b' d e k1 k1' k2 k2' k3 k3' _ i (ha _ i) dest out dest out' rfl d1 e1 rfl (by rw [hw])
  exact ⟨fun sp g1 g2 => ⟨((key sp 0).1 g1 g2).1, List.ext_getElem? fun i => ((key sp i).1 g1 g2).2⟩,
    fun sp g1 g2 => ⟨((key sp 0).2 g1 g2).1, List.ext_getElem? fun i => ((key sp i).2 g1 g2).2⟩,
    fun g1 g2 => ⟨((key' 0).1 g1 g2).1, List.ext_getElem? fun i => ((key' i).1 g1 g2).2⟩,
    fun g1 g2 => ⟨((key' 0).2 g1 g2).1, List.ext_getElem? fun i => ((key' i).2 g1 g2).2⟩⟩

/-- A camera with any memory, read in a release build, can be constructed, and then makes an image of either subpage. -/
theorem camera_draws (M : Word → Word) (sp : Subpage) (dest : List F) : ∃ d : Driver F (Word → Word),
    InUse640 .wrapping (cameraBus 0x33#8) id d ∧ d.bus = M ∧ d.reflectedTemperature = none ∧
    d.effectiveEmissivity = d.calib.emissivity.getD (lit 1) ∧ d.calib.emissivity = none ∧
    ∃ d' out, Driver.generateImageSubpageTo ⟨.wrapping, 24, cameraBus 0x33#8⟩ sp dest d = (d', out, .ok ()) := by
  have hst := cameraBus_static 0x33#8
  obtain ⟨s', d, hd⟩ := ((C68_construction (F := F) .wrapping _ M _ hst).1 (cameraBus_serves _ _)).2 (Or.inl rfl)
  obtain ⟨hmem, c, hc, hcal⟩ := new_static hst hd
  have hok := (C68_healthy_camera_works .wrapping _ _ s' _ d 24 (Or.inl ⟨rfl, hd⟩) hst (cameraBus_serves _ _) (Or.inl rfl) [] d
    .start).2 (.generateImageSubpageTo sp dest)
  have hok : (discardImage (Driver.generateImageSubpageTo ⟨.wrapping, 24, cameraBus 0x33#8⟩ sp dest d)).2 = .ok () := hok
  have hu : InUse640 .wrapping (cameraBus 0x33#8) id d := ⟨_, _, _, _, _, hst, hd, .start, fun c hc => nomatch hc⟩
  refine ⟨d, hu, hmem, (new_fresh hd).2, (new_fresh hd).1, ?_, ?_⟩
  · rw [(inUse_640 hu).2.2.2.2]
    have key : ∀ c : Mlx90640.Calibration F, c.toCalib.emissivity = none := fun c => rfl
    exact key _
  · revert hok
    generalize Driver.generateImageSubpageTo ⟨.wrapping, 24, cameraBus 0x33#8⟩ sp dest d = q
    intro hok
    obtain ⟨d', dest', r⟩ := q
    unfold discardImage discard at hok
    cases r with
    | ok u => exact ⟨d', dest', rfl⟩
    | err e => cases hok
    | panic => cases hok

/-- Two cameras, whose memories differ in the calibration and the raw value of pixel 368 and in the compensation pixel of subpage 1:
their images of subpage 0 have the same pixel 367. -/
example (dest : List F) : ∃ (d e d' e' : Driver F (Word → Word)) (out out' : List F),
    d.bus = sceneMemory ∧ e.bus = Function.update (Function.update (Function.update sceneMemory 0x25B0#16 0x1234#16) 0x0570#16 0xBEEF#16) 0x0728#16 0x7777#16 ∧
    Driver.generateImageSubpageTo ⟨.wrapping, 24, cameraBus 0x33#8⟩ .zero dest d = (d', out, .ok ()) ∧
    Driver.generateImageSubpageTo ⟨.wrapping, 24, cameraBus 0x33#8⟩ .zero dest e = (e', out', .ok ()) ∧ out[367]? = out'[367]? := by
  obtain ⟨d, hu, hm, hr, hem, hn, d', out, hg⟩ := camera_draws (F := F) sceneMemory .zero dest
  obtain ⟨e, hu', hm', hr', hem', hn', e', out', hg'⟩ := camera_draws (F := F) (Function.update (Function.update (Function.update sceneMemory
    0x25B0#16 0x1234#16) 0x0570#16 0xBEEF#16) 0x0728#16 0x7777#16) .zero dest
  refine ⟨d, e, d', e', out, out', hm, hm', hg, hg', ((C95_pixels_640 (mem := id) (mem' := id) .wrapping _ _ d e hu hu' ?_ ?_ .zero 367 ?_
    dest out dest out' rfl d' e').2.1 hg hg').2⟩
  · rw [hem, hem', hn, hn']
  · rw [hr, hr']
  · intro a ha
    have n1 : a ≠ 0x25B0#16 := by
      rintro rfl
      revert ha
      unfold Concerns640
      decide
    have n2 : a ≠ 0x0570#16 := by
      rintro rfl
      revert ha
      unfold Concerns640
      decide
    have n3 : a ≠ 0x0728#16 := by
      rintro rfl
      revert ha
      unfold Concerns640
      decide
    simp only [hm, hm', id, Function.update_of_ne n1, Function.update_of_ne n2, Function.update_of_ne n3]

/-- A call that makes an image has a result. -/
theorem image_result {env : Env σ ER EW} {sp : Subpage} {dest : List F} {d : Driver F σ}
    (h : ((Op.generateImageSubpageTo sp dest : Op F).exec env d).2 = .ok ()) :
    ∃ d' out, Driver.generateImageSubpageTo env sp dest d = (d', out, .ok ()) := by
  have h : (discardImage (Driver.generateImageSubpageTo env sp dest d)).2 = .ok () := h
  revert h
  generalize Driver.generateImageSubpageTo env sp dest d = q
  intro hok
  obtain ⟨d', dest', r⟩ := q
  unfold discardImage discard at hok
  cases r with
  | ok u => exact ⟨d', dest', rfl⟩
  | err e => cases hok
  | panic => cases hok

/-- A driver with any history in which the user left emissivity and reflected temperature alone, and a new driver for a camera with
the memory the first one has now: they make the same images. -/
example (M : Word → Word) (sp : Subpage) (dest : List F) :
    ∃ (s' : Word → Word) (d : Driver F (Word → Word)), Driver.new640 .wrapping (cameraBus 0x33#8) M 0x33#8 = (s', .ok d) ∧
    ∀ calls d1, Session ⟨.wrapping, 24, cameraBus 0x33#8⟩ id anyFrame d calls d1 → d1.effectiveEmissivity = lit 1 →
      d1.reflectedTemperature = none → ∃ (e d' e' : Driver F (Word → Word)) (out : List F), e.bus = d1.bus ∧
      Driver.generateImageSubpageTo ⟨.wrapping, 24, cameraBus 0x33#8⟩ sp dest d1 = (d', out, .ok ()) ∧
      Driver.generateImageSubpageTo ⟨.wrapping, 24, cameraBus 0x33#8⟩ sp dest e = (e', out, .ok ()) := by
  have hst := cameraBus_static 0x33#8
  obtain ⟨s', d, hd⟩ := ((C68_construction (F := F) .wrapping _ M _ hst).1 (cameraBus_serves _ _)).2 (Or.inl rfl)
  refine ⟨s', d, hd, fun calls d1 hx hem hr => ?_⟩
  have hx' : ∀ calls d1, Session ⟨.wrapping, 24, cameraBus 0x33#8⟩ id anyFrame d calls d1 →
      Session ⟨.wrapping, 24, cameraBus 0x33#8⟩ id (SupplyFits .wrapping d.calib) d calls d1 := by
    intro calls d1 hx
    induction hx with
    | start => exact .start
    | call op _ ih => exact .call op ih
    | measurement s _ hv _ ih => exact .measurement s ih hv (Or.inl rfl)
  obtain ⟨hall, hone⟩ := C68_healthy_camera_works .wrapping _ _ s' _ d 24 (Or.inl ⟨rfl, hd⟩) hst (cameraBus_serves _ _) (Or.inl rfl)
    calls d1 (hx' _ _ hx)
  obtain ⟨d', out, hg⟩ := image_result (hone (.generateImageSubpageTo sp dest))
  obtain ⟨e, hu', hm', hr', hem', hn', e', out', hg'⟩ := camera_draws (F := F) d1.bus sp dest
  have key := ((C96_history_independence (mem := id) (mem' := id) .wrapping _ _ d1 e 24 (Or.inl ⟨rfl,
    ⟨_, _, _, _, _, hst, hd, hx, healthy_noControlWriteFailed hall⟩, hu'⟩) (by rw [hem, hem', hn']; rfl) (by rw [hr, hr'])
    (fun a => by rw [hm']) dest out out' d' e').2.1 sp hg hg').2
  exact ⟨e, d', e', out, hm', hg, key ▸ hg'⟩

/-- An MLX90641 with an intact EEPROM with these values. -/
def intact641 : Word → Word := fun a => if 0x2410 ≤ a.toNat ∧ a.toNat < 0x2740 then codeword (values641 a.toNat) else exampleMemory words641 a
/-- An MLX90641 with the same EEPROM, in which by now bit 3 of every word is wrong. -/
def worn641 : Word → Word := fun a =>
  if 0x2410 ≤ a.toNat ∧ a.toNat < 0x2740 then flipBit (codeword (values641 a.toNat)) 3 else exampleMemory words641 a

theorem within_641 {M : Word → Word} (hM : M = intact641 ∨ M = worn641) {a : Word} (h1 : 0x2410 ≤ a.toNat) (h2 : a.toNat < 0x2740) :
    WithinOneBit (M a) (codeword (values641 a.toNat)) := by
  rcases hM with rfl | rfl
  · unfold intact641
    rw [if_pos ⟨h1, h2⟩]
    exact Or.inl rfl
  · unfold worn641
    rw [if_pos ⟨h1, h2⟩]
    exact Or.inr ⟨3, rfl⟩

/-- Either of them makes images. -/
theorem camera_draws_641 (M : Word → Word) (hM : M = intact641 ∨ M = worn641) (sp : Subpage) (dest : List ℝ) :
    ∃ d : Driver ℝ (Word → Word), InUse641 .wrapping (cameraBus 0x33#8) id d ∧ d.bus = M ∧ d.reflectedTemperature = none ∧
    d.effectiveEmissivity = (Ee641.calibration values641).emissivity.getD (lit 1) ∧
    ∃ d' out, Driver.generateImageSubpageTo ⟨.wrapping, 12, cameraBus 0x33#8⟩ sp dest d = (d', out, .ok ()) := by
  have hst := cameraBus_static 0x33#8
  have hw : ∀ a ∈ Ee641.readAddresses 192, WithinOneBit (eepromOf M a) (codeword (values641 a)) := by
    intro a ha
    obtain ⟨h1, h2, _⟩ := readAddresses_bounds ha
    have hn : (BitVec.ofNat 16 a).toNat = a := by
      rw [BitVec.toNat_ofNat]
      omega
    have := within_641 hM (a := BitVec.ofNat 16 a) (by omega) (by omega)
    rw [hn] at this
    exact this
  obtain ⟨s', d, hd⟩ := ((C68_construction (F := ℝ) .wrapping _ M _ hst).2
    (cameraBus_serves _ _)).2 ⟨values641, hw, Or.inl rfl⟩
  obtain ⟨hmem, c, hc, hcal⟩ := new_static hst hd
  have hholds : Ee641.Holds (memBytes M 0x2400#16 1664) values641 (Ee641.readAddresses 192) := by
    intro a ha
    have hb := readAddresses_bounds ha
    rw [eepromWord_memBytes _ (by omega) hb.2.1]
    exact hw a ha
  have htab : d.calib = Ee641.calibration values641 := by
    rw [hcal, C66_table_641 .wrapping _ c hc _ hholds example641_regular]
  have hok := (C68_healthy_camera_works .wrapping _ _ s' _ d 12 (Or.inr ⟨rfl, hd⟩) hst (cameraBus_serves _ _) (Or.inl rfl) [] d
    .start).2 (.generateImageSubpageTo sp dest)
  exact ⟨d, ⟨_, _, _, _, _, hst, hd, .start, fun c hc => nomatch hc⟩, hmem, (new_fresh hd).2, by rw [(new_fresh hd).1, htab],
    image_result hok⟩

/-- The worn camera has the same images as the intact one. -/
example (sp : Subpage) (dest : List ℝ) : ∃ (d e d' e' : Driver ℝ (Word → Word)) (out out' : List ℝ),
    d.bus = intact641 ∧ e.bus = worn641 ∧
    Driver.generateImageSubpageTo ⟨.wrapping, 12, cameraBus 0x33#8⟩ sp dest d = (d', out, .ok ()) ∧
    Driver.generateImageSubpageTo ⟨.wrapping, 12, cameraBus 0x33#8⟩ sp dest e = (e', out', .ok ()) ∧
    ∀ i < 192, out[i]? = out'[i]? := by
  obtain ⟨d, hu, hm, hr, hem, d', out, hg⟩ := camera_draws_641 _ (Or.inl rfl) sp dest
  obtain ⟨e, hu', hm', hr', hem', e', out', hg'⟩ := camera_draws_641 _ (Or.inr rfl) sp dest
  refine ⟨d, e, d', e', out, out', hm, hm', hg, hg', fun i hi => ((C95_pixels_641 (mem := id) (mem' := id) .wrapping _ _ d e hu hu'
    (by rw [hem, hem']) (by rw [hr, hr']) sp i (fun a ha => ?_) (fun a ha => ?_) dest out dest out' rfl d' e').2.1 hg hg').2⟩
  · have hn : a.toNat < 0x2410 ∨ 0x2740 ≤ a.toNat := by
      rcases ha with rfl | ha | ha | rfl
      · have key : ∀ sp i, i < 192 → (Mlx90641Memory.address sp i).toNat < 0x2410 := by
          intro sp i
          revert i
          cases sp <;> decide +kernel
        exact Or.inl (key sp i hi)
      · simp only [List.mem_cons, List.not_mem_nil, or_false] at ha
        rcases ha with rfl | rfl | rfl | rfl <;> decide
      · cases sp <;> subst ha <;> decide
      · decide
    have hn : ¬ (0x2410 ≤ a.toNat ∧ a.toNat < 0x2740) := by omega
    rw [hm, hm']
    show intact641 a = worn641 a
    unfold intact641 worn641
    rw [if_neg hn, if_neg hn]
  · have hb : 0x2410 ≤ a.toNat ∧ a.toNat < 0x2740 := by
      unfold Calibrates641 at ha
      omega
    refine Or.inr ⟨values641 a.toNat, ?_, ?_⟩
    · rw [hm]
      exact within_641 (Or.inl rfl) hb.1 hb.2
    · rw [hm']
      exact within_641 (Or.inr rfl) hb.1 hb.2

end
end Mlx.Props
