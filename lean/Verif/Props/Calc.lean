import Verif.Proofs.Calc
import Verif.Spec.Toy
import Verif.Props.Camera
/-
Data-flow properties of the conversion functions. They hold for every implementation of the floating-point
operations (no law is assumed), so they hold bit for bit for `f32`.
-/
set_option autoImplicit false
namespace Mlx.Props
open Mlx Mlx.Spec Mlx.Proofs F32Ops
variable {F ε : Type} [F32Ops F]

/-- **C17.** Converting raw data to temperatures in one pass is the same as converting to IR data first and
that to temperatures, bit for bit: same outcome, same ambient temperature, same destination. The calibration
yields `n` items per sequence and the raw data has `n` words (a trailing odd byte is ignored); destination,
flags, floats and build mode are arbitrary. -/
theorem C17_one_pass_eq_two_pass (m : Mode) (c : Calib F) (n : Nat) (hc : Complete c n) (em rc : F)
    (tR : Option F) (px : List Byte) (hpx : px.length / 2 = n) (ram : RamData) (s : Subpage)
    (a : AccessPattern) (valid : List Bool) (dest : List F) :
    rawPixelsToTemperatures (ε := ε) m c em tR rc px ram s a valid dest =
      (rawPixelsToIrData m c em rc px ram s a valid dest >>= fun r =>
        rawIrToTemperatures c em r.1 tR s valid r.2 >>= fun out => pure (r.1, out)) := by
  cases hn : CommonIrData.new (ε := ε) m rc em c ram with
  | err e =>
    unfold rawPixelsToTemperatures rawPixelsToIrData
    rw [hn]; rfl
  | panic =>
    unfold rawPixelsToTemperatures rawPixelsToIrData
    rw [hn]; rfl
  | ok common =>
    obtain ⟨ir, hir⟩ := rawIr_of_common (px := px) (s := s) (a := a) (valid := valid) (dest := dest) hn
    rw [hir]
    simp only [Res.ok_bind]
    have hk : c.kSTo[c.cam.basicRange]? = some (c.kSTo[c.cam.basicRange]'hc.kSTo) :=
      List.getElem?_eq_getElem hc.kSTo
    obtain ⟨out, hout⟩ := temps_of_common (tR := tR) (px := px) (s := s) (a := a) (valid := valid)
      (dest := dest) hn hk
    rw [hout]
    obtain ⟨out', hout'⟩ : ∃ o, rawIrToTemperatures (ε := ε) c em common.tA tR s valid ir = .ok o := by
      unfold rawIrToTemperatures idx
      rw [hk]; exact ⟨_, rfl⟩
    rw [hout']
    simp only [Res.ok_bind, Res.pure_eq, Res.ok.injEq, Prod.mk.injEq, true_and]
    obtain ⟨common1, h1, _, l1, g1⟩ := rawIr_ok hir
    obtain ⟨k2, h2, l2, g2⟩ := irToTemp_ok hout'
    obtain ⟨common3, k3, h3, _, hk3, l3, g3⟩ := temps_ok hout
    rw [hn] at h1 h3
    cases h1; cases h3
    rw [hk] at h2 hk3
    cases h2; cases hk3
    apply List.ext_getElem?
    intro i
    rw [g3, g2, g1]
    unfold tempItem
    by_cases hi : i < n
    · obtain ⟨x, hx⟩ := rawItem_some (a := a) (s := s) hc hpx hi
      have ha : (c.alpha s)[i]? = some ((c.alpha s)[i]'(by rw [hc.alpha]; exact hi)) :=
        List.getElem?_eq_getElem _
      rw [hx, ha]
      cases valid[i]? with
      | none => rfl
      | some b =>
        cases b with
        | false => rfl
        | true => cases dest[i]? <;> rfl
    · have hx : rawItem c px s a i = none := rawItem_none (Or.inl (by omega))
      have ha : (c.alpha s)[i]? = none := List.getElem?_eq_none (by rw [hc.alpha]; omega)
      rw [hx, ha]

/-- The conversion of three pixels, the middle one not selected, succeeds. -/
example : ∃ r, rawPixelsToTemperatures (F := Int) (ε := LibErr) .checked
    (toyCalib Mlx90640.cam 3 (some 1)) 1 none 1 [0, 7, 1, 0, 2, 2] toyRam .zero .chess [true, false, true]
    [11, 12, 13] = .ok r ∧ r.2[1]? = some 12 ∧ r.2[0]? ≠ some 11 := by
  refine ⟨_, rfl, ?_, ?_⟩ <;> decide +kernel

/-- Why every sequence must be complete: with fewer sensitivities than pixels the two ways differ, since the
one-pass loop stops earlier. -/
example : ∃ (c : Calib Int),
    rawPixelsToTemperatures (ε := LibErr) .checked c 1 none 1 [0, 7] toyRam .zero .chess [true] [11] ≠
      (rawPixelsToIrData .checked c 1 1 [0, 7] toyRam .zero .chess [true] [11] >>= fun r =>
        rawIrToTemperatures c 1 r.1 none .zero [true] r.2 >>= fun out => pure (r.1, out)) := by
  refine ⟨{ toyCalib Mlx90640.cam 1 none with alpha := fun _ => [] }, ?_⟩
  decide +kernel

/-- **C18 (unselected pixels).** Every conversion keeps the length of the destination, and keeps every element
whose pixel is not selected, or beyond the raw data or any of the calibration sequences. -/
theorem C18_unselected_pixels_kept (m : Mode) (c : Calib F) (em rc tA : F) (tR : Option F)
    (px : List Byte) (ram : RamData) (s : Subpage) (a : AccessPattern) (valid : List Bool)
    (dest out : List F) :
    (rawPixelsToIrData (ε := ε) m c em rc px ram s a valid dest = .ok (tA, out) →
      out.length = dest.length ∧ ∀ i : Nat, Skipped c px s a valid i → out[i]? = dest[i]?) ∧
    (rawPixelsToTemperatures (ε := ε) m c em tR rc px ram s a valid dest = .ok (tA, out) →
      out.length = dest.length ∧
        ∀ i : Nat, Skipped c px s a valid i ∨ (c.alpha s).length ≤ i → out[i]? = dest[i]?) ∧
    (rawIrToTemperatures (ε := ε) c em tA tR s valid dest = .ok out →
      out.length = dest.length ∧
        ∀ i : Nat, valid[i]? ≠ some true ∨ (c.alpha s).length ≤ i → out[i]? = dest[i]?) := by
  have key : ∀ i : Nat, Skipped c px s a valid i → valid[i]? ≠ some true ∨ rawItem c px s a i = none := by
    intro i hs
    rcases hs with h | h
    · exact Or.inl h
    · exact Or.inr (rawItem_none h)
  refine ⟨fun h => ?_, fun h => ?_, fun h => ?_⟩
  · obtain ⟨_, _, _, hl, hg⟩ := rawIr_ok h
    refine ⟨hl, fun i hs => ?_⟩
    rw [hg]
    rcases key i hs with h | h
    · split
      · rename_i h'; exact absurd h' h
      · rfl
    · rw [h]
  · obtain ⟨_, _, _, _, _, hl, hg⟩ := temps_ok h
    refine ⟨hl, fun i hs => ?_⟩
    rw [hg]
    rcases hs with hs | hs
    · rcases key i hs with h | h
      · split
        · rename_i h'; exact absurd h' h
        · rfl
      · unfold tempItem
        rw [h]
    · unfold tempItem
      rw [List.getElem?_eq_none hs]
      cases rawItem c px s a i <;> rfl
  · obtain ⟨_, _, hl, hg⟩ := irToTemp_ok h
    refine ⟨hl, fun i hs => ?_⟩
    rw [hg]
    rcases hs with h | h
    · split
      · rename_i h'; exact absurd h' h
      · rfl
    · rw [List.getElem?_eq_none h]

/-- **C18 (locality).** An element of the output depends only on its own pixel: if two runs agree on the
frame-wide calibration and readings, on the calibration constants and raw bytes of pixel `i`, on its flag and
on its old value, the new values agree — whatever all other pixels are. -/
theorem C18_pixels_are_independent (m : Mode) (c c' : Calib F) (em rc tA tA' : F) (tR : Option F)
    (px px' : List Byte) (ram : RamData) (s : Subpage) (a : AccessPattern) (valid valid' : List Bool)
    (dest dest' out out' : List F) (i : Nat) (hf : SameFrame c c' s a) (hp : SamePixel c c' s a i)
    (hb : SameBytes px px' i) (hv : valid[i]? = valid'[i]?) (hd : dest[i]? = dest'[i]?) :
    (rawPixelsToIrData (ε := ε) m c em rc px ram s a valid dest = .ok (tA, out) →
      rawPixelsToIrData (ε := ε) m c' em rc px' ram s a valid' dest' = .ok (tA', out') →
      out[i]? = out'[i]?) ∧
    (rawPixelsToTemperatures (ε := ε) m c em tR rc px ram s a valid dest = .ok (tA, out) →
      rawPixelsToTemperatures (ε := ε) m c' em tR rc px' ram s a valid' dest' = .ok (tA', out') →
      out[i]? = out'[i]?) ∧
    (rawIrToTemperatures (ε := ε) c em tA tR s valid dest = .ok out →
      rawIrToTemperatures (ε := ε) c' em tA tR s valid' dest' = .ok out' → out[i]? = out'[i]?) := by
  refine ⟨fun h h' => ?_, fun h h' => ?_, fun h h' => ?_⟩
  · obtain ⟨_, hc, _, _, hg⟩ := rawIr_ok h
    obtain ⟨_, hc', _, _, hg'⟩ := rawIr_ok h'
    rw [new_congr hf, hc'] at hc
    cases hc
    rw [hg, hg', hv, hd, rawItem_congr hp hb, cpOffset_congr hf]
  · obtain ⟨_, k, hc, ht, hk, _, hg⟩ := temps_ok h
    obtain ⟨_, k', hc', ht', hk', _, hg'⟩ := temps_ok h'
    rw [new_congr hf, hc'] at hc
    cases hc
    rw [hf.kSToBasic, hk'] at hk
    cases hk
    subst ht ht'
    rw [hg, hg', hv, hd, cpOffset_congr hf, tempFrame_congr hf]
    unfold tempItem
    rw [rawItem_congr hp hb, hp.alpha]
  · obtain ⟨k, hk, _, hg⟩ := irToTemp_ok h
    obtain ⟨k', hk', _, hg'⟩ := irToTemp_ok h'
    rw [hf.kSToBasic, hk'] at hk
    cases hk
    rw [hg, hg', hv, hd, tempFrame_congr hf, hp.alpha]

/-- Two runs that agree on pixel 1 of 3 only. -/
example : SamePixel (F := Int) (toyCalib Mlx90640.cam 3 none)
      { toyCalib Mlx90640.cam 3 none with alpha := fun _ => [7, 101, 9] } .zero .chess 1 ∧
    SameBytes [1, 2, 3, 4, 5, 6] [9, 9, 3, 4, 9, 9] 1 := by
  refine ⟨?_, ?_⟩
  · constructor <;> rfl
  · exact ⟨rfl, rfl⟩

omit [F32Ops F] in
theorem bothSubpages_ok {conv : Subpage → List F → Res ε (F × List F)} {f g : Subpage} {dest out : List F}
    (h : bothSubpages conv f g dest = .ok out) :
    ∃ t1 d1 t2, conv f dest = .ok (t1, d1) ∧ conv g d1 = .ok (t2, out) := by
  unfold bothSubpages at h
  cases h1 : conv f dest with
  | err e => rw [h1] at h; cases h
  | panic => rw [h1] at h; cases h
  | ok r =>
    rw [h1, Res.ok_bind] at h
    cases h2 : conv g r.2 with
    | err e => rw [h2] at h; cases h
    | panic => rw [h2] at h; cases h
    | ok r' =>
      rw [h2] at h
      simp only [Res.ok_bind, Res.pure_eq, Res.ok.injEq] at h
      subst h
      exact ⟨r.1, r.2, r'.1, rfl, h2⟩

theorem flags640 (a : AccessPattern) (i : Nat) (hi : i < 768) :
    ((Mlx90640.cam.pixelsInSubpage .zero a)[i]? = some true ∧
      (Mlx90640.cam.pixelsInSubpage .one a)[i]? = some false) ∨
    ((Mlx90640.cam.pixelsInSubpage .zero a)[i]? = some false ∧
      (Mlx90640.cam.pixelsInSubpage .one a)[i]? = some true) := by
  have h := (C12_mlx90640_subpage_partition a).2.1
  rw [h .zero i hi, h .one i hi]
  simp only [Option.some.injEq, decide_eq_true_eq, decide_eq_false_iff_not]
  unfold Selected640
  cases a <;> simp only [Subpage.toNat] <;> omega

omit [F32Ops F] in
/-- Element `i` (of 768) after a conversion that writes `v s i` to the selected pixels. -/
theorem two_subpages_ext {a : AccessPattern} {v : Subpage → Nat → F} {f g : Subpage} (hfg : f ≠ g)
    {dest d1 out : List F} (hd : dest.length = 768)
    (h1 : ∀ i : Nat, i < 768 → d1[i]? = if (Mlx90640.cam.pixelsInSubpage f a)[i]? = some true then
      (dest[i]?).map (fun _ => v f i) else dest[i]?)
    (h2 : ∀ i : Nat, i < 768 → out[i]? = if (Mlx90640.cam.pixelsInSubpage g a)[i]? = some true then
      (d1[i]?).map (fun _ => v g i) else d1[i]?) (i : Nat) (hi : i < 768) :
    out[i]? = some (if (Mlx90640.cam.pixelsInSubpage .zero a)[i]? = some true then v .zero i
      else v .one i) := by
  have e1 : dest[i]? = some (dest[i]'(by omega)) := List.getElem?_eq_getElem _
  rw [h2 i hi, h1 i hi, e1]
  rcases flags640 a i hi with ⟨h0, h0'⟩ | ⟨h0, h0'⟩ <;> cases f <;> cases g <;>
    first | exact absurd rfl hfg | simp [h0, h0']

section C19
variable (m : Mode) (c : Calib F) (em rc : F) (tR : Option F) (px : Subpage → List Byte)
  (ram : Subpage → RamData) (a : AccessPattern)

variable {m c em rc tR px ram a}

theorem temp_flags (hc : Complete c 768) (hpx : ∀ s, (px s).length = 2 * 768) :
    ∃ v : Subpage → Nat → F, ∀ (s : Subpage) (dest out : List F) (t : F),
      convTemp (ε := ε) m c em rc tR px ram a s dest = .ok (t, out) →
      out.length = dest.length ∧
      ∀ i : Nat, i < 768 → out[i]? = if (Mlx90640.cam.pixelsInSubpage s a)[i]? = some true then
        (dest[i]?).map (fun _ => v s i) else dest[i]? := by
  classical
  -- the value written: a function of the subpage and the pixel only
  refine ⟨fun s i => match CommonIrData.new (ε := ε) m rc em c (ram s), c.kSTo[c.cam.basicRange]?,
      tempItem c (px s) s a i with
    | .ok common, some k, some (x, al) =>
      tempValue (tempFrame c em common.tA tR s k) al (rawValue common (cpOffset c common (ram s) s a) x)
    | _, _, _ => lit 0, ?_⟩
  intro s dest out t h
  obtain ⟨common, k, hn, ht, hk, hl, hg⟩ := temps_ok h
  subst ht
  refine ⟨hl, fun i hi => ?_⟩
  obtain ⟨x, hx⟩ := rawItem_some (px := px s) (a := a) (s := s) hc (by rw [hpx]) hi
  have ha : (c.alpha s)[i]? = some ((c.alpha s)[i]'(by rw [hc.alpha]; exact hi)) :=
    List.getElem?_eq_getElem _
  have hit : tempItem c (px s) s a i = some (x, (c.alpha s)[i]'(by rw [hc.alpha]; exact hi)) := by
    unfold tempItem; rw [hx, ha]
  rw [hg]
  simp only [hn, hk, hit]
  split
  · rename_i h1 h2; cases h1; rw [if_pos h2]
  · rename_i h1
    rw [if_neg]
    intro h2
    exact h1 _ _ rfl h2

theorem ir_flags (hc : Complete c 768) (hpx : ∀ s, (px s).length = 2 * 768) :
    ∃ v : Subpage → Nat → F, ∀ (s : Subpage) (dest out : List F) (t : F),
      convIr (ε := ε) m c em rc px ram a s dest = .ok (t, out) →
      out.length = dest.length ∧
      ∀ i : Nat, i < 768 → out[i]? = if (Mlx90640.cam.pixelsInSubpage s a)[i]? = some true then
        (dest[i]?).map (fun _ => v s i) else dest[i]? := by
  refine ⟨fun s i => match CommonIrData.new (ε := ε) m rc em c (ram s), rawItem c (px s) s a i with
    | .ok common, some x => rawValue common (cpOffset c common (ram s) s a) x
    | _, _ => lit 0, ?_⟩
  intro s dest out t h
  obtain ⟨common, hn, ht, hl, hg⟩ := rawIr_ok h
  refine ⟨hl, fun i hi => ?_⟩
  obtain ⟨x, hx⟩ := rawItem_some (px := px s) (a := a) (s := s) hc (by rw [hpx]) hi
  rw [hg]
  simp only [hn, hx]
  split
  · rename_i h1 h2; cases h1; rw [if_pos h2]
  · rename_i h1
    rw [if_neg]
    intro h2
    exact h1 _ rfl h2

/-- A conversion's outcome (success, error or panic) does not depend on the destination. -/
theorem convTemp_total (s : Subpage) (dest dest' : List F) :
    (∃ r, convTemp (ε := ε) m c em rc tR px ram a s dest = .ok r) →
    ∃ r, convTemp (ε := ε) m c em rc tR px ram a s dest' = .ok r := by
  rintro ⟨⟨t, d⟩, h⟩
  obtain ⟨common, k, hn, ht, hk, hl, hg⟩ := temps_ok h
  obtain ⟨d', h'⟩ := temps_of_common (tR := tR) (px := px s) (s := s) (a := a)
    (valid := Mlx90640.cam.pixelsInSubpage s a) (dest := dest') hn hk
  exact ⟨_, h'⟩

theorem convIr_total (s : Subpage) (dest dest' : List F) :
    (∃ r, convIr (ε := ε) m c em rc px ram a s dest = .ok r) →
    ∃ r, convIr (ε := ε) m c em rc px ram a s dest' = .ok r := by
  rintro ⟨⟨t, d⟩, h⟩
  obtain ⟨common, hn, _⟩ := rawIr_ok h
  obtain ⟨d', h'⟩ := rawIr_of_common (px := px s) (s := s) (a := a)
    (valid := Mlx90640.cam.pixelsInSubpage s a) (dest := dest') hn
  exact ⟨_, h'⟩

omit [F32Ops F] in
theorem both_generic {conv : Subpage → List F → Res ε (F × List F)}
    (hv : ∃ v : Subpage → Nat → F, ∀ (s : Subpage) (dest out : List F) (t : F),
      conv s dest = .ok (t, out) → out.length = dest.length ∧
      ∀ i : Nat, i < 768 → out[i]? = if (Mlx90640.cam.pixelsInSubpage s a)[i]? = some true then
        (dest[i]?).map (fun _ => v s i) else dest[i]?)
    (ht : ∀ (s : Subpage) (dest dest' : List F), (∃ r, conv s dest = .ok r) → ∃ r, conv s dest' = .ok r)
    {dest dest' out : List F} (hd : dest.length = 768) (hd' : dest'.length = 768)
    (h : bothSubpages conv .zero .one dest = .ok out) :
    bothSubpages conv .one .zero dest' = .ok out ∧ bothSubpages conv .zero .one dest' = .ok out := by
  obtain ⟨v, hv⟩ := hv
  have ext : ∀ (f g : Subpage) (d o : List F), f ≠ g → d.length = 768 → bothSubpages conv f g d = .ok o →
      o.length = 768 ∧ ∀ i : Nat, i < 768 →
        o[i]? = some (if (Mlx90640.cam.pixelsInSubpage .zero a)[i]? = some true then v .zero i
          else v .one i) := by
    intro f g d o hfg hd h
    obtain ⟨t1, d1, t2, h1, h2⟩ := bothSubpages_ok h
    obtain ⟨l1, g1⟩ := hv _ _ _ _ h1
    obtain ⟨l2, g2⟩ := hv _ _ _ _ h2
    exact ⟨by omega, fun i hi => two_subpages_ext hfg hd g1 g2 i hi⟩
  have total : ∀ (f g : Subpage) (d : List F), (∃ r, conv f dest = .ok r) → (∃ r, conv g dest = .ok r) →
      ∃ o, bothSubpages conv f g d = .ok o := by
    intro f g d hf hg
    obtain ⟨r1, h1⟩ := ht f dest d hf
    obtain ⟨r2, h2⟩ := ht g dest r1.2 hg
    refine ⟨r2.2, ?_⟩
    unfold bothSubpages
    rw [h1, Res.ok_bind, h2]
    rfl
  obtain ⟨t1, d1, t2, h1, h2⟩ := bothSubpages_ok h
  have ok0 : ∃ r, conv .zero dest = .ok r := ⟨_, h1⟩
  have ok1 : ∃ r, conv .one dest = .ok r := ht .one d1 dest ⟨_, h2⟩
  obtain ⟨le, e⟩ := ext .zero .one dest out (by decide) hd h
  have same : ∀ (f g : Subpage), f ≠ g → (∃ r, conv f dest = .ok r) → (∃ r, conv g dest = .ok r) →
      bothSubpages conv f g dest' = .ok out := by
    intro f g hfg hf hg
    obtain ⟨o, ho⟩ := total f g dest' hf hg
    obtain ⟨lo, eo⟩ := ext f g dest' o hfg hd' ho
    rw [ho]
    congr 1
    apply List.ext_getElem?
    intro i
    by_cases hi : i < 768
    · rw [eo i hi, e i hi]
    · rw [List.getElem?_eq_none (by omega), List.getElem?_eq_none (by omega)]
  exact ⟨same .one .zero (by decide) ok1 ok0, same .zero .one (by decide) ok0 ok1⟩

/-- **C19.** For the MLX90640, converting both subpages into a 768-element destination gives an image that
does not depend on the order of the two conversions nor on what the destination held before (so every pixel
is overwritten): whatever the RAM contents read for each subpage, for temperatures and for IR data. -/
theorem C19_two_subpages_make_an_image (hc : Complete c 768) (hpx : ∀ s, (px s).length = 2 * 768)
    (dest dest' out : List F) (hd : dest.length = 768) (hd' : dest'.length = 768) :
    (bothSubpages (convTemp (ε := ε) m c em rc tR px ram a) .zero .one dest = .ok out →
      bothSubpages (convTemp (ε := ε) m c em rc tR px ram a) .one .zero dest' = .ok out ∧
      bothSubpages (convTemp (ε := ε) m c em rc tR px ram a) .zero .one dest' = .ok out) ∧
    (bothSubpages (convIr (ε := ε) m c em rc px ram a) .zero .one dest = .ok out →
      bothSubpages (convIr (ε := ε) m c em rc px ram a) .one .zero dest' = .ok out ∧
      bothSubpages (convIr (ε := ε) m c em rc px ram a) .zero .one dest' = .ok out) :=
  ⟨both_generic (temp_flags hc hpx) convTemp_total hd hd', both_generic (ir_flags hc hpx) convIr_total hd hd'⟩

end C19

/-- Both conversions succeed for a typical calibration, different RAM data per subpage. -/
example : ∃ out, bothSubpages (ε := LibErr) (convTemp (F := Int) .checked (toyCalib Mlx90640.cam 768 none) 1 1
    none (fun s => List.replicate 1536 (BitVec.ofNat 8 (s.toNat + 3))) (fun _ => toyRam) .chess) .zero .one
    (List.replicate 768 0) = .ok out := ⟨_, rfl⟩

/-- **C20.** When the emissivity compares equal to 1, the reflected temperature (given or defaulted) has no
influence on the temperatures. -/
theorem C20_emissivity_one_ignores_reflected (m : Mode) (c : Calib F) (em rc tA : F)
    (hem : feq em (lit 1) = true) (tR tR' : Option F) (px : List Byte) (ram : RamData) (s : Subpage)
    (a : AccessPattern) (valid : List Bool) (dest : List F) :
    rawPixelsToTemperatures (ε := ε) m c em tR rc px ram s a valid dest =
      rawPixelsToTemperatures m c em tR' rc px ram s a valid dest ∧
    rawIrToTemperatures (ε := ε) c em tA tR s valid dest =
      rawIrToTemperatures c em tA tR' s valid dest := by
  constructor
  · unfold rawPixelsToTemperatures CommonIrData.new tAr
    simp only [hem, if_true]
  · unfold rawIrToTemperatures tAr
    simp only [hem, if_true]

example : feq (1 : Int) (lit 1) = true := by decide +kernel

/-- The reflected temperature does matter for another emissivity. -/
example : ∃ (r r' : Int × List Int),
    rawPixelsToTemperatures (ε := LibErr) .checked (toyCalib Mlx90640.cam 1 none) 2 (some 20) 1 [0, 7] toyRam
      .zero .chess [true] [0] = .ok r ∧
    rawPixelsToTemperatures (ε := LibErr) .checked (toyCalib Mlx90640.cam 1 none) 2 (some 50) 1 [0, 7] toyRam
      .zero .chess [true] [0] = .ok r' ∧ r.2 ≠ r'.2 := by
  refine ⟨_, _, rfl, rfl, ?_⟩; decide +kernel

/-- **C21.** The ambient temperature reported by either conversion depends only on the V_DD, T_a_PTAT and
T_a_VBE readings and six calibration constants: two reports agree whenever those do, whatever the pixels,
emissivity, resolution correction, reflected temperature, subpage, gain and compensation pixel. -/
theorem C21_ambient_dependencies (m : Mode) (c c' : Calib F) (ram ram' : RamData) (tA tA' : F)
    (hr : ram.vddPixel = ram'.vddPixel ∧ ram.tAPtat = ram'.tAPtat ∧ ram.tAVbe = ram'.tAVbe)
    (hc : c.kVdd = c'.kVdd ∧ c.vdd25 = c'.vdd25 ∧ c.kVptat = c'.kVptat ∧ c.vptat25 = c'.vptat25 ∧
      c.kTptat = c'.kTptat ∧ c.alphaPtat = c'.alphaPtat)
    (h : Reports ε m c ram tA) (h' : Reports ε m c' ram' tA') : tA = tA' := by
  have key : ∀ (c : Calib F) (ram : RamData) (t : F), Reports ε m c ram t →
      ∃ d, deltaV (ε := ε) m c ram.vddPixel = .ok d ∧
        t = ambientTemperature c (vPtatArt c ram.tAPtat ram.tAVbe) d := by
    intro c ram t h
    obtain ⟨em, rc, tR, px, s, a, valid, dest, out, h⟩ := h
    have : ∃ common, CommonIrData.new (ε := ε) m rc em c ram = .ok common ∧ t = common.tA := by
      rcases h with h | h
      · obtain ⟨common, h1, h2, _⟩ := rawIr_ok h
        exact ⟨common, h1, h2⟩
      · obtain ⟨common, k, h1, h2, _⟩ := temps_ok h
        exact ⟨common, h1, h2⟩
    obtain ⟨common, h1, h2⟩ := this
    unfold CommonIrData.new at h1
    cases hd : deltaV (ε := ε) m c ram.vddPixel with
    | err e => rw [hd] at h1; cases h1
    | panic => rw [hd] at h1; cases h1
    | ok d =>
      rw [hd] at h1
      simp only [Res.ok_bind, Res.ok.injEq] at h1
      subst h1
      exact ⟨d, rfl, h2⟩
  obtain ⟨d, hd, ht⟩ := key _ _ _ h
  obtain ⟨d', hd', ht'⟩ := key _ _ _ h'
  unfold deltaV at hd hd'
  rw [← hr.1, ← hc.1, ← hc.2.1] at hd'
  rw [hd] at hd'
  cases hd'
  rw [ht, ht']
  unfold ambientTemperature vPtatArt
  rw [hr.2.1, hr.2.2, hc.2.2.1, hc.2.2.2.1, hc.2.2.2.2.1, hc.2.2.2.2.2]

example : ∃ t, Reports (F := Int) LibErr .checked (toyCalib Mlx90641.cam 2 (some 1)) toyRam t :=
  ⟨_, 1, 1, none, [0, 1, 0, 2], .one, .chess, [true, true], [0, 0], _, Or.inr rfl⟩

/-- **C22.** Without a temperature gradient coefficient, neither the compensation pixel reading nor any
compensation-pixel constant has an influence on the outcome of a conversion. -/
theorem C22_no_gradient_ignores_compensation_pixel (m : Mode) (c : Calib F) (htgc : c.tgc = none)
    (em rc tA : F) (tR : Option F) (px : List Byte) (ram : RamData) (s : Subpage) (a : AccessPattern)
    (valid : List Bool) (dest : List F) (cp : Int) (offsetRefCp : Subpage → Int)
    (alphaCp kVCp kTaCp : Subpage → F) (apCompCp : Subpage → AccessPattern → Option F) :
    let c' := { c with offsetRefCp := offsetRefCp, alphaCp := alphaCp, kVCp := kVCp, kTaCp := kTaCp,
                       apCompCp := apCompCp }
    let ram' := { ram with compensationPixel := cp }
    rawPixelsToIrData (ε := ε) m c' em rc px ram' s a valid dest =
      rawPixelsToIrData m c em rc px ram s a valid dest ∧
    rawPixelsToTemperatures (ε := ε) m c' em tR rc px ram' s a valid dest =
      rawPixelsToTemperatures m c em tR rc px ram s a valid dest ∧
    rawIrToTemperatures (ε := ε) c' em tA tR s valid dest =
      rawIrToTemperatures c em tA tR s valid dest := by
  intro c' ram'
  have ht : c'.tgc = none := htgc
  have hcp : ∀ common, cpOffset c' common ram' s a = none := by
    intro common; unfold cpOffset; rw [ht]; rfl
  have hcp' : ∀ common, cpOffset c common ram s a = none := by
    intro common; unfold cpOffset; rw [htgc]; rfl
  refine ⟨?_, ?_, ?_⟩
  · unfold rawPixelsToIrData
    simp only [hcp, hcp']
    rfl
  · unfold rawPixelsToTemperatures
    simp only [hcp, hcp', ht, htgc]
    rfl
  · unfold rawIrToTemperatures
    simp only [ht, htgc]
    rfl

example : (toyCalib (F := Int) Mlx90640.cam 768 none).tgc = none := rfl

/-- With a coefficient the compensation pixel reading does matter. -/
example : ∃ (r r' : Int × List Int),
    rawPixelsToIrData (ε := LibErr) .checked (toyCalib Mlx90640.cam 1 (some 1)) 1 1 [0, 7] toyRam .zero .chess
      [true] [0] = .ok r ∧
    rawPixelsToIrData (ε := LibErr) .checked (toyCalib Mlx90640.cam 1 (some 1)) 1 1 [0, 7]
      { toyRam with compensationPixel := 5000 } .zero .chess [true] [0] = .ok r' ∧ r.2 ≠ r'.2 := by
  refine ⟨_, _, rfl, rfl, ?_⟩; decide +kernel

/-- **C58 (exact behaviour).** The failed and outlier flags have no influence on any conversion. -/
theorem C58_flags_never_consulted (m : Mode) (c : Calib F) (failed outlier : List Bool)
    (em rc tA : F) (tR : Option F) (px : List Byte) (ram : RamData) (s : Subpage) (a : AccessPattern)
    (valid : List Bool) (dest : List F) :
    let c' := { c with failed := failed, outlier := outlier }
    rawPixelsToIrData (ε := ε) m c' em rc px ram s a valid dest =
      rawPixelsToIrData m c em rc px ram s a valid dest ∧
    rawPixelsToTemperatures (ε := ε) m c' em tR rc px ram s a valid dest =
      rawPixelsToTemperatures m c em tR rc px ram s a valid dest ∧
    rawIrToTemperatures (ε := ε) c' em tA tR s valid dest =
      rawIrToTemperatures c em tA tR s valid dest :=
  ⟨rfl, rfl, rfl⟩

/-- **C58 (the documented claim is false).** A calibration that reports its only pixel as failed, and a
conversion that overwrites that pixel nevertheless. -/
theorem C58_failed_pixels_not_skipped :
    ¬ ∀ (c : Calib Int) (px : List Byte) (dest out : List Int) (tA : Int),
      rawPixelsToTemperatures (ε := LibErr) .checked c 1 none 1 px toyRam .zero .chess
        (Mlx90640.cam.pixelsInSubpage .zero .chess) dest = .ok (tA, out) →
      ∀ i : Nat, c.failed[i]? = some true → out[i]? = dest[i]? := by
  intro h
  have := h { toyCalib Mlx90640.cam 1 none with failed := [true] } [0, 7] [12345] _ _ rfl 0 rfl
  revert this
  decide +kernel

end Mlx.Props
