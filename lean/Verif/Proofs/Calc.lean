import Verif.Spec.Calc
/-
Element-wise description of the conversion loops.
-/
set_option autoImplicit false
namespace Mlx.Proofs
open Mlx F32Ops
variable {F ε : Type} [F32Ops F]

theorem getElem?_zip' {α β : Type} (l : List α) (l' : List β) (i : Nat) :
    (l.zip l')[i]? = (l[i]?).bind fun a => (l'[i]?).map fun b => (a, b) := by
  induction l generalizing l' i with
  | nil => simp
  | cons a l ih =>
    cases l' with
    | nil => cases i <;> simp
    | cons b l' =>
      cases i with
      | zero => simp
      | succ i => simpa using ih l' i

omit [F32Ops F] in
theorem applyValid_length {α : Type} (f : α → F → F) (dest : List F) (items : List α) (valid : List Bool) :
    (applyValid f dest items valid).length = dest.length := by
  induction dest generalizing items valid with
  | nil => simp [applyValid]
  | cons d dest ih =>
    cases items with
    | nil => simp [applyValid]
    | cons x xs => simp [applyValid, ih]

omit [F32Ops F] in
/-- Element `i` after a conversion loop: computed from item `i` and the old element when there is an item and
the flag is set, otherwise unchanged. -/
theorem applyValid_get {α : Type} (f : α → F → F) (dest : List F) (items : List α) (valid : List Bool)
    (i : Nat) : (applyValid f dest items valid)[i]? =
      match items[i]?, valid[i]? with
      | some x, some true => (dest[i]?).map (f x)
      | _, _ => dest[i]? := by
  induction dest generalizing items valid i with
  | nil => simp [applyValid]; split <;> rfl
  | cons d dest ih =>
    cases items with
    | nil => simp [applyValid]
    | cons x xs =>
      cases i with
      | zero =>
        cases valid with
        | nil => simp [applyValid]
        | cons b bs => cases b <;> simp [applyValid]
      | succ i =>
        rw [applyValid, List.getElem?_cons_succ, ih]
        cases valid with
        | nil => simp
        | cons b bs => simp

theorem pixelWords_length (px : List Byte) : (pixelWords px).length = px.length / 2 := by
  induction px using pixelWords.induct with
  | case1 a b rest ih => simp [pixelWords, ih]; omega
  | case2 x h =>
    match x with
    | [] => simp [pixelWords]
    | [_] => simp [pixelWords]
    | a :: b :: r => exact absurd rfl (h a b r)

theorem pixelWords_get (px : List Byte) (i : Nat) (a b : Byte) (ha : px[2 * i]? = some a)
    (hb : px[2 * i + 1]? = some b) : (pixelWords px)[i]? = some (be16 a b).toInt := by
  induction px using pixelWords.induct generalizing i with
  | case1 x y rest ih =>
    cases i with
    | zero =>
      simp at ha hb
      simp [pixelWords, ha, hb]
    | succ i =>
      rw [pixelWords, List.getElem?_cons_succ]
      apply ih
      · rw [show 2 * (i + 1) = 2 * i + 1 + 1 by omega] at ha
        simpa using ha
      · rw [show 2 * (i + 1) + 1 = 2 * i + 1 + 1 + 1 by omega] at hb
        simpa using hb
  | case2 x h =>
    match x with
    | [] => simp at ha
    | [_] => simp at hb
    | a :: b :: r => exact absurd rfl (h a b r)

/-- Everything one iteration of the raw conversion uses. -/
structure RawItem (F : Type) where
  word : Int
  offset : Int
  kV : F
  kTa : F
  comp : Option F

/-- Item `i` of the raw conversion. -/
def rawItem (c : Calib F) (px : List Byte) (s : Subpage) (a : AccessPattern) (i : Nat) :
    Option (RawItem F) :=
  match (pixelWords px)[i]?, (c.offsetRef s)[i]?, (c.kV s)[i]?, (c.kTa s)[i]?, (c.apComp a)[i]? with
  | some w, some o, some kv, some kt, some ap => some ⟨w, o, kv, kt, ap⟩
  | _, _, _, _, _ => none

/-- The raw value of a pixel. -/
def rawValue (common : CommonIrData F) (cp : Option F) (x : RawItem F) : F :=
  match cp with
  | some o => perPixelVIr x.word common x.offset x.kV x.kTa x.comp -. o
  | none => perPixelVIr x.word common x.offset x.kV x.kTa x.comp

theorem rawIr_ok {m : Mode} {c : Calib F} {em rc : F} {px : List Byte} {ram : RamData} {s : Subpage}
    {a : AccessPattern} {valid : List Bool} {dest : List F} {tA : F} {dest' : List F}
    (h : rawPixelsToIrData (ε := ε) m c em rc px ram s a valid dest = .ok (tA, dest')) :
    ∃ common, CommonIrData.new (ε := ε) m rc em c ram = .ok common ∧ tA = common.tA ∧
      dest'.length = dest.length ∧
      ∀ i : Nat, dest'[i]? = match rawItem c px s a i, valid[i]? with
        | some x, some true => (dest[i]?).map fun _ => rawValue common (cpOffset c common ram s a) x
        | _, _ => dest[i]? := by
  unfold rawPixelsToIrData at h
  cases hc : CommonIrData.new (ε := ε) m rc em c ram with
  | err e => rw [hc] at h; cases h
  | panic => rw [hc] at h; cases h
  | ok common =>
    rw [hc] at h
    simp only [Res.ok_bind, Res.ok.injEq, Prod.mk.injEq] at h
    obtain ⟨h1, h2⟩ := h
    subst h1 h2
    refine ⟨common, rfl, rfl, applyValid_length .., ?_⟩
    intro i
    rw [applyValid_get]
    simp only [getElem?_zip']
    unfold rawItem
    cases (pixelWords px)[i]? <;> cases (c.offsetRef s)[i]? <;> cases (c.kV s)[i]? <;>
      cases (c.kTa s)[i]? <;> cases (c.apComp a)[i]? <;> try rfl
    simp only [Option.bind_some, Option.map_some]
    unfold rawValue
    cases valid[i]? with
    | none => rfl
    | some b => cases b <;> cases cpOffset c common ram s a <;> rfl

theorem rawIr_of_common {m : Mode} {c : Calib F} {em rc : F} {px : List Byte} {ram : RamData} {s : Subpage}
    {a : AccessPattern} {valid : List Bool} {dest : List F} {common : CommonIrData F}
    (h : CommonIrData.new (ε := ε) m rc em c ram = .ok common) :
    ∃ dest', rawPixelsToIrData (ε := ε) m c em rc px ram s a valid dest = .ok (common.tA, dest') := by
  unfold rawPixelsToIrData
  rw [h]
  exact ⟨_, rfl⟩

/-- Frame-wide values of the temperature stage. -/
structure TempFrame (F : Type) where
  alphaCp : Option F
  kSTo : F
  coefficient : F
  tar : F

/-- Frame-wide values of the temperature stage from the calibration and the ambient temperature. -/
def tempFrame (c : Calib F) (em tA : F) (tR : Option F) (s : Subpage) (kSTo : F) : TempFrame F where
  alphaCp := c.tgc.map fun tgc => c.alphaCp s *. tgc
  kSTo := kSTo
  coefficient := sensitivityCorrection c tA
  tar := tAr tA (tR.getD (tA -. lit c.cam.selfHeating)) em

/-- The temperature of a pixel from its raw value and sensitivity. -/
def tempValue (f : TempFrame F) (alpha vIr : F) : F :=
  perPixelTemperature vIr (compensatedAlpha f.alphaCp f.coefficient alpha) f.tar f.kSTo

theorem irToTemp_ok {c : Calib F} {em tA : F} {tR : Option F} {s : Subpage} {valid : List Bool}
    {dest dest' : List F} (h : rawIrToTemperatures (ε := ε) c em tA tR s valid dest = .ok dest') :
    ∃ k, c.kSTo[c.cam.basicRange]? = some k ∧ dest'.length = dest.length ∧
      ∀ i : Nat, dest'[i]? = match (c.alpha s)[i]?, valid[i]? with
        | some al, some true => (dest[i]?).map (tempValue (tempFrame c em tA tR s k) al)
        | _, _ => dest[i]? := by
  unfold rawIrToTemperatures idx at h
  cases hk : c.kSTo[c.cam.basicRange]? with
  | none => rw [hk] at h; cases h
  | some k =>
    rw [hk] at h
    simp only [Res.ok_bind, Res.ok.injEq] at h
    subst h
    refine ⟨k, rfl, applyValid_length .., ?_⟩
    intro i
    rw [applyValid_get]
    cases (c.alpha s)[i]? <;> rfl

/-- Item `i` of the one-pass conversion. -/
def tempItem (c : Calib F) (px : List Byte) (s : Subpage) (a : AccessPattern) (i : Nat) :
    Option (RawItem F × F) :=
  match rawItem c px s a i, (c.alpha s)[i]? with
  | some x, some al => some (x, al)
  | _, _ => none

theorem temps_ok {m : Mode} {c : Calib F} {em rc : F} {tR : Option F} {px : List Byte} {ram : RamData}
    {s : Subpage} {a : AccessPattern} {valid : List Bool} {dest : List F} {tA : F} {dest' : List F}
    (h : rawPixelsToTemperatures (ε := ε) m c em tR rc px ram s a valid dest = .ok (tA, dest')) :
    ∃ common k, CommonIrData.new (ε := ε) m rc em c ram = .ok common ∧ tA = common.tA ∧
      c.kSTo[c.cam.basicRange]? = some k ∧ dest'.length = dest.length ∧
      ∀ i : Nat, dest'[i]? = match tempItem c px s a i, valid[i]? with
        | some (x, al), some true => (dest[i]?).map fun _ =>
            tempValue (tempFrame c em tA tR s k) al (rawValue common (cpOffset c common ram s a) x)
        | _, _ => dest[i]? := by
  unfold rawPixelsToTemperatures at h
  cases hc : CommonIrData.new (ε := ε) m rc em c ram with
  | err e => rw [hc] at h; cases h
  | panic => rw [hc] at h; cases h
  | ok common =>
    rw [hc] at h
    unfold idx at h
    cases hk : c.kSTo[c.cam.basicRange]? with
    | none => rw [hk] at h; cases h
    | some k =>
      rw [hk] at h
      simp only [Res.ok_bind, Res.ok.injEq, Prod.mk.injEq] at h
      obtain ⟨h1, h2⟩ := h
      subst h1 h2
      refine ⟨common, k, rfl, rfl, rfl, applyValid_length .., ?_⟩
      intro i
      rw [applyValid_get]
      simp only [getElem?_zip']
      unfold tempItem rawItem
      cases (pixelWords px)[i]? <;> cases (c.offsetRef s)[i]? <;> cases (c.kV s)[i]? <;>
        cases (c.kTa s)[i]? <;> cases (c.alpha s)[i]? <;> cases (c.apComp a)[i]? <;> try rfl
      simp only [Option.bind_some, Option.map_some]
      unfold rawValue
      cases valid[i]? with
      | none => rfl
      | some b => cases b <;> cases cpOffset c common ram s a <;> rfl

theorem temps_of_common {m : Mode} {c : Calib F} {em rc : F} {tR : Option F} {px : List Byte}
    {ram : RamData} {s : Subpage} {a : AccessPattern} {valid : List Bool} {dest : List F}
    {common : CommonIrData F} {k : F} (h : CommonIrData.new (ε := ε) m rc em c ram = .ok common)
    (hk : c.kSTo[c.cam.basicRange]? = some k) :
    ∃ dest', rawPixelsToTemperatures (ε := ε) m c em tR rc px ram s a valid dest =
      .ok (common.tA, dest') := by
  unfold rawPixelsToTemperatures idx
  rw [h, hk]
  exact ⟨_, rfl⟩

theorem pixelWords_eq (px : List Byte) (i : Nat) : (pixelWords px)[i]? =
    (px[2 * i]?).bind fun a => (px[2 * i + 1]?).map fun b => (be16 a b).toInt := by
  cases ha : px[2 * i]? with
  | none =>
    have : px.length ≤ 2 * i := List.getElem?_eq_none_iff.1 ha
    simp only [Option.bind_none]
    rw [List.getElem?_eq_none_iff, pixelWords_length]
    omega
  | some a =>
    cases hb : px[2 * i + 1]? with
    | none =>
      have : px.length ≤ 2 * i + 1 := List.getElem?_eq_none_iff.1 hb
      simp only [Option.bind_some, Option.map_none]
      rw [List.getElem?_eq_none_iff, pixelWords_length]
      omega
    | some b => simpa using pixelWords_get px i a b ha hb

theorem new_congr {m : Mode} {c c' : Calib F} {em rc : F} {ram : RamData} {s : Subpage}
    {a : AccessPattern} (h : Spec.SameFrame c c' s a) :
    CommonIrData.new (ε := ε) m rc em c ram = CommonIrData.new m rc em c' ram := by
  unfold CommonIrData.new deltaV vDd vPtatArt ambientTemperature
  rw [h.kVdd, h.vdd25, h.vdd0, h.kVptat, h.kTptat, h.vptat25, h.alphaPtat, h.gain]

theorem cpOffset_congr {c c' : Calib F} {common : CommonIrData F} {ram : RamData} {s : Subpage}
    {a : AccessPattern} (h : Spec.SameFrame c c' s a) :
    cpOffset c common ram s a = cpOffset c' common ram s a := by
  unfold cpOffset
  rw [h.tgc, h.offsetRefCp, h.kVCp, h.kTaCp, h.apCompCp]

theorem tempFrame_congr {c c' : Calib F} {em tA k : F} {tR : Option F} {s : Subpage}
    {a : AccessPattern} (h : Spec.SameFrame c c' s a) :
    tempFrame c em tA tR s k = tempFrame c' em tA tR s k := by
  unfold tempFrame sensitivityCorrection
  rw [h.tgc, h.alphaCp, h.kSTa, h.selfHeating]

omit [F32Ops F] in
theorem rawItem_congr {c c' : Calib F} {px px' : List Byte} {s : Subpage} {a : AccessPattern} {i : Nat}
    (h : Spec.SamePixel c c' s a i) (hb : Spec.SameBytes px px' i) :
    rawItem c px s a i = rawItem c' px' s a i := by
  unfold rawItem
  rw [pixelWords_eq, pixelWords_eq, hb.1, hb.2, h.offsetRef, h.kV, h.kTa, h.apComp]

omit [F32Ops F] in
theorem rawItem_some {c : Calib F} {px : List Byte} {s : Subpage} {a : AccessPattern} {n i : Nat}
    (hc : Spec.Complete c n) (hpx : px.length / 2 = n) (hi : i < n) :
    ∃ x, rawItem c px s a i = some x := by
  unfold rawItem
  have h1 : i < (pixelWords px).length := by rw [pixelWords_length]; omega
  have h2 : i < (c.offsetRef s).length := by rw [hc.offsetRef]; exact hi
  have h3 : i < (c.kV s).length := by rw [hc.kV]; exact hi
  have h4 : i < (c.kTa s).length := by rw [hc.kTa]; exact hi
  have h5 : i < (c.apComp a).length := by rw [hc.apComp]; exact hi
  rw [List.getElem?_eq_getElem h1, List.getElem?_eq_getElem h2, List.getElem?_eq_getElem h3,
    List.getElem?_eq_getElem h4, List.getElem?_eq_getElem h5]
  exact ⟨_, rfl⟩

omit [F32Ops F] in
theorem rawItem_none {c : Calib F} {px : List Byte} {s : Subpage} {a : AccessPattern} {i : Nat}
    (h : px.length < 2 * i + 2 ∨ (c.offsetRef s).length ≤ i ∨ (c.kV s).length ≤ i ∨
      (c.kTa s).length ≤ i ∨ (c.apComp a).length ≤ i) : rawItem c px s a i = none := by
  unfold rawItem
  rcases h with h | h | h | h | h
  · have : (pixelWords px)[i]? = none := by
      rw [List.getElem?_eq_none_iff, pixelWords_length]; omega
    rw [this]
  · rw [List.getElem?_eq_none h]; split <;> simp_all
  · rw [List.getElem?_eq_none h]; split <;> simp_all
  · rw [List.getElem?_eq_none h]; split <;> simp_all
  · rw [List.getElem?_eq_none h]; split <;> simp_all

end Mlx.Proofs
