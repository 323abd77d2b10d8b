import Verif.Proofs.Pixel641
import Verif.Props.Hamming
/-
What `Mlx90641Calibration::from_data` does with uncorrectable words and short buffers.
-/
set_option linter.unusedSectionVars false
set_option autoImplicit false
namespace Mlx.Proofs
open Mlx Mlx.Spec F32Ops
variable {F : Type} [F32Ops F] {data : List Byte} {α β : Type} {m : Mode} {Q : Prop}

/-- A word that the decoder rejects. -/
def bad (w : Word) : Bool := !(Hamming.validateChecksum w).isOk

theorem validate_bad {w : Word} (h : bad w = true) : Hamming.validateChecksum w = .err (.checksum w) := by
  have := (Props.C04_decoder_characterisation w).2.1
  apply this
  rintro ⟨d, hd⟩
  have := ((Props.C04_decoder_characterisation w).1 _).2 ⟨d, rfl, hd⟩
  unfold bad at h
  rw [this] at h
  cases h

theorem validate_good {w : Word} (h : bad w = false) : ∃ v, Hamming.validateChecksum w = .ok v ∧ v.toNat < 2048 := by
  unfold bad at h
  cases hv : Hamming.validateChecksum w with
  | ok v =>
    refine ⟨v, rfl, ?_⟩
    obtain ⟨d, rfl, _⟩ := ((Props.C04_decoder_characterisation w).1 v).1 hv
    rw [BitVec.toNat_setWidth]
    have := d.isLt
    omega
  | err e => rw [hv] at h; cases h
  | panic => rw [hv] at h; cases h

theorem bad_iff (w : Word) : bad w = true ↔ Ee641.Uncorrectable w := by
  constructor
  · intro h d hd
    have := ((Props.C04_decoder_characterisation w).1 _).2 ⟨d, rfl, hd⟩
    rw [validate_bad h] at this
    cases this
  · intro h
    cases hb : bad w with
    | true => rfl
    | false =>
      obtain ⟨v, hv, _⟩ := validate_good hb
      obtain ⟨d, _, hd⟩ := ((Props.C04_decoder_characterisation w).1 v).1 hv
      exact absurd hd (h d)

/-- A computation that decodes the given words in order: it reports the first one that cannot be corrected, and
succeeds if there is none, except that it may panic if `Q`. -/
def Faithful (Q : Prop) (ws : List Word) (r : Res LibErr α) : Prop :=
  match ws.find? bad with
  | some w => r = .err (.checksum w) ∨ (Q ∧ r = .panic)
  | none => (∃ a, r = .ok a) ∨ (Q ∧ r = .panic)

theorem Faithful.bind {ws vs : List Word} {r : Res LibErr α} {f : α → Res LibErr β} (h : Faithful Q ws r)
    (hf : ∀ a, r = .ok a → Faithful Q vs (f a)) : Faithful Q (ws ++ vs) (r >>= f) := by
  unfold Faithful at *
  rw [List.find?_append]
  cases hw : ws.find? bad with
  | some w =>
    rw [hw] at h
    rcases h with h | ⟨h1, h⟩
    · left; rw [h]; rfl
    · right; rw [h]; exact ⟨h1, rfl⟩
  | none =>
    rw [hw] at h
    rw [Option.none_or]
    rcases h with ⟨a, h⟩ | ⟨h1, h⟩
    · rw [h, Res.ok_bind]; exact hf a h
    · rw [h, Res.panic_bind]
      cases vs.find? bad with
      | some w => right; exact ⟨h1, rfl⟩
      | none => right; exact ⟨h1, rfl⟩

theorem Faithful.ok (a : α) : Faithful Q [] (.ok a) := Or.inl ⟨a, rfl⟩

theorem Faithful.validate (w : Word) : Faithful Q [w] (Hamming.validateChecksum w) := by
  unfold Faithful
  cases h : bad w with
  | true =>
    rw [List.find?_cons_of_pos h]
    exact Or.inl (validate_bad h)
  | false =>
    rw [List.find?_cons_of_neg (by rw [h]; decide), List.find?_nil]
    obtain ⟨v, hv, _⟩ := validate_good h
    exact Or.inl ⟨v, hv⟩

theorem Faithful.arith (x : Int) (hQ : m = .checked → ¬ Fits16 x → Q) : Faithful Q [] (arith16 m x) := by
  rw [arith16_eq]
  show (∃ a, onlyIf _ _ = .ok a) ∨ _
  by_cases h : m = .wrapping ∨ Fits16 x
  · left; rw [onlyIf_pos h]; exact ⟨_, rfl⟩
  · right
    rw [onlyIf_neg h]
    cases m with
    | wrapping => exact absurd (Or.inl rfl) h
    | checked => exact ⟨hQ rfl fun hc => h (Or.inr hc), rfl⟩

theorem Faithful.fromBits (w : Word) : Faithful Q [] (i16FromBits (ε := LibErr) m (toBe w) 11) := by
  rw [i16FromBits_word m w 11 (by decide) (by decide)]; exact Faithful.ok _

theorem decodePixel_faithful (w0 w1 wa wc : Word) :
    Faithful Q [w0, w1, wa, wc] (Mlx90641.decodePixel m w0 w1 wa wc) := by
  unfold Mlx90641.decodePixel
  refine (Faithful.validate w0).bind (vs := [w1, wa, wc]) fun d0 _ => ?_
  refine (Faithful.fromBits d0).bind (vs := [w1, wa, wc]) fun o0 _ => ?_
  refine (Faithful.validate w1).bind (vs := [wa, wc]) fun d1 _ => ?_
  refine (Faithful.fromBits d1).bind (vs := [wa, wc]) fun o1 _ => ?_
  refine (Faithful.validate wa).bind (vs := [wc]) fun a _ => ?_
  refine (Faithful.validate wc).bind (vs := []) fun c _ => ?_
  rw [split65_kTa, Res.ok_bind, split65_kV, Res.ok_bind]
  exact Faithful.ok _

theorem Faithful.good {ws : List Word} {r : Res LibErr α} {a : α} (h : Faithful Q ws r) (hr : r = .ok a) :
    ∀ w ∈ ws, bad w = false := by
  unfold Faithful at h
  cases hw : ws.find? bad with
  | some w =>
    rw [hw] at h
    rcases h with h | ⟨_, h⟩ <;> rw [hr] at h <;> cases h
  | none =>
    intro w hm
    simpa using List.find?_eq_none.1 hw w hm

theorem pixelStep_faithful (c : Mlx90641.PixelConsts F) (px : (((Word × Word) × Word) × Word) × F)
    (hQ : (∀ w ∈ [px.1.1.1.1, px.1.1.1.2, px.1.1.2, px.1.2], bad w = false) → Mlx90641.pixelStep m c px = .panic → Q) :
    Faithful Q [px.1.1.1.1, px.1.1.1.2, px.1.1.2, px.1.2] (Mlx90641.pixelStep m c px) := by
  have hdec := decodePixel_faithful (m := m) (Q := Q) px.1.1.1.1 px.1.1.1.2 px.1.1.2 px.1.2
  have hstep : ∀ r, Mlx90641.decodePixel m px.1.1.1.1 px.1.1.1.2 px.1.1.2 px.1.2 = .ok r →
      Faithful True [] (Mlx90641.pixelStep m c px) := by
    intro r hr
    unfold Mlx90641.pixelStep
    rw [hr, Res.ok_bind]
    obtain ⟨o0, o1, a, kTa, kV⟩ := r
    simp only
    split
    · exact Faithful.ok _
    · refine (Faithful.arith _ fun _ _ => trivial).bind (vs := []) fun _ _ => ?_
      refine (Faithful.arith _ fun _ _ => trivial).bind (vs := []) fun _ _ => ?_
      refine (Faithful.arith _ fun _ _ => trivial).bind (vs := []) fun _ _ => ?_
      refine (Faithful.arith _ fun _ _ => trivial).bind (vs := []) fun _ _ => ?_
      exact Faithful.ok _
  have hrw : ∃ f, Mlx90641.pixelStep m c px = (Mlx90641.decodePixel m px.1.1.1.1 px.1.1.1.2 px.1.1.2 px.1.2 >>= f) :=
    ⟨_, rfl⟩
  obtain ⟨f, hf⟩ := hrw
  have key : ∀ r, Mlx90641.decodePixel m px.1.1.1.1 px.1.1.1.2 px.1.1.2 px.1.2 = .ok r → Faithful Q [] (f r) := by
    intro r hr
    have h1 := hstep r hr
    have h2 := hf
    rw [hr, Res.ok_bind] at h2
    rcases h1 with ⟨a, h1⟩ | ⟨_, h1⟩
    · exact Or.inl ⟨a, by rw [← h2]; exact h1⟩
    · exact Or.inr ⟨hQ (hdec.good hr) h1, by rw [← h2]; exact h1⟩
  rw [hf]
  exact hdec.bind (vs := []) key

theorem pixelLoop_faithful (c : Mlx90641.PixelConsts F) (item : Nat → (((Word × Word) × Word) × Word) × F)
    (L : List Nat)
    (hQ : ∀ L1 i L2, L = L1 ++ i :: L2 →
      (∀ j ∈ L1 ++ [i], ∀ w ∈ [(item j).1.1.1.1, (item j).1.1.1.2, (item j).1.1.2, (item j).1.2], bad w = false) →
      Mlx90641.pixelStep m c (item i) = .panic → Q) :
    Faithful Q (L.flatMap fun i => [(item i).1.1.1.1, (item i).1.1.1.2, (item i).1.1.2, (item i).1.2])
      (Mlx90641.pixelLoop m c (L.map item)) := by
  induction L with
  | nil => exact Faithful.ok _
  | cons i L ih =>
    rw [List.map_cons, List.flatMap_cons]
    unfold Mlx90641.pixelLoop
    have hst := pixelStep_faithful (m := m) c (item i) fun hg hp =>
      hQ [] i L rfl (fun j hj => by rw [List.nil_append, List.mem_singleton] at hj; subst hj; exact hg) hp
    refine hst.bind fun o ho => ?_
    have hi := hst.good ho
    have ih := ih fun L1 k L2 hL hg hp => hQ (i :: L1) k L2 (by rw [hL]; rfl) (fun j hj => by
      rw [List.cons_append] at hj
      rcases List.mem_cons.1 hj with rfl | hj
      · exact hi
      · exact hg j hj) hp
    have := Faithful.bind (f := fun os => Res.ok (o :: os)) ih fun a _ => Faithful.ok _
    rwa [List.append_nil] at this

/-- The loop yields one result per pixel. -/
theorem pixelLoop_length (c : Mlx90641.PixelConsts F) (items : List ((((Word × Word) × Word) × Word) × F))
    (outs : List (Mlx90641.PixelOut F)) (h : Mlx90641.pixelLoop m c items = .ok outs) : outs.length = items.length := by
  induction items generalizing outs with
  | nil => cases h; rfl
  | cons px items ih =>
    unfold Mlx90641.pixelLoop at h
    cases h1 : Mlx90641.pixelStep m c px with
    | ok o =>
      rw [h1, Res.ok_bind] at h
      cases h2 : Mlx90641.pixelLoop m c items with
      | ok os =>
        rw [h2, Res.ok_bind] at h
        cases h
        rw [List.length_cons, List.length_cons, ih os h2]
      | err e => rw [h2] at h; cases h
      | panic => rw [h2] at h; cases h
    | err e => rw [h1] at h; cases h
    | panic => rw [h1] at h; cases h

/-! ### Parsers -/

/-- The words of a dump with the given indices, as far as the dump reaches. -/
def within (data : List Byte) (L : List Nat) : List Word :=
  (L.filter fun k => decide (pos (k + 1) ≤ data.length)).map (ew data)

/-- A parser that reads from word `A` to word `B` of the dump, decoding the words `L`: it reports the first that
cannot be corrected; otherwise, it panics at the end of the dump, or succeeds, or, if `Q`, panics. -/
structure Scan (Q : Prop) (data : List Byte) (A B : Nat) (L : List Nat) (p : Parser LibErr α) : Prop where
  le : A ≤ B
  mem : ∀ k ∈ L, A ≤ k ∧ k < B
  out : match (within data L).find? bad with
    | some w => p (data.drop (pos A)) = .err (.checksum w) ∨ (Q ∧ p (data.drop (pos A)) = .panic)
    | none =>
      (pos B ≤ data.length ∧ ∃ a, p (data.drop (pos A)) = .ok (a, data.drop (pos B))) ∨
      (data.length < pos B ∧ p (data.drop (pos A)) = .panic) ∨
      (Q ∧ p (data.drop (pos A)) = .panic)

theorem pos_mono {A B : Nat} (h : A ≤ B) : pos A ≤ pos B := by unfold pos; omega

theorem within_append (L K : List Nat) : within data (L ++ K) = within data L ++ within data K := by
  unfold within; rw [List.filter_append, List.map_append]

theorem within_beyond {B : Nat} {K : List Nat} (h : data.length < pos B) (hK : ∀ k ∈ K, B ≤ k) : within data K = [] := by
  unfold within
  rw [List.filter_eq_nil_iff.2, List.map_nil]
  intro k hk
  have := pos_mono (hK k hk)
  have h2 := pos_succ k
  simp only [decide_eq_true_eq]
  omega

theorem Scan.bind {A B C : Nat} {L K : List Nat} {p : Parser LibErr α} {f : α → Parser LibErr β}
    (h : Scan Q data A B L p)
    (hf : ∀ a, p (data.drop (pos A)) = .ok (a, data.drop (pos B)) → pos B ≤ data.length →
      Scan Q data B C K (f a)) (hBC : B ≤ C) (hK : ∀ k ∈ K, B ≤ k ∧ k < C) :
    Scan Q data A C (L ++ K) (p >>= f) := by
  refine ⟨Nat.le_trans h.le hBC, ?_, ?_⟩
  · intro k hk
    rcases List.mem_append.1 hk with hk | hk
    · have := h.mem k hk; omega
    · have := hK k hk; have := h.le; omega
  · have hout := h.out
    rw [Parser.bind_apply, within_append, List.find?_append]
    cases hw : (within data L).find? bad with
    | some w =>
      rw [hw] at hout
      rw [Option.some_or]
      rcases hout with hout | ⟨h1, hout⟩
      · left; rw [hout]; rfl
      · right; rw [hout]; exact ⟨h1, rfl⟩
    | none =>
      rw [hw] at hout
      rw [Option.none_or]
      rcases hout with ⟨h1, a, hout⟩ | ⟨h1, hout⟩ | ⟨h1, hout⟩
      · rw [hout, Res.ok_bind]
        exact (hf a hout h1).out
      · rw [within_beyond h1 fun k hk => (hK k hk).1, List.find?_nil, hout, Res.panic_bind]
        right; left
        have := pos_mono hBC
        exact ⟨by omega, rfl⟩
      · rw [hout, Res.panic_bind]
        cases (within data K).find? bad with
        | some w => right; exact ⟨h1, rfl⟩
        | none => right; right; exact ⟨h1, rfl⟩

theorem Scan.pure {A : Nat} (h : pos A ≤ data.length) (a : α) : Scan Q data A A [] (pure a : Parser LibErr α) :=
  ⟨Nat.le_refl _, fun k hk => by simp at hk, Or.inl ⟨h, a, rfl⟩⟩

theorem Scan.lift {A : Nat} (h : pos A ≤ data.length) {r : Res LibErr α} (hr : Faithful Q [] r) :
    Scan Q data A A [] (Parser.lift r) := by
  refine ⟨Nat.le_refl _, fun k hk => by simp at hk, ?_⟩
  rcases hr with ⟨a, rfl⟩ | ⟨h1, rfl⟩
  · exact Or.inl ⟨h, a, rfl⟩
  · exact Or.inr (Or.inr ⟨h1, rfl⟩)

theorem Scan.advance {A n k : Nat} (hk : k = 2 * n) (hn : 0 < n) : Scan Q data A (A + n) [] (Mlx.advance k) := by
  refine ⟨by omega, fun k hk => by simp at hk, ?_⟩
  show _ ∨ _ ∨ _
  by_cases h : pos (A + n) ≤ data.length
  · exact Or.inl ⟨h, (), advance_from A n k hk h⟩
  · right; left
    refine ⟨by omega, ?_⟩
    unfold Mlx.advance
    rw [pos_add] at h
    rw [if_neg (by rw [List.length_drop]; omega)]

theorem Scan.hamU16 (A : Nat) : Scan Q data A (A + 1) [A] Mlx90641.getHammingU16 := by
  refine ⟨by omega, fun k hk => by simp at hk; omega, ?_⟩
  by_cases h : pos (A + 1) ≤ data.length
  · have hw : within data [A] = [ew data A] := by
      unfold within
      rw [List.filter_cons_of_pos (by simpa using h), List.filter_nil]; rfl
    rw [hw, hamU16_at A h]
    cases hb : bad (ew data A) with
    | true =>
      rw [List.find?_cons_of_pos hb, validate_bad hb]
      exact Or.inl rfl
    | false =>
      rw [List.find?_cons_of_neg (by rw [hb]; decide), List.find?_nil]
      obtain ⟨v, hv, _⟩ := validate_good hb
      rw [hv]
      exact Or.inl ⟨h, v, rfl⟩
  · have hw : within data [A] = [] := by
      unfold within
      rw [List.filter_cons_of_neg (by simpa using h), List.filter_nil]; rfl
    rw [hw]
    right; left
    refine ⟨by omega, ?_⟩
    have hs := pos_succ A
    have hl : (data.drop (pos A)).length < 2 := by rw [List.length_drop]; omega
    generalize data.drop (pos A) = s at hl
    match s, hl with
    | [], _ => rfl
    | [_], _ => rfl

theorem Scan.hamI16 (A : Nat) : Scan Q data A (A + 1) [A] (Mlx90641.getHammingI16 m) := by
  unfold Mlx90641.getHammingI16
  exact (Scan.hamU16 A).bind (K := []) (fun w _ h => Scan.lift h (Faithful.fromBits w)) (Nat.le_refl _)
    (fun k hk => by simp at hk)

theorem Scan.combined (A : Nat) : Scan Q data A (A + 2) [A, A + 1] Mlx90641.getCombinedWord := by
  unfold Mlx90641.getCombinedWord
  refine (Scan.hamU16 A).bind (K := [A + 1]) (fun w _ h => ?_) (by omega) (fun k hk => by simp at hk; omega)
  exact (Scan.hamU16 (A + 1)).bind (K := []) (fun w _ h => Scan.pure h _) (by omega) (fun k hk => by simp at hk)

theorem Scan.split (A : Nat) : Scan Q data A (A + 1) [A] Mlx90641.get65Split := by
  unfold Mlx90641.get65Split
  exact (Scan.hamU16 A).bind (K := []) (fun w _ h => Scan.pure h _) (by omega) (fun k hk => by simp at hk)

theorem Scan.cp (A : Nat) : Scan Q data A (A + 1) [A] (Mlx90641.getScaledCpConstant (F := F) m) := by
  unfold Mlx90641.getScaledCpConstant
  refine (Scan.hamU16 A).bind (K := []) (fun w _ h => ?_) (by omega) (fun k hk => by simp at hk)
  simp only
  refine (Scan.lift h ?_).bind (L := []) (K := []) (fun v _ h => Scan.pure h _) (by omega) (fun k hk => by simp at hk)
  rw [ap1]
  exact Faithful.ok _

theorem Scan.resolutionTgc (A : Nat) : Scan Q data A (A + 1) [A] (Mlx90641.getResolutionWithTgc (F := F) m) := by
  unfold Mlx90641.getResolutionWithTgc
  refine (Scan.hamU16 A).bind (K := []) (fun w _ h => ?_) (by omega) (fun k hk => by simp at hk)
  refine (Scan.lift h ?_).bind (L := []) (K := []) (fun v _ h => ?_) (by omega) (fun k hk => by simp at hk)
  · rw [resolution_word, resolution_fromRaw _ (bitsAt_lt_two_pow _ 9 2)]
    exact Faithful.ok _
  · refine (Scan.lift h ?_).bind (L := []) (K := []) (fun v _ h => Scan.pure h _) (by omega) (fun k hk => by simp at hk)
    rw [tgc_word]
    exact Faithful.ok _

theorem le_of_list {L : List Nat} {B C : Nat} (h : (L.all fun k => decide (B ≤ k ∧ k < C)) = true) :
    ∀ k ∈ L, B ≤ k ∧ k < C := by
  intro k hk
  have := List.all_eq_true.1 h k hk
  simpa using this

theorem Scan.temperatures : Scan Q data 52 64 [52, 53, 54, 55, 56, 57, 58, 59, 60, 61, 62, 63]
    (Mlx90641.temperatureRangeData (F := F) m) := by
  unfold Mlx90641.temperatureRangeData
  refine (Scan.hamU16 52).bind (K := [53, 54, 55, 56, 57, 58, 59, 60, 61, 62, 63]) (fun _ _ _ => ?_) (by decide) (le_of_list (by decide))
  refine (Scan.hamI16 53).bind (K := [54, 55, 56, 57, 58, 59, 60, 61, 62, 63]) (fun _ _ _ => ?_) (by decide) (le_of_list (by decide))
  refine (Scan.hamI16 54).bind (K := [55, 56, 57, 58, 59, 60, 61, 62, 63]) (fun _ _ _ => ?_) (by decide) (le_of_list (by decide))
  refine (Scan.hamI16 55).bind (K := [56, 57, 58, 59, 60, 61, 62, 63]) (fun _ _ _ => ?_) (by decide) (le_of_list (by decide))
  refine (Scan.hamI16 56).bind (K := [57, 58, 59, 60, 61, 62, 63]) (fun _ _ _ => ?_) (by decide) (le_of_list (by decide))
  refine (Scan.hamI16 57).bind (K := [58, 59, 60, 61, 62, 63]) (fun _ _ _ => ?_) (by decide) (le_of_list (by decide))
  refine (Scan.hamU16 58).bind (K := [59, 60, 61, 62, 63]) (fun _ _ _ => ?_) (by decide) (le_of_list (by decide))
  refine (Scan.hamI16 59).bind (K := [60, 61, 62, 63]) (fun _ _ _ => ?_) (by decide) (le_of_list (by decide))
  refine (Scan.hamU16 60).bind (K := [61, 62, 63]) (fun _ _ _ => ?_) (by decide) (le_of_list (by decide))
  refine (Scan.hamI16 61).bind (K := [62, 63]) (fun _ _ _ => ?_) (by decide) (le_of_list (by decide))
  refine (Scan.hamU16 62).bind (K := [63]) (fun _ _ _ => ?_) (by decide) (le_of_list (by decide))
  exact (Scan.hamI16 63).bind (K := []) (fun _ _ h => Scan.pure h _) (by decide) (le_of_list (by decide))

/-- The corrected words of a dump. -/
def corrected (data : List Byte) (a : Nat) : Word :=
  match Hamming.validateChecksum (ew data (a - 0x2400)) with
  | .ok v => v
  | _ => 0#16

theorem corrected_eq {k : Nat} (h : bad (ew data k) = false) :
    Hamming.validateChecksum (ew data k) = .ok (corrected data (0x2400 + k)) := by
  obtain ⟨v, hv, _⟩ := validate_good h
  unfold corrected
  rw [Nat.add_sub_cancel_left, hv]

theorem corrected_lt (a : Nat) : (corrected data a).toNat < 2048 := by
  unfold corrected
  cases hb : bad (ew data (a - 0x2400)) with
  | true => rw [validate_bad hb]; show (0#16).toNat < 2048; decide
  | false => obtain ⟨v, hv, hlt⟩ := validate_good hb; rw [hv]; exact hlt

theorem Scan.ok_good {A B : Nat} {L : List Nat} {p : Parser LibErr α} {x : α × List Byte} (h : Scan Q data A B L p)
    (hp : p (data.drop (pos A)) = .ok x) : pos B ≤ data.length ∧ ∀ k ∈ L, bad (ew data k) = false := by
  have hout := h.out
  cases hw : (within data L).find? bad with
  | some w =>
    rw [hw] at hout
    rcases hout with h' | ⟨_, h'⟩ <;> rw [hp] at h' <;> cases h'
  | none =>
    rw [hw] at hout
    rcases hout with ⟨h', _⟩ | ⟨_, h'⟩ | ⟨_, h'⟩
    · refine ⟨h', fun k hk => ?_⟩
      have := List.find?_eq_none.1 hw (ew data k) (by
        unfold within
        refine List.mem_map.2 ⟨k, List.mem_filter.2 ⟨hk, ?_⟩, rfl⟩
        have := pos_mono (show k + 1 ≤ B from (h.mem k hk).2)
        simp only [decide_eq_true_eq]
        omega)
      simpa using this
    · rw [hp] at h'; cases h'
    · rw [hp] at h'; cases h'

theorem Scan.scalars : Scan Q data 0 64 (List.range' 34 30) (Mlx90641.parseScalars (F := F) m) := by
  unfold Mlx90641.parseScalars
  have h0 : data.drop (pos 0) = data := by unfold pos; rfl
  refine (Scan.advance (A := 0) (n := 34) rfl (by decide)).bind (L := []) (K := List.range' 34 30) (fun _ _ _ => ?_) (by decide) (le_of_list (by decide))
  refine (Scan.hamI16 34).bind (K := List.range' 35 29) (fun _ _ _ => ?_) (by decide) (le_of_list (by decide))
  refine (Scan.hamI16 35).bind (K := List.range' 36 28) (fun _ _ _ => ?_) (by decide) (le_of_list (by decide))
  refine (Scan.combined 36).bind (K := List.range' 38 26) (fun _ _ _ => ?_) (by decide) (le_of_list (by decide))
  refine (Scan.hamI16 38).bind (K := List.range' 39 25) (fun _ _ _ => ?_) (by decide) (le_of_list (by decide))
  refine (Scan.hamI16 39).bind (K := List.range' 40 24) (fun _ _ _ => ?_) (by decide) (le_of_list (by decide))
  refine (Scan.combined 40).bind (K := List.range' 42 22) (fun _ _ _ => ?_) (by decide) (le_of_list (by decide))
  refine (Scan.hamI16 42).bind (K := List.range' 43 21) (fun _ _ _ => ?_) (by decide) (le_of_list (by decide))
  refine (Scan.hamI16 43).bind (K := List.range' 44 20) (fun _ _ _ => ?_) (by decide) (le_of_list (by decide))
  refine (Scan.hamU16 44).bind (K := List.range' 45 19) (fun _ _ _ => ?_) (by decide) (le_of_list (by decide))
  refine (Scan.hamU16 45).bind (K := List.range' 46 18) (fun _ _ _ => ?_) (by decide) (le_of_list (by decide))
  refine (Scan.hamU16 46).bind (K := List.range' 47 17) (fun _ _ _ => ?_) (by decide) (le_of_list (by decide))
  refine (Scan.combined 47).bind (K := List.range' 49 15) (fun _ _ _ => ?_) (by decide) (le_of_list (by decide))
  refine (Scan.cp 49).bind (K := List.range' 50 14) (fun _ _ _ => ?_) (by decide) (le_of_list (by decide))
  refine (Scan.cp 50).bind (K := List.range' 51 13) (fun _ _ _ => ?_) (by decide) (le_of_list (by decide))
  refine (Scan.resolutionTgc 51).bind (K := List.range' 52 12) (fun r _ _ => ?_) (by decide) (le_of_list (by decide))
  obtain ⟨resolution, tgc⟩ := r
  simp only
  refine (Scan.temperatures).bind (K := []) (fun r hr h64 => ?_) (by decide) (le_of_list (by decide))
  have hgood := ((Scan.temperatures (F := F) (m := m) (data := data) (Q := Q)).ok_good hr).2
  have h128 : 128 ≤ data.length := by have : pos 64 = 128 := by unfold pos; rfl
                                      omega
  rw [temperatureRange_eq (W := corrected data) m h128 fun k h1 h2 => corrected_eq (hgood k (by
    simp only [List.mem_cons, List.not_mem_nil, or_false]; omega))] at hr
  have hr := congrArg Prod.fst (Res.ok.inj hr)
  obtain ⟨ct, ks⟩ := r
  simp only at hr
  cases hr
  simp only
  refine (Scan.lift h64 ?_).bind (L := []) (K := []) (fun _ _ h => Scan.pure h _) (by decide) (le_of_list (by decide))
  rw [rangeCorrection641_ok (F := F) m fun k _ _ => corrected_lt _]
  exact Faithful.ok _

theorem Scan.consts (hQ : bad (ew data 16) = false → m = .checked → ¬ Ee641.offsetExp (corrected data) ≤ 14 → Q) :
    Scan Q data 0 34 ([16, 17, 18] ++ List.range' 21 13) (Mlx90641.pixelConsts (F := F) m) := by
  unfold Mlx90641.pixelConsts
  refine (Scan.advance (A := 0) (n := 16) rfl (by decide)).bind (C := 34) (L := []) (K := [16, 17, 18] ++ List.range' 21 13) (fun _ _ _ => ?_) (by decide) (le_of_list (by decide))
  refine (Scan.split 16).bind (C := 34) (K := [17, 18] ++ List.range' 21 13) (fun os hos h => ?_) (by decide) (le_of_list (by decide))
  have hg := ((Scan.split (Q := Q) (data := data) 16).ok_good hos).2 16 (by simp)
  have hexp : os.1.toNat = Ee641.offsetExp (corrected data) := by
    unfold Mlx90641.get65Split at hos
    rw [Parser.bind_apply, hamU16_at 16 h, corrected_eq hg, Res.ok_bind, Res.ok_bind, Parser.pure_apply] at hos
    have := congrArg Prod.fst (Res.ok.inj hos)
    simp only at this
    rw [← this, split65_fst]
    rfl
  refine (Scan.lift h (Faithful.arith _ fun hm hf => hQ hg hm fun he => hf
    ((fits_pow os.1.toNat).2 (by rw [hexp]; exact he)))).bind (C := 34) (L := []) (K := [17, 18] ++ List.range' 21 13) (fun _ _ _ => ?_) (by decide) (le_of_list (by decide))
  refine (Scan.combined 17).bind (K := List.range' 21 13) (fun _ _ h => ?_) (by decide) (le_of_list (by decide))
  refine (Scan.lift h (Faithful.fromBits _)).bind (L := []) (K := List.range' 21 13) (fun _ _ _ => ?_) (by decide) (le_of_list (by decide))
  refine (Scan.advance (A := 19) (n := 2) rfl (by decide)).bind (L := []) (K := List.range' 21 13) (fun _ _ _ => ?_) (by decide) (le_of_list (by decide))
  refine (Scan.hamI16 21).bind (K := List.range' 22 12) (fun _ _ _ => ?_) (by decide) (le_of_list (by decide))
  refine (Scan.split 22).bind (K := List.range' 23 11) (fun _ _ _ => ?_) (by decide) (le_of_list (by decide))
  refine (Scan.hamI16 23).bind (K := List.range' 24 10) (fun _ _ _ => ?_) (by decide) (le_of_list (by decide))
  refine (Scan.split 24).bind (K := List.range' 25 9) (fun _ _ _ => ?_) (by decide) (le_of_list (by decide))
  refine Scan.bind (B := 34) (L := List.range' 25 9) (K := []) ?_ (fun _ _ h => Scan.pure h _) (by decide) (le_of_list (by decide))
  unfold Mlx90641.sensitivityReference
  refine (Scan.split 25).bind (K := List.range' 26 8) (fun _ _ _ => ?_) (by decide) (le_of_list (by decide))
  refine (Scan.split 26).bind (K := List.range' 27 7) (fun _ _ _ => ?_) (by decide) (le_of_list (by decide))
  refine (Scan.split 27).bind (K := List.range' 28 6) (fun _ _ _ => ?_) (by decide) (le_of_list (by decide))
  refine (Scan.hamU16 28).bind (K := List.range' 29 5) (fun _ _ _ => ?_) (by decide) (le_of_list (by decide))
  refine (Scan.hamU16 29).bind (K := List.range' 30 4) (fun _ _ _ => ?_) (by decide) (le_of_list (by decide))
  refine (Scan.hamU16 30).bind (K := List.range' 31 3) (fun _ _ _ => ?_) (by decide) (le_of_list (by decide))
  refine (Scan.hamU16 31).bind (K := List.range' 32 2) (fun _ _ _ => ?_) (by decide) (le_of_list (by decide))
  refine (Scan.hamU16 32).bind (K := List.range' 33 1) (fun _ _ _ => ?_) (by decide) (le_of_list (by decide))
  exact (Scan.hamU16 33).bind (K := []) (fun _ _ h => Scan.pure h _) (by decide) (le_of_list (by decide))

/-! ### The whole function -/

theorem within_all {L : List Nat} (h : ∀ k ∈ L, pos (k + 1) ≤ data.length) : within data L = L.map (ew data) := by
  unfold within
  rw [List.filter_eq_self.2]
  intro k hk
  simpa using h k hk

theorem ew_shift (L : List Nat) : (L.map (0x2400 + ·)).map (eepromWord data) = L.map (ew data) := by
  rw [List.map_map]
  exact List.map_congr_left fun k _ => eepromWord_eq k

theorem scalars_words : Ee641.scalarAddresses.map (eepromWord data) = (List.range' 34 30).map (ew data) := by
  rw [← ew_shift]; rfl

theorem shared_words :
    Ee641.sharedAddresses.map (eepromWord data) = ([16, 17, 18] ++ List.range' 21 13).map (ew data) := by
  rw [← ew_shift]; rfl

theorem pixel_words (refs : List F) (n : Nat) :
    ((List.range n).flatMap Ee641.pixelAddresses).map (eepromWord data) =
      (List.range n).flatMap fun i => [(item641 data refs i).1.1.1.1, (item641 data refs i).1.1.1.2,
        (item641 data refs i).1.1.2, (item641 data refs i).1.2] := by
  rw [List.map_flatMap]
  apply List.flatMap_congr
  intro i _
  unfold Ee641.pixelAddresses item641
  simp only [List.map_cons, List.map_nil]
  rw [show 0x2440 + i = 0x2400 + (64 + i) by omega, show 0x2680 + i = 0x2400 + (640 + i) by omega,
    show 0x2500 + i = 0x2400 + (256 + i) by omega, show 0x25C0 + i = 0x2400 + (448 + i) by omega,
    eepromWord_eq, eepromWord_eq, eepromWord_eq, eepromWord_eq]

theorem item_words {refs : List F} {j a : Nat} (ha : a ∈ Ee641.pixelAddresses j) :
    eepromWord data a ∈ [(item641 data refs j).1.1.1.1, (item641 data refs j).1.1.1.2, (item641 data refs j).1.1.2,
      (item641 data refs j).1.2] := by
  have h := pixel_words (data := data) refs (j + 1)
  unfold Ee641.pixelAddresses at ha
  unfold item641
  simp only [List.mem_cons, List.not_mem_nil, or_false] at ha ⊢
  rcases ha with rfl | rfl | rfl | rfl
  · left; rw [show 0x2440 + j = 0x2400 + (64 + j) by omega, eepromWord_eq]
  · right; left; rw [show 0x2680 + j = 0x2400 + (640 + j) by omega, eepromWord_eq]
  · right; right; left; rw [show 0x2500 + j = 0x2400 + (256 + j) by omega, eepromWord_eq]
  · right; right; right; rw [show 0x25C0 + j = 0x2400 + (448 + j) by omega, eepromWord_eq]

theorem range_split {n i : Nat} {L1 L2 : List Nat} (h : List.range n = L1 ++ i :: L2) :
    i < n ∧ ∀ j < i, j ∈ L1 := by
  have hi : i < n := List.mem_range.1 (h ▸ List.mem_append_right _ (List.mem_cons_self ..))
  have hlen : L1.length < n := by
    have := congrArg List.length h
    rw [List.length_range, List.length_append, List.length_cons] at this
    omega
  have h1 : (List.range n)[L1.length]? = some i := by
    rw [h, List.getElem?_append_right (Nat.le_refl _), Nat.sub_self, List.getElem?_cons_zero]
  rw [List.getElem?_range hlen, Option.some.injEq] at h1
  refine ⟨hi, fun j hj => ?_⟩
  have h2 : (List.range n)[j]? = some j := List.getElem?_range (by omega)
  rw [h, List.getElem?_append_left (by omega)] at h2
  exact List.mem_of_getElem? h2

theorem drop_pos_zero : data.drop (pos 0) = data := by unfold pos; rfl

/-- The outcome of decoding the words `ws`, where `last` is the outcome if they are all correctable. -/
def Outcome (Q : Prop) (ws : List Word) (r : Res LibErr α) (last : Res LibErr α → Prop) : Prop :=
  match ws.find? bad with
  | some w => r = .err (.checksum w) ∨ (Q ∧ r = .panic)
  | none => last r ∨ (Q ∧ r = .panic)

theorem Faithful.then {ws vs : List Word} {r : Res LibErr α} {f : α → Res LibErr β} {last : Res LibErr β → Prop}
    (h : Faithful Q ws r) (hf : ∀ a, r = .ok a → Outcome Q vs (f a) last) : Outcome Q (ws ++ vs) (r >>= f) last := by
  unfold Faithful at h
  unfold Outcome at *
  rw [List.find?_append]
  cases hw : ws.find? bad with
  | some w =>
    rw [hw] at h
    rcases h with h | ⟨h1, h⟩
    · left; rw [h]; rfl
    · right; rw [h]; exact ⟨h1, rfl⟩
  | none =>
    rw [hw] at h
    rw [Option.none_or]
    rcases h with ⟨a, h⟩ | ⟨h1, h⟩
    · rw [h, Res.ok_bind]; exact hf a h
    · rw [h, Res.panic_bind]
      cases vs.find? bad with
      | some w => right; exact ⟨h1, rfl⟩
      | none => right; exact ⟨h1, rfl⟩

theorem Scan.faithful {B : Nat} {L : List Nat} {p : Parser LibErr α} (h : Scan Q data 0 B L p)
    (hB : pos B ≤ data.length) : Faithful Q (L.map (ew data)) (p data >>= fun x => Res.ok x.1) := by
  have hout := h.out
  rw [drop_pos_zero, within_all fun k hk => by
    have := pos_mono (show k + 1 ≤ B from (h.mem k hk).2); omega] at hout
  unfold Faithful
  cases hw : (L.map (ew data)).find? bad with
  | some w =>
    rw [hw] at hout
    rcases hout with h' | ⟨h1, h'⟩
    · left; rw [h']; rfl
    · right; rw [h']; exact ⟨h1, rfl⟩
  | none =>
    rw [hw] at hout
    rcases hout with ⟨_, a, h'⟩ | ⟨h1, _⟩ | ⟨h1, h'⟩
    · left; rw [h']; exact ⟨_, rfl⟩
    · omega
    · right; rw [h']; exact ⟨h1, rfl⟩

/-- What happens when every word that is decoded can be corrected. -/
def lengthOutcome (length : Nat) (r : Res LibErr α) : Prop :=
  if length < 1280 then r = .panic
  else if length < 1664 then r = .err (.other "the ArrayVec should be filled with EEPROM data")
  else ∃ k, r = .ok k

theorem perPixel_outcome (h : 128 ≤ data.length)
    (hQ : bad (ew data 16) = false → m = .checked → ¬ Ee641.offsetExp (corrected data) ≤ 14 → Q)
    (hQ' : ∀ i < pixelCount data, (∀ a ∈ Ee641.sharedAddresses, bad (eepromWord data a) = false) →
      (∀ j ≤ i, ∀ a ∈ Ee641.pixelAddresses j, bad (eepromWord data a) = false) →
      m = .checked → ¬ Pixel641Fits (corrected data) i → Q) :
    Outcome Q ((Ee641.sharedAddresses ++ (List.range (pixelCount data)).flatMap Ee641.pixelAddresses).map
      (eepromWord data)) (Mlx90641.perPixel (F := F) m data) (lengthOutcome data.length) := by
  have hp : ∀ k, 2 * k ≤ data.length → pos k ≤ data.length := by
    intro k hk; have := pos_add 0 k; have h0 : pos 0 = 0 := by unfold pos; rfl
    rw [Nat.zero_add] at this; omega
  have hsh := shared_words (data := data)
  rw [List.map_append, hsh]
  unfold Mlx90641.perPixel
  rw [run_eq]
  refine ((Scan.consts (F := F) (m := m) (data := data) hQ).faithful (hp _ (by omega))).then fun r hr => ?_
  obtain ⟨c, refs⟩ := r
  simp only
  have hconsts : (m = .wrapping ∨ Ee641.offsetExp (corrected data) ≤ 14) ∧ c = consts641 (corrected data) ∧
      refs = references641 (corrected data) := by
    cases hpc : Mlx90641.pixelConsts (F := F) m data with
    | ok x =>
      rw [hpc, Res.ok_bind] at hr
      have hgood := (Scan.consts (F := F) (m := m) (data := data) hQ).ok_good (x := x) (by rw [drop_pos_zero]; exact hpc)
      rw [pixelConsts_eq (W := corrected data) m (by omega) fun k hk => corrected_eq (hgood.2 k (by
        rw [List.mem_append, List.mem_range'_1]
        simp only [List.mem_cons, List.not_mem_nil, or_false]
        omega))] at hpc
      have := (onlyIf_ok hpc).2
      have hr := Res.ok.inj hr
      rw [this] at hr
      simp only at hr
      rw [Prod.mk.injEq] at hr
      exact ⟨(onlyIf_ok hpc).1, hr.1.symm, hr.2.symm⟩
    | err e => rw [hpc] at hr; cases hr
    | panic => rw [hpc] at hr; cases hr
  have hshared : ∀ a ∈ Ee641.sharedAddresses, bad (eepromWord data a) = false := by
    intro a ha
    have hgood := ((Scan.consts (F := F) (m := m) (data := data) hQ).faithful (hp _ (by omega))).good hr
    rw [← hsh] at hgood
    exact hgood _ (List.mem_map.2 ⟨a, ha, rfl⟩)
  obtain ⟨hexp, rfl, rfl⟩ := hconsts
  have hrefs : (references641 (F := F) (corrected data)).length = 192 := references641_length
  by_cases h1280 : data.length < 1280
  · have hn : pixelCount data = 0 := by unfold pixelCount; omega
    rw [hn, List.range_zero, List.flatMap_nil, List.map_nil]
    left
    unfold lengthOutcome
    rw [if_pos h1280]
    have hl : ¬ (Mlx90641.offOffsets1 * 2 ≤ data.length) := by
      show ¬ (640 * 2 ≤ _); omega
    unfold Mlx90641.slice
    rw [if_neg hl]
    have : ∀ (P : Prop) [Decidable P] (x : List Byte) (g : List Byte → Res LibErr (List (Mlx90641.PixelOut F))),
        (∀ y, g y = .panic) → ((if P then (.ok x : Res LibErr _) else .panic) >>= g) = .panic := by
      intro P _ x g hg
      split
      · exact hg x
      · rfl
    apply this; intro _
    apply this; intro _
    rfl
  · have e64 : Mlx90641.offOffsets0 * 2 = pos 64 := by unfold pos; rfl
    have e256 : Mlx90641.offSensitivity * 2 = pos 256 := by unfold pos; rfl
    have e448 : Mlx90641.offConstants * 2 = pos 448 := by unfold pos; rfl
    have e640 : Mlx90641.offOffsets1 * 2 = pos 640 := by unfold pos; rfl
    have e192 : Mlx90641.numPixels = 192 := rfl
    unfold Mlx90641.slice
    rw [e64, e256, e448, e640, if_pos (hp _ (by omega)), if_pos (hp _ (by omega)), if_pos (hp _ (by omega)),
      if_pos (hp _ (by omega)), Res.ok_bind, Res.ok_bind, Res.ok_bind, Res.ok_bind, e192,
      items_eq _ hrefs (by omega), pixel_words (references641 (F := F) (corrected data))]
    have hloop := pixelLoop_faithful (m := m) (Q := Q) (consts641 (F := F) (corrected data))
      (item641 data (references641 (corrected data))) (List.range (pixelCount data)) (by
        intro L1 i L2 hL hg hp
        obtain ⟨hi, h1⟩ := range_split hL
        have hg' : ∀ j ≤ i, ∀ a ∈ Ee641.pixelAddresses j, bad (eepromWord data a) = false := by
          intro j hj a ha
          have hw := hg j (by
            rcases Nat.lt_or_ge j i with h2 | h2
            · exact List.mem_append_left _ (h1 j h2)
            · rw [show j = i by omega]; exact List.mem_append_right _ (List.mem_singleton_self _))
          exact hw _ (item_words ha)
        by_contra hQn
        refine absurd hp ?_
        have hlt : i < 192 := Nat.lt_of_lt_of_le hi (Nat.min_le_left _ _)
        rw [pixelStep641_eq (W := corrected data) m i hlt hexp (fun a _ => corrected_lt a) (fun k hk => corrected_eq (by
          have := hg' i (Nat.le_refl _) _ hk
          rwa [eepromWord_eq] at this)), onlyIf_pos]
        · exact nofun
        · by_contra hc
          rw [not_or] at hc
          refine hQn (hQ' i hi hshared hg' ?_ hc.2)
          cases m with
          | wrapping => exact absurd rfl hc.1
          | checked => rfl)
    have := Faithful.then (vs := []) hloop (last := lengthOutcome data.length)
      (f := fun outs => if outs.length = 192 then .ok outs
        else .err (.other "the ArrayVec should be filled with EEPROM data")) fun outs houts => ?_
    · rwa [List.append_nil] at this
    · left
      have hlen := pixelLoop_length (consts641 (F := F) (corrected data)) _ outs houts
      rw [List.length_map, List.length_range] at hlen
      unfold lengthOutcome
      rw [if_neg h1280]
      by_cases h1664 : data.length < 1664
      · rw [if_pos h1664]
        rw [if_neg]
        rw [hlen]; unfold pixelCount; omega
      · rw [if_neg h1664]
        rw [if_pos]
        · exact ⟨outs, rfl⟩
        · rw [hlen]; unfold pixelCount; omega

theorem fromData_outcome
    (hQ : 128 ≤ data.length → (∀ a ∈ Ee641.scalarAddresses ++ [0x2410], bad (eepromWord data a) = false) → m = .checked →
      ¬ Ee641.offsetExp (corrected data) ≤ 14 → Q)
    (hQ' : ∀ i < pixelCount data, (∀ a ∈ Ee641.readAddresses (i + 1), bad (eepromWord data a) = false) → m = .checked →
      ¬ Pixel641Fits (corrected data) i → Q) :
    Outcome Q ((Ee641.examined data.length).map (eepromWord data)) (Mlx90641.fromData (F := F) m data)
      (lengthOutcome data.length) := by
  unfold Mlx90641.fromData Ee641.examined
  rw [run_eq]
  by_cases h : data.length < 128
  · rw [if_pos h]
    have hout := (Scan.scalars (F := F) (m := m) (data := data) (Q := Q)).out
    rw [drop_pos_zero] at hout
    have hw : within data (List.range' 34 30) = (List.range' 0x2422 (data.length / 2 - 34)).map (eepromWord data) := by
      have h1 : List.range' 0x2422 (data.length / 2 - 34) = (List.range' 34 (data.length / 2 - 34)).map (0x2400 + ·) := by
        rw [List.map_add_range']
      rw [h1, ew_shift]
      unfold within
      congr 1
      have h2 : List.range' 34 30 = List.range' 34 (data.length / 2 - 34) ++
          List.range' (34 + (data.length / 2 - 34)) (30 - (data.length / 2 - 34)) := by
        rw [List.range'_append_1]
        congr 1
        omega
      rw [h2, List.filter_append, List.filter_eq_self.2, List.filter_eq_nil_iff.2, List.append_nil]
      · intro k hk
        have hk := List.mem_range'_1.1 hk
        simp only [decide_eq_true_eq]
        unfold pos; omega
      · intro k hk
        have hk := List.mem_range'_1.1 hk
        simp only [decide_eq_true_eq]
        unfold pos; omega
    rw [hw] at hout
    unfold Outcome
    have hlo : lengthOutcome (α := Mlx90641.Calibration F) data.length .panic := by
      unfold lengthOutcome; rw [if_pos (by omega)]
    have h64 : ¬ pos 64 ≤ data.length := by unfold pos; omega
    cases hf : ((List.range' 0x2422 (data.length / 2 - 34)).map (eepromWord data)).find? bad with
    | some w =>
      rw [hf] at hout
      rcases hout with h' | ⟨h1, h'⟩
      · left; rw [h']; rfl
      · right; rw [h']; exact ⟨h1, rfl⟩
    | none =>
      rw [hf] at hout
      left
      rcases hout with ⟨h1, _⟩ | ⟨_, h'⟩ | ⟨_, h'⟩
      · exact absurd h1 h64
      · rw [h']; exact hlo
      · rw [h']; exact hlo
  · rw [if_neg h]
    unfold Ee641.readAddresses
    rw [List.append_assoc, List.map_append, scalars_words]
    refine ((Scan.scalars (F := F) (m := m) (data := data) (Q := Q)).faithful (by unfold pos; omega)).then fun c hc => ?_
    have hsc : ∀ a ∈ Ee641.scalarAddresses, bad (eepromWord data a) = false := by
      intro a ha
      have hgood := ((Scan.scalars (F := F) (m := m) (data := data) (Q := Q)).faithful (by unfold pos; omega)).good hc
      rw [← scalars_words] at hgood
      exact hgood _ (List.mem_map.2 ⟨a, ha, rfl⟩)
    have hpp := perPixel_outcome (F := F) (m := m) (data := data) (Q := Q) (by omega)
      (fun hg => hQ (by omega) fun a ha => by
        rcases List.mem_append.1 ha with ha | ha
        · exact hsc a ha
        · rw [List.mem_singleton.1 ha, show 0x2410 = 0x2400 + 16 from rfl, eepromWord_eq]; exact hg)
      (fun i hi hsh hpx => hQ' i hi fun a ha => by
        unfold Ee641.readAddresses at ha
        rcases List.mem_append.1 ha with ha | ha
        · rcases List.mem_append.1 ha with ha | ha
          · exact hsc a ha
          · exact hsh a ha
        · obtain ⟨j, hj, ha⟩ := List.mem_flatMap.1 ha
          exact hpx j (by have := List.mem_range.1 hj; omega) a ha)
    unfold pixelCount at hpp
    unfold Outcome at *
    generalize ((Ee641.sharedAddresses ++ (List.range (min 192 ((data.length - 1280) / 2))).flatMap
      Ee641.pixelAddresses).map (eepromWord data)).find? bad = o at hpp ⊢
    cases o with
    | some w =>
      rcases hpp with h' | ⟨h1, h'⟩
      · left; rw [h']; rfl
      · right; rw [h']; exact ⟨h1, rfl⟩
    | none =>
      rcases hpp with h' | ⟨h1, h'⟩
      · left
        unfold lengthOutcome at *
        by_cases h1280 : data.length < 1280
        · rw [if_pos h1280] at h' ⊢; rw [h']; rfl
        · rw [if_neg h1280] at h' ⊢
          by_cases h1664 : data.length < 1664
          · rw [if_pos h1664] at h' ⊢; rw [h']; rfl
          · rw [if_neg h1664] at h' ⊢
            obtain ⟨k, h'⟩ := h'
            rw [h']; exact ⟨_, rfl⟩
      · right; rw [h']; exact ⟨h1, rfl⟩

theorem find_first {L : List Nat} {a : Nat} (h : Ee641.FirstUncorrectable data L a) :
    (L.map (eepromWord data)).find? bad = some (eepromWord data a) := by
  obtain ⟨before, after, rfl, ha, hb⟩ := h
  rw [List.map_append, List.map_cons, List.find?_append, List.find?_eq_none.2, Option.none_or,
    List.find?_cons_of_pos ((bad_iff _).2 ha)]
  intro w hw
  obtain ⟨b, hb', rfl⟩ := List.mem_map.1 hw
  rw [bad_iff]
  exact hb b hb'

theorem find_none {L : List Nat} (h : ∀ a ∈ L, ¬ Ee641.Uncorrectable (eepromWord data a)) :
    (L.map (eepromWord data)).find? bad = none := by
  rw [List.find?_eq_none]
  intro w hw
  obtain ⟨b, hb', rfl⟩ := List.mem_map.1 hw
  rw [bad_iff]
  exact h b hb'

theorem find_first_of_mem {L : List Nat} {a : Nat} (ha : a ∈ L) (h : Ee641.Uncorrectable (eepromWord data a)) :
    ∃ b, Ee641.FirstUncorrectable data L b := by
  induction L with
  | nil => simp at ha
  | cons x L ih =>
    by_cases hx : Ee641.Uncorrectable (eepromWord data x)
    · exact ⟨x, [], L, rfl, hx, fun b hb => by simp at hb⟩
    · rcases List.mem_cons.1 ha with rfl | ha
      · exact absurd h hx
      · obtain ⟨b, before, after, h1, h2, h3⟩ := ih ha
        refine ⟨b, x :: before, after, by rw [h1]; rfl, h2, fun c hc => ?_⟩
        rcases List.mem_cons.1 hc with rfl | hc
        · exact hx
        · exact h3 c hc

/-! ### Overflows -/

theorem pixelConsts_panic (h : 68 ≤ data.length) (hg : bad (ew data 16) = false)
    (he : ¬ Ee641.offsetExp (corrected data) ≤ 14) : Mlx90641.pixelConsts (F := F) .checked data = .panic := by
  have hp : ∀ k, k ≤ 34 → pos k ≤ data.length := by
    intro k hk; have := pos_add 0 k; have h0 : pos 0 = 0 := by unfold pos; rfl
    rw [Nat.zero_add] at this; omega
  have hS : Mlx90641.get65Split (data.drop (pos 16)) =
      .ok (Mlx90641.split65 (corrected data (0x2400 + 16)), data.drop (pos (16 + 1))) := by
    unfold Mlx90641.get65Split
    rw [Parser.bind_apply, hamU16_at 16 (hp _ (by decide)), corrected_eq hg, Res.ok_bind, Res.ok_bind, Parser.pure_apply]
  have h16 : Mlx90641.offOffsetScale * 2 = pos 16 := by unfold pos; rfl
  unfold Mlx90641.pixelConsts
  rw [Parser.bind_apply, h16, advance_zero _ (hp _ (by decide)), Res.ok_bind, Parser.bind_apply]
  simp only
  rw [hS, Res.ok_bind, Parser.bind_apply]
  simp only [Nat.reduceAdd, split65_fst]
  unfold Mlx90641.pow2i16
  rw [arith16_eq, onlyIf_neg]
  · rfl
  · rintro (hc | hc)
    · cases hc
    · exact he ((fits_pow _).1 hc)

theorem scalars_ok (h : 128 ≤ data.length) (hg : ∀ a ∈ Ee641.scalarAddresses, bad (eepromWord data a) = false) (m : Mode) :
    Mlx90641.parseScalars (F := F) m data = .ok (decode641With (corrected data) [], data.drop (pos 64)) :=
  parseScalars_eq m h (fun k h1 h2 => corrected_eq (by
    have := hg (0x2400 + k) (by unfold Ee641.scalarAddresses; rw [List.mem_range'_1]; omega)
    rwa [eepromWord_eq] at this)) (fun k _ _ => corrected_lt _)

/-- A checked build panics when the offset scale does not fit. -/
theorem fromData_overflow_scale (h : 128 ≤ data.length)
    (hg : ∀ a ∈ Ee641.scalarAddresses ++ [0x2410], bad (eepromWord data a) = false)
    (he : ¬ Ee641.offsetExp (corrected data) ≤ 14) : Mlx90641.fromData (F := F) .checked data = .panic := by
  unfold Mlx90641.fromData
  rw [run_eq, scalars_ok h (fun a ha => hg a (List.mem_append_left _ ha)), Res.ok_bind, Res.ok_bind]
  unfold Mlx90641.perPixel
  rw [run_eq, pixelConsts_panic (by omega) (by
    have := hg 0x2410 (List.mem_append_right _ (List.mem_singleton_self _))
    rwa [show 0x2410 = 0x2400 + 16 from rfl, eepromWord_eq] at this) he]
  rfl

theorem pixelLoop_panic (c : Mlx90641.PixelConsts F) (item : Nat → (((Word × Word) × Word) × Word) × F) (L1 L2 : List Nat) (i : Nat)
    (h1 : ∀ j ∈ L1, ∀ e, Mlx90641.pixelStep m c (item j) ≠ .err e) (hi : Mlx90641.pixelStep m c (item i) = .panic) :
    Mlx90641.pixelLoop m c ((L1 ++ i :: L2).map item) = .panic := by
  induction L1 with
  | nil =>
    rw [List.nil_append, List.map_cons]
    unfold Mlx90641.pixelLoop
    rw [hi]
    rfl
  | cons j L1 ih =>
    rw [List.cons_append, List.map_cons]
    unfold Mlx90641.pixelLoop
    rw [ih fun k hk => h1 k (List.mem_cons_of_mem _ hk)]
    cases hj : Mlx90641.pixelStep m c (item j) with
    | ok o => rfl
    | err e => exact absurd hj (h1 j (List.mem_cons_self ..) e)
    | panic => rfl

/-- A checked build panics when the offsets of a pixel do not fit. -/
theorem fromData_overflow_pixel {i : Nat} (hi : i < pixelCount data)
    (hg : ∀ a ∈ Ee641.readAddresses (i + 1), bad (eepromWord data a) = false)
    (hf : ¬ Pixel641Fits (corrected data) i) : Mlx90641.fromData (F := F) .checked data = .panic := by
  have h1280 : 1280 ≤ data.length := by unfold pixelCount at hi; omega
  have hsc : ∀ a ∈ Ee641.scalarAddresses, bad (eepromWord data a) = false := fun a ha =>
    hg a (by unfold Ee641.readAddresses; exact List.mem_append_left _ (List.mem_append_left _ ha))
  have hk : ∀ k, 0x2400 + k ∈ Ee641.readAddresses (i + 1) →
      Hamming.validateChecksum (ew data k) = .ok (corrected data (0x2400 + k)) := fun k hk => corrected_eq (by
    have := hg _ hk
    rwa [eepromWord_eq] at this)
  by_cases he : Ee641.offsetExp (corrected data) ≤ 14
  · have hp : ∀ k, k ≤ 640 → pos k ≤ data.length := by
      intro k hk; have := pos_add 0 k; have h0 : pos 0 = 0 := by unfold pos; rfl
      rw [Nat.zero_add] at this; omega
    unfold Mlx90641.fromData
    rw [run_eq, scalars_ok (by omega) hsc, Res.ok_bind, Res.ok_bind]
    unfold Mlx90641.perPixel
    rw [run_eq, pixelConsts_eq (W := corrected data) .checked (by omega) fun k h => hk k (mem_shared h), onlyIf_pos (Or.inr he)]
    have e64 : Mlx90641.offOffsets0 * 2 = pos 64 := by unfold pos; rfl
    have e256 : Mlx90641.offSensitivity * 2 = pos 256 := by unfold pos; rfl
    have e448 : Mlx90641.offConstants * 2 = pos 448 := by unfold pos; rfl
    have e640 : Mlx90641.offOffsets1 * 2 = pos 640 := by unfold pos; rfl
    have e192 : Mlx90641.numPixels = 192 := rfl
    simp only [Res.ok_bind]
    unfold Mlx90641.slice
    rw [e64, e256, e448, e640, if_pos (hp _ (by omega)), if_pos (hp _ (by omega)), if_pos (hp _ (by omega)),
      if_pos (hp _ (by omega)), Res.ok_bind, Res.ok_bind, Res.ok_bind, Res.ok_bind, e192,
      items_eq _ references641_length h1280]
    have hstep : ∀ j ≤ i, Mlx90641.pixelStep .checked (consts641 (F := F) (corrected data))
        (item641 data (references641 (corrected data)) j) =
          onlyIf (Mode.checked = .wrapping ∨ Pixel641Fits (corrected data) j) (pixel641 (corrected data) j) := by
      intro j hj
      refine pixelStep641_eq .checked j (by unfold pixelCount at hi; omega) (Or.inr he) (fun a _ => corrected_lt a) fun k h => hk k ?_
      exact mem_pixels (by omega) h
    have hsplit : List.range (pixelCount data) =
        List.range i ++ i :: (List.range' (i + 1) (pixelCount data - (i + 1))) := by
      have h1 : List.range' 0 i ++ List.range' (0 + i) (pixelCount data - i) = List.range' 0 (i + (pixelCount data - i)) :=
        List.range'_append_1
      have h2 : i + (pixelCount data - i) = pixelCount data := by omega
      have h3 : pixelCount data - i = (pixelCount data - (i + 1)) + 1 := by omega
      rw [h2, Nat.zero_add, h3, List.range'_succ] at h1
      rw [List.range_eq_range', List.range_eq_range', h1]
    rw [hsplit, pixelLoop_panic]
    · rfl
    · intro j hj e
      rw [hstep j (by have := List.mem_range.1 hj; omega)]
      unfold onlyIf
      split <;> exact nofun
    · rw [hstep i (Nat.le_refl _), onlyIf_neg]
      rintro (hc | hc)
      · cases hc
      · exact hf hc
  · refine fromData_overflow_scale (by omega) (fun a ha => ?_) he
    rcases List.mem_append.1 ha with ha | ha
    · exact hsc a ha
    · rw [List.mem_singleton.1 ha]
      exact hg _ (mem_shared (k := 16) (Or.inl (by omega)))

end Mlx.Proofs
