import Verif.Proofs.Eeprom641
/-
The per-pixel part of `Mlx90641Calibration::from_data`.
-/
set_option linter.unusedSectionVars false
set_option autoImplicit false
namespace Mlx.Proofs
open Mlx Mlx.Spec F32Ops
variable {F : Type} [F32Ops F] {data : List Byte} {W : Nat → Word}

theorem run_eq {ε α : Type} (p : Parser ε α) (s : List Byte) :
    Mlx90641.runParser p s = (p s >>= fun x => Res.ok x.1) := by
  unfold Mlx90641.runParser
  cases p s <;> rfl

theorem advance_from (A n k : Nat) (hk : k = 2 * n) (h : pos (A + n) ≤ data.length) :
    advance (ε := LibErr) k (data.drop (pos A)) = .ok ((), data.drop (pos (A + n))) := by
  rw [pos_add] at h ⊢
  unfold advance
  rw [if_pos (by rw [List.length_drop]; omega), List.drop_drop, hk]

theorem fits_pow (n : Nat) : Fits16 (2 ^ n) ↔ n ≤ 14 := by
  unfold Fits16
  constructor
  · rintro ⟨_, h⟩
    by_contra hn
    have : (2 : Int) ^ 15 ≤ 2 ^ n := by exact_mod_cast Nat.pow_le_pow_right (by decide) (by omega)
    omega
  · intro h
    have : (2 : Int) ^ n ≤ 2 ^ 14 := by exact_mod_cast Nat.pow_le_pow_right (by decide) h
    have h0 : (0 : Int) ≤ 2 ^ n := by positivity
    omega

/-- The pixel reference sensitivities. -/
def references641 (W : Nat → Word) : List F :=
  [reference641 W 0, reference641 W 1, reference641 W 2, reference641 W 3, reference641 W 4,
    reference641 W 5].flatMap fun v => List.replicate 32 v

theorem references641_get (i : Nat) (hi : i < 192) :
    (references641 (F := F) W)[i]? = some (reference641 W (Ee641.rowPair i)) := by
  have key : ([0, 1, 2, 3, 4, 5].flatMap fun r => List.replicate 32 r) = (List.range 192).map fun i => i / 32 := by
    decide +kernel
  have : references641 (F := F) W = ((List.range 192).map fun i => i / 32).map (reference641 W) := by
    rw [← key, List.map_flatMap]
    unfold references641
    simp only [List.map_replicate, List.flatMap_cons, List.flatMap_nil]
  rw [this, List.getElem?_map, List.getElem?_map, List.getElem?_range hi]; rfl

theorem references641_length : (references641 (F := F) W).length = 192 := by
  unfold references641
  simp only [List.flatMap_cons, List.flatMap_nil, List.length_append, List.length_replicate, List.length_nil]

theorem pixelConsts_eq (m : Mode) (h : 68 ≤ data.length)
    (hv : ∀ k, (16 ≤ k ∧ k < 19) ∨ (21 ≤ k ∧ k < 34) →
      Hamming.validateChecksum (ew data k) = .ok (W (0x2400 + k))) :
    Mlx90641.pixelConsts (F := F) m data =
      onlyIf (m = .wrapping ∨ Ee641.offsetExp W ≤ 14) ((consts641 W, references641 W), data.drop (pos 34)) := by
  have hp : ∀ k, k ≤ 34 → pos k ≤ data.length := by
    intro k hk; have := pos_add 0 k; have h0 : pos 0 = 0 := by unfold pos; rfl
    rw [Nat.zero_add] at this; omega
  have hU : ∀ k, (16 ≤ k ∧ k < 19) ∨ (21 ≤ k ∧ k < 34) → Mlx90641.getHammingU16 (data.drop (pos k)) =
      .ok (W (0x2400 + k), data.drop (pos (k + 1))) := by
    intro k h1
    rw [hamU16_at k (hp _ (by omega)), hv k h1]; rfl
  have hI : ∀ k, (16 ≤ k ∧ k < 19) ∨ (21 ≤ k ∧ k < 34) → Mlx90641.getHammingI16 m (data.drop (pos k)) =
      .ok (signedAt (W (0x2400 + k)) 0 11, data.drop (pos (k + 1))) := by
    intro k h1
    unfold Mlx90641.getHammingI16
    rw [Parser.bind_apply, hU k h1, Res.ok_bind]
    simp only
    rw [i16FromBits_word m _ 11 (by decide) (by decide), lift_ok]
  have hS : ∀ k, (16 ≤ k ∧ k < 19) ∨ (21 ≤ k ∧ k < 34) → Mlx90641.get65Split (data.drop (pos k)) =
      .ok (Mlx90641.split65 (W (0x2400 + k)), data.drop (pos (k + 1))) := by
    intro k h1
    unfold Mlx90641.get65Split
    rw [Parser.bind_apply, hU k h1, Res.ok_bind, Parser.pure_apply]
  have hC : Mlx90641.getCombinedWord (data.drop (pos 17)) =
      .ok (Ee641.combined W 0x2411, data.drop (pos 19)) := by
    unfold Mlx90641.getCombinedWord
    rw [Parser.bind_apply, hU 17 (by decide), Res.ok_bind, Parser.bind_apply]
    simp only
    rw [hU 18 (by decide), Res.ok_bind, Parser.pure_apply]
    rfl
  have hR : Mlx90641.sensitivityReference (F := F) (data.drop (pos 25)) =
      .ok (references641 W, data.drop (pos 34)) := by
    unfold Mlx90641.sensitivityReference
    rw [Parser.bind_apply, hS 25 (by decide), Res.ok_bind, Parser.bind_apply]
    simp only [Nat.reduceAdd]
    rw [hS 26 (by decide), Res.ok_bind, Parser.bind_apply]
    simp only [Nat.reduceAdd]
    rw [hS 27 (by decide), Res.ok_bind, Parser.bind_apply]
    simp only [Nat.reduceAdd]
    rw [hU 28 (by decide), Res.ok_bind, Parser.bind_apply]
    simp only [Nat.reduceAdd]
    rw [hU 29 (by decide), Res.ok_bind, Parser.bind_apply]
    simp only [Nat.reduceAdd]
    rw [hU 30 (by decide), Res.ok_bind, Parser.bind_apply]
    simp only [Nat.reduceAdd]
    rw [hU 31 (by decide), Res.ok_bind, Parser.bind_apply]
    simp only [Nat.reduceAdd]
    rw [hU 32 (by decide), Res.ok_bind, Parser.bind_apply]
    simp only [Nat.reduceAdd]
    rw [hU 33 (by decide), Res.ok_bind, Parser.pure_apply]
    simp only [Nat.reduceAdd, split65_fst, split65_snd]
    rfl
  have h16 : Mlx90641.offOffsetScale * 2 = pos 16 := by unfold pos; rfl
  unfold Mlx90641.pixelConsts
  rw [Parser.bind_apply, h16, advance_zero _ (hp _ (by decide)), Res.ok_bind, Parser.bind_apply]
  simp only
  rw [hS 16 (by decide), Res.ok_bind, Parser.bind_apply]
  simp only [Nat.reduceAdd, split65_fst]
  unfold Mlx90641.pow2i16
  rw [arith16_eq, lift_onlyIf]
  refine (onlyIf_bind (Q := True) (b := ((consts641 W, references641 W), data.drop (pos 34))) fun _ => ?_).trans
    (onlyIf_congr ?_ fun _ => rfl)
  · simp only
    rw [Parser.bind_apply, hC, Res.ok_bind, Parser.bind_apply]
    simp only
    rw [i16FromBits_word m _ 11 (by decide) (by decide), lift_ok, Res.ok_bind, Parser.bind_apply]
    simp only
    rw [advance_from 19 2 _ rfl (hp _ (by decide)), Res.ok_bind, Parser.bind_apply]
    simp only [Nat.reduceAdd]
    rw [hI 21 (by decide), Res.ok_bind, Parser.bind_apply]
    simp only [Nat.reduceAdd]
    rw [hS 22 (by decide), Res.ok_bind, Parser.bind_apply]
    simp only [Nat.reduceAdd]
    rw [hI 23 (by decide), Res.ok_bind, Parser.bind_apply]
    simp only [Nat.reduceAdd]
    rw [hS 24 (by decide), Res.ok_bind, Parser.bind_apply]
    simp only [Nat.reduceAdd]
    rw [hR, Res.ok_bind, Parser.pure_apply, onlyIf_pos trivial]
    simp only [split65_fst, split65_snd]
    rfl
  · rw [and_true, fits_pow]; rfl

/-! ### The loop over pixels -/

theorem words_get (A n : Nat) (h : pos (A + n) ≤ data.length) (k : Nat) (hk : k < n) :
    (Mlx90641.words ((data.drop (pos A))))[k]? = some (ew data (A + k)) := by
  induction k generalizing A n with
  | zero =>
    have h0 := pos_add A n
    rw [drop_cons _ (by omega), drop_cons _ (by omega), ew_pos]
    simp only [Nat.add_zero, Mlx90641.words, List.getElem?_cons_zero]
  | succ k ih =>
    have h0 := pos_add A n
    rw [drop_cons _ (by omega), drop_cons _ (by omega)]
    show (Mlx90641.words (data.drop (pos A + 1 + 1)))[k]? = _
    rw [show pos A + 1 + 1 = pos (A + 1) from pos_succ A, ih (A + 1) (n - 1) (by rw [show A + 1 + (n - 1) = A + n by omega]; exact h) (by omega),
      show A + 1 + k = A + (k + 1) by omega]

theorem words_length (s : List Byte) : (Mlx90641.words s).length = s.length / 2 := by
  fun_induction Mlx90641.words s with
  | case1 a b rest ih => simp only [List.length_cons, ih]; omega
  | case2 s h =>
    match s, h with
    | [], _ => rfl
    | [_], _ => simp
    | a :: b :: r, h => exact absurd rfl (h a b r)


theorem ew_take (B k : Nat) (hk : k < B) : ew (data.take (pos B)) k = ew data k := by
  have h := pos_add k (B - k)
  rw [show k + (B - k) = B by omega] at h
  have hk2 : pos k = 2 * k := by unfold pos; rfl
  rw [ew_pos, ew_pos, List.getD_eq_getElem?_getD, List.getD_eq_getElem?_getD, List.getD_eq_getElem?_getD,
    List.getD_eq_getElem?_getD, List.getElem?_take_of_lt (by omega), List.getElem?_take_of_lt (by omega)]

theorem words_slice (A B : Nat) (hAB : A ≤ B) (h : pos B ≤ data.length) :
    Mlx90641.words ((data.take (pos B)).drop (pos A)) = (List.range (B - A)).map fun k => ew data (A + k) := by
  have hp := pos_add A (B - A)
  rw [show A + (B - A) = B by omega] at hp
  apply List.ext_getElem?
  intro k
  by_cases hk : k < B - A
  · rw [words_get A (B - A) (by rw [show A + (B - A) = B by omega, List.length_take]; omega) k hk,
      ew_take B (A + k) (by omega), List.getElem?_map, List.getElem?_range hk]; rfl
  · rw [List.getElem?_eq_none, List.getElem?_eq_none]
    · rw [List.length_map, List.length_range]; omega
    · rw [words_length, List.length_drop, List.length_take]; omega

theorem words_rest (A n : Nat) (hn : n = (data.length - pos A) / 2) (h : pos A ≤ data.length) :
    Mlx90641.words (data.drop (pos A)) = (List.range n).map fun k => ew data (A + k) := by
  have hp := pos_add A n
  apply List.ext_getElem?
  intro k
  by_cases hk : k < n
  · rw [words_get A n (by omega) k hk, List.getElem?_map, List.getElem?_range hk]; rfl
  · rw [List.getElem?_eq_none, List.getElem?_eq_none]
    · rw [List.length_map, List.length_range]; omega
    · rw [words_length, List.length_drop]; omega

/-- The words of pixel `i` and its reference sensitivity. -/
def item641 (data : List Byte) (refs : List F) (i : Nat) : (((Word × Word) × Word) × Word) × F :=
  ((((ew data (64 + i), ew data (640 + i)), ew data (256 + i)), ew data (448 + i)), refs.getD i (lit 0))

/-- How many pixels a dump of this length describes. -/
def pixelCount (data : List Byte) : Nat := min 192 ((data.length - 1280) / 2)

theorem zip_range {α β : Type} (n k : Nat) (f : Nat → α) (g : Nat → β) :
    ((List.range n).map f).zip ((List.range k).map g) = (List.range (min n k)).map fun i => (f i, g i) := by
  apply List.ext_getElem
  · simp only [List.length_zip, List.length_map, List.length_range]
  · intro i h1 h2
    simp only [List.getElem_zip, List.getElem_map, List.getElem_range]

theorem refs_range (refs : List F) : refs = (List.range refs.length).map fun i => refs.getD i (lit 0) := by
  apply List.ext_getElem
  · simp only [List.length_map, List.length_range]
  · intro i h1 h2
    simp only [List.getElem_map, List.getElem_range, List.getD_eq_getElem?_getD, List.getElem?_eq_getElem h1,
      Option.getD_some]

theorem items_eq (refs : List F) (hr : refs.length = 192) (h : 1280 ≤ data.length) :
    ((((((Mlx90641.words ((data.take (pos 256)).drop (pos 64))).zip
        (Mlx90641.words (data.drop (pos 640)))).zip
        (Mlx90641.words ((data.take (pos 448)).drop (pos 256)))).zip
        (Mlx90641.words ((data.take (pos 640)).drop (pos 448)))).zip refs).take 192) =
      (List.range (pixelCount data)).map (item641 data refs) := by
  have hp : ∀ k, k ≤ 640 → pos k ≤ data.length := by
    intro k hk; have := pos_add 0 k; have h0 : pos 0 = 0 := by unfold pos; rfl
    rw [Nat.zero_add] at this; omega
  have h640 : pos 640 = 1280 := by unfold pos; rfl
  rw [words_slice 64 256 (by decide) (hp _ (by decide)), words_slice 256 448 (by decide) (hp _ (by decide)),
    words_slice 448 640 (by decide) (hp _ (by decide)), words_rest 640 _ rfl (hp _ (by decide)),
    show item641 data refs = fun i => ((((ew data (64 + i), ew data (640 + i)), ew data (256 + i)),
      ew data (448 + i)), refs.getD i (lit 0)) from rfl]
  generalize hg : (fun i => refs.getD i (lit 0)) = g
  have hrefs : refs = (List.range 192).map g := by rw [← hg, ← hr]; exact refs_range refs
  have hgi : ∀ i, refs.getD i (lit 0) = g i := fun i => congrFun hg i
  simp only [hgi]
  rw [hrefs, zip_range, zip_range, zip_range, zip_range, ← List.map_take, List.take_range, h640]
  unfold pixelCount
  congr 2
  omega

theorem signed11_zero {w : Word} (h : w.toNat < 2048) : signedAt w 0 11 = 0 ↔ w = 0#16 := by
  rw [signedAt_zero, Int.bmod_def]
  constructor
  · intro h'
    apply BitVec.eq_of_toNat_eq
    rw [BitVec.toNat_ofNat]
    split at h' <;> omega
  · rintro rfl
    decide

theorem signed65_zero {w : Word} (h : w.toNat < 2048) : (signedAt w 5 6 = 0 ∧ signedAt w 0 5 = 0) ↔ w = 0#16 := by
  unfold signedAt
  rw [Int.bmod_def, Int.bmod_def]
  constructor
  · rintro ⟨h1, h2⟩
    apply BitVec.eq_of_toNat_eq
    rw [BitVec.toNat_ofNat]
    split at h1 <;> split at h2 <;> omega
  · rintro rfl
    decide

theorem toNat_zero_iff (w : Word) : w.toNat = 0 ↔ w = 0#16 := by
  constructor
  · intro h; apply BitVec.eq_of_toNat_eq; rw [h]; rfl
  · rintro rfl; rfl

/-- What a pixel needs in a checked build. -/
def Pixel641Fits (W : Nat → Word) (i : Nat) : Prop :=
  Ee641.isFailed W i = false → ∀ s,
    Fits16 (Ee641.offsetRaw W s i * 2 ^ Ee641.offsetExp W) ∧
    Fits16 (Ee641.offsetAverage W + Ee641.offsetRaw W s i * 2 ^ Ee641.offsetExp W)

theorem arith16_ok_eq {x y : Int} {m : Mode} (h : m = .wrapping ∨ Fits16 x) (hy : wrap16 x = y) :
    arith16 (ε := LibErr) m x = .ok y := by
  rw [arith16_eq, onlyIf_pos h, hy]

theorem wrap16_mul_wrap16 (x y : Int) : wrap16 (x * wrap16 y) = wrap16 (x * y) := by
  unfold wrap16; exact Int.mul_bmod_bmod

theorem decodePixel_eq (m : Mode) (w0 w1 wa wc d0 d1 a c : Word)
    (h0 : Hamming.validateChecksum w0 = .ok d0) (h1 : Hamming.validateChecksum w1 = .ok d1)
    (h2 : Hamming.validateChecksum wa = .ok a) (h3 : Hamming.validateChecksum wc = .ok c) :
    Mlx90641.decodePixel m w0 w1 wa wc =
      .ok (signedAt d0 0 11, signedAt d1 0 11, a.toNat, signedAt c 5 6, signedAt c 0 5) := by
  unfold Mlx90641.decodePixel
  rw [h0, Res.ok_bind, i16FromBits_word m _ 11 (by decide) (by decide), Res.ok_bind, h1, Res.ok_bind,
    i16FromBits_word m _ 11 (by decide) (by decide), Res.ok_bind, h2, Res.ok_bind, h3, Res.ok_bind,
    split65_kTa, Res.ok_bind, split65_kV, Res.ok_bind]

theorem pixelStep641_eq (m : Mode) (i : Nat) (hi : i < 192) (hm : m = .wrapping ∨ Ee641.offsetExp W ≤ 14)
    (hs : ∀ a ∈ Ee641.pixelAddresses i, (W a).toNat < 2048)
    (hv : ∀ k, 0x2400 + k ∈ Ee641.pixelAddresses i → Hamming.validateChecksum (ew data k) = .ok (W (0x2400 + k))) :
    Mlx90641.pixelStep m (consts641 (F := F) W) (item641 data (references641 W) i) =
      onlyIf (m = .wrapping ∨ Pixel641Fits W i) (pixel641 W i) := by
  have s0 := hs (0x2440 + i) (by simp [Ee641.pixelAddresses])
  have s1 := hs (0x2680 + i) (by simp [Ee641.pixelAddresses])
  have s2 := hs (0x2500 + i) (by simp [Ee641.pixelAddresses])
  have s3 := hs (0x25C0 + i) (by simp [Ee641.pixelAddresses])
  have v0 := hv (64 + i) (by simp [Ee641.pixelAddresses]; omega)
  have v1 := hv (640 + i) (by simp [Ee641.pixelAddresses]; omega)
  have v2 := hv (256 + i) (by simp [Ee641.pixelAddresses]; omega)
  have v3 := hv (448 + i) (by simp [Ee641.pixelAddresses]; omega)
  rw [show 0x2400 + (64 + i) = 0x2440 + i by omega] at v0
  rw [show 0x2400 + (640 + i) = 0x2680 + i by omega] at v1
  rw [show 0x2400 + (256 + i) = 0x2500 + i by omega] at v2
  rw [show 0x2400 + (448 + i) = 0x25C0 + i by omega] at v3
  unfold Mlx90641.pixelStep item641
  simp only
  rw [decodePixel_eq m _ _ _ _ _ _ _ _ v0 v1 v2 v3, Res.ok_bind]
  simp only
  have hf : (signedAt (W (0x2440 + i)) 0 11 = 0 ∧ signedAt (W (0x2680 + i)) 0 11 = 0 ∧ (W (0x2500 + i)).toNat = 0 ∧
      signedAt (W (0x25C0 + i)) 5 6 = 0 ∧ signedAt (W (0x25C0 + i)) 0 5 = 0) ↔ Ee641.isFailed W i = true := by
    rw [signed11_zero s0, signed11_zero s1, toNat_zero_iff, signed65_zero s3]
    unfold Ee641.isFailed Ee641.pixelAddresses
    simp only [List.forall_mem_cons, decide_eq_true_eq, List.not_mem_nil, false_implies, implies_true, and_true]
  unfold pixel641
  by_cases h : Ee641.isFailed W i = true
  · rw [if_pos (hf.2 h), if_pos h, onlyIf_pos]
    right; intro h'; rw [h] at h'; cases h'
  · rw [if_neg (fun h' => h (hf.1 h')), if_neg h]
    have href : (references641 (F := F) W).getD i (lit 0) = reference641 W (Ee641.rowPair i) := by
      rw [List.getD_eq_getElem?_getD, references641_get i hi]; rfl
    rw [href]
    have hE : (consts641 (F := F) W).offsetScale = wrap16 (2 ^ Ee641.offsetExp W) := by
      simp only [consts641]
    have hsc : m = .checked → (consts641 (F := F) W).offsetScale = 2 ^ Ee641.offsetExp W := by
      rintro rfl
      have : Fits16 (2 ^ Ee641.offsetExp W) := (fits_pow _).2 (hm.resolve_left (by decide))
      rw [hE, wrap16, bmod_of_fits this]
    have hA : (consts641 (F := F) W).offsetAverage = Ee641.offsetAverage W := by simp only [consts641]
    by_cases hP : m = .wrapping ∨ Pixel641Fits W i
    · rw [onlyIf_pos hP]
      have f0 : m = .wrapping ∨ Fits16 (Ee641.offsetRaw W .zero i * 2 ^ Ee641.offsetExp W) ∧
          Fits16 (Ee641.offsetAverage W + Ee641.offsetRaw W .zero i * 2 ^ Ee641.offsetExp W) :=
        hP.imp id fun hP => hP (by simpa using h) .zero
      have f1 : m = .wrapping ∨ Fits16 (Ee641.offsetRaw W .one i * 2 ^ Ee641.offsetExp W) ∧
          Fits16 (Ee641.offsetAverage W + Ee641.offsetRaw W .one i * 2 ^ Ee641.offsetExp W) :=
        hP.imp id fun hP => hP (by simpa using h) .one
      have mulOk : ∀ r : Int, (m = .wrapping ∨ Fits16 (r * 2 ^ Ee641.offsetExp W)) →
          arith16 (ε := LibErr) m (r * (consts641 (F := F) W).offsetScale) = .ok (wrap16 (r * 2 ^ Ee641.offsetExp W)) := by
        intro r hr
        apply arith16_ok_eq
        · rcases hr with hr | hr
          · exact Or.inl hr
          · cases m with
            | wrapping => exact Or.inl rfl
            | checked => right; rw [hsc rfl]; exact hr
        · rw [hE, wrap16_mul_wrap16]
      have addOk : ∀ r : Int, (m = .wrapping ∨ Fits16 (r * 2 ^ Ee641.offsetExp W) ∧
          Fits16 (Ee641.offsetAverage W + r * 2 ^ Ee641.offsetExp W)) →
          arith16 (ε := LibErr) m ((consts641 (F := F) W).offsetAverage + wrap16 (r * 2 ^ Ee641.offsetExp W)) =
            .ok (wrap16 (Ee641.offsetAverage W + r * 2 ^ Ee641.offsetExp W)) := by
        intro r hr
        apply arith16_ok_eq
        · rcases hr with hr | ⟨hr, hr2⟩
          · exact Or.inl hr
          · right; rw [hA, wrap16, bmod_of_fits hr]; exact hr2
        · rw [hA, wrap16_add_wrap16']
      have r0 : signedAt (W (0x2440 + i)) 0 11 = Ee641.offsetRaw W .zero i := rfl
      have r1 : signedAt (W (0x2680 + i)) 0 11 = Ee641.offsetRaw W .one i := rfl
      rw [r0, r1, mulOk _ (f0.imp id And.left), Res.ok_bind, mulOk _ (f1.imp id And.left), Res.ok_bind, addOk _ f0, Res.ok_bind,
        addOk _ f1, Res.ok_bind]
      simp only [consts641, Mlx90641.scaleFn, Ee641.alphaRaw, Ee641.kTaRaw, Ee641.kVRaw]
    · rw [onlyIf_neg hP]
      have hmc : m = .checked := by
        cases m with
        | wrapping => exact absurd (Or.inl rfl) hP
        | checked => rfl
      subst hmc
      have hsc' := hsc rfl
      have ar : ∀ x : Int, arith16 (ε := LibErr) .checked x = onlyIf (Fits16 x) x := by
        intro x
        rw [arith16_eq]
        exact onlyIf_congr (by simp) fun hx => bmod_of_fits (hx.resolve_left (by decide))
      rw [hsc', hA, ar, ar]
      by_cases a0 : Fits16 (signedAt (W (0x2440 + i)) 0 11 * 2 ^ Ee641.offsetExp W)
      · rw [onlyIf_pos a0, Res.ok_bind]
        by_cases a1 : Fits16 (signedAt (W (0x2680 + i)) 0 11 * 2 ^ Ee641.offsetExp W)
        · rw [onlyIf_pos a1, Res.ok_bind, ar, ar]
          by_cases b0 : Fits16 (Ee641.offsetAverage W + signedAt (W (0x2440 + i)) 0 11 * 2 ^ Ee641.offsetExp W)
          · rw [onlyIf_pos b0, Res.ok_bind]
            by_cases b1 : Fits16 (Ee641.offsetAverage W + signedAt (W (0x2680 + i)) 0 11 * 2 ^ Ee641.offsetExp W)
            · exfalso
              apply hP
              right
              intro _ s
              cases s
              · exact ⟨a0, b0⟩
              · exact ⟨a1, b1⟩
            · rw [onlyIf_neg b1]; rfl
          · rw [onlyIf_neg b0]; rfl
        · rw [onlyIf_neg a1]; rfl
      · rw [onlyIf_neg a0]; rfl

theorem pixelLoop641_eq (m : Mode) (c : Mlx90641.PixelConsts F) (item : Nat → (((Word × Word) × Word) × Word) × F)
    (P : Nat → Prop) (v : Nat → Mlx90641.PixelOut F) (L : List Nat)
    (h : ∀ i ∈ L, Mlx90641.pixelStep m c (item i) = onlyIf (P i) (v i)) :
    Mlx90641.pixelLoop m c (L.map item) = onlyIf (∀ i ∈ L, P i) (L.map v) := by
  induction L with
  | nil =>
    rw [onlyIf_pos (by intro i hi; simp at hi)]; rfl
  | cons i L ih =>
    rw [List.map_cons, List.map_cons]
    unfold Mlx90641.pixelLoop
    rw [h i (by simp), ih fun j hj => h j (by simp [hj])]
    have := onlyIf_bind (ε := LibErr) (P := P i) (a := v i) (Q := ∀ j ∈ L, P j) (b := v i :: L.map v)
      (f := fun o => (onlyIf (∀ j ∈ L, P j) (L.map v) : Res LibErr _) >>= fun os => .ok (o :: os))
      (fun _ => onlyIf_map (List.cons (v i)))
    rw [this]
    exact onlyIf_congr (by simp) fun _ => rfl

/-- All words of a dump, as they are after correction. -/
structure Decoded (data : List Byte) (W : Nat → Word) (n : Nat) : Prop where
  small : ∀ a ∈ Ee641.readAddresses n, (W a).toNat < 2048
  valid : ∀ k, 0x2400 + k ∈ Ee641.readAddresses n → Hamming.validateChecksum (ew data k) = .ok (W (0x2400 + k))

theorem mem_scalars {k n : Nat} (h1 : 34 ≤ k) (h2 : k < 64) : 0x2400 + k ∈ Ee641.readAddresses n := by
  unfold Ee641.readAddresses Ee641.scalarAddresses
  rw [List.mem_append, List.mem_append]
  left; left
  rw [List.mem_range'_1]; omega

theorem mem_shared {k n : Nat} (h : (16 ≤ k ∧ k < 19) ∨ (21 ≤ k ∧ k < 34)) : 0x2400 + k ∈ Ee641.readAddresses n := by
  unfold Ee641.readAddresses Ee641.sharedAddresses
  rw [List.mem_append, List.mem_append]
  left; right
  rw [List.mem_append, List.mem_range'_1]
  rcases h with h | h
  · left
    simp only [List.mem_cons, List.not_mem_nil, or_false]; omega
  · right; omega

theorem mem_pixels {a i n : Nat} (hi : i < n) (h : a ∈ Ee641.pixelAddresses i) : a ∈ Ee641.readAddresses n := by
  unfold Ee641.readAddresses
  rw [List.mem_append]
  right
  rw [List.mem_flatMap]
  exact ⟨i, List.mem_range.2 hi, h⟩

theorem perPixel_eq (m : Mode) (h : 1280 ≤ data.length) (hd : Decoded data W (pixelCount data)) :
    Mlx90641.perPixel (F := F) m data =
      (onlyIf ((m = .wrapping ∨ Ee641.offsetExp W ≤ 14) ∧ ∀ i < pixelCount data, m = .wrapping ∨ Pixel641Fits W i)
        (pixels641 W (pixelCount data)) >>= fun outs =>
        if pixelCount data = 192 then .ok outs
        else .err (.other "the ArrayVec should be filled with EEPROM data")) := by
  have hp : ∀ k, k ≤ 640 → pos k ≤ data.length := by
    intro k hk; have := pos_add 0 k; have h0 : pos 0 = 0 := by unfold pos; rfl
    rw [Nat.zero_add] at this; omega
  have hn : pixelCount data ≤ 192 := Nat.min_le_left _ _
  unfold Mlx90641.perPixel
  rw [run_eq, pixelConsts_eq m (by omega) fun k hk => hd.valid k (mem_shared hk)]
  by_cases hm : m = .wrapping ∨ Ee641.offsetExp W ≤ 14
  · rw [onlyIf_pos hm]
    rw [Res.ok_bind, Res.ok_bind]
    simp only
    have e64 : Mlx90641.offOffsets0 * 2 = pos 64 := by unfold pos; rfl
    have e256 : Mlx90641.offSensitivity * 2 = pos 256 := by unfold pos; rfl
    have e448 : Mlx90641.offConstants * 2 = pos 448 := by unfold pos; rfl
    have e640 : Mlx90641.offOffsets1 * 2 = pos 640 := by unfold pos; rfl
    have e192 : Mlx90641.numPixels = 192 := rfl
    unfold Mlx90641.slice
    rw [e64, e256, e448, e640, if_pos (hp _ (by decide)), if_pos (hp _ (by decide)), if_pos (hp _ (by decide)),
      if_pos (hp _ (by decide)), Res.ok_bind, Res.ok_bind, Res.ok_bind, Res.ok_bind, e192,
      items_eq _ references641_length h]
    rw [pixelLoop641_eq m _ _ (fun i => m = .wrapping ∨ Pixel641Fits W i) (pixel641 W)]
    · have e : (List.range (pixelCount data)).map (pixel641 (F := F) W) = pixels641 W (pixelCount data) := by
        unfold pixels641; rfl
      rw [e]
      by_cases hf : ∀ i ∈ List.range (pixelCount data), m = .wrapping ∨ Pixel641Fits W i
      · rw [onlyIf_pos hf, onlyIf_pos ⟨hm, fun i hi => hf i (List.mem_range.2 hi)⟩, Res.ok_bind, Res.ok_bind,
          pixels641_length]
      · rw [onlyIf_neg hf, onlyIf_neg fun h' => hf fun i hi => h'.2 i (List.mem_range.1 hi)]; rfl
    · intro i hi
      have hi := List.mem_range.1 hi
      exact pixelStep641_eq m i (by omega) hm (fun a ha => hd.small a (mem_pixels hi ha))
        (fun k hk => hd.valid k (mem_pixels hi hk))
  · rw [onlyIf_neg hm, onlyIf_neg fun h' => hm h'.1]; rfl

/-- The outcome of a dump of at least 1280 bytes whose words are all correctable. -/
theorem fromData641_eq (m : Mode) (h : 1280 ≤ data.length) (hd : Decoded data W (pixelCount data)) :
    Mlx90641.fromData (F := F) m data =
      (onlyIf ((m = .wrapping ∨ Ee641.offsetExp W ≤ 14) ∧ ∀ i < pixelCount data, m = .wrapping ∨ Pixel641Fits W i)
        () >>= fun _ =>
        if pixelCount data = 192 then .ok (decode641 W)
        else .err (.other "the ArrayVec should be filled with EEPROM data")) := by
  unfold Mlx90641.fromData
  rw [run_eq, parseScalars_eq m (by omega) (fun k h1 h2 => hd.valid k (mem_scalars h1 h2))
    (fun k h1 h2 => hd.small _ (mem_scalars h1 h2))]
  rw [Res.ok_bind, Res.ok_bind, perPixel_eq m h hd]
  simp only
  by_cases hP : (m = .wrapping ∨ Ee641.offsetExp W ≤ 14) ∧ ∀ i < pixelCount data, m = .wrapping ∨ Pixel641Fits W i
  · rw [onlyIf_pos hP, onlyIf_pos hP, Res.ok_bind, Res.ok_bind]
    by_cases hn : pixelCount data = 192
    · rw [if_pos hn, if_pos hn, Res.ok_bind, hn]
      unfold decode641 decode641With
      simp only
    · rw [if_neg hn, if_neg hn, Res.err_bind]
  · rw [onlyIf_neg hP, onlyIf_neg hP, Res.panic_bind, Res.panic_bind, Res.panic_bind]

/-- The outcome of a complete dump whose words are all correctable. -/
theorem fromData641_full (m : Mode) (h : 1664 ≤ data.length) (hd : Decoded data W 192) :
    Mlx90641.fromData (F := F) m data = onlyIf (m = .wrapping ∨ Ee641.OffsetsFit W) (decode641 W) := by
  have hn : pixelCount data = 192 := by unfold pixelCount; omega
  rw [fromData641_eq (W := W) m (by omega) (by rw [hn]; exact hd), hn]
  simp only [if_true]
  rw [onlyIf_map (fun _ => decode641 W)]
  refine onlyIf_congr ?_ fun _ => rfl
  unfold Ee641.OffsetsFit Pixel641Fits
  constructor
  · rintro ⟨h1, h2⟩
    cases m with
    | wrapping => exact Or.inl rfl
    | checked =>
      right
      exact ⟨h1.resolve_left (by decide), fun i hi => (h2 i hi).resolve_left (by decide)⟩
  · rintro (h1 | ⟨h1, h2⟩)
    · exact ⟨Or.inl h1, fun i hi => Or.inl h1⟩
    · exact ⟨Or.inr h1, fun i hi => Or.inr (h2 i hi)⟩

end Mlx.Proofs
