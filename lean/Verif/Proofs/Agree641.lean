import Verif.Proofs.Scan641
/-
`Mlx90641Calibration::from_data` depends on nothing but the words it decodes.
-/
set_option linter.unusedSectionVars false
set_option autoImplicit false
namespace Mlx.Proofs
open Mlx Mlx.Spec F32Ops
variable {F : Type} [F32Ops F] {d e : List Byte} {α β : Type} {m : Mode}

/-- A parser that does the same on both dumps between words `A` and `B`. -/
def Agree (d e : List Byte) (A B : Nat) (p : Parser LibErr α) : Prop :=
  ∃ r : Res LibErr α, p (d.drop (pos A)) = (r >>= fun a => .ok (a, d.drop (pos B))) ∧
    p (e.drop (pos A)) = (r >>= fun a => .ok (a, e.drop (pos B)))

theorem Agree.bind {A B C : Nat} {p : Parser LibErr α} {f : α → Parser LibErr β} (h : Agree d e A B p)
    (hf : ∀ a, Agree d e B C (f a)) : Agree d e A C (p >>= f) := by
  obtain ⟨r, h1, h2⟩ := h
  cases r with
  | ok a =>
    obtain ⟨r', h3, h4⟩ := hf a
    refine ⟨r', ?_, ?_⟩
    · rw [Parser.bind_apply, h1]; exact h3
    · rw [Parser.bind_apply, h2]; exact h4
  | err x => exact ⟨.err x, by rw [Parser.bind_apply, h1]; rfl, by rw [Parser.bind_apply, h2]; rfl⟩
  | panic => exact ⟨.panic, by rw [Parser.bind_apply, h1]; rfl, by rw [Parser.bind_apply, h2]; rfl⟩

theorem Agree.pure (A : Nat) (a : α) : Agree d e A A (pure a : Parser LibErr α) := ⟨.ok a, rfl, rfl⟩

theorem Agree.lift (A : Nat) (r : Res LibErr α) : Agree d e A A (Parser.lift r) := by
  refine ⟨r, ?_, ?_⟩ <;> cases r <;> rfl

/-- Two full dumps with the same words where words are decoded. -/
structure Same (d e : List Byte) : Prop where
  left : 1664 ≤ d.length
  right : 1664 ≤ e.length
  words : ∀ k, 16 ≤ k → k < 832 → k ≠ 19 → k ≠ 20 → ew d k = ew e k

theorem Same.pos_left (h : Same d e) {k : Nat} (hk : k ≤ 832) : pos k ≤ d.length := by
  have := h.left; unfold pos; omega
theorem Same.pos_right (h : Same d e) {k : Nat} (hk : k ≤ 832) : pos k ≤ e.length := by
  have := h.right; unfold pos; omega

theorem Agree.advance (h : Same d e) (A n k : Nat) (hk : k = 2 * n) (hn : A + n ≤ 832) :
    Agree d e A (A + n) (Mlx.advance k) :=
  ⟨.ok (), by rw [advance_from A n k hk (h.pos_left hn)]; rfl, by rw [advance_from A n k hk (h.pos_right hn)]; rfl⟩

theorem Agree.hamU16 (h : Same d e) (A : Nat) (hA : 16 ≤ A ∧ A < 832 ∧ A ≠ 19 ∧ A ≠ 20) :
    Agree d e A (A + 1) Mlx90641.getHammingU16 := by
  refine ⟨Hamming.validateChecksum (ew d A), ?_, ?_⟩
  · rw [hamU16_at A (h.pos_left (by omega))]
  · rw [hamU16_at A (h.pos_right (by omega)), h.words A hA.1 hA.2.1 hA.2.2.1 hA.2.2.2]

theorem Agree.hamI16 (h : Same d e) (A : Nat) (hA : 16 ≤ A ∧ A < 832 ∧ A ≠ 19 ∧ A ≠ 20) :
    Agree d e A (A + 1) (Mlx90641.getHammingI16 m) := by
  unfold Mlx90641.getHammingI16
  exact (Agree.hamU16 h A hA).bind fun _ => Agree.lift _ _

theorem Agree.combined (h : Same d e) (A : Nat) (hA : 16 ≤ A ∧ A < 832 ∧ A ≠ 19 ∧ A ≠ 20)
    (hB : 16 ≤ A + 1 ∧ A + 1 < 832 ∧ A + 1 ≠ 19 ∧ A + 1 ≠ 20) :
    Agree d e A (A + 2) Mlx90641.getCombinedWord := by
  unfold Mlx90641.getCombinedWord
  exact (Agree.hamU16 h A hA).bind fun _ => (Agree.hamU16 h (A + 1) hB).bind fun _ => Agree.pure _ _

theorem Agree.split (h : Same d e) (A : Nat) (hA : 16 ≤ A ∧ A < 832 ∧ A ≠ 19 ∧ A ≠ 20) :
    Agree d e A (A + 1) Mlx90641.get65Split := by
  unfold Mlx90641.get65Split
  exact (Agree.hamU16 h A hA).bind fun _ => Agree.pure _ _

theorem Agree.cp (h : Same d e) (A : Nat) (hA : 16 ≤ A ∧ A < 832 ∧ A ≠ 19 ∧ A ≠ 20) :
    Agree d e A (A + 1) (Mlx90641.getScaledCpConstant (F := F) m) := by
  unfold Mlx90641.getScaledCpConstant
  exact (Agree.hamU16 h A hA).bind fun _ => (Agree.lift _ _).bind fun _ => Agree.pure _ _

theorem Agree.resolutionTgc (h : Same d e) (A : Nat) (hA : 16 ≤ A ∧ A < 832 ∧ A ≠ 19 ∧ A ≠ 20) :
    Agree d e A (A + 1) (Mlx90641.getResolutionWithTgc (F := F) m) := by
  unfold Mlx90641.getResolutionWithTgc
  exact (Agree.hamU16 h A hA).bind fun _ => (Agree.lift _ _).bind fun _ => (Agree.lift _ _).bind fun _ => Agree.pure _ _

theorem Agree.temperatures (h : Same d e) : Agree d e 52 64 (Mlx90641.temperatureRangeData (F := F) m) := by
  unfold Mlx90641.temperatureRangeData
  refine (Agree.hamU16 h 52 (by decide)).bind fun _ => ?_
  refine (Agree.hamI16 h 53 (by decide)).bind fun _ => ?_
  refine (Agree.hamI16 h 54 (by decide)).bind fun _ => ?_
  refine (Agree.hamI16 h 55 (by decide)).bind fun _ => ?_
  refine (Agree.hamI16 h 56 (by decide)).bind fun _ => ?_
  refine (Agree.hamI16 h 57 (by decide)).bind fun _ => ?_
  refine (Agree.hamU16 h 58 (by decide)).bind fun _ => ?_
  refine (Agree.hamI16 h 59 (by decide)).bind fun _ => ?_
  refine (Agree.hamU16 h 60 (by decide)).bind fun _ => ?_
  refine (Agree.hamI16 h 61 (by decide)).bind fun _ => ?_
  refine (Agree.hamU16 h 62 (by decide)).bind fun _ => ?_
  exact (Agree.hamI16 h 63 (by decide)).bind fun _ => Agree.pure _ _

theorem Agree.scalars (h : Same d e) : Agree d e 0 64 (Mlx90641.parseScalars (F := F) m) := by
  unfold Mlx90641.parseScalars
  refine (Agree.advance h 0 34 _ rfl (by decide)).bind fun _ => ?_
  refine (Agree.hamI16 h 34 (by decide)).bind fun _ => ?_
  refine (Agree.hamI16 h 35 (by decide)).bind fun _ => ?_
  refine (Agree.combined h 36 (by decide) (by decide)).bind fun _ => ?_
  refine (Agree.hamI16 h 38 (by decide)).bind fun _ => ?_
  refine (Agree.hamI16 h 39 (by decide)).bind fun _ => ?_
  refine (Agree.combined h 40 (by decide) (by decide)).bind fun _ => ?_
  refine (Agree.hamI16 h 42 (by decide)).bind fun _ => ?_
  refine (Agree.hamI16 h 43 (by decide)).bind fun _ => ?_
  refine (Agree.hamU16 h 44 (by decide)).bind fun _ => ?_
  refine (Agree.hamU16 h 45 (by decide)).bind fun _ => ?_
  refine (Agree.hamU16 h 46 (by decide)).bind fun _ => ?_
  refine (Agree.combined h 47 (by decide) (by decide)).bind fun _ => ?_
  refine (Agree.cp h 49 (by decide)).bind fun _ => ?_
  refine (Agree.cp h 50 (by decide)).bind fun _ => ?_
  refine (Agree.resolutionTgc h 51 (by decide)).bind fun _ => ?_
  refine (Agree.temperatures h).bind fun _ => ?_
  exact (Agree.lift _ _).bind fun _ => Agree.pure _ _

theorem Agree.consts (h : Same d e) : Agree d e 0 34 (Mlx90641.pixelConsts (F := F) m) := by
  unfold Mlx90641.pixelConsts
  refine (Agree.advance h 0 16 _ rfl (by decide)).bind fun _ => ?_
  refine (Agree.split h 16 (by decide)).bind fun _ => ?_
  refine (Agree.lift _ _).bind fun _ => ?_
  refine (Agree.combined h 17 (by decide) (by decide)).bind fun _ => ?_
  refine (Agree.lift _ _).bind fun _ => ?_
  refine (Agree.advance h 19 2 _ rfl (by decide)).bind fun _ => ?_
  refine (Agree.hamI16 h 21 (by decide)).bind fun _ => ?_
  refine (Agree.split h 22 (by decide)).bind fun _ => ?_
  refine (Agree.hamI16 h 23 (by decide)).bind fun _ => ?_
  refine (Agree.split h 24 (by decide)).bind fun _ => ?_
  refine Agree.bind (B := 34) ?_ fun _ => Agree.pure _ _
  unfold Mlx90641.sensitivityReference
  refine (Agree.split h 25 (by decide)).bind fun _ => ?_
  refine (Agree.split h 26 (by decide)).bind fun _ => ?_
  refine (Agree.split h 27 (by decide)).bind fun _ => ?_
  refine (Agree.hamU16 h 28 (by decide)).bind fun _ => ?_
  refine (Agree.hamU16 h 29 (by decide)).bind fun _ => ?_
  refine (Agree.hamU16 h 30 (by decide)).bind fun _ => ?_
  refine (Agree.hamU16 h 31 (by decide)).bind fun _ => ?_
  refine (Agree.hamU16 h 32 (by decide)).bind fun _ => ?_
  exact (Agree.hamU16 h 33 (by decide)).bind fun _ => Agree.pure _ _

theorem Agree.run {B : Nat} {p : Parser LibErr α} (h : Agree d e 0 B p) :
    Mlx90641.runParser p d = Mlx90641.runParser p e := by
  obtain ⟨r, h1, h2⟩ := h
  rw [drop_pos_zero] at h1 h2
  rw [run_eq, run_eq, h1, h2]
  cases r <;> rfl

theorem words_congr (A n : Nat) {s t : List Byte} (hs : Mlx90641.words s = (List.range n).map fun k => ew d (A + k))
    (ht : Mlx90641.words t = (List.range n).map fun k => ew e (A + k)) (h : ∀ k < n, ew d (A + k) = ew e (A + k)) :
    Mlx90641.words s = Mlx90641.words t := by
  rw [hs, ht]
  exact List.map_congr_left fun k hk => h k (List.mem_range.1 hk)

theorem zip_take {γ δ : Type} (l : List γ) (r : List δ) (n : Nat) (h : l.length ≤ n) : l.zip r = l.zip (r.take n) := by
  induction l generalizing r n with
  | nil => rw [List.zip_nil_left, List.zip_nil_left]
  | cons x l ih =>
    cases r with
    | nil => rw [List.take_nil]
    | cons y r =>
      cases n with
      | zero => simp at h
      | succ n => rw [List.take_succ_cons, List.zip_cons_cons, List.zip_cons_cons, ← ih r n (by simpa using h)]

theorem perPixel_congr (h : Same d e) : Mlx90641.perPixel (F := F) m d = Mlx90641.perPixel m e := by
  have e64 : Mlx90641.offOffsets0 * 2 = pos 64 := by unfold pos; rfl
  have e256 : Mlx90641.offSensitivity * 2 = pos 256 := by unfold pos; rfl
  have e448 : Mlx90641.offConstants * 2 = pos 448 := by unfold pos; rfl
  have e640 : Mlx90641.offOffsets1 * 2 = pos 640 := by unfold pos; rfl
  unfold Mlx90641.perPixel
  rw [(Agree.consts (F := F) (m := m) h).run]
  cases Mlx90641.runParser (Mlx90641.pixelConsts (F := F) m) e with
  | err x => rfl
  | panic => rfl
  | ok r =>
    obtain ⟨c, refs⟩ := r
    rw [Res.ok_bind, Res.ok_bind]
    simp only
    unfold Mlx90641.slice
    rw [e64, e256, e448, e640, if_pos (h.pos_left (by decide)), if_pos (h.pos_left (by decide)),
      if_pos (h.pos_left (by decide)), if_pos (h.pos_left (by decide)), if_pos (h.pos_right (by decide)),
      if_pos (h.pos_right (by decide)), if_pos (h.pos_right (by decide)), if_pos (h.pos_right (by decide))]
    simp only [Res.ok_bind]
    have w1 : Mlx90641.words ((d.take (pos 256)).drop (pos 64)) = Mlx90641.words ((e.take (pos 256)).drop (pos 64)) :=
      words_congr 64 192 (words_slice 64 256 (by decide) (h.pos_left (by decide)))
        (words_slice 64 256 (by decide) (h.pos_right (by decide))) fun k hk => h.words _ (by omega) (by omega) (by omega) (by omega)
    have w2 : Mlx90641.words ((d.take (pos 448)).drop (pos 256)) = Mlx90641.words ((e.take (pos 448)).drop (pos 256)) :=
      words_congr 256 192 (words_slice 256 448 (by decide) (h.pos_left (by decide)))
        (words_slice 256 448 (by decide) (h.pos_right (by decide))) fun k hk => h.words _ (by omega) (by omega) (by omega) (by omega)
    have w3 : Mlx90641.words ((d.take (pos 640)).drop (pos 448)) = Mlx90641.words ((e.take (pos 640)).drop (pos 448)) :=
      words_congr 448 192 (words_slice 448 640 (by decide) (h.pos_left (by decide)))
        (words_slice 448 640 (by decide) (h.pos_right (by decide))) fun k hk => h.words _ (by omega) (by omega) (by omega) (by omega)
    have w4 : (Mlx90641.words (d.drop (pos 640))).take 192 = (Mlx90641.words (e.drop (pos 640))).take 192 := by
      have h1 := h.left
      have h2 := h.right
      have p640 : pos 640 = 1280 := by unfold pos; rfl
      rw [words_rest 640 _ rfl (h.pos_left (by decide)), words_rest 640 _ rfl (h.pos_right (by decide)), ← List.map_take,
        ← List.map_take, List.take_range, List.take_range, Nat.min_eq_left (by omega), Nat.min_eq_left (by omega)]
      exact List.map_congr_left fun k hk => by
        have := List.mem_range.1 hk
        exact h.words _ (by omega) (by omega) (by omega) (by omega)
    have hl : (Mlx90641.words ((e.take (pos 256)).drop (pos 64))).length ≤ 192 := by
      rw [words_slice 64 256 (by decide) (h.pos_right (by decide)), List.length_map, List.length_range]
    rw [w1, w2, w3, zip_take _ _ 192 hl, w4, ← zip_take _ _ 192 hl]

theorem fromData641_congr (h : Same d e) : Mlx90641.fromData (F := F) m d = Mlx90641.fromData m e := by
  unfold Mlx90641.fromData
  rw [(Agree.scalars (F := F) (m := m) h).run, perPixel_congr h]

end Mlx.Proofs
