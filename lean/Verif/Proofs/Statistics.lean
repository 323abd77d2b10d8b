import Verif.Spec.Examples
/-
Lists of durations.
-/
set_option linter.unusedSectionVars false
set_option autoImplicit false
namespace Mlx.Proofs
open Mlx Mlx.Spec

/-- The state of the fold that finds the mode, after the elements `l`, the last of which is `p`. -/
structure ModeInv (l : List Nat) (p : Nat) (st : Nat × Nat × Nat) : Prop where
  mode : IsMode l st.1
  modeCount : st.2.1 = l.count st.1
  current : st.2.2 = l.count p
  last : ∀ x ∈ l, x ≤ p

theorem modeStep_inv {l : List Nat} {p c : Nat} {st : Nat × Nat × Nat} (h : ModeInv l p st) (hc : p ≤ c) :
    ModeInv (l ++ [c]) c (modeStep st (p, c)) := by
  obtain ⟨mode, mc, cc⟩ := st
  obtain ⟨⟨hm, hmax⟩, h1, h2, hl⟩ := h
  dsimp only at hm hmax h1 h2
  have hpos : 0 < l.count mode := List.count_pos_iff.2 hm
  have last : ∀ x ∈ l ++ [c], x ≤ c := by
    intro x hx
    rcases List.mem_append.1 hx with hx | hx
    · exact (hl x hx).trans hc
    · rw [List.mem_singleton.1 hx]
  have cnt : ∀ x, (l ++ [c]).count x = l.count x + if c = x then 1 else 0 := by
    intro x
    rw [List.count_append, List.count_singleton]
    congr 1
    by_cases hx : c = x <;> simp [hx]
  unfold modeStep
  by_cases hcp : c ≠ p
  · have hnot : c ∉ l := fun hcl => by have := hl c hcl; omega
    have hc0 : l.count c = 0 := List.count_eq_zero.2 hnot
    have hne : c ≠ mode := fun h => hnot (h ▸ hm)
    simp only [if_pos hcp]
    refine ⟨⟨List.mem_append_left _ hm, fun x hx => ?_⟩, ?_, ?_, last⟩ <;> dsimp only
    · rw [cnt, cnt, if_neg hne]
      by_cases hx' : c = x
      · subst hx'
        rw [if_pos rfl, hc0]
        exact ⟨by omega, fun _ => last _ (List.mem_append_left _ hm)⟩
      · rw [if_neg hx']
        rcases List.mem_append.1 hx with hx | hx
        · exact hmax x hx
        · exact absurd (List.mem_singleton.1 hx).symm hx'
    · rw [cnt, if_neg hne]; exact h1
    · rw [cnt, if_pos rfl, hc0]
  · have hcp : c = p := not_not.1 hcp
    subst hcp
    simp only [ne_eq, not_true_eq_false, if_false]
    by_cases hgt : cc + 1 > mc
    · rw [if_pos hgt]
      refine ⟨⟨List.mem_append_right _ (List.mem_singleton_self _), fun x hx => ?_⟩, ?_, ?_, last⟩ <;> dsimp only
      · rw [cnt, cnt, if_pos rfl]
        by_cases hx' : c = x
        · subst hx'
          rw [if_pos rfl]
          exact ⟨le_rfl, fun _ => le_rfl⟩
        · rw [if_neg hx']
          rcases List.mem_append.1 hx with hx | hx
          · have := (hmax x hx).1
            exact ⟨by omega, fun _ => by omega⟩
          · exact absurd (List.mem_singleton.1 hx).symm hx'
      · rw [cnt, if_pos rfl, ← h2]
      · rw [cnt, if_pos rfl, ← h2]
    · rw [if_neg hgt]
      have hne : c ≠ mode := by rintro rfl; omega
      refine ⟨⟨List.mem_append_left _ hm, fun x hx => ?_⟩, ?_, ?_, last⟩ <;> dsimp only
      · rw [cnt, cnt, if_neg hne]
        by_cases hx' : c = x
        · subst hx'
          rw [if_pos rfl]
          exact ⟨by omega, fun _ => last _ (List.mem_append_left _ hm)⟩
        · rw [if_neg hx']
          rcases List.mem_append.1 hx with hx | hx
          · exact hmax x hx
          · exact absurd (List.mem_singleton.1 hx).symm hx'
      · rw [cnt, if_neg hne]; exact h1
      · rw [cnt, if_pos rfl, ← h2]

theorem mode_fold (rest : List Nat) : ∀ (l : List Nat) (p : Nat) (st : Nat × Nat × Nat), ModeInv l p st →
    (p :: rest).Pairwise (· ≤ ·) → IsMode (l ++ rest) ((windows2 (p :: rest)).foldl modeStep st).1 := by
  induction rest with
  | nil => intro l p st h _; rw [List.append_nil]; exact h.mode
  | cons c rest ih =>
    intro l p st h hs
    have h1 := modeStep_inv h ((List.pairwise_cons.1 hs).1 c (List.mem_cons_self ..))
    have := ih _ _ _ h1 (List.pairwise_cons.1 hs).2
    rw [List.append_assoc] at this
    exact this

theorem mode_sorted {a : Nat} {rest : List Nat} (hs : (a :: rest).Pairwise (· ≤ ·)) :
    IsMode (a :: rest) ((windows2 (a :: rest)).foldl modeStep (a, 1, 1)).1 := by
  refine mode_fold rest [a] a (a, 1, 1) ⟨⟨List.mem_singleton_self _, fun x hx => ?_⟩, ?_, ?_, fun x hx => ?_⟩ hs
  · rw [List.mem_singleton.1 hx]; exact ⟨le_rfl, fun _ => le_rfl⟩
  · simp
  · simp
  · rw [List.mem_singleton.1 hx]

/-- In a sorted list, at most `k` elements are less than the one at index `k`, and at most `length - k - 1` are greater. -/
theorem rank_sorted {l : List Nat} (hs : l.Pairwise (· ≤ ·)) {k : Nat} {m : Nat} (hk : l[k]? = some m) :
    l.countP (· < m) ≤ k ∧ l.countP (m < ·) + k + 1 ≤ l.length := by
  obtain ⟨hlt, hm⟩ := List.getElem?_eq_some_iff.1 hk
  have e : l = l.take k ++ m :: l.drop (k + 1) := by
    rw [← hm, ← List.drop_eq_getElem_cons hlt, List.take_append_drop]
  rw [e] at hs
  obtain ⟨_, h2, h3⟩ := List.pairwise_append.1 hs
  have h4 := (List.pairwise_cons.1 h2).1
  have ht : (l.take k).length = k := List.length_take_of_le hlt.le
  have hd : (l.drop (k + 1)).length = l.length - (k + 1) := List.length_drop
  have c1 : l.countP (· < m) = (l.take k).countP (· < m) + (m :: l.drop (k + 1)).countP (· < m) := by
    conv_lhs => rw [e]
    rw [List.countP_append]
  have c2 : l.countP (m < ·) = (l.take k).countP (m < ·) + (m :: l.drop (k + 1)).countP (m < ·) := by
    conv_lhs => rw [e]
    rw [List.countP_append]
  have z1 : (m :: l.drop (k + 1)).countP (· < m) = 0 := by
    rw [List.countP_eq_zero]
    intro x hx
    rcases List.mem_cons.1 hx with rfl | hx
    · simp
    · have := h4 x hx; simpa using this
  have z2 : (l.take k).countP (m < ·) = 0 := by
    rw [List.countP_eq_zero]
    intro x hx
    have := h3 x hx m (List.mem_cons_self ..); simpa using this
  have b1 : (l.take k).countP (· < m) ≤ k := List.countP_le_length.trans_eq ht
  have b2 : (m :: l.drop (k + 1)).countP (m < ·) ≤ l.length - (k + 1) := by
    rw [List.countP_cons_of_neg (by simp)]
    exact List.countP_le_length.trans_eq hd
  omega

end Mlx.Proofs
