import Verif.Proofs.Statistics
import Verif.Props.Watch
/-
C92, C93: the example programs.
-/
set_option linter.unusedSectionVars false
set_option autoImplicit false
namespace Mlx.Props
open Mlx Mlx.Spec Mlx.Proofs F32Ops
variable {F σ ER EW : Type} [F32Ops F] {mem : σ → Word → Word}

/-! ### The address argument -/

theorem digitValue_ascii (c : Char) : digitValue 10 c = decimalDigit c ∧ digitValue 16 c = hexadecimalDigit c := by
  by_cases h : c.toNat < 128
  · have key : ∀ n < 128, digitValue 10 (Char.ofNat n) = decimalDigit (Char.ofNat n) ∧
        digitValue 16 (Char.ofNat n) = hexadecimalDigit (Char.ofNat n) := by decide +kernel
    have := key c.toNat h
    rwa [Char.ofNat_toNat] at this
  · have big : ∀ d : Char, d.toNat < 128 → ¬ c ≤ d := by
      intro d hd hle
      have : c.toNat ≤ d.toNat := hle
      omega
    have not : ∀ l : List Char, (∀ d ∈ l, d.toNat < 128) → l.idxOf? c = none := by
      intro l hl
      rw [List.idxOf?_eq_none_iff]
      intro hc
      exact h (hl c hc)
    have dv : ∀ r, digitValue r c = none := by
      intro r
      unfold digitValue
      rw [if_neg (fun hc => big '9' (by decide) hc.2), if_neg (fun hc => big 'z' (by decide) hc.2),
        if_neg (fun hc => big 'Z' (by decide) hc.2)]
      rfl
    rw [dv, dv]
    unfold decimalDigit hexadecimalDigit
    rw [not _ (by decide), not _ (by decide), not _ (by decide)]
    exact ⟨rfl, rfl⟩

theorem parseDigits_iff {radix : Nat} {digit : Char → Option Nat} (hr : 0 < radix) (hd : ∀ c, digitValue radix c = digit c)
    (cs : List Char) : ∀ acc, acc < 256 → ∀ n, parseDigits radix acc cs = some n ↔
      ∃ v, denotes radix digit cs = some v ∧ n = acc * radix ^ cs.length + v ∧ n < 256 := by
  induction cs with
  | nil =>
    intro acc ha n
    simp only [parseDigits, denotes, List.length_nil, pow_zero, mul_one, Option.some.injEq]
    constructor
    · rintro rfl; exact ⟨0, rfl, rfl, ha⟩
    · rintro ⟨v, rfl, h, _⟩; omega
  | cons c cs ih =>
    intro acc ha n
    simp only [parseDigits, denotes, hd]
    cases hv : digit c with
    | none => simp
    | some v =>
      simp only [Option.bind_eq_bind, Option.bind_some, List.length_cons]
      have hp : 0 < radix ^ cs.length := Nat.pow_pos hr
      have expand : ∀ r, (acc * radix + v) * radix ^ cs.length + r = acc * radix ^ (cs.length + 1) + (v * radix ^ cs.length + r) := by
        intro r; rw [pow_succ]; ring
      split
      · rename_i hlt
        rw [ih _ hlt]
        constructor
        · rintro ⟨r, h1, h2, h3⟩
          exact ⟨v * radix ^ cs.length + r, by rw [h1]; rfl, by rw [h2, expand], h3⟩
        · rintro ⟨w, h1, h2, h3⟩
          cases hr : denotes radix digit cs with
          | none => rw [hr] at h1; cases h1
          | some r =>
            rw [hr] at h1
            have h1 : v * radix ^ cs.length + r = w := Option.some.inj h1
            exact ⟨r, rfl, by rw [h2, ← h1, expand], h3⟩
      · rename_i hlt
        constructor
        · intro h; cases h
        · rintro ⟨w, h1, h2, h3⟩
          cases hr : denotes radix digit cs with
          | none => rw [hr] at h1; cases h1
          | some r =>
            rw [hr] at h1
            have h1 : v * radix ^ cs.length + r = w := Option.some.inj h1
            have := expand r
            have : (acc * radix + v) * 1 ≤ (acc * radix + v) * radix ^ cs.length := Nat.mul_le_mul_left _ hp
            omega

theorem parseU8_iff {radix : Nat} {digit : Char → Option Nat} (hr : 0 < radix) (hd : ∀ c, digitValue radix c = digit c)
    (hp : digit '+' = none) (hm : digit '-' = none) (text : List Char) (n : Nat) :
    parseU8 radix text = some n ↔ n < 256 ∧ Numeral radix digit text n := by
  have core : ∀ cs, parseDigits radix 0 cs = some n ↔ n < 256 ∧ denotes radix digit cs = some n := by
    intro cs
    rw [parseDigits_iff hr hd cs 0 (by decide)]
    constructor
    · rintro ⟨v, h1, h2, h3⟩
      rw [Nat.zero_mul, Nat.zero_add] at h2
      exact ⟨h3, h2 ▸ h1⟩
    · rintro ⟨h1, h2⟩
      exact ⟨n, h2, by rw [Nat.zero_mul, Nat.zero_add], h1⟩
  have bad : ∀ c cs, digit c = none → denotes radix digit (c :: cs) = none := by
    intro c cs h
    unfold denotes
    rw [h]; rfl
  unfold parseU8 Numeral
  split
  · simp only [List.nil_eq, reduceCtorEq, or_false]
    constructor
    · intro h; cases h
    · rintro ⟨_, ds, h1, h2, _⟩; exact absurd h2 h1
  · constructor
    · intro h; cases h
    · rintro ⟨_, ds, h1, rfl | h2, h3⟩
      · rw [bad _ _ hp] at h3; cases h3
      · exact absurd (List.cons.inj h2).2.symm h1
  · constructor
    · intro h; cases h
    · rintro ⟨_, ds, h1, rfl | h2, h3⟩
      · rw [bad _ _ hm] at h3; cases h3
      · exact absurd (List.cons.inj h2).1 (by decide)
  · rename_i cs hne1
    rw [core]
    constructor
    · rintro ⟨h1, h2⟩
      refine ⟨h1, cs, ?_, Or.inr rfl, h2⟩
      rintro rfl; exact hne1 rfl
    · rintro ⟨h1, ds, h2, rfl | h3, h4⟩
      · rw [bad _ _ hp] at h4; cases h4
      · rw [(List.cons.inj h3).2]; exact ⟨h1, h4⟩
  · rename_i hn0 hn1 hn2 hn3
    rw [core]
    constructor
    · rintro ⟨h1, h2⟩
      exact ⟨h1, text, hn0, Or.inl rfl, h2⟩
    · rintro ⟨h1, ds, h2, rfl | h3, h4⟩
      · exact ⟨h1, h4⟩
      · exact absurd h3 (hn3 ds)

/-- **C92 (the address argument).** The programs accept exactly the numbers from 0 to 255, in hexadecimal digits (of either case) after
`0x`, otherwise in decimal digits (a plus sign before the digits is accepted as well). -/
theorem C92_address_argument (arg : List Char) (n : Nat) :
    parseAddress arg = some n ↔ n < 256 ∧
      ((∃ rest, arg = '0' :: 'x' :: rest ∧ Numeral 16 hexadecimalDigit rest n) ∨
       ((∀ rest, arg ≠ '0' :: 'x' :: rest) ∧ Numeral 10 decimalDigit arg n)) := by
  unfold parseAddress
  by_cases h : ∃ rest, arg = '0' :: 'x' :: rest
  · obtain ⟨rest, rfl⟩ := h
    rw [if_pos (by simp), List.drop_succ_cons, List.drop_succ_cons, List.drop_zero,
      parseU8_iff (by decide) (fun c => (digitValue_ascii c).2) (by decide) (by decide)]
    refine and_congr_right fun _ => ⟨fun h => Or.inl ⟨rest, rfl, h⟩, ?_⟩
    rintro (⟨r, hr, h⟩ | ⟨h, _⟩)
    · rw [(List.cons.inj (List.cons.inj hr).2).2]; exact h
    · exact absurd rfl (h rest)
  · have hno : ¬ ['0', 'x'].isPrefixOf arg = true := by
      intro hp
      obtain ⟨rest, hr⟩ := List.isPrefixOf_iff_prefix.1 hp
      exact h ⟨rest, hr.symm⟩
    rw [if_neg hno, parseU8_iff (by decide) (fun c => (digitValue_ascii c).1) (by decide) (by decide)]
    refine and_congr_right fun _ => ⟨fun hn => Or.inr ⟨fun rest hr => h ⟨rest, hr⟩, hn⟩, ?_⟩
    rintro (⟨r, hr, _⟩ | ⟨_, h⟩)
    · exact absurd ⟨r, hr⟩ h
    · exact h

example : parseAddress "0x33".toList = some 0x33 ∧ parseAddress "51".toList = some 51 ∧ parseAddress "0x+aF".toList = some 0xAF ∧
    parseAddress "256".toList = none ∧ parseAddress "0x".toList = none ∧ parseAddress "33h".toList = none := by decide

/-! ### The statistics -/

theorem sorted_perm (l : List Nat) : l.mergeSort.Perm l ∧ l.mergeSort.Pairwise (· ≤ ·) := by
  refine ⟨List.mergeSort_perm .., ?_⟩
  have := List.pairwise_mergeSort (le := fun a b : Nat => decide (a ≤ b)) (by simpa using fun a b c => Nat.le_trans)
    (by simpa using Nat.le_total) l
  simpa using this

/-- **C93 (statistics).** Without durations the program panics. Otherwise the numbers it prints are the least, the greatest and
the average (rounded down) of the durations, and the most frequent one (the least if there are several); and, if the number
of durations is odd, a median: less than half of the durations are less, and less than half are greater. -/
theorem C93_statistics (durations : List Nat) :
    (statistics durations = none ↔ durations = []) ∧
    ∀ st, statistics durations = some st →
      (st.min ∈ durations ∧ ∀ x ∈ durations, st.min ≤ x) ∧
      (st.max ∈ durations ∧ ∀ x ∈ durations, x ≤ st.max) ∧
      (st.mean * durations.length ≤ durations.sum ∧ durations.sum < (st.mean + 1) * durations.length) ∧
      IsMode durations st.mode ∧
      (durations.length % 2 = 1 → st.median ∈ durations ∧ 2 * durations.countP (· < st.median) < durations.length ∧
        2 * durations.countP (st.median < ·) < durations.length) := by
  obtain ⟨hp, hs⟩ := sorted_perm durations
  unfold statistics
  generalize durations.mergeSort = s at hp hs
  cases s with
  | nil =>
    have : durations = [] := hp.symm.eq_nil
    subst this
    simp
  | cons a rest =>
    have hlen := hp.length_eq
    have hne : durations ≠ [] := by rintro rfl; exact absurd hp.eq_nil (by simp)
    have hlast : ∃ z, (a :: rest).getLast? = some z := ⟨_, List.getLast?_eq_some_getLast (by simp)⟩
    obtain ⟨z, hz⟩ := hlast
    simp only [List.head?_cons, hz]
    refine ⟨⟨(fun h => nomatch h), fun h => absurd h hne⟩, fun st hst => ?_⟩
    rw [← Option.some.inj hst]
    dsimp only
    have hz1 := List.mem_of_getLast? hz
    have hpos : 0 < durations.length := List.length_pos_iff.2 hne
    refine ⟨⟨hp.mem_iff.1 (List.mem_cons_self ..), fun x hx => ?_⟩, ⟨hp.mem_iff.1 hz1, fun x hx => ?_⟩,
      ⟨Nat.div_mul_le_self .., ?_⟩, ?_, fun hodd => ?_⟩
    · rcases List.mem_cons.1 (hp.mem_iff.2 hx) with rfl | hx
      · exact le_rfl
      · exact (List.pairwise_cons.1 hs).1 x hx
    · have hx := hp.mem_iff.2 hx
      obtain ⟨ini, he⟩ := List.getLast?_eq_some_iff.1 hz
      rw [he] at hs hx
      rcases List.mem_append.1 hx with hx | hx
      · exact (List.pairwise_append.1 hs).2.2 x hx z (List.mem_singleton_self _)
      · rw [List.mem_singleton.1 hx]
    · exact Nat.lt_mul_of_div_lt (Nat.lt_succ_self _) hpos
    · obtain ⟨h1, h2⟩ := mode_sorted hs
      refine ⟨hp.mem_iff.1 h1, fun x hx => ?_⟩
      rw [← hp.count_eq, ← hp.count_eq]
      exact h2 x (hp.mem_iff.2 hx)
    · have hk : (a :: rest).length / 2 < (a :: rest).length := Nat.div_lt_self (by simp) (by decide)
      rw [if_neg (by omega)]
      have hget : (a :: rest)[(a :: rest).length / 2]? = some ((a :: rest).getD ((a :: rest).length / 2) 0) := by
        rw [List.getD_eq_getElem?_getD, List.getElem?_eq_getElem hk]; rfl
      generalize (a :: rest).getD ((a :: rest).length / 2) 0 = md at hget
      obtain ⟨r1, r2⟩ := rank_sorted hs hget
      rw [← hp.countP_eq, ← hp.countP_eq]
      exact ⟨hp.mem_iff.1 (List.mem_of_getElem? hget), by omega, by omega⟩

/-- **C93 (the median of an even number of durations is wrong).** The program prints half of the upper one of the two middle
durations, instead of half of their sum: always too small, unless the lower one is zero. -/
theorem C93_even_median_wrong (durations : List Nat) (st : Statistics) (h : statistics durations = some st)
    (heven : durations.length % 2 = 0) :
    ∃ (sorted : List Nat) (lower upper : Nat), sorted.Perm durations ∧ sorted.Pairwise (· ≤ ·) ∧
      sorted[durations.length / 2 - 1]? = some lower ∧ sorted[durations.length / 2]? = some upper ∧
      st.median = upper / 2 ∧ (0 < lower → 2 * st.median < lower + upper) := by
  obtain ⟨hp, hs⟩ := sorted_perm durations
  unfold statistics at h
  generalize durations.mergeSort = s at hp hs h
  have hlen := hp.length_eq
  cases s with
  | nil => simp at h
  | cons a rest =>
    have hlast : ∃ z, (a :: rest).getLast? = some z := ⟨_, List.getLast?_eq_some_getLast (by simp)⟩
    obtain ⟨z, hz⟩ := hlast
    simp only [List.head?_cons, hz] at h
    have hpos : 0 < durations.length := by rw [← hlen]; simp
    have hk : durations.length / 2 < (a :: rest).length := by omega
    have hk' : durations.length / 2 - 1 < (a :: rest).length := by omega
    have hm : st.median = (a :: rest)[durations.length / 2] / 2 := by
      rw [← Option.some.inj h]
      dsimp only
      rw [if_pos (by omega), hlen]
      generalize durations.length / 2 = k at hk
      rw [List.drop_eq_getElem_cons hk]
      simp
    refine ⟨a :: rest, _, _, hp, hs, List.getElem?_eq_getElem hk', List.getElem?_eq_getElem hk, hm, fun h0 => ?_⟩
    rw [hm]
    omega

/-- Two frames of half a second each: the median printed is a quarter of a second, that is, a frequency of 4 Hz instead of 2 Hz. -/
example : statistics [500000000, 500000000] =
    some { min := 500000000, max := 500000000, mean := 500000000, median := 250000000, mode := 500000000 } := by
  simp +decide [statistics, List.mergeSort, List.MergeSort.Internal.splitInTwo, windows2, modeStep]

/-- **C93 (durations).** The durations are those between each instant and the next; if the clock does not go back, they add up to the
time from the first instant to the last. -/
theorem C93_durations (instants : List Nat) :
    (durationsOf instants).length = instants.length - 1 ∧
    (∀ i a b, instants[i]? = some a → instants[i + 1]? = some b → (durationsOf instants)[i]? = some (b - a)) ∧
    (instants.Pairwise (· ≤ ·) → ∀ first last, instants.head? = some first → instants.getLast? = some last →
      first + (durationsOf instants).sum = last) := by
  induction instants with
  | nil => exact ⟨rfl, (fun i a b h => nomatch h), (fun _ a b h => nomatch h)⟩
  | cons x l ih =>
    cases l with
    | nil =>
      refine ⟨rfl, (fun i a b _ h => nomatch h), fun _ a b ha hb => ?_⟩
      rw [Option.some.inj ha.symm, ← Option.some.inj hb]
      rfl
    | cons y l =>
      obtain ⟨h1, h2, h3⟩ := ih
      have hd : durationsOf (x :: y :: l) = (y - x) :: durationsOf (y :: l) := rfl
      rw [hd]
      refine ⟨?_, ?_, ?_⟩
      · rw [List.length_cons, h1]; rfl
      · intro i a b ha hb
        cases i with
        | zero =>
          rw [← Option.some.inj ha, ← Option.some.inj hb]
          rfl
        | succ i => exact h2 i a b ha hb
      · intro hp first last hf hl
        have hxy : x ≤ y := (List.pairwise_cons.1 hp).1 y (List.mem_cons_self ..)
        have := h3 (List.pairwise_cons.1 hp).2 y last rfl (by rw [← hl]; rfl)
        rw [List.sum_cons, ← Option.some.inj hf]
        omega

/-! ### `find_frequency` -/

variable {env : Env σ ER EW} {now : σ → Nat}

theorem Polls_append {d d1 d2 : Driver F σ} {l l' : List (Subpage × Nat)} (h : Polls env now d l d1) (h' : Polls env now d1 l' d2) :
    Polls env now d (l ++ l') d2 := by
  induction h with
  | nil => exact h'
  | cons h1 _ ih => exact .cons h1 (ih h')

theorem changes_same {last : Subpage} {l l' : List (Subpage × Nat)} (h : ∀ p ∈ l, p.1 = last) :
    changes last (l ++ l') = changes last l' := by
  induction l with
  | nil => rfl
  | cons p l ih =>
    have hp : p.1 = last := h p (List.mem_cons_self ..)
    show (if p.1 = last then changes p.1 (l ++ l') else _) = _
    rw [if_pos hp, hp]
    exact ih fun q hq => h q (List.mem_cons_of_mem _ hq)

/-- How the inner loop ends. -/
theorem nextFrame_cases (last : Subpage) (fuel : Nat) (d : Driver F σ) :
    ∃ l d1, Polls env now d l d1 ∧ (∀ p ∈ l, p.1 = last) ∧
      ((l.length = fuel ∧ nextFrame env now last fuel d = (d1, .ok none)) ∨
       (∃ d2 sp, Driver.lastMeasuredSubpage env d1 = (d2, .ok sp) ∧ sp ≠ last ∧
          nextFrame env now last fuel d = (d2, .ok (some (sp, now d2.bus)))) ∨
       (∃ d2 e, Driver.lastMeasuredSubpage env d1 = (d2, .err e) ∧ nextFrame env now last fuel d = (d2, .err e)) ∨
       (∃ d2, Driver.lastMeasuredSubpage env d1 = (d2, .panic) ∧ nextFrame env now last fuel d = (d2, .panic))) := by
  induction fuel generalizing d with
  | zero => exact ⟨[], d, .nil d, (fun _ h => nomatch h), Or.inl ⟨rfl, rfl⟩⟩
  | succ fuel ih =>
    unfold nextFrame
    rw [dm_bind]
    rcases h : Driver.lastMeasuredSubpage env d with ⟨d2, sp | e | _⟩
    · dsimp only
      by_cases hs : sp = last
      · rw [show (if sp ≠ last then _ else _ : DM F σ ER EW (Option (Subpage × Nat))) = _ from if_neg (fun hc => hc hs)]
        obtain ⟨l, d1, hp, hl, hcase⟩ := ih d2
        refine ⟨(sp, now d2.bus) :: l, d1, .cons h hp, fun p hpm => ?_, ?_⟩
        · rcases List.mem_cons.1 hpm with rfl | hpm
          · exact hs
          · exact hl p hpm
        · rcases hcase with ⟨h1, h2⟩ | h1
          · exact Or.inl ⟨by rw [List.length_cons, h1], h2⟩
          · exact Or.inr h1
      · rw [show (if sp ≠ last then _ else _ : DM F σ ER EW (Option (Subpage × Nat))) = _ from if_pos hs]
        exact ⟨[], d, .nil d, (fun _ h => nomatch h), Or.inr (Or.inl ⟨d2, sp, h, hs, rfl⟩)⟩
    · exact ⟨[], d, .nil d, (fun _ h => nomatch h), Or.inr (Or.inr (Or.inl ⟨d2, e, h, rfl⟩))⟩
    · exact ⟨[], d, .nil d, (fun _ h => nomatch h), Or.inr (Or.inr (Or.inr ⟨d2, h, rfl⟩))⟩

/-- How a loop that polls ends, after `l`. -/
def LoopEnds (env : Env σ ER EW) (now : σ → Nat) (fuel n : Nat) (last : Subpage) (d : Driver F σ)
    (r : Driver F σ × Res (Err ER EW) (Option (List Nat))) : Prop :=
  ∃ l d1, Polls env now d l d1 ∧
    ((r = (d1, .ok (some (changes last l))) ∧ (changes last l).length = n) ∨
     (r = (d1, .ok none) ∧ (changes last l).length < n ∧ ∃ l1 l2 sp, l = l1 ++ l2 ∧ l2.length = fuel ∧ ∀ p ∈ l2, p.1 = sp) ∨
     (∃ d2 e, Driver.lastMeasuredSubpage env d1 = (d2, .err e) ∧ r = (d2, .err e) ∧ (changes last l).length < n) ∨
     (∃ d2, Driver.lastMeasuredSubpage env d1 = (d2, .panic) ∧ r = (d2, .panic) ∧ (changes last l).length < n))

theorem nextFrames_ends (fuel n : Nat) (last : Subpage) (d : Driver F σ) :
    LoopEnds env now fuel n last d (nextFrames env now fuel n last d) := by
  induction n generalizing last d with
  | zero => exact ⟨[], d, .nil d, Or.inl ⟨rfl, rfl⟩⟩
  | succ n ih =>
    unfold nextFrames
    rw [dm_bind]
    obtain ⟨l, d1, hp, hl, hcase⟩ := nextFrame_cases (env := env) (now := now) last fuel d
    have hz : (changes last l).length < n + 1 := by
      have := changes_same (l' := []) hl
      rw [List.append_nil] at this
      rw [this]; exact Nat.succ_pos n
    rcases hcase with ⟨h1, h2⟩ | ⟨d2, sp, h1, hs, h2⟩ | ⟨d2, e, h1, h2⟩ | ⟨d2, h1, h2⟩
    · rw [h2]
      exact ⟨l, d1, hp, Or.inr (Or.inl ⟨rfl, hz, [], l, last, rfl, h1, hl⟩)⟩
    · rw [h2]
      dsimp only
      rw [dm_bind]
      obtain ⟨l', d3, hp', hcase⟩ := ih sp d2
      have hpoll : Polls env now d (l ++ (sp, now d2.bus) :: l') d3 := Polls_append hp (.cons h1 hp')
      have hch : changes last (l ++ (sp, now d2.bus) :: l') = now d2.bus :: changes sp l' := by
        rw [changes_same hl]
        exact if_neg hs
      refine ⟨_, d3, hpoll, ?_⟩
      rw [hch, List.length_cons]
      rcases hcase with ⟨h3, h4⟩ | ⟨h3, h4, l1, l2, q, rfl, h5⟩ | ⟨d4, e, h3, h4, h5⟩ | ⟨d4, h3, h4, h5⟩
      · rw [h3]
        exact Or.inl ⟨rfl, by rw [h4]⟩
      · rw [h3]
        exact Or.inr (Or.inl ⟨rfl, Nat.succ_lt_succ h4, l ++ (sp, now d2.bus) :: l1, l2, q, by simp, h5⟩)
      · rw [h4]
        exact Or.inr (Or.inr (Or.inl ⟨d4, e, h3, rfl, Nat.succ_lt_succ h5⟩))
      · rw [h4]
        exact Or.inr (Or.inr (Or.inr ⟨d4, h3, rfl, Nat.succ_lt_succ h5⟩))
    · rw [h2]
      exact ⟨l, d1, hp, Or.inr (Or.inr (Or.inl ⟨d2, e, h1, rfl, hz⟩))⟩
    · rw [h2]
      exact ⟨l, d1, hp, Or.inr (Or.inr (Or.inr ⟨d2, h1, rfl, hz⟩))⟩

/-- **C93 (find_frequency).** The loops poll the subpage. If they end, then either they return the times at which the subpage
polled was another one than in the poll before, and there are exactly `n` of these; or a poll failed (or panicked) before there
were `n` changes, and its error is returned. Otherwise the subpage did not change in `fuel` successive polls (the program goes
on polling). -/
theorem C93_find_frequency (fuel n : Nat) (d : Driver F σ) :
    let r := findFrequency env now fuel n d
    (∃ d1 e, Driver.lastMeasuredSubpage env d = (d1, .err e) ∧ r = (d1, .err e)) ∨
    (∃ d1, Driver.lastMeasuredSubpage env d = (d1, .panic) ∧ r = (d1, .panic)) ∨
    ∃ first l d1, Polls env now d (first :: l) d1 ∧
      ((r = (d1, .ok (some (changes first.1 l))) ∧ (changes first.1 l).length = n) ∨
       (r = (d1, .ok none) ∧ (changes first.1 l).length < n ∧
          ∃ l1 l2 sp, l = l1 ++ l2 ∧ l2.length = fuel ∧ ∀ p ∈ l2, p.1 = sp) ∨
       (∃ d2 e, Driver.lastMeasuredSubpage env d1 = (d2, .err e) ∧ r = (d2, .err e) ∧ (changes first.1 l).length < n) ∨
       (∃ d2, Driver.lastMeasuredSubpage env d1 = (d2, .panic) ∧ r = (d2, .panic) ∧ (changes first.1 l).length < n)) := by
  dsimp only
  unfold findFrequency
  rw [dm_bind]
  rcases h : Driver.lastMeasuredSubpage env d with ⟨d2, sp | e | _⟩
  · obtain ⟨l, d1, hp, hcase⟩ := nextFrames_ends (env := env) (now := now) fuel n sp d2
    exact Or.inr (Or.inr ⟨(sp, now d2.bus), l, d1, .cons h hp, hcase⟩)
  · exact Or.inl ⟨d2, e, rfl, rfl⟩
  · exact Or.inr (Or.inl ⟨d2, rfl, rfl⟩)

/-! ### The picture -/

theorem flatMap_map {α β γ : Type} (f : α → β) (g : β → List γ) (l : List α) : (l.map f).flatMap g = l.flatMap fun x => g (f x) := by
  induction l with
  | nil => rfl
  | cons a l ih => simp only [List.map_cons, List.flatMap_cons, ih]

theorem range_rows {γ : Type} (h w : Nat) (g : Nat → List γ) :
    (List.range (h * w)).flatMap g = (List.range h).flatMap fun r => (List.range w).flatMap fun c => g (r * w + c) := by
  induction h with
  | zero => simp
  | succ h ih =>
    rw [Nat.succ_mul, List.range_add, List.flatMap_append, ih, List.range_succ, List.flatMap_append, List.flatMap_singleton, flatMap_map]

/-- **C92 (the picture).** What is printed of `height` rows of `width` temperatures. -/
theorem C92_picture (format : F → List Char) (temperatures : List F) (height width : Nat) (hw : 0 < width) (value : Nat → F)
    (hlen : temperatures.length = height * width) (hval : ∀ i < height * width, temperatures[i]? = some (value i)) :
    printTemperatures format temperatures width = picture format height width value := by
  have ht : temperatures.zipIdx = (List.range (height * width)).map fun i => (value i, i) := by
    apply List.ext_getElem?
    intro i
    rw [List.getElem?_zipIdx, List.getElem?_map]
    by_cases hi : i < height * width
    · rw [hval i hi, List.getElem?_range hi]; simp
    · rw [List.getElem?_eq_none (by omega), List.getElem?_eq_none (by simpa using hi)]; rfl
  unfold printTemperatures picture
  rw [ht, flatMap_map, range_rows]
  congr 1
  funext r
  obtain ⟨w, rfl⟩ : ∃ w, width = w + 1 := ⟨width - 1, by omega⟩
  dsimp only
  rw [List.range_succ_eq_map, List.flatMap_cons, List.flatMap_cons, flatMap_map, flatMap_map, Nat.add_zero, Nat.mul_mod_left, if_pos rfl]
  have rest : (List.range w).flatMap (fun c => (if (r * (w + 1) + c.succ) % (w + 1) = 0 then ['\n'] else []) ++
        (format (value (r * (w + 1) + c.succ)) ++ [' ', ' '])) =
      (List.range w).flatMap fun c => format (value (r * (w + 1) + c.succ)) ++ [' ', ' '] := by
    apply List.flatMap_congr
    intro c hc
    have hc : c < w := List.mem_range.1 hc
    rw [if_neg, List.nil_append]
    rw [Nat.add_comm, Nat.add_mul_mod_self_right, Nat.mod_eq_of_lt (by omega)]
    omega
  rw [rest]
  rfl

example : printTemperatures (fun t : Nat => [Char.ofNat (48 + t / 10), Char.ofNat (48 + t % 10)]) [21, 22, 23, 24] 2 =
    "\n21  22  \n23  24  ".toList := by decide

/-! ### `terminal-temperatures` -/

/-- A new driver has the settings of its calibration. -/
theorem new_settings {C : Type} {fromData : List Byte → Res LibErr C} {toCalib : C → Calib F} {b : Bus σ ER EW} {n : Nat}
    {s s' : σ} {addr : Byte} {d : Driver F σ} (hd : Driver.new fromData toCalib b n s addr = (s', .ok d)) :
    d.emissivity = d.calib.emissivity.getD (lit 1) ∧ d.reflected = none := by
  unfold Driver.new at hd
  generalize calibFromI2c fromData b s addr = q at hd
  obtain ⟨s1, c | e | _⟩ := q
  · simp only at hd
    unfold Driver.newWithCalibration at hd
    generalize readControl b s1 addr = q at hd
    obtain ⟨s2, c' | e | _⟩ := q
    · simp only [Prod.mk.injEq] at hd
      obtain ⟨_, hd⟩ := hd
      rw [resolution_val, accessPattern_val] at hd
      have := Res.ok.inj hd
      rw [← this]
      exact ⟨rfl, rfl⟩
    · cases hd
    · cases hd
  · cases hd
  · cases hd

/-- One call of `generate_image_if_ready` on a healthy camera. -/
theorem ready_call {env : Env σ ER EW} {d : Driver F σ} (hs : Supported env d) (hk : d.calib.cam.basicRange < d.calib.kSTo.length)
    (h : StaticMemory env.bus d.addr mem) (hv : Serves env.bus d.calib.cam d.addr mem) (hfit : SupplyFits env.mode d.calib (mem d.bus))
    (dest : List F) :
    ∃ d2 dest2 v, Driver.generateImageIfReady env dest d = (d2, dest2, .ok v) ∧
      ((Op.generateImageIfReady dest).exec env d) = (d2, .ok ()) ∧
      d2.emissivity = d.emissivity ∧ d2.reflected = d.reflected ∧
      (v = false → (mem d.bus 0x8000#16).getLsbD 3 = false ∧ dest2 = dest) ∧
      (∀ a, a ≠ 0x8000#16 → mem d2.bus a = mem d.bus a) ∧ (mem d2.bus 0x8000#16).getLsbD 3 = false ∧
      (∀ i, ¬ (3 ≤ i ∧ i ≤ 5) → (mem d2.bus 0x8000#16).getLsbD i = (mem d.bus 0x8000#16).getLsbD i) := by
  have ok := healthy_call hs hk h hv hfit (.generateImageIfReady dest)
  have keep := (exec_keeps env (.generateImageIfReady dest) rfl d).1
  have st := exec_status hs h (.generateImageIfReady dest)
  have other := (exec_static_other hs h (.generateImageIfReady dest) rfl).1
  rcases hq : Driver.generateImageIfReady env dest d with ⟨d2, dest2, r⟩
  rw [exec_ifReady hq] at ok keep st other
  match r, hq, ok, st with
  | .ok v, hq, _, st =>
    refine ⟨d2, dest2, v, rfl, exec_ifReady hq, keep.emissivity, keep.reflected, ?_, fun a ha => other a ha, st.clear rfl rfl,
      st.other⟩
    rintro rfl
    exact ifReady_idle h hq
  | .err e, _, ok, _ => cases ok
  | .panic, _, ok, _ => cases ok

/-- What two pictures drawn one over the other leave in a buffer of zeros. -/
theorem drawn_twice {n : Nat} {f1 f2 : Nat → Option ℝ} {dest1 dest2 : List ℝ} {m1 m2 : Nat → Prop} {v1 v2 : Nat → ℝ}
    (h1 : Drawn m1 v1 (List.replicate n (lit 0)) dest1) (h2 : Drawn m2 v2 dest1 dest2)
    (e1 : ∀ i, (m1 i → f1 i = some (v1 i)) ∧ (¬ m1 i → f1 i = none))
    (e2 : ∀ i, (m2 i → f2 i = some (v2 i)) ∧ (¬ m2 i → f2 i = none)) :
    dest2.length = n ∧ ∀ i < n, dest2[i]? = some (newest [f2, f1] i) := by
  have hl1 : dest1.length = n := by rw [h1.1, List.length_replicate]
  refine ⟨h2.1.trans hl1, fun i hi => ?_⟩
  unfold newest newest newest
  by_cases hm2 : m2 i
  · rw [(e2 i).1 hm2, (h2.2 i).1 hm2 (by omega)]; rfl
  · rw [(e2 i).2 hm2, (h2.2 i).2 hm2]
    by_cases hm1 : m1 i
    · rw [(e1 i).1 hm1, (h1.2 i).1 hm1 (by simpa using hi)]; rfl
    · rw [(e1 i).2 hm1, (h1.2 i).2 hm1, List.getElem?_replicate, if_pos hi]
      simp [lit]

theorem _root_.Mlx.Spec.Drawn.nothing {m : Nat → Prop} (v : Nat → ℝ) (dest : List ℝ) (h : ∀ i, ¬ m i) : Drawn m v dest dest :=
  ⟨rfl, fun i => ⟨fun hm => absurd hm (h i), fun _ => rfl⟩⟩

section
variable (m : Mode) (b : Bus σ ER EW) (s s' : σ) (addr : Byte) (sleep : σ → σ) (format : ℝ → List Char)

/-- Two calls of `generate_image_if_ready` from the driver `d1` on, with a pause: they succeed, and what is in the buffer. -/
def Twice (m : Mode) (n w : Nat) (b : Bus σ ER EW) (s : σ) (sleep : σ → σ) (fits : (Word → Word) → Prop)
    (frame : (Word → Word) → Nat → Option ℝ) (d1 : Driver ℝ σ) : Prop :=
  ∃ d2 dest2 v, Driver.generateImageIfReady ⟨m, n, b⟩ (List.replicate (n * w) (lit 0)) d1 = (d2, dest2, .ok v) ∧
    (∀ a, a ≠ 0x8000#16 → mem d2.bus a = mem s a) ∧ (mem d2.bus 0x8000#16).getLsbD 3 = false ∧
    (∀ i, ¬ (3 ≤ i ∧ i ≤ 5) → (mem d2.bus 0x8000#16).getLsbD i = (mem s 0x8000#16).getLsbD i) ∧
    (fits (mem (sleep d2.bus)) → ∃ d3 dest3 v',
      Driver.generateImageIfReady ⟨m, n, b⟩ dest2 { d2 with bus := sleep d2.bus } = (d3, dest3, .ok v') ∧
      dest3.length = n * w ∧ ∀ i < n * w, dest3[i]? = some (newest [frame (mem (sleep d2.bus)), frame (mem s)] i))

theorem two_pictures {n w : Nat} (d : Driver ℝ σ) (hs : Supported (⟨m, n, b⟩ : Env σ ER EW) d) (ha : d.addr = addr)
    (hk : d.calib.cam.basicRange < d.calib.kSTo.length) (h : StaticMemory b addr mem) (hv : Serves b d.calib.cam addr mem)
    (hsleep : ∀ x a, ¬ Volatile a → mem (sleep x) a = mem x a)
    (fits : (Word → Word) → Prop) (hfit : ∀ M, fits M → SupplyFits m d.calib M)
    (frame : (Word → Word) → Nat → Option ℝ) (measured : (Word → Word) → Nat → Prop)
    (hflag : ∀ M i, measured M i → (M 0x8000#16).getLsbD 3 = true)
    (value : (Word → Word) → ℝ → Nat → ℝ)
    (hframe : ∀ M i, (measured M i → frame M i = some (value M d.emissivity i)) ∧ (¬ measured M i → frame M i = none))
    (hdraw : ∀ calls d1, Session ⟨m, n, b⟩ mem anyFrame d calls d1 → (∀ c ∈ calls, ¬ ControlWriteFailed c.1 c.2) → fits (mem d1.bus) →
      d1.reflected = none → ∀ dest dest' d', Driver.generateImageIfReady ⟨m, n, b⟩ dest d1 = (d', dest', .ok true) →
        Drawn (measured (mem d1.bus)) (value (mem d1.bus) d1.emissivity) dest dest')
    (hfit1 : fits (mem s)) {calls : List (Op ℝ × Res (Err ER EW) Unit)} {d1 : Driver ℝ σ}
    (hx1 : Session ⟨m, n, b⟩ mem anyFrame d calls d1) (hn1 : ∀ c ∈ calls, ¬ ControlWriteFailed c.1 c.2) (hmem : mem d1.bus = mem s)
    (hr : d1.reflected = none) (hem : d1.emissivity = d.emissivity) :
    Twice (mem := mem) m n w b s sleep fits frame d1 := by
  have step : ∀ calls d1, Session ⟨m, n, b⟩ mem anyFrame d calls d1 → (∀ c ∈ calls, ¬ ControlWriteFailed c.1 c.2) →
      fits (mem d1.bus) → d1.reflected = none → d1.emissivity = d.emissivity → ∀ dest, ∃ d2 dest2 v,
        Driver.generateImageIfReady ⟨m, n, b⟩ dest d1 = (d2, dest2, .ok v) ∧
        Session ⟨m, n, b⟩ mem anyFrame d (calls ++ [(.generateImageIfReady dest, .ok ())]) d2 ∧
        d2.reflected = none ∧ d2.emissivity = d.emissivity ∧
        Drawn (measured (mem d1.bus)) (value (mem d1.bus) d.emissivity) dest dest2 ∧
        (∀ a, a ≠ 0x8000#16 → mem d2.bus a = mem d1.bus a) ∧ (mem d2.bus 0x8000#16).getLsbD 3 = false ∧
        (∀ i, ¬ (3 ≤ i ∧ i ≤ 5) → (mem d2.bus 0x8000#16).getLsbD i = (mem d1.bus 0x8000#16).getLsbD i) := by
    intro calls d1 hx hn hf hr1 he1 dest
    obtain ⟨hs1, ha1, hc1⟩ := session_supported hs hx
    obtain ⟨d2, dest2, v, h1, h2, h3, h4, h5, h6, h7, h8⟩ := ready_call hs1 (by rw [hc1]; exact hk)
      (by rw [ha1, ha]; exact h) (by rw [ha1, ha, hc1]; exact hv) (by rw [hc1]; exact hfit _ hf) dest
    refine ⟨d2, dest2, v, h1, ?_, h4.trans hr1, h3.trans he1, ?_, h6, h7, h8⟩
    · have := Session.call (.generateImageIfReady dest) hx
      rw [h2] at this
      exact this
    · cases v with
      | false =>
        obtain ⟨h9, rfl⟩ := h5 rfl
        refine Drawn.nothing _ _ fun i hi => ?_
        rw [hflag _ i hi] at h9
        cases h9
      | true =>
        rw [← he1]
        exact hdraw calls d1 hx hn hf hr1 dest dest2 d2 h1
  obtain ⟨d2, dest2, v, h1, h2, h3, h4, h5, h6, h7, h8⟩ := step calls d1 hx1 hn1 (by rw [hmem]; exact hfit1) hr hem
    (List.replicate (n * w) (lit 0))
  rw [hmem] at h5 h6 h8
  refine ⟨d2, dest2, v, h1, h6, h7, h8, fun hfit2 => ?_⟩
  obtain ⟨d3, dest3, v', k1, k2, k3, k4, k5, _⟩ := step _ { d2 with bus := sleep d2.bus } (.measurement (sleep d2.bus) h2 (hsleep _) trivial)
    (by
      rintro c hc ⟨_, e, he⟩
      rcases List.mem_append.1 hc with hc | hc
      · exact hn1 c hc ⟨‹_›, e, he⟩
      · rw [List.mem_singleton] at hc
        rw [hc] at he
        cases he) hfit2 h3 h4 dest2
  obtain ⟨hl, hval⟩ := drawn_twice h5 k5 (hframe _) (hframe _)
  exact ⟨d3, dest3, v', k1, hl, hval⟩

theorem twice_640 (h : StaticMemory b addr mem) (hv : Serves b Mlx90640.cam addr mem) (d : Driver ℝ σ)
    (hd : Driver.new640 m b s addr = (s', .ok d)) (hreg : Ee640.Regular (eepromOf (mem s)))
    (hsleep : ∀ x a, ¬ Volatile a → mem (sleep x) a = mem x a)
    (hfit : Fits16 ((mem s 0x072A#16).toInt - (Ee640.calibration (eepromOf (mem s))).vdd25)) :
    mem d.bus = mem s ∧ d.reflected = none ∧ ∀ (calls : List (Op ℝ × Res (Err ER EW) Unit)) (d1 : Driver ℝ σ),
      Session (⟨m, 24, b⟩ : Env σ ER EW) mem anyFrame d calls d1 → (∀ c ∈ calls, ¬ ControlWriteFailed c.1 c.2) →
      mem d1.bus = mem s → d1.reflected = none → d1.emissivity = d.emissivity →
      Twice (mem := mem) m 24 32 b s sleep
        (fun M => Fits16 ((M 0x072A#16).toInt - (Ee640.calibration (eepromOf (mem s))).vdd25))
        (fun M => frame640 M 1) d1 := by
  obtain ⟨hs, ha⟩ := supported_of_new (n := 24) m (Or.inl ⟨rfl, hd⟩)
  have hcomp := constructed_complete (Or.inl hd)
  obtain ⟨hmem, _⟩ := new_static h hd
  obtain ⟨hem, hrefl⟩ := new_settings hd
  have htab : d.calib = Ee640.calibration (eepromOf (mem s)) := by
    obtain ⟨_, c, hc, hcal⟩ := new_static h hd
    have hsame : SameEeprom (eepromWord (memBytes (mem s) 0x2400#16 1664)) (eepromOf (mem s)) := by
      intro a h1 h2
      exact eepromWord_memBytes _ h1 h2
    rw [hcal, C66_table_640 m _ c hc (SameEeprom.regular (fun a h1 h2 => (eepromWord_memBytes _ h1 h2).symm) hreg)]
    exact hsame.calibration
  have hone : d.emissivity = 1 := by
    rw [hem, htab]
    show ((1 : Rat) : ℝ) = 1
    norm_num
  have hcam : d.calib.cam = Mlx90640.cam := by rw [htab]; rfl
  refine ⟨hmem, hrefl, fun calls d1 hx1 hn1 hmem1 hr1 hem1 => two_pictures m b s addr sleep (n := 24) (w := 32) d hs ha hcomp.kSTo h
    (by rw [hcam]; exact hv) hsleep
    (fun M => Fits16 ((M 0x072A#16).toInt - (Ee640.calibration (eepromOf (mem s))).vdd25)) ?_
    (fun M => frame640 M 1) (fun M i => (M 0x8000#16).getLsbD 3 = true ∧
      Mlx90640Memory.measured M (if (M 0x8000#16).getLsbD 0 then Subpage.one else Subpage.zero) i) (fun M i hi => hi.1)
    (fun M em i => Mlx90640Memory.temperature M em none (if (M 0x8000#16).getLsbD 0 then Subpage.one else Subpage.zero) i) ?_ ?_ hfit hx1 hn1 hmem1 hr1 hem1⟩
  · intro M hM
    refine Or.inr ?_
    rw [hcam, htab]
    exact hM
  · intro M i
    rw [hone]
    exact ⟨fun hi => if_pos hi, fun hi => if_neg hi⟩
  · intro calls d1 hx hn hf hr1 dest dest' d' hgen
    obtain ⟨hM, himg⟩ := C66_camera_640 m b s s' addr h d hd hreg calls d1 hx hn dest dest' d'
    have hsame : SameEeprom (eepromOf (mem s)) (eepromOf (mem d1.bus)) := fun a h1 h2 =>
      (hM _ (eeprom_still h1 h2).1 (eeprom_still h1 h2).2).symm
    have hcal : Ee640.calibration (eepromOf (mem s)) = Ee640.calibration (eepromOf (mem d1.bus)) := hsame.calibration
    obtain ⟨k1, _, k3⟩ := (himg (by rw [← hcal]; exact hf)).2.2.2 hgen
    have hsp : statusSubpage (mem d1.bus 0x8000#16) = if (mem d1.bus 0x8000#16).getLsbD 0 then Subpage.one else Subpage.zero := rfl
    rw [hsp] at k3
    unfold Driver.reflectedTemperature Driver.effectiveEmissivity at k3
    rw [hr1] at k3
    refine ⟨k3.1, fun i => ⟨fun hi => (k3.2 i).1 hi.2, fun hi => (k3.2 i).2 fun hc => hi ⟨k1, hc⟩⟩⟩

theorem twice_641 (h : StaticMemory b addr mem) (hv : Serves b Mlx90641.cam addr mem) (d : Driver ℝ σ)
    (hd : Driver.new641 m b s addr = (s', .ok d)) (D : Nat → BitVec 11) (hreg : Ee641.Regular D)
    (hD : ∀ a ∈ Ee641.readAddresses 192, WithinOneBit (eepromOf (mem s) a) (codeword (D a)))
    (hsleep : ∀ x a, ¬ Volatile a → mem (sleep x) a = mem x a)
    (hfit : Fits16 ((mem s 0x05AA#16).toInt - (Ee641.calibration D).vdd25)) :
    mem d.bus = mem s ∧ d.reflected = none ∧ ∀ (calls : List (Op ℝ × Res (Err ER EW) Unit)) (d1 : Driver ℝ σ),
      Session (⟨m, 12, b⟩ : Env σ ER EW) mem anyFrame d calls d1 → (∀ c ∈ calls, ¬ ControlWriteFailed c.1 c.2) →
      mem d1.bus = mem s → d1.reflected = none → d1.emissivity = d.emissivity →
      Twice (mem := mem) m 12 16 b s sleep
        (fun M => Fits16 ((M 0x05AA#16).toInt - (Ee641.calibration D).vdd25))
        (fun M => frame641 M D ((D 0x2423).toInt / 2 ^ 9)) d1 := by
  obtain ⟨hs, ha⟩ := supported_of_new (n := 12) m (Or.inr ⟨rfl, hd⟩)
  have hcomp := constructed_complete (Or.inr hd)
  obtain ⟨hmem, c, hc, hcal⟩ := new_static h hd
  obtain ⟨hem, hrefl⟩ := new_settings hd
  have htab : d.calib = Ee641.calibration D := by
    rw [hcal]
    refine C66_table_641 m _ c hc D (fun a ha => ?_) hreg
    have hb := readAddresses_bounds ha
    rw [eepromWord_memBytes _ (by omega) hb.2.1]
    exact hD a ha
  have hone : d.emissivity = (D 0x2423).toInt / 2 ^ 9 := by
    rw [hem, htab]; rfl
  have hcam : d.calib.cam = Mlx90641.cam := by rw [htab]; rfl
  refine ⟨hmem, hrefl, fun calls d1 hx1 hn1 hmem1 hr1 hem1 => two_pictures m b s addr sleep (n := 12) (w := 16) d hs ha hcomp.kSTo h
    (by rw [hcam]; exact hv) hsleep
    (fun M => Fits16 ((M 0x05AA#16).toInt - (Ee641.calibration D).vdd25)) ?_
    (fun M => frame641 M D ((D 0x2423).toInt / 2 ^ 9)) (fun M i => (M 0x8000#16).getLsbD 3 = true ∧ i < 192) (fun M i hi => hi.1)
    (fun M em i => Mlx90641Memory.temperature M D em none (if (M 0x8000#16).getLsbD 0 then Subpage.one else Subpage.zero) i) ?_ ?_ hfit hx1 hn1 hmem1 hr1 hem1⟩
  · intro M hM
    refine Or.inr ?_
    rw [hcam, htab]
    exact hM
  · intro M i
    rw [hone]
    exact ⟨fun hi => if_pos hi, fun hi => if_neg hi⟩
  · intro calls d1 hx hn hf hr1 dest dest' d' hgen
    obtain ⟨hM, himg⟩ := C66_camera_641 m b s s' addr h d hd D hreg hD calls d1 hx hn dest dest' d'
    obtain ⟨k1, _, k3⟩ := (himg hf).2.2.2 hgen
    have hsp : statusSubpage (mem d1.bus 0x8000#16) = if (mem d1.bus 0x8000#16).getLsbD 0 then Subpage.one else Subpage.zero := rfl
    rw [hsp] at k3
    unfold Driver.reflectedTemperature Driver.effectiveEmissivity at k3
    rw [hr1] at k3
    refine ⟨k3.1, fun i => ⟨fun hi => (k3.2 i).1 hi.2, fun hi => (k3.2 i).2 fun hc => hi ⟨k1, hc⟩⟩⟩

theorem terminal_generic {n w : Nat} (hw : 0 < w) (make : Bus σ ER EW → σ → Byte → σ × Res (Err ER EW) (Driver ℝ σ))
    (d : Driver ℝ σ) (hd : make b s addr = (s', .ok d)) {fits : (Word → Word) → Prop} {frame : (Word → Word) → Nat → Option ℝ}
    (ht : Twice (mem := mem) m n w b s sleep fits frame d) :
    ∃ x, (∀ a, a ≠ 0x8000#16 → mem x a = mem s a) ∧ (mem x 0x8000#16).getLsbD 3 = false ∧
      (∀ i, ¬ (3 ≤ i ∧ i ≤ 5) → (mem x 0x8000#16).getLsbD i = (mem s 0x8000#16).getLsbD i) ∧
      (fits (mem (sleep x)) → ∃ s'', terminalTemperatures m make n w b sleep format s addr =
        (s'', .ok (picture format n w (newest [frame (mem (sleep x)), frame (mem s)]) ++ ['\n']))) := by
  obtain ⟨d2, dest2, v, h1, h6, h7, h8, h9⟩ := ht
  refine ⟨d2.bus, h6, h7, h8, fun hfit2 => ?_⟩
  obtain ⟨d3, dest3, v', k1, hl, hval⟩ := h9 hfit2
  refine ⟨d3.bus, ?_⟩
  unfold terminalTemperatures
  rw [hd]
  simp only [h1, k1]
  rw [C92_picture format dest3 n w hw _ hl hval]

/-- **C92 (the program, MLX90640).** On a bus that serves the documented accesses, with an MLX90640 of regular EEPROM: the program prints
24 rows of 32 temperatures. Each one is the documented temperature, at emissivity 1, of the picture that the camera has after
half a second, if it has a new one that covers the pixel; otherwise of the picture that it had before, if it had a new one that
covers the pixel; otherwise 0. (In between, the program has cleared the new-data flag and changed nothing but bits 3 to 5 of the status register; the camera itself does anything to its
RAM and status register. The V_DD readings are within 16 bits of their reference, and arithmetic is exact.) -/
theorem C92_terminal_640 (h : StaticMemory b addr mem) (hv : Serves b Mlx90640.cam addr mem) (d : Driver ℝ σ)
    (hd : Driver.new640 m b s addr = (s', .ok d)) (hreg : Ee640.Regular (eepromOf (mem s)))
    (hsleep : ∀ x a, ¬ Volatile a → mem (sleep x) a = mem x a)
    (hfit : Fits16 ((mem s 0x072A#16).toInt - (Ee640.calibration (eepromOf (mem s))).vdd25)) :
    ∃ x, (∀ a, a ≠ 0x8000#16 → mem x a = mem s a) ∧ (mem x 0x8000#16).getLsbD 3 = false ∧
      (∀ i, ¬ (3 ≤ i ∧ i ≤ 5) → (mem x 0x8000#16).getLsbD i = (mem s 0x8000#16).getLsbD i) ∧
      (Fits16 ((mem (sleep x) 0x072A#16).toInt - (Ee640.calibration (eepromOf (mem s))).vdd25) →
        ∃ s'', terminalTemperatures m (Driver.new640 m) 24 32 b sleep format s addr =
          (s'', .ok (picture format 24 32 (newest [frame640 (mem (sleep x)) 1, frame640 (mem s) 1]) ++ ['\n']))) := by
  obtain ⟨hmem, hrefl, ht⟩ := twice_640 m b s s' addr sleep h hv d hd hreg hsleep hfit
  exact terminal_generic m b s s' addr sleep format (by decide) (Driver.new640 m) d hd
    (ht [] d .start (fun c hc => nomatch hc) hmem hrefl rfl)

/-- **C92 (the program, MLX90641).** The same for an MLX90641 whose EEPROM words have at most one wrong bit each: 12 rows of 16
temperatures, at the emissivity in the EEPROM, each the one of the last new picture; 0 if there was none. -/
theorem C92_terminal_641 (h : StaticMemory b addr mem) (hv : Serves b Mlx90641.cam addr mem) (d : Driver ℝ σ)
    (hd : Driver.new641 m b s addr = (s', .ok d)) (D : Nat → BitVec 11) (hreg : Ee641.Regular D)
    (hD : ∀ a ∈ Ee641.readAddresses 192, WithinOneBit (eepromOf (mem s) a) (codeword (D a)))
    (hsleep : ∀ x a, ¬ Volatile a → mem (sleep x) a = mem x a)
    (hfit : Fits16 ((mem s 0x05AA#16).toInt - (Ee641.calibration D).vdd25)) :
    ∃ x, (∀ a, a ≠ 0x8000#16 → mem x a = mem s a) ∧ (mem x 0x8000#16).getLsbD 3 = false ∧
      (∀ i, ¬ (3 ≤ i ∧ i ≤ 5) → (mem x 0x8000#16).getLsbD i = (mem s 0x8000#16).getLsbD i) ∧
      (Fits16 ((mem (sleep x) 0x05AA#16).toInt - (Ee641.calibration D).vdd25) →
        ∃ s'', terminalTemperatures m (Driver.new641 m) 12 16 b sleep format s addr =
          (s'', .ok (picture format 12 16 (newest [frame641 (mem (sleep x)) D ((D 0x2423).toInt / 2 ^ 9),
            frame641 (mem s) D ((D 0x2423).toInt / 2 ^ 9)]) ++ ['\n']))) := by
  obtain ⟨hmem, hrefl, ht⟩ := twice_641 m b s s' addr sleep h hv d hd D hreg hD hsleep hfit
  exact terminal_generic m b s s' addr sleep format (by decide) (Driver.new641 m) d hd
    (ht [] d .start (fun c hc => nomatch hc) hmem hrefl rfl)

/-- The hypotheses are met: a camera with the EEPROM of the datasheet's example that has a new picture of subpage 1 after half a
second. -/
example (m : Mode) : ∃ x : Word → Word, ∃ s'', (x 0x8000#16).getLsbD 3 = false ∧
    terminalTemperatures m (Driver.new640 m) 24 32 (cameraBus 0x33#8) (fun M a => if a = 0x8000#16 then 9#16 else M a) format
        (exampleMemory words640) 0x33#8 =
      (s'', .ok (picture format 24 32
        (newest [frame640 (fun a => if a = 0x8000#16 then 9#16 else x a) 1, frame640 (exampleMemory words640) 1]) ++ ['\n'])) := by
  obtain ⟨s', d, hd, hreg, hfit, _⟩ := camera640_example m
  obtain ⟨x, h1, h2, _, h4⟩ := C92_terminal_640 (mem := id) m (cameraBus 0x33#8) (exampleMemory words640) s' 0x33#8
    (fun M a => if a = 0x8000#16 then 9#16 else M a) format (cameraBus_static _) (cameraBus_serves _ _) d hd hreg
    (fun M a ha => if_neg fun hc => ha (Or.inr hc)) hfit
  have hx : x 0x072A#16 = exampleMemory words640 0x072A#16 := h1 _ (by decide)
  obtain ⟨s'', h5⟩ := h4 (by
    show Fits16 ((x 0x072A#16).toInt - _)
    rw [hx]
    exact hfit)
  exact ⟨x, s'', h2, h5⟩

end

end Mlx.Props
