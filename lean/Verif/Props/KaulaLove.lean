import Verif.Model.Kaula
import Verif.Model.RealTrig
import Verif.Spec.Interp
import Mathlib.Tactic.Linarith
import Mathlib.Tactic.FieldSimp
import Mathlib.Tactic.Ring
import Mathlib.Tactic.NormNum
import Mathlib.Order.Compare

/-! # C52: the Love numbers of the Kaula model -/

namespace Posidonius

noncomputable instance : FTotal ℝ := ⟨fun a b => compare a b⟩

@[simp] theorem cmp_real (a b : ℝ) : FTotal.cmp a b = compare a b := rfl

/-- `total_cmp`: a (positive) NaN is greater than every number. -/
instance : FTotal XQ where
  cmp
    | .nan, .nan => .eq
    | .nan, _ => .gt
    | _, .nan => .lt
    | a, b => if ltb a b then .lt else if ltb b a then .gt else .eq

namespace Kaula

theorem searchLoop_spec (cmp : Nat → Ordering) (size : Nat) : ∀ base, 1 ≤ size →
    base ≤ searchLoop cmp size base ∧ searchLoop cmp size base < base + size
      ∧ (searchLoop cmp size base = base ∨ cmp (searchLoop cmp size base) ≠ .gt)
      ∧ ((∀ i j, i ≤ j → j < base + size → cmp i = .gt → cmp j = .gt) →
        ∀ i, searchLoop cmp size base < i → i < base + size → cmp i = .gt) := by
  induction size using Nat.strong_induction_on with
  | _ size ih =>
    intro base h1
    rw [searchLoop]
    by_cases hs : 1 < size
    · rw [dif_pos hs]
      by_cases hc : cmp (base + size / 2) = .gt
      · simp only [hc, if_true]
        obtain ⟨a, b, c, d⟩ := ih (size - size / 2) (by omega) base (by omega)
        refine ⟨a, by omega, c, fun hm i hi hi' => ?_⟩
        by_cases hlt : i < base + (size - size / 2)
        · exact d (fun i j hij hj => hm i j hij (by omega)) i hi hlt
        · exact hm (base + size / 2) i (by omega) hi' hc
      · simp only [hc, if_false]
        obtain ⟨a, b, c, d⟩ := ih (size - size / 2) (by omega) (base + size / 2) (by omega)
        refine ⟨by omega, by omega, Or.inr ?_, fun hm i hi hi' => ?_⟩
        · rcases c with c | c
          · rw [c]; exact hc
          · exact c
        · exact d (fun i j hij hj => hm i j hij (by omega)) i hi (by omega)
    · rw [dif_neg hs]
      exact ⟨le_refl _, by omega, Or.inl rfl, fun _ i hi hi' => by omega⟩

/-- The contract of `binary_search_by` for sorted entries: `Ok(i)` is a match, `Err(i)` is the place where the value
would have to be inserted. -/
theorem binarySearch_spec (cmp : Nat → Ordering) (n : Nat)
    (hm : ∀ i j, i < j → j < n → cmp i ≠ .lt → cmp j = .gt) :
    (∃ i, binarySearch cmp n = .inr i ∧ i < n ∧ cmp i = .eq)
    ∨ ∃ i, binarySearch cmp n = .inl i ∧ i ≤ n ∧ (∀ j, j < i → cmp j = .lt) ∧ (∀ j, i ≤ j → j < n → cmp j = .gt) := by
  unfold binarySearch
  by_cases hn : n = 0
  · rw [if_pos hn]
    exact Or.inr ⟨0, rfl, Nat.zero_le _, fun j hj => by omega, fun j _ hj => by omega⟩
  · rw [if_neg hn]
    obtain ⟨-, b, c, d⟩ := searchLoop_spec cmp n 0 (by omega)
    have d := d fun i j hij hj hi => by
      rcases Nat.lt_or_eq_of_le hij with h | h
      · exact hm i j h (by omega) (by rw [hi]; decide)
      · rw [← h]; exact hi
    rw [Nat.zero_add] at b d
    set r := searchLoop cmp n 0
    have hbelow : ∀ s, s < n → (cmp s ≠ .gt) → ∀ j, j < s → cmp j = .lt := fun s hs h j hj => by
      by_contra hl
      exact h (hm j s hj hs hl)
    cases hr : cmp r with
    | eq => exact Or.inl ⟨r, by simp only [hr], b, hr⟩
    | lt =>
      refine Or.inr ⟨r + 1, by simp only [hr], by omega, fun j hj => ?_, fun j hj hj' => d j (by omega) hj'⟩
      rcases Nat.lt_or_eq_of_le (Nat.le_of_lt_succ hj) with h | h
      · exact hbelow r b (by rw [hr]; decide) j h
      · rw [h]; exact hr
    | gt =>
      have h0 : r = 0 := c.resolve_right (fun h => h hr)
      refine Or.inr ⟨r, by simp only [hr], by omega, fun j hj => by omega, fun j hj hj' => ?_⟩
      rcases Nat.lt_or_eq_of_le hj with h | h
      · exact d j h hj'
      · rw [← h]; exact hr

open Interp (Increasing PiecewiseLinear)

/-- A table as the user has to give it: strictly increasing frequencies, as many Love numbers. -/
structure Sound (t : LoveTable ℝ) : Prop where
  pos : 0 < t.frequency.length
  re : t.re.length = t.frequency.length
  im : t.im.length = t.frequency.length
  inc : Increasing t.frequency

theorem lookup_spec {t : LoveTable ℝ} (h : Sound t) (w : ℝ) :
    ∃ im re, lookup t w = some (im, re) ∧ PiecewiseLinear t.frequency t.im h.im w im
      ∧ PiecewiseLinear t.frequency t.re h.re w re := by
  obtain ⟨h0, hre, him, hinc⟩ := h
  have hmono : ∀ i j (hij : i ≤ j) (hj : j < t.frequency.length), t.frequency[i] ≤ t.frequency[j] := fun i j hij hj => by
    rcases Nat.lt_or_eq_of_le hij with h | h
    · exact (hinc i j hj h).le
    · subst h; exact le_refl _
  have hl : t.frequency.length - 1 < t.frequency.length := by omega
  unfold lookup
  simp only [List.getElem?_eq_getElem h0, List.getElem?_eq_getElem hl, List.getElem?_eq_getElem (by omega : 0 < t.im.length),
    List.getElem?_eq_getElem (by omega : 0 < t.re.length), List.getElem?_eq_getElem (by omega : t.frequency.length - 1 < t.im.length),
    List.getElem?_eq_getElem (by omega : t.frequency.length - 1 < t.re.length)]
  by_cases hlow : w ≤ t.frequency[0]
  · rw [if_pos (by simpa using hlow)]
    have low : ∀ (y : List ℝ) (hy : y.length = t.frequency.length), PiecewiseLinear t.frequency y hy w y[0] := fun y hy => by
      refine ⟨fun _ _ => rfl, fun _ hw => ?_, fun i hi h1 h2 => ?_⟩
      · by_cases hlen : t.frequency.length - 1 = 0
        · simp only [hlen]
        · exact absurd (lt_of_lt_of_le (hinc 0 (t.frequency.length - 1) hl (by omega)) (hw.trans hlow)) (lt_irrefl _)
      · have hi0 : i = 0 := by
          by_contra hne
          exact absurd (lt_of_lt_of_le (hinc 0 i (by omega) (by omega)) (h1.trans hlow)) (lt_irrefl _)
        subst hi0
        have : w = t.frequency[0] := le_antisymm hlow h1
        rw [this]
        simp
    exact ⟨_, _, rfl, low _ him, low _ hre⟩
  rw [if_neg (by simpa using hlow)]
  rw [not_le] at hlow
  by_cases hhigh : t.frequency[t.frequency.length - 1] ≤ w
  · rw [if_pos (by simpa using hhigh)]
    have high : ∀ (y : List ℝ) (hy : y.length = t.frequency.length),
        PiecewiseLinear t.frequency y hy w y[t.frequency.length - 1] := fun y hy => by
      refine ⟨fun _ hw => absurd hw (not_le.2 hlow), fun _ _ => rfl, fun i hi h1 h2 => ?_⟩
      have hil : i + 1 = t.frequency.length - 1 := by
        by_contra hne
        exact absurd (lt_of_lt_of_le (hinc (i + 1) (t.frequency.length - 1) hl (by omega)) (hhigh.trans h2)) (lt_irrefl _)
      have hw : w = t.frequency[i + 1] := le_antisymm h2 (by simpa only [hil] using hhigh)
      have hne : t.frequency[i + 1] - t.frequency[i] ≠ 0 := (sub_pos.2 (hinc i (i + 1) hi (by omega))).ne'
      simp only [← hil]
      rw [hw, div_self hne]
      ring
    exact ⟨_, _, rfl, high _ him, high _ hre⟩
  rw [if_neg (by simpa using hhigh)]
  rw [not_le] at hhigh
  have hpr : ∀ i (hi : i < t.frequency.length), probe t.frequency w i = compare t.frequency[i] w := fun i hi => by
    unfold probe
    rw [List.getElem?_eq_getElem hi]
    rfl
  have hs := binarySearch_spec (probe t.frequency w) t.frequency.length (by
    intro i j hij hj hi
    rw [hpr _ hj]
    rw [hpr _ (by omega), ne_eq, compare_lt_iff_lt, not_lt] at hi
    exact compare_gt_iff_gt.2 (lt_of_le_of_lt hi (hinc i j hj hij)))
  unfold interpolated
  rcases hs with ⟨i, hb, hi, he⟩ | ⟨i, hb, hin, hlt, hge⟩
  · rw [hpr i hi, compare_eq_iff_eq] at he
    simp only [hb, List.getElem?_eq_getElem (by omega : i < t.im.length), List.getElem?_eq_getElem (by omega : i < t.re.length)]
    have mid : ∀ (y : List ℝ) (hy : y.length = t.frequency.length), PiecewiseLinear t.frequency y hy w y[i] := fun y hy => by
      refine ⟨fun _ hw => absurd hw (not_le.2 hlow), fun _ hw => absurd hw (not_le.2 hhigh), fun k hk h1 h2 => ?_⟩
      have h3 : k ≤ i := by
        by_contra hlt
        exact absurd (lt_of_lt_of_le (hinc i k (by omega) (by omega)) (h1.trans he.ge)) (lt_irrefl _)
      have h4 : i ≤ k + 1 := by
        by_contra hlt
        exact absurd (lt_of_lt_of_le (hinc (k + 1) i hi (by omega)) (he.le.trans h2)) (lt_irrefl _)
      have hne : t.frequency[k + 1] - t.frequency[k] ≠ 0 := (sub_pos.2 (hinc k (k + 1) hk (by omega))).ne'
      rcases (by omega : k = i ∨ i = k + 1) with h | h
      · subst h
        rw [← he, sub_self, zero_div, mul_zero, add_zero]
      · subst h
        rw [← he, div_self hne]
        ring
    exact ⟨_, _, rfl, mid _ him, mid _ hre⟩
  cases i with
  | zero =>
    have := hge 0 (le_refl _) h0
    rw [hpr 0 h0, compare_gt_iff_gt] at this
    exact absurd hlow (not_lt.2 this.le)
  | succ i =>
    have hi1 : i + 1 < t.frequency.length := by
      by_contra hne
      have := hlt (t.frequency.length - 1) (by omega)
      rw [hpr _ hl, compare_lt_iff_lt] at this
      exact absurd hhigh (not_lt.2 this.le)
    have a1 := hlt i (by omega)
    have a2 := hge (i + 1) (le_refl _) hi1
    rw [hpr _ (by omega), compare_lt_iff_lt] at a1
    rw [hpr _ hi1, compare_gt_iff_gt] at a2
    simp only [hb, List.getElem?_eq_getElem hi1, List.getElem?_eq_getElem (by omega : i < t.frequency.length),
      List.getElem?_eq_getElem (by omega : i < t.im.length), List.getElem?_eq_getElem (by omega : i < t.re.length),
      List.getElem?_eq_getElem (by omega : i + 1 < t.im.length), List.getElem?_eq_getElem (by omega : i + 1 < t.re.length)]
    have mid : ∀ (y : List ℝ) (hy : y.length = t.frequency.length), PiecewiseLinear t.frequency y hy w
        ((lit 1 - (w - t.frequency[i]) / (t.frequency[i + 1] - t.frequency[i])) * y[i]
          + (w - t.frequency[i]) / (t.frequency[i + 1] - t.frequency[i]) * y[i + 1]) := fun y hy => by
      refine ⟨fun _ hw => absurd hw (not_le.2 hlow), fun _ hw => absurd hw (not_le.2 hhigh), fun k hk h1 h2 => ?_⟩
      have h3 : k < i + 1 := by
        by_contra hlt
        exact absurd (a2.trans_le ((hmono (i + 1) k (by omega) (by omega)).trans h1)) (lt_irrefl _)
      have h4 : i < k + 1 := by
        by_contra hlt
        exact absurd (a1.trans_le (h2.trans (hmono (k + 1) i (by omega) (by omega)))) (lt_irrefl _)
      have hk : k = i := by omega
      subst hk
      simp only [lit_real, Rat.cast_one]
      ring
    exact ⟨_, _, rfl, mid _ him, mid _ hre⟩

/-- **C52**: for a table with increasing frequencies the Love number of the central body, and that of a planet for a
frequency that is not negative, is the piecewise linear function through the table, constant outside of it.  (The
real part is returned with the opposite sign.) -/
theorem C52_interpolates {t : LoveTable ℝ} (h : Sound t) (centralBody : Bool) (w : ℝ) (hw : centralBody = true ∨ 0 ≤ w) :
    ∃ re im, loveNumber t centralBody w = some (-re, im) ∧ PiecewiseLinear t.frequency t.re h.re w re
      ∧ PiecewiseLinear t.frequency t.im h.im w im := by
  obtain ⟨im, re, e, h1, h2⟩ := lookup_spec h w
  have hp : (!centralBody && ltb w (lit 0)) = false := by
    rcases hw with hw | hw
    · rw [hw]; rfl
    · simp [hw]
  refine ⟨re, im, ?_, h2, h1⟩
  unfold loveNumber
  simp only [hp, Bool.false_eq_true, if_false, e]

/-- **C52**: for a planet the real part is even and the imaginary part is odd. -/
theorem C52_parity {t : LoveTable ℝ} (h : Sound t) {w : ℝ} (hw : 0 < w) :
    ∃ re im, loveNumber t false w = some (re, im) ∧ loveNumber t false (-w) = some (re, -im) := by
  obtain ⟨im, re, e, -, -⟩ := lookup_spec h w
  refine ⟨-re, im, ?_, ?_⟩
  · have hp : (!false && ltb w (lit 0)) = false := by simp [hw.le]
    unfold loveNumber
    simp only [hp, Bool.false_eq_true, if_false, e]
  · have hp : (!false && ltb (-w) (lit 0)) = true := by simp [hw]
    unfold loveNumber
    simp only [hp, if_true, abs_real, abs_neg, abs_of_pos hw, e]

/-- **C52 violated** at the frequency 0: an odd function vanishes there, so a planet in synchronous rotation feels no
torque.  The code returns the imaginary part of the table: the first entry if the table starts at a positive
frequency. -/
theorem C52_violated_zero {t : LoveTable ℝ} (h : Sound t) (h0 : (0 : ℝ) < t.frequency[0]'h.pos) :
    ∃ re, loveNumber t false 0 = some (re, t.im[0]'(h.im.symm ▸ h.pos)) := by
  obtain ⟨re, im, e, -, h2⟩ := C52_interpolates h false 0 (Or.inr le_rfl)
  exact ⟨-re, by rw [e, h2.below h.pos h0.le]⟩

/-- **C52 violated** for tables with fewer than 1024 rows: the rest of the arrays is filled with zeros
(tests/common/mod.rs 56-68, cases/Revol_et_al_2024/trappist_substellar.py 225-229) and `num_datapoints` is not read, so
every frequency above the first entry gives the Love number 0, whatever the table says. -/
theorem C52_violated_short (f re im : List ℝ) (n : ℕ) (hf : 0 < f.length) (hre : re.length = f.length)
    (him : im.length = f.length) (hn : 0 < n) (hpos : (0 : ℝ) ≤ f[0]) (centralBody : Bool) {w : ℝ} (hw : f[0] < w) :
    loveNumber ⟨f ++ List.replicate n 0, re ++ List.replicate n 0, im ++ List.replicate n 0⟩ centralBody w = some (0, 0) := by
  have hw0 : 0 < w := lt_of_le_of_lt hpos hw
  have hlast : ∀ y : List ℝ, y.length = f.length → (y ++ List.replicate n (0 : ℝ))[f.length + n - 1]? = some 0 := fun y hy => by
    rw [List.getElem?_append_right (by omega), List.getElem?_replicate, if_pos (by omega)]
  unfold loveNumber lookup
  have hfirst : (f ++ List.replicate n (0 : ℝ))[0]? = some f[0] := by
    rw [List.getElem?_append_left hf, List.getElem?_eq_getElem hf]
  simp only [List.length_append, List.length_replicate, hlast f rfl, hlast re hre, hlast im him, hfirst]
  simp [not_lt.2 hw0.le, not_le.2 hw, hw0.le]

/-- A frequency that is not a number is a panic (index out of bounds), for every table of numbers. -/
theorem C52_violated_nan (t : LoveTable XQ) (h : XQ.nan ∉ t.frequency) (centralBody : Bool) :
    loveNumber t centralBody XQ.nan = none := by
  have hl : ∀ a : XQ, ltb XQ.nan a = false ∧ leb XQ.nan a = false ∧ leb a XQ.nan = false := fun a => by
    cases a <;> exact ⟨rfl, rfl, rfl⟩
  have hcmp : ∀ a : XQ, a ≠ XQ.nan → FTotal.cmp a XQ.nan = .lt := fun a ha => by
    cases a <;> first | rfl | exact absurd rfl ha
  have hint : interpolated t XQ.nan = none := by
    unfold interpolated
    have hall : ∀ i, i < t.frequency.length → probe t.frequency XQ.nan i = .lt := fun i hi => by
      unfold probe
      rw [List.getElem?_eq_getElem hi]
      exact hcmp _ fun he => h (he ▸ List.getElem_mem hi)
    rcases binarySearch_spec (probe t.frequency XQ.nan) t.frequency.length
      (fun i j hij hj hi => absurd (hall i (by omega)) hi) with ⟨i, hb, hi, he⟩ | ⟨i, hb, -, -, hge⟩
    · rw [hall i hi] at he
      cases he
    cases i with
    | zero => simp only [hb]
    | succ i =>
      have : t.frequency.length ≤ i + 1 := by
        by_contra hlt
        have := hge (i + 1) le_rfl (by omega)
        rw [hall (i + 1) (by omega)] at this
        cases this
      simp only [hb, List.getElem?_eq_none this]
      split <;> first | rfl | simp_all
  have hlook : lookup t XQ.nan = none := by
    unfold lookup
    simp only [hint, (hl _).2.1, (hl _).2.2, Bool.false_eq_true, if_false]
    split <;> rfl
  unfold loveNumber
  simp only [(hl _).1, Bool.and_false, Bool.false_eq_true, if_false, hlook]

/-- The hypotheses are met by a table with three rows. -/
example : Sound ⟨[1, 2, 4], [3, 5, 7], [1, 0, -1]⟩ := by
  refine ⟨by simp, by simp, by simp, ?_⟩
  intro i j hj hij
  simp at hj
  have : (i = 0 ∧ j = 1) ∨ (i = 0 ∧ j = 2) ∨ (i = 1 ∧ j = 2) := by omega
  rcases this with ⟨rfl, rfl⟩ | ⟨rfl, rfl⟩ | ⟨rfl, rfl⟩ <;> simp <;> norm_num

end Kaula
end Posidonius
