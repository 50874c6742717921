import Verif.Spec.Interp
import Verif.Lemmas.Interp
import Mathlib.Tactic.Linarith
import Mathlib.Tactic.FieldSimp
import Mathlib.Tactic.Ring
import Mathlib.Tactic.IntervalCases
import Mathlib.Tactic.FinCases

/-! # C26, C27: table interpolation -/

namespace Posidonius.Interp

/-- **C27**: for every non-empty table, sorted or not, and any outcome of the comparisons (so NaN
included), the two indices found are inside the table, and they are equal or adjacent. -/
theorem C27_indices_in_bounds {F : Type} [FOps F] (data : List F) (t : F) (hne : data ≠ []) :
    ∃ l r, findIndices data t = some (l, r) ∧ l < data.length ∧ r < data.length ∧
      (r = l ∨ r = l + 1) :=
  findIndices_in_bounds data t hne

/-- **C27**: the interpolation itself never panics, if the two columns have the same length. -/
theorem C27_never_panics {F : Type} [Add F] [Sub F] [Mul F] [Div F] [FOps F] (t : F) (x y : List F)
    (hne : x ≠ []) (hl : y.length = x.length) : ∃ v l, linearInterpolation t x y = some (v, l) := by
  obtain ⟨v, l, h, _⟩ := linearInterpolation_total t x y hne hl
  exact ⟨v, l, h⟩

theorem Increasing.le_of_le {x : List ℝ} (hx : Increasing x) {i j : Nat} (hj : j < x.length)
    (hij : i ≤ j) : x[i] ≤ x[j] := by
  rcases Nat.lt_or_ge i j with h | h
  · exact (hx i j hj h).le
  · have : i = j := by omega
    subst this; exact le_refl _

/-- The half-open description of a piecewise linear function implies the closed one. -/
theorem piecewiseLinear_of_halfOpen {x y : List ℝ} (hx : Increasing x) (hl : y.length = x.length)
    {t r : ℝ} (below : ∀ h0 : 0 < x.length, t < x[0] → r = y[0])
    (above : ∀ h0 : 0 < x.length, x[x.length - 1] ≤ t → r = y[x.length - 1])
    (between : ∀ i (hi : i + 1 < x.length), x[i] ≤ t → t < x[i + 1] →
      r = y[i] + (y[i + 1] - y[i]) * ((t - x[i]) / (x[i + 1] - x[i]))) :
    PiecewiseLinear x y hl t r where
  below h0 h := by
    rcases lt_or_eq_of_le h with h | h
    · exact below h0 h
    · by_cases h1 : 1 < x.length
      · have := between 0 h1 h.ge (by rw [h]; exact hx 0 1 h1 (by omega))
        rw [this, h]; simp
      · have e : x.length - 1 = 0 := by omega
        have := above h0 (by simp only [e]; exact h.ge)
        simpa only [e] using this
  above := above
  between i hi h1 h2 := by
    rcases lt_or_eq_of_le h2 with h | h
    · exact between i hi h1 h
    · have hd : x[i + 1] - x[i] ≠ 0 := by
        have := hx i (i + 1) hi (by omega); linarith
      have hone : (t - x[i]) / (x[i + 1] - x[i]) = 1 := by rw [h]; exact div_self hd
      rw [hone]
      by_cases h3 : i + 2 < x.length
      · have := between (i + 1) h3 h.ge (by rw [h]; exact hx (i + 1) (i + 2) h3 (by omega))
        rw [this, h]; simp
      · have e : x.length - 1 = i + 1 := by omega
        have := above (by omega) (by simp only [e]; exact h.ge)
        simp only [e] at this
        rw [this]; ring

/-- **C26**: on every non-empty table with increasing abscissas, the interpolation returns the value of
the piecewise linear function through the table, extended by constants. -/
theorem C26_piecewise_linear (t : ℝ) (x y : List ℝ) (hne : x ≠ []) (hx : Increasing x)
    (hl : y.length = x.length) :
    ∃ r l, linearInterpolation t x y = some (r, l) ∧ PiecewiseLinear x y hl t r := by
  have hlen : 0 < x.length := List.length_pos_iff.mpr hne
  rcases findIndices_cases x t hne with ⟨hall, h⟩ | ⟨h0, h1, h⟩ | ⟨k, hk, h1, h2, h⟩
  · have e3 : y[x.length - 1]? = some (y[x.length - 1]'(by omega)) := List.getElem?_eq_getElem (by omega)
    have hall' : ∀ j (hj : j < x.length), x[j] ≤ t := fun j hj => by
      simpa using hall x[j] (List.getElem_mem hj)
    refine ⟨y[x.length - 1]'(by omega), x.length - 1, ?_, piecewiseLinear_of_halfOpen hx hl ?_ ?_ ?_⟩
    · simp only [linearInterpolation, h, e3]; simp
    · intro h0 hlt
      exact absurd (hall' 0 h0) (not_le.mpr hlt)
    · intro _ _; rfl
    · intro i hi _ hlt
      exact absurd (hall' (i + 1) hi) (not_le.mpr hlt)
  · have e3 : y[0]? = some (y[0]'(by omega)) := List.getElem?_eq_getElem (by omega)
    simp only [ltb_real] at h1
    refine ⟨y[0]'(by omega), 0, ?_, piecewiseLinear_of_halfOpen hx hl ?_ ?_ ?_⟩
    · simp only [linearInterpolation, h, e3]; simp
    · intro _ _; rfl
    · intro _ hge
      have := hx.le_of_le (i := 0) (j := x.length - 1) (by omega) (by omega)
      linarith
    · intro i hi hge _
      have := hx.le_of_le (i := 0) (j := i) (by omega) (by omega)
      linarith
  · simp only [ltb_real] at h1
    have h2' : ∀ j (hj : j < k + 1), x[j] ≤ t := fun j hj => by simpa using h2 j hj
    have e1 : x[k]? = some x[k] := List.getElem?_eq_getElem (by omega)
    have e2 : x[k + 1]? = some x[k + 1] := List.getElem?_eq_getElem hk
    have e3 : y[k]? = some (y[k]'(by omega)) := List.getElem?_eq_getElem (by omega)
    have e4 : y[k + 1]? = some (y[k + 1]'(by omega)) := List.getElem?_eq_getElem (by omega)
    refine ⟨y[k] * (1 - (t - x[k]) / (x[k + 1] - x[k])) + y[k + 1] * ((t - x[k]) / (x[k + 1] - x[k])), k,
      ?_, piecewiseLinear_of_halfOpen hx hl ?_ ?_ ?_⟩
    · simp only [linearInterpolation, h, e1, e2, e3, e4]
      simp
    · intro h0 hlt
      have := h2' 0 (by omega)
      linarith
    · intro _ hge
      have := hx.le_of_le (i := k + 1) (j := x.length - 1) (by omega) (by omega)
      linarith
    · intro i hi hge hlt
      have hik : i = k := by
        by_contra hne
        rcases lt_or_gt_of_ne hne with hlt' | hgt
        · have := h2' (i + 1) (by omega)
          linarith
        · have := hx.le_of_le (i := k + 1) (j := i) (by omega) (by omega)
          linarith
      subst hik
      ring

/-- **C26, bounds**: the result lies between any lower and upper bound of the tabulated values. -/
theorem C26_between_bounds (t : ℝ) (x y : List ℝ) (hne : x ≠ []) (hx : Increasing x)
    (hl : y.length = x.length) (lo hi : ℝ) (hb : ∀ v ∈ y, lo ≤ v ∧ v ≤ hi) :
    ∃ r l, linearInterpolation t x y = some (r, l) ∧ lo ≤ r ∧ r ≤ hi := by
  obtain ⟨r, l, h, hp⟩ := C26_piecewise_linear t x y hne hx hl
  have hlen : 0 < x.length := List.length_pos_iff.mpr hne
  refine ⟨r, l, h, ?_⟩
  have hy : ∀ j (hj : j < y.length), lo ≤ y[j] ∧ y[j] ≤ hi := fun j hj => hb _ (List.getElem_mem hj)
  rcases findIndices_cases x t hne with ⟨hall, _⟩ | ⟨h0, h1, _⟩ | ⟨k, hk, h1, h2, _⟩
  · have : x[x.length - 1] ≤ t := by
      simpa using hall x[x.length - 1] (List.getElem_mem _)
    rw [hp.above hlen this]
    exact hy _ (by omega)
  · simp only [ltb_real] at h1
    rw [hp.below hlen h1.le]
    exact hy _ (by omega)
  · simp only [ltb_real] at h1
    have h3 : x[k] ≤ t := by simpa using h2 k (by omega)
    rw [hp.between k hk h3 h1.le]
    obtain ⟨a1, a2⟩ := hy k (by omega)
    obtain ⟨b1, b2⟩ := hy (k + 1) (by omega)
    have hd : 0 < x[k + 1] - x[k] := by linarith
    have p0 : 0 ≤ (t - x[k]) / (x[k + 1] - x[k]) := div_nonneg (by linarith) hd.le
    have p1 : (t - x[k]) / (x[k + 1] - x[k]) ≤ 1 := by rw [div_le_one hd]; linarith
    generalize (t - x[k]) / (x[k + 1] - x[k]) = p at p0 p1
    constructor <;> nlinarith

/-- **C26, nodes**: at a tabulated abscissa the tabulated value is returned. -/
theorem C26_exact_at_nodes (x y : List ℝ) (hx : Increasing x) (hl : y.length = x.length) (i : Nat)
    (hi : i < x.length) : ∃ l, linearInterpolation x[i] x y = some (y[i], l) := by
  have hne : x ≠ [] := by intro h; simp [h] at hi
  obtain ⟨r, l, h, hp⟩ := C26_piecewise_linear x[i] x y hne hx hl
  refine ⟨l, ?_⟩
  rw [h]
  congr 2
  by_cases h1 : i + 1 < x.length
  · rw [hp.between i h1 (le_refl _) (hx i (i + 1) h1 (by omega)).le]; simp
  · have e : x.length - 1 = i := by omega
    have := hp.above (by omega) (by simp only [e]; exact le_refl _)
    simpa only [e] using this

/-- **C26, linear data**: between the first and last abscissa, data on a line are reproduced. -/
theorem C26_exact_for_linear_data (t a b : ℝ) (x : List ℝ) (hx : Increasing x) (hne : x ≠ [])
    (h0 : ∀ h : 0 < x.length, x[0] ≤ t) (h1 : ∀ h : 0 < x.length, t ≤ x[x.length - 1]) :
    ∃ l, linearInterpolation t x (x.map fun v => a * v + b) = some (a * t + b, l) := by
  have hlen : 0 < x.length := List.length_pos_iff.mpr hne
  obtain ⟨r, l, h, hp⟩ := C26_piecewise_linear t x (x.map fun v => a * v + b) hne hx (by simp)
  refine ⟨l, ?_⟩
  rw [h]
  congr 2
  rcases findIndices_cases x t hne with ⟨hall, _⟩ | ⟨_, h2, _⟩ | ⟨k, hk, h2, h3, _⟩
  · have h4 : x[x.length - 1] ≤ t := by simpa using hall x[x.length - 1] (List.getElem_mem _)
    rw [hp.above hlen h4]
    have := le_antisymm h4 (h1 hlen)
    simp [this]
  · simp only [ltb_real] at h2
    have := h0 hlen
    linarith
  · simp only [ltb_real] at h2
    have h4 : x[k] ≤ t := by simpa using h3 k (by omega)
    rw [hp.between k hk h4 h2.le]
    simp only [List.getElem_map]
    have hd : x[k + 1] - x[k] ≠ 0 := by
      have := hx k (k + 1) hk (by omega); linarith
    field_simp
    ring

/-! ## A concrete case -/

/-- Times 0, 1, 3 and values 5, 7, 4. -/
theorem demo_increasing : Increasing [0, 1, 3] := by
  intro i j hj hij
  simp only [List.length_cons, List.length_nil] at hj
  interval_cases j <;> interval_cases i <;> norm_num

/-- At time 2 the value is 11/2. -/
example : ∃ l, linearInterpolation (2 : ℝ) [0, 1, 3] [5, 7, 4] = some (11 / 2, l) := by
  obtain ⟨r, l, h, hp⟩ := C26_piecewise_linear 2 [0, 1, 3] [5, 7, 4] (by simp) demo_increasing rfl
  refine ⟨l, ?_⟩
  rw [h, hp.between 1 (by simp) (by norm_num) (by norm_num)]
  norm_num

end Posidonius.Interp
