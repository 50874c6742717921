import Verif.Model.Interp
import Verif.Model.RealScalar

/-! # Lemmas about table lookup -/

namespace Posidonius.Interp
variable {F : Type} [FOps F]

theorem findIndices_cases (data : List F) (t : F) (hne : data ≠ []) :
    ((∀ v ∈ data, ltb t v = false) ∧ findIndices data t = some (data.length - 1, data.length - 1)) ∨
    (∃ h : 0 < data.length, ltb t data[0] = true ∧ findIndices data t = some (0, 0)) ∨
    (∃ i, ∃ h : i + 1 < data.length, ltb t data[i + 1] = true ∧
      (∀ j (hj : j < i + 1), ltb t (data[j]'(by omega)) = false) ∧
      findIndices data t = some (i, i + 1)) := by
  have hlen : 0 < data.length := List.length_pos_iff.mpr hne
  cases hf : data.findIdx? (fun r => ltb t r) with
  | none =>
    rw [List.findIdx?_eq_none_iff] at hf
    refine Or.inl ⟨hf, ?_⟩
    have h2 : data.findIdx? (fun r => ltb t r) = none := by rw [List.findIdx?_eq_none_iff]; exact hf
    have h3 : data[data.length - 1]? = some data[data.length - 1] :=
      List.getElem?_eq_getElem (by omega)
    have h4 := hf data[data.length - 1] (List.getElem_mem _)
    simp only [findIndices, h2, h3, h4]
    simp
  | some i =>
    have hf' := hf
    rw [List.findIdx?_eq_some_iff_getElem] at hf
    obtain ⟨hi, h1, h2⟩ := hf
    cases i with
    | zero =>
      refine Or.inr (Or.inl ⟨hlen, h1, ?_⟩)
      simp [findIndices, hf']
    | succ i =>
      refine Or.inr (Or.inr ⟨i, hi, h1, ?_, ?_⟩)
      · intro j hj
        have := h2 j hj
        simpa using this
      · have : i + 1 ≠ data.length := by omega
        simp [findIndices, hf', this]

theorem findIndices_in_bounds (data : List F) (t : F) (hne : data ≠ []) :
    ∃ l r, findIndices data t = some (l, r) ∧ l < data.length ∧ r < data.length ∧ (r = l ∨ r = l + 1) := by
  have hlen : 0 < data.length := List.length_pos_iff.mpr hne
  rcases findIndices_cases data t hne with ⟨_, h⟩ | ⟨_, _, h⟩ | ⟨i, hi, _, _, h⟩
  · exact ⟨_, _, h, by omega, by omega, Or.inl rfl⟩
  · exact ⟨_, _, h, hlen, hlen, Or.inl rfl⟩
  · exact ⟨_, _, h, by omega, hi, Or.inr rfl⟩

variable [Add F] [Sub F] [Mul F] [Div F]

/-- The interpolated value never panics on tables of equal length. -/
theorem linearInterpolation_total (t : F) (x y : List F) (hne : x ≠ []) (hl : y.length = x.length) :
    ∃ v l, linearInterpolation t x y = some (v, l) ∧ l < x.length ∧
      ∃ r, findIndices x t = some (l, r) := by
  obtain ⟨l, r, h1, h2, h3, h4⟩ := findIndices_in_bounds x t hne
  have e1 : x[l]? = some x[l] := List.getElem?_eq_getElem h2
  have e2 : x[r]? = some x[r] := List.getElem?_eq_getElem h3
  have e3 : y[l]? = some (y[l]'(by omega)) := List.getElem?_eq_getElem (by omega)
  have e4 : y[r]? = some (y[r]'(by omega)) := List.getElem?_eq_getElem (by omega)
  by_cases hlr : l = r
  · refine ⟨y[l]'(by omega), l, ?_, h2, r, h1⟩
    simp only [linearInterpolation, h1, if_pos hlr, e3]
  · simp only [linearInterpolation, h1, if_neg hlr, e1, e2, e3, e4]
    exact ⟨_, l, rfl, h2, r, rfl⟩

end Posidonius.Interp
