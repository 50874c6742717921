import Verif.Spec.Evolver
import Verif.Lemmas.Interp
import Mathlib.Tactic.Linarith

/-! # Lemmas about the cached lookups -/

namespace Posidonius.Evolution
open Posidonius.Interp

section Any
set_option linter.unusedSectionVars false
variable {F : Type} [Add F] [Sub F] [Mul F] [Div F] [FOps F]

theorem query_eq (e : Evolver F) (q : Quantity) (t current : F) :
    query e q t current =
      if Tabulated e.evolution q then e.lookup t (e.column q) else some (current, e) := by
  cases q <;> cases h : e.evolution <;>
    simp [query, Evolver.queryRadius, Evolver.queryRadiusOfGyration2, Evolver.queryLoveNumber,
      Evolver.queryInverseTidalQFactor, h, Tabulated, Evolver.column]
  rename_i b
  cases b <;> simp

theorem idx_of_leftIndex (e : Evolver F) : e.idx = e.leftIndex - 10 := by
  unfold Evolver.idx
  dsimp only
  split <;> omega

/-- One lookup: it does not panic and the start of the next search is in bounds again. -/
theorem lookup_total (e : Evolver F) (t : F) (c : List F) (hi : e.idx < e.time.length)
    (hc : c.length = e.time.length) :
    ∃ v l r, e.lookup t c = some (v, { e with leftIndex := e.leftIndex + l }) ∧
      linearInterpolation t (e.time.drop e.idx) (c.drop e.idx) = some (v, l) ∧
      findIndices (e.time.drop e.idx) t = some (l, r) ∧ e.idx + l < e.time.length ∧
      ({ e with leftIndex := e.leftIndex + l } : Evolver F).idx ≤ e.idx + l := by
  have hne : e.time.drop e.idx ≠ [] := by
    intro h
    have := congrArg List.length h
    simp at this
    omega
  obtain ⟨v, l, h1, h2, r, h3⟩ := linearInterpolation_total t (e.time.drop e.idx) (c.drop e.idx) hne
    (by simp [hc])
  refine ⟨v, l, r, ?_, h1, h3, ?_, ?_⟩
  · simp [Evolver.lookup, h1]
  · simp at h2; omega
  · rw [idx_of_leftIndex, idx_of_leftIndex]
    simp only
    omega

end Any

/-- Everything up to the start of the search is in the past of `m`. -/
def Past (e : Evolver ℝ) (m : ℝ) : Prop :=
  e.idx = 0 ∨ ∀ i (hi : i < e.time.length), i ≤ e.idx → e.time[i] ≤ m

theorem findIndices_drop (x : List ℝ) (k : Nat) (hk : k < x.length) (t : ℝ)
    (hp : k = 0 ∨ ∀ i (hi : i < x.length), i ≤ k → x[i] ≤ t) (l r : Nat)
    (h : findIndices (x.drop k) t = some (l, r)) : findIndices x t = some (k + l, k + r) := by
  rcases Nat.eq_zero_or_pos k with h0 | h0
  · subst h0; simpa using h
  · have hp : ∀ i (hi : i < x.length), i ≤ k → x[i] ≤ t := by
      rcases hp with hp | hp
      · omega
      · exact hp
    have hne : x ≠ [] := by intro h; simp [h] at hk
    have hne' : x.drop k ≠ [] := by
      intro h'
      have := congrArg List.length h'
      simp at this
      omega
    rcases findIndices_cases (x.drop k) t hne' with ⟨hall, h1⟩ | ⟨h2, h3, h1⟩ | ⟨j, hj, h3, h4, h1⟩
    · rw [h] at h1
      simp only [Option.some.injEq, Prod.mk.injEq, List.length_drop] at h1
      have hall' : ∀ i (hi : i < x.length), x[i] ≤ t := by
        intro i hi
        rcases Nat.lt_or_ge i k with hik | hik
        · exact hp i hi hik.le
        · have := hall ((x.drop k)[i - k]'(by simp; omega)) (List.getElem_mem _)
          simp only [ltb_real_false, List.getElem_drop] at this
          have e : k + (i - k) = i := by omega
          simpa only [e] using this
      rcases findIndices_cases x t hne with ⟨_, g⟩ | ⟨g2, g3, g⟩ | ⟨i, hi, g3, g4, g⟩
      · rw [g]; congr 2 <;> omega
      · simp only [ltb_real] at g3
        have := hall' 0 g2
        linarith
      · simp only [ltb_real] at g3
        have := hall' (i + 1) hi
        linarith
    · simp only [ltb_real, List.getElem_drop] at h3
      have := hp k hk (le_refl _)
      simp only [Nat.add_zero] at h3
      linarith
    · rw [h] at h1
      simp only [Option.some.injEq, Prod.mk.injEq] at h1
      obtain ⟨rfl, rfl⟩ := h1
      simp only [ltb_real, List.getElem_drop] at h3
      simp only [List.length_drop] at hj
      have hle : ∀ i (hi : i < k + l + 1), x[i]'(by omega) ≤ t := by
        intro i hi
        rcases Nat.lt_or_ge i k with hik | hik
        · exact hp i (by omega) hik.le
        · have := h4 (i - k) (by omega)
          simp only [ltb_real_false, List.getElem_drop] at this
          have e : k + (i - k) = i := by omega
          simpa only [e] using this
      rcases findIndices_cases x t hne with ⟨g1, g⟩ | ⟨g2, g3, g⟩ | ⟨i, hi, g3, g4, g⟩
      · have := g1 (x[k + (l + 1)]'(by omega)) (List.getElem_mem _)
        simp only [ltb_real_false] at this
        linarith
      · simp only [ltb_real] at g3
        have := hle 0 (by omega)
        linarith
      · have : i = k + l := by
          by_contra hne
          rcases lt_or_gt_of_ne hne with hlt | hgt
          · have a := hle (i + 1) (by omega)
            simp only [ltb_real] at g3
            linarith
          · have a := g4 (k + (l + 1)) (by omega)
            simp only [ltb_real_false] at a
            linarith
        subst this
        rw [g]
        congr 2

theorem linearInterpolation_drop (x y : List ℝ) (k : Nat) (t : ℝ) (l r : Nat)
    (h1 : findIndices (x.drop k) t = some (l, r)) (h2 : findIndices x t = some (k + l, k + r)) :
    (linearInterpolation t (x.drop k) (y.drop k)).map Prod.fst =
      (linearInterpolation t x y).map Prod.fst := by
  simp only [linearInterpolation, h1, h2, List.getElem?_drop]
  by_cases h : l = r
  · subst h
    simp only [if_true]
    split <;> rfl
  · have : ¬ (k + l = k + r) := by omega
    rw [if_neg h, if_neg this]
    cases x[k + l]? <;> cases x[k + r]? <;> cases y[k + l]? <;> cases y[k + r]? <;> rfl

/-- One lookup with real times: exact if the times skipped are in the past of `t`; and the invariant is
kept in any case. -/
theorem lookup_exact (e : Evolver ℝ) (t : ℝ) (c : List ℝ) (hi : e.idx < e.time.length)
    (hc : c.length = e.time.length) (hp : Past e t) :
    ∃ v l, e.lookup t c = some (v, { e with leftIndex := e.leftIndex + l }) ∧
      (linearInterpolation t e.time c).map Prod.fst = some v := by
  obtain ⟨v, l, r, h1, h2, h3, _, _⟩ := lookup_total e t c hi hc
  refine ⟨v, l, h1, ?_⟩
  rw [← linearInterpolation_drop e.time c e.idx t l r h3 (findIndices_drop _ _ hi t hp l r h3), h2]
  rfl

/-- The invariant is kept by a lookup at any time, for the latest time asked for. -/
theorem lookup_past (e : Evolver ℝ) (t m : ℝ) (c : List ℝ) (hi : e.idx < e.time.length)
    (hc : c.length = e.time.length) (hp : Past e m) (v : ℝ) (e' : Evolver ℝ)
    (h : e.lookup t c = some (v, e')) :
    Past e' (max m t) ∧ e'.idx < e'.time.length ∧ ∃ l, e' = { e with leftIndex := e.leftIndex + l } := by
  obtain ⟨v', l, r, h1, h2, h3, h4, h5⟩ := lookup_total e t c hi hc
  rw [h] at h1
  simp only [Option.some.injEq, Prod.mk.injEq] at h1
  obtain ⟨-, rfl⟩ := h1
  refine ⟨?_, ?_, l, rfl⟩
  · -- everything up to idx + l is at most max m t
    by_cases hz : e.idx + l = 0
    · left
      omega
    · right
      have key : ∀ i (hi : i < e.time.length), i ≤ e.idx + l → e.time[i] ≤ max m t := by
        intro i hil hle
        have hpast : ∀ i (hi : i < e.time.length), i < e.idx → e.time[i] ≤ max m t := by
          intro i hi hlt
          rcases hp with hp | hp
          · omega
          · exact (hp i hi hlt.le).trans (le_max_left _ _)
        rcases Nat.lt_or_ge i e.idx with hlt | hge
        · exact hpast i hil hlt
        · have hne' : e.time.drop e.idx ≠ [] := by
            intro h'
            have := congrArg List.length h'
            simp at this
            omega
          rcases findIndices_cases (e.time.drop e.idx) t hne' with ⟨hall, g⟩ | ⟨g2, g3, g⟩ | ⟨j, hj, g3, g4, g⟩
          · have := hall ((e.time.drop e.idx)[i - e.idx]'(by simp; omega)) (List.getElem_mem _)
            simp only [ltb_real_false, List.getElem_drop] at this
            have ee : e.idx + (i - e.idx) = i := by omega
            simp only [ee] at this
            exact this.trans (le_max_right _ _)
          · rw [h3] at g
            simp only [Option.some.injEq, Prod.mk.injEq] at g
            have hi' : i = e.idx := by omega
            rcases hp with hp | hp
            · omega
            · exact (hp i hil (by omega)).trans (le_max_left _ _)
          · rw [h3] at g
            simp only [Option.some.injEq, Prod.mk.injEq] at g
            have := g4 (i - e.idx) (by omega)
            simp only [ltb_real_false, List.getElem_drop] at this
            have ee : e.idx + (i - e.idx) = i := by omega
            simp only [ee] at this
            exact this.trans (le_max_right _ _)
      intro i hil hle
      exact key i hil (hle.trans h5)
  · exact lt_of_le_of_lt h5 h4

end Posidonius.Evolution
