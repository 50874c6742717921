import Verif.Model.FrontEndHelpers
import Verif.Lemmas.FrontEndEvolver
import Verif.Lemmas.Interp
import Verif.Props.Orbits
import Verif.Props.Constants

/-! # C133: radii of planets, rotations and interpolation in the front end -/

namespace Posidonius.Tools.Py

/-! ## Radii -/

theorem log10_real (x : ℝ) : log10 x = Real.log x / Real.log 10 := by
  simp [log10]

theorem log10_pos : (0 : ℝ) < Real.log 10 := Real.log_pos (by norm_num)

theorem log10_lt {x y : ℝ} (hx : 0 < x) (h : x < y) : log10 x < log10 y := by
  rw [log10_real, log10_real]
  exact div_lt_div_of_pos_right (Real.log_lt_log hx h) log10_pos

theorem log10_pow (k : ℤ) : log10 ((10 : ℝ) ^ k) = k := by
  rw [log10_real, Real.log_zpow, mul_div_assoc, div_self log10_pos.ne', mul_one]

theorem radiusFactor_real (f l : ℝ) : radiusFactor f l
    = (0.0592 * f + 0.0975) * l ^ 2 + (0.2337 * f + 0.4938) * l + (0.3102 * f + 0.7932) := by
  simp only [radiusFactor, lit_real]
  norm_num
  ring

/-- **C133** The two units of mass give the same radius: that of a mass of `m` solar masses is that of the mass in units of
the mass of the Earth. -/
theorem C133_units (m f : ℝ) (hm : 0 < m) :
    massRadiusRelation m "AU" f = massRadiusRelation (m / Constants.mEarth) "factor" f := by
  have e : (Constants.mEarth : ℝ) = 1 / Constants.Py.m2Earth := by
    simp [Constants.mEarth, Constants.Py.m2Earth, Constants.m2Earth]
  have h2 : (0 : ℝ) < Constants.Py.m2Earth := by
    simp only [Constants.Py.m2Earth, lit_real]
    norm_num
  have hl : log10 (m / Constants.mEarth) = log10 m + log10 (Constants.Py.m2Earth : ℝ) := by
    rw [e, log10_real, log10_real, log10_real, div_div_eq_mul_div, div_one, Real.log_mul hm.ne' h2.ne', add_div]
  simp [massRadiusRelation, hl]

/-- **C133** Every planet has a positive radius. -/
theorem C133_positive (m f : ℝ) (f0 : 0 ≤ f) (f1 : f ≤ 1) :
    ∃ r, massRadiusRelation m "factor" f = some r ∧ 0 < r := by
  refine ⟨_, rfl, ?_⟩
  rw [radiusFactor_real]
  generalize log10 m = l
  have h1 : 0 < 0.0592 * f + 0.0975 := by linarith
  have h2 : 4 * (0.0592 * f + 0.0975) * ((0.0592 * f + 0.0975) * l ^ 2 + (0.2337 * f + 0.4938) * l + (0.3102 * f + 0.7932))
      = (2 * (0.0592 * f + 0.0975) * l + (0.2337 * f + 0.4938)) ^ 2
        + (4 * (0.0592 * f + 0.0975) * (0.3102 * f + 0.7932) - (0.2337 * f + 0.4938) ^ 2) := by ring
  have h3 : 0 < 4 * (0.0592 * f + 0.0975) * (0.3102 * f + 0.7932) - (0.2337 * f + 0.4938) ^ 2 := by nlinarith
  by_contra h
  nlinarith [sq_nonneg (2 * (0.0592 * f + 0.0975) * l + (0.2337 * f + 0.4938))]

/-- **C133**, partial: from one hundredth of the mass of the Earth a heavier planet is larger. -/
theorem C133_grows_partial (m m' f : ℝ) (f0 : 0 ≤ f) (f1 : f ≤ 1) (hm : 1 / 100 ≤ m) (h : m < m') :
    ∃ r r', massRadiusRelation m "factor" f = some r ∧ massRadiusRelation m' "factor" f = some r' ∧ r < r' := by
  refine ⟨_, _, rfl, rfl, ?_⟩
  rw [radiusFactor_real, radiusFactor_real]
  have hl := log10_lt (by linarith) h
  have h2 : -2 ≤ log10 m := by
    have e : log10 ((1:ℝ) / 100) = -2 := by
      have := log10_pow (-2)
      norm_num at this ⊢
      exact this
    rcases hm.eq_or_lt with h | h
    · rw [← h, e]
    · rw [← e]
      exact (log10_lt (by norm_num) h).le
  generalize log10 m = l at *
  generalize log10 m' = l' at *
  have h1 : 0 < (0.0592 * f + 0.0975) * (l' + l) + (0.2337 * f + 0.4938) := by nlinarith
  nlinarith [mul_pos (sub_pos.2 hl) h1]

/-- **C133**, violated: below a thousandth of the mass of the Earth (as that of Ceres or of Pluto's moons) the lighter planet
is the larger one, ... -/
theorem C133_violated_grows (m m' f : ℝ) (f0 : 0 ≤ f) (f1 : f ≤ 1) (hm : 0 < m) (h : m < m') (hm' : m' ≤ 1 / 1000) :
    ∃ r r', massRadiusRelation m "factor" f = some r ∧ massRadiusRelation m' "factor" f = some r' ∧ r' < r := by
  refine ⟨_, _, rfl, rfl, ?_⟩
  rw [radiusFactor_real, radiusFactor_real]
  have hl := log10_lt hm h
  have h2 : log10 m' ≤ -3 := by
    have e : log10 ((1:ℝ) / 1000) = -3 := by
      have := log10_pow (-3)
      norm_num at this ⊢
      exact this
    rcases hm'.eq_or_lt with h | h
    · rw [h, e]
    · rw [← e]
      exact (log10_lt (by linarith) h).le
  generalize log10 m = l at *
  generalize log10 m' = l' at *
  have h1 : (0.0592 * f + 0.0975) * (l' + l) + (0.2337 * f + 0.4938) < 0 := by nlinarith
  nlinarith [mul_neg_of_pos_of_neg (sub_pos.2 hl) h1]

/-- ... and a body of a hundred-millionth of the mass of the Earth is larger than the Earth. -/
theorem C133_violated_asteroid (f : ℝ) (f0 : 0 ≤ f) (f1 : f ≤ 1) :
    ∃ r, massRadiusRelation (1 / 100000000) "factor" f = some r ∧ 2 < r := by
  refine ⟨_, rfl, ?_⟩
  have e : log10 ((1:ℝ) / 100000000) = -8 := by
    have := log10_pow (-8)
    norm_num at this ⊢
    exact this
  rw [radiusFactor_real, e]
  nlinarith

/-- **C133** The radius of a planet with the mass and the rock fraction of the Earth is that of the Earth up to one part in
five hundred. -/
theorem C133_earth : ∃ r, massRadiusRelation (1 : ℝ) "factor" 0.67 = some r ∧ |r - 1| < 1 / 500 := by
  refine ⟨_, rfl, ?_⟩
  have e : log10 (1:ℝ) = 0 := by rw [log10_real, Real.log_one, zero_div]
  rw [radiusFactor_real, e, abs_lt]
  norm_num

/-! ## Rotations -/

/-- **C133** The front end computes rotations and pseudo-synchronous periods as the library does. -/
theorem C133_same (w i o n a e ms mp : ℝ) :
    spinVector w i o n = Tools.spinVector w i o n
    ∧ pseudoSynchronizationPeriod a e ms mp
      = Tools.pseudoSynchronizationPeriod Constants.gSi Constants.mSun Constants.au Constants.hour a e ms mp := by
  refine ⟨?_, rfl⟩
  simp [spinVector, Tools.spinVector]

/-! ## Interpolation by cosines -/

/-- `v` is the value at `t` of the function through the points `(x[i], y[i])` that is constant outside and follows half a
period of a cosine between two points. -/
structure Smooth (x y : List ℝ) (h : y.length = x.length) (t v : ℝ) : Prop where
  below : ∀ hx : 0 < x.length, t ≤ x[0] → v = y[0]
  above : ∀ hx : 0 < x.length, x[x.length - 1] ≤ t → v = y[x.length - 1]
  between : ∀ i (hi : i + 1 < x.length), x[i] ≤ t → t ≤ x[i + 1] →
    v = (y[i] + y[i + 1]) / 2 - (y[i + 1] - y[i]) / 2 * Real.cos (Real.pi * ((t - x[i]) / (x[i + 1] - x[i])))

theorem increasing_inj {x : List ℝ} (hx : Interp.Increasing x) {i j : Nat} (hi : i < x.length) (hj : j < x.length)
    (h : x[i] ≤ x[j]) : i ≤ j := by
  by_contra hlt
  have := hx j i hi (by omega)
  linarith

theorem smooth_node {x y : List ℝ} (hl : y.length = x.length) (hx : Interp.Increasing x) {t : ℝ} (k : Nat)
    (hk : k < x.length) (ht : t = x[k]) : Smooth x y hl t y[k] := by
  subst ht
  refine ⟨fun h0 h => ?_, fun h0 h => ?_, fun i hi h1 h2 => ?_⟩
  · have := increasing_inj hx hk h0 h
    obtain rfl : k = 0 := by omega
    rfl
  · have := increasing_inj hx (by omega) hk h
    obtain rfl : k = x.length - 1 := by omega
    rfl
  · have a1 := increasing_inj hx (by omega) hk h1
    have a2 := increasing_inj hx hk hi h2
    have hd : x[i + 1] - x[i] ≠ 0 := by
      have := hx i (i + 1) hi (by omega)
      intro h
      linarith
    rcases Nat.lt_or_ge i k with h | h
    · obtain rfl : k = i + 1 := by omega
      rw [div_self hd, mul_one, Real.cos_pi]
      ring
    · obtain rfl : k = i := by omega
      rw [sub_self, zero_div, mul_zero, Real.cos_zero]
      ring

theorem smooth_inside {x y : List ℝ} (hl : y.length = x.length) (hx : Interp.Increasing x) {t : ℝ} (k : Nat)
    (hk : k + 1 < x.length) (h1 : x[k] < t) (h2 : t < x[k + 1]) : Smooth x y hl t
      ((y[k] + y[k + 1]) / 2 - (y[k + 1] - y[k]) / 2 * Real.cos (Real.pi * ((t - x[k]) / (x[k + 1] - x[k])))) := by
  refine ⟨fun h0 h => ?_, fun h0 h => ?_, fun i hi g1 g2 => ?_⟩
  · have := increasing_inj hx (i := k) (j := 0) (by omega) h0 (by linarith)
    obtain rfl : k = 0 := by omega
    linarith
  · have := increasing_inj hx (i := x.length - 1) (j := k + 1) (by omega) hk (by linarith)
    have e : x[x.length - 1] = x[k + 1] := by
      congr 1
      omega
    linarith
  · have a1 : i ≤ k := by
      by_contra hlt
      have : x[k + 1] ≤ x[i] := by
        rcases Nat.lt_or_ge (k + 1) i with h | h
        · exact (hx (k + 1) i (by omega) h).le
        · have : i = k + 1 := by omega
          subst this
          exact le_rfl
      linarith
    have a2 : k ≤ i := by
      by_contra hlt
      have : x[i + 1] ≤ x[k] := by
        rcases Nat.lt_or_ge (i + 1) k with h | h
        · exact (hx (i + 1) k (by omega) h).le
        · have : k = i + 1 := by omega
          subst this
          exact le_rfl
      linarith
    obtain rfl : i = k := by omega
    rfl

theorem smooth_outside {x y : List ℝ} (hl : y.length = x.length) (hx : Interp.Increasing x) {t : ℝ} (hne : 0 < x.length) :
    (t < x[0] → Smooth x y hl t y[0]) ∧ (x[x.length - 1] < t → Smooth x y hl t y[x.length - 1]) := by
  have mono : ∀ i j (hi : i < x.length) (hj : j < x.length), i ≤ j → x[i] ≤ x[j] := by
    intro i j hi hj h
    rcases Nat.lt_or_ge i j with h' | h'
    · exact (hx i j hj h').le
    · obtain rfl : i = j := by omega
      exact le_rfl
  constructor
  · intro h
    refine ⟨fun _ _ => rfl, fun h0 g => ?_, fun i hi g1 g2 => ?_⟩
    · have := mono 0 (x.length - 1) h0 (by omega) (by omega)
      linarith
    · have := mono 0 i (by omega) (by omega) (by omega)
      linarith
  · intro h
    refine ⟨fun h0 g => ?_, fun _ _ => rfl, fun i hi g1 g2 => ?_⟩
    · have := mono 0 (x.length - 1) h0 (by omega) (by omega)
      linarith
    · have := mono (i + 1) (x.length - 1) (by omega) (by omega) (by omega)
      linarith

/-- **C133** The interpolation by cosines of the front end and that of the library give, for every increasing table, the value
of the smooth function through the points of the table. -/
theorem C133_cosine (t : ℝ) (x y : List ℝ) (hne : x ≠ []) (hx : Interp.Increasing x) (hl : y.length = x.length) :
    ∃ v, cosineInterpolation t x y = some v ∧ (∃ l, Tools.cosineInterpolation t x y = some (v, l)) ∧ Smooth x y hl t v := by
  have hlen : 0 < x.length := List.length_pos_iff.mpr hne
  -- the value of the smooth function is unique
  have uniq : ∀ v v', Smooth x y hl t v → Smooth x y hl t v' → v = v' := by
    intro v v' h h'
    by_cases h0 : t ≤ x[0]
    · rw [h.below hlen h0, h'.below hlen h0]
    by_cases h1 : x[x.length - 1] ≤ t
    · rw [h.above hlen h1, h'.above hlen h1]
    have hex : ∃ k, k < x.length ∧ ∃ hk : k < x.length, t < x[k] := ⟨x.length - 1, by omega, by omega, by linarith⟩
    classical
    obtain ⟨hk1, hk2, hk3⟩ := Nat.find_spec hex
    have hmin := fun m (hm : m < Nat.find hex) => Nat.find_min hex hm
    generalize Nat.find hex = k at *
    cases k with
    | zero => linarith
    | succ j =>
      have : x[j] ≤ t := by
        by_contra hj
        exact hmin j (by omega) ⟨by omega, by omega, by linarith⟩
      rw [h.between j hk1 this hk3.le, h'.between j hk1 this hk3.le]
  have hpy : ∃ v, cosineInterpolation t x y = some v ∧ Smooth x y hl t v := by
    unfold cosineInterpolation Univ.Py.findIndices
    cases hf : x.findIdx? (fun r => leb t r) with
    | none =>
      rw [List.findIdx?_eq_none_iff] at hf
      have hlast := hf x[x.length - 1] (List.getElem_mem _)
      simp only [leb_real_false] at hlast
      refine ⟨y[x.length - 1]'(by omega), ?_, (smooth_outside hl hx hlen).2 hlast⟩
      simp only [if_true]
      exact List.getElem?_eq_getElem (by omega)
    | some i =>
      rw [List.findIdx?_eq_some_iff_getElem] at hf
      obtain ⟨hi, h1, h2⟩ := hf
      simp only [leb_real] at h1
      cases i with
      | zero =>
        refine ⟨y[0]'(by omega), by simp, ?_⟩
        rcases h1.eq_or_lt with h | h
        · exact smooth_node hl hx 0 hlen h
        · exact (smooth_outside hl hx hlen).1 h
      | succ k =>
        have hk := h2 k (by omega)
        simp only [leb_real, not_le] at hk
        have e1 : x[k]? = some (x[k]'(by omega)) := List.getElem?_eq_getElem (by omega)
        have e2 : x[k + 1]? = some (x[k + 1]'(by omega)) := List.getElem?_eq_getElem (by omega)
        have e3 : y[k]? = some (y[k]'(by omega)) := List.getElem?_eq_getElem (by omega)
        have e4 : y[k + 1]? = some (y[k + 1]'(by omega)) := List.getElem?_eq_getElem (by omega)
        have hd : x[k + 1] - x[k] ≠ 0 := by
          have := hx k (k + 1) hi (by omega)
          intro h
          linarith
        refine ⟨_, by simp [e1, e2, e3, e4, hd]; rfl, ?_⟩
        have e : y[k] * (1 - (1 - Real.cos ((t - x[k]) / (x[k + 1] - x[k]) * Real.pi)) / 2)
              + y[k + 1] * ((1 - Real.cos ((t - x[k]) / (x[k + 1] - x[k]) * Real.pi)) / 2)
            = (y[k] + y[k + 1]) / 2 - (y[k + 1] - y[k]) / 2 * Real.cos (Real.pi * ((t - x[k]) / (x[k + 1] - x[k]))) := by
          rw [mul_comm Real.pi]
          ring
        have h' : Smooth x y hl t
            (y[k] * (1 - (1 - Real.cos ((t - x[k]) / (x[k + 1] - x[k]) * Real.pi)) / 2)
              + y[k + 1] * ((1 - Real.cos ((t - x[k]) / (x[k + 1] - x[k]) * Real.pi)) / 2)) := by
          rw [e]
          rcases h1.eq_or_lt with h | h
          · have := smooth_node (y := y) hl hx (k + 1) hi h
            rw [h, div_self hd, mul_one, Real.cos_pi]
            rw [h] at this
            convert this using 1
            ring
          · exact smooth_inside hl hx k hi hk h
        exact h'
  obtain ⟨v, hv, hs⟩ := hpy
  refine ⟨v, hv, ?_, hs⟩
  have hr : ∃ w l, Tools.cosineInterpolation t x y = some (w, l) ∧ Smooth x y hl t w := by
    unfold Tools.cosineInterpolation
    rcases Interp.findIndices_cases x t hne with ⟨g1, g⟩ | ⟨g2, g3, g⟩ | ⟨k, hi, g3, g4, g⟩
    · have hlast := g1 x[x.length - 1] (List.getElem_mem _)
      simp only [ltb_real_false] at hlast
      have e : y[x.length - 1]? = some (y[x.length - 1]'(by omega)) := List.getElem?_eq_getElem (by omega)
      refine ⟨y[x.length - 1], x.length - 1, by simp [g, e], ?_⟩
      rcases hlast.eq_or_lt with h | h
      · exact smooth_node hl hx _ _ h.symm
      · exact (smooth_outside hl hx hlen).2 h
    · simp only [ltb_real] at g3
      have e : y[0]? = some (y[0]'(by omega)) := List.getElem?_eq_getElem (by omega)
      exact ⟨y[0], 0, by simp [g, e], (smooth_outside hl hx hlen).1 g3⟩
    · have hk := g4 k (by omega)
      simp only [ltb_real, ltb_real_false] at hk g3
      have e1 : x[k]? = some (x[k]'(by omega)) := List.getElem?_eq_getElem (by omega)
      have e2 : x[k + 1]? = some (x[k + 1]'(by omega)) := List.getElem?_eq_getElem (by omega)
      have e3 : y[k]? = some (y[k]'(by omega)) := List.getElem?_eq_getElem (by omega)
      have e4 : y[k + 1]? = some (y[k + 1]'(by omega)) := List.getElem?_eq_getElem (by omega)
      refine ⟨y[k] * (1 - (1 - Real.cos ((t - x[k]) / (x[k + 1] - x[k]) * Real.pi)) / 2)
              + y[k + 1] * ((1 - Real.cos ((t - x[k]) / (x[k + 1] - x[k]) * Real.pi)) / 2), k, ?_, ?_⟩
      · simp [g, e1, e2, e3, e4, Tools.pi]
      · have e : y[k] * (1 - (1 - Real.cos ((t - x[k]) / (x[k + 1] - x[k]) * Real.pi)) / 2)
              + y[k + 1] * ((1 - Real.cos ((t - x[k]) / (x[k + 1] - x[k]) * Real.pi)) / 2)
            = (y[k] + y[k + 1]) / 2 - (y[k + 1] - y[k]) / 2 * Real.cos (Real.pi * ((t - x[k]) / (x[k + 1] - x[k]))) := by
          rw [mul_comm Real.pi]
          ring
        rw [e]
        rcases hk.eq_or_lt with h | h
        · have := smooth_node (y := y) hl hx k (by omega) h.symm
          rw [← h, sub_self, zero_div, mul_zero, Real.cos_zero]
          rw [← h] at this
          convert this using 1
          ring
        · exact smooth_inside hl hx k hi h g3
  obtain ⟨w, l, hw, hw'⟩ := hr
  exact ⟨l, by rw [hw, uniq w v hw' hs]⟩

/-! ## Instances of the hypotheses -/

example : massRadiusRelation (3 / 10 ^ 6 : ℝ) "AU" 0.7 = massRadiusRelation (3 / 10 ^ 6 / Constants.mEarth) "factor" 0.7 :=
  C133_units _ _ (by norm_num)

example : ∃ r r', massRadiusRelation (1 : ℝ) "factor" 0.7 = some r ∧ massRadiusRelation 2 "factor" 0.7 = some r' ∧ r < r' :=
  C133_grows_partial 1 2 0.7 (by norm_num) (by norm_num) (by norm_num) (by norm_num)

example : ∃ v, cosineInterpolation (3 / 2 : ℝ) [1, 2] [5, 7] = some v
    ∧ (∃ l, Tools.cosineInterpolation (3 / 2 : ℝ) [1, 2] [5, 7] = some (v, l)) ∧ Smooth [1, 2] [5, 7] rfl (3 / 2) v :=
  C133_cosine (3 / 2) [1, 2] [5, 7] (by simp) (by
    intro i j hj hij
    have : j = 1 := by simp at hj; omega
    subst this
    have : i = 0 := by omega
    subst this
    norm_num) rfl

end Posidonius.Tools.Py
