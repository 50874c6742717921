import Mathlib.Analysis.Calculus.Deriv.Inverse
import Mathlib.Analysis.Calculus.Deriv.Pow
import Mathlib.Analysis.Calculus.MeanValue
import Mathlib.Analysis.SpecialFunctions.Trigonometric.Deriv
import Mathlib.Analysis.SpecialFunctions.Trigonometric.ArctanDeriv
import Mathlib.Analysis.SpecialFunctions.Trigonometric.Bounds
import Mathlib.Topology.Order.IntermediateValue

/-! # The anomalies of an ellipse, and integrals of powers of the distance over an orbit -/

namespace Posidonius.Order

section
variable {e n : ℝ} {E : ℝ → ℝ}

theorem anomaly_expands (he0 : 0 ≤ e) (x y : ℝ) :
    (1 - e) * |x - y| ≤ |(x - e * Real.sin x) - (y - e * Real.sin y)| := by
  have hs : |Real.sin x - Real.sin y| ≤ |x - y| := by
    rw [Real.sin_sub_sin, abs_mul, abs_mul, abs_two]
    have h1 : |Real.sin ((x - y) / 2)| ≤ |(x - y) / 2| := Real.abs_sin_le_abs
    have h2 := Real.abs_cos_le_one ((x + y) / 2)
    have h3 : |(x - y) / 2| = |x - y| / 2 := by rw [abs_div, abs_two]
    nlinarith [abs_nonneg (Real.sin ((x - y) / 2)), abs_nonneg (Real.cos ((x + y) / 2))]
  have ht := abs_sub_abs_le_abs_sub (x - y) (e * (Real.sin x - Real.sin y))
  rw [abs_mul, abs_of_nonneg he0] at ht
  rw [show x - e * Real.sin x - (y - e * Real.sin y) = x - y - e * (Real.sin x - Real.sin y) by ring]
  nlinarith

theorem anomaly_injective (he0 : 0 ≤ e) (he1 : e < 1) {x y : ℝ} (h : x - e * Real.sin x = y - e * Real.sin y) : x = y := by
  have h1 := anomaly_expands he0 x y
  rw [h, sub_self, abs_zero] at h1
  have h2 : |x - y| ≤ 0 := by
    by_contra hc
    nlinarith [not_le.1 hc]
  exact sub_eq_zero.1 (abs_eq_zero.1 (le_antisymm h2 (abs_nonneg _)))

/-- Kepler's equation has a solution at all times. -/
theorem anomaly_exists (he0 : 0 ≤ e) (n : ℝ) : ∃ E : ℝ → ℝ, ∀ t, E t - e * Real.sin (E t) = n * t := by
  have h : ∀ y : ℝ, ∃ x, x - e * Real.sin x = y := by
    intro y
    have hc : ContinuousOn (fun x : ℝ => x - e * Real.sin x) (Set.Icc (y - e) (y + e)) := by fun_prop
    have hm : y ∈ Set.Icc ((fun x : ℝ => x - e * Real.sin x) (y - e)) ((fun x : ℝ => x - e * Real.sin x) (y + e)) := by
      constructor
      · dsimp only
        nlinarith [Real.neg_one_le_sin (y - e)]
      · dsimp only
        nlinarith [Real.sin_le_one (y + e)]
    obtain ⟨x, -, hx⟩ := intermediate_value_Icc (by linarith) hc hm
    exact ⟨x, hx⟩
  exact ⟨fun t => (h (n * t)).choose, fun t => (h (n * t)).choose_spec⟩

theorem distance_pos (he0 : 0 ≤ e) (he1 : e < 1) (x : ℝ) : 0 < 1 - e * Real.cos x := by
  nlinarith [Real.cos_le_one x]

/-- The eccentric anomaly moves at the rate that Kepler's equation says. -/
theorem anomaly_deriv (he0 : 0 ≤ e) (he1 : e < 1) (hn : n ≠ 0) (hE : ∀ t, E t - e * Real.sin (E t) = n * t) (t : ℝ) :
    HasDerivAt E (n / (1 - e * Real.cos (E t))) t := by
  have hd := distance_pos he0 he1 (E t)
  have hc : ContinuousAt E t := by
    rw [Metric.continuousAt_iff]
    intro r hr
    refine ⟨(1 - e) * r / |n|, div_pos (mul_pos (by linarith) hr) (abs_pos.2 hn), fun {s} hs => ?_⟩
    rw [Real.dist_eq] at hs ⊢
    have h1 := anomaly_expands he0 (E s) (E t)
    rw [hE, hE, ← mul_sub, abs_mul] at h1
    rw [lt_div_iff₀ (abs_pos.2 hn)] at hs
    have h2 : (1 - e) * |E s - E t| < (1 - e) * r := by linarith
    exact lt_of_mul_lt_mul_left h2 (by linarith)
  have hf : HasDerivAt (fun x : ℝ => (x - e * Real.sin x) / n) ((1 - e * Real.cos (E t)) / n) (E t) :=
    ((hasDerivAt_id _).sub ((Real.hasDerivAt_sin _).const_mul e)).div_const n
  have := HasDerivAt.of_local_left_inverse hc hf (div_ne_zero hd.ne' hn)
    (Filter.Eventually.of_forall fun s => by rw [hE, mul_div_cancel_left₀ _ hn])
  rwa [inv_div] at this

/-- The anomaly gains a full turn in every period. -/
theorem anomaly_period (he0 : 0 ≤ e) (he1 : e < 1) (hn : n ≠ 0) (hE : ∀ t, E t - e * Real.sin (E t) = n * t) (t : ℝ) :
    E (t + 2 * Real.pi / n) = E t + 2 * Real.pi := by
  refine anomaly_injective he0 he1 ?_
  rw [hE, Real.sin_add_two_pi, show E t + 2 * Real.pi - e * Real.sin (E t) = E t - e * Real.sin (E t) + 2 * Real.pi by ring, hE]
  field_simp

end

/-- The true anomaly for the eccentric anomaly `x`; the eccentricity is `2 b / (1 + b^2)`. -/
noncomputable def trueAnomaly (b x : ℝ) : ℝ := x + 2 * Real.arctan (b * Real.sin x / (1 - b * Real.cos x))

section
variable {b : ℝ} (hb0 : 0 ≤ b) (hb1 : b < 1)
include hb0 hb1

theorem chord_pos (x : ℝ) : 0 < 1 - 2 * b * Real.cos x + b ^ 2 := by
  nlinarith [Real.cos_le_one x, mul_pos (sub_pos.2 hb1) (sub_pos.2 hb1), Real.neg_one_le_cos x]

theorem trueAnomaly_deriv (x : ℝ) :
    HasDerivAt (trueAnomaly b) ((1 - b ^ 2) / (1 - 2 * b * Real.cos x + b ^ 2)) x := by
  have hD := distance_pos hb0 hb1 x
  have hq := chord_pos hb0 hb1 x
  have h1 : HasDerivAt (fun x : ℝ => b * Real.sin x / (1 - b * Real.cos x))
      ((b * Real.cos x * (1 - b * Real.cos x) - b * Real.sin x * (0 - b * -Real.sin x)) / (1 - b * Real.cos x) ^ 2) x :=
    ((Real.hasDerivAt_sin x).const_mul b).div ((hasDerivAt_const x 1).sub ((Real.hasDerivAt_cos x).const_mul b)) hD.ne'
  have h2 := (hasDerivAt_id x).add (h1.arctan.const_mul 2)
  refine h2.congr_deriv ?_
  have hs := Real.sin_sq_add_cos_sq x
  have e1 : 1 + (b * Real.sin x / (1 - b * Real.cos x)) ^ 2
      = (1 - 2 * b * Real.cos x + b ^ 2) / (1 - b * Real.cos x) ^ 2 := by
    field_simp
    linear_combination b ^ 2 * hs
  have e2 : b * Real.cos x * (1 - b * Real.cos x) - b * Real.sin x * (0 - b * -Real.sin x) = b * Real.cos x - b ^ 2 := by
    linear_combination -b ^ 2 * hs
  rw [e1, e2]
  field_simp
  ring

theorem trueAnomaly_cos (x : ℝ) :
    Real.cos (trueAnomaly b x) = ((1 + b ^ 2) * Real.cos x - 2 * b) / (1 - 2 * b * Real.cos x + b ^ 2) := by
  have hD := distance_pos hb0 hb1 x
  have hq := chord_pos hb0 hb1 x
  have hs := Real.sin_sq_add_cos_sq x
  set y := b * Real.sin x / (1 - b * Real.cos x) with hy
  have e1 : 1 + y ^ 2 = (1 - 2 * b * Real.cos x + b ^ 2) / (1 - b * Real.cos x) ^ 2 := by
    rw [hy]
    field_simp
    linear_combination b ^ 2 * hs
  have hp : 0 < 1 + y ^ 2 := by positivity
  have hr : Real.sqrt (1 + y ^ 2) ^ 2 = 1 + y ^ 2 := Real.sq_sqrt hp.le
  have hr0 : 0 < Real.sqrt (1 + y ^ 2) := Real.sqrt_pos.2 hp
  have hc : Real.cos (2 * Real.arctan y)
      = ((1 - b * Real.cos x) ^ 2 - b ^ 2 * Real.sin x ^ 2) / (1 - 2 * b * Real.cos x + b ^ 2) := by
    rw [Real.cos_two_mul, Real.cos_arctan, div_pow, one_pow, hr, e1]
    field_simp
    linear_combination b ^ 2 * hs
  have hsn : Real.sin (2 * Real.arctan y)
      = 2 * b * Real.sin x * (1 - b * Real.cos x) / (1 - 2 * b * Real.cos x + b ^ 2) := by
    rw [Real.sin_two_mul, Real.cos_arctan, Real.sin_arctan,
      show 2 * (y / Real.sqrt (1 + y ^ 2)) * (1 / Real.sqrt (1 + y ^ 2)) = 2 * y / Real.sqrt (1 + y ^ 2) ^ 2 by ring,
      hr, e1, hy]
    field_simp
  unfold trueAnomaly
  rw [Real.cos_add, ← hy, hc, hsn, ← mul_div_assoc, ← mul_div_assoc, ← sub_div]
  congr 1
  linear_combination (b ^ 2 * Real.cos x - 2 * b) * hs

omit hb0 hb1 in
theorem trueAnomaly_turn (x : ℝ) : trueAnomaly b (x + 2 * Real.pi) = trueAnomaly b x + 2 * Real.pi := by
  unfold trueAnomaly
  rw [Real.sin_add_two_pi, Real.cos_add_two_pi]
  ring

end

/-- An integral of `(1 + e cos f)^4`. -/
noncomputable def fourth (e f : ℝ) : ℝ :=
  (1 + 3 * e ^ 2 + 3 / 8 * e ^ 4) * f
    + (4 * e * Real.sin f + 6 * e ^ 2 * (Real.sin f * Real.cos f / 2) + 4 * e ^ 3 * (Real.sin f - Real.sin f ^ 3 / 3)
      + e ^ 4 * (Real.sin f * Real.cos f ^ 3 / 4 + 3 * (Real.sin f * Real.cos f) / 8))

/-- An integral of `(1 + e cos f)^6`. -/
noncomputable def sixth (e f : ℝ) : ℝ :=
  (1 + 15 / 2 * e ^ 2 + 45 / 8 * e ^ 4 + 5 / 16 * e ^ 6) * f
    + (6 * e * Real.sin f + 15 * e ^ 2 * (Real.sin f * Real.cos f / 2) + 20 * e ^ 3 * (Real.sin f - Real.sin f ^ 3 / 3)
      + 15 * e ^ 4 * (Real.sin f * Real.cos f ^ 3 / 4 + 3 * (Real.sin f * Real.cos f) / 8)
      + 6 * e ^ 5 * (Real.sin f - 2 * Real.sin f ^ 3 / 3 + Real.sin f ^ 5 / 5)
      + e ^ 6 * (Real.sin f * Real.cos f ^ 5 / 6 + 5 * (Real.sin f * Real.cos f ^ 3) / 24
        + 5 * (Real.sin f * Real.cos f) / 16))

theorem fourth_deriv (e f : ℝ) : HasDerivAt (fourth e) ((1 + e * Real.cos f) ^ 4) f := by
  have s := Real.hasDerivAt_sin f
  have c := Real.hasDerivAt_cos f
  have sc := s.mul c
  have sc3 := s.mul (c.fun_pow 3)
  have h := ((hasDerivAt_id f).const_mul (1 + 3 * e ^ 2 + 3 / 8 * e ^ 4)).add
    ((((s.const_mul (4 * e)).add ((sc.div_const 2).const_mul (6 * e ^ 2))).add
      ((s.sub ((s.fun_pow 3).div_const 3)).const_mul (4 * e ^ 3))).add
      (((sc3.div_const 4).add ((sc.const_mul 3).div_const 8)).const_mul (e ^ 4)))
  refine h.congr_deriv ?_
  have h2 : Real.sin f ^ 2 = 1 - Real.cos f ^ 2 := by linarith [Real.sin_sq_add_cos_sq f]
  norm_num
  ring_nf
  simp only [h2]
  ring

theorem sixth_deriv (e f : ℝ) : HasDerivAt (sixth e) ((1 + e * Real.cos f) ^ 6) f := by
  have s := Real.hasDerivAt_sin f
  have c := Real.hasDerivAt_cos f
  have sc := s.mul c
  have sc3 := s.mul (c.fun_pow 3)
  have sc5 := s.mul (c.fun_pow 5)
  have h := ((hasDerivAt_id f).const_mul (1 + 15 / 2 * e ^ 2 + 45 / 8 * e ^ 4 + 5 / 16 * e ^ 6)).add
    ((((((s.const_mul (6 * e)).add ((sc.div_const 2).const_mul (15 * e ^ 2))).add
      ((s.sub ((s.fun_pow 3).div_const 3)).const_mul (20 * e ^ 3))).add
      (((sc3.div_const 4).add ((sc.const_mul 3).div_const 8)).const_mul (15 * e ^ 4))).add
      (((s.sub (((s.fun_pow 3).const_mul 2).div_const 3)).add ((s.fun_pow 5).div_const 5)).const_mul (6 * e ^ 5))).add
      ((((sc5.div_const 6).add ((sc3.const_mul 5).div_const 24)).add ((sc.const_mul 5).div_const 16)).const_mul (e ^ 6)))
  refine h.congr_deriv ?_
  have h2 : Real.sin f ^ 2 = 1 - Real.cos f ^ 2 := by linarith [Real.sin_sq_add_cos_sq f]
  have h4 : Real.sin f ^ 4 = (1 - Real.cos f ^ 2) ^ 2 := by rw [← h2]; ring
  norm_num
  ring_nf
  simp only [h2, h4]
  ring

theorem fourth_turn (e f : ℝ) : fourth e (f + 2 * Real.pi) = fourth e f + 2 * Real.pi * (1 + 3 * e ^ 2 + 3 / 8 * e ^ 4) := by
  unfold fourth
  rw [Real.sin_add_two_pi, Real.cos_add_two_pi]
  ring

theorem sixth_turn (e f : ℝ) : sixth e (f + 2 * Real.pi)
    = sixth e f + 2 * Real.pi * (1 + 15 / 2 * e ^ 2 + 45 / 8 * e ^ 4 + 5 / 16 * e ^ 6) := by
  unfold sixth
  rw [Real.sin_add_two_pi, Real.cos_add_two_pi]
  ring

/-- Integrals of the sixth and eighth power of the inverse distance along an orbit, and what they gain in a period. -/
theorem orbit_integrals {e n : ℝ} {E : ℝ → ℝ} (he0 : 0 ≤ e) (he1 : e < 1) (hn : n ≠ 0)
    (hE : ∀ t, E t - e * Real.sin (E t) = n * t) : ∃ I6 I8 : ℝ → ℝ,
    (∀ t, HasDerivAt I6 (1 / (1 - e * Real.cos (E t)) ^ 6) t) ∧ (∀ t, HasDerivAt I8 (1 / (1 - e * Real.cos (E t)) ^ 8) t)
    ∧ (∀ t, I6 (t + 2 * Real.pi / n) - I6 t
      = 2 * Real.pi * (1 + 3 * e ^ 2 + 3 / 8 * e ^ 4) / (n * Real.sqrt (1 - e ^ 2) ^ 9))
    ∧ ∀ t, I8 (t + 2 * Real.pi / n) - I8 t
      = 2 * Real.pi * (1 + 15 / 2 * e ^ 2 + 45 / 8 * e ^ 4 + 5 / 16 * e ^ 6) / (n * Real.sqrt (1 - e ^ 2) ^ 13) := by
  have hw2 : Real.sqrt (1 - e ^ 2) ^ 2 = 1 - e ^ 2 := Real.sq_sqrt (by nlinarith)
  have hw : 0 < Real.sqrt (1 - e ^ 2) := Real.sqrt_pos.2 (by nlinarith)
  generalize Real.sqrt (1 - e ^ 2) = w at hw hw2
  have hb0 : 0 ≤ e / (1 + w) := by positivity
  have hb1 : e / (1 + w) < 1 := by rw [div_lt_one (by linarith)]; linarith
  have hb : 1 + (e / (1 + w)) ^ 2 = 2 / (1 + w) := by
    field_simp
    linear_combination hw2
  have hb' : 1 - (e / (1 + w)) ^ 2 = 2 * w / (1 + w) := by
    field_simp
    linear_combination -hw2
  have hq : ∀ x, 1 - 2 * (e / (1 + w)) * Real.cos x + (e / (1 + w)) ^ 2 = 2 / (1 + w) * (1 - e * Real.cos x) := by
    intro x
    rw [show 1 - 2 * (e / (1 + w)) * Real.cos x + (e / (1 + w)) ^ 2
      = 1 + (e / (1 + w)) ^ 2 - 2 * (e / (1 + w)) * Real.cos x by ring, hb]
    ring
  have hd : ∀ t, HasDerivAt (fun t => trueAnomaly (e / (1 + w)) (E t)) (n * w / (1 - e * Real.cos (E t)) ^ 2) t := by
    intro t
    have hD := distance_pos he0 he1 (E t)
    refine ((trueAnomaly_deriv hb0 hb1 (E t)).comp t (anomaly_deriv he0 he1 hn hE t)).congr_deriv ?_
    rw [hb', hq]
    field_simp
  have hc : ∀ t, 1 + e * Real.cos (trueAnomaly (e / (1 + w)) (E t)) = w ^ 2 / (1 - e * Real.cos (E t)) := by
    intro t
    have hD := distance_pos he0 he1 (E t)
    rw [trueAnomaly_cos hb0 hb1, hq, hb]
    field_simp
    linear_combination -hw2
  have ht : ∀ t, trueAnomaly (e / (1 + w)) (E (t + 2 * Real.pi / n)) = trueAnomaly (e / (1 + w)) (E t) + 2 * Real.pi :=
    fun t => by rw [anomaly_period he0 he1 hn hE, trueAnomaly_turn]
  refine ⟨fun t => fourth e (trueAnomaly (e / (1 + w)) (E t)) / (n * w ^ 9),
    fun t => sixth e (trueAnomaly (e / (1 + w)) (E t)) / (n * w ^ 13), fun t => ?_, fun t => ?_, fun t => ?_, fun t => ?_⟩
  · refine (((fourth_deriv e _).comp t (hd t)).div_const (n * w ^ 9)).congr_deriv ?_
    have hD := distance_pos he0 he1 (E t)
    rw [hc]
    field_simp
  · refine (((sixth_deriv e _).comp t (hd t)).div_const (n * w ^ 13)).congr_deriv ?_
    have hD := distance_pos he0 he1 (E t)
    rw [hc]
    field_simp
  · dsimp only
    rw [ht, fourth_turn]
    ring
  · dsimp only
    rw [ht, sixth_turn]
    ring

end Posidonius.Order
