import Verif.Model.Creep
import Verif.Model.RealTrig
import Verif.Spec.Hansen
import Mathlib.Analysis.SpecialFunctions.Trigonometric.Bounds
import Mathlib.Analysis.SpecialFunctions.Trigonometric.Arctan
import Mathlib.Analysis.SpecificLimits.Basic
import Mathlib.Topology.Order.IntermediateValue
import Mathlib.Tactic.NormNum
import Mathlib.Tactic.Linarith
import Mathlib.Tactic.Positivity
import Mathlib.Tactic.FieldSimp
import Mathlib.Tactic.LinearCombination

/-! # C51: the iteration for the eccentric anomaly -/

namespace Posidonius

noncomputable instance : FTan ℝ := ⟨Real.tan, Real.arctan⟩

@[simp] theorem tan_real (x : ℝ) : (FTan.tan x : ℝ) = Real.tan x := rfl
@[simp] theorem atan_real (x : ℝ) : (FTan.atan x : ℝ) = Real.arctan x := rfl

namespace Creep
open Posidonius

/-- Kepler's equation. -/
def Kepler (e m bigE : ℝ) : Prop := bigE - e * Real.sin bigE = m

theorem loop_step {e m x : ℝ} {fuel : ℕ} :
    anomalyLoop e m (fuel + 1) x = if |m + e * Real.sin x - x| ≤ 1 / 10 ^ 13 then some (m + e * Real.sin x)
      else anomalyLoop e m fuel (m + e * Real.sin x) := by
  rw [anomalyLoop]
  by_cases h : |m + e * Real.sin x - x| ≤ 1 / 10 ^ 13
  · rw [if_pos h]
    have : ltb (lit (1 / 10 ^ 13) : ℝ) (FOps.abs (m + e * Real.sin x - x)) = false := by
      simpa using h
    simp only [this, sin_real, Bool.false_eq_true, if_false]
  · rw [if_neg h]
    have : ltb (lit (1 / 10 ^ 13) : ℝ) (FOps.abs (m + e * Real.sin x - x)) = true := by
      simpa using h
    simp only [this, sin_real, if_true]

theorem contraction {e : ℝ} (h0 : 0 ≤ e) (x y : ℝ) :
    |e * Real.sin x - e * Real.sin y| ≤ e * |x - y| := by
  rw [← mul_sub, abs_mul, abs_of_nonneg h0]
  exact mul_le_mul_of_nonneg_left (Real.abs_sin_sub_sin_le x y) h0

/-- With enough iterations the loop ends. -/
theorem loop_ends {e m : ℝ} (h0 : 0 ≤ e) : ∀ (fuel : ℕ) (x : ℝ),
    e ^ fuel * |m + e * Real.sin x - x| ≤ 1 / 10 ^ 13 → ∃ y, anomalyLoop e m (fuel + 1) x = some y := by
  intro fuel
  induction fuel with
  | zero =>
    intro x h
    rw [pow_zero, one_mul] at h
    exact ⟨_, by rw [loop_step, if_pos h]⟩
  | succ fuel ih =>
    intro x h
    rw [loop_step]
    split_ifs with hs
    · exact ⟨_, rfl⟩
    · refine ih _ (le_trans ?_ h)
      have hc := contraction h0 (m + e * Real.sin x) x
      have : |m + e * Real.sin (m + e * Real.sin x) - (m + e * Real.sin x)| ≤ e * |m + e * Real.sin x - x| := by
        have : m + e * Real.sin (m + e * Real.sin x) - (m + e * Real.sin x)
            = e * Real.sin (m + e * Real.sin x) - e * Real.sin x := by ring
        rw [this]
        exact hc
      calc e ^ fuel * |m + e * Real.sin (m + e * Real.sin x) - (m + e * Real.sin x)|
          ≤ e ^ fuel * (e * |m + e * Real.sin x - x|) := mul_le_mul_of_nonneg_left this (by positivity)
        _ = e ^ (fuel + 1) * |m + e * Real.sin x - x| := by ring

/-- What is known about a result. -/
theorem loop_result {e m : ℝ} (h0 : 0 ≤ e) : ∀ (fuel : ℕ) (x y : ℝ),
    anomalyLoop e m fuel x = some y → |y - e * Real.sin y - m| ≤ e / 10 ^ 13 := by
  intro fuel
  induction fuel with
  | zero => intro x y h; exact absurd h (by simp [anomalyLoop])
  | succ fuel ih =>
    intro x y h
    rw [loop_step] at h
    split_ifs at h with hs
    · have hy : m + e * Real.sin x = y := by simpa using h
      have hc := contraction h0 x (m + e * Real.sin x)
      rw [hy] at hc hs
      have : y - e * Real.sin y - m = e * Real.sin x - e * Real.sin y := by rw [← hy]; ring
      rw [this]
      refine hc.trans ?_
      rw [abs_sub_comm, div_eq_mul_one_div]
      exact mul_le_mul_of_nonneg_left hs h0
    · exact ih _ _ h

/-- More fuel does not change a result. -/
theorem loop_mono {e m : ℝ} : ∀ (fuel : ℕ) (x y : ℝ) (k : ℕ),
    anomalyLoop e m fuel x = some y → anomalyLoop e m (fuel + k) x = some y := by
  intro fuel
  induction fuel with
  | zero => intro x y k h; exact absurd h (by simp [anomalyLoop])
  | succ fuel ih =>
    intro x y k h
    rw [loop_step] at h
    have : fuel + 1 + k = fuel + k + 1 := by omega
    rw [this, loop_step]
    split_ifs at h ⊢ with hs
    · exact h
    · exact ih _ _ _ h

/-- Two near-solutions of Kepler's equation are near each other. -/
theorem near {e x y : ℝ} (h0 : 0 ≤ e) : (1 - e) * |x - y| ≤ |(x - e * Real.sin x) - (y - e * Real.sin y)| := by
  have h := contraction h0 x y
  have : |x - y| ≤ |(x - e * Real.sin x) - (y - e * Real.sin y)| + |e * Real.sin x - e * Real.sin y| := by
    have : x - y = ((x - e * Real.sin x) - (y - e * Real.sin y)) + (e * Real.sin x - e * Real.sin y) := by ring
    calc |x - y| = |((x - e * Real.sin x) - (y - e * Real.sin y)) + (e * Real.sin x - e * Real.sin y)| := by rw [← this]
      _ ≤ _ := abs_add_le _ _
  linarith

theorem kepler_unique (e m : ℝ) (h0 : 0 ≤ e) (h1 : e < 1) : ∃! bigE, Kepler e m bigE := by
  have hc : ContinuousOn (fun x => x - e * Real.sin x) (Set.Icc (m - 1) (m + 1)) := by fun_prop
  have key := intermediate_value_Icc (by linarith : m - 1 ≤ m + 1) hc
  have : m ∈ Set.Icc (m - 1 - e * Real.sin (m - 1)) (m + 1 - e * Real.sin (m + 1)) := by
    constructor
    · nlinarith [Real.neg_one_le_sin (m - 1)]
    · nlinarith [Real.sin_le_one (m + 1)]
  obtain ⟨x, _, hx⟩ := key this
  refine ⟨x, hx, fun y hy => ?_⟩
  have hy : y - e * Real.sin y = m := hy
  have hx : x - e * Real.sin x = m := hx
  have hn := near (x := y) (y := x) h0
  rw [hx, hy, sub_self, abs_zero] at hn
  have : |y - x| ≤ 0 := by
    by_contra hcon
    push Not at hcon
    nlinarith
  have := abs_nonpos_iff.1 this
  linarith

/-- **C51**: the loop of `calculate_true_anomaly` ends for every eccentricity in [0, 1) and every mean anomaly: `n`
iterations are enough if `e^n` is at most the tolerance. -/
theorem C51_ends {e : ℝ} (h0 : 0 ≤ e) (m : ℝ) {n fuel : ℕ} (hn : e ^ n ≤ 1 / 10 ^ 13) (hf : n ≤ fuel) (hn1 : 1 ≤ n) :
    ∃ y, anomalyLoop e m fuel m = some y := by
  obtain ⟨k, rfl⟩ := Nat.exists_eq_add_of_le' hn1
  have hd : |m + e * Real.sin m - m| ≤ e := by
    rw [add_sub_cancel_left, abs_mul, abs_of_nonneg h0]
    nlinarith [Real.abs_sin_le_one m]
  obtain ⟨y, hy⟩ := loop_ends (m := m) h0 k m (by
    calc e ^ k * |m + e * Real.sin m - m| ≤ e ^ k * e := mul_le_mul_of_nonneg_left hd (by positivity)
      _ = e ^ (k + 1) := by ring
      _ ≤ _ := hn)
  obtain ⟨j, rfl⟩ := Nat.exists_eq_add_of_le hf
  exact ⟨y, loop_mono _ _ _ _ hy⟩

/-- **C51**: for every eccentricity in [0, 1) and every mean anomaly the loop ends, and whatever the fuel its result is
within `e 10⁻¹³ / (1 - e)` of the only solution of Kepler's equation. -/
theorem C51_solves {e : ℝ} (h0 : 0 ≤ e) (h1 : e < 1) (m : ℝ) :
    ∃ bigE, Kepler e m bigE ∧ (∀ x, Kepler e m x → x = bigE)
      ∧ (∃ n, ∀ fuel ≥ n, ∃ y, anomalyLoop e m fuel m = some y)
      ∧ ∀ fuel y, anomalyLoop e m fuel m = some y → |y - bigE| ≤ e / (10 ^ 13 * (1 - e)) := by
  obtain ⟨x, hx, hu⟩ := kepler_unique e m h0 h1
  refine ⟨x, hx, hu, ?_, ?_⟩
  · obtain ⟨n, hn⟩ := exists_pow_lt_of_lt_one (by norm_num : (0 : ℝ) < 1 / 10 ^ 13) h1
    refine ⟨n + 1, fun fuel hf => C51_ends h0 m (n := n + 1) ?_ hf (by omega)⟩
    calc e ^ (n + 1) ≤ e ^ n := pow_le_pow_of_le_one h0 h1.le (by omega)
      _ ≤ _ := hn.le
  · intro fuel y hy
    have hr := loop_result h0 _ _ _ hy
    have hn := near (x := y) (y := x) h0
    have hx : x - e * Real.sin x = m := hx
    rw [hx] at hn
    have h1' : 0 < 1 - e := by linarith
    rw [le_div_iff₀ (by positivity)]
    have : (1 - e) * |y - x| ≤ e / 10 ^ 13 := hn.trans hr
    rw [le_div_iff₀ (by positivity)] at this
    linarith

/-- **C51**: the conversion to the true anomaly gives the direction of the place on the ellipse, except at the
aphelion, where the tangent of the half angle has no value. -/
theorem C51_true_anomaly {e : ℝ} (h0 : 0 ≤ e) (h1 : e < 1) (bigE : ℝ) (hE : Real.cos (bigE / 2) ≠ 0) :
    Hansen.place e bigE / (Hansen.radius e bigE : ℂ) = Complex.exp (Complex.I * (trueOfEccentric e bigE : ℝ)) := by
  set t := Real.tan (bigE / 2) with ht
  set g := Real.sqrt ((1 + e) / (1 - e)) with hg
  have h1' : 0 < 1 - e := by linarith
  have hf : trueOfEccentric e bigE = 2 * Real.arctan (g * t) := by
    simp only [trueOfEccentric, lit_real, atan_real, tan_real, powf_real, hg, Real.sqrt_eq_rpow, ht]
    norm_num
  have hg2 : g ^ 2 * (1 - e) = 1 + e := by
    rw [hg, Real.sq_sqrt (by positivity)]
    field_simp
  have hg0 : 0 ≤ g := Real.sqrt_nonneg _
  have hroot : Real.sqrt (1 - e ^ 2) = g * (1 - e) := by
    rw [Real.sqrt_eq_iff_mul_self_eq (by nlinarith) (by positivity)]
    linear_combination -(1 - e) * hg2
  have hc2 : Real.cos (bigE / 2) ^ 2 * (1 + t ^ 2) = 1 := by
    rw [ht, Real.tan_eq_sin_div_cos]
    field_simp
    linear_combination Real.sin_sq_add_cos_sq (bigE / 2)
  have hs : Real.sin (bigE / 2) = t * Real.cos (bigE / 2) := by
    rw [ht, Real.tan_eq_sin_div_cos]
    field_simp
  have hcE : Real.cos bigE * (1 + t ^ 2) = 1 - t ^ 2 := by
    have : Real.cos bigE = 2 * Real.cos (bigE / 2) ^ 2 - 1 := by
      rw [← Real.cos_two_mul]; congr 1; ring
    rw [this]
    linear_combination 2 * hc2
  have hsE : Real.sin bigE * (1 + t ^ 2) = 2 * t := by
    have : Real.sin bigE = 2 * Real.sin (bigE / 2) * Real.cos (bigE / 2) := by
      rw [← Real.sin_two_mul]; congr 1; ring
    rw [this, hs]
    linear_combination 2 * t * hc2
  have hp : 0 < 1 + (g * t) ^ 2 := by positivity
  have hp' : 0 < 1 + t ^ 2 := by positivity
  have hcf : Real.cos (2 * Real.arctan (g * t)) * (1 + (g * t) ^ 2) = 1 - (g * t) ^ 2 := by
    rw [Real.cos_two_mul, Real.cos_sq_arctan]
    field_simp
    ring
  have hsf : Real.sin (2 * Real.arctan (g * t)) * (1 + (g * t) ^ 2) = 2 * (g * t) := by
    have : Real.sin (Real.arctan (g * t)) = g * t * Real.cos (Real.arctan (g * t)) := by
      conv_rhs => rw [← Real.tan_arctan (g * t), Real.arctan_tan (Real.neg_pi_div_two_lt_arctan _) (Real.arctan_lt_pi_div_two _)]
      rw [Real.tan_mul_cos (Real.cos_arctan_pos _).ne']
    rw [Real.sin_two_mul, this]
    have h2 := Real.cos_sq_arctan (g * t)
    rw [eq_div_iff hp.ne'] at h2
    linear_combination 2 * (g * t) * h2
  have hr : 0 < Hansen.radius e bigE := by
    rw [Hansen.radius]
    nlinarith [Real.cos_le_one bigE]
  have hr' : Hansen.radius e bigE * (1 + t ^ 2) = (1 - e) * (1 + (g * t) ^ 2) := by
    rw [Hansen.radius]
    linear_combination -e * hcE - t ^ 2 * hg2
  rw [hf, div_eq_iff (by exact_mod_cast hr.ne'), mul_comm Complex.I, Complex.exp_mul_I]
  have hre : Real.cos bigE - e = Real.cos (2 * Real.arctan (g * t)) * Hansen.radius e bigE := by
    refine mul_right_cancel₀ hp'.ne' ?_
    rw [mul_assoc, hr']
    linear_combination hcE - (1 - e) * hcf + t ^ 2 * hg2
  have him : Real.sqrt (1 - e ^ 2) * Real.sin bigE = Real.sin (2 * Real.arctan (g * t)) * Hansen.radius e bigE := by
    refine mul_right_cancel₀ hp'.ne' ?_
    rw [mul_assoc, mul_assoc, hr', hroot]
    linear_combination g * (1 - e) * hsE - (1 - e) * hsf
  apply Complex.ext
  · rw [← Complex.ofReal_cos, ← Complex.ofReal_sin]
    simp only [Hansen.place, Complex.mul_re, Complex.add_re, Complex.add_im, Complex.ofReal_re, Complex.ofReal_im,
      Complex.I_re, Complex.I_im, Complex.mul_im]
    linear_combination hre
  · rw [← Complex.ofReal_cos, ← Complex.ofReal_sin]
    simp only [Hansen.place, Complex.mul_re, Complex.add_re, Complex.add_im, Complex.ofReal_re, Complex.ofReal_im,
      Complex.I_re, Complex.I_im, Complex.mul_im]
    linear_combination him

/-- **C51**, why the bound on the eccentricity is needed: for `e = π/2` and `M = π/2` the loop never ends. -/
theorem C51_endless (fuel : ℕ) : anomalyLoop (Real.pi / 2) (Real.pi / 2) fuel (Real.pi / 2) = none := by
  have hpi := Real.two_le_pi
  have h : ∀ fuel, anomalyLoop (Real.pi / 2) (Real.pi / 2) fuel (Real.pi / 2) = none
      ∧ anomalyLoop (Real.pi / 2) (Real.pi / 2) fuel Real.pi = none := by
    intro fuel
    induction fuel with
    | zero => exact ⟨rfl, rfl⟩
    | succ fuel ih =>
      constructor
      · rw [loop_step, Real.sin_pi_div_two, if_neg]
        · rw [mul_one, add_halves]
          exact ih.2
        · rw [mul_one, add_sub_cancel_right, abs_of_nonneg (by linarith), not_le]
          norm_num
          linarith
      · rw [loop_step, Real.sin_pi, if_neg]
        · rw [mul_zero, add_zero]
          exact ih.1
        · rw [mul_zero, add_zero, abs_of_nonpos (by linarith), not_le]
          norm_num
          linarith
  exact (h fuel).1

/-- The hypotheses can be met: 44 iterations are enough for an eccentricity of one half. -/
example : ∃ y, anomalyLoop (1 / 2 : ℝ) 1 44 1 = some y :=
  C51_ends (by norm_num) 1 (n := 44) (by norm_num) le_rfl (by norm_num)

end Creep
end Posidonius
