import Mathlib.Analysis.SpecialFunctions.Trigonometric.Series
import Mathlib.Analysis.SpecificLimits.Basic
import Mathlib.Analysis.Real.Pi.Bounds
import Verif.Lemmas.Kepler

/-! The Stumpff functions of the code and the exact ones. -/

namespace Posidonius.WHFast
open Posidonius

/-- The exact Stumpff functions c0 to c3. -/
noncomputable def stumpffExact (z : ℝ) : Gs ℝ := gFunctions z 1

theorem stumpffExact_pos {z : ℝ} (h : 0 < z) : stumpffExact z
    = ⟨Real.cos √z, Real.sin √z / √z, (1 - Real.cos √z) / z, (1 - Real.sin √z / √z) / z⟩ := by
  simp [stumpffExact, gFunctions, h]

theorem stumpffExact_neg {z : ℝ} (h : z < 0) : stumpffExact z
    = ⟨Real.cosh √(-z), Real.sinh √(-z) / √(-z), (1 - Real.cosh √(-z)) / z, (1 - Real.sinh √(-z) / √(-z)) / z⟩ := by
  simp [stumpffExact, gFunctions, h, not_lt.2 h.le]

theorem stumpffExact_zero : stumpffExact 0 = ⟨1, 1, 1 / 2, 1 / 6⟩ := by
  simp [stumpffExact, gFunctions]

theorem Gs.ext' {a b : Gs ℝ} (h0 : a.g0 = b.g0) (h1 : a.g1 = b.g1) (h2 : a.g2 = b.g2) (h3 : a.g3 = b.g3) :
    a = b := by
  cases a; cases b; simp_all

theorem quadruple_exact (z : ℝ) : quadruple (stumpffExact z) = stumpffExact (4 * z) := by
  rcases lt_trichotomy z 0 with h | h | h
  · have h4 : 4 * z < 0 := by linarith
    have hs : √(-(4 * z)) = 2 * √(-z) := by
      rw [show -(4 * z) = 2 ^ 2 * (-z) by ring, Real.sqrt_mul (by norm_num), Real.sqrt_sq (by norm_num)]
    have hp : 0 < √(-z) := Real.sqrt_pos.2 (by linarith)
    have hq : √(-z) ^ 2 = -z := Real.sq_sqrt (by linarith)
    rw [stumpffExact_neg h, stumpffExact_neg h4, hs, Real.cosh_two_mul, Real.sinh_two_mul]
    generalize √(-z) = t at *
    have hc := Real.cosh_sq t
    have hz : z = -t ^ 2 := by linarith
    subst hz
    apply Gs.ext'
    · simp [quadruple]; linarith
    · simp [quadruple]; field_simp
    · simp only [quadruple, lit_real]
      push_cast
      rw [hc]
      field_simp
      ring
    · simp only [quadruple, lit_real]
      push_cast
      field_simp
      ring
  · subst h
    rw [mul_zero, stumpffExact_zero]
    apply Gs.ext' <;> simp [quadruple] <;> norm_num
  · have h4 : 0 < 4 * z := by linarith
    have hs : √(4 * z) = 2 * √z := by
      rw [show 4 * z = 2 ^ 2 * z by ring, Real.sqrt_mul (by norm_num), Real.sqrt_sq (by norm_num)]
    have hp : 0 < √z := Real.sqrt_pos.2 h
    have hq : √z ^ 2 = z := Real.sq_sqrt h.le
    rw [stumpffExact_pos h, stumpffExact_pos h4, hs, Real.cos_two_mul, Real.sin_two_mul]
    generalize √z = t at *
    have hc := Real.sin_sq t
    subst hq
    apply Gs.ext'
    · simp [quadruple]; ring
    · simp [quadruple]; field_simp
    · simp only [quadruple, lit_real]
      push_cast
      field_simp
      rw [hc]
      ring
    · simp only [quadruple, lit_real]
      push_cast
      field_simp
      ring

theorem quadruple_iterate_exact (n : ℕ) (z : ℝ) : quadruple^[n] (stumpffExact z) = stumpffExact (4 ^ n * z) := by
  induction n generalizing z with
  | zero => simp
  | succ n ih => rw [Function.iterate_succ_apply, quadruple_exact, ih]; congr 1; ring

theorem scaleGs_exact (beta x : ℝ) : scaleGs x (stumpffExact (beta * (x * x))) = gFunctions beta x := by
  rcases eq_or_ne x 0 with rfl | hx
  · have := (gFunctions_spec beta).zero
    rw [mul_zero, mul_zero, stumpffExact_zero, this]
    simp [scaleGs]
  · have hx2 : 0 < x * x := mul_self_pos.2 hx
    have habs : √(x * x) = |x| := by rw [← sq, Real.sqrt_sq_eq_abs]
    have hax : 0 < |x| := abs_pos.2 hx
    rcases lt_trichotomy beta 0 with h | h | h
    · have hz : beta * (x * x) < 0 := mul_neg_of_neg_of_pos h hx2
      have hs : √(-(beta * (x * x))) = √(-beta) * |x| := by
        rw [show -(beta * (x * x)) = -beta * (x * x) by ring, Real.sqrt_mul (by linarith), habs]
      have hp : 0 < √(-beta) := Real.sqrt_pos.2 (by linarith)
      have e1 : Real.cosh (√(-beta) * |x|) = Real.cosh (√(-beta) * x) := by
        rcases abs_choice x with e | e <;> rw [e]
        rw [mul_neg, Real.cosh_neg]
      have e2 : Real.sinh (√(-beta) * |x|) / (√(-beta) * |x|) = Real.sinh (√(-beta) * x) / (√(-beta) * x) := by
        rcases abs_choice x with e | e <;> rw [e]
        rw [mul_neg, Real.sinh_neg, neg_div_neg_eq]
      rw [stumpffExact_neg hz, hs, e1, e2]
      simp only [gFunctions, h, not_lt.2 h.le, if_true, if_false]
      have hb := h.ne
      apply Gs.ext' <;> simp only [scaleGs] <;> field_simp
    · subst h
      rw [zero_mul, stumpffExact_zero]
      simp only [gFunctions, lt_irrefl, if_false]
      apply Gs.ext' <;> simp only [scaleGs] <;> ring
    · have hz : 0 < beta * (x * x) := mul_pos h hx2
      have hs : √(beta * (x * x)) = √beta * |x| := by
        rw [Real.sqrt_mul h.le, habs]
      have hp : 0 < √beta := Real.sqrt_pos.2 h
      have e1 : Real.cos (√beta * |x|) = Real.cos (√beta * x) := by
        rcases abs_choice x with e | e <;> rw [e]
        rw [mul_neg, Real.cos_neg]
      have e2 : Real.sin (√beta * |x|) / (√beta * |x|) = Real.sin (√beta * x) / (√beta * x) := by
        rcases abs_choice x with e | e <;> rw [e]
        rw [mul_neg, Real.sin_neg, neg_div_neg_eq]
      rw [stumpffExact_pos hz, hs, e1, e2]
      simp only [gFunctions, h, if_true]
      apply Gs.ext' <;> simp only [scaleGs] <;> field_simp

/-! ### The series -/

theorem hasSum_c0 (z : ℝ) : HasSum (fun n : ℕ => (-z) ^ n / (2 * n).factorial) (stumpffExact z).g0 := by
  rcases lt_trichotomy z 0 with h | h | h
  · rw [stumpffExact_neg h]
    have := Real.hasSum_cosh √(-z)
    refine this.congr_fun ?_
    intro n
    rw [pow_mul, Real.sq_sqrt (by linarith)]
  · subst h
    rw [stumpffExact_zero]
    have := hasSum_single (f := fun n : ℕ => (-(0 : ℝ)) ^ n / (2 * n).factorial) 0 (by
      intro n hn; simp [hn])
    simpa using this
  · rw [stumpffExact_pos h]
    have := Real.hasSum_cos √z
    refine this.congr_fun ?_
    intro n
    rw [pow_mul √z, Real.sq_sqrt h.le, ← mul_pow]
    congr 2
    ring

theorem hasSum_c1 (z : ℝ) : HasSum (fun n : ℕ => (-z) ^ n / (2 * n + 1).factorial) (stumpffExact z).g1 := by
  rcases lt_trichotomy z 0 with h | h | h
  · rw [stumpffExact_neg h]
    have hp : 0 < √(-z) := Real.sqrt_pos.2 (by linarith)
    have := (Real.hasSum_sinh √(-z)).div_const √(-z)
    refine this.congr_fun ?_
    intro n
    rw [pow_succ, pow_mul, Real.sq_sqrt (by linarith)]
    field_simp
  · subst h
    rw [stumpffExact_zero]
    have := hasSum_single (f := fun n : ℕ => (-(0 : ℝ)) ^ n / (2 * n + 1).factorial) 0 (by
      intro n hn; simp [hn])
    simpa using this
  · rw [stumpffExact_pos h]
    have hp : 0 < √z := Real.sqrt_pos.2 h
    have := (Real.hasSum_sin √z).div_const √z
    refine this.congr_fun ?_
    intro n
    rw [pow_succ √z, pow_mul √z, Real.sq_sqrt h.le, show (-z) ^ n = (-1) ^ n * z ^ n by rw [← mul_pow]; ring]
    field_simp

/-- The rest of a series bounded by a geometric one. -/
theorem tail_bound {f : ℕ → ℝ} {a C q : ℝ} (h : HasSum f a) (N : ℕ) (hq : 0 ≤ q) (hq1 : q < 1)
    (hf : ∀ n, |f (n + N)| ≤ C * q ^ n) : |a - ∑ n ∈ Finset.range N, f n| ≤ C / (1 - q) := by
  have h1 : HasSum (fun n => f (n + N)) (a - ∑ n ∈ Finset.range N, f n) := (hasSum_nat_add_iff' N).2 h
  have h2 : HasSum (fun n => C * q ^ n) (C * (1 - q)⁻¹) := (hasSum_geometric_of_lt_one hq hq1).mul_left C
  have := tsum_of_norm_bounded (f := fun n => f (n + N)) h2 (fun n => by rw [Real.norm_eq_abs]; exact hf n)
  rw [h1.tsum_eq, Real.norm_eq_abs] at this
  rw [div_eq_mul_inv]
  exact this

theorem series_g0 (z : ℝ) : (stumpffSeries z).g0 = ∑ n ∈ Finset.range 7, (-z) ^ n / (2 * n).factorial := by
  simp [stumpffSeries, invFactorial, Finset.sum_range_succ, Nat.factorial]
  ring

theorem series_g1 (z : ℝ) : (stumpffSeries z).g1 = ∑ n ∈ Finset.range 7, (-z) ^ n / (2 * n + 1).factorial := by
  simp [stumpffSeries, invFactorial, Finset.sum_range_succ, Nat.factorial]
  ring

theorem series_relations (z : ℝ) : (stumpffSeries z).g0 = 1 - z * (stumpffSeries z).g2
    ∧ (stumpffSeries z).g1 = 1 - z * (stumpffSeries z).g3 := by
  simp [stumpffSeries, invFactorial]

theorem exact_relations (z : ℝ) : (stumpffExact z).g0 = 1 - z * (stumpffExact z).g2
    ∧ (stumpffExact z).g1 = 1 - z * (stumpffExact z).g3 :=
  ⟨(gFunctions_spec z).r0 1, (gFunctions_spec z).r1 1⟩

theorem series_g0_error {z : ℝ} (h : |z| < 1) :
    |(stumpffExact z).g0 - (stumpffSeries z).g0| ≤ |z| ^ 7 / (14 : ℕ).factorial / (1 - |z|) := by
  rw [series_g0]
  refine tail_bound (hasSum_c0 z) 7 (abs_nonneg z) h fun n => ?_
  rw [abs_div, abs_pow, abs_neg, Nat.abs_cast, pow_add, div_mul_eq_mul_div, mul_comm]
  refine div_le_div_of_nonneg_left (by positivity) (by positivity) ?_
  exact_mod_cast Nat.factorial_le (by omega)

theorem series_g1_error {z : ℝ} (h : |z| < 1) :
    |(stumpffExact z).g1 - (stumpffSeries z).g1| ≤ |z| ^ 7 / (15 : ℕ).factorial / (1 - |z|) := by
  rw [series_g1]
  refine tail_bound (hasSum_c1 z) 7 (abs_nonneg z) h fun n => ?_
  rw [abs_div, abs_pow, abs_neg, Nat.abs_cast, pow_add, div_mul_eq_mul_div, mul_comm]
  refine div_le_div_of_nonneg_left (by positivity) (by positivity) ?_
  exact_mod_cast Nat.factorial_le (by omega)

theorem series_g2_error {z : ℝ} (h : |z| < 1) :
    |(stumpffExact z).g2 - (stumpffSeries z).g2| ≤ |z| ^ 6 / (14 : ℕ).factorial / (1 - |z|) := by
  rcases eq_or_ne z 0 with rfl | hz
  · rw [stumpffExact_zero]
    simp [stumpffSeries, invFactorial]
  · have e := series_g0_error h
    rw [(exact_relations z).1, (series_relations z).1, show (1 : ℝ) - z * (stumpffExact z).g2
      - (1 - z * (stumpffSeries z).g2) = -z * ((stumpffExact z).g2 - (stumpffSeries z).g2) by ring, abs_mul,
      abs_neg] at e
    have hz' : 0 < |z| := abs_pos.2 hz
    rw [show |z| ^ 7 / (14 : ℕ).factorial / (1 - |z|) = |z| * (|z| ^ 6 / (14 : ℕ).factorial / (1 - |z|)) by ring] at e
    exact le_of_mul_le_mul_left e hz'

theorem series_g3_error {z : ℝ} (h : |z| < 1) :
    |(stumpffExact z).g3 - (stumpffSeries z).g3| ≤ |z| ^ 6 / (15 : ℕ).factorial / (1 - |z|) := by
  rcases eq_or_ne z 0 with rfl | hz
  · rw [stumpffExact_zero]
    simp [stumpffSeries, invFactorial, Nat.factorial]
  · have e := series_g1_error h
    rw [(exact_relations z).2, (series_relations z).2, show (1 : ℝ) - z * (stumpffExact z).g3
      - (1 - z * (stumpffSeries z).g3) = -z * ((stumpffExact z).g3 - (stumpffSeries z).g3) by ring, abs_mul,
      abs_neg] at e
    have hz' : 0 < |z| := abs_pos.2 hz
    rw [show |z| ^ 7 / (15 : ℕ).factorial / (1 - |z|) = |z| * (|z| ^ 6 / (15 : ℕ).factorial / (1 - |z|)) by ring] at e
    exact le_of_mul_le_mul_left e hz'

/-- The series is accurate to 2e-17. -/
theorem series_accuracy {z : ℝ} (h : |z| ≤ 1 / 10) :
    |(stumpffExact z).g0 - (stumpffSeries z).g0| ≤ 2e-17 ∧ |(stumpffExact z).g1 - (stumpffSeries z).g1| ≤ 2e-17
    ∧ |(stumpffExact z).g2 - (stumpffSeries z).g2| ≤ 2e-17
    ∧ |(stumpffExact z).g3 - (stumpffSeries z).g3| ≤ 2e-17 := by
  have h1 : |z| < 1 := by linarith
  have h0 := abs_nonneg z
  have b : ∀ (k : ℕ) (F : ℝ), 6 ≤ k → (14 : ℕ).factorial ≤ F → |z| ^ k / F / (1 - |z|) ≤ 2e-17 := by
    intro k F hk hF
    have p : |z| ^ k ≤ (1 / 10) ^ 6 := by
      calc |z| ^ k ≤ |z| ^ 6 := pow_le_pow_of_le_one h0 h1.le hk
        _ ≤ (1 / 10) ^ 6 := pow_le_pow_left₀ h0 h 6
    have hF0 : (0 : ℝ) < F := lt_of_lt_of_le (by positivity) hF
    rw [div_div, div_le_iff₀ (by nlinarith)]
    have hF' : (87178291200 : ℝ) ≤ F := by
      have : ((14 : ℕ).factorial : ℝ) = 87178291200 := by norm_num [Nat.factorial]
      linarith
    have : (87178291200 : ℝ) * (9 / 10) ≤ F * (1 - |z|) := by
      apply mul_le_mul hF' (by linarith) (by norm_num) hF0.le
    calc |z| ^ k ≤ (1 / 10) ^ 6 := p
      _ ≤ 2e-17 * (87178291200 * (9 / 10)) := by norm_num
      _ ≤ _ := by gcongr
  have f14 : ((14 : ℕ).factorial : ℝ) ≤ (14 : ℕ).factorial := le_refl _
  have f15 : ((14 : ℕ).factorial : ℝ) ≤ (15 : ℕ).factorial := by exact_mod_cast Nat.factorial_le (by norm_num)
  exact ⟨(series_g0_error h1).trans (b 7 _ (by norm_num) f14), (series_g1_error h1).trans (b 7 _ (by norm_num) f15),
    (series_g2_error h1).trans (b 6 _ (by norm_num) f14), (series_g3_error h1).trans (b 6 _ (by norm_num) f15)⟩

/-! ### Argument reduction -/

theorem reduceArgument_of_small {z : ℝ} (h : |z| ≤ 1 / 10) (fuel : ℕ) : reduceArgument (fuel + 1) z = some (z, 0) := by
  have : ¬ ltb (lit 0.1) (FOps.abs z) = true := by
    simp only [ltb_real, lit_real, abs_real]
    push_cast
    rw [not_lt]; linarith
  rw [reduceArgument, if_neg this]

theorem reduceArgument_of_large {z : ℝ} (h : 1 / 10 < |z|) (fuel : ℕ) :
    reduceArgument (fuel + 1) z = (reduceArgument fuel (z / 4)).map fun x => (x.1, x.2 + 1) := by
  have : ltb (lit 0.1) (FOps.abs z) = true := by
    simp only [ltb_real, lit_real, abs_real]
    push_cast
    linarith
  have l4 : (lit 4 : ℝ) = 4 := by simp
  rw [reduceArgument, if_pos this, l4]
  cases reduceArgument fuel (z / 4) <;> rfl

/-- The reduction ends with a small argument. -/
theorem reduceArgument_ends (z : ℝ) : ∃ w n N, (∀ fuel, N ≤ fuel → reduceArgument fuel z = some (w, n))
    ∧ |w| ≤ 1 / 10 ∧ z = 4 ^ n * w ∧ (n ≠ 0 → 1 / 40 < |w|) := by
  obtain ⟨k, hk⟩ := pow_unbounded_of_one_lt (10 * |z|) (by norm_num : (1 : ℝ) < 4)
  induction k generalizing z with
  | zero =>
    refine ⟨z, 0, 1, fun fuel hf => ?_, by simp at hk; linarith, by simp, by simp⟩
    obtain ⟨m, rfl⟩ := Nat.exists_eq_add_of_le' hf
    exact reduceArgument_of_small (by simp at hk; linarith) m
  | succ k ih =>
    rcases le_or_gt |z| (1 / 10) with h | h
    · refine ⟨z, 0, 1, fun fuel hf => ?_, h, by simp, by simp⟩
      obtain ⟨m, rfl⟩ := Nat.exists_eq_add_of_le' hf
      exact reduceArgument_of_small h m
    · obtain ⟨w, n, N, h1, h2, h3, h4⟩ := ih (z / 4) (by
        rw [abs_div, show |(4 : ℝ)| = 4 by norm_num]
        rw [pow_succ] at hk
        linarith)
      refine ⟨w, n + 1, N + 1, fun fuel hf => ?_, h2, ?_, fun _ => ?_⟩
      · obtain ⟨m, rfl⟩ := Nat.exists_eq_add_of_le' (le_trans (Nat.le_add_left 1 N) hf)
        rw [reduceArgument_of_large h, h1 m (by omega)]
        rfl
      · rw [pow_succ]; linarith
      · rcases Nat.eq_zero_or_pos n with hn | hn
        · subst hn
          have : w = z / 4 := by simpa using h3.symm
          rw [this, abs_div, show |(4 : ℝ)| = 4 by norm_num]
          linarith
        · exact h4 hn.ne'

/-- The Stumpff functions are found with enough rounds of argument reduction. -/
theorem stumpff_ends (z : ℝ) : ∃ w n N, (∀ fuel, N ≤ fuel → stumpff fuel z = some (quadruple^[n] (stumpffSeries w)))
    ∧ |w| ≤ 1 / 10 ∧ z = 4 ^ n * w := by
  obtain ⟨w, n, N, h1, h2, h3, _⟩ := reduceArgument_ends z
  refine ⟨w, n, N, fun fuel hf => ?_, h2, h3⟩
  simp [stumpff, h1 fuel hf]

theorem stiefel_ends (beta x : ℝ) : ∃ g N, ∀ fuel, N ≤ fuel → stiefel fuel beta x = some g := by
  obtain ⟨w, n, N, h1, _⟩ := stumpff_ends (beta * (x * x))
  exact ⟨scaleGs x (quadruple^[n] (stumpffSeries w)), N, fun fuel hf => by simp [stiefel, h1 fuel hf]⟩

theorem stiefel_small {beta x : ℝ} (h : |beta * (x * x)| ≤ 1 / 10) (fuel : ℕ) :
    stiefel (fuel + 1) beta x = some (scaleGs x (stumpffSeries (beta * (x * x)))) := by
  simp [stiefel, stumpff, reduceArgument_of_small h]

/-! ### Accuracy after the quadruplings, elliptic case -/

/-- All functions are bounded by one. -/
def Gs.Bounded (c : Gs ℝ) : Prop := |c.g0| ≤ 1 ∧ |c.g1| ≤ 1 ∧ |c.g2| ≤ 1 / 2 ∧ |c.g3| ≤ 1 / 2

/-- Largest difference. -/
def Gs.Close (c d : Gs ℝ) (e : ℝ) : Prop :=
  |c.g0 - d.g0| ≤ e ∧ |c.g1 - d.g1| ≤ e ∧ |c.g2 - d.g2| ≤ e ∧ |c.g3 - d.g3| ≤ e

theorem exact_bounded {z : ℝ} (h : 0 ≤ z) (h1 : z ≤ 1) : (stumpffExact z).Bounded := by
  rcases h.eq_or_lt with h0 | h0
  · rw [← h0, stumpffExact_zero]
    refine ⟨?_, ?_, ?_, ?_⟩ <;> norm_num [abs_of_pos]
  · rw [stumpffExact_pos h0]
    have hp : 0 < √z := Real.sqrt_pos.2 h0
    have hq : √z ^ 2 = z := Real.sq_sqrt h
    have ht1 : √z ≤ 1 := Real.sqrt_le_one.2 h1
    have hpi := Real.pi_gt_three
    have htan := Real.lt_tan hp (by linarith)
    have hcos : 0 < Real.cos √z := Real.cos_pos_of_mem_Ioo ⟨by linarith, by linarith⟩
    rw [Real.tan_eq_sin_div_cos, lt_div_iff₀ hcos] at htan
    have hsin := Real.sin_lt hp
    have hc2 := Real.one_sub_sq_div_two_le_cos (x := √z)
    rw [hq] at hc2
    have hc1 := Real.cos_le_one √z
    have hs0 : Real.cos √z ≤ Real.sin √z / √z := by rw [le_div_iff₀ hp]; linarith
    have hs1 : Real.sin √z / √z ≤ 1 := by rw [div_le_iff₀ hp]; linarith
    refine ⟨?_, ?_, ?_, ?_⟩
    · exact Real.abs_cos_le_one _
    · rw [abs_le]; constructor <;> linarith
    · dsimp only
      rw [abs_of_nonneg (by apply div_nonneg <;> linarith), div_le_iff₀ h0]; linarith
    · dsimp only
      rw [abs_of_nonneg (by apply div_nonneg <;> linarith), div_le_iff₀ h0]; linarith

theorem quadruple_bounded {z : ℝ} (h : 0 ≤ z) (hb : (stumpffExact z).Bounded) : (stumpffExact (4 * z)).Bounded := by
  rcases h.eq_or_lt with h0 | h0
  · rw [← h0, mul_zero, h0]; exact hb
  · have h4 : 0 < 4 * z := by linarith
    have e := quadruple_exact z
    obtain ⟨b0, b1, b2, b3⟩ := hb
    have e1 : (stumpffExact (4 * z)).g1 = (stumpffExact z).g0 * (stumpffExact z).g1 := by
      rw [← e]; simp [quadruple]
    have e2 : (stumpffExact (4 * z)).g2 = (stumpffExact z).g1 * (stumpffExact z).g1 * (1 / 2) := by
      rw [← e]; simp [quadruple]; norm_num
    have e3 : (stumpffExact (4 * z)).g3
        = ((stumpffExact z).g2 + (stumpffExact z).g0 * (stumpffExact z).g3) * (1 / 4) := by
      rw [← e]; simp [quadruple]; norm_num
    refine ⟨?_, ?_, ?_, ?_⟩
    · rw [stumpffExact_pos h4]; exact Real.abs_cos_le_one _
    · rw [e1, abs_mul]; exact mul_le_one₀ b0 (abs_nonneg _) b1
    · rw [e2, abs_mul, abs_mul, abs_of_pos (by norm_num : (0 : ℝ) < 1 / 2)]
      have := mul_le_one₀ b1 (abs_nonneg _) b1
      linarith
    · rw [e3, abs_mul, abs_of_pos (by norm_num : (0 : ℝ) < 1 / 4)]
      have h5 := abs_add_le (stumpffExact z).g2 ((stumpffExact z).g0 * (stumpffExact z).g3)
      rw [abs_mul] at h5
      have h6 : |(stumpffExact z).g0| * |(stumpffExact z).g3| ≤ 1 * (1 / 2) :=
        mul_le_mul b0 b3 (abs_nonneg _) (by norm_num)
      linarith

theorem product_error {a b a' b' A B e : ℝ} (ha : |a| ≤ A) (hb : |b| ≤ B) (h1 : |a' - a| ≤ e) (h2 : |b' - b| ≤ e) :
    |a' * b' - a * b| ≤ e * (A + B + e) := by
  have he : 0 ≤ e := le_trans (abs_nonneg _) h1
  have : a' * b' - a * b = (a' - a) * (b' - b) + (a' - a) * b + a * (b' - b) := by ring
  rw [this]
  calc |(a' - a) * (b' - b) + (a' - a) * b + a * (b' - b)|
      ≤ |(a' - a) * (b' - b)| + |(a' - a) * b| + |a * (b' - b)| := abs_add_three _ _ _
    _ = |a' - a| * |b' - b| + |a' - a| * |b| + |a| * |b' - b| := by rw [abs_mul, abs_mul, abs_mul]
    _ ≤ e * e + e * B + A * e := by
        gcongr
        exact le_trans (abs_nonneg _) ha
    _ = _ := by ring

theorem quadruple_close {c d : Gs ℝ} {e : ℝ} (hd : d.Bounded) (h : c.Close d e) :
    (quadruple c).Close (quadruple d) (4 * e * (1 + e / 2)) := by
  obtain ⟨b0, b1, b2, b3⟩ := hd
  obtain ⟨h0, h1, h2, h3⟩ := h
  have he : 0 ≤ e := le_trans (abs_nonneg _) h0
  have p00 := product_error b0 b0 h0 h0
  have p01 := product_error b0 b1 h0 h1
  have p11 := product_error b1 b1 h1 h1
  have p03 := product_error b0 b3 h0 h3
  have l2 : (lit 2 : ℝ) = 2 := by simp
  have l1 : (lit 1 : ℝ) = 1 := by simp
  have l4 : (lit 0.25 : ℝ) = 1 / 4 := by simp only [lit_real]; norm_num
  have l5 : (lit 0.5 : ℝ) = 1 / 2 := by simp only [lit_real]; norm_num
  refine ⟨?_, ?_, ?_, ?_⟩
  · simp only [quadruple, l2, l1]
    rw [show 2 * c.g0 * c.g0 - 1 - (2 * d.g0 * d.g0 - 1) = 2 * (c.g0 * c.g0 - d.g0 * d.g0) by ring, abs_mul, abs_two]
    nlinarith
  · simp only [quadruple]
    nlinarith
  · simp only [quadruple, l5]
    rw [show c.g1 * c.g1 * (1 / 2) - d.g1 * d.g1 * (1 / 2) = (1 / 2) * (c.g1 * c.g1 - d.g1 * d.g1) by ring, abs_mul,
      abs_of_pos (by norm_num : (0 : ℝ) < 1 / 2)]
    nlinarith
  · simp only [quadruple, l4]
    rw [show (c.g2 + c.g0 * c.g3) * (1 / 4) - (d.g2 + d.g0 * d.g3) * (1 / 4)
      = (1 / 4) * ((c.g2 - d.g2) + (c.g0 * c.g3 - d.g0 * d.g3)) by ring, abs_mul,
      abs_of_pos (by norm_num : (0 : ℝ) < 1 / 4)]
    have := abs_add_le (c.g2 - d.g2) (c.g0 * c.g3 - d.g0 * d.g3)
    nlinarith

/-- Errors after `n` quadruplings. -/
theorem iterate_close {w e : ℝ} (hw : 0 ≤ w) (hw1 : w ≤ 1) {c : Gs ℝ} (h : c.Close (stumpffExact w) e) (n : ℕ)
    (hn : 4 ^ n * e ≤ 1 / 2) :
    (quadruple^[n] c).Close (stumpffExact (4 ^ n * w)) (4 ^ n * e / (1 - 4 ^ n * e))
    ∧ (stumpffExact (4 ^ n * w)).Bounded := by
  have he : 0 ≤ e := le_trans (abs_nonneg _) h.1
  induction n with
  | zero =>
    simp only [Function.iterate_zero, id, pow_zero, one_mul] at hn ⊢
    refine ⟨?_, exact_bounded hw hw1⟩
    have : e ≤ e / (1 - e) := by rw [le_div_iff₀ (by linarith)]; nlinarith
    exact ⟨h.1.trans this, h.2.1.trans this, h.2.2.1.trans this, h.2.2.2.trans this⟩
  | succ n ih =>
    have hpow : (4 : ℝ) ^ (n + 1) = 4 * 4 ^ n := by ring
    have hpos : (0 : ℝ) < 4 ^ n := by positivity
    rw [hpow] at hn ⊢
    set a := (4 : ℝ) ^ n * e with ha
    have ha0 : 0 ≤ a := by positivity
    have ha1 : 4 * a ≤ 1 / 2 := by rw [ha]; linarith
    obtain ⟨h1, h2⟩ := ih (by linarith)
    have h3 := quadruple_close h2 h1
    rw [quadruple_exact, ← Function.iterate_succ_apply' quadruple, show 4 * (4 ^ n * w) = 4 * 4 ^ n * w by ring] at h3
    have h4 := quadruple_bounded (by positivity) h2
    rw [show 4 * (4 ^ n * w) = 4 * 4 ^ n * w by ring] at h4
    refine ⟨?_, h4⟩
    have key : 4 * (a / (1 - a)) * (1 + a / (1 - a) / 2) ≤ 4 * 4 ^ n * e / (1 - 4 * 4 ^ n * e) := by
      rw [show 4 * 4 ^ n * e = 4 * a by rw [ha]; ring]
      have h5 : 0 < 1 - a := by linarith
      have h6 : 0 < 1 - 4 * a := by linarith
      rw [show 4 * (a / (1 - a)) * (1 + a / (1 - a) / 2) = 2 * a * (2 - a) / (1 - a) ^ 2 by field_simp; ring]
      rw [div_le_div_iff₀ (by positivity) h6]
      nlinarith [mul_nonneg ha0 ha0]
    exact ⟨h3.1.trans key, h3.2.1.trans key, h3.2.2.1.trans key, h3.2.2.2.trans key⟩

/-- The Stumpff functions of the code are accurate for elliptic orbits. -/
theorem stumpff_accuracy {z : ℝ} (h : 0 ≤ z) (h1 : z ≤ 1e14) : ∃ c N, (∀ fuel, N ≤ fuel → stumpff fuel z = some c)
    ∧ c.Close (stumpffExact z) (2e-15 * max 1 z) := by
  obtain ⟨w, n, N, e1, e2, e3, e4⟩ := reduceArgument_ends z
  refine ⟨quadruple^[n] (stumpffSeries w), N, fun fuel hf => by simp [stumpff, e1 fuel hf], ?_⟩
  have hpow : (0 : ℝ) < 4 ^ n := by positivity
  have hw : 0 ≤ w := by
    by_contra hneg
    rw [not_le] at hneg
    have := mul_neg_of_pos_of_neg hpow hneg
    linarith
  rw [abs_of_nonneg hw] at e2 e4
  obtain ⟨a0, a1, a2, a3⟩ := series_accuracy (z := w) (by rw [abs_of_nonneg hw]; exact e2)
  have hc : (stumpffSeries w).Close (stumpffExact w) 2e-17 :=
    ⟨by rw [abs_sub_comm]; exact a0, by rw [abs_sub_comm]; exact a1, by rw [abs_sub_comm]; exact a2,
      by rw [abs_sub_comm]; exact a3⟩
  have hn : (4 : ℝ) ^ n ≤ max 1 (40 * z) := by
    rcases Nat.eq_zero_or_pos n with h0 | h0
    · subst h0; simp
    · have := e4 h0.ne'
      refine le_trans ?_ (le_max_right _ _)
      rw [e3]
      nlinarith
  have hz : max 1 (40 * z) ≤ 40 * max 1 z := by
    rw [max_le_iff]
    constructor
    · have := le_max_left 1 z; linarith
    · have := le_max_right 1 z; linarith
  have hmax : max 1 z ≤ 1e14 := max_le (by norm_num) h1
  have hsmall : (4 : ℝ) ^ n * 2e-17 ≤ 0.08 := by
    calc (4 : ℝ) ^ n * 2e-17 ≤ 40 * 1e14 * 2e-17 := by
          have : (4 : ℝ) ^ n ≤ 40 * 1e14 := by linarith
          gcongr
      _ = 0.08 := by norm_num
  obtain ⟨h5, _⟩ := iterate_close hw (by linarith) hc n (by linarith)
  rw [← e3] at h5
  have key : (4 : ℝ) ^ n * 2e-17 / (1 - 4 ^ n * 2e-17) ≤ 2e-15 * max 1 z := by
    have h6 : (4 : ℝ) ^ n * 2e-17 ≤ 40 * max 1 z * 2e-17 := by
      have : (4 : ℝ) ^ n ≤ 40 * max 1 z := by linarith
      gcongr
    rw [div_le_iff₀ (by linarith)]
    have h7 : (0 : ℝ) < max 1 z := lt_of_lt_of_le one_pos (le_max_left _ _)
    nlinarith
  exact ⟨h5.1.trans key, h5.2.1.trans key, h5.2.2.1.trans key, h5.2.2.2.trans key⟩

end Posidonius.WHFast
