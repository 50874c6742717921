import Verif.Props.Cayley
import Verif.Props.CreepAnomaly
import Mathlib.Analysis.SpecialFunctions.Trigonometric.Deriv
import Mathlib.Data.List.GetD
import Mathlib.Analysis.SpecialFunctions.ExpDeriv
import Mathlib.Analysis.Calculus.Deriv.Add
import Mathlib.Analysis.Calculus.Deriv.Mul

/-! # C81: the shape of the creep model -/

namespace Posidonius.Creep
open Posidonius Hansen

/-! ### The sums of the loop -/

theorem fold_terms (gamma n spin m f : ℝ) (a b : ℕ → ℝ) (N : ℕ) :
    (List.range N).foldl (fun (s : Axes ℝ) (k : ℕ) => fastTerm gamma n spin m f (lit (k : ℚ)) (a k) (b k) s) Axes.zero
      = ⟨∑ k ∈ Finset.range N, gamma * b k / (gamma ^ 2 + (2 * spin - (9 - (k : ℝ)) * n) ^ 2)
            * (gamma * Real.cos ((9 - (k : ℝ)) * m - 2 * f) - (2 * spin - (9 - (k : ℝ)) * n) * Real.sin ((9 - (k : ℝ)) * m - 2 * f)),
         ∑ k ∈ Finset.range N, gamma * b k / (gamma ^ 2 + (2 * spin - (9 - (k : ℝ)) * n) ^ 2)
            * (gamma * Real.sin ((9 - (k : ℝ)) * m - 2 * f) + (2 * spin - (9 - (k : ℝ)) * n) * Real.cos ((9 - (k : ℝ)) * m - 2 * f)),
         ∑ k ∈ Finset.range N, a k / (((k : ℝ) - 7) ^ 2 * n ^ 2 + gamma ^ 2)
            * (((k : ℝ) - 7) ^ 2 * n ^ 2 * Real.sin ((-7 + (k : ℝ)) * m) + gamma ^ 2 * Real.cos ((-7 + (k : ℝ)) * m))⟩ := by
  induction N with
  | zero => simp [Axes.zero]
  | succ N ih =>
    rw [List.range_succ, List.foldl_append, List.foldl_cons, List.foldl_nil, ih]
    simp only [fastTerm, Finset.sum_range_succ, lit_real, sin_real, cos_real, ipow]
    norm_num [pow_two]

theorem zip_range (a b : List ℝ) (ha : a.length = 15) (hb : b.length = 15) :
    (List.range 15).zip (a.zip b) = (List.range 15).map fun k => (k, a.getD k 0, b.getD k 0) := by
  apply List.ext_getElem
  · simp [ha, hb]
  · intro i h1 h2
    have hi : i < 15 := by simpa using h2
    have h3 : i < a.length := by omega
    have h4 : i < b.length := by omega
    simp [h3, h4]

theorem fastSums_eq (gamma n spin e m f : ℝ) :
    fastSums gamma n spin e m f
      = ⟨∑ k ∈ Finset.range 15, gamma * (cayley2 e).getD k 0 / (gamma ^ 2 + (2 * spin - (9 - (k : ℝ)) * n) ^ 2)
            * (gamma * Real.cos ((9 - (k : ℝ)) * m - 2 * f) - (2 * spin - (9 - (k : ℝ)) * n) * Real.sin ((9 - (k : ℝ)) * m - 2 * f)),
         ∑ k ∈ Finset.range 15, gamma * (cayley2 e).getD k 0 / (gamma ^ 2 + (2 * spin - (9 - (k : ℝ)) * n) ^ 2)
            * (gamma * Real.sin ((9 - (k : ℝ)) * m - 2 * f) + (2 * spin - (9 - (k : ℝ)) * n) * Real.cos ((9 - (k : ℝ)) * m - 2 * f)),
         ∑ k ∈ Finset.range 15, (cayley0 e).getD k 0 / (((k : ℝ) - 7) ^ 2 * n ^ 2 + gamma ^ 2)
            * (((k : ℝ) - 7) ^ 2 * n ^ 2 * Real.sin ((-7 + (k : ℝ)) * m) + gamma ^ 2 * Real.cos ((-7 + (k : ℝ)) * m))⟩ := by
  rw [fastSums, zip_range _ _ rfl rfl, List.foldl_map]
  exact fold_terms gamma n spin m f (fun k => (cayley0 e).getD k 0) (fun k => (cayley2 e).getD k 0) 15

/-- The equatorial part of the shape as a complex number. -/
noncomputable def equatorial (s : Axes ℝ) : ℂ := s.x + Complex.I * s.y

theorem lag_ne {gamma : ℝ} (hg : 0 < gamma) (nu : ℝ) : (gamma - Complex.I * nu : ℂ) ≠ 0 := by
  intro h
  have := congrArg Complex.re h
  simp at this
  linarith

theorem equatorial_term {gamma : ℝ} (hg : 0 < gamma) (c nu th : ℝ) :
    ((gamma * c / (gamma ^ 2 + nu ^ 2) * (gamma * Real.cos th - nu * Real.sin th) : ℝ) : ℂ)
      + Complex.I * ((gamma * c / (gamma ^ 2 + nu ^ 2) * (gamma * Real.sin th + nu * Real.cos th) : ℝ) : ℂ)
      = gamma * c * Complex.exp (Complex.I * th) / (gamma - Complex.I * nu) := by
  rw [eq_div_iff (lag_ne hg nu), mul_comm Complex.I (th : ℂ), Complex.exp_mul_I]
  have hd : (gamma ^ 2 + nu ^ 2 : ℂ) ≠ 0 := by
    have : (gamma ^ 2 + nu ^ 2 : ℝ) ≠ 0 := by positivity
    exact_mod_cast this
  push_cast
  field_simp
  linear_combination (-(gamma * c * nu * Complex.sin th * gamma) - gamma * c * nu ^ 2 * Complex.cos th) * Complex.I_sq

theorem equatorial_eq {gamma : ℝ} (hg : 0 < gamma) (rho z n spin e m f : ℝ) :
    equatorial (fastShape rho z gamma n spin e m f) = rho * ∑ k ∈ Finset.range 15,
      gamma * ((cayley2 e).getD k 0 : ℂ) * Complex.exp (Complex.I * (((9 - (k : ℝ)) * m - 2 * f : ℝ) : ℂ))
        / (gamma - Complex.I * ((2 * spin - (9 - (k : ℝ)) * n : ℝ) : ℂ)) := by
  rw [equatorial, fastShape, fastSums_eq]
  simp only [Complex.ofReal_mul, Complex.ofReal_sum]
  rw [mul_comm _ (rho : ℂ), mul_comm _ (rho : ℂ), mul_left_comm, ← mul_add, Finset.mul_sum, ← Finset.sum_add_distrib]
  congr 1
  refine Finset.sum_congr rfl fun k _ => ?_
  rw [← equatorial_term hg, ← Complex.ofReal_mul, ← Complex.ofReal_mul]

/-- The shape seen from the rotating body: `2f` turns from the companion to the perihelion, `2 spin t` to the body. -/
noncomputable def bodyShape (rho z gamma n spin e m0 : ℝ) (f : ℝ → ℝ) (t : ℝ) : ℂ :=
  equatorial (fastShape rho z gamma n spin e (m0 + n * t) (f t)) * Complex.exp (Complex.I * ((2 * f t - 2 * spin * t : ℝ) : ℂ))

theorem bodyShape_eq {gamma : ℝ} (hg : 0 < gamma) (rho z n spin e m0 : ℝ) (f : ℝ → ℝ) (t : ℝ) :
    bodyShape rho z gamma n spin e m0 f t = ∑ k ∈ Finset.range 15,
      rho * gamma * ((cayley2 e).getD k 0 : ℂ) / (gamma - Complex.I * ((2 * spin - (9 - (k : ℝ)) * n : ℝ) : ℂ))
        * Complex.exp (Complex.I * (((9 - (k : ℝ)) * (m0 + n * t) - 2 * spin * t : ℝ) : ℂ)) := by
  rw [bodyShape, equatorial_eq hg, mul_assoc, Finset.sum_mul, Finset.mul_sum]
  refine Finset.sum_congr rfl fun k _ => ?_
  have : Complex.exp (Complex.I * (((9 - (k : ℝ)) * (m0 + n * t) - 2 * spin * t : ℝ) : ℂ))
      = Complex.exp (Complex.I * (((9 - (k : ℝ)) * (m0 + n * t) - 2 * f t : ℝ) : ℂ))
        * Complex.exp (Complex.I * ((2 * f t - 2 * spin * t : ℝ) : ℂ)) := by
    rw [← Complex.exp_add]
    congr 1
    push_cast
    ring
  rw [this]
  ring

/-- **C81**: seen from the body, which rotates at a constant rate, the equatorial part of the shape creeps towards the
equilibrium shape at the relaxation rate: it solves `W' = γ (W_eq - W)`, where the equilibrium is the one given by the
coefficients `E_(2,k)`. -/
theorem C81_equatorial {gamma : ℝ} (hg : 0 < gamma) (rho z n spin e m0 : ℝ) (f : ℝ → ℝ) (t : ℝ) :
    HasDerivAt (bodyShape rho z gamma n spin e m0 f)
      (gamma * (rho * (∑ k ∈ Finset.range 15, ((cayley2 e).getD k 0 : ℂ)
          * Complex.exp (Complex.I * (((9 - (k : ℝ)) * (m0 + n * t) : ℝ) : ℂ)))
          * Complex.exp (-Complex.I * ((2 * spin * t : ℝ) : ℂ))
        - bodyShape rho z gamma n spin e m0 f t)) t := by
  have hfun : bodyShape rho z gamma n spin e m0 f = fun t => ∑ k ∈ Finset.range 15,
      rho * gamma * ((cayley2 e).getD k 0 : ℂ) / (gamma - Complex.I * ((2 * spin - (9 - (k : ℝ)) * n : ℝ) : ℂ))
        * Complex.exp (Complex.I * (((9 - (k : ℝ)) * (m0 + n * t) - 2 * spin * t : ℝ) : ℂ)) :=
    funext fun t => bodyShape_eq hg rho z n spin e m0 f t
  rw [bodyShape_eq hg, hfun]
  have hd : ∀ k : ℕ, HasDerivAt (fun t : ℝ => rho * gamma * ((cayley2 e).getD k 0 : ℂ)
        / (gamma - Complex.I * ((2 * spin - (9 - (k : ℝ)) * n : ℝ) : ℂ))
        * Complex.exp (Complex.I * (((9 - (k : ℝ)) * (m0 + n * t) - 2 * spin * t : ℝ) : ℂ)))
      (rho * gamma * ((cayley2 e).getD k 0 : ℂ) / (gamma - Complex.I * ((2 * spin - (9 - (k : ℝ)) * n : ℝ) : ℂ))
        * (Complex.exp (Complex.I * (((9 - (k : ℝ)) * (m0 + n * t) - 2 * spin * t : ℝ) : ℂ))
          * (Complex.I * (((9 - (k : ℝ)) * n - 2 * spin : ℝ) : ℂ)))) t := by
    intro k
    refine HasDerivAt.const_mul _ (HasDerivAt.cexp (HasDerivAt.const_mul _ (HasDerivAt.ofReal_comp ?_)))
    have h1 : HasDerivAt (fun t : ℝ => m0 + n * t) n t := by
      simpa using ((hasDerivAt_id t).const_mul n).const_add m0
    have h2 : HasDerivAt (fun t : ℝ => 2 * spin * t) (2 * spin) t := by
      simpa using (hasDerivAt_id t).const_mul (2 * spin)
    exact (h1.const_mul _).sub h2
  have hsum := HasDerivAt.fun_sum (u := Finset.range 15) fun k _ => hd k
  refine hsum.congr_deriv ?_
  rw [mul_sub, ← mul_assoc, Finset.mul_sum, Finset.mul_sum, Finset.sum_mul, Finset.mul_sum, ← Finset.sum_sub_distrib]
  refine Finset.sum_congr rfl fun k _ => ?_
  have hn := lag_ne hg (2 * spin - (9 - (k : ℝ)) * n)
  have he : Complex.exp (Complex.I * (((9 - (k : ℝ)) * (m0 + n * t) - 2 * spin * t : ℝ) : ℂ))
      = Complex.exp (Complex.I * (((9 - (k : ℝ)) * (m0 + n * t) : ℝ) : ℂ))
        * Complex.exp (-Complex.I * ((2 * spin * t : ℝ) : ℂ)) := by
    rw [← Complex.exp_add]
    congr 1
    push_cast
    ring
  rw [he]
  generalize Complex.exp (Complex.I * (((9 - (k : ℝ)) * (m0 + n * t) : ℝ) : ℂ)) = w
  generalize Complex.exp (-Complex.I * ((2 * spin * t : ℝ) : ℂ)) = v
  field_simp
  push_cast
  ring

/-- **C81**: for an orbit of eccentricity up to one half, whose eccentric anomaly `E` and true anomaly `f` are those of
the mean anomaly, the equilibrium is that of the tide, `ρ (a/r)³` towards the companion, up to the order seven of the
eccentricity. -/
theorem C81_creep : ∃ C : ℝ, ∀ (gamma rho z n spin e m0 : ℝ) (bigE f : ℝ → ℝ), 0 < gamma → 0 ≤ e → e ≤ 1 / 2 →
    (∀ t, Kepler e (m0 + n * t) (bigE t)) →
    (∀ t, place e (bigE t) / (radius e (bigE t) : ℂ) = Complex.exp (Complex.I * (f t : ℂ))) →
    ∀ t, ∃ W', HasDerivAt (bodyShape rho z gamma n spin e m0 f) W' t
      ∧ ‖W' - gamma * (rho * (1 / (radius e (bigE t) : ℂ)) ^ 3 * Complex.exp (Complex.I * ((2 * f t - 2 * spin * t : ℝ) : ℂ))
          - bodyShape rho z gamma n spin e m0 f t)‖ ≤ gamma * |rho| * C * e ^ 8 := by
  obtain ⟨C, hC⟩ := C80_second
  refine ⟨C, fun gamma rho z n spin e m0 bigE f hg h0 h1 hK hf t => ⟨_, C81_equatorial hg rho z n spin e m0 f t, ?_⟩⟩
  have key := hC e (bigE t) h0 h1
  have hK : bigE t - e * Real.sin (bigE t) = m0 + n * t := hK t
  rw [hK, term, hf t] at key
  have hS : ∀ k : ℕ, Complex.exp (Complex.I * (((2 : ℕ) : ℤ) + (-1) * ((k : ℤ) - 7) : ℤ) * ((m0 + n * t : ℝ) : ℂ))
      = Complex.exp (Complex.I * (((9 - (k : ℝ)) * (m0 + n * t) : ℝ) : ℂ)) := by
    intro k
    congr 1
    push_cast
    ring
  simp only [hS] at key
  generalize (∑ k ∈ Finset.range 15, ((cayley2 e).getD k 0 : ℂ)
          * Complex.exp (Complex.I * (((9 - (k : ℝ)) * (m0 + n * t) : ℝ) : ℂ))) = S at key ⊢
  have hx : Complex.exp (Complex.I * ((2 * f t - 2 * spin * t : ℝ) : ℂ))
      = Complex.exp (Complex.I * (f t : ℂ)) ^ 2 * Complex.exp (-Complex.I * ((2 * spin * t : ℝ) : ℂ)) := by
    rw [← Complex.exp_nat_mul, ← Complex.exp_add]
    congr 1
    push_cast
    ring
  have hu : ‖Complex.exp (-Complex.I * ((2 * spin * t : ℝ) : ℂ))‖ = 1 := by
    have : -Complex.I * ((2 * spin * t : ℝ) : ℂ) = ((-(2 * spin * t) : ℝ) : ℂ) * Complex.I := by push_cast; ring
    rw [this, Complex.norm_exp_ofReal_mul_I]
  have : gamma * (rho * S * Complex.exp (-Complex.I * ((2 * spin * t : ℝ) : ℂ)) - bodyShape rho z gamma n spin e m0 f t)
      - gamma * (rho * (1 / (radius e (bigE t) : ℂ)) ^ 3 * Complex.exp (Complex.I * ((2 * f t - 2 * spin * t : ℝ) : ℂ))
          - bodyShape rho z gamma n spin e m0 f t)
      = (gamma * rho : ℝ) * (S - Complex.exp (Complex.I * (f t : ℂ)) ^ 2 / (radius e (bigE t) : ℂ) ^ 3)
        * Complex.exp (-Complex.I * ((2 * spin * t : ℝ) : ℂ)) := by
    rw [hx]
    push_cast
    ring
  rw [this, norm_mul, hu, mul_one, norm_mul, Complex.norm_real, Real.norm_eq_abs, abs_mul, abs_of_pos hg]
  calc gamma * |rho| * _ ≤ gamma * |rho| * (C * e ^ 8) := mul_le_mul_of_nonneg_left key (by positivity)
    _ = _ := by ring

/-! ### The polar part -/

theorem cayley0_symmetric (e : ℝ) {k : ℕ} (hk : k < 15) : (cayley0 e).getD (14 - k) 0 = (cayley0 e).getD k 0 := by
  interval_cases k <;> rfl

theorem odd_sum (g : ℕ → ℝ) (h : ∀ k < 15, g (14 - k) = -g k) : ∑ k ∈ Finset.range 15, g k = 0 := by
  have h1 := Finset.sum_range_reflect g 15
  have h2 : ∑ j ∈ Finset.range 15, g (15 - 1 - j) = -∑ j ∈ Finset.range 15, g j := by
    rw [← Finset.sum_neg_distrib]
    exact Finset.sum_congr rfl fun k hk => h k (Finset.mem_range.1 hk)
  linarith

/-- The terms with the sine in the polar sum of the code cancel each other. -/
theorem polar_eq {gamma : ℝ} (hg : 0 < gamma) (rho z n spin e m f : ℝ) :
    (fastShape rho z gamma n spin e m f).z = rho / 2 * (∑ k ∈ Finset.range 15, (cayley0 e).getD k 0
      * (gamma ^ 2 / (((k : ℝ) - 7) ^ 2 * n ^ 2 + gamma ^ 2)) * Real.cos (((k : ℝ) - 7) * m)) + z := by
  have h0 : ∑ k ∈ Finset.range 15, (cayley0 e).getD k 0 / (((k : ℝ) - 7) ^ 2 * n ^ 2 + gamma ^ 2)
      * (((k : ℝ) - 7) ^ 2 * n ^ 2 * Real.sin (((k : ℝ) - 7) * m)) = 0 := by
    refine odd_sum _ fun k hk => ?_
    have hc : ((14 - k : ℕ) : ℝ) - 7 = -((k : ℝ) - 7) := by
      rw [Nat.cast_sub (by omega)]
      push_cast
      ring
    rw [cayley0_symmetric e hk, hc, neg_sq, neg_mul ((k : ℝ) - 7) m, Real.sin_neg]
    ring
  rw [fastShape, fastSums_eq]
  simp only [lit_real]
  have hsplit : ∑ k ∈ Finset.range 15, (cayley0 e).getD k 0 / (((k : ℝ) - 7) ^ 2 * n ^ 2 + gamma ^ 2)
            * (((k : ℝ) - 7) ^ 2 * n ^ 2 * Real.sin ((-7 + (k : ℝ)) * m) + gamma ^ 2 * Real.cos ((-7 + (k : ℝ)) * m))
      = ∑ k ∈ Finset.range 15, (cayley0 e).getD k 0 / (((k : ℝ) - 7) ^ 2 * n ^ 2 + gamma ^ 2)
          * (((k : ℝ) - 7) ^ 2 * n ^ 2 * Real.sin (((k : ℝ) - 7) * m))
        + ∑ k ∈ Finset.range 15, (cayley0 e).getD k 0
          * (gamma ^ 2 / (((k : ℝ) - 7) ^ 2 * n ^ 2 + gamma ^ 2)) * Real.cos (((k : ℝ) - 7) * m) := by
    rw [← Finset.sum_add_distrib]
    refine Finset.sum_congr rfl fun k _ => ?_
    rw [neg_add_eq_sub]
    ring
  rw [hsplit, h0, zero_add]
  push_cast
  ring

/-- The oblateness as a function of the time. -/
noncomputable def oblateness (rho z gamma n spin e m0 : ℝ) (f : ℝ → ℝ) (t : ℝ) : ℝ :=
  (fastShape rho z gamma n spin e (m0 + n * t) (f t)).z

/-- The equilibrium oblateness given by the coefficients `E_(0,k)`. -/
noncomputable def restOblateness (rho z e m : ℝ) : ℝ :=
  rho / 2 * (∑ k ∈ Finset.range 15, (cayley0 e).getD k 0 * Real.cos (((k : ℝ) - 7) * m)) + z

/-- What is missing in the oblateness: the terms that lag behind. -/
noncomputable def lag (rho gamma n e m : ℝ) : ℝ :=
  rho / 2 * ∑ k ∈ Finset.range 15, (cayley0 e).getD k 0
    * (gamma * (((k : ℝ) - 7) * n) / (((k : ℝ) - 7) ^ 2 * n ^ 2 + gamma ^ 2)) * Real.sin (((k : ℝ) - 7) * m)

theorem anomaly_deriv (m0 n j t : ℝ) : HasDerivAt (fun t : ℝ => j * (m0 + n * t)) (j * n) t := by
  have h1 : HasDerivAt (fun t : ℝ => m0 + n * t) n t := by
    simpa using ((hasDerivAt_id t).const_mul n).const_add m0
  exact h1.const_mul _

/-- **C81**, what holds for the polar part: the oblateness creeps towards its equilibrium once the lagging terms are
added. -/
theorem C81_polar_partial {gamma : ℝ} (hg : 0 < gamma) (rho z n spin e m0 : ℝ) (f : ℝ → ℝ) (t : ℝ) :
    HasDerivAt (fun t => oblateness rho z gamma n spin e m0 f t + lag rho gamma n e (m0 + n * t))
      (gamma * (restOblateness rho z e (m0 + n * t)
        - (oblateness rho z gamma n spin e m0 f t + lag rho gamma n e (m0 + n * t)))) t := by
  simp only [oblateness, polar_eq hg, restOblateness, lag]
  have h1 := HasDerivAt.fun_sum (u := Finset.range 15) fun k _ => ((anomaly_deriv m0 n ((k : ℝ) - 7) t).cos.const_mul
    ((cayley0 e).getD k 0 * (gamma ^ 2 / (((k : ℝ) - 7) ^ 2 * n ^ 2 + gamma ^ 2))))
  have h2 := HasDerivAt.fun_sum (u := Finset.range 15) fun k _ => ((anomaly_deriv m0 n ((k : ℝ) - 7) t).sin.const_mul
    ((cayley0 e).getD k 0 * (gamma * (((k : ℝ) - 7) * n) / (((k : ℝ) - 7) ^ 2 * n ^ 2 + gamma ^ 2))))
  refine (((h1.const_mul (rho / 2)).add_const z).add (h2.const_mul (rho / 2))).congr_deriv ?_
  have : ∀ a b c d : ℝ, gamma * (rho / 2 * a + z - (rho / 2 * b + z + rho / 2 * c)) = rho / 2 * (gamma * a - gamma * b - gamma * c) := by
    intros; ring
  rw [this _ _ _ 0, ← mul_add, Finset.mul_sum, Finset.mul_sum, Finset.mul_sum, ← Finset.sum_add_distrib,
    ← Finset.sum_sub_distrib, ← Finset.sum_sub_distrib]
  congr 1
  refine Finset.sum_congr rfl fun k _ => ?_
  have hd : ((k : ℝ) - 7) ^ 2 * n ^ 2 + gamma ^ 2 ≠ 0 := by positivity
  generalize (k : ℝ) - 7 = j at *
  generalize Real.sin (j * (m0 + n * t)) = sn
  generalize Real.cos (j * (m0 + n * t)) = cs
  field_simp
  ring

theorem cayley0_nonneg {e : ℝ} (h0 : 0 ≤ e) (h1 : e ≤ 1 / 8) {k : ℕ} (hk : k < 15) : 0 ≤ (cayley0 e).getD k 0 := by
  have e2 : e ^ 2 ≤ 1 / 64 := by nlinarith
  have e5 : 0 ≤ e ^ 5 := by positivity
  have p3 : e ^ 5 = e ^ 3 * e ^ 2 := by ring
  have p5 : e ^ 7 = e ^ 5 * e ^ 2 := by ring
  have p6 : e ^ 6 = e ^ 4 * e ^ 2 := by ring
  have q3 : 0 ≤ e ^ 3 := by positivity
  have q4 : 0 ≤ e ^ 4 := by positivity
  have b3 : e ^ 3 * e ^ 2 ≤ e ^ 3 * (1 / 64) := mul_le_mul_of_nonneg_left e2 q3
  have b4 : e ^ 4 * e ^ 2 ≤ e ^ 4 * (1 / 64) := mul_le_mul_of_nonneg_left e2 q4
  have b5 : e ^ 5 * e ^ 2 ≤ e ^ 5 * (1 / 64) := mul_le_mul_of_nonneg_left e2 e5
  have q7 : 0 ≤ e ^ 7 := by positivity
  have q6 : 0 ≤ e ^ 6 := by positivity
  have q2 : 0 ≤ e ^ 2 := by positivity
  interval_cases k <;> simp [cayley0, ipow] <;> ring_nf <;> nlinarith

/-- **C81 violated** for the polar part: the oblateness of the code does not creep towards its equilibrium, not even
towards the one given by its own coefficients.  At the perihelion the derivative is zero, but the oblateness is not in
equilibrium. -/
theorem C81_violated {gamma rho n e : ℝ} (hg : 0 < gamma) (hr : 0 < rho) (hn : n ≠ 0) (h0 : 0 < e) (h1 : e ≤ 1 / 8)
    (z spin : ℝ) (f : ℝ → ℝ) :
    ¬ HasDerivAt (oblateness rho z gamma n spin e 0 f)
      (gamma * (restOblateness rho z e (0 + n * 0) - oblateness rho z gamma n spin e 0 f 0)) 0 := by
  intro h
  have h2 : HasDerivAt (oblateness rho z gamma n spin e 0 f) 0 0 := by
    have hs := HasDerivAt.fun_sum (u := Finset.range 15) fun k _ => ((anomaly_deriv 0 n ((k : ℝ) - 7) 0).cos.const_mul
      ((cayley0 e).getD k 0 * (gamma ^ 2 / (((k : ℝ) - 7) ^ 2 * n ^ 2 + gamma ^ 2))))
    have hf : oblateness rho z gamma n spin e 0 f = fun t => rho / 2 * (∑ k ∈ Finset.range 15, (cayley0 e).getD k 0
      * (gamma ^ 2 / (((k : ℝ) - 7) ^ 2 * n ^ 2 + gamma ^ 2)) * Real.cos (((k : ℝ) - 7) * (0 + n * t))) + z :=
      funext fun t => polar_eq hg rho z n spin e (0 + n * t) (f t)
    rw [hf]
    refine ((hs.const_mul (rho / 2)).add_const z).congr_deriv ?_
    simp
  have h3 := h.unique h2
  rw [oblateness, polar_eq hg, restOblateness] at h3
  have h4 : ∑ k ∈ Finset.range 15, (cayley0 e).getD k 0 * Real.cos (((k : ℝ) - 7) * (0 + n * 0))
      = ∑ k ∈ Finset.range 15, (cayley0 e).getD k 0
      * (gamma ^ 2 / (((k : ℝ) - 7) ^ 2 * n ^ 2 + gamma ^ 2)) * Real.cos (((k : ℝ) - 7) * (0 + n * 0)) := by
    rcases mul_eq_zero.1 h3 with h | h
    · exact absurd h hg.ne'
    · have hr2 : rho / 2 ≠ 0 := by positivity
      have : rho / 2 * (∑ k ∈ Finset.range 15, (cayley0 e).getD k 0 * Real.cos (((k : ℝ) - 7) * (0 + n * 0)))
          = rho / 2 * (∑ k ∈ Finset.range 15, (cayley0 e).getD k 0
      * (gamma ^ 2 / (((k : ℝ) - 7) ^ 2 * n ^ 2 + gamma ^ 2)) * Real.cos (((k : ℝ) - 7) * (0 + n * 0))) := by linarith
      exact mul_left_cancel₀ hr2 this
  refine absurd h4 (ne_of_gt ?_)
  simp only [mul_zero, add_zero, Real.cos_zero, mul_one]
  refine Finset.sum_lt_sum (fun k hk => ?_) ⟨6, by simp, ?_⟩
  · refine mul_le_of_le_one_right (cayley0_nonneg h0.le h1 (Finset.mem_range.1 hk)) ?_
    rw [div_le_one (by positivity)]
    nlinarith [mul_nonneg (sq_nonneg ((k : ℝ) - 7)) (sq_nonneg n)]
  · refine mul_lt_of_lt_one_right ?_ ?_
    · have : (cayley0 e).getD 6 0 = 3 / 2 * e + 27 / 16 * e ^ 3 - 261 / 128 * e ^ 5 + 14309 / 6144 * e ^ 7 := by
        simp [cayley0, ipow]
        ring
      rw [this]
      have p5 : e ^ 5 = e ^ 3 * e ^ 2 := by ring
      have q3 : 0 ≤ e ^ 3 := by positivity
      have e2 : e ^ 2 ≤ 1 / 64 := by nlinarith
      have b3 : e ^ 3 * e ^ 2 ≤ e ^ 3 * (1 / 64) := mul_le_mul_of_nonneg_left e2 q3
      have q7 : 0 ≤ e ^ 7 := by positivity
      rw [p5]
      linarith
    · rw [div_lt_one (by positivity)]
      have : 0 < n ^ 2 := by positivity
      push_cast
      nlinarith

end Posidonius.Creep
