import Verif.Props.Creep
import Mathlib.Analysis.Calculus.Deriv.Slope
import Mathlib.Analysis.Calculus.Deriv.Inv
import Mathlib.Analysis.Calculus.Deriv.Pow
import Mathlib.Analysis.SpecialFunctions.Sqrt

/-! # C81: the branch of slow rotation, and the choice of the branch -/

namespace Posidonius.Creep
open Posidonius Hansen

/-- The hypotheses of `C81_creep` can be met for every orbit. -/
theorem orbit_exists {e : ℝ} (h0 : 0 ≤ e) (h1 : e < 1) (n m0 : ℝ) : ∃ bigE f : ℝ → ℝ,
    (∀ t, Kepler e (m0 + n * t) (bigE t))
      ∧ ∀ t, place e (bigE t) / (radius e (bigE t) : ℂ) = Complex.exp (Complex.I * (f t : ℂ)) := by
  choose bigE hE using fun t => (kepler_unique e (m0 + n * t) h0 h1).exists
  refine ⟨bigE, fun t => Complex.arg (place e (bigE t) / (radius e (bigE t) : ℂ)), hE, fun t => ?_⟩
  have hr : 0 < radius e (bigE t) := by
    rw [radius]
    nlinarith [Real.cos_le_one (bigE t)]
  have hn : ‖place e (bigE t)‖ = radius e (bigE t) := by
    rw [Complex.norm_eq_sqrt_sq_add_sq, Real.sqrt_eq_iff_mul_self_eq (by positivity) hr.le]
    simp only [place, radius]
    rw [mul_pow, Real.sq_sqrt (by nlinarith)]
    have := Real.sin_sq_add_cos_sq (bigE t)
    linear_combination (1 - e ^ 2) * this
  have hu : ‖place e (bigE t) / (radius e (bigE t) : ℂ)‖ = 1 := by
    rw [norm_div, hn, Complex.norm_real, Real.norm_eq_abs, abs_of_pos hr, div_self hr.ne']
  have := Complex.norm_mul_exp_arg_mul_I (place e (bigE t) / (radius e (bigE t) : ℂ))
  rw [hu, Complex.ofReal_one, one_mul] at this
  rw [mul_comm]
  exact this.symm

/-- A whole turn of the true anomaly does not change the shape, so `positiveAnomaly` has no effect. -/
theorem fastShape_turn (rho z gamma n spin e m f : ℝ) :
    fastShape rho z gamma n spin e m (positiveAnomaly f) = fastShape rho z gamma n spin e m f := by
  rw [positiveAnomaly]
  split_ifs with h
  · simp only [fastShape, fastSums_eq, lit_real, pi_real]
    have h1 : ∀ x : ℝ, x - 2 * (f + (2 : ℚ) * Real.pi) = x - 2 * f - (2 : ℕ) * (2 * Real.pi) := by
      intro x
      push_cast
      ring
    simp only [h1, Real.cos_sub_nat_mul_two_pi, Real.sin_sub_nat_mul_two_pi]
  · rfl

/-- **C81**: the shape of a body that rotates fast enough is the one of `C81_creep` and `C81_polar_partial`, at the mean
anomaly and the true anomaly; for every orbit of eccentricity below one it is computed. -/
theorem C81_fast (k : Univ.Consts ℝ) {fuel : ℕ} (a e m period M m' R eta spin : ℝ) (ct cf : Bool) {bigE : ℝ}
    (hl : anomalyLoop e m fuel m = some bigE)
    (hs : pseudoSynchronization (relaxationFactor k M R eta) (2 * Real.pi / period) e ≤ spin) :
    particleShape k fuel a e m period M m' R eta spin ct cf
      = some (fastShape (epsilonRhoBar ct a M m' R) (epsilonZBar cf k M R spin) (relaxationFactor k M R eta)
          (2 * Real.pi / period) spin e m (trueOfEccentric e bigE)) := by
  have h : ltb spin (pseudoSynchronization (relaxationFactor k M R eta) (lit 2 * FTrig.pi / period) e) = false := by
    simpa using hs
  simp only [particleShape, h, Bool.false_eq_true, if_false, trueAnomaly, hl, Option.map_some, fastShape_turn]
  simp

/-! ### Slow rotation -/

section slow
variable (rho mu gamma n t : ℝ)

/-- Amplitudes of the first order in the eccentricity. -/
noncomputable def alphaOf : ℝ := 1 - 3 * mu * rho
noncomputable def lagC : ℝ := -2 * (n / gamma) / (1 + alphaOf rho mu * alphaOf rho mu * (n / gamma) ^ 2)
noncomputable def lagS : ℝ := -2 * (n / gamma) ^ 2 * alphaOf rho mu / (1 + alphaOf rho mu * alphaOf rho mu * (n / gamma) ^ 2)
noncomputable def rhoC1 : ℝ := 3 * rho / (1 + (n / gamma) ^ 2)
noncomputable def rhoS1 : ℝ := 3 * rho * (n / gamma) / (1 + (n / gamma) ^ 2)
noncomputable def rho2 : ℝ := rho * (3 / 2 - 4 * (n / gamma) ^ 2 / (1 + alphaOf rho mu * alphaOf rho mu * (n / gamma) ^ 2))
noncomputable def lag2 : ℝ := (3 * (n / gamma) / (1 + (n / gamma) ^ 2)) * (2 + (1 + alphaOf rho mu) * (n / gamma) ^ 2)
  / (1 + alphaOf rho mu * alphaOf rho mu * (n / gamma) ^ 2)

theorem slow_eq (e m : ℝ) : slowShape rho 0 mu gamma n e m
    = ⟨(rho + e * (rhoC1 rho gamma n * Real.cos m + rhoS1 rho gamma n * Real.sin m) + e ^ 2 * rho2 rho mu gamma n)
        * Real.cos (2 * (e * (lagC rho mu gamma n * Real.cos m + lagS rho mu gamma n * Real.sin m) + e ^ 2 * lag2 rho mu gamma n)),
       (rho + e * (rhoC1 rho gamma n * Real.cos m + rhoS1 rho gamma n * Real.sin m) + e ^ 2 * rho2 rho mu gamma n)
        * Real.sin (2 * (e * (lagC rho mu gamma n * Real.cos m + lagS rho mu gamma n * Real.sin m) + e ^ 2 * lag2 rho mu gamma n)),
       (rho + e * (rhoC1 rho gamma n * Real.cos m + rhoS1 rho gamma n * Real.sin m) + e ^ 2 * (3 / 2 * rho)) / 2⟩ := by
  simp only [slowShape, lit_real, sin_real, cos_real, ipow, rhoC1, rhoS1, lagC, lagS, rho2, lag2, alphaOf, Axes.mk.injEq]
  push_cast
  refine ⟨?_, ?_, ?_⟩
  · congr 1
    · ring
    · congr 1; ring
  · congr 1
    · ring
    · congr 1; ring
  · ring

end slow

/-! ### The orbit to the first order in the eccentricity -/

open Filter Topology in
theorem anomaly_first {m : ℝ} {bigE : ℝ → ℝ} (h : ∀ e, |e| < 1 → Kepler e m (bigE e)) :
    HasDerivAt bigE (Real.sin m) 0 ∧ bigE 0 = m := by
  have hE : ∀ e, |e| < 1 → bigE e = m + e * Real.sin (bigE e) := by
    intro e he
    have h : bigE e - e * Real.sin (bigE e) = m := h e he
    linarith
  have hE0 : bigE 0 = m := by simpa using hE 0 (by simp)
  refine ⟨?_, hE0⟩
  have hball : ∀ᶠ e : ℝ in 𝓝 0, |e| < 1 := by
    filter_upwards [Metric.ball_mem_nhds (0 : ℝ) one_pos] with e he
    simpa using he
  have hc : Tendsto bigE (𝓝 0) (𝓝 m) := by
    rw [tendsto_iff_norm_sub_tendsto_zero]
    refine squeeze_zero' (Eventually.of_forall fun _ => norm_nonneg _) (g := fun e => |e|) ?_ ?_
    · filter_upwards [hball] with e he
      rw [hE e he, add_sub_cancel_left, Real.norm_eq_abs, abs_mul]
      nlinarith [Real.abs_sin_le_one (bigE e), abs_nonneg e]
    · simpa using (continuous_abs.tendsto (0 : ℝ))
  have hs : Tendsto (fun e => Real.sin (bigE e)) (𝓝 0) (𝓝 (Real.sin m)) := (Real.continuous_sin.tendsto m).comp hc
  rw [hasDerivAt_iff_tendsto_slope_zero]
  refine (hs.mono_left nhdsWithin_le_nhds).congr' ?_
  filter_upwards [hball.filter_mono nhdsWithin_le_nhds, self_mem_nhdsWithin] with e he hne
  have hne : e ≠ 0 := hne
  rw [zero_add, hE0]
  have := hE e he
  have h2 : bigE e - m = e * Real.sin (bigE e) := by linarith
  rw [h2, smul_eq_mul, ← mul_assoc, inv_mul_cancel₀ hne, one_mul]

theorem radius_first {m : ℝ} {bigE : ℝ → ℝ} (h : ∀ e, |e| < 1 → Kepler e m (bigE e)) :
    HasDerivAt (fun e => radius e (bigE e)) (-Real.cos m) 0 ∧ radius 0 (bigE 0) = 1 := by
  obtain ⟨h1, h2⟩ := anomaly_first h
  refine ⟨?_, by simp [radius]⟩
  simp only [radius]
  refine (((hasDerivAt_id' (0 : ℝ)).mul h1.cos).const_sub 1).congr_deriv ?_
  rw [h2]
  ring

/-- (a/r)³ = 1 + 3 e cos M + … -/
theorem cube_first {m : ℝ} {bigE : ℝ → ℝ} (h : ∀ e, |e| < 1 → Kepler e m (bigE e)) :
    HasDerivAt (fun e => (1 / radius e (bigE e)) ^ 3) (3 * Real.cos m) 0 := by
  obtain ⟨h1, h2⟩ := radius_first h
  have h3 := (h1.inv (by rw [h2]; exact one_ne_zero)).pow 3
  simp only [one_div]
  refine h3.congr_deriv ?_
  simp only [Pi.inv_apply, h2]
  norm_num

/-- The rate of the true anomaly: the areal velocity `n a² sqrt(1 - e²)` divided by r². -/
noncomputable def rate (n e bigE : ℝ) : ℝ := n * Real.sqrt (1 - e ^ 2) / radius e bigE ^ 2

theorem rate_first (n : ℝ) {m : ℝ} {bigE : ℝ → ℝ} (h : ∀ e, |e| < 1 → Kepler e m (bigE e)) :
    HasDerivAt (fun e => rate n e (bigE e)) (2 * n * Real.cos m) 0 ∧ rate n 0 (bigE 0) = n := by
  obtain ⟨h1, h2⟩ := radius_first h
  refine ⟨?_, by simp [rate, h2]⟩
  have hs : HasDerivAt (fun e : ℝ => Real.sqrt (1 - e ^ 2)) 0 0 := by
    have := ((((hasDerivAt_id' (0 : ℝ)).pow 2).const_sub 1).sqrt (by norm_num))
    refine this.congr_deriv ?_
    norm_num
  refine ((hs.const_mul n).div (h1.pow 2) (by rw [Pi.pow_apply, h2]; norm_num)).congr_deriv ?_
  simp [h2]
  ring

/-- **C81**, slow rotation: to the first order in the eccentricity the shape solves the creep equation of a body that
librates about the synchronous rotation, and the libration is the one that the torque of this shape causes.  In the
frame of the companion the creep equation is `Z' = -2i(f' - Ω) Z + γ(ρ (a/r)³ - Z)` for `Z = x + iy` and
`z' = γ(ρ (a/r)³/2 - z)`, and the torque gives `Ω' = -(3/2) n² μ (a/r)³ y`, where `n² = G(M+m)/a³` and the moment of
inertia is that of a homogeneous sphere.  Second order terms and a shape with both tides and flattening, which no
caller asks for, are missing. -/
theorem C81_slow_partial {gamma : ℝ} (hg : 0 < gamma) (rho mu n : ℝ) : ∃ lib lib' : ℝ → ℝ, (∀ t, HasDerivAt lib (lib' t) t) ∧
    ∀ (t : ℝ) (bigE : ℝ → ℝ), (∀ e, |e| < 1 → Kepler e (n * t) (bigE e)) →
    let X := fun e t => (slowShape rho 0 mu gamma n e (n * t)).x
    let Y := fun e t => (slowShape rho 0 mu gamma n e (n * t)).y
    let Z := fun e t => (slowShape rho 0 mu gamma n e (n * t)).z
    let cube := fun e => (1 / radius e (bigE e)) ^ 3
    let slip := fun e => rate n e (bigE e) - (n + e * lib t)
    ∃ X' Y' Z' : ℝ → ℝ, (∀ e, HasDerivAt (X e) (X' e) t ∧ HasDerivAt (Y e) (Y' e) t ∧ HasDerivAt (Z e) (Z' e) t)
      ∧ X' 0 = 2 * slip 0 * Y 0 t + gamma * (rho * cube 0 - X 0 t)
      ∧ Y' 0 = -2 * slip 0 * X 0 t - gamma * Y 0 t
      ∧ Z' 0 = gamma * (rho * cube 0 / 2 - Z 0 t)
      ∧ HasDerivAt (fun e => X' e - (2 * slip e * Y e t + gamma * (rho * cube e - X e t))) 0 0
      ∧ HasDerivAt (fun e => Y' e - (-2 * slip e * X e t - gamma * Y e t)) 0 0
      ∧ HasDerivAt (fun e => Z' e - gamma * (rho * cube e / 2 - Z e t)) 0 0
      ∧ HasDerivAt (fun e => e * lib' t - (-(3 / 2) * n ^ 2 * mu * cube e * Y e t)) 0 0 := by
  set al := alphaOf rho mu with hal
  set dC := lagC rho mu gamma n with hdC
  set dS := lagS rho mu gamma n with hdS
  set pC := rhoC1 rho gamma n with hpC
  set pS := rhoS1 rho gamma n with hpS
  set d2 := lag2 rho mu gamma n with hd2
  set p2 := rho2 rho mu gamma n with hp2
  have htime : ∀ t : ℝ, HasDerivAt (fun t : ℝ => n * t) n t := by
    intro t
    simpa using (hasDerivAt_id t).const_mul n
  refine ⟨fun t => (1 - al) * n * (dS * Real.cos (n * t) - dC * Real.sin (n * t)),
    fun t => (1 - al) * n * (dS * (-Real.sin (n * t) * n) - dC * (Real.cos (n * t) * n)), fun t => ?_, ?_⟩
  · exact (((htime t).cos.const_mul dS).sub ((htime t).sin.const_mul dC)).const_mul _
  intro t bigE hK X Y Z cube slip
  -- the amplitudes and their derivatives in time
  set c := Real.cos (n * t) with hc
  set s := Real.sin (n * t) with hs
  have hP : ∀ e : ℝ, HasDerivAt (fun t => rho + e * (pC * Real.cos (n * t) + pS * Real.sin (n * t)) + e ^ 2 * p2)
      (e * (pC * (-s * n) + pS * (c * n))) t := by
    intro e
    exact (((((htime t).cos.const_mul pC).add ((htime t).sin.const_mul pS)).const_mul e).const_add rho).add_const _
  have hQ : ∀ e : ℝ, HasDerivAt (fun t => rho + e * (pC * Real.cos (n * t) + pS * Real.sin (n * t)) + e ^ 2 * (3 / 2 * rho))
      (e * (pC * (-s * n) + pS * (c * n))) t := by
    intro e
    exact (((((htime t).cos.const_mul pC).add ((htime t).sin.const_mul pS)).const_mul e).const_add rho).add_const _
  have hD : ∀ e : ℝ, HasDerivAt (fun t => 2 * (e * (dC * Real.cos (n * t) + dS * Real.sin (n * t)) + e ^ 2 * d2))
      (2 * (e * (dC * (-s * n) + dS * (c * n)))) t := by
    intro e
    exact (((((htime t).cos.const_mul dC).add ((htime t).sin.const_mul dS)).const_mul e).add_const _).const_mul 2
  set a := pC * c + pS * s with ha
  set a' := pC * (-s * n) + pS * (c * n) with ha'
  set b := dC * c + dS * s with hb
  set b' := dC * (-s * n) + dS * (c * n) with hb'
  have hX : X = fun e t => (rho + e * (pC * Real.cos (n * t) + pS * Real.sin (n * t)) + e ^ 2 * p2)
      * Real.cos (2 * (e * (dC * Real.cos (n * t) + dS * Real.sin (n * t)) + e ^ 2 * d2)) :=
    funext fun e => funext fun t => by simp only [X, slow_eq]; rfl
  have hY : Y = fun e t => (rho + e * (pC * Real.cos (n * t) + pS * Real.sin (n * t)) + e ^ 2 * p2)
      * Real.sin (2 * (e * (dC * Real.cos (n * t) + dS * Real.sin (n * t)) + e ^ 2 * d2)) :=
    funext fun e => funext fun t => by simp only [Y, slow_eq]; rfl
  have hZ : Z = fun e t => (rho + e * (pC * Real.cos (n * t) + pS * Real.sin (n * t)) + e ^ 2 * (3 / 2 * rho)) / 2 :=
    funext fun e => funext fun t => by simp only [Z, slow_eq]; rfl
  have hXt : ∀ e, X e t = (rho + e * a + e ^ 2 * p2) * Real.cos (2 * (e * b + e ^ 2 * d2)) := fun e => by rw [hX]
  have hYt : ∀ e, Y e t = (rho + e * a + e ^ 2 * p2) * Real.sin (2 * (e * b + e ^ 2 * d2)) := fun e => by rw [hY]
  have hZt : ∀ e, Z e t = (rho + e * a + e ^ 2 * (3 / 2 * rho)) / 2 := fun e => by rw [hZ]
  -- the orbit
  obtain ⟨hr1, hr0⟩ := rate_first n hK
  have hq1 : HasDerivAt cube (3 * c) 0 := cube_first hK
  have hq0 : cube 0 = 1 := by simp only [cube, (radius_first hK).2]; norm_num
  have hl0 : slip 0 = 0 := by simp only [slip, hr0]; ring
  set lam := (1 - al) * n * (dS * c - dC * s) with hlam
  have hl1 : HasDerivAt slip (2 * n * c - lam) 0 := by
    refine (hr1.sub (((hasDerivAt_id' (0 : ℝ)).mul_const lam).const_add n)).congr_deriv ?_
    ring
  -- functions of the eccentricity
  have he2 : HasDerivAt (fun e : ℝ => e ^ 2) 0 0 := by
    refine ((hasDerivAt_id' (0 : ℝ)).pow 2).congr_deriv ?_
    norm_num
  have hp1 : HasDerivAt (fun e : ℝ => rho + e * a + e ^ 2 * p2) a 0 := by
    refine ((((hasDerivAt_id' (0 : ℝ)).mul_const a).const_add rho).add (he2.mul_const p2)).congr_deriv ?_
    ring
  have hz1 : HasDerivAt (fun e : ℝ => (rho + e * a + e ^ 2 * (3 / 2 * rho)) / 2) (a / 2) 0 := by
    refine (((((hasDerivAt_id' (0 : ℝ)).mul_const a).const_add rho).add (he2.mul_const (3 / 2 * rho))).div_const 2).congr_deriv ?_
    ring
  have hd1 : HasDerivAt (fun e : ℝ => 2 * (e * b + e ^ 2 * d2)) (2 * b) 0 := by
    refine ((((hasDerivAt_id' (0 : ℝ)).mul_const b).add (he2.mul_const d2)).const_mul 2).congr_deriv ?_
    ring
  have hx1 : HasDerivAt (fun e => X e t) a 0 := by
    rw [funext hXt]
    refine (hp1.mul hd1.cos).congr_deriv ?_
    norm_num
  have hy1 : HasDerivAt (fun e => Y e t) (2 * rho * b) 0 := by
    rw [funext hYt]
    refine (hp1.mul hd1.sin).congr_deriv ?_
    norm_num
    ring
  have hx0 : X 0 t = rho := by rw [hXt]; norm_num
  have hy0 : Y 0 t = 0 := by rw [hYt]; norm_num
  have hz0 : Z 0 t = rho / 2 := by rw [hZt]; norm_num
  -- relations between the amplitudes
  have hgn : gamma ≠ 0 := hg.ne'
  have hA : a' = gamma * (3 * rho * c - a) := by
    have h1 : (1 : ℝ) + (n / gamma) ^ 2 ≠ 0 := by positivity
    have e1 : pS = n / gamma * pC := by rw [hpS, hpC, rhoS1, rhoC1]; ring
    have e2 : pC * (1 + (n / gamma) ^ 2) = 3 * rho := by rw [hpC, rhoC1, div_mul_cancel₀ _ h1]
    have e3 : n = gamma * (n / gamma) := by field_simp
    generalize n / gamma = q at e1 e2 e3
    rw [ha', ha, e1, ← e2, e3]
    ring
  have hB : b' = lam - 2 * n * c - gamma * b := by
    have h1 : (1 : ℝ) + al * al * (n / gamma) ^ 2 ≠ 0 := by nlinarith [mul_nonneg (mul_self_nonneg al) (sq_nonneg (n / gamma))]
    have e1 : dS = n / gamma * al * dC := by rw [hdS, hdC, lagS, lagC, ← hal]; ring
    have e2 : dC * (1 + al * al * (n / gamma) ^ 2) = -2 * (n / gamma) := by rw [hdC, lagC, ← hal, div_mul_cancel₀ _ h1]
    have e3 : n = gamma * (n / gamma) := by field_simp
    generalize n / gamma = q at e1 e2 e3
    rw [hb', hlam, hb, e1, e3]
    linear_combination c * gamma * e2
  have hL : (1 - al) * n * (dS * (-s * n) - dC * (c * n)) = -(3 / 2) * n ^ 2 * mu * (2 * rho * b) := by
    have : 1 - al = 3 * mu * rho := by rw [hal, alphaOf]; ring
    rw [this, hb]
    ring
  refine ⟨fun e => e * a' * Real.cos (2 * (e * b + e ^ 2 * d2))
      + (rho + e * a + e ^ 2 * p2) * (-Real.sin (2 * (e * b + e ^ 2 * d2)) * (2 * (e * b'))),
    fun e => e * a' * Real.sin (2 * (e * b + e ^ 2 * d2))
      + (rho + e * a + e ^ 2 * p2) * (Real.cos (2 * (e * b + e ^ 2 * d2)) * (2 * (e * b'))),
    fun e => e * a' / 2, fun e => ⟨?_, ?_, ?_⟩, ?_, ?_, ?_, ?_, ?_, ?_, ?_⟩
  · rw [hX]
    exact (hP e).mul (hD e).cos
  · rw [hY]
    exact (hP e).mul (hD e).sin
  · rw [hZ]
    exact (hQ e).div_const 2
  · rw [hl0, hq0, hx0]
    norm_num
  · rw [hl0, hy0]
    norm_num
  · rw [hq0, hz0]
    norm_num
  · have h1 : HasDerivAt (fun e : ℝ => e * a' * Real.cos (2 * (e * b + e ^ 2 * d2))
        + (rho + e * a + e ^ 2 * p2) * (-Real.sin (2 * (e * b + e ^ 2 * d2)) * (2 * (e * b')))) a' 0 := by
      refine ((((hasDerivAt_id' (0 : ℝ)).mul_const a').mul hd1.cos).add
        (hp1.mul (hd1.sin.neg.mul (((hasDerivAt_id' (0 : ℝ)).mul_const b').const_mul 2)))).congr_deriv ?_
      norm_num
    refine (h1.sub ((((hl1.const_mul 2).mul hy1)).add (((hq1.const_mul rho).sub hx1).const_mul gamma))).congr_deriv ?_
    rw [hl0, hy0, hA]
    ring
  · have h1 : HasDerivAt (fun e : ℝ => e * a' * Real.sin (2 * (e * b + e ^ 2 * d2))
        + (rho + e * a + e ^ 2 * p2) * (Real.cos (2 * (e * b + e ^ 2 * d2)) * (2 * (e * b')))) (2 * rho * b') 0 := by
      refine ((((hasDerivAt_id' (0 : ℝ)).mul_const a').mul hd1.sin).add
        (hp1.mul (hd1.cos.mul (((hasDerivAt_id' (0 : ℝ)).mul_const b').const_mul 2)))).congr_deriv ?_
      norm_num
      ring
    refine (h1.sub ((((hl1.const_mul (-2)).mul hx1)).sub (hy1.const_mul gamma))).congr_deriv ?_
    rw [hl0, hx0, hB]
    ring
  · have h1 : HasDerivAt (fun e : ℝ => e * a' / 2) (a' / 2) 0 := by
      refine (((hasDerivAt_id' (0 : ℝ)).mul_const a').div_const 2).congr_deriv ?_
      ring
    have h2 : HasDerivAt (fun e => Z e t) (a / 2) 0 := by
      rw [funext hZt]
      exact hz1
    refine (h1.sub ((((hq1.const_mul rho).div_const 2).sub h2).const_mul gamma)).congr_deriv ?_
    rw [hA]
    ring
  · have h1 : HasDerivAt (fun e : ℝ => e * ((1 - al) * n * (dS * (-s * n) - dC * (c * n))))
        ((1 - al) * n * (dS * (-s * n) - dC * (c * n))) 0 := by
      refine ((hasDerivAt_id' (0 : ℝ)).mul_const _).congr_deriv ?_
      ring
    refine (h1.sub ((hq1.const_mul (-(3 / 2) * n ^ 2 * mu)).mul hy1)).congr_deriv ?_
    rw [hq0, hy0, hL]
    ring

end Posidonius.Creep
