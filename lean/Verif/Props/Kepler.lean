import Verif.Lemmas.Kepler

/-! # C24: the Kepler step of WHFast -/

namespace Posidonius.WHFast
open Posidonius

variable {massG : ℝ} {r v : Axes ℝ} {G : ℝ → Gs ℝ}

/-- **C24, angular momentum**: with the G functions and a solved universal anomaly the step keeps r x v. -/
theorem C24_angular_momentum (h : GFunctions (orbitOf massG r v).beta G) (hL : r.cross v ≠ 0) (dt x : ℝ)
    (hx : universalTime (orbitOf massG r v).r0 (orbitOf massG r v).eta0 (orbitOf massG r v).zeta0 G x = dt) :
    (keplerFinish (orbitOf massG r v) dt (G x) ((orbitOf massG r v).ri (G x)) r v).1.cross
      (keplerFinish (orbitOf massG r v) dt (G x) ((orbitOf massG r v).ri (G x)) r v).2 = r.cross v := by
  have hr : r ≠ 0 := by rintro rfl; exact hL (Axes.zero_cross v)
  subst hx
  exact finish_cross h hr x (distance_ne_zero h hL x)

/-- **C24, energy**: the step keeps v^2 / 2 - mu / |r|. -/
theorem C24_energy (h : GFunctions (orbitOf massG r v).beta G) (hL : r.cross v ≠ 0) (dt x : ℝ)
    (hx : universalTime (orbitOf massG r v).r0 (orbitOf massG r v).eta0 (orbitOf massG r v).zeta0 G x = dt)
    (r' v' : Axes ℝ) (he : (r', v') = keplerFinish (orbitOf massG r v) dt (G x) ((orbitOf massG r v).ri (G x)) r v) :
    v'.dot v' / 2 - massG / √(r'.dot r') = v.dot v / 2 - massG / √(r.dot r) := by
  have hr : r ≠ 0 := by rintro rfl; exact hL (Axes.zero_cross v)
  subst hx
  have e1 := finish_distance2 h hr x ((orbitOf massG r v).ri (G x))
  have e2 := finish_velocity2 h hr x (distance_ne_zero h hL x)
  have hp := distance_pos h hL x
  unfold Orbit.time at e1 e2
  rw [← he] at e1 e2
  dsimp only at e1 e2
  rw [e1, e2, Real.sqrt_sq hp.le, orbitOf_eq]
  ring

/-- **C24, the universal anomaly**: Kepler's equation has exactly one solution for every time step. -/
theorem C24_unique_anomaly (h : GFunctions (orbitOf massG r v).beta G) (hm : 0 ≤ massG) (hL : r.cross v ≠ 0)
    (dt : ℝ) : ∃! x,
      universalTime (orbitOf massG r v).r0 (orbitOf massG r v).eta0 (orbitOf massG r v).zeta0 G x = dt :=
  (time_bijective h hm hL).existsUnique dt

theorem vecDeriv_combination {a b a' b' t : ℝ} {f g : ℝ → ℝ} (r v : Axes ℝ) (hf : HasDerivAt f a' t)
    (hg : HasDerivAt g b' t) : VecDeriv (fun s => f s • r + g s • v) (a' • r + b' • v) t := by
  refine ⟨?_, ?_, ?_⟩
  · exact (hf.mul_const r.x).add (hg.mul_const v.x)
  · exact (hf.mul_const r.y).add (hg.mul_const v.y)
  · exact (hf.mul_const r.z).add (hg.mul_const v.z)

/-- **C24, two bodies**: with the G functions the step follows the exact solution of the two-body problem: there
is a universal anomaly `x t` for every time `t` such that position and velocity of the step of length `t`
start from `r` and `v` and satisfy r' = v and v' = -mu r / |r|^3 at all times. -/
theorem C24_two_body (h : GFunctions (orbitOf massG r v).beta G) (hm : 0 ≤ massG) (hL : r.cross v ≠ 0) :
    ∃ x : ℝ → ℝ,
      (∀ t, universalTime (orbitOf massG r v).r0 (orbitOf massG r v).eta0 (orbitOf massG r v).zeta0 G (x t) = t)
      ∧ ∃ p w : ℝ → Axes ℝ,
        (∀ t, (p t, w t) = keplerFinish (orbitOf massG r v) t (G (x t)) ((orbitOf massG r v).ri (G (x t))) r v)
        ∧ p 0 = r ∧ w 0 = v
        ∧ ∀ t, VecDeriv p (w t) t ∧ VecDeriv w ((-massG / √((p t).dot (p t)) ^ 3) • p t) t := by
  have hr : r ≠ 0 := by rintro rfl; exact hL (Axes.zero_cross v)
  have hbij := time_bijective h hm hL
  set o := orbitOf massG r v with ho
  let e := Equiv.ofBijective _ hbij
  let x : ℝ → ℝ := e.symm
  have hx : ∀ t, o.time G (x t) = t := fun t => e.apply_symm_apply t
  have hr0 : 0 < o.r0 := orbit_r0_pos massG v hr
  have hd : ∀ y, HasDerivAt (o.time G) (o.distance G y) y := fun y => h.time_deriv _ _ _ y
  have hpos : ∀ y, 0 < o.distance G y := distance_pos h hL
  have hz : o.zeta0 = massG - o.beta * o.r0 := orbit_zeta massG r v
  -- the anomaly is differentiable
  have hmono : StrictMono (o.time G) := strictMono_of_deriv_pos fun y => by rw [(hd y).deriv]; exact hpos y
  have hxmono : StrictMono x := fun s t hst => by
    rw [← hmono.lt_iff_lt, hx, hx]; exact hst
  have hxc : Continuous x := hxmono.monotone.continuous_of_surjective e.symm.surjective
  have hxd : ∀ t, HasDerivAt x (o.distance G (x t))⁻¹ t := fun t =>
    HasDerivAt.of_local_left_inverse hxc.continuousAt (hd (x t)) (hpos _).ne' (Filter.Eventually.of_forall hx)
  have hx0 : x 0 = 0 := by
    apply hbij.1
    show o.time G (x 0) = o.time G 0
    rw [hx]
    simp [Orbit.time, universalTime, h.zero]
  refine ⟨x, hx, fun t => (keplerFinish o t (G (x t)) (o.ri (G (x t))) r v).1,
    fun t => (keplerFinish o t (G (x t)) (o.ri (G (x t))) r v).2, fun t => rfl, ?_, ?_, fun t => ?_⟩
  · dsimp only; rw [hx0, h.zero, keplerFinish_eq]; ext <;> simp
  · dsimp only; rw [hx0, h.zero, keplerFinish_eq]; ext <;> simp
  · have hmG : o.massG = massG := rfl
    have g2 : HasDerivAt (fun s => (G (x s)).g2) ((G (x t)).g1 * (o.distance G (x t))⁻¹) t :=
      (h.d2 (x t)).comp t (hxd t)
    have g1 : HasDerivAt (fun s => (G (x s)).g1) ((G (x t)).g0 * (o.distance G (x t))⁻¹) t :=
      (h.d1 (x t)).comp t (hxd t)
    have g3 : HasDerivAt (fun s => (G (x s)).g3) ((G (x t)).g2 * (o.distance G (x t))⁻¹) t :=
      (h.d3 (x t)).comp t (hxd t)
    have di : HasDerivAt (fun s => (o.distance G (x s))⁻¹)
        (-((o.eta0 * (G (x t)).g0 + o.zeta0 * (G (x t)).g1) * (o.distance G (x t))⁻¹) / o.distance G (x t) ^ 2) t :=
      ((h.distance_deriv o.r0 o.eta0 o.zeta0 (x t)).comp t (hxd t)).inv (hpos _).ne'
    have hp : (fun s => (keplerFinish o s (G (x s)) (o.ri (G (x s))) r v).1)
        = fun s => (1 - massG * (G (x s)).g2 / o.r0) • r + (s - massG * (G (x s)).g3) • v := by
      funext s; rw [keplerFinish_eq]; rfl
    have hw : (fun s => (keplerFinish o s (G (x s)) (o.ri (G (x s))) r v).2)
        = fun s => (-massG * (G (x s)).g1 / o.r0 * (o.distance G (x s))⁻¹) • r
            + (1 - massG * (G (x s)).g2 * (o.distance G (x s))⁻¹) • v := by
      funext s; rw [keplerFinish_eq, Orbit.ri_eq]; rfl
    have q0 := h.r0 (x t)
    have q2 := h.r2 (x t)
    have hdist : o.distance G (x t) = o.r0 + o.eta0 * (G (x t)).g1 + (massG - o.beta * o.r0) * (G (x t)).g2 := by
      rw [← hz]; rfl
    have hρ := hpos (x t)
    constructor
    · rw [hp]
      dsimp only
      rw [keplerFinish_eq, Orbit.ri_eq, hmG]
      have a1 : HasDerivAt (fun s => 1 - massG * (G (x s)).g2 / o.r0)
          (-massG * (G (x t)).g1 / o.r0 * (o.distance G (x t))⁻¹) t :=
        (((g2.const_mul massG).div_const o.r0).const_sub 1).congr_deriv (by ring)
      have a2 : HasDerivAt (fun s => s - massG * (G (x s)).g3)
          (1 - massG * (G (x t)).g2 * (o.distance G (x t))⁻¹) t :=
        ((hasDerivAt_id t).sub (g3.const_mul massG)).congr_deriv (by ring)
      exact vecDeriv_combination (a := 0) (b := 0) r v a1 a2
    · have ed := finish_distance2 h hr (x t) (o.ri (G (x t)))
      rw [show (orbitOf massG r v).time G (x t) = t from hx t, ← ho] at ed
      dsimp only
      rw [ed, Real.sqrt_sq hρ.le, hw, keplerFinish_eq, hmG]
      dsimp only
      have hco := h.coefficient (eta0 := o.eta0) hz (x t)
      rw [show universalTime o.r0 o.eta0 o.zeta0 G (x t) = t from hx t] at hco
      rw [hco]
      have a1 : HasDerivAt (fun s => -massG * (G (x s)).g1 / o.r0 * (o.distance G (x s))⁻¹)
          ((-massG / o.distance G (x t) ^ 3) * (1 - massG * (G (x t)).g2 / o.r0)) t := by
        refine (((g1.const_mul (-massG)).div_const o.r0).mul di).congr_deriv ?_
        rw [hz, q0]
        generalize o.distance G (x t) = d at *
        generalize (G (x t)).g1 = y1 at *
        generalize (G (x t)).g2 = y2 at *
        field_simp
        rw [hdist]
        linear_combination (massG * (massG - o.beta * o.r0)) * q2
      have a2 : HasDerivAt (fun s => 1 - massG * (G (x s)).g2 * (o.distance G (x s))⁻¹)
          ((-massG / o.distance G (x t) ^ 3) * (o.r0 * (G (x t)).g1 + o.eta0 * (G (x t)).g2)) t := by
        refine (((g2.const_mul massG).mul di).const_sub 1).congr_deriv ?_
        rw [hz, q0]
        generalize o.distance G (x t) = d at *
        generalize (G (x t)).g1 = y1 at *
        generalize (G (x t)).g2 = y2 at *
        field_simp
        rw [hdist]
        linear_combination (-(massG * o.eta0)) * q2
      have := vecDeriv_combination (a := 0) (b := 0) r v a1 a2
      rw [smul_add, smul_smul, smul_smul]
      exact this

/-- **C24, zero time step**: the step of length zero is the identity (functions of the code). -/
theorem C24_zero_step (fuel : ℕ) : keplerStep (fuel + 1) massG 0 r v = some (r, v) := by
  have hG : stiefel (fuel + 1) (orbitOf massG r v).beta (0 : ℝ) = some ⟨1, 0, 0, 0⟩ := by
    have h1 : ¬ (0.1 : ℝ) < 0 := by norm_num
    simp [stiefel, stumpff, reduceArgument, stumpffSeries, scaleGs, invFactorial, h1]
  have hguess : (orbitOf massG r v).guess (0 : ℝ) = 0 := by
    unfold Orbit.guess; split <;> simp
  have hnewton : (orbitOf massG r v).newton (0 : ℝ) ⟨1, 0, 0, 0⟩ 0 = 0 := by simp [Orbit.newton]
  have hsolve : keplerSolve (stiefel (fuel + 1) (orbitOf massG r v).beta) (orbitOf massG r v) (0 : ℝ) (fuel + 1)
      = some (⟨1, 0, 0, 0⟩, (orbitOf massG r v).ri ⟨1, 0, 0, 0⟩) := by
    unfold keplerSolve
    simp only [hguess, hG, hnewton]
    have hno : (ltb (lit 0) (orbitOf massG r v).beta && ltb (lit 0.01 * (orbitOf massG r v).xPerPeriod)
        (FOps.abs ((0 : ℝ) - 0))) = false := by
      by_cases hb : 0 < (orbitOf massG r v).beta
      · have : 0 < (orbitOf massG r v).xPerPeriod := by
          unfold Orbit.xPerPeriod
          have := Real.pi_pos
          have := Real.sqrt_pos.2 hb
          simp only [lit_real, sqrt_real, pi_real]
          push_cast
          positivity
        simp [hb]
        linarith
      · simp [hb]
    rw [hno]
    simp [newtonLoop, hG, hnewton]
  unfold keplerStep
  dsimp only
  rw [hsolve]
  simp only [keplerFinish_eq, Option.some.injEq, Prod.mk.injEq]
  constructor <;> ext <;> simp

/-- **C24, the solver**: when Newton's method stops because the anomaly repeats itself at once, Kepler's
equation is satisfied exactly.  (The other ways to stop are the subject of C108.) -/
theorem C24_newton (o : Orbit ℝ) (dt x : ℝ) (gs : Gs ℝ) (hn : o.newton dt gs x = x)
    (hr : o.r0 + (o.eta0 * gs.g1 + o.zeta0 * gs.g2) ≠ 0) :
    o.r0 * x + o.eta0 * gs.g2 + o.zeta0 * gs.g3 = dt := by
  unfold Orbit.newton Orbit.ri at hn
  simp only [lit_real] at hn
  push_cast at hn
  field_simp at hn
  linarith

/-- Functions for every beta, and an orbit that is not a straight line. -/
example : GFunctions (orbitOf 1 (⟨1, 0, 0⟩ : Axes ℝ) ⟨0, 1, 0⟩).beta
      (gFunctions (orbitOf 1 (⟨1, 0, 0⟩ : Axes ℝ) ⟨0, 1, 0⟩).beta)
    ∧ (⟨1, 0, 0⟩ : Axes ℝ).cross ⟨0, 1, 0⟩ ≠ 0 := by
  refine ⟨gFunctions_spec _, fun h => ?_⟩
  have := congrArg Axes.z h
  simp at this

/-- The orbit of C24 for the circular orbit: a quarter of a revolution. -/
example : universalTime 1 0 0 (gFunctions 1) (Real.pi / 2) = Real.pi / 2 := by simp [universalTime]

end Posidonius.WHFast
