import Verif.Spec.Kepler

/-! The exact two-body solution by universal variables. -/

namespace Posidonius.WHFast
open Posidonius

theorem eq_zero_of_deriv {f : ℝ → ℝ} (h : ∀ x, HasDerivAt f 0 x) (h0 : f 0 = 0) (x : ℝ) : f x = 0 := by
  have := is_const_of_deriv_eq_zero (f := f) (fun y => (h y).differentiableAt) (fun y => (h y).deriv) x 0
  rw [this, h0]

theorem gFunctions_spec (beta : ℝ) : GFunctions beta (gFunctions beta) := by
  rcases lt_trichotomy beta 0 with hb | hb | hb
  · have h1 : ¬ 0 < beta := by linarith
    have hs : 0 < √(-beta) := Real.sqrt_pos.2 (by linarith)
    have hq : √(-beta) * √(-beta) = -beta := Real.mul_self_sqrt (by linarith)
    have lin : ∀ x, HasDerivAt (fun y : ℝ => √(-beta) * y) (√(-beta)) x := fun x => by
      simpa using (hasDerivAt_id x).const_mul √(-beta)
    have c : ∀ x, HasDerivAt (fun y => Real.cosh (√(-beta) * y)) (Real.sinh (√(-beta) * x) * √(-beta)) x :=
      fun x => (lin x).cosh
    have s : ∀ x, HasDerivAt (fun y => Real.sinh (√(-beta) * y)) (Real.cosh (√(-beta) * x) * √(-beta)) x :=
      fun x => (lin x).sinh
    refine ⟨?_, ?_, ?_, ?_, ?_⟩
    · simp [gFunctions, h1, hb]
    · intro x
      simp only [gFunctions, h1, hb, if_true, if_false]
      refine (c x).congr_deriv ?_
      rw [mul_div_assoc', eq_div_iff hs.ne']
      linear_combination Real.sinh (√(-beta) * x) * hq
    · intro x
      simp only [gFunctions, h1, hb, if_true, if_false]
      refine ((s x).div_const _).congr_deriv ?_
      field_simp
    · intro x
      simp only [gFunctions, h1, hb, if_true, if_false]
      refine (((c x).const_sub 1).div_const _).congr_deriv ?_
      rw [div_eq_div_iff hb.ne hs.ne']
      linear_combination Real.sinh (√(-beta) * x) * (-hq)
    · intro x
      simp only [gFunctions, h1, hb, if_true, if_false]
      refine (((hasDerivAt_id x).sub ((s x).div_const _)).div_const _).congr_deriv ?_
      field_simp
  · subst hb
    refine ⟨?_, ?_, ?_, ?_, ?_⟩
    · simp [gFunctions]
    · intro x
      simp only [gFunctions, lt_irrefl, if_false]
      simpa using hasDerivAt_const x (1 : ℝ)
    · intro x
      simp only [gFunctions, lt_irrefl, if_false]
      exact hasDerivAt_id x
    · intro x
      simp only [gFunctions, lt_irrefl, if_false]
      refine ((hasDerivAt_pow 2 x).div_const 2).congr_deriv ?_
      simp
    · intro x
      simp only [gFunctions, lt_irrefl, if_false]
      refine ((hasDerivAt_pow 3 x).div_const 6).congr_deriv ?_
      push_cast; ring
  · have hs : 0 < √beta := Real.sqrt_pos.2 hb
    have hq : √beta * √beta = beta := Real.mul_self_sqrt hb.le
    have lin : ∀ x, HasDerivAt (fun y : ℝ => √beta * y) (√beta) x := fun x => by
      simpa using (hasDerivAt_id x).const_mul √beta
    have c : ∀ x, HasDerivAt (fun y => Real.cos (√beta * y)) (-Real.sin (√beta * x) * √beta) x :=
      fun x => (lin x).cos
    have s : ∀ x, HasDerivAt (fun y => Real.sin (√beta * y)) (Real.cos (√beta * x) * √beta) x :=
      fun x => (lin x).sin
    refine ⟨?_, ?_, ?_, ?_, ?_⟩
    · simp [gFunctions, hb]
    · intro x
      simp only [gFunctions, hb, if_true]
      refine (c x).congr_deriv ?_
      rw [mul_div_assoc', eq_div_iff hs.ne']
      linear_combination -Real.sin (√beta * x) * hq
    · intro x
      simp only [gFunctions, hb, if_true]
      refine ((s x).div_const _).congr_deriv ?_
      field_simp
    · intro x
      simp only [gFunctions, hb, if_true]
      refine (((c x).const_sub 1).div_const _).congr_deriv ?_
      rw [div_eq_div_iff hb.ne' hs.ne']
      linear_combination Real.sin (√beta * x) * hq
    · intro x
      simp only [gFunctions, hb, if_true]
      refine (((hasDerivAt_id x).sub ((s x).div_const _)).div_const _).congr_deriv ?_
      field_simp

variable {beta : ℝ} {G : ℝ → Gs ℝ}

theorem GFunctions.r0 (h : GFunctions beta G) (x : ℝ) : (G x).g0 = 1 - beta * (G x).g2 := by
  have := eq_zero_of_deriv (f := fun y => (G y).g0 - 1 + beta * (G y).g2) (fun y =>
    (((h.d0 y).sub_const 1).add ((h.d2 y).const_mul beta)).congr_deriv (by ring)) (by simp [h.zero]) x
  linarith

theorem GFunctions.r1 (h : GFunctions beta G) (x : ℝ) : (G x).g1 = x - beta * (G x).g3 := by
  have := eq_zero_of_deriv (f := fun y => (G y).g1 - y + beta * (G y).g3) (fun y =>
    (((h.d1 y).sub (hasDerivAt_id y)).add ((h.d3 y).const_mul beta)).congr_deriv (by
      rw [h.r0]; ring)) (by simp [h.zero]) x
  linarith

theorem GFunctions.r2 (h : GFunctions beta G) (x : ℝ) : (G x).g1 ^ 2 = 2 * (G x).g2 - beta * (G x).g2 ^ 2 := by
  have := eq_zero_of_deriv (f := fun y => (G y).g1 ^ 2 - 2 * (G y).g2 + beta * (G y).g2 ^ 2) (fun y =>
    ((((h.d1 y).pow 2).sub ((h.d2 y).const_mul 2)).add (((h.d2 y).pow 2).const_mul beta)).congr_deriv (by
      rw [h.r0]; push_cast; ring)) (by simp [h.zero]) x
  linarith

theorem GFunctions.time_deriv (h : GFunctions beta G) (r0 eta0 zeta0 x : ℝ) :
    HasDerivAt (universalTime r0 eta0 zeta0 G) (universalDistance r0 eta0 zeta0 G x) x := by
  unfold universalTime universalDistance
  refine ((((hasDerivAt_id x).const_mul r0).add ((h.d2 x).const_mul eta0)).add
    ((h.d3 x).const_mul zeta0)).congr_deriv ?_
  ring

theorem GFunctions.distance_deriv (h : GFunctions beta G) (r0 eta0 zeta0 x : ℝ) :
    HasDerivAt (universalDistance r0 eta0 zeta0 G) (eta0 * (G x).g0 + zeta0 * (G x).g1) x := by
  unfold universalDistance
  refine ((((h.d1 x).const_mul eta0).const_add r0).add ((h.d2 x).const_mul zeta0)).congr_deriv ?_
  ring

/-! ### The step with exact functions -/

theorem orbitOf_eq (massG : ℝ) (r v : Axes ℝ) : orbitOf massG r v
    = { massG := massG, r0 := √(r.dot r), v2 := v.dot v, beta := 2 * massG * (√(r.dot r))⁻¹ - v.dot v,
        eta0 := r.dot v, zeta0 := massG - (2 * massG * (√(r.dot r))⁻¹ - v.dot v) * √(r.dot r) } := by
  simp [orbitOf, Axes.norm2]

theorem isNan_real (x : ℝ) : isNan x = false := by simp [isNan]

theorem keplerFinish_eq (o : Orbit ℝ) (dt : ℝ) (gs : Gs ℝ) (ri : ℝ) (r v : Axes ℝ) :
    keplerFinish o dt gs ri r v
      = ((1 - o.massG * gs.g2 / o.r0) • r + (dt - o.massG * gs.g3) • v,
         (-o.massG * gs.g1 / o.r0 * ri) • r + (1 - o.massG * gs.g2 * ri) • v) := by
  unfold keplerFinish
  simp only [isNan_real, Bool.false_eq_true, if_false, lit_real]
  refine Prod.ext ?_ ?_
  · ext <;> simp <;> ring
  · ext <;> simp <;> ring

/-- The values of Lagrange's coefficients with Kepler's equation. -/
theorem GFunctions.coefficient (h : GFunctions beta G) {massG r0 eta0 zeta0 : ℝ} (hz : zeta0 = massG - beta * r0)
    (x : ℝ) : universalTime r0 eta0 zeta0 G x - massG * (G x).g3 = r0 * (G x).g1 + eta0 * (G x).g2 := by
  unfold universalTime
  rw [h.r1 x, hz]
  ring

/-- Scalar form of the conservation of angular momentum. -/
theorem GFunctions.determinant (h : GFunctions beta G) {massG r0 eta0 zeta0 : ℝ} (hz : zeta0 = massG - beta * r0)
    (hr : r0 ≠ 0) (x : ℝ) (hx : universalDistance r0 eta0 zeta0 G x ≠ 0) :
    (1 - massG * (G x).g2 / r0) * (1 - massG * (G x).g2 * (universalDistance r0 eta0 zeta0 G x)⁻¹)
      - (universalTime r0 eta0 zeta0 G x - massG * (G x).g3)
        * (-massG * (G x).g1 / r0 * (universalDistance r0 eta0 zeta0 G x)⁻¹) = 1 := by
  rw [h.coefficient hz]
  have e := h.r2 x
  have hd : universalDistance r0 eta0 zeta0 G x = r0 + eta0 * (G x).g1 + (massG - beta * r0) * (G x).g2 := by
    unfold universalDistance; rw [hz]
  generalize universalDistance r0 eta0 zeta0 G x = d at *
  generalize (G x).g1 = g1 at *
  generalize (G x).g2 = g2 at *
  field_simp
  rw [hd]
  linear_combination massG * r0 * e

/-- Scalar form of the distance. -/
theorem GFunctions.distance2 (h : GFunctions beta G) {massG r0 eta0 zeta0 v2 : ℝ} (hz : zeta0 = massG - beta * r0)
    (hr : r0 ≠ 0) (hb : beta = 2 * massG * r0⁻¹ - v2) (x : ℝ) :
    (1 - massG * (G x).g2 / r0) ^ 2 * r0 ^ 2
      + 2 * (1 - massG * (G x).g2 / r0) * (universalTime r0 eta0 zeta0 G x - massG * (G x).g3) * eta0
      + (universalTime r0 eta0 zeta0 G x - massG * (G x).g3) ^ 2 * v2
      = universalDistance r0 eta0 zeta0 G x ^ 2 := by
  rw [h.coefficient hz]
  have e := h.r2 x
  have hv : v2 = 2 * massG * r0⁻¹ - beta := by linarith
  unfold universalDistance
  rw [hz, hv]
  clear hv hb hz
  generalize (G x).g1 = g1 at *
  generalize (G x).g2 = g2 at *
  field_simp
  linear_combination r0 * (r0 * (2 * massG - beta * r0) - eta0 ^ 2) * e

/-- Scalar form of the energy. -/
theorem GFunctions.energy (h : GFunctions beta G) {massG r0 eta0 zeta0 v2 : ℝ} (hz : zeta0 = massG - beta * r0)
    (hr : r0 ≠ 0) (hb : beta = 2 * massG * r0⁻¹ - v2) (x : ℝ) (hx : universalDistance r0 eta0 zeta0 G x ≠ 0) :
    (-massG * (G x).g1 / r0 * (universalDistance r0 eta0 zeta0 G x)⁻¹) ^ 2 * r0 ^ 2
      + 2 * (-massG * (G x).g1 / r0 * (universalDistance r0 eta0 zeta0 G x)⁻¹)
        * (1 - massG * (G x).g2 * (universalDistance r0 eta0 zeta0 G x)⁻¹) * eta0
      + (1 - massG * (G x).g2 * (universalDistance r0 eta0 zeta0 G x)⁻¹) ^ 2 * v2
      = 2 * massG * (universalDistance r0 eta0 zeta0 G x)⁻¹ - beta := by
  have e := h.r2 x
  have hv : v2 = 2 * massG * r0⁻¹ - beta := by linarith
  have hd : universalDistance r0 eta0 zeta0 G x = r0 + eta0 * (G x).g1 + (massG - beta * r0) * (G x).g2 := by
    unfold universalDistance; rw [hz]
  rw [hv]
  clear hv hb hz
  generalize universalDistance r0 eta0 zeta0 G x = d at *
  generalize (G x).g1 = g1 at *
  generalize (G x).g2 = g2 at *
  field_simp
  rw [hd]
  linear_combination (r0 * massG ^ 2) * e

theorem sqrt_dot_ne {r : Axes ℝ} (h : r ≠ 0) : 0 < √(r.dot r) := by
  refine Real.sqrt_pos.2 (lt_of_le_of_ne (Axes.dot_self_nonneg r) fun e => h ?_)
  exact Axes.dot_self_eq_zero e.symm

theorem lagrange_identity (a b : Axes ℝ) :
    (a.cross b).dot (a.cross b) = a.dot a * b.dot b - a.dot b ^ 2 := by
  simp [Axes.dot]; ring

theorem combination_dot (a b c d : ℝ) (r v : Axes ℝ) :
    (a • r + b • v).dot (c • r + d • v) = a * c * r.dot r + (a * d + b * c) * r.dot v + b * d * v.dot v := by
  simp [Axes.dot]; ring

theorem combination_cross (a b c d : ℝ) (r v : Axes ℝ) :
    (a • r + b • v).cross (c • r + d • v) = (a * d - b * c) • r.cross v := by
  ext <;> simp <;> ring

/-- The orbit of the code with the functions `G`: distance for the anomaly `x`. -/
noncomputable def Orbit.distance (o : Orbit ℝ) (G : ℝ → Gs ℝ) (x : ℝ) : ℝ :=
  universalDistance o.r0 o.eta0 o.zeta0 G x

theorem Orbit.ri_eq (o : Orbit ℝ) (x : ℝ) : o.ri (G x) = (o.distance G x)⁻¹ := by
  simp [Orbit.ri, Orbit.distance, universalDistance, add_assoc]

section orbit
variable {massG : ℝ} {r v : Axes ℝ}

theorem orbit_zeta (massG : ℝ) (r v : Axes ℝ) : (orbitOf massG r v).zeta0
    = (orbitOf massG r v).massG - (orbitOf massG r v).beta * (orbitOf massG r v).r0 := by
  rw [orbitOf_eq]

theorem orbit_beta (massG : ℝ) (r v : Axes ℝ) : (orbitOf massG r v).beta
    = 2 * (orbitOf massG r v).massG * ((orbitOf massG r v).r0)⁻¹ - v.dot v := by
  rw [orbitOf_eq]

theorem orbit_r0_pos (massG : ℝ) (v : Axes ℝ) (h : r ≠ 0) : 0 < (orbitOf massG r v).r0 := by
  rw [orbitOf_eq]; exact sqrt_dot_ne h

theorem orbit_r0_sq (massG : ℝ) (r v : Axes ℝ) : (orbitOf massG r v).r0 ^ 2 = r.dot r := by
  rw [orbitOf_eq]; exact Real.sq_sqrt (Axes.dot_self_nonneg r)

theorem orbit_eta (massG : ℝ) (r v : Axes ℝ) : (orbitOf massG r v).eta0 = r.dot v := by rw [orbitOf_eq]

theorem orbit_massG (massG : ℝ) (r v : Axes ℝ) : (orbitOf massG r v).massG = massG := rfl

/-- The time for the anomaly `x`. -/
noncomputable def Orbit.time (o : Orbit ℝ) (G : ℝ → Gs ℝ) (x : ℝ) : ℝ :=
  universalTime o.r0 o.eta0 o.zeta0 G x

/-- The squared length of the new position. -/
theorem finish_distance2 (h : GFunctions (orbitOf massG r v).beta G) (hr : r ≠ 0) (x ri : ℝ) :
    (keplerFinish (orbitOf massG r v) ((orbitOf massG r v).time G x) (G x) ri r v).1.dot
      (keplerFinish (orbitOf massG r v) ((orbitOf massG r v).time G x) (G x) ri r v).1
      = (orbitOf massG r v).distance G x ^ 2 := by
  rw [keplerFinish_eq]
  dsimp only
  rw [combination_dot, ← orbit_r0_sq massG r v, ← orbit_eta massG r v]
  have := h.distance2 (eta0 := (orbitOf massG r v).eta0) (orbit_zeta massG r v) (orbit_r0_pos massG v hr).ne'
    (orbit_beta massG r v) x
  unfold Orbit.distance
  rw [← this]
  unfold Orbit.time
  ring

theorem distance_ne_zero (h : GFunctions (orbitOf massG r v).beta G) (hL : r.cross v ≠ 0) (x : ℝ) :
    (orbitOf massG r v).distance G x ≠ 0 := by
  have hr : r ≠ 0 := by rintro rfl; exact hL (Axes.zero_cross v)
  intro h0
  have hd := finish_distance2 h hr x 0
  rw [h0] at hd
  have hp := Axes.dot_self_eq_zero (hd.trans (by norm_num))
  rw [keplerFinish_eq] at hp
  dsimp only at hp
  set o := orbitOf massG r v with ho
  -- both coefficients vanish
  have c1 : (1 - o.massG * (G x).g2 / o.r0) • r.cross v = 0 := by
    have := congrArg (fun p => p.cross v) hp
    simpa [Axes.add_cross, Axes.smul_cross, Axes.cross_self, Axes.zero_cross] using this
  have c2 : (o.time G x - o.massG * (G x).g3) • r.cross v = 0 := by
    have := congrArg (fun p => r.cross p) hp
    simpa [Axes.cross_add, Axes.cross_smul, Axes.cross_self, Axes.cross_zero] using this
  have d1 : 1 - o.massG * (G x).g2 / o.r0 = 0 := by
    rcases smul_eq_zero.1 c1 with e | e
    · exact e
    · exact absurd e hL
  have d2 : o.time G x - o.massG * (G x).g3 = 0 := by
    rcases smul_eq_zero.1 c2 with e | e
    · exact e
    · exact absurd e hL
  have hr0 : 0 < o.r0 := orbit_r0_pos massG v hr
  unfold Orbit.time at d2
  rw [h.coefficient (orbit_zeta massG r v)] at d2
  have d1' : o.r0 = o.massG * (G x).g2 := by field_simp at d1; linarith
  have e := h.r2 x
  have hdist : o.r0 + o.eta0 * (G x).g1 + o.zeta0 * (G x).g2 = 0 := h0
  rw [orbit_zeta massG r v] at hdist
  have hb := orbit_beta massG r v
  have hl := lagrange_identity r v
  rw [← orbit_r0_sq massG r v, ← orbit_eta massG r v] at hl
  apply hL
  apply Axes.dot_self_eq_zero
  rw [hl]
  rw [← ho] at hdist hb ⊢
  have hv : v.dot v = 2 * o.massG * o.r0⁻¹ - o.beta := by linarith
  rw [hv]
  have hm : o.massG ≠ 0 := by
    rintro hm; rw [hm] at d1'; simp at d1'; linarith
  have hg2 : (G x).g2 = o.r0 / o.massG := by rw [eq_div_iff hm]; linarith
  have hg1 : (G x).g1 = -(o.eta0 / o.massG) := by
    have d3 : o.r0 * (G x).g1 + o.eta0 * (G x).g2 = 0 := d2
    rw [hg2] at d3
    have d4 : o.r0 * ((G x).g1 + o.eta0 / o.massG) = 0 := by rw [← d3]; ring
    rcases mul_eq_zero.1 d4 with e5 | e5
    · exact absurd e5 hr0.ne'
    · linarith
  rw [hg1, hg2] at hdist
  field_simp at hdist ⊢
  linarith

theorem distance_continuous (h : GFunctions beta G) (o : Orbit ℝ) : Continuous (o.distance G) := by
  refine continuous_iff_continuousAt.2 fun x => ?_
  exact (h.distance_deriv o.r0 o.eta0 o.zeta0 x).continuousAt

theorem distance_zero (h : GFunctions beta G) (o : Orbit ℝ) : o.distance G 0 = o.r0 := by
  simp [Orbit.distance, universalDistance, h.zero]

theorem distance_pos (h : GFunctions (orbitOf massG r v).beta G) (hL : r.cross v ≠ 0) (x : ℝ) :
    0 < (orbitOf massG r v).distance G x := by
  have hr : r ≠ 0 := by rintro rfl; exact hL (Axes.zero_cross v)
  by_contra hx
  have hc := distance_continuous h (orbitOf massG r v)
  have h0 : (0 : ℝ) < (orbitOf massG r v).distance G 0 := by
    rw [distance_zero h]; exact orbit_r0_pos massG v hr
  have := mem_range_of_exists_le_of_exists_ge hc ⟨x, not_lt.1 hx⟩ ⟨0, h0.le⟩
  obtain ⟨y, hy⟩ := this
  exact distance_ne_zero h hL y hy

/-- Angular momentum. -/
theorem finish_cross (h : GFunctions (orbitOf massG r v).beta G) (hr : r ≠ 0) (x : ℝ)
    (hx : (orbitOf massG r v).distance G x ≠ 0) :
    (keplerFinish (orbitOf massG r v) ((orbitOf massG r v).time G x) (G x) ((orbitOf massG r v).ri (G x)) r v).1.cross
      (keplerFinish (orbitOf massG r v) ((orbitOf massG r v).time G x) (G x) ((orbitOf massG r v).ri (G x)) r v).2
      = r.cross v := by
  rw [keplerFinish_eq, Orbit.ri_eq]
  dsimp only
  rw [combination_cross]
  have := h.determinant (eta0 := (orbitOf massG r v).eta0) (orbit_zeta massG r v) (orbit_r0_pos massG v hr).ne'
    x hx
  unfold Orbit.distance Orbit.time
  rw [this, one_smul]

/-- Energy. -/
theorem finish_velocity2 (h : GFunctions (orbitOf massG r v).beta G) (hr : r ≠ 0) (x : ℝ)
    (hx : (orbitOf massG r v).distance G x ≠ 0) :
    (keplerFinish (orbitOf massG r v) ((orbitOf massG r v).time G x) (G x) ((orbitOf massG r v).ri (G x)) r v).2.dot
      (keplerFinish (orbitOf massG r v) ((orbitOf massG r v).time G x) (G x) ((orbitOf massG r v).ri (G x)) r v).2
      = 2 * massG * ((orbitOf massG r v).distance G x)⁻¹ - (orbitOf massG r v).beta := by
  rw [keplerFinish_eq, Orbit.ri_eq]
  dsimp only
  rw [combination_dot, ← orbit_r0_sq massG r v, ← orbit_eta massG r v]
  have := h.energy (eta0 := (orbitOf massG r v).eta0) (orbit_zeta massG r v) (orbit_r0_pos massG v hr).ne'
    (orbit_beta massG r v) x hx
  unfold Orbit.distance
  rw [orbit_massG] at this
  rw [← this, orbit_massG]
  ring

/-- A lower bound of the distance. -/
theorem distance_bound (h : GFunctions (orbitOf massG r v).beta G) (hm : 0 ≤ massG) (hL : r.cross v ≠ 0) :
    ∃ q, 0 < q ∧ ∀ x, q ≤ (orbitOf massG r v).distance G x := by
  have hr : r ≠ 0 := by rintro rfl; exact hL (Axes.zero_cross v)
  set L2 := (r.cross v).dot (r.cross v) with hL2
  have hL2p : 0 < L2 := lt_of_le_of_ne (Axes.dot_self_nonneg _) fun e => hL (Axes.dot_self_eq_zero e.symm)
  set b := (orbitOf massG r v).beta with hb
  have hden : 0 < 2 * massG + |b| + 1 := by positivity
  refine ⟨min 1 (L2 / (2 * massG + |b| + 1)), by positivity, fun x => ?_⟩
  by_contra hq
  rw [not_le, lt_min_iff] at hq
  have hp := distance_pos h hL x
  have e1 := finish_distance2 h hr x ((orbitOf massG r v).ri (G x))
  have e2 := finish_velocity2 h hr x hp.ne'
  have e3 := finish_cross h hr x hp.ne'
  have e4 := lagrange_identity
    (keplerFinish (orbitOf massG r v) ((orbitOf massG r v).time G x) (G x) ((orbitOf massG r v).ri (G x)) r v).1
    (keplerFinish (orbitOf massG r v) ((orbitOf massG r v).time G x) (G x) ((orbitOf massG r v).ri (G x)) r v).2
  rw [e1, e2, e3] at e4
  set d := (orbitOf massG r v).distance G x
  have e5 : L2 ≤ d ^ 2 * (2 * massG * d⁻¹ - b) := by
    rw [hL2, e4]
    have := sq_nonneg ((keplerFinish (orbitOf massG r v) ((orbitOf massG r v).time G x) (G x)
      ((orbitOf massG r v).ri (G x)) r v).1.dot (keplerFinish (orbitOf massG r v)
      ((orbitOf massG r v).time G x) (G x) ((orbitOf massG r v).ri (G x)) r v).2)
    linarith
  have e6 : d ^ 2 * (2 * massG * d⁻¹ - b) = d * (2 * massG - b * d) := by
    field_simp
  rw [e6] at e5
  have e7 : -(b * d) ≤ |b| := by
    have h1 : -(b * d) ≤ |b| * d := by
      have := neg_abs_le b
      nlinarith
    have h2 : |b| * d ≤ |b| := by
      have := abs_nonneg b
      nlinarith [hq.1]
    linarith
  have e8 := (lt_div_iff₀ hden).1 hq.2
  nlinarith

/-- Kepler's equation has exactly one solution for every time. -/
theorem time_bijective (h : GFunctions (orbitOf massG r v).beta G) (hm : 0 ≤ massG) (hL : r.cross v ≠ 0) :
    Function.Bijective ((orbitOf massG r v).time G) := by
  obtain ⟨q, hq, hb⟩ := distance_bound h hm hL
  have hd : ∀ x, HasDerivAt ((orbitOf massG r v).time G) ((orbitOf massG r v).distance G x) x :=
    fun x => h.time_deriv _ _ _ x
  have hmono : StrictMono ((orbitOf massG r v).time G) :=
    strictMono_of_deriv_pos fun x => by rw [(hd x).deriv]; exact distance_pos h hL x
  have hcont : Continuous ((orbitOf massG r v).time G) :=
    continuous_iff_continuousAt.2 fun x => (hd x).continuousAt
  have h0 : (orbitOf massG r v).time G 0 = 0 := by simp [Orbit.time, universalTime, h.zero]
  -- t(x) - q x is increasing
  have hmono2 : Monotone fun x => (orbitOf massG r v).time G x - q * x := by
    have hd2 : ∀ x, HasDerivAt (fun x => (orbitOf massG r v).time G x - q * x)
        ((orbitOf massG r v).distance G x - q) x := fun x => by
      refine ((hd x).sub ((hasDerivAt_id x).const_mul q)).congr_deriv ?_
      ring
    refine monotone_of_deriv_nonneg (fun x => (hd2 x).differentiableAt) fun x => ?_
    rw [(hd2 x).deriv]
    linarith [hb x]
  refine ⟨hmono.injective, fun t => ?_⟩
  apply mem_range_of_exists_le_of_exists_ge hcont
  · refine ⟨min 0 (t / q), ?_⟩
    have := hmono2 (min_le_left 0 (t / q))
    dsimp only at this
    rw [h0] at this
    have h2 : q * min 0 (t / q) ≤ t := by
      have := min_le_right 0 (t / q)
      calc q * min 0 (t / q) ≤ q * (t / q) := by gcongr
        _ = t := by field_simp
    linarith
  · refine ⟨max 0 (t / q), ?_⟩
    have := hmono2 (le_max_left 0 (t / q))
    dsimp only at this
    rw [h0] at this
    have h2 : t ≤ q * max 0 (t / q) := by
      have := le_max_right 0 (t / q)
      calc t = q * (t / q) := by field_simp
        _ ≤ q * max 0 (t / q) := by gcongr
    linarith

end orbit
end Posidonius.WHFast
