import Verif.Lemmas.FlatOrbit
import Verif.Props.Anderson
import Verif.Props.FlattenedOrbit
import Verif.Props.WindDisk

/-! # C120: how fast a disk makes an orbit shrink and become round -/

namespace Posidonius.Univ
open Finset Order
open Gravity (Ignore)
open WHFast (VecDeriv)

variable {n : Nat}

/-- The semi-major axis of the orbit through `x` with the velocity `v` (vis-viva equation). -/
noncomputable def semiMajorAxis (mu : ℝ) (x v : Axes ℝ) : ℝ := 1 / (2 / Real.sqrt (x.dot x) - v.dot v / mu)

/-- The speed at which gas of the viscosity `nu` drifts at the distance `a`, and a body of mass `m` in gas of surface density
`s` with it: as fast as the gas if there is enough of it, else slower in proportion (Alibert et al. 2013). -/
noncomputable def driftSpeed (nu s m a : ℝ) : ℝ := -3 * nu / (2 * a) * min 1 (2 * s * a ^ 2 / m)

/-- How a disturbing acceleration changes the semi-major axis (Gauss). -/
theorem semiMajorAxis_deriv {mu t : ℝ} {x v : ℝ → Axes ℝ} {d : Axes ℝ} (hx : VecDeriv x (v t) t)
    (hv : VecDeriv v (-(mu / Real.sqrt ((x t).dot (x t)) ^ 3) • x t + d) t) (hne : x t ≠ 0) (hmu : mu ≠ 0)
    (hb : 2 / Real.sqrt ((x t).dot (x t)) - (v t).dot (v t) / mu ≠ 0) :
    HasDerivAt (fun s => semiMajorAxis mu (x s) (v s))
      (2 * semiMajorAxis mu (x t) (v t) ^ 2 / mu * d.dot (v t)) t := by
  have hr := Univ.distance_pos hne
  have h1 := Univ.distance_deriv hx hne
  have h2 := Univ.dot_deriv hv hv
  have h3 := ((h1.fun_inv hr.ne').const_mul 2).fun_sub (h2.div_const mu)
  have h4 := h3.fun_inv (by rw [← div_eq_mul_inv]; exact hb)
  have e1 : (fun s => semiMajorAxis mu (x s) (v s))
      = fun y => (2 * (Real.sqrt ((x y).dot (x y)))⁻¹ - (v y).dot (v y) / mu)⁻¹ := by
    funext s
    unfold semiMajorAxis
    rw [one_div, ← div_eq_mul_inv]
  rw [e1]
  refine h4.congr_deriv ?_
  unfold semiMajorAxis
  rw [← div_eq_mul_inv, Axes.dot_comm (v t) (_ + d), Axes.add_dot, Axes.smul_dot]
  generalize 2 / Real.sqrt ((x t).dot (x t)) - (v t).dot (v t) / mu = B at *
  generalize Real.sqrt ((x t).dot (x t)) = r at *
  field_simp
  ring

theorem dampingAcceleration_dot (rate : ℝ) (r v : Axes ℝ) : (dampingAcceleration rate r v).dot v
    = -(rate * (v.dot v + 20 * r.dot v ^ 2 / r.dot r + 20 * v.z ^ 2)) := by
  unfold dampingAcceleration
  have h : ∀ c : ℝ, (c • (⟨0, 0, 1⟩ : Axes ℝ)).dot v = c * v.z := by
    intro c
    simp [Axes.dot]
  rw [Axes.sub_dot, Axes.sub_dot, Axes.smul_dot, h, ← neg_smul, Axes.smul_dot, show r.norm2 = r.dot r from rfl]
  ring

/-- The viscosity of the gas grows in proportion to the distance. -/
theorem gasViscosity_scale (k : Consts ℝ) (d : DiskProperties ℝ) (M Mg : ℝ) {r a : ℝ} (hr : 0 < r) (ha : 0 < a) :
    gasViscosity k d M Mg r = gasViscosity k d M Mg a * (r / a) := by
  have key : ∀ y : ℝ, 0 < y → gasViscosity k d M Mg y
      = d.alpha * (k.boltzmann * (280 * M) / (d.meanMolecularWeight * k.massHydrogen)) / Real.sqrt Mg * y := by
    intro y hy
    have h1 : y ^ (-1 / 2 : ℝ) = (Real.sqrt y)⁻¹ := by
      rw [Real.sqrt_eq_rpow, ← Real.rpow_neg hy.le]
      norm_num
    have h2 : Real.sqrt (y ^ 3) = y * Real.sqrt y := by
      rw [show y ^ 3 = y ^ 2 * y by ring, Real.sqrt_mul (by positivity), Real.sqrt_sq hy.le]
    have h3 := Real.sqrt_pos.2 hy
    unfold gasViscosity
    rw [h1, Real.sqrt_div' _ (by positivity), h2]
    generalize Real.sqrt y = z at *
    field_simp
  rw [key r hr, key a ha]
  field_simp

section
variable {k : Consts ℝ} {m : Models ℝ} {eps2 time : ℝ} {evolution dL : Bool} {ignore : Ignore} {u u' : Universe ℝ n}
  {h i : Fin n} {d : DiskProperties ℝ}

/-- The acceleration relative to the host that the disk gives to the only companion. -/
theorem disk_relative (hok : DiskHostOk u) (hh : u.hosts.disk = some h) (cd : u.consider.disk = true)
    (hd : (u.particles h).disk.effect = .central d)
    (hv : (u.particles u.hosts.mostMassive).heliocentricVelocity = 0)
    (hu : calculateAdditionalEffects k m eps2 time evolution dL true ignore (inertialToHeliocentric u) = some u')
    (hi : i ≠ h) (two : ∀ j, j = h ∨ j = i) (ho : (u.particles i).disk.effect.isOrbiting = true)
    (hm : ∀ j, (u.particles j).mass ≠ 0)
    (hsep : (u.particles i).inertialPosition ≠ (u.particles h).inertialPosition)
    (hmu : (u.particles i).massG + (u.particles h).massG ≠ 0) :
    let r := (u.particles i).inertialPosition - (u.particles h).inertialPosition
    let v := (u.particles i).inertialVelocity - (u.particles h).inertialVelocity
    (u'.particles i).disk.acceleration - (u'.particles h).disk.acceleration
      = (1 + (u.particles i).mass / (u.particles h).mass) • dampingAcceleration
        (migrationRate k d time (u.particles h).mass (u.particles h).massG (u.particles i).mass (Real.sqrt (r.dot r))
          (semiMajorAxis ((u.particles i).massG + (u.particles h).massG) r v)) r v := by
  intro r v
  have h1 := C41_force hok hh cd hd hv hu i hi ho (hm i) hsep hmu
  have h2 := C41_momentum hok hh cd hd hv hm (fun j hj hf => by
    rcases two j with e | e
    · exact absurd e hj
    · rw [e, ho] at hf; cases hf) hu
  have hun : (univ : Finset (Fin n)) = {h, i} := by
    ext j
    simpa using two j
  rw [hun, sum_pair hi.symm] at h2
  have h1' : (u'.particles i).disk.acceleration = dampingAcceleration
        (migrationRate k d time (u.particles h).mass (u.particles h).massG (u.particles i).mass (Real.sqrt (r.dot r))
          (semiMajorAxis ((u.particles i).massG + (u.particles h).massG) r v)) r v := h1
  rw [← h1']
  have hM := hm h
  generalize (u'.particles i).disk.acceleration = x at *
  generalize (u'.particles h).disk.acceleration = y at *
  have hy : y = -((u.particles i).mass / (u.particles h).mass) • x := by
    rw [neg_smul, eq_neg_iff_add_eq_zero, ← smul_right_inj hM, smul_add, smul_smul, mul_div_cancel₀ _ hM, h2, smul_zero]
  rw [hy, neg_smul, sub_neg_eq_add, add_smul, one_smul]

/-- **C120**: how fast the semi-major axis of a companion changes while it moves by the attraction of its host and the effect of
the disk on both: it never grows. -/
theorem C120_rate_partial (hok : DiskHostOk u) (hh : u.hosts.disk = some h) (cd : u.consider.disk = true)
    (hd : (u.particles h).disk.effect = .central d)
    (hv : (u.particles u.hosts.mostMassive).heliocentricVelocity = 0)
    (hu : calculateAdditionalEffects k m eps2 time evolution dL true ignore (inertialToHeliocentric u) = some u')
    (hi : i ≠ h) (two : ∀ j, j = h ∨ j = i) (ho : (u.particles i).disk.effect.isOrbiting = true)
    (hm : ∀ j, (u.particles j).mass ≠ 0)
    (hsep : (u.particles i).inertialPosition ≠ (u.particles h).inertialPosition)
    {mu : ℝ} (hmu : mu = (u.particles i).massG + (u.particles h).massG) (hmu0 : mu ≠ 0) {x v : ℝ → Axes ℝ} {t : ℝ}
    (hx : x t = (u.particles i).inertialPosition - (u.particles h).inertialPosition)
    (hvel : v t = (u.particles i).inertialVelocity - (u.particles h).inertialVelocity)
    (dx : VecDeriv x (v t) t) (dv : VecDeriv v (-(mu / Real.sqrt ((x t).dot (x t)) ^ 3) • x t
      + ((u'.particles i).disk.acceleration - (u'.particles h).disk.acceleration)) t)
    (hb : 2 / Real.sqrt ((x t).dot (x t)) - (v t).dot (v t) / mu ≠ 0) {a : ℝ} (ha : a = semiMajorAxis mu (x t) (v t)) :
    HasDerivAt (fun s => semiMajorAxis mu (x s) (v s))
      (2 * (1 + (u.particles i).mass / (u.particles h).mass)
        * driftSpeed (gasViscosity k d (u.particles h).mass (u.particles h).massG (Real.sqrt ((x t).dot (x t))))
          (gasDensity d time (Real.sqrt ((x t).dot (x t)))) (u.particles i).mass a
        * (a / mu * ((v t).dot (v t) + 20 * (x t).dot (v t) ^ 2 / (x t).dot (x t) + 20 * (v t).z ^ 2))) t := by
  have hne : x t ≠ 0 := by rw [hx]; exact sub_ne_zero.2 hsep
  have h1 := disk_relative hok hh cd hd hv hu hi two ho hm hsep (by rw [← hmu]; exact hmu0)
  dsimp only at h1
  rw [← hx, ← hvel, ← hmu, ← ha] at h1
  refine (semiMajorAxis_deriv dx dv hne hmu0 hb).congr_deriv ?_
  have ha0 : a ≠ 0 := by rw [ha]; unfold semiMajorAxis; exact one_div_ne_zero hb
  rw [h1, Axes.smul_dot, dampingAcceleration_dot, ← ha]
  unfold migrationRate driftSpeed
  field_simp

/-- **C120**: on a circular orbit in the plane of the disk the semi-major axis changes at least twice as fast as the
timescale says that the code computes for it: by two, and by the mass of the companion, whose host recoils. -/
theorem C120_circular_partial (hok : DiskHostOk u) (hh : u.hosts.disk = some h) (cd : u.consider.disk = true)
    (hd : (u.particles h).disk.effect = .central d)
    (hv : (u.particles u.hosts.mostMassive).heliocentricVelocity = 0)
    (hu : calculateAdditionalEffects k m eps2 time evolution dL true ignore (inertialToHeliocentric u) = some u')
    (hi : i ≠ h) (two : ∀ j, j = h ∨ j = i) (ho : (u.particles i).disk.effect.isOrbiting = true)
    (hm : ∀ j, (u.particles j).mass ≠ 0)
    {mu : ℝ} (hmu : mu = (u.particles i).massG + (u.particles h).massG) (hmu0 : mu ≠ 0) {x v : ℝ → Axes ℝ} {t : ℝ}
    (hx : x t = (u.particles i).inertialPosition - (u.particles h).inertialPosition)
    (hvel : v t = (u.particles i).inertialVelocity - (u.particles h).inertialVelocity)
    (dx : VecDeriv x (v t) t) (dv : VecDeriv v (-(mu / Real.sqrt ((x t).dot (x t)) ^ 3) • x t
      + ((u'.particles i).disk.acceleration - (u'.particles h).disk.acceleration)) t)
    {a : ℝ} (ha : 0 < a) (distance : Real.sqrt ((x t).dot (x t)) = a) (circular : (v t).dot (v t) = mu / a)
    (across : (x t).dot (v t) = 0) (plane : (v t).z = 0) :
    HasDerivAt (fun s => semiMajorAxis mu (x s) (v s))
      (2 * (1 + (u.particles i).mass / (u.particles h).mass)
        * driftSpeed (gasViscosity k d (u.particles h).mass (u.particles h).massG a) (gasDensity d time a)
          (u.particles i).mass a) t := by
  have hsep : (u.particles i).inertialPosition ≠ (u.particles h).inertialPosition := by
    intro e
    rw [hx, e, sub_self, Axes.zero_dot, Real.sqrt_zero] at distance
    exact ha.ne distance
  have hB : 2 / a - mu / a / mu = 1 / a := by field_simp; ring
  have ea : semiMajorAxis mu (x t) (v t) = a := by
    unfold semiMajorAxis
    rw [distance, circular, hB, one_div_one_div]
  have key := C120_rate_partial hok hh cd hd hv hu hi two ho hm hsep hmu hmu0 hx hvel dx dv
    (by rw [distance, circular, hB]; positivity) ea.symm
  refine key.congr_deriv ?_
  rw [distance, circular, across, plane]
  field_simp
  ring

/-- **C120 violated**: so it does not change at the speed of the drift, unless that is zero. -/
theorem C120_violated (hok : DiskHostOk u) (hh : u.hosts.disk = some h) (cd : u.consider.disk = true)
    (hd : (u.particles h).disk.effect = .central d)
    (hv : (u.particles u.hosts.mostMassive).heliocentricVelocity = 0)
    (hu : calculateAdditionalEffects k m eps2 time evolution dL true ignore (inertialToHeliocentric u) = some u')
    (hi : i ≠ h) (two : ∀ j, j = h ∨ j = i) (ho : (u.particles i).disk.effect.isOrbiting = true)
    (hm : ∀ j, (u.particles j).mass ≠ 0)
    {mu : ℝ} (hmu : mu = (u.particles i).massG + (u.particles h).massG) (hmu0 : mu ≠ 0) {x v : ℝ → Axes ℝ} {t : ℝ}
    (hx : x t = (u.particles i).inertialPosition - (u.particles h).inertialPosition)
    (hvel : v t = (u.particles i).inertialVelocity - (u.particles h).inertialVelocity)
    (dx : VecDeriv x (v t) t) (dv : VecDeriv v (-(mu / Real.sqrt ((x t).dot (x t)) ^ 3) • x t
      + ((u'.particles i).disk.acceleration - (u'.particles h).disk.acceleration)) t)
    {a : ℝ} (ha : 0 < a) (distance : Real.sqrt ((x t).dot (x t)) = a) (circular : (v t).dot (v t) = mu / a)
    (across : (x t).dot (v t) = 0) (plane : (v t).z = 0)
    (positive : 0 < (u.particles i).mass / (u.particles h).mass)
    (drift : driftSpeed (gasViscosity k d (u.particles h).mass (u.particles h).massG a) (gasDensity d time a)
      (u.particles i).mass a ≠ 0) :
    ¬ HasDerivAt (fun s => semiMajorAxis mu (x s) (v s))
      (driftSpeed (gasViscosity k d (u.particles h).mass (u.particles h).massG a) (gasDensity d time a)
        (u.particles i).mass a) t := by
  intro hd'
  have e := hd'.unique (C120_circular_partial hok hh cd hd hv hu hi two ho hm hmu hmu0 hx hvel dx dv ha distance circular
    across plane)
  have : (1 + 2 * ((u.particles i).mass / (u.particles h).mass))
      * driftSpeed (gasViscosity k d (u.particles h).mass (u.particles h).massG a) (gasDensity d time a)
        (u.particles i).mass a = 0 := by linarith
  rcases mul_eq_zero.1 this with h0 | h0
  · linarith
  · exact drift h0

end

/-! ## Averages over a revolution in a dense disk -/

section
variable {mu a e : ℝ} {p q : Axes ℝ} {x v : ℝ → Axes ℝ}

/-- Position and velocity by the eccentric anomaly. -/
theorem Ellipse.eccentric (o : Ellipse mu a e p q x v) : ∃ E : ℝ → ℝ, (∀ t, 0 < 1 - e * Real.cos (E t))
    ∧ (∀ t, HasDerivAt E (orbitRate mu a / (1 - e * Real.cos (E t))) t)
    ∧ (∀ t, E (t + 2 * Real.pi / orbitRate mu a) = E t + 2 * Real.pi)
    ∧ (∀ t, x t = (a * (Real.cos (E t) - e)) • p + (a * Real.sqrt (1 - e ^ 2) * Real.sin (E t)) • q)
    ∧ (∀ t, v t = (orbitRate mu a * a / (1 - e * Real.cos (E t)) * -Real.sin (E t)) • p
      + (orbitRate mu a * a / (1 - e * Real.cos (E t)) * (Real.sqrt (1 - e ^ 2) * Real.cos (E t))) • q)
    ∧ ∀ t, Real.sqrt ((x t).dot (x t)) = a * (1 - e * Real.cos (E t)) := by
  obtain ⟨E, hE, hx⟩ := o.place
  have he0 := o.round
  have he1 := o.closed
  have ha := o.size
  have hn := orbitRate_pos o.attracts ha
  have mv := o.moves
  have hw2 : Real.sqrt (1 - e ^ 2) ^ 2 = 1 - e ^ 2 := Real.sq_sqrt (by nlinarith)
  refine ⟨E, fun t => Order.distance_pos he0 he1 (E t), fun t => anomaly_deriv he0 he1 hn.ne' hE t,
    fun t => anomaly_period he0 he1 hn.ne' hE t, hx, fun t => ?_, fun t => ?_⟩
  · have m1 := mv t
    rw [funext hx] at m1
    have dE := anomaly_deriv he0 he1 hn.ne' hE t
    have hD := Order.distance_pos he0 he1 (E t)
    rw [VecDeriv.unique m1 (WHFast.vecDeriv_combination (a := 0) (b := 0) p q
      ((((Real.hasDerivAt_cos (E t)).comp t dE).sub_const e).const_mul a)
      (((Real.hasDerivAt_sin (E t)).comp t dE).const_mul (a * Real.sqrt (1 - e ^ 2))))]
    congr 2
    · field_simp
    · field_simp
  · have hD := Order.distance_pos he0 he1 (E t)
    have h2 : Real.sin (E t) ^ 2 = 1 - Real.cos (E t) ^ 2 := by linarith [Real.sin_sq_add_cos_sq (E t)]
    rw [hx, plane_dot o.pp o.qq o.pq, show a * (Real.cos (E t) - e) * (a * (Real.cos (E t) - e))
      + a * Real.sqrt (1 - e ^ 2) * Real.sin (E t) * (a * Real.sqrt (1 - e ^ 2) * Real.sin (E t))
      = (a * (1 - e * Real.cos (E t))) ^ 2 by linear_combination (a ^ 2 * Real.sin (E t) ^ 2) * hw2 + a ^ 2 * (1 - e ^ 2) * h2,
      Real.sqrt_sq (by positivity)]

/-- The products of position and velocity. -/
theorem Ellipse.products (o : Ellipse mu a e p q x v) {t C S N w : ℝ} (hD : 0 < 1 - e * C) (h2 : S ^ 2 = 1 - C ^ 2)
    (hw2 : w ^ 2 = 1 - e ^ 2) (hx : x t = (a * (C - e)) • p + (a * w * S) • q)
    (hv : v t = (N * a / (1 - e * C) * -S) • p + (N * a / (1 - e * C) * (w * C)) • q) :
    (x t).dot (x t) = (a * (1 - e * C)) ^ 2 ∧ (x t).dot (v t) = N * a ^ 2 * e * S
    ∧ (v t).dot (v t) = N ^ 2 * a ^ 2 * (1 + e * C) / (1 - e * C)
    ∧ (x t).dot p = a * (C - e) ∧ (v t).dot p = -(N * a * S / (1 - e * C))
    ∧ (x t).dot q = a * w * S ∧ (v t).dot q = N * a * w * C / (1 - e * C) := by
  have hD' : 1 - C * e ≠ 0 := by rw [mul_comm]; exact hD.ne'
  refine ⟨?_, ?_, ?_, ?_, ?_, ?_, ?_⟩
  · rw [hx, plane_dot o.pp o.qq o.pq]
    linear_combination (a ^ 2 * S ^ 2) * hw2 + a ^ 2 * (1 - e ^ 2) * h2
  · rw [hx, hv, plane_dot o.pp o.qq o.pq]
    field_simp
    linear_combination (a ^ 2 * N * C * S) * hw2
  · rw [hv, plane_dot o.pp o.qq o.pq]
    field_simp
    linear_combination (N ^ 2 * a ^ 2 * C ^ 2) * hw2 + N ^ 2 * a ^ 2 * h2
  · rw [hx, Axes.add_dot, Axes.smul_dot, Axes.smul_dot, Axes.dot_comm q p, o.pp, o.pq]
    ring
  · rw [hv, Axes.add_dot, Axes.smul_dot, Axes.smul_dot, Axes.dot_comm q p, o.pp, o.pq]
    ring
  · rw [hx, Axes.add_dot, Axes.smul_dot, Axes.smul_dot, o.qq, o.pq]
    ring
  · rw [hv, Axes.add_dot, Axes.smul_dot, Axes.smul_dot, o.qq, o.pq]
    ring

theorem damping_work (o : Ellipse mu a e p q x v) (hz : ∀ t, (v t).z = 0) (K : ℝ) :
    Gain (fun t => (dampingAcceleration (K * Real.sqrt ((x t).dot (x t))) (x t) (v t)).dot (v t))
      (2 * Real.pi / orbitRate mu a) (-(2 * Real.pi / orbitRate mu a) * K * mu * (1 + 19 / 2 * e ^ 2)) := by
  obtain ⟨E, hD, dE, tE, hx, hv, hr⟩ := o.eccentric
  have hn := orbitRate_pos o.attracts o.size
  have hn3 := orbitRate_sq o.attracts o.size
  have ha := o.size
  have hw2 : Real.sqrt (1 - e ^ 2) ^ 2 = 1 - e ^ 2 := Real.sq_sqrt (by nlinarith [o.round, o.closed])
  have key := gain_of_averages (c := -K * mu / orbitRate mu a) dE tE (averages_trig [1 + 20 * e ^ 2, 0, -21 * e ^ 2] [])
    (rate := fun t => (dampingAcceleration (K * Real.sqrt ((x t).dot (x t))) (x t) (v t)).dot (v t)) fun t => ?_
  · refine key.congr (fun _ => rfl) ?_
    simp only [hornerMean, cosMean]
    field_simp
    ring
  · have hDt := hD t
    have h2 : Real.sin (E t) ^ 2 = 1 - Real.cos (E t) ^ 2 := by linarith [Real.sin_sq_add_cos_sq (E t)]
    obtain ⟨hxx, hxv, hvv, -⟩ := o.products hDt h2 hw2 (hx t) (hv t)
    rw [dampingAcceleration_dot, hr, hxx, hxv, hvv, hz]
    simp only [horner]
    generalize orbitRate mu a = N at *
    rw [← hn3]
    generalize Real.cos (E t) = C at *
    generalize Real.sin (E t) = S at *
    have hD' : 1 - C * e ≠ 0 := by rw [mul_comm]; exact hDt.ne'
    field_simp
    ring_nf
    simp only [h2]
    ring

/-- What the damping in the plane of the disk does to the eccentricity vector, by components. -/
theorem damping_eccentricity (mu rate : ℝ) {x v : Axes ℝ} (d : Axes ℝ) (hz : v.z = 0) :
    (eccentricityRate mu x v (dampingAcceleration rate x v)).dot d
      = -(rate / mu) * (2 * (v.dot v * x.dot d - x.dot v * v.dot d)
        + 20 * x.dot v / x.dot x * (x.dot v * x.dot d - x.dot x * v.dot d)) := by
  have e1 : dampingAcceleration rate x v = (-rate) • v + (-(20 * rate * x.dot v / x.dot x)) • x := by
    unfold dampingAcceleration
    rw [hz, show x.norm2 = x.dot x from rfl]
    simp only [mul_zero, zero_smul, neg_smul, sub_eq_add_neg, neg_zero, add_zero]
  have e2 : (eccentricityRate mu x v v).dot d = 2 / mu * (v.dot v * x.dot d - x.dot v * v.dot d) := by
    unfold eccentricityRate
    simp only [Axes.dot, Axes.cross, Axes.smul_x, Axes.smul_y, Axes.smul_z, Axes.add_x, Axes.add_y, Axes.add_z]
    ring
  have e3 : (eccentricityRate mu x v x).dot d = 1 / mu * (x.dot v * x.dot d - x.dot x * v.dot d) := by
    unfold eccentricityRate
    simp only [Axes.dot, Axes.cross, Axes.smul_x, Axes.smul_y, Axes.smul_z, Axes.add_x, Axes.add_y, Axes.add_z]
    ring
  rw [e1, eccentricityRate_add, Axes.add_dot, eccentricityRate_smul, eccentricityRate_smul, Axes.smul_dot, Axes.smul_dot, e2, e3]
  ring

theorem damping_round (o : Ellipse mu a e p q x v) (hz : ∀ t, (v t).z = 0) (K : ℝ) :
    Gain (fun t => (eccentricityRate mu (x t) (v t)
        (dampingAcceleration (K * Real.sqrt ((x t).dot (x t))) (x t) (v t))).dot p)
      (2 * Real.pi / orbitRate mu a) (-(2 * Real.pi / orbitRate mu a) * K * a * (9 * e * (1 - e ^ 2))) := by
  obtain ⟨E, hD, dE, tE, hx, hv, hr⟩ := o.eccentric
  have hn := orbitRate_pos o.attracts o.size
  have hn3 := orbitRate_sq o.attracts o.size
  have ha := o.size
  have hmu := o.attracts
  have hw2 : Real.sqrt (1 - e ^ 2) ^ 2 = 1 - e ^ 2 := Real.sq_sqrt (by nlinarith [o.round, o.closed])
  have key := gain_of_averages (c := -K * a * (1 - e ^ 2) / orbitRate mu a) dE tE (averages_trig [20 * e, 2, -22 * e] [])
    (rate := fun t => (eccentricityRate mu (x t) (v t)
      (dampingAcceleration (K * Real.sqrt ((x t).dot (x t))) (x t) (v t))).dot p) fun t => ?_
  · refine key.congr (fun _ => rfl) ?_
    simp only [hornerMean, cosMean]
    field_simp
    ring
  · have hDt := hD t
    have h2 : Real.sin (E t) ^ 2 = 1 - Real.cos (E t) ^ 2 := by linarith [Real.sin_sq_add_cos_sq (E t)]
    obtain ⟨hxx, hxv, hvv, hxp, hvp, -⟩ := o.products hDt h2 hw2 (hx t) (hv t)
    rw [damping_eccentricity _ _ _ (hz t), hr, hxx, hxv, hvv, hxp, hvp]
    simp only [horner]
    generalize orbitRate mu a = N at *
    rw [← hn3]
    generalize Real.cos (E t) = C at *
    generalize Real.sin (E t) = S at *
    have hD' : 1 - C * e ≠ 0 := by rw [mul_comm]; exact hDt.ne'
    field_simp
    ring_nf
    simp only [h2]
    ring

theorem damping_apsides (o : Ellipse mu a e p q x v) (hz : ∀ t, (v t).z = 0) (K : ℝ) :
    Gain (fun t => (eccentricityRate mu (x t) (v t)
        (dampingAcceleration (K * Real.sqrt ((x t).dot (x t))) (x t) (v t))).dot q)
      (2 * Real.pi / orbitRate mu a) 0 := by
  obtain ⟨E, hD, dE, tE, hx, hv, hr⟩ := o.eccentric
  have hn := orbitRate_pos o.attracts o.size
  have hn3 := orbitRate_sq o.attracts o.size
  have ha := o.size
  have hmu := o.attracts
  have hw2 : Real.sqrt (1 - e ^ 2) ^ 2 = 1 - e ^ 2 := Real.sq_sqrt (by nlinarith [o.round, o.closed])
  have key := gain_of_averages (c := -K * a * Real.sqrt (1 - e ^ 2) / orbitRate mu a) dE tE
    (averages_trig [] [2 + 20 * e ^ 2, -22 * e])
    (rate := fun t => (eccentricityRate mu (x t) (v t)
      (dampingAcceleration (K * Real.sqrt ((x t).dot (x t))) (x t) (v t))).dot q) fun t => ?_
  · refine key.congr (fun _ => rfl) ?_
    simp only [hornerMean]
    ring
  · have hDt := hD t
    have h2 : Real.sin (E t) ^ 2 = 1 - Real.cos (E t) ^ 2 := by linarith [Real.sin_sq_add_cos_sq (E t)]
    have h3 : Real.sin (E t) ^ 3 = Real.sin (E t) * (1 - Real.cos (E t) ^ 2) := by rw [← h2]; ring
    obtain ⟨hxx, hxv, hvv, -, -, hxq, hvq⟩ := o.products hDt h2 hw2 (hx t) (hv t)
    rw [damping_eccentricity _ _ _ (hz t), hr, hxx, hxv, hvv, hxq, hvq]
    simp only [horner]
    generalize orbitRate mu a = N at *
    rw [← hn3]
    generalize Real.cos (E t) = C at *
    generalize Real.sin (E t) = S at *
    have hD' : 1 - C * e ≠ 0 := by rw [mul_comm]; exact hDt.ne'
    field_simp
    ring_nf
    simp only [h3]
    ring

end

/-- Host `h` and its only companion `i` run along a Kepler ellipse in the plane of a disk with the age `time`, while the effects
are evaluated; there is so much gas that the companion drifts with it. -/
structure DiskOrbit (k : Consts ℝ) (m : Models ℝ) (eps2 time : ℝ) (evolution dL : Bool) (ignore : Ignore)
    (u u' : ℝ → Universe ℝ n) (h i : Fin n) (d : DiskProperties ℝ) (a e : ℝ) (p q : Axes ℝ) (M Mg mi mg : ℝ) : Prop where
  other : i ≠ h
  two : ∀ j, j = h ∨ j = i
  hosts : ∀ t, DiskHostOk (u t)
  host : ∀ t, (u t).hosts.disk = some h
  considered : ∀ t, (u t).consider.disk = true
  central : ∀ t, ((u t).particles h).disk.effect = .central d
  orbiting : ∀ t, ((u t).particles i).disk.effect.isOrbiting = true
  rest : ∀ t, ((u t).particles (u t).hosts.mostMassive).heliocentricVelocity = 0
  evaluated : ∀ t, calculateAdditionalEffects k m eps2 time evolution dL true ignore (inertialToHeliocentric (u t)) = some (u' t)
  hostMass : ∀ t, ((u t).particles h).mass = M
  hostMassG : ∀ t, ((u t).particles h).massG = Mg
  companionMass : ∀ t, ((u t).particles i).mass = mi
  companionMassG : ∀ t, ((u t).particles i).massG = mg
  heavy : M ≠ 0
  massive : mi ≠ 0
  orbit : Ellipse (mg + Mg) a e p q (fun t => ((u t).particles i).inertialPosition - ((u t).particles h).inertialPosition)
    (fun t => ((u t).particles i).inertialVelocity - ((u t).particles h).inertialVelocity)
  plane : ∀ t, (((u t).particles i).inertialVelocity - ((u t).particles h).inertialVelocity).z = 0
  dense : ∀ r, a * (1 - e) ≤ r → r ≤ a * (1 + e) → 1 ≤ 2 * gasDensity d time r * a ^ 2 / mi

section
variable {k : Consts ℝ} {m : Models ℝ} {eps2 time : ℝ} {evolution dL : Bool} {ignore : Ignore}
  {u u' : ℝ → Universe ℝ n} {h i : Fin n} {d : DiskProperties ℝ} {a e : ℝ} {p q : Axes ℝ} {M Mg mi mg : ℝ}

/-- The acceleration along the orbit. -/
theorem DiskOrbit.relative (o : DiskOrbit k m eps2 time evolution dL ignore u u' h i d a e p q M Mg mi mg) (t : ℝ) :
    ((u' t).particles i).disk.acceleration - ((u' t).particles h).disk.acceleration
      = (1 + mi / M) • dampingAcceleration (3 / 2 * gasViscosity k d M Mg a / a ^ 3
          * Real.sqrt ((((u t).particles i).inertialPosition - ((u t).particles h).inertialPosition).dot
            (((u t).particles i).inertialPosition - ((u t).particles h).inertialPosition)))
        (((u t).particles i).inertialPosition - ((u t).particles h).inertialPosition)
        (((u t).particles i).inertialVelocity - ((u t).particles h).inertialVelocity) := by
  have hm : ∀ j, ((u t).particles j).mass ≠ 0 := by
    intro j
    rcases o.two j with e | e
    · rw [e, o.hostMass]; exact o.heavy
    · rw [e, o.companionMass]; exact o.massive
  have hmu := o.orbit.attracts
  have ha := o.orbit.size
  have h1 := disk_relative (o.hosts t) (o.host t) (o.considered t) (o.central t) (o.rest t) (o.evaluated t) o.other o.two
    (o.orbiting t) hm (sub_ne_zero.1 (o.orbit.apart t)) (by rw [o.companionMassG, o.hostMassG]; exact hmu.ne')
  rw [o.companionMassG, o.hostMassG, o.companionMass, o.hostMass] at h1
  dsimp only at h1
  rw [h1]
  obtain ⟨E, hD, -, -, hx, hv, hr⟩ := o.orbit.eccentric
  have hDt := hD t
  have h2 : Real.sin (E t) ^ 2 = 1 - Real.cos (E t) ^ 2 := by linarith [Real.sin_sq_add_cos_sq (E t)]
  have hw2 : Real.sqrt (1 - e ^ 2) ^ 2 = 1 - e ^ 2 := Real.sq_sqrt (by nlinarith [o.orbit.round, o.orbit.closed])
  obtain ⟨-, -, hvv, -⟩ := o.orbit.products hDt h2 hw2 (hx t) (hv t)
  have hn3 := orbitRate_sq hmu ha
  have hrt := hr t
  have hc0 := Real.neg_one_le_cos (E t)
  have hc1 := Real.cos_le_one (E t)
  have hsma : semiMajorAxis (mg + Mg) (((u t).particles i).inertialPosition - ((u t).particles h).inertialPosition)
      (((u t).particles i).inertialVelocity - ((u t).particles h).inertialVelocity) = a := by
    unfold semiMajorAxis
    rw [hrt, hvv]
    generalize orbitRate (mg + Mg) a = N at *
    rw [← hn3] at hmu ⊢
    have hN : N ≠ 0 := fun h0 => by rw [h0] at hmu; simp at hmu
    have hD' : 1 - Real.cos (E t) * e ≠ 0 := by rw [mul_comm]; exact hDt.ne'
    rw [show 2 / (a * (1 - e * Real.cos (E t)))
      - N ^ 2 * a ^ 2 * (1 + e * Real.cos (E t)) / (1 - e * Real.cos (E t)) / (N ^ 2 * a ^ 3) = 1 / a by
        field_simp; ring, one_div_one_div]
  rw [hsma, hrt]
  congr 2
  unfold migrationRate
  have he0 := o.orbit.round
  rw [min_eq_left (o.dense _ (by nlinarith [mul_nonneg he0 (sub_nonneg.2 hc1)])
      (by nlinarith [mul_nonneg he0 (by linarith : 0 ≤ Real.cos (E t) + 1)])),
    gasViscosity_scale k d M Mg (by positivity : 0 < a * (1 - e * Real.cos (E t))) ha]
  field_simp

/-- **C120**: the energy of the orbit, for unit reduced mass, that a dense disk takes in a revolution: the semi-major axis
shrinks by `2 (1 + m / M) (1 + 19/2 e^2)` times the drift of the gas. -/
theorem C120_work_partial (o : DiskOrbit k m eps2 time evolution dL ignore u u' h i d a e p q M Mg mi mg) :
    Gain (fun t => (((u' t).particles i).disk.acceleration - ((u' t).particles h).disk.acceleration).dot
        (((u t).particles i).inertialVelocity - ((u t).particles h).inertialVelocity))
      (2 * Real.pi / orbitRate (mg + Mg) a)
      ((mg + Mg) / (2 * a ^ 2) * (2 * (1 + mi / M) * (1 + 19 / 2 * e ^ 2)
        * (driftSpeed (gasViscosity k d M Mg a) (gasDensity d time a) mi a * (2 * Real.pi / orbitRate (mg + Mg) a)))) := by
  refine ((damping_work o.orbit o.plane (3 / 2 * gasViscosity k d M Mg a / a ^ 3)).const_mul (1 + mi / M)).congr
    (fun t => ?_) ?_
  · rw [o.relative, Axes.smul_dot]
  · have ha := o.orbit.size
    have he := o.orbit.round
    unfold driftSpeed
    rw [min_eq_left (o.dense a (by nlinarith) (by nlinarith))]
    field_simp

/-- **C120**: a dense disk lets the eccentricity decay at `9 (1 - e^2) (1 + m / M)` times the rate of the drift ... -/
theorem C120_eccentricity_partial (o : DiskOrbit k m eps2 time evolution dL ignore u u' h i d a e p q M Mg mi mg) :
    Gain (fun t => (eccentricityRate (mg + Mg) (((u t).particles i).inertialPosition - ((u t).particles h).inertialPosition)
        (((u t).particles i).inertialVelocity - ((u t).particles h).inertialVelocity)
        (((u' t).particles i).disk.acceleration - ((u' t).particles h).disk.acceleration)).dot p)
      (2 * Real.pi / orbitRate (mg + Mg) a)
      (9 * (1 - e ^ 2) * (1 + mi / M) * e
        * (driftSpeed (gasViscosity k d M Mg a) (gasDensity d time a) mi a / a * (2 * Real.pi / orbitRate (mg + Mg) a))) := by
  refine ((damping_round o.orbit o.plane (3 / 2 * gasViscosity k d M Mg a / a ^ 3)).const_mul (1 + mi / M)).congr
    (fun t => ?_) ?_
  · rw [o.relative, eccentricityRate_smul, Axes.smul_dot]
  · have ha := o.orbit.size
    have he := o.orbit.round
    unfold driftSpeed
    rw [min_eq_left (o.dense a (by nlinarith) (by nlinarith))]
    field_simp

/-- **C120**: ... and does not turn the pericentre. -/
theorem C120_pericentre_partial (o : DiskOrbit k m eps2 time evolution dL ignore u u' h i d a e p q M Mg mi mg) :
    Gain (fun t => (eccentricityRate (mg + Mg) (((u t).particles i).inertialPosition - ((u t).particles h).inertialPosition)
        (((u t).particles i).inertialVelocity - ((u t).particles h).inertialVelocity)
        (((u' t).particles i).disk.acceleration - ((u' t).particles h).disk.acceleration)).dot q)
      (2 * Real.pi / orbitRate (mg + Mg) a) 0 := by
  refine ((damping_apsides o.orbit o.plane (3 / 2 * gasViscosity k d M Mg a / a ^ 3)).const_mul (1 + mi / M)).congr
    (fun t => ?_) (by ring)
  rw [o.relative, eccentricityRate_smul, Axes.smul_dot]

end

/-! ## Example -/

/-- A star with a disk, and a planet on an ellipse of the eccentricity `e`; `E` is the eccentric anomaly. -/
noncomputable def driftUniverse (e E : ℝ) : Universe ℝ 2 :=
  { diskUniverse 1 with
    particles := fun i => if i = 0 then
        { blank ℝ with mass := 1, massG := 1 / 2, momentOfInertia := 1,
                       disk := { (blank ℝ).disk with effect := .central ⟨1 / 10, 16, 1000, 1, 100, 1⟩ } }
      else
        { blank ℝ with id := 1, mass := 1, massG := 1 / 2, momentOfInertia := 1,
                       inertialPosition := (Real.cos E - e) • ⟨1, 0, 0⟩ + (Real.sqrt (1 - e ^ 2) * Real.sin E) • ⟨0, 1, 0⟩
                       inertialVelocity := (-Real.sin E * (1 / (1 - e * Real.cos E))) • ⟨1, 0, 0⟩
                         + (Real.sqrt (1 - e ^ 2) * (Real.cos E * (1 / (1 - e * Real.cos E)))) • ⟨0, 1, 0⟩
                       disk := { (blank ℝ).disk with effect := .orbiting } } }

theorem driftUniverse_ok (e E : ℝ) : DiskHostOk (driftUniverse e E) := by
  constructor <;> simp [driftUniverse, diskUniverse]

theorem driftUniverse_mass (e E : ℝ) (j : Fin 2) : ((driftUniverse e E).particles j).mass ≠ 0 := by
  by_cases hj : j = 0 <;> simp [driftUniverse, hj]

theorem driftUniverse_defined (k : Consts ℝ) (m : Models ℝ) (e E : ℝ) :
    ∃ u', calculateAdditionalEffects k m 0 0 false true true .none (inertialToHeliocentric (driftUniverse e E)) = some u' := by
  have hh : HasHosts (inertialToHeliocentric (driftUniverse e E)) := by
    constructor <;> simp [inertialToHeliocentric, driftUniverse, diskUniverse]
  have hn := (additionalEffects_none (k := k) (m := m) (eps2 := 0) (time := 0) (evolution := false)
    (dL := true) (acc := true) (ignore := .none) hh rfl).not
  refine Option.ne_none_iff_exists'.1 (hn.2 ?_)
  rintro ⟨j, hj⟩
  have hI : ((inertialToHeliocentric (driftUniverse e E)).particles j).momentOfInertia = 1 := by
    by_cases hi : j = 0 <;>
      simp [inertialToHeliocentric, driftUniverse, diskUniverse, mapHost, mapOthers, hi, toHeliocentric, zeroHeliocentric]
  rw [hI] at hj
  simp at hj

theorem driftUniverse_position (e E : ℝ) :
    ((driftUniverse e E).particles 1).inertialPosition - ((driftUniverse e E).particles 0).inertialPosition
      = (Real.cos E - e) • (⟨1, 0, 0⟩ : Axes ℝ) + (Real.sqrt (1 - e ^ 2) * Real.sin E) • ⟨0, 1, 0⟩ := by
  ext <;> simp [driftUniverse, blank]

theorem driftUniverse_velocity (e E : ℝ) :
    ((driftUniverse e E).particles 1).inertialVelocity - ((driftUniverse e E).particles 0).inertialVelocity
      = (-Real.sin E * (1 / (1 - e * Real.cos E))) • (⟨1, 0, 0⟩ : Axes ℝ)
        + (Real.sqrt (1 - e ^ 2) * (Real.cos E * (1 / (1 - e * Real.cos E)))) • ⟨0, 1, 0⟩ := by
  ext <;> simp [driftUniverse, blank]

/-- There is more gas than the mass of the planet within reach. -/
theorem driftUniverse_dense {r : ℝ} (h1 : 2 / 5 ≤ r) (h2 : r ≤ 8 / 5) :
    1 ≤ 2 * gasDensity ⟨1 / 10, 16, 1000, 1, 100, 1⟩ 0 r * 1 ^ 2 / 1 := by
  unfold gasDensity
  rw [if_pos (by linarith : (1 / 10 : ℝ) < r)]
  dsimp only
  have hr : 0 < r := by linarith
  have e1 : 9 / 10 ≤ Real.exp (-(r / 16)) := le_trans (by linarith) (Real.add_one_le_exp _)
  have e2 : Real.sqrt (1 / 10 / r) ≤ 1 / 2 := by
    rw [Real.sqrt_le_left (by norm_num), div_le_iff₀ hr]
    linarith
  have e3 : 100 / (8 / 5) ≤ 100 / r := div_le_div_of_nonneg_left (by norm_num) hr h2
  rw [zero_div, neg_zero, Real.exp_zero]
  have e4 : 100 / (8 / 5) * (9 / 10) ≤ 100 / r * Real.exp (-(r / 16)) := mul_le_mul e3 e1 (by norm_num) (by positivity)
  have e5 : 100 / (8 / 5) * (9 / 10) * (1 / 2) ≤ 100 / r * Real.exp (-(r / 16)) * (1 - Real.sqrt (1 / 10 / r)) :=
    mul_le_mul e4 (by linarith) (by norm_num) (by positivity)
  linarith

theorem driftUniverse_orbit (k : Consts ℝ) (m : Models ℝ) : ∃ (E : ℝ → ℝ) (u' : ℝ → Universe ℝ 2),
    DiskOrbit k m 0 0 false true .none (fun t => driftUniverse (3 / 5) (E t)) u' 0 1 ⟨1 / 10, 16, 1000, 1, 100, 1⟩ 1 (3 / 5)
      ⟨1, 0, 0⟩ ⟨0, 1, 0⟩ 1 (1 / 2) 1 (1 / 2) := by
  obtain ⟨E, hE⟩ := anomaly_exists (e := 3 / 5) (by norm_num) 1
  have hd := fun t => driftUniverse_defined k m (3 / 5) (E t)
  choose u' hu using hd
  exact ⟨E, u', {
    other := by decide
    two := by decide
    hosts := fun t => driftUniverse_ok _ _
    host := fun t => rfl
    considered := fun t => rfl
    central := fun t => rfl
    orbiting := fun t => rfl
    rest := fun t => by simp [driftUniverse, diskUniverse, blank]
    evaluated := hu
    hostMass := fun t => rfl
    hostMassG := fun t => rfl
    companionMass := fun t => rfl
    companionMassG := fun t => rfl
    heavy := one_ne_zero
    massive := one_ne_zero
    plane := fun t => by rw [driftUniverse_velocity]; simp
    dense := fun r h1 h2 => driftUniverse_dense (by linarith) (by linarith)
    orbit := {
      attracts := by norm_num
      size := one_pos
      round := by norm_num
      closed := by norm_num
      pp := by simp [Axes.dot]
      qq := by simp [Axes.dot]
      pq := by simp [Axes.dot]
      place := ⟨E, by rw [show (1 / 2 + 1 / 2 : ℝ) = 1 by norm_num, orbitRate_one]; exact hE,
        fun t => by rw [driftUniverse_position]; simp⟩
      moves := fun t => by
        have dE := anomaly_deriv (e := 3 / 5) (by norm_num) (by norm_num) one_ne_zero hE t
        have hv := WHFast.vecDeriv_combination (a := 0) (b := 0) ⟨1, 0, 0⟩ ⟨0, 1, 0⟩
          (((Real.hasDerivAt_cos (E t)).comp t dE).sub_const (3 / 5))
          (((Real.hasDerivAt_sin (E t)).comp t dE).const_mul (Real.sqrt (1 - (3 / 5) ^ 2)))
        rw [show (fun t => ((driftUniverse (3 / 5) (E t)).particles 1).inertialPosition
          - ((driftUniverse (3 / 5) (E t)).particles 0).inertialPosition) = _ from funext fun t => driftUniverse_position _ _,
          driftUniverse_velocity]
        exact hv } }⟩

/-- A planet on an eccentric orbit loses energy and eccentricity. -/
example (k : Consts ℝ) (m : Models ℝ) (hk : 0 < k.boltzmann) (hh : 0 < k.massHydrogen) :
    ∃ (E : ℝ → ℝ) (u' : ℝ → Universe ℝ 2) (W X : ℝ),
    (∀ t, calculateAdditionalEffects k m 0 0 false true true .none (inertialToHeliocentric (driftUniverse (3 / 5) (E t)))
      = some (u' t))
    ∧ Gain (fun t => (((u' t).particles 1).disk.acceleration - ((u' t).particles 0).disk.acceleration).dot
        (((driftUniverse (3 / 5) (E t)).particles 1).inertialVelocity
          - ((driftUniverse (3 / 5) (E t)).particles 0).inertialVelocity)) (2 * Real.pi / orbitRate (1 / 2 + 1 / 2) 1) W ∧ W < 0
    ∧ Gain (fun t => (eccentricityRate (1 / 2 + 1 / 2) (((driftUniverse (3 / 5) (E t)).particles 1).inertialPosition
          - ((driftUniverse (3 / 5) (E t)).particles 0).inertialPosition)
        (((driftUniverse (3 / 5) (E t)).particles 1).inertialVelocity
          - ((driftUniverse (3 / 5) (E t)).particles 0).inertialVelocity)
        (((u' t).particles 1).disk.acceleration - ((u' t).particles 0).disk.acceleration)).dot ⟨1, 0, 0⟩)
        (2 * Real.pi / orbitRate (1 / 2 + 1 / 2) 1) X ∧ X < 0 := by
  obtain ⟨E, u', o⟩ := driftUniverse_orbit k m
  have hT : 0 < 2 * Real.pi / orbitRate (1 / 2 + 1 / 2) 1 :=
    div_pos (by positivity) (orbitRate_pos (by norm_num) one_pos)
  have hd : driftSpeed (gasViscosity k ⟨1 / 10, 16, 1000, 1, 100, 1⟩ 1 (1 / 2) 1)
      (gasDensity ⟨1 / 10, 16, 1000, 1, 100, 1⟩ 0 1) 1 1 < 0 := by
    have hv : 0 < gasViscosity k ⟨1 / 10, 16, 1000, 1, 100, 1⟩ 1 (1 / 2) 1 := by
      unfold gasViscosity
      simp only [Real.one_rpow]
      positivity
    unfold driftSpeed
    rw [min_eq_left (driftUniverse_dense (by norm_num) (by norm_num))]
    linarith
  refine ⟨E, u', _, _, o.evaluated, C120_work_partial o, ?_, C120_eccentricity_partial o, ?_⟩
  · have := mul_neg_of_neg_of_pos hd hT
    norm_num at this ⊢
    linarith
  · have := mul_neg_of_neg_of_pos hd hT
    norm_num at this ⊢
    linarith

/-- A planet as heavy as the star on a circular orbit migrates four times as fast as the gas. -/
example (k : Consts ℝ) (m : Models ℝ) : ∃ (u' : Universe ℝ 2) (x v : ℝ → Axes ℝ),
    calculateAdditionalEffects k m 0 0 false true true .none (inertialToHeliocentric (driftUniverse 0 0)) = some u'
    ∧ x 0 = ((driftUniverse 0 0).particles 1).inertialPosition - ((driftUniverse 0 0).particles 0).inertialPosition
    ∧ HasDerivAt (fun s => semiMajorAxis 1 (x s) (v s))
      (4 * driftSpeed (gasViscosity k ⟨1 / 10, 16, 1000, 1, 100, 1⟩ 1 (1 / 2) 1)
        (gasDensity ⟨1 / 10, 16, 1000, 1, 100, 1⟩ 0 1) 1 1) 0 := by
  obtain ⟨u', hu⟩ := driftUniverse_defined k m 0 0
  have hx : ((driftUniverse 0 0).particles 1).inertialPosition - ((driftUniverse 0 0).particles 0).inertialPosition
      = (⟨1, 0, 0⟩ : Axes ℝ) := by rw [driftUniverse_position]; ext <;> simp
  have hv : ((driftUniverse 0 0).particles 1).inertialVelocity - ((driftUniverse 0 0).particles 0).inertialVelocity
      = (⟨0, 1, 0⟩ : Axes ℝ) := by rw [driftUniverse_velocity]; ext <;> simp
  have line : ∀ c d : Axes ℝ, VecDeriv (fun s => c + s • d) d 0 := fun c d =>
    ⟨by simpa using ((hasDerivAt_id (0 : ℝ)).mul_const d.x).const_add c.x,
      by simpa using ((hasDerivAt_id (0 : ℝ)).mul_const d.y).const_add c.y,
      by simpa using ((hasDerivAt_id (0 : ℝ)).mul_const d.z).const_add c.z⟩
  refine ⟨u', fun s => ⟨1, 0, 0⟩ + s • ⟨0, 1, 0⟩, fun s => ⟨0, 1, 0⟩ + s • (-(1 / Real.sqrt 1 ^ 3) • ⟨1, 0, 0⟩
    + ((u'.particles 1).disk.acceleration - (u'.particles 0).disk.acceleration)), hu, ?_, ?_⟩
  · rw [hx]; simp
  · have key := C120_circular_partial (driftUniverse_ok 0 0) rfl rfl rfl (by simp [driftUniverse, diskUniverse, blank]) hu
      (i := 1) (h := 0) (by decide) (by decide) rfl (driftUniverse_mass 0 0) (mu := 1) (by simp [driftUniverse]; norm_num) one_ne_zero
      (x := fun s => ⟨1, 0, 0⟩ + s • ⟨0, 1, 0⟩) (v := fun s => ⟨0, 1, 0⟩ + s • (-(1 / Real.sqrt 1 ^ 3) • ⟨1, 0, 0⟩
        + ((u'.particles 1).disk.acceleration - (u'.particles 0).disk.acceleration))) (t := 0)
      (by rw [hx]; simp) (by rw [hv]; simp) (by simpa using line ⟨1, 0, 0⟩ ⟨0, 1, 0⟩)
      (by
        simp only [zero_smul, add_zero]
        rw [show (⟨1, 0, 0⟩ : Axes ℝ).dot ⟨1, 0, 0⟩ = 1 by simp [Axes.dot]]
        exact line _ _) one_pos
      (by simp [Axes.dot]) (by simp [Axes.dot]) (by simp [Axes.dot]) (by simp)
    refine key.congr_deriv ?_
    simp [driftUniverse]
    norm_num

end Posidonius.Univ
