import Verif.Spec.TidalEnergy
import Verif.Props.TidalForce

/-! # C105 The energy that tides take out of orbits and rotations -/

namespace Posidonius.Univ
open Finset
open Gravity (Ignore)

/-- The energy stored in a tide changes as the conservative part of the force says. -/
theorem storedEnergy_deriv (G m R love : ℝ) (r v : Axes ℝ) (hr : 0 < r.dot r) :
    HasDerivAt (fun s : ℝ => storedEnergy G m R love (r + s • v))
      (3 * G * m ^ 2 * R ^ 5 * love / Real.sqrt (r.dot r) ^ 8 * r.dot v) 0 := by
  have hn : HasDerivAt (fun x : ℝ => r.dot r + x * (2 * r.dot v) + x ^ 2 * v.dot v) (2 * r.dot v) 0 := by
    have h1 : HasDerivAt (fun x : ℝ => r.dot r + x * (2 * r.dot v) + x ^ 2 * v.dot v)
        (0 + 1 * (2 * r.dot v) + (2 * (0 : ℝ) ^ 1 * 1) * v.dot v) 0 := by
      refine ((hasDerivAt_const 0 _).add ((hasDerivAt_id (0 : ℝ)).mul_const _)).add ?_
      exact ((hasDerivAt_id (0 : ℝ)).pow 2).mul_const _
    exact h1.congr_deriv (by ring)
  have e : ∀ x : ℝ, (r + x • v).dot (r + x • v) = r.dot r + x * (2 * r.dot v) + x ^ 2 * v.dot v := by
    intro x
    simp [Axes.dot]
    ring
  have h0 : (fun x : ℝ => r.dot r + x * (2 * r.dot v) + x ^ 2 * v.dot v) 0 ≠ 0 := by simpa using hr.ne'
  have hc := ((hn.fun_pow 3).inv (pow_ne_zero 3 h0)).const_mul (-(G * m ^ 2 * R ^ 5 * love) / 2)
  have hpos : ∀ᶠ x in nhds (0 : ℝ), 0 < r.dot r + x * (2 * r.dot v) + x ^ 2 * v.dot v := by
    refine hn.continuousAt.eventually (lt_mem_nhds ?_)
    simpa using hr
  refine (hc.congr_of_eventuallyEq ?_).congr_deriv ?_
  · filter_upwards [hpos] with x hx
    unfold storedEnergy quadrupoleEnergy
    rw [e, Pi.inv_apply]
    generalize r.dot r + x * (2 * r.dot v) + x ^ 2 * v.dot v = y at hx
    have hy : Real.sqrt y ^ 2 = y := Real.sq_sqrt hx.le
    have hs : 0 < Real.sqrt y := Real.sqrt_pos.2 hx
    generalize Real.sqrt y = d at hy hs
    subst hy
    field_simp
    ring
  · have hy : Real.sqrt (r.dot r) ^ 2 = r.dot r := Real.sq_sqrt hr.le
    have hs : 0 < Real.sqrt (r.dot r) := Real.sqrt_pos.2 hr
    generalize Real.sqrt (r.dot r) = d at hy hs
    simp only [zero_mul, add_zero, ne_eq, OfNat.ofNat_ne_zero, not_false_eq_true, zero_pow]
    rw [← hy]
    field_simp
    norm_num
    ring

/-- The power of the force of a tide and of the opposite torque on the rotating body. -/
theorem weakFriction_power {G m R love sigma : ℝ} {spin r v f : Axes ℝ} (hG : G ≠ 0) (hr : 0 < r.dot r)
    (hf : WeakFriction G m R love sigma spin r v f) :
    v.dot f - spin.dot (r.cross f) = -(3 * G * m ^ 2 * R ^ 5 * love / Real.sqrt (r.dot r) ^ 8 * r.dot v)
      - tidalHeat m R sigma spin r v := by
  rw [C92_definition _ _ _ _ _ _ _ _ _ hG hr] at hf
  have hy : Real.sqrt (r.dot r) ^ 2 = r.dot r := Real.sq_sqrt hr.le
  have hs : 0 < Real.sqrt (r.dot r) := Real.sqrt_pos.2 hr
  unfold tidalHeat
  rw [hf]
  generalize Real.sqrt (r.dot r) = d at hy hs
  rw [← hy]
  simp only [Axes.dot, Axes.cross, Axes.add_x, Axes.add_y, Axes.add_z, Axes.sub_x, Axes.sub_y, Axes.sub_z, Axes.smul_x,
    Axes.smul_y, Axes.smul_z] at *
  field_simp
  ring

theorem dot_sum {ι : Type} (a : Axes ℝ) (s : Finset ι) (f : ι → Axes ℝ) : a.dot (∑ i ∈ s, f i) = ∑ i ∈ s, a.dot (f i) :=
  map_sum (⟨⟨a.dot, Axes.dot_zero a⟩, Axes.dot_add a⟩ : Axes ℝ →+ ℝ) f s

theorem cross_sum {ι : Type} (a : Axes ℝ) (s : Finset ι) (f : ι → Axes ℝ) : a.cross (∑ i ∈ s, f i) = ∑ i ∈ s, a.cross (f i) :=
  map_sum (⟨⟨a.cross, Axes.cross_zero a⟩, Axes.cross_add a⟩ : Axes ℝ →+ Axes ℝ) f s

section
variable {n : Nat} {k : Consts ℝ} {m : Models ℝ} {eps2 time : ℝ} {evolution : Bool} {ignore : Ignore}
  {u u' : Universe ℝ n} {h : Fin n}

/-- The tide in a companion exerts the opposite torque on it. -/
theorem companion_torque {G M R love sigma d : ℝ} {spin r v f : Axes ℝ} {host p : Particle ℝ} (hG : G ≠ 0) (hr : 0 < r.dot r)
    (hf : WeakFriction G M R love sigma spin r v f) (h1 : p.spin = spin) (h2 : p.tides.rDotPlanetarySpin = r.dot spin)
    (hd : d = Real.sqrt (r.dot r)) (h3 : p.tides.orthogonalPlanetary = 9 / 2 * M ^ 2 * R ^ 10 * sigma / d ^ 7)
    (h4 : p.tides.distance = d) (h5 : p.tides.position = r) (h6 : p.tides.velocity = v) :
    -ctlTorque host p false = -r.cross f := by
  rw [C92_definition _ _ _ _ _ _ _ _ _ hG hr] at hf
  have hy : Real.sqrt (r.dot r) ^ 2 = r.dot r := Real.sq_sqrt hr.le
  have hs : 0 < Real.sqrt (r.dot r) := Real.sqrt_pos.2 hr
  rw [hf]
  unfold ctlTorque
  simp only [Bool.false_eq_true, if_false, h1, h2, h3, h4, h5, h6]
  subst hd
  generalize Real.sqrt (r.dot r) = d at hy hs
  have hy' : d ^ 2 = r.x * r.x + r.y * r.y + r.z * r.z := hy
  congr 1
  ext
  · simp [Axes.dot, Axes.sdiv]
    field_simp
    linear_combination (spin.x * sigma * M ^ 2 * R ^ 10 * 9) * hy'
  · simp [Axes.dot, Axes.sdiv]
    field_simp
    linear_combination (spin.y * sigma * M ^ 2 * R ^ 10 * 9) * hy'
  · simp [Axes.dot, Axes.sdiv]
    field_simp
    linear_combination (spin.z * sigma * M ^ 2 * R ^ 10 * 9) * hy'

/-- **C105**: the power of the tidal forces and torques is the loss of the energy stored in the tides minus the heat in
the companions, which is the heat the code reports, and minus the heat in the host. -/
theorem C105_balance (hok : HostsOk u) (hh : u.hosts.tides = some h)
    (ct : u.consider.tides = true) (hc : AllCtl h u.particles) (hm : ∀ i, (u.particles i).mass ≠ 0)
    (hsep : ∀ i, i ≠ h → (u.particles i).inertialPosition ≠ (u.particles h).inertialPosition)
    (he : (evolution && u.consider.evolution) = false)
    (hs : ∀ i, (u.particles i).momentOfInertia • (u.particles i).spin = (u.particles i).angularMomentum)
    (hu : calculateAdditionalEffects k m eps2 time evolution true true ignore (inertialToHeliocentric u)
      = some u') (hg : k.g ≠ 0) {love : Fin n → ℝ}
    (eh : ∃ a b, (u.particles h).tides.effect = .central (.constantTimeLag a b (love h)))
    (ei : ∀ i, i ≠ h → ∃ a b, (u.particles i).tides.effect = .orbiting (.constantTimeLag a b (love i)))
    (nd : ∀ i, (u.particles i).evolution ∉ dynamicalTideModels) :
    let r (i : Fin n) := (u.particles i).inertialPosition - (u.particles h).inertialPosition
    let v (i : Fin n) := (u.particles i).inertialVelocity - (u.particles h).inertialVelocity
    ∃ rate, HasDerivAt (fun s : ℝ => ∑ i ∈ univ.erase h,
        (storedEnergy k.g (u.particles i).mass (u.particles h).radius (love h) (r i + s • v i)
          + storedEnergy k.g (u.particles h).mass (u.particles i).radius (love i) (r i + s • v i))) rate 0
      ∧ ∑ i, ((u.particles i).mass * (u.particles i).inertialVelocity.dot (u'.particles i).tides.acceleration
          + (u.particles i).spin.dot (u'.particles i).tides.dAngularMomentumDt)
        = -rate - ∑ i ∈ univ.erase h, (denergyDt (u'.particles i)
          + tidalHeat (u.particles i).mass (u.particles h).radius (u.particles h).tides.scaledDissipationFactor
            (u.particles h).spin (r i) (v i))
      ∧ ∀ i, i ≠ h → denergyDt (u'.particles i)
        = tidalHeat (u.particles h).mass (u.particles i).radius (u.particles i).tides.scaledDissipationFactor
          (u.particles i).spin (r i) (v i) := by
  intro r v
  obtain ⟨-, g, s, mom, a⟩ := effects_balance hok hh ct hc hm hsep hu
  have ang := C34_partial hok hh ct hc hm hsep he hs hu
  have hsp : ∀ i, (u'.particles i).spin = (u.particles i).spin := fun i => by
    obtain ⟨inertia, e1, e2, e3⟩ := s i
    rw [e1, ← hs i, Axes.sdiv_eq_smul, smul_smul, ← (e3 he).1, inv_mul_cancel₀ e2, one_smul]
  have hrad : ∀ i, (u'.particles i).radius = (u.particles i).radius := fun i => by
    obtain ⟨inertia, e1, e2, e3⟩ := s i
    exact (e3 he).2
  have pos : ∀ i, i ≠ h → 0 < (r i).dot (r i) := fun i hi => separation_pos (hsep i hi)
  have nd' : ∀ i, hasDynamicalTide (u.particles i).evolution = false := fun i => by
    cases hv : hasDynamicalTide (u.particles i).evolution with
    | false => rfl
    | true => exact absurd ((hasDynamicalTide_iff _).1 hv) (nd i)
  -- what every companion contributes
  have one : ∀ i, i ≠ h → ∃ fh fi : Axes ℝ,
      (u.particles i).mass • (u'.particles i).tides.acceleration = fh + fi
      ∧ (u'.particles i).tides.dAngularMomentumDt = -(r i).cross fi
      ∧ (v i).dot fh - (u.particles h).spin.dot ((r i).cross fh)
        = -(3 * k.g * (u.particles i).mass ^ 2 * (u.particles h).radius ^ 5 * love h / Real.sqrt ((r i).dot (r i)) ^ 8
            * (r i).dot (v i))
          - tidalHeat (u.particles i).mass (u.particles h).radius (u.particles h).tides.scaledDissipationFactor
            (u.particles h).spin (r i) (v i)
      ∧ (v i).dot fi - (u.particles i).spin.dot ((r i).cross fi)
        = -(3 * k.g * (u.particles h).mass ^ 2 * (u.particles i).radius ^ 5 * love i / Real.sqrt ((r i).dot (r i)) ^ 8
            * (r i).dot (v i))
          - tidalHeat (u.particles h).mass (u.particles i).radius (u.particles i).tides.scaledDissipationFactor
            (u.particles i).spin (r i) (v i) := by
    intro i hi
    obtain ⟨a0, b0, eh⟩ := eh
    obtain ⟨a1, b1, ei⟩ := ei i hi
    obtain ⟨fh, fi, w1, w2, w3⟩ := C92_force hok hh ct hc hm hsep hu hg hi eh ei (nd h) (nd i)
    rw [hsp, hrad] at w1 w2
    refine ⟨fh, fi, w3, ?_, weakFriction_power hg (pos i hi) w1, weakFriction_power hg (pos i hi) w2⟩
    obtain ⟨sh, sp, ⟨t, -, ht⟩, -, a2, -, a4⟩ := a i hi
    have gi := g i hi
    have ht' : sp = (u.particles i).tides.scaledDissipationFactor := by
      rw [ht, particleSigma, getPairFactorOrElse, nd' i]
      rfl
    rw [a4]
    refine companion_torque hg (pos i hi) w2 (hsp i) gi.planetary rfl ?_ gi.distance gi.position gi.velocity
    rw [a2, ht', hrad, gi.distance]
    rfl
  choose! fh fi hF hT hp hq using one
  refine ⟨∑ i ∈ univ.erase h, (3 * k.g * (u.particles i).mass ^ 2 * (u.particles h).radius ^ 5 * love h
        / Real.sqrt ((r i).dot (r i)) ^ 8 * (r i).dot (v i)
      + 3 * k.g * (u.particles h).mass ^ 2 * (u.particles i).radius ^ 5 * love i
        / Real.sqrt ((r i).dot (r i)) ^ 8 * (r i).dot (v i)), ?_, ?_⟩
  · refine HasDerivAt.fun_sum fun i hi => ?_
    have hi' := ne_of_mem_erase hi
    exact (storedEnergy_deriv _ _ _ _ _ _ (pos i hi')).add (storedEnergy_deriv _ _ _ _ _ _ (pos i hi'))
  have heat : ∀ i, i ≠ h → denergyDt (u'.particles i)
      = tidalHeat (u.particles h).mass (u.particles i).radius (u.particles i).tides.scaledDissipationFactor
        (u.particles i).spin (r i) (v i) := by
    intro i hi
    obtain ⟨sh, sp, ⟨t, -, ht⟩, -, a2, -, a4⟩ := a i hi
    have ht' : sp = (u.particles i).tides.scaledDissipationFactor := by
      rw [ht, particleSigma, getPairFactorOrElse, nd' i]
      rfl
    have key := C35_heating_partial hok hh ct hc hm hsep he hs hu i hi
    dsimp only at key
    rw [key, a2, ht', hrad, (g i hi).distance]
    have hs : 0 < Real.sqrt ((r i).dot (r i)) := Real.sqrt_pos.2 (pos i hi)
    unfold tidalHeat
    show _ / Real.sqrt ((r i).dot (r i)) ^ 7 / Real.sqrt ((r i).dot (r i)) *
      (2 * ((r i).dot (v i) / Real.sqrt ((r i).dot (r i))) ^ 2 + (v i - (u.particles i).spin.cross (r i)).dot (v i - (u.particles i).spin.cross (r i))) = _
    generalize Real.sqrt ((r i).dot (r i)) = d at hs
    field_simp
    ring
  refine ⟨?_, heat⟩
  -- the resultants of forces and torques vanish
  have z1 : ∑ i, (u.particles h).inertialVelocity.dot ((u.particles i).mass • (u'.particles i).tides.acceleration) = 0 := by
    rw [← dot_sum, mom, Axes.dot_zero]
  have z2 : ∑ i, (u.particles h).spin.dot ((u.particles h).inertialPosition.cross
      ((u.particles i).mass • (u'.particles i).tides.acceleration)) = 0 := by
    rw [← dot_sum, ← cross_sum, mom, Axes.cross_zero, Axes.dot_zero]
  have z3 : ∑ i, (u.particles h).spin.dot ((u.particles i).mass • (u.particles i).inertialPosition.cross
      (u'.particles i).tides.acceleration + (u'.particles i).tides.dAngularMomentumDt) = 0 := by
    rw [← dot_sum, ang, Axes.dot_zero]
  have total : ∑ i, ((u.particles i).mass * (u.particles i).inertialVelocity.dot (u'.particles i).tides.acceleration
          + (u.particles i).spin.dot (u'.particles i).tides.dAngularMomentumDt)
      = ∑ i, ((v i).dot ((u.particles i).mass • (u'.particles i).tides.acceleration)
          + ((u.particles i).spin - (u.particles h).spin).dot (u'.particles i).tides.dAngularMomentumDt
          - (u.particles h).spin.dot ((r i).cross ((u.particles i).mass • (u'.particles i).tides.acceleration))) := by
    rw [← sub_zero (∑ i, _), ← z1, ← sub_zero (∑ i, _ - ∑ i, _), ← z3, ← add_zero (∑ i, _ - ∑ i, _ - ∑ i, _), ← z2,
      ← sum_sub_distrib, ← sum_sub_distrib, ← sum_add_distrib]
    refine sum_congr rfl fun i _ => ?_
    simp only [v, r, Axes.dot, Axes.cross, Axes.add_x, Axes.add_y, Axes.add_z, Axes.sub_x, Axes.sub_y, Axes.sub_z,
      Axes.smul_x, Axes.smul_y, Axes.smul_z]
    ring
  have hv : v h = 0 := sub_self _
  have hr : r h = 0 := sub_self _
  rw [total, ← add_sum_erase univ _ (mem_univ h), hv, hr, sub_self, Axes.zero_cross, Axes.dot_zero, Axes.zero_dot,
    Axes.zero_dot, ← sum_neg_distrib, ← sum_sub_distrib]
  rw [show (0 : ℝ) + 0 - 0 = 0 by ring, zero_add]
  refine sum_congr rfl fun i hi => ?_
  have hi' := ne_of_mem_erase hi
  rw [hF i hi', hT i hi', heat i hi']
  have e : (v i).dot (fh i + fi i) + ((u.particles i).spin - (u.particles h).spin).dot (-(r i).cross (fi i))
        - (u.particles h).spin.dot ((r i).cross (fh i + fi i))
      = ((v i).dot (fh i) - (u.particles h).spin.dot ((r i).cross (fh i)))
        + ((v i).dot (fi i) - (u.particles i).spin.dot ((r i).cross (fi i))) := by
    simp only [Axes.dot, Axes.cross, Axes.add_x, Axes.add_y, Axes.add_z, Axes.sub_x, Axes.sub_y, Axes.sub_z,
      Axes.neg_x, Axes.neg_y, Axes.neg_z]
    ring
  rw [e, hp i hi', hq i hi']
  ring

/-- The heat is not negative and vanishes only if the tide stands still in the body. -/
theorem tidalHeat_nonneg (m R : ℝ) {sigma : ℝ} (spin r v : Axes ℝ) (hs : 0 ≤ sigma) : 0 ≤ tidalHeat m R sigma spin r v := by
  unfold tidalHeat
  have := Axes.dot_self_nonneg (v - spin.cross r)
  have : 0 ≤ R ^ 10 := Even.pow_nonneg (by decide) _
  positivity

theorem tidalHeat_zero {m R sigma : ℝ} {spin r v : Axes ℝ} (hm : m ≠ 0) (hR : R ≠ 0) (hs : 0 < sigma) (hr : 0 < r.dot r)
    (h : tidalHeat m R sigma spin r v = 0) : v = spin.cross r := by
  unfold tidalHeat at h
  have hd : 0 < Real.sqrt (r.dot r) := Real.sqrt_pos.2 hr
  have h1 : 9 / 2 * m ^ 2 * R ^ 10 * sigma / Real.sqrt (r.dot r) ^ 8 ≠ 0 := by positivity
  have h2 := (mul_eq_zero.1 h).resolve_left h1
  have h3 := Axes.dot_self_nonneg (v - spin.cross r)
  have h4 : 0 ≤ 2 * (r.dot v / Real.sqrt (r.dot r)) ^ 2 := by positivity
  exact sub_eq_zero.1 (Axes.dot_self_eq_zero (by linarith))

/-- **C105**: the energy of orbits, rotations and tides does not grow, and it is constant only if every companion is at
rest in the rotating frames of the bodies in which tides dissipate. -/
theorem C105_loss (hok : HostsOk u) (hh : u.hosts.tides = some h)
    (ct : u.consider.tides = true) (hc : AllCtl h u.particles) (hm : ∀ i, (u.particles i).mass ≠ 0)
    (hsep : ∀ i, i ≠ h → (u.particles i).inertialPosition ≠ (u.particles h).inertialPosition)
    (he : (evolution && u.consider.evolution) = false)
    (hs : ∀ i, (u.particles i).momentOfInertia • (u.particles i).spin = (u.particles i).angularMomentum)
    (hu : calculateAdditionalEffects k m eps2 time evolution true true ignore (inertialToHeliocentric u)
      = some u') (hg : k.g ≠ 0) {love : Fin n → ℝ}
    (eh : ∃ a b, (u.particles h).tides.effect = .central (.constantTimeLag a b (love h)))
    (ei : ∀ i, i ≠ h → ∃ a b, (u.particles i).tides.effect = .orbiting (.constantTimeLag a b (love i)))
    (nd : ∀ i, (u.particles i).evolution ∉ dynamicalTideModels)
    (sg : ∀ i, 0 ≤ (u.particles i).tides.scaledDissipationFactor) {rate : ℝ} :
    let r (i : Fin n) := (u.particles i).inertialPosition - (u.particles h).inertialPosition
    let v (i : Fin n) := (u.particles i).inertialVelocity - (u.particles h).inertialVelocity
    let power := ∑ i, ((u.particles i).mass * (u.particles i).inertialVelocity.dot (u'.particles i).tides.acceleration
          + (u.particles i).spin.dot (u'.particles i).tides.dAngularMomentumDt)
    HasDerivAt (fun s : ℝ => ∑ i ∈ univ.erase h,
        (storedEnergy k.g (u.particles i).mass (u.particles h).radius (love h) (r i + s • v i)
          + storedEnergy k.g (u.particles h).mass (u.particles i).radius (love i) (r i + s • v i))) rate 0 →
      power + rate ≤ 0
      ∧ (power + rate = 0 → ∀ i, i ≠ h → ∀ j, j = h ∨ j = i → (u.particles j).radius ≠ 0 →
        0 < (u.particles j).tides.scaledDissipationFactor → v i = (u.particles j).spin.cross (r i)) := by
  intro r v power hrate
  obtain ⟨rate', d, b, heat⟩ := C105_balance hok hh ct hc hm hsep he hs hu hg eh ei nd
  have hr : rate' = rate := d.unique hrate
  subst hr
  have e : power + rate' = -∑ i ∈ univ.erase h, (denergyDt (u'.particles i)
          + tidalHeat (u.particles i).mass (u.particles h).radius (u.particles h).tides.scaledDissipationFactor
            (u.particles h).spin (r i) (v i)) := by
    show (∑ i, _) + rate' = _
    rw [b]
    ring
  have h1 : ∀ i ∈ univ.erase h, 0 ≤ denergyDt (u'.particles i)
          + tidalHeat (u.particles i).mass (u.particles h).radius (u.particles h).tides.scaledDissipationFactor
            (u.particles h).spin (r i) (v i) := fun i hi => by
    rw [heat i (ne_of_mem_erase hi)]
    exact add_nonneg (tidalHeat_nonneg _ _ _ _ _ (sg _)) (tidalHeat_nonneg _ _ _ _ _ (sg _))
  refine ⟨by rw [e]; exact neg_nonpos.2 (sum_nonneg h1), fun h0 i hi j hj hR hsig => ?_⟩
  rw [e, neg_eq_zero, sum_eq_zero_iff_of_nonneg h1] at h0
  have h2 := h0 i (mem_erase.2 ⟨hi, mem_univ i⟩)
  rw [heat i hi] at h2
  have a1 := tidalHeat_nonneg (u.particles h).mass (u.particles i).radius (u.particles i).spin (r i) (v i) (sg i)
  have a2 := tidalHeat_nonneg (u.particles i).mass (u.particles h).radius (u.particles h).spin (r i) (v i) (sg h)
  have a3 : tidalHeat (u.particles h).mass (u.particles i).radius (u.particles i).tides.scaledDissipationFactor
      (u.particles i).spin (r i) (v i) = 0 := le_antisymm (by simp only [r, v] at *; linarith) a1
  have a4 : tidalHeat (u.particles i).mass (u.particles h).radius (u.particles h).tides.scaledDissipationFactor
      (u.particles h).spin (r i) (v i) = 0 := le_antisymm (by simp only [r, v] at *; linarith) a2
  rcases hj with rfl | rfl
  · exact tidalHeat_zero (hm i) hR hsig (separation_pos (hsep i hi)) a4
  · exact tidalHeat_zero (hm h) hR hsig (separation_pos (hsep j hi)) a3
end

/-- A star that rotates and a planet in the plane of its equator that does not move. -/
noncomputable def brakedUniverse : Universe ℝ 2 :=
  { exampleUniverse with
    particles := fun i => if i = 0 then { exampleStar with spin := ⟨0, 0, 2⟩, angularMomentum := ⟨0, 0, 2⟩ }
      else examplePlanet }

theorem brakedUniverse_defined (k : Consts ℝ) (m : Models ℝ) :
    ∃ u', calculateAdditionalEffects k m 0 0 false true true .none (inertialToHeliocentric brakedUniverse) = some u' := by
  have hh : HasHosts (inertialToHeliocentric brakedUniverse) := by
    constructor <;> simp [inertialToHeliocentric, brakedUniverse, exampleUniverse]
  have hn := (additionalEffects_none (k := k) (m := m) (eps2 := 0) (time := 0) (evolution := false)
    (dL := true) (acc := true) (ignore := .none) hh rfl).not
  refine Option.ne_none_iff_exists'.1 (hn.2 ?_)
  rintro ⟨i, hi⟩
  have hI : ((inertialToHeliocentric brakedUniverse).particles i).momentOfInertia = 1 := by
    by_cases hi : i = 0 <;>
      simp [inertialToHeliocentric, brakedUniverse, exampleUniverse, mapHost, mapOthers, hi, examplePlanet,
        exampleStar, toHeliocentric, zeroHeliocentric]
  rw [hI] at hi
  simp at hi

/-- The hypotheses can be met: a star and a planet with dissipation in both; here energy is lost. -/
example (k : Consts ℝ) (hg : k.g ≠ 0) (m : Models ℝ) : ∃ u',
    calculateAdditionalEffects k m 0 0 false true true .none (inertialToHeliocentric brakedUniverse) = some u'
    ∧ (∑ i, ((brakedUniverse.particles i).mass * (brakedUniverse.particles i).inertialVelocity.dot
          (u'.particles i).tides.acceleration
          + (brakedUniverse.particles i).spin.dot (u'.particles i).tides.dAngularMomentumDt)) < 0 := by
  obtain ⟨u', hu⟩ := brakedUniverse_defined k m
  refine ⟨u', hu, ?_⟩
  have ok : HostsOk brakedUniverse := by constructor <;> simp [brakedUniverse, exampleUniverse]
  have ctl : AllCtl 0 brakedUniverse.particles := by
    refine ⟨⟨1, 1, 0, by simp [brakedUniverse, exampleStar]⟩, fun i hi => ⟨1, 1, 0, ?_⟩⟩
    simp [brakedUniverse, examplePlanet, hi]
  have mass : ∀ i, (brakedUniverse.particles i).mass ≠ 0 := fun i => by
    by_cases hi : i = 0 <;> simp [brakedUniverse, hi, examplePlanet, exampleStar]
  have sep : ∀ i, i ≠ 0 → (brakedUniverse.particles i).inertialPosition ≠ (brakedUniverse.particles 0).inertialPosition := by
    intro i hi e
    have := congrArg Axes.x e
    simp [brakedUniverse, hi, examplePlanet, exampleStar, blank] at this
  have spins : ∀ i, (brakedUniverse.particles i).momentOfInertia • (brakedUniverse.particles i).spin
      = (brakedUniverse.particles i).angularMomentum := fun i => by
    by_cases hi : i = 0 <;> simp [brakedUniverse, hi, exampleStar, examplePlanet, blank]
  have nd : ∀ i, (brakedUniverse.particles i).evolution ∉ dynamicalTideModels := fun i => by
    by_cases hi : i = 0 <;> simp [brakedUniverse, hi, exampleStar, examplePlanet, blank, dynamicalTideModels]
  have eh : ∃ a b, (brakedUniverse.particles 0).tides.effect = .central (.constantTimeLag a b 0) :=
    ⟨1, 1, by simp [brakedUniverse, exampleStar]⟩
  have ei : ∀ i, i ≠ 0 → ∃ a b, (brakedUniverse.particles i).tides.effect = .orbiting (.constantTimeLag a b 0) :=
    fun i hi => ⟨1, 1, by simp [brakedUniverse, examplePlanet, hi]⟩
  have sg : ∀ i, 0 ≤ (brakedUniverse.particles i).tides.scaledDissipationFactor := fun i => by
    by_cases hi : i = 0 <;> simp [brakedUniverse, hi, exampleStar, examplePlanet]
  have hrate : HasDerivAt (fun s : ℝ => ∑ i ∈ univ.erase (0 : Fin 2),
      (storedEnergy k.g (brakedUniverse.particles i).mass (brakedUniverse.particles 0).radius 0
          (((brakedUniverse.particles i).inertialPosition - (brakedUniverse.particles 0).inertialPosition)
            + s • ((brakedUniverse.particles i).inertialVelocity - (brakedUniverse.particles 0).inertialVelocity))
        + storedEnergy k.g (brakedUniverse.particles 0).mass (brakedUniverse.particles i).radius 0
          (((brakedUniverse.particles i).inertialPosition - (brakedUniverse.particles 0).inertialPosition)
            + s • ((brakedUniverse.particles i).inertialVelocity - (brakedUniverse.particles 0).inertialVelocity)))) 0 0 := by
    simpa [storedEnergy] using hasDerivAt_const (0 : ℝ) (0 : ℝ)
  obtain ⟨h1, h2⟩ := C105_loss ok rfl rfl ctl mass sep rfl spins hu hg (love := fun _ => 0) eh ei nd sg hrate
  rw [add_zero] at h1 h2
  refine lt_of_le_of_ne h1 fun h0 => ?_
  have h3 := h2 h0 1 (by decide) 0 (Or.inl rfl) (by simp [brakedUniverse, exampleStar])
    (by simp [brakedUniverse, exampleStar])
  have := congrArg Axes.y h3
  simp [brakedUniverse, examplePlanet, exampleStar, blank] at this

end Posidonius.Univ
