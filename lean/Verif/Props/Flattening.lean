import Verif.Lemmas.FlatteningUniverse
import Verif.Props.Tides
import Mathlib.Analysis.SpecialFunctions.Sqrt
import Mathlib.Analysis.Calculus.Deriv.Add
import Mathlib.Analysis.Calculus.Deriv.Mul
import Mathlib.Analysis.Calculus.Deriv.Pow
import Mathlib.Analysis.Calculus.Deriv.Inv

/-! Properties C38, C39, C63: rotational flattening. -/

namespace Posidonius.Univ
open Finset
open Gravity (Ignore)

variable {n : Nat}

/-! ## A system for the examples -/

/-- An oblate star and an oblate planet one unit away, spins up to date. -/
noncomputable def oblateUniverse : Universe ℝ 2 :=
  { particles := fun i => if i = 0 then
        { blank ℝ with mass := 2, radius := 1, momentOfInertia := 1, spin := ⟨1, 0, 1⟩,
                       angularMomentum := ⟨1, 0, 1⟩,
                       flattening := { (blank ℝ).flattening with effect := .central (.oblateSpheroid 1) } }
      else
        { blank ℝ with id := 1, mass := 1, radius := 1, momentOfInertia := 1, spin := ⟨0, 0, 1⟩,
                       angularMomentum := ⟨0, 0, 1⟩, inertialPosition := ⟨1, 0, 0⟩,
                       flattening := { (blank ℝ).flattening with effect := .orbiting (.oblateSpheroid 1) } },
    evolvers := fun _ => ⟨.nonEvolving, [], [], [], [], [], 0⟩,
    consider := ⟨false, true, false, false, false, false⟩,
    grImplementation := .disabled,
    hosts := ⟨0, some 0, some 0, none, none, true, false, true, false, false⟩,
    table := fun _ => none }

theorem oblateUniverse_ok : HostsOk oblateUniverse := by
  constructor <;> simp [oblateUniverse]

theorem oblateUniverse_oblate : AllOblate 0 (fun _ => 1) oblateUniverse.particles := by
  refine ⟨by simp [oblateUniverse], fun i hi => by simp [oblateUniverse, hi]⟩

theorem oblateUniverse_mass (i : Fin 2) : (oblateUniverse.particles i).mass ≠ 0 := by
  by_cases hi : i = 0 <;> simp [oblateUniverse, hi]

theorem oblateUniverse_defined (k : Consts ℝ) (m : Models ℝ) :
    ∃ u', calculateAdditionalEffects k m 0 0 false true true .none (inertialToHeliocentric oblateUniverse)
      = some u' := by
  have hh : HasHosts (inertialToHeliocentric oblateUniverse) := by
    constructor <;> simp [inertialToHeliocentric, oblateUniverse]
  have hn := (additionalEffects_none (k := k) (m := m) (eps2 := 0) (time := 0) (evolution := false)
    (dL := true) (acc := true) (ignore := .none) hh rfl).not
  refine Option.ne_none_iff_exists'.1 (hn.2 ?_)
  rintro ⟨i, hi⟩
  have hI : ((inertialToHeliocentric oblateUniverse).particles i).momentOfInertia = 1 := by
    by_cases hi : i = 0 <;>
      simp [inertialToHeliocentric, oblateUniverse, mapHost, mapOthers, hi, toHeliocentric, zeroHeliocentric]
  rw [hI] at hi
  simp at hi

/-! ## C38 Forces and torques balance -/

/-- The mass-weighted accelerations by rotational flattening add up to zero after an evaluation. -/
theorem C38_momentum {k : Consts ℝ} {m : Models ℝ} {eps2 time : ℝ} {evolution : Bool} {ignore : Ignore}
    {u u' : Universe ℝ n} {h : Fin n} {love : Fin n → ℝ} (hok : HostsOk u) (hh : u.hosts.flattening = some h)
    (cf : u.consider.flattening = true) (hc : AllOblate h love u.particles)
    (hm : ∀ i, (u.particles i).mass ≠ 0)
    (hu : calculateAdditionalEffects k m eps2 time evolution true true ignore (inertialToHeliocentric u)
      = some u') :
    ∑ i, (u.particles i).mass • (u'.particles i).flattening.acceleration = 0 := by
  obtain ⟨P, a, b, c, d, e, f⟩ := flattening_evaluation hok hh cf hc hu
  refine momentum_of_recoil h (fun i => (u.particles i).mass) _
    (fun i => oblateForceOf (love h) (love i) (P h) (P i)) hm (fun i hi => ?_) ?_
  · have := hm i
    rw [(d i hi).1, (a i).1, smul_smul]
    have : (u.particles i).mass * (1 / (u.particles i).mass) = 1 := by field_simp
    rw [this, one_smul]
  · rw [e, (a h).1]

/-- The torques on the spins and the torques of the forces on the orbits add up to zero, whatever the
stored spins were. -/
theorem C38_angular_momentum {k : Consts ℝ} {m : Models ℝ} {eps2 time : ℝ} {evolution : Bool} {ignore : Ignore}
    {u u' : Universe ℝ n} {h : Fin n} {love : Fin n → ℝ} (hok : HostsOk u) (hh : u.hosts.flattening = some h)
    (cf : u.consider.flattening = true) (hc : AllOblate h love u.particles)
    (hm : ∀ i, (u.particles i).mass ≠ 0)
    (hu : calculateAdditionalEffects k m eps2 time evolution true true ignore (inertialToHeliocentric u)
      = some u') :
    ∑ i, ((u.particles i).mass • (u.particles i).inertialPosition.cross (u'.particles i).flattening.acceleration
          + (u'.particles i).flattening.dAngularMomentumDt) = 0 := by
  obtain ⟨P, a, b, c, d, e, f⟩ := flattening_evaluation hok hh cf hc hu
  have tq := torque_of_recoil h (fun i => (u.particles i).mass) (fun i => (u.particles i).inertialPosition)
    (fun i => (u'.particles i).flattening.acceleration)
    (fun i => oblateForceOf (love h) (love i) (P h) (P i)) hm
    (fun i hi => by
      have := hm i
      rw [(d i hi).1, (a i).1, smul_smul]
      have : (u.particles i).mass * (1 / (u.particles i).mass) = 1 := by field_simp
      rw [this, one_smul])
    (by rw [e, (a h).1])
  rw [sum_add_distrib, tq, ← add_sum_erase univ _ (mem_univ h), f, ← sum_neg_distrib, ← sum_add_distrib,
    ← sum_add_distrib]
  refine sum_eq_zero fun i hi => ?_
  have hi' := ne_of_mem_erase hi
  rw [(d i hi').2, ← (b i hi').position]
  unfold oblateForceOf
  dsimp only
  have ep : (oblateValues (love h) (love i) (P h) (P i)).position = (P i).flattening.position := rfl
  rw [ep, Axes.cross_add, Axes.cross_add, Axes.cross_smul, Axes.cross_smul, Axes.cross_smul]
  have e0 : (P i).flattening.position.cross (P i).flattening.position = 0 := by ext <;> simp <;> ring
  rw [e0]
  module

example (k : Consts ℝ) (m : Models ℝ) : ∃ u',
    calculateAdditionalEffects k m 0 0 false true true .none (inertialToHeliocentric oblateUniverse) = some u'
    ∧ ∑ i, (oblateUniverse.particles i).mass • (u'.particles i).flattening.acceleration = 0
    ∧ ∑ i, ((oblateUniverse.particles i).mass • (oblateUniverse.particles i).inertialPosition.cross
        (u'.particles i).flattening.acceleration + (u'.particles i).flattening.dAngularMomentumDt) = 0 := by
  obtain ⟨u', hu⟩ := oblateUniverse_defined k m
  exact ⟨u', hu, C38_momentum oblateUniverse_ok rfl rfl oblateUniverse_oblate oblateUniverse_mass hu,
    C38_angular_momentum oblateUniverse_ok rfl rfl oblateUniverse_oblate oblateUniverse_mass hu⟩

/-! ## C39 Non-rotating bodies -/

theorem oblateStarStep_keeps {F : Type} [Mul F] [Div F] [FOps F] (host p : Particle F) :
    (oblateStarStep host p).flattening.effect = p.flattening.effect
      ∧ (oblateStarStep host p).normSpin2 = p.normSpin2 ∧ (oblateStarStep host p).radius = p.radius
      ∧ (oblateStarStep host p).flattening.distance = p.flattening.distance
      ∧ (oblateStarStep host p).flattening.rDotPlanetarySpin = p.flattening.rDotPlanetarySpin := by
  unfold oblateStarStep
  split <;> exact ⟨rfl, rfl, rfl, rfl, rfl⟩

theorem oblatePlanetStep_keeps {F : Type} [Mul F] [Div F] [FOps F] (host p : Particle F) :
    (oblatePlanetStep host p).flattening.effect = p.flattening.effect
      ∧ (oblatePlanetStep host p).flattening.orthogonalStar = p.flattening.orthogonalStar := by
  unfold oblatePlanetStep
  split <;> exact ⟨rfl, rfl⟩

theorem flatteningRadialStep_keeps {F : Type} [Add F] [Mul F] [Div F] [FOps F] (host p : Particle F) :
    (flatteningRadialStep host p).flattening.effect = p.flattening.effect
      ∧ (flatteningRadialStep host p).flattening.orthogonalStar = p.flattening.orthogonalStar
      ∧ (flatteningRadialStep host p).flattening.orthogonalPlanet = p.flattening.orthogonalPlanet := by
  unfold flatteningRadialStep
  split <;> exact ⟨rfl, rfl, rfl⟩

/-- A NaN amplitude of one companion makes the acceleration of the host NaN. -/
theorem host_acceleration_nan (m : FlatteningModels XQ) (h j : Fin n) (p : Fin n → Particle XQ) (love : XQ)
    (hj : j ≠ h) (he : (p j).flattening.effect = .orbiting (.oblateSpheroid love))
    (hn : (oblatePlanetStep (p h) (oblateStarStep (p h) (p j))).flattening.orthogonalPlanet = .nan
      ∨ (oblatePlanetStep (p h) (oblateStarStep (p h) (p j))).flattening.orthogonalStar = .nan) :
    (flatteningAcceleration m h (flatteningRadial h (flatteningOrthogonal h p)) h).flattening.acceleration
      = ⟨.nan, .nan, .nan⟩ := by
  have e3 : flatteningRadial h (flatteningOrthogonal h p) j
      = flatteningRadialStep (p h) (oblatePlanetStep (p h) (oblateStarStep (p h) (p j))) := by
    unfold flatteningRadial flatteningOrthogonal
    rw [mapOthers_other hj, mapOthers_other hj, mapOthers_other hj, mapOthers_host, mapOthers_host]
  unfold flatteningAcceleration
  dsimp only
  rw [mapHost_host, sumOthers_nan h j hj]
  · ext <;> simp
  · rw [e3]
    obtain ⟨k1, k2, k3⟩ := flatteningRadialStep_keeps (p h) (oblatePlanetStep (p h) (oblateStarStep (p h) (p j)))
    unfold companionFlatteningForce
    rw [k1, (oblatePlanetStep_keeps _ _).1, (oblateStarStep_keeps _ _).1, he]
    simp only [flatteningForce, oblateForce, k2, k3]
    rcases hn with hn | hn <;> rw [hn] <;> ext <;> simp

/-- A companion that does not rotate makes the acceleration of the host by flattening NaN, for all systems:
the factor proportional to the squared spin is divided by the squared spin. -/
theorem C39_violated (m : FlatteningModels XQ) (h j : Fin n) (p : Fin n → Particle XQ)
    (M kj R d b : ℚ) (hj : j ≠ h)
    (he : (p j).flattening.effect = .orbiting (.oblateSpheroid (.fin kj))) (hs : (p j).normSpin2 = .fin 0)
    (hM : (p h).mass = .fin M) (hR : (p j).radius = .fin R) (hd : (p j).flattening.distance = .fin d)
    (hb : (p j).flattening.rDotPlanetarySpin = .fin b) :
    (flatteningAcceleration m h (flatteningRadial h (flatteningOrthogonal h p)) h).flattening.acceleration
      = ⟨.nan, .nan, .nan⟩ := by
  refine host_acceleration_nan m h j p (.fin kj) hj he (Or.inl ?_)
  obtain ⟨k1, k2, k3, k4, k5⟩ := oblateStarStep_keeps (p h) (p j)
  unfold oblatePlanetStep
  rw [k1, he]
  simp only [k2, k3, k4, k5, hs, hM, hR, hd, hb, XQ.ipow_fin, XQ.lit_eq, XQ.fin_mul, mul_zero, zero_mul]
  rw [XQ.fin_div (by norm_num : (6 : ℚ) ≠ 0)]
  simp

/-- The same for a host that does not rotate. -/
theorem C39_violated_host (m : FlatteningModels XQ) (h j : Fin n) (p : Fin n → Particle XQ) (love : XQ)
    (mj kh R d a : ℚ) (hj : j ≠ h)
    (he : (p j).flattening.effect = .orbiting (.oblateSpheroid love))
    (hh : (p h).flattening.effect = .central (.oblateSpheroid (.fin kh))) (hs : (p h).normSpin2 = .fin 0)
    (hM : (p j).mass = .fin mj) (hR : (p h).radius = .fin R) (hd : (p j).flattening.distance = .fin d)
    (ha : (p j).flattening.rDotStellarSpin = .fin a) :
    (flatteningAcceleration m h (flatteningRadial h (flatteningOrthogonal h p)) h).flattening.acceleration
      = ⟨.nan, .nan, .nan⟩ := by
  refine host_acceleration_nan m h j p love hj he (Or.inr ?_)
  rw [(oblatePlanetStep_keeps _ _).2]
  unfold oblateStarStep
  rw [he, hh]
  simp only [hs, hM, hR, hd, ha, XQ.ipow_fin, XQ.lit_eq, XQ.fin_mul, mul_zero, zero_mul,
    FlatteningEffect.hostLoveNumber]
  rw [XQ.fin_div (by norm_num : (6 : ℚ) ≠ 0)]
  simp

/-- A planet that does not rotate, one unit away from a star. -/
example (m : FlatteningModels XQ) : ∃ p : Fin 2 → Particle XQ,
    (flatteningAcceleration m 0 (flatteningRadial 0 (flatteningOrthogonal 0 p)) 0).flattening.acceleration
      = ⟨.nan, .nan, .nan⟩ :=
  ⟨fun i => if i = 0 then { blank XQ with mass := .fin 1 } else { blank XQ with
      flattening := { (blank XQ).flattening with effect := .orbiting (.oblateSpheroid (.fin 1)), distance := .fin 1 } },
    C39_violated m 0 1 _ 1 1 0 1 0 (by decide) rfl rfl rfl rfl rfl rfl⟩

/-- The values of a rotating pair at a positive distance are finite.  Missing: bodies that do not rotate, for
which it is wrong. -/
theorem C39_partial (host p : Particle XQ) (M mi kh ki Rh Ri d a b wh wi : ℚ)
    (hM : host.mass = .fin M) (hm : p.mass = .fin mi) (hRh : host.radius = .fin Rh) (hRi : p.radius = .fin Ri)
    (hh : host.flattening.effect = .central (.oblateSpheroid (.fin kh)))
    (hi : p.flattening.effect = .orbiting (.oblateSpheroid (.fin ki)))
    (hwh : host.normSpin2 = .fin wh) (hwi : p.normSpin2 = .fin wi)
    (hd : p.flattening.distance = .fin d)
    (ha : p.flattening.rDotStellarSpin = .fin a) (hb : p.flattening.rDotPlanetarySpin = .fin b)
    (nz : wh ≠ 0) (nz' : wi ≠ 0) (dz : d ≠ 0) :
    ∃ radial star planet : ℚ,
      let q := flatteningRadialStep host (oblatePlanetStep host (oblateStarStep host p))
      q.flattening.radial = .fin radial ∧ q.flattening.orthogonalStar = .fin star
        ∧ q.flattening.orthogonalPlanet = .fin planet := by
  have six : (6 : ℚ) ≠ 0 := by norm_num
  have d5 : d ^ 5 ≠ 0 := pow_ne_zero _ dz
  have d7 : d ^ 7 ≠ 0 := pow_ne_zero _ dz
  simp only [oblateStarStep, hi, oblatePlanetStep, flatteningRadialStep, FlatteningEffect.isOrbiting, if_true,
    hh, FlatteningEffect.hostLoveNumber, hM, hm, hRh, hRi, hwh, hwi, hd, ha, hb, XQ.ipow_fin, XQ.lit_eq,
    XQ.fin_mul, XQ.fin_div six, XQ.fin_div d5, XQ.fin_div d7, XQ.fin_div nz, XQ.fin_div nz',
    XQ.fin_div (mul_ne_zero nz d5), XQ.fin_div (mul_ne_zero nz' d5), XQ.fin_add]
  exact ⟨_, _, _, rfl, rfl, rfl⟩

/-- A rotating planet two units away from a rotating star. -/
example : ∃ host p : Particle XQ, ∃ radial : ℚ,
    (flatteningRadialStep host (oblatePlanetStep host (oblateStarStep host p))).flattening.radial = .fin radial :=
  ⟨{ blank XQ with mass := .fin 1, radius := .fin 1, normSpin2 := .fin 4, flattening :=
        { (blank XQ).flattening with effect := .central (.oblateSpheroid (.fin 1)) } },
    { blank XQ with mass := .fin (1/10), radius := .fin (1/2), normSpin2 := .fin 9, flattening :=
        { (blank XQ).flattening with effect := .orbiting (.oblateSpheroid (.fin 2)), distance := .fin 2 } },
    (C39_partial _ _ 1 (1/10) 1 2 1 (1/2) 2 0 0 4 9 rfl rfl rfl rfl rfl rfl rfl rfl rfl rfl rfl
      (by norm_num) (by norm_num) (by norm_num)).imp fun _ h => h.elim fun _ h => h.elim fun _ h => h.1⟩

/-! ## C63 The force is the gradient of the quadrupole potential -/

/-- The quadrupole potential energy (with the sign of a force function) of a body at `r` from a body
flattened by its rotation `w`; `c` is mass of the other body times Love number times radius^5. -/
noncomputable def quadrupole (c : ℝ) (w r : Axes ℝ) : ℝ :=
  c / 6 * (w.norm2 / Real.sqrt r.norm2 ^ 3 - 3 * r.dot w ^ 2 / Real.sqrt r.norm2 ^ 5)

theorem quadrupole_deriv (c : ℝ) (w r e : Axes ℝ) (hr : 0 < r.norm2) :
    HasDerivAt (fun t : ℝ => quadrupole c w (r + t • e))
      (c / 6 * (-3 * w.norm2 * r.dot e / Real.sqrt r.norm2 ^ 5
        - 6 * r.dot w * e.dot w / Real.sqrt r.norm2 ^ 5
        + 15 * r.dot w ^ 2 * r.dot e / Real.sqrt r.norm2 ^ 7)) 0 := by
  have hN : HasDerivAt (fun t : ℝ => (r + t • e).norm2) (2 * r.dot e) 0 := by
    have e1 : (fun t : ℝ => (r + t • e).norm2) = fun t : ℝ => r.norm2 + (2 * r.dot e) * t + e.norm2 * t ^ 2 := by
      funext t
      simp only [Axes.norm2, Axes.dot]
      simp
      ring
    rw [e1]
    have := (((hasDerivAt_id' (0 : ℝ)).const_mul (2 * r.dot e)).const_add r.norm2).fun_add
      (((hasDerivAt_id' (0 : ℝ)).fun_pow 2).const_mul e.norm2)
    exact this.congr_deriv (by simp)
  have h0 : (r + (0 : ℝ) • e).norm2 = r.norm2 := by simp
  have hd : 0 < Real.sqrt r.norm2 := Real.sqrt_pos.2 hr
  have hS : HasDerivAt (fun t : ℝ => Real.sqrt (r + t • e).norm2) (r.dot e / Real.sqrt r.norm2) 0 := by
    have := hN.sqrt (by rw [h0]; exact hr.ne')
    rw [h0] at this
    exact this.congr_deriv (by field_simp)
  have hG : HasDerivAt (fun t : ℝ => (r + t • e).dot w) (e.dot w) 0 := by
    have e1 : (fun t : ℝ => (r + t • e).dot w) = fun t : ℝ => r.dot w + e.dot w * t := by
      funext t
      simp only [Axes.dot]
      simp
      ring
    rw [e1]
    exact (((hasDerivAt_id' (0 : ℝ)).const_mul (e.dot w)).const_add (r.dot w)).congr_deriv (by simp)
  have h0s : Real.sqrt (r + (0 : ℝ) • e).norm2 = Real.sqrt r.norm2 := by rw [h0]
  have h0g : (r + (0 : ℝ) • e).dot w = r.dot w := by simp
  have d3 : Real.sqrt (r + (0 : ℝ) • e).norm2 ^ 3 ≠ 0 := by rw [h0s]; positivity
  have d5 : Real.sqrt (r + (0 : ℝ) • e).norm2 ^ 5 ≠ 0 := by rw [h0s]; positivity
  have t1 := (hasDerivAt_const (0 : ℝ) w.norm2).fun_div (hS.fun_pow 3) d3
  have t2 := ((hG.fun_pow 2).const_mul 3).fun_div (hS.fun_pow 5) d5
  have t3 := (t1.fun_sub t2).const_mul (c / 6)
  unfold quadrupole
  refine t3.congr_deriv ?_
  simp only [h0s, h0g]
  generalize Real.sqrt r.norm2 = d at *
  field_simp
  ring

/-- With spins that are up to date, the flattening force on a companion is the gradient of the sum of the
quadrupole potentials of the two rotating bodies: the derivative of the potential in every direction `e` is
the component of the force in that direction.  Missing: spins that are not up to date (the products with
the positions then belong to the old ones), and bodies that do not rotate (C39). -/
theorem C63_partial {k : Consts ℝ} {m : Models ℝ} {eps2 time : ℝ} {evolution : Bool} {ignore : Ignore}
    {u u' : Universe ℝ n} {h : Fin n} {love : Fin n → ℝ} (hok : HostsOk u) (hh : u.hosts.flattening = some h)
    (cf : u.consider.flattening = true) (hc : AllOblate h love u.particles)
    (hm : ∀ i, (u.particles i).mass ≠ 0)
    (he : (evolution && u.consider.evolution) = false)
    (hs : ∀ i, (u.particles i).momentOfInertia • (u.particles i).spin = (u.particles i).angularMomentum)
    (hw : ∀ i, (u.particles i).spin ≠ 0)
    (hu : calculateAdditionalEffects k m eps2 time evolution true true ignore (inertialToHeliocentric u)
      = some u') (i : Fin n) (hi : i ≠ h)
    (hsep : (u.particles i).inertialPosition ≠ (u.particles h).inertialPosition) (e : Axes ℝ) :
    let r := (u.particles i).inertialPosition - (u.particles h).inertialPosition
    let potential := fun x : Axes ℝ =>
      quadrupole ((u.particles i).mass * love h * (u.particles h).radius ^ 5) (u.particles h).spin x
        + quadrupole ((u.particles h).mass * love i * (u.particles i).radius ^ 5) (u.particles i).spin x
    HasDerivAt (fun t : ℝ => potential (r + t • e))
      (((u.particles i).mass • (u'.particles i).flattening.acceleration).dot e) 0 := by
  intro r potential
  obtain ⟨P, a, b, c, d, -⟩ := flattening_evaluation hok hh cf hc hu
  have npos : 0 < r.norm2 := by
    refine lt_of_le_of_ne (Axes.dot_self_nonneg _) (fun e0 => hsep ?_)
    exact sub_eq_zero.1 (Axes.dot_self_eq_zero e0.symm)
  have hsp : ∀ j, (P j).spin = (u.particles j).spin ∧ (P j).radius = (u.particles j).radius := by
    intro j
    obtain ⟨inertia, e1, e2, e3⟩ := c j
    rw [e1, ← hs j, Axes.sdiv_eq_smul, smul_smul, ← (e3 he).1, inv_mul_cancel₀ e2, one_smul]
    exact ⟨rfl, (e3 he).2⟩
  have hn : ∀ j, (u.particles j).spin.norm2 ≠ 0 := fun j e0 => hw j (Axes.dot_self_eq_zero e0)
  refine ((quadrupole_deriv _ _ r e npos).fun_add (quadrupole_deriv _ _ r e npos)).congr_deriv ?_
  have := hm i
  rw [(d i hi).1, (a i).1, smul_smul]
  have h1 : (u.particles i).mass * (1 / (u.particles i).mass) = 1 := by field_simp
  rw [h1, one_smul]
  unfold oblateForceOf oblateValues
  dsimp only
  obtain ⟨g1, g2, g3, g4⟩ := b i hi
  rw [g1, g2, g3, g4, (a i).1, (a h).1, (a i).2.1, (a h).2.1, (hsp i).1, (hsp h).1, (hsp i).2, (hsp h).2]
  rw [show (u.particles i).inertialPosition - (u.particles h).inertialPosition = r from rfl]
  have n1 := hn i
  have n2 := hn h
  generalize hdd : Real.sqrt r.norm2 = D at *
  have hD : D ≠ 0 := by rw [← hdd]; exact (Real.sqrt_pos.2 npos).ne'
  rw [Axes.add_dot, Axes.add_dot, Axes.smul_dot, Axes.smul_dot, Axes.smul_dot,
    Axes.dot_comm (u.particles i).spin e, Axes.dot_comm (u.particles h).spin e]
  generalize (u.particles i).spin.norm2 = wi at *
  generalize (u.particles h).spin.norm2 = wh at *
  field_simp
  ring

example (k : Consts ℝ) (m : Models ℝ) (e : Axes ℝ) : ∃ u',
    calculateAdditionalEffects k m 0 0 false true true .none (inertialToHeliocentric oblateUniverse) = some u'
    ∧ ∃ f : Axes ℝ → ℝ, HasDerivAt (fun t : ℝ => f ((⟨1, 0, 0⟩ : Axes ℝ) + t • e))
      (((oblateUniverse.particles 1).mass • (u'.particles 1).flattening.acceleration).dot e) 0 := by
  obtain ⟨u', hu⟩ := oblateUniverse_defined k m
  have key := C63_partial oblateUniverse_ok rfl rfl oblateUniverse_oblate oblateUniverse_mass rfl
    (fun i => by by_cases hi : i = 0 <;> simp [oblateUniverse, hi])
    (fun i e0 => by
      have := congrArg Axes.z e0
      by_cases hi : i = 0 <;> simp [oblateUniverse, hi] at this)
    hu 1 (by decide)
    (fun e0 => by
      have := congrArg Axes.x e0
      simp [oblateUniverse, blank] at this) e
  refine ⟨u', hu, (fun x : Axes ℝ =>
      quadrupole ((oblateUniverse.particles 1).mass * 1 * (oblateUniverse.particles 0).radius ^ 5)
          (oblateUniverse.particles 0).spin x
        + quadrupole ((oblateUniverse.particles 0).mass * 1 * (oblateUniverse.particles 1).radius ^ 5)
          (oblateUniverse.particles 1).spin x), ?_⟩
  have er : (oblateUniverse.particles 1).inertialPosition - (oblateUniverse.particles 0).inertialPosition
      = (⟨1, 0, 0⟩ : Axes ℝ) := by
    ext <;> simp [oblateUniverse, blank]
  rw [← er]
  exact key

end Posidonius.Univ
