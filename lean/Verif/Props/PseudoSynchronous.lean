import Verif.Props.TidalEnergy
import Verif.Props.Orbits
import Verif.Lemmas.TrueAnomaly
import Verif.Props.Kepler

/-! # C113 Tides and the rotation in equilibrium with them -/

namespace Posidonius.Univ
open Finset Order
open Gravity (Ignore)
open WHFast (VecDeriv)

section
variable {n : Nat} {k : Consts ℝ} {m : Models ℝ} {eps2 time : ℝ} {evolution : Bool} {ignore : Ignore}
  {u u' : Universe ℝ n} {h : Fin n}

/-- **C113**: the torque that an evaluation stores for a companion. -/
theorem C113_torque (hok : HostsOk u) (hh : u.hosts.tides = some h)
    (ct : u.consider.tides = true) (hc : AllCtl h u.particles) (hm : ∀ i, (u.particles i).mass ≠ 0)
    (hsep : ∀ i, i ≠ h → (u.particles i).inertialPosition ≠ (u.particles h).inertialPosition)
    (he : (evolution && u.consider.evolution) = false)
    (hs : ∀ i, (u.particles i).momentOfInertia • (u.particles i).spin = (u.particles i).angularMomentum)
    (hu : calculateAdditionalEffects k m eps2 time evolution true true ignore (inertialToHeliocentric u)
      = some u') {i : Fin n} (hi : i ≠ h)
    (nd : (u.particles i).evolution ∉ dynamicalTideModels) :
    let r := (u.particles i).inertialPosition - (u.particles h).inertialPosition
    let v := (u.particles i).inertialVelocity - (u.particles h).inertialVelocity
    (u'.particles i).tides.dAngularMomentumDt
      = -(9 / 2 * (u.particles h).mass ^ 2 * (u.particles i).radius ^ 10 * (u.particles i).tides.scaledDissipationFactor
          / Real.sqrt (r.dot r) ^ 8)
        • ((r.dot r) • (u.particles i).spin - (r.dot (u.particles i).spin) • r - r.cross v) := by
  intro r v
  obtain ⟨-, g, s, -, a⟩ := effects_balance hok hh ct hc hm hsep hu
  obtain ⟨inertia, e1, e2, e3⟩ := s i
  have hsp : (u'.particles i).spin = (u.particles i).spin := by
    rw [e1, ← hs i, Axes.sdiv_eq_smul, smul_smul, ← (e3 he).1, inv_mul_cancel₀ e2, one_smul]
  have hrad := (e3 he).2
  have hr : 0 < r.dot r := separation_pos (hsep i hi)
  have nd' : hasDynamicalTide (u.particles i).evolution = false := by
    cases hv : hasDynamicalTide (u.particles i).evolution with
    | false => rfl
    | true => exact absurd ((hasDynamicalTide_iff _).1 hv) nd
  obtain ⟨sh, sp, ⟨t, -, ht⟩, -, a2, -, a4⟩ := a i hi
  have gi := g i hi
  have ht' : sp = (u.particles i).tides.scaledDissipationFactor := by
    rw [ht, particleSigma, getPairFactorOrElse, nd']
    rfl
  rw [a4]
  unfold ctlTorque
  simp only [Bool.false_eq_true, if_false]
  have hnorm : ∀ x : Axes ℝ, x.norm2 = x.dot x := fun _ => rfl
  rw [a2, hsp, gi.planetary, gi.position, gi.velocity, gi.distance, ht', hrad, hnorm,
    show (u.particles i).inertialPosition - (u.particles h).inertialPosition = r from rfl,
    show (u.particles i).inertialVelocity - (u.particles h).inertialVelocity = v from rfl]
  have hy : Real.sqrt (r.dot r) ^ 2 = r.dot r := Real.sq_sqrt hr.le
  have hd : 0 < Real.sqrt (r.dot r) := Real.sqrt_pos.2 hr
  generalize Real.sqrt (r.dot r) = d at hy hd
  have key : ∀ x y z c : ℝ, -(c / d ^ 7 * (d * x - y / d - 1 / d * z)) = -(c / d ^ 8) * (d ^ 2 * x - y - z) := by
    intro x y z c
    field_simp
  rw [← hy]
  ext <;>
    simp only [Axes.neg_x, Axes.neg_y, Axes.neg_z, Axes.sub_x, Axes.sub_y, Axes.sub_z, Axes.smul_x, Axes.smul_y,
      Axes.smul_z, Axes.sdiv_x, Axes.sdiv_y, Axes.sdiv_z, lit_real, Rat.cast_one] <;>
    exact key _ _ _ _

end

/-- The angular velocity (in radians per day) of a body that rotates with the period that tools.rs computes. -/
theorem pseudoSynchronous_rate (gSi mSun au hour a e m1 m2 : ℝ) (hg : 0 < gSi) (hms : 0 < mSun) (hau : 0 < au)
    (hh : 0 < hour) (ha : 0 < a) (he0 : 0 ≤ e) (he1 : e < 1) (hm : 0 < m1 + m2) :
    2 * Real.pi / Tools.pseudoSynchronizationPeriod gSi mSun au hour a e m1 m2
      = Real.sqrt (gSi * mSun * (m1 + m2) / (a * au) ^ 3) * (24 * hour)
        * ((1 + 15 / 2 * e ^ 2 + 45 / 8 * e ^ 4 + 5 / 16 * e ^ 6)
          / ((1 + 3 * e ^ 2 + 3 / 8 * e ^ 4) * Real.sqrt (1 - e ^ 2) ^ 3)) := by
  have hA : 0 < a * au := by positivity
  have h15 : ((1.5 : ℚ) : ℝ) = 1.5 := by norm_num
  have hp : (1 - e * e) ^ (1.5 : ℝ) = Real.sqrt (1 - e ^ 2) ^ 3 := by
    have hnn : (0 : ℝ) ≤ 1 - e ^ 2 := by nlinarith
    rw [show (1 - e * e) = 1 - e ^ 2 by ring]
    generalize 1 - e ^ 2 = y at hnn
    rw [Real.sqrt_eq_rpow, ← Real.rpow_natCast, ← Real.rpow_mul hnn]
    norm_num
  have hB : (a * au) ^ (-(3 : ℝ) / 2) = (Real.sqrt ((a * au) ^ 3))⁻¹ := by
    rw [show (-(3 : ℝ) / 2) = -((3 : ℝ) / 2) by ring, Real.rpow_neg hA.le, Real.sqrt_eq_rpow, ← Real.rpow_natCast,
      ← Real.rpow_mul hA.le]
    norm_num
  have hw : 0 < Real.sqrt (1 - e ^ 2) := Real.sqrt_pos.2 (by nlinarith)
  have hK : 0 < Real.sqrt (gSi * mSun * (m1 + m2)) := Real.sqrt_pos.2 (by positivity)
  have hC : 0 < Real.sqrt ((a * au) ^ 3) := Real.sqrt_pos.2 (by positivity)
  simp only [Tools.pseudoSynchronizationPeriod, Tools.twoPi_real, lit_real, powf_real, sqrt_real, Rat.cast_one,
      Rat.cast_ofNat, h15, mul_one, hB, hp]
  rw [Real.sqrt_div (by positivity)]
  have hpi := Real.pi_pos
  field_simp

theorem in_plane {p q : Axes ℝ} (hp : p.dot p = 1) (hq : q.dot q = 1) (hpq : p.dot q = 0) (x y x' y' s : ℝ) :
    (x • p + y • q).dot (x • p + y • q) = x ^ 2 + y ^ 2 ∧ (x • p + y • q).dot (s • p.cross q) = 0
    ∧ (x • p + y • q).cross (x' • p + y' • q) = (x * y' - y * x') • p.cross q := by
  refine ⟨?_, ?_, ?_⟩
  · simp only [Axes.dot, Axes.add_x, Axes.add_y, Axes.add_z, Axes.smul_x, Axes.smul_y, Axes.smul_z] at *
    linear_combination x ^ 2 * hp + y ^ 2 * hq + 2 * x * y * hpq
  · simp only [Axes.dot, Axes.cross, Axes.add_x, Axes.add_y, Axes.add_z, Axes.smul_x, Axes.smul_y, Axes.smul_z]
    ring
  · ext <;> simp only [Axes.cross, Axes.add_x, Axes.add_y, Axes.add_z, Axes.smul_x, Axes.smul_y, Axes.smul_z] <;> ring

theorem VecDeriv.unique {f : ℝ → Axes ℝ} {a b : Axes ℝ} {t : ℝ} (ha : VecDeriv f a t) (hb : VecDeriv f b t) : a = b :=
  Axes.ext (ha.1.unique hb.1) (ha.2.1.unique hb.2.1) (ha.2.2.unique hb.2.2)

/-- **C113**: let a companion run around the tidal host on a Kepler ellipse (`E` is the eccentric anomaly, `motion` the mean
motion per day, `p` and `q` an orthonormal basis of the plane of the orbit with `p` towards the pericentre), and rotate with
the angular velocity `omega` around the normal of the orbit.  Then the angular momentum that tides give it in a revolution is
proportional to the difference between the rate that `calculate_pseudo_synchronization_period` returns and its own rate. -/
theorem C113_revolution {n : Nat} {k : Consts ℝ} {m : Models ℝ} {eps2 : ℝ} {evolution : Bool} {ignore : Ignore}
    {u u' : ℝ → Universe ℝ n} {h i : Fin n} {M mass R sigma omega gSi mSun au hour a e motion : ℝ} {p q : Axes ℝ} {E : ℝ → ℝ}
    (hok : ∀ t, HostsOk (u t)) (hh : ∀ t, (u t).hosts.tides = some h) (ct : ∀ t, (u t).consider.tides = true)
    (hc : ∀ t, AllCtl h (u t).particles) (hm : ∀ t i, ((u t).particles i).mass ≠ 0)
    (hsep : ∀ t i, i ≠ h → ((u t).particles i).inertialPosition ≠ ((u t).particles h).inertialPosition)
    (hev : ∀ t, (evolution && (u t).consider.evolution) = false)
    (hs : ∀ t i, ((u t).particles i).momentOfInertia • ((u t).particles i).spin = ((u t).particles i).angularMomentum)
    (hu : ∀ t, calculateAdditionalEffects k m eps2 t evolution true true ignore (inertialToHeliocentric (u t))
      = some (u' t)) (hi : i ≠ h) (nd : ∀ t, ((u t).particles i).evolution ∉ dynamicalTideModels)
    (hM : ∀ t, ((u t).particles h).mass = M) (hR : ∀ t, ((u t).particles i).radius = R)
    (hsig : ∀ t, ((u t).particles i).tides.scaledDissipationFactor = sigma)
    (hg : 0 < gSi) (hms : 0 < mSun) (hau : 0 < au) (hhour : 0 < hour) (ha : 0 < a) (he0 : 0 ≤ e) (he1 : e < 1)
    (hmass : 0 < M + mass) (hmotion : motion = Real.sqrt (gSi * mSun * (M + mass) / (a * au) ^ 3) * (24 * hour))
    (hp : p.dot p = 1) (hq : q.dot q = 1) (hpq : p.dot q = 0)
    (hE : ∀ t, E t - e * Real.sin (E t) = motion * t)
    (orbit : ∀ t, ((u t).particles i).inertialPosition - ((u t).particles h).inertialPosition
      = (a * (Real.cos (E t) - e)) • p + (a * Real.sqrt (1 - e ^ 2) * Real.sin (E t)) • q)
    (moves : ∀ t, VecDeriv (fun t => ((u t).particles i).inertialPosition - ((u t).particles h).inertialPosition)
      (((u t).particles i).inertialVelocity - ((u t).particles h).inertialVelocity) t)
    (hspin : ∀ t, ((u t).particles i).spin = omega • p.cross q) :
    (∃ L : ℝ → Axes ℝ, ∀ t, VecDeriv L ((u' t).particles i).tides.dAngularMomentumDt t)
    ∧ ∀ L : ℝ → Axes ℝ, (∀ t, VecDeriv L ((u' t).particles i).tides.dAngularMomentumDt t) →
      ∀ t, L (t + 2 * Real.pi / motion) - L t
        = (2 * Real.pi / motion * (9 / 2 * M ^ 2 * R ^ 10 * sigma)
            * ((1 + 3 * e ^ 2 + 3 / 8 * e ^ 4) / (a ^ 6 * Real.sqrt (1 - e ^ 2) ^ 9))
            * (2 * Real.pi / Tools.pseudoSynchronizationPeriod gSi mSun au hour a e M mass - omega)) • p.cross q := by
  have hn : 0 < motion := by
    rw [hmotion]
    have : 0 < Real.sqrt (gSi * mSun * (M + mass) / (a * au) ^ 3) := Real.sqrt_pos.2 (by positivity)
    positivity
  have hw2 : Real.sqrt (1 - e ^ 2) ^ 2 = 1 - e ^ 2 := Real.sq_sqrt (by nlinarith)
  have hw : 0 < Real.sqrt (1 - e ^ 2) := Real.sqrt_pos.2 (by nlinarith)
  rw [pseudoSynchronous_rate gSi mSun au hour a e M mass hg hms hau hhour ha he0 he1 hmass, ← hmotion]
  obtain ⟨I6, I8, d6, d8, p6, p8⟩ := orbit_integrals he0 he1 hn.ne' hE
  generalize Real.sqrt (1 - e ^ 2) = w at hw hw2 orbit p6 p8
  -- the torque along the orbit
  have torque : ∀ t, ((u' t).particles i).tides.dAngularMomentumDt
      = (-(9 / 2 * M ^ 2 * R ^ 10 * sigma / a ^ 6) * (omega * (1 / (1 - e * Real.cos (E t)) ^ 6)
          - motion * w * (1 / (1 - e * Real.cos (E t)) ^ 8))) • p.cross q := by
    intro t
    have T := C113_torque (hok t) (hh t) (ct t) (hc t) (hm t) (hsep t) (hev t) (hs t) (hu t) hi (nd t)
    dsimp only at T
    have mv := moves t
    rw [show (fun t => ((u t).particles i).inertialPosition - ((u t).particles h).inertialPosition)
      = fun t => (a * (Real.cos (E t) - e)) • p + (a * w * Real.sin (E t)) • q from funext orbit] at mv
    have hD := Order.distance_pos he0 he1 (E t)
    have dE := anomaly_deriv he0 he1 hn.ne' hE t
    have hv := VecDeriv.unique mv (WHFast.vecDeriv_combination (a := 0) (b := 0) p q
      ((((Real.hasDerivAt_cos (E t)).comp t dE).sub_const e).const_mul a)
      (((Real.hasDerivAt_sin (E t)).comp t dE).const_mul (a * w)))
    obtain ⟨g1, g2, g3⟩ := in_plane hp hq hpq (a * (Real.cos (E t) - e)) (a * w * Real.sin (E t))
      (a * (-Real.sin (E t) * (motion / (1 - e * Real.cos (E t)))))
      (a * w * (Real.cos (E t) * (motion / (1 - e * Real.cos (E t))))) omega
    have hsc := Real.sin_sq_add_cos_sq (E t)
    have hd : (a * (Real.cos (E t) - e)) ^ 2 + (a * w * Real.sin (E t)) ^ 2 = (a * (1 - e * Real.cos (E t))) ^ 2 := by
      linear_combination a ^ 2 * (Real.sin (E t) ^ 2 * hw2 + (1 - e ^ 2) * hsc)
    have hl : a * (Real.cos (E t) - e) * (a * w * (Real.cos (E t) * (motion / (1 - e * Real.cos (E t)))))
        - a * w * Real.sin (E t) * (a * (-Real.sin (E t) * (motion / (1 - e * Real.cos (E t))))) = a ^ 2 * w * motion := by
      have : motion / (1 - e * Real.cos (E t)) * (1 - e * Real.cos (E t)) = motion := div_mul_cancel₀ _ hD.ne'
      linear_combination a ^ 2 * w * (motion / (1 - e * Real.cos (E t))) * hsc + a ^ 2 * w * this
    rw [T, hM, hR, hsig, hspin, orbit, hv, g1, g2, g3, hd, hl, Real.sqrt_sq (by positivity), zero_smul, sub_zero,
      smul_smul, ← sub_smul, smul_smul]
    congr 1
    field_simp
  obtain ⟨A, hA⟩ : ∃ A, A = 9 / 2 * M ^ 2 * R ^ 10 * sigma / a ^ 6 := ⟨_, rfl⟩
  rw [← hA] at torque
  have dI : ∀ t, HasDerivAt (fun t => -A * (omega * I6 t - motion * w * I8 t))
      (-A * (omega * (1 / (1 - e * Real.cos (E t)) ^ 6) - motion * w * (1 / (1 - e * Real.cos (E t)) ^ 8))) t :=
    fun t => (((d6 t).const_mul omega).sub ((d8 t).const_mul (motion * w))).const_mul (-A)
  have hL0 : ∀ t, VecDeriv (fun t => (-A * (omega * I6 t - motion * w * I8 t)) • p.cross q)
      ((u' t).particles i).tides.dAngularMomentumDt t := by
    intro t
    rw [torque]
    exact ⟨(dI t).mul_const _, (dI t).mul_const _, (dI t).mul_const _⟩
  refine ⟨⟨_, hL0⟩, fun L hL t => ?_⟩
  have same : ∀ f g : ℝ → ℝ, ∀ d : ℝ → ℝ, (∀ t, HasDerivAt f (d t) t) → (∀ t, HasDerivAt g (d t) t) →
      ∀ s t, f s - f t = g s - g t := by
    intro f g d hf hg s t
    have hz : ∀ x, HasDerivAt (fun y => f y - g y) 0 x := fun x => ((hf x).sub (hg x)).congr_deriv (sub_self _)
    have := is_const_of_deriv_eq_zero (fun x => (hz x).differentiableAt) (fun x => (hz x).deriv) s t
    linarith
  have change : L (t + 2 * Real.pi / motion) - L t
      = (-A * (omega * I6 (t + 2 * Real.pi / motion) - motion * w * I8 (t + 2 * Real.pi / motion))) • p.cross q
        - (-A * (omega * I6 t - motion * w * I8 t)) • p.cross q :=
    Axes.ext (same _ _ _ (fun t => (hL t).1) (fun t => (hL0 t).1) _ _)
      (same _ _ _ (fun t => (hL t).2.1) (fun t => (hL0 t).2.1) _ _)
      (same _ _ _ (fun t => (hL t).2.2) (fun t => (hL0 t).2.2) _ _)
  rw [change, ← sub_smul]
  congr 1
  have e6 := p6 t
  have e8 := p8 t
  have : -A * (omega * I6 (t + 2 * Real.pi / motion) - motion * w * I8 (t + 2 * Real.pi / motion))
      - -A * (omega * I6 t - motion * w * I8 t)
      = -A * (omega * (I6 (t + 2 * Real.pi / motion) - I6 t) - motion * w * (I8 (t + 2 * Real.pi / motion) - I8 t)) := by
    ring
  rw [this, e6, e8, hA]
  field_simp
  ring

/-- **C113**: hence a body that feels tides neither gains nor loses spin in a revolution exactly if it rotates with the period
that the code computes; a faster body loses spin and a slower one gains it. -/
theorem C113_equilibrium {x y M R sigma motion a e : ℝ} (hM : M ≠ 0) (hR : R ≠ 0) (hsigma : 0 < sigma) (ha : 0 < a)
    (he0 : 0 ≤ e) (he1 : e < 1) (hn : 0 < motion) {p q : Axes ℝ} (hp : p.dot p = 1) (hq : q.dot q = 1) (hpq : p.dot q = 0)
    {gain : Axes ℝ} (hgain : gain = (2 * Real.pi / motion * (9 / 2 * M ^ 2 * R ^ 10 * sigma)
      * ((1 + 3 * e ^ 2 + 3 / 8 * e ^ 4) / (a ^ 6 * Real.sqrt (1 - e ^ 2) ^ 9)) * (x - y)) • p.cross q) :
    (gain = 0 ↔ y = x) ∧ (0 < gain.dot (p.cross q) ↔ y < x) ∧ (gain.dot (p.cross q) < 0 ↔ x < y) := by
  have hw : 0 < Real.sqrt (1 - e ^ 2) := Real.sqrt_pos.2 (by nlinarith)
  have hnn : (p.cross q).dot (p.cross q) = 1 := by
    simp only [Axes.dot, Axes.cross] at *
    linear_combination (q.x * q.x + q.y * q.y + q.z * q.z) * hp + hq - (p.x * q.x + p.y * q.y + p.z * q.z) * hpq
  have hpi := Real.pi_pos
  have hM2 : 0 < M ^ 2 := by positivity
  have hR2 : 0 < R ^ 10 := Even.pow_pos (by decide) hR
  obtain ⟨c, hc, ec⟩ : ∃ c : ℝ, 0 < c ∧ c = 2 * Real.pi / motion * (9 / 2 * M ^ 2 * R ^ 10 * sigma)
      * ((1 + 3 * e ^ 2 + 3 / 8 * e ^ 4) / (a ^ 6 * Real.sqrt (1 - e ^ 2) ^ 9)) := ⟨_, by positivity, rfl⟩
  rw [← ec] at hgain
  have hdot : gain.dot (p.cross q) = c * (x - y) := by
    rw [hgain, Axes.smul_dot, hnn, mul_one]
  refine ⟨⟨fun h0 => ?_, fun h0 => ?_⟩, ?_, ?_⟩
  · rw [h0, Axes.zero_dot] at hdot
    have := (mul_eq_zero.1 hdot.symm).resolve_left hc.ne'
    linarith
  · rw [hgain, h0, sub_self, mul_zero, zero_smul]
  · rw [hdot, mul_pos_iff_of_pos_left hc, sub_pos]
  · rw [hdot]
    constructor
    · intro h0
      by_contra hxy
      nlinarith [not_lt.1 hxy]
    · intro hxy
      nlinarith

/-- A planet on an ellipse of the eccentricity 3/5 that rotates with the rate `omega`; `E` is its eccentric anomaly. -/
noncomputable def ellipticUniverse (omega E : ℝ) : Universe ℝ 2 :=
  { exampleUniverse with
    particles := fun i => if i = 0 then { exampleStar with spin := ⟨2, 0, 0⟩ } else
      { examplePlanet with
        inertialPosition := (Real.cos E - 3 / 5) • ⟨1, 0, 0⟩ + (Real.sqrt (1 - (3 / 5) ^ 2) * Real.sin E) • ⟨0, 1, 0⟩
        inertialVelocity := (-Real.sin E * (1 / (1 - 3 / 5 * Real.cos E))) • ⟨1, 0, 0⟩
          + (Real.sqrt (1 - (3 / 5) ^ 2) * (Real.cos E * (1 / (1 - 3 / 5 * Real.cos E)))) • ⟨0, 1, 0⟩
        spin := ⟨0, 0, omega⟩
        angularMomentum := ⟨0, 0, omega⟩ } }

theorem ellipticUniverse_defined (k : Consts ℝ) (m : Models ℝ) (omega E t : ℝ) :
    ∃ u', calculateAdditionalEffects k m 0 t false true true .none (inertialToHeliocentric (ellipticUniverse omega E))
      = some u' := by
  have hh : HasHosts (inertialToHeliocentric (ellipticUniverse omega E)) := by
    constructor <;> simp [inertialToHeliocentric, ellipticUniverse, exampleUniverse]
  have hn := (additionalEffects_none (k := k) (m := m) (eps2 := 0) (time := t) (evolution := false)
    (dL := true) (acc := true) (ignore := .none) hh rfl).not
  refine Option.ne_none_iff_exists'.1 (hn.2 ?_)
  rintro ⟨i, hi⟩
  have hI : ((inertialToHeliocentric (ellipticUniverse omega E)).particles i).momentOfInertia = 1 := by
    by_cases hi : i = 0 <;>
      simp [inertialToHeliocentric, ellipticUniverse, exampleUniverse, mapHost, mapOthers, hi, examplePlanet,
        exampleStar, toHeliocentric, zeroHeliocentric]
  rw [hI] at hi
  simp at hi

/-- A planet on an elliptic orbit that rotates with the period the code computes: the tides leave its spin at the end of every
revolution as it was. -/
example (k : Consts ℝ) (m : Models ℝ) : ∃ (omega : ℝ) (E : ℝ → ℝ) (u' : ℝ → Universe ℝ 2) (L : ℝ → Axes ℝ),
    (∀ t, calculateAdditionalEffects k m 0 t false true true .none (inertialToHeliocentric (ellipticUniverse omega (E t)))
      = some (u' t))
    ∧ (∀ t, VecDeriv L ((u' t).particles 1).tides.dAngularMomentumDt t)
    ∧ ∀ t, L (t + 2 * Real.pi) = L t := by
  obtain ⟨E, hE⟩ := anomaly_exists (e := 3 / 5) (by norm_num) 1
  obtain ⟨omega, ho⟩ : ∃ omega : ℝ,
      omega = 2 * Real.pi / Tools.pseudoSynchronizationPeriod (1 / 2) 1 1 (1 / 24) 1 (3 / 5) 1 1 := ⟨_, rfl⟩
  have hd := fun t => ellipticUniverse_defined k m omega (E t) t
  choose u' hu using hd
  have hdist : ∀ t, ((ellipticUniverse omega (E t)).particles 1).inertialPosition ≠ 0 := by
    intro t h0
    have hx := congrArg Axes.x h0
    have hy := congrArg Axes.y h0
    simp [ellipticUniverse, Axes.smul_x, Axes.smul_y, Axes.add_x, Axes.add_y] at hx hy
    have hw : Real.sqrt (1 - (3 / 5) ^ 2) ≠ 0 := (Real.sqrt_pos.2 (by norm_num)).ne'
    have hs := (hy.resolve_left (by simpa using hw))
    have := Real.sin_sq_add_cos_sq (E t)
    rw [hs, sub_eq_zero.1 hx] at this
    norm_num at this
  have rel : ∀ t, ((ellipticUniverse omega (E t)).particles 1).inertialPosition
      - ((ellipticUniverse omega (E t)).particles 0).inertialPosition
      = (Real.cos (E t) - 3 / 5) • (⟨1, 0, 0⟩ : Axes ℝ) + (Real.sqrt (1 - (3 / 5) ^ 2) * Real.sin (E t)) • ⟨0, 1, 0⟩ := by
    intro t
    ext <;> simp [ellipticUniverse, exampleStar, blank]
  have rel' : ∀ t, ((ellipticUniverse omega (E t)).particles 1).inertialVelocity
      - ((ellipticUniverse omega (E t)).particles 0).inertialVelocity
      = (-Real.sin (E t) * (1 / (1 - 3 / 5 * Real.cos (E t)))) • (⟨1, 0, 0⟩ : Axes ℝ)
        + (Real.sqrt (1 - (3 / 5) ^ 2) * (Real.cos (E t) * (1 / (1 - 3 / 5 * Real.cos (E t))))) • ⟨0, 1, 0⟩ := by
    intro t
    ext <;> simp [ellipticUniverse, exampleStar, blank]
  obtain ⟨⟨L, hL⟩, all⟩ := C113_revolution (u := fun t => ellipticUniverse omega (E t)) (u' := u') (h := 0) (i := 1) (M := 1)
    (mass := 1) (R := 1) (sigma := 1) (omega := omega) (gSi := 1 / 2) (mSun := 1) (au := 1) (hour := 1 / 24) (a := 1)
    (e := 3 / 5) (motion := 1) (p := ⟨1, 0, 0⟩) (q := ⟨0, 1, 0⟩) (E := E)
    (fun t => by constructor <;> simp [ellipticUniverse, exampleUniverse])
    (fun t => rfl) (fun t => rfl)
    (fun t => by
      refine ⟨⟨1, 1, 0, by simp [ellipticUniverse, exampleStar]⟩, fun i hi => ⟨1, 1, 0, ?_⟩⟩
      simp [ellipticUniverse, examplePlanet, hi])
    (fun t i => by by_cases hi : i = 0 <;> simp [ellipticUniverse, hi, examplePlanet, exampleStar])
    (fun t i hi => by
      have : i = 1 := by omega
      subst this
      have h0 : ((ellipticUniverse omega (E t)).particles 0).inertialPosition = 0 := by
        simp [ellipticUniverse, exampleStar, blank]
      rw [h0]
      exact hdist t)
    (fun t => rfl)
    (fun t i => by by_cases hi : i = 0 <;> simp [ellipticUniverse, hi, exampleStar, examplePlanet])
    hu (by decide)
    (fun t => by simp [ellipticUniverse, examplePlanet, blank, dynamicalTideModels])
    (fun t => by simp [ellipticUniverse, exampleStar]) (fun t => by simp [ellipticUniverse, examplePlanet])
    (fun t => by simp [ellipticUniverse, examplePlanet])
    (by norm_num) (by norm_num) (by norm_num) (by norm_num) (by norm_num) (by norm_num) (by norm_num) (by norm_num)
    (by norm_num) (by simp [Axes.dot]) (by simp [Axes.dot]) (by simp [Axes.dot]) hE
    (fun t => by simp [rel])
    (fun t => by
      have dE := anomaly_deriv (e := 3 / 5) (by norm_num) (by norm_num) one_ne_zero hE t
      have hv := WHFast.vecDeriv_combination (a := 0) (b := 0) ⟨1, 0, 0⟩ ⟨0, 1, 0⟩
        (((Real.hasDerivAt_cos (E t)).comp t dE).sub_const (3 / 5))
        (((Real.hasDerivAt_sin (E t)).comp t dE).const_mul (Real.sqrt (1 - (3 / 5) ^ 2)))
      rw [show (fun t => ((ellipticUniverse omega (E t)).particles 1).inertialPosition
        - ((ellipticUniverse omega (E t)).particles 0).inertialPosition) = _ from funext rel, rel']
      exact hv)
    (fun t => by
      ext <;> simp [ellipticUniverse, Axes.cross])
  refine ⟨omega, E, u', L, hu, hL, fun t => ?_⟩
  have := all L hL t
  rw [← ho, sub_self, mul_zero, zero_smul, div_one] at this
  exact sub_eq_zero.1 this

end Posidonius.Univ
