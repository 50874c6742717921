import Verif.Lemmas.Analysis
import Verif.Props.TidalOrbit
import Verif.Props.TidalEnergy

/-! # C128: the heating of the analysis -/

namespace Posidonius.Univ
open Gravity (Ignore)
variable {n : Nat} {k : Consts ℝ} {m : Models ℝ} {eps2 : ℝ} {evolution : Bool} {ignore : Ignore}
  {u u' : ℝ → Universe ℝ n} {h i : Fin n} {mu a e : ℝ} {p q : Axes ℝ} {M mi Rh Ri lh li sh si : ℝ} {wh wi : Axes ℝ}

/-- The heat that the simulator reports along the orbit. -/
theorem TidalOrbit.heat (o : TidalOrbit k m eps2 evolution ignore u u' h i mu a e p q M mi Rh Ri lh li sh si wh wi) (t : ℝ) :
    denergyDt ((u' t).particles i) = tidalHeat M Ri si wi
      (((u t).particles i).inertialPosition - ((u t).particles h).inertialPosition)
      (((u t).particles i).inertialVelocity - ((u t).particles h).inertialVelocity) := by
  obtain ⟨-, g, s, -, a⟩ := effects_balance (o.hosts t) (o.host t) (o.tides t) (o.ctl t) (o.masses t) (o.apart t) (o.evaluated t)
  have hr := separation_pos (o.apart t i o.other)
  obtain ⟨sh, sp, ⟨_, -, ht⟩, -, a2, -, -⟩ := a i o.other
  have nd : hasDynamicalTide ((u t).particles i).evolution = false := by
    cases hv : hasDynamicalTide ((u t).particles i).evolution with
    | false => rfl
    | true => exact absurd ((hasDynamicalTide_iff _).1 hv) (o.companionEquilibrium t)
  have ht' : sp = ((u t).particles i).tides.scaledDissipationFactor := by
    rw [ht, particleSigma, getPairFactorOrElse, nd]
    rfl
  have hrad : ((u' t).particles i).radius = ((u t).particles i).radius := by
    obtain ⟨inertia, e1, e2, e3⟩ := s i
    exact (e3 (o.static t)).2
  have key := C35_heating_partial (o.hosts t) (o.host t) (o.tides t) (o.ctl t) (o.masses t) (o.apart t) (o.static t) (o.spins t)
    (o.evaluated t) i o.other
  dsimp only at key
  rw [key, a2, ht', hrad, (g i o.other).distance, o.companionRadius, o.companionSpin, o.companionDissipation, o.hostMass]
  generalize ((u t).particles i).inertialPosition - ((u t).particles h).inertialPosition = r at *
  generalize ((u t).particles i).inertialVelocity - ((u t).particles h).inertialVelocity = v at *
  have hs : 0 < Real.sqrt (r.dot r) := Real.sqrt_pos.2 hr
  unfold tidalHeat
  show _ / Real.sqrt (r.dot r) ^ 7 / Real.sqrt (r.dot r) *
      (2 * (r.dot v / Real.sqrt (r.dot r)) ^ 2 + (v - wi.cross r).dot (v - wi.cross r)) = _
  generalize Real.sqrt (r.dot r) = d at hs
  field_simp
  ring

end Posidonius.Univ

namespace Posidonius.Analysis
open Univ (Ellipse Gain orbitRate hut1 hut2 hut5 tidalHeat TidalOrbit denergyDt orbitRate_pos plane_cross Universe Consts Models
  calculateAdditionalEffects inertialToHeliocentric tidalUniverse tidalUniverse_orbit)
open Gravity (Ignore)
open Kepler (len)

/-- Length and normal component of a vector. -/
theorem spin_parts {p q : Axes ℝ} (hp : p.dot p = 1) (hq : q.dot q = 1) (hpq : p.dot q = 0) (s : Axes ℝ) :
    len s ^ 2 = (s.dot p) ^ 2 + (s.dot q) ^ 2 + (s.dot (p.cross q)) ^ 2 := by
  have : s.dot s * (p.dot p * q.dot q - p.dot q ^ 2) = (s.dot p) ^ 2 * q.dot q + (s.dot q) ^ 2 * p.dot p
      - 2 * s.dot p * s.dot q * p.dot q + (s.dot (p.cross q)) ^ 2 := by
    simp only [Axes.dot, Axes.cross]
    ring
  rw [hp, hq, hpq] at this
  rw [len, Real.sq_sqrt (Axes.dot_self_nonneg _)]
  linarith

/-- Everywhere on an ellipse the script finds the same obliquity, the angle between rotation and normal. -/
theorem obliquity_on_ellipse {mu a e : ℝ} {p q : Axes ℝ} {x v : ℝ → Axes ℝ} (o : Ellipse mu a e p q x v) (s : Axes ℝ) (t : ℝ) :
    len s * Real.cos (obliquity (x t) (v t) s * Real.pi / 180) = s.dot (p.cross q) := by
  obtain ⟨f, L, H, hl, hh, -, -, -, hy, -, -, hx, hv, -⟩ := o.frame
  have hc : (x t).cross (v t) = H • p.cross q := by
    rw [hx, hv, plane_cross]
    congr 1
    have := hy t
    have h2 : Real.sin (f t) ^ 2 = 1 - Real.cos (f t) ^ 2 := by linarith [Real.sin_sq_add_cos_sq (f t)]
    field_simp
    linear_combination h2
  have hn := Univ.normal_dot o.pp o.qq o.pq
  have hlen : len ((x t).cross (v t)) = H := by
    rw [len, hc, Axes.smul_dot, Axes.dot_smul, hn, mul_one, ← pow_two, Real.sqrt_sq hh.le]
  rw [cos_obliquity _ _ _ (by rw [hlen]; exact hh), hlen, hc, Axes.smul_dot, mul_div_cancel_left₀ _ hh.ne', Axes.dot_comm]

variable {n : Nat} {k : Consts ℝ} {m : Models ℝ} {eps2 : ℝ} {evolution : Bool} {ignore : Ignore}
  {u u' : ℝ → Universe ℝ n} {h i : Fin n} {mu a e : ℝ} {p q : Axes ℝ} {M mi Rh Ri lh li sh si k2dt : ℝ} {wh wi : Axes ℝ}

/-- **C128**: the heat that the simulator reports in a revolution is the heating of the analysis times the period, up to a term
that changes its sign with the direction of the line where the equator crosses the plane of the orbit. -/
theorem C128_average (o : TidalOrbit k m eps2 evolution ignore u u' h i mu a e p q M mi Rh Ri lh li sh si wh wi)
    (hG : 0 < k.g) (hM : 0 < M) (hmi : 0 < mi) (hR : 0 < Ri) (hmu : mu = k.g * (mi + M))
    (hs : si = 2 * k.g * k2dt / (3 * Ri ^ 5)) (t0 : ℝ) :
    Gain (fun t => denergyDt ((u' t).particles i)) (2 * Real.pi / orbitRate mu a)
      (2 * Real.pi / orbitRate mu a * (
        energydot a e (len wi) (obliquity (((u t0).particles i).inertialPosition - ((u t0).particles h).inertialPosition)
          (((u t0).particles i).inertialVelocity - ((u t0).particles h).inertialVelocity) wi * Real.pi / 180) k.g mi M Ri k2dt
        + 3 / 2 * k.g * k2dt * M ^ 2 * Ri ^ 5 / a ^ 6 * (equinoxTerm e / Real.sqrt (1 - e ^ 2) ^ 9)
          * ((wi.dot q) ^ 2 - (wi.dot p) ^ 2))) := by
  refine (heat_gain o.orbit M Ri si wi).congr o.heat ?_
  have ha := o.orbit.size
  have hn := orbitRate_pos o.orbit.attracts ha
  have hw : 0 < Real.sqrt (1 - e ^ 2) := Real.sqrt_pos.2 (by nlinarith [o.orbit.round, o.orbit.closed])
  have ho := obliquity_on_ellipse o.orbit wi t0
  have hp := spin_parts o.orbit.pp o.orbit.qq o.orbit.pq wi
  rw [energydot_real hG ha hmi hM hR o.orbit.round o.orbit.closed, ← hmu, hs]
  generalize obliquity _ _ _ * Real.pi / 180 = obl at *
  have e1 : (1 + Real.cos obl ^ 2) / 2 * len wi ^ 2 = (len wi ^ 2 + (wi.dot (p.cross q)) ^ 2) / 2 := by
    rw [← ho]; ring
  rw [ho, e1, hp]
  generalize Real.sqrt (1 - e ^ 2) = w at *
  generalize orbitRate mu a = n at *
  field_simp
  ring

/-- **C128**: the heat of a revolution is the heating of the analysis times the period exactly if the orbit is a circle or the
rotation axis is tilted as much along the major as along the minor axis of the orbit, in particular if it is not tilted. -/
theorem C128_exactly (o : TidalOrbit k m eps2 evolution ignore u u' h i mu a e p q M mi Rh Ri lh li sh si wh wi)
    (hG : 0 < k.g) (hM : 0 < M) (hmi : 0 < mi) (hR : 0 < Ri) (hmu : mu = k.g * (mi + M)) (hk : 0 < k2dt)
    (hs : si = 2 * k.g * k2dt / (3 * Ri ^ 5)) (t0 : ℝ) :
    Gain (fun t => denergyDt ((u' t).particles i)) (2 * Real.pi / orbitRate mu a)
      (2 * Real.pi / orbitRate mu a *
        energydot a e (len wi) (obliquity (((u t0).particles i).inertialPosition - ((u t0).particles h).inertialPosition)
          (((u t0).particles i).inertialVelocity - ((u t0).particles h).inertialVelocity) wi * Real.pi / 180) k.g mi M Ri k2dt)
    ↔ e = 0 ∨ (wi.dot p) ^ 2 = (wi.dot q) ^ 2 := by
  have g := C128_average o hG hM hmi hR hmu hs t0
  have ha := o.orbit.size
  have hn := orbitRate_pos o.orbit.attracts ha
  have hw : 0 < Real.sqrt (1 - e ^ 2) := Real.sqrt_pos.2 (by nlinarith [o.orbit.round, o.orbit.closed])
  have hpi := Real.pi_pos
  have e1 : e = 0 ∨ (wi.dot p) ^ 2 = (wi.dot q) ^ 2 ↔ equinoxTerm e * ((wi.dot q) ^ 2 - (wi.dot p) ^ 2) = 0 := by
    rw [mul_eq_zero, sub_eq_zero, eq_comm (a := (wi.dot q) ^ 2)]
    refine or_congr_left ⟨fun h => by rw [h]; simp [equinoxTerm], fun h => ?_⟩
    have : e ^ 2 = 0 := by
      unfold equinoxTerm at h
      nlinarith [sq_nonneg e, sq_nonneg (e ^ 2)]
    exact pow_eq_zero_iff two_ne_zero |>.1 this
  rw [e1]
  constructor
  · intro g'
    have := g.unique g'
    have hc : 2 * Real.pi / orbitRate mu a * (3 / 2 * k.g * k2dt * M ^ 2 * Ri ^ 5 / a ^ 6 / Real.sqrt (1 - e ^ 2) ^ 9) ≠ 0 := by
      positivity
    refine (mul_eq_zero.1 ?_).resolve_left hc
    linear_combination this
  · intro h0
    refine g.congr (fun _ => rfl) ?_
    rw [show ∀ c w : ℝ, c * (equinoxTerm e / w) * ((wi.dot q) ^ 2 - (wi.dot p) ^ 2)
      = c / w * (equinoxTerm e * ((wi.dot q) ^ 2 - (wi.dot p) ^ 2)) by intros; ring, h0, mul_zero, add_zero]

/-- **C128**: the mean over a revolution and over two positions of the equator, a quarter of a turn apart, is the heating of the
analysis. -/
theorem C128_evenly {v v' : ℝ → Universe ℝ n} {wj : Axes ℝ}
    (o : TidalOrbit k m eps2 evolution ignore u u' h i mu a e p q M mi Rh Ri lh li sh si wh wi)
    (o' : TidalOrbit k m eps2 evolution ignore v v' h i mu a e p q M mi Rh Ri lh li sh si wh wj)
    (hp : wj.dot p = -wi.dot q) (hq : wj.dot q = wi.dot p) (hn : wj.dot (p.cross q) = wi.dot (p.cross q))
    (hG : 0 < k.g) (hM : 0 < M) (hmi : 0 < mi) (hR : 0 < Ri) (hmu : mu = k.g * (mi + M))
    (hs : si = 2 * k.g * k2dt / (3 * Ri ^ 5)) (t0 : ℝ) :
    Gain (fun t => (denergyDt ((u' t).particles i) + denergyDt ((v' t).particles i)) / 2) (2 * Real.pi / orbitRate mu a)
      (2 * Real.pi / orbitRate mu a *
        energydot a e (len wi) (obliquity (((u t0).particles i).inertialPosition - ((u t0).particles h).inertialPosition)
          (((u t0).particles i).inertialVelocity - ((u t0).particles h).inertialVelocity) wi * Real.pi / 180) k.g mi M Ri k2dt) := by
  have g := C128_average o hG hM hmi hR hmu hs t0
  have g' := C128_average o' hG hM hmi hR hmu hs t0
  have l1 := spin_parts o.orbit.pp o.orbit.qq o.orbit.pq wi
  have l2 := spin_parts o.orbit.pp o.orbit.qq o.orbit.pq wj
  have hl : len wj = len wi := by
    have e2 : len wj ^ 2 = len wi ^ 2 := by rw [l1, l2, hp, hq, hn]; ring
    exact (sq_eq_sq₀ (Real.sqrt_nonneg _) (Real.sqrt_nonneg _)).1 e2
  have c1 := obliquity_on_ellipse o.orbit wi t0
  have c2 := obliquity_on_ellipse o'.orbit wj t0
  rw [hn, ← c1, hl] at c2
  have ha := o.orbit.size
  rw [energydot_real hG ha hmi hM hR o.orbit.round o.orbit.closed] at g g' ⊢
  rw [hl] at g'
  refine ((g.add g').const_mul (1 / 2)).congr (fun t => by ring) ?_
  generalize obliquity _ _ wi * Real.pi / 180 = x at *
  generalize obliquity _ _ wj * Real.pi / 180 = y at *
  have e3 : (1 + Real.cos y ^ 2) / 2 * len wi ^ 2 = (1 + Real.cos x ^ 2) / 2 * len wi ^ 2 := by
    linear_combination (len wi * Real.cos y + len wi * Real.cos x) / 2 * c2
  rw [c2, e3, hp, hq]
  ring

/-- A planet with a tilted axis on an orbit of the eccentricity 3/5: the heat of a revolution differs from the heating of the
analysis, but the mean over two positions of the equator does not. -/
example (k : Consts ℝ) (m : Models ℝ) (hk : k.g = 1 / 2) : ∃ (E E' : ℝ → ℝ) (v v' : ℝ → Universe ℝ 2) (x : ℝ),
    (∀ t, calculateAdditionalEffects k m 0 t false true true .none (inertialToHeliocentric (tidalUniverse ⟨1, 0, 1⟩ (E t)))
      = some (v t))
    ∧ (∀ t, calculateAdditionalEffects k m 0 t false true true .none (inertialToHeliocentric (tidalUniverse ⟨0, 1, 1⟩ (E' t)))
      = some (v' t))
    ∧ Gain (fun t => (denergyDt ((v t).particles 1) + denergyDt ((v' t).particles 1)) / 2) (2 * Real.pi / orbitRate 1 1)
        (2 * Real.pi / orbitRate 1 1 * x)
    ∧ ¬ Gain (fun t => denergyDt ((v t).particles 1)) (2 * Real.pi / orbitRate 1 1) (2 * Real.pi / orbitRate 1 1 * x) := by
  have h0 : k.g ≠ 0 := by rw [hk]; norm_num
  obtain ⟨E, v, o⟩ := tidalUniverse_orbit k m h0 ⟨1, 0, 1⟩
  obtain ⟨E', v', o'⟩ := tidalUniverse_orbit k m h0 ⟨0, 1, 1⟩
  have hs : (1 : ℝ) = 2 * k.g * 3 / (3 * 1 ^ 5) := by rw [hk]; norm_num
  have hmu : (1 : ℝ) = k.g * (1 + 1) := by rw [hk]; norm_num
  have hg : 0 < k.g := by rw [hk]; norm_num
  refine ⟨E, E', v, v', _, o.evaluated, o'.evaluated, C128_evenly o o' ?_ ?_ ?_ hg one_pos one_pos one_pos hmu hs 0, ?_⟩
  · simp [Axes.dot]
  · simp [Axes.dot]
  · simp [Axes.dot, Axes.cross]
  · rw [C128_exactly o hg one_pos one_pos one_pos hmu three_pos hs 0]
    simp [Axes.dot]

/-- The functions of the eccentricity in Schwarz's inequality. -/
theorem hut_schwarz (e : ℝ) : hut2 e ^ 2 + 7 / 2 * e ^ 2 ≤ hut1 e * hut5 e := by
  have h : hut1 e * hut5 e - hut2 e ^ 2 = 7 / 2 * e ^ 2 + 45 / 4 * e ^ 4 + 28 * e ^ 6 + 685 / 64 * e ^ 8
      + 255 / 128 * e ^ 10 + 25 / 512 * e ^ 12 := by
    unfold hut1 hut2 hut5
    ring
  have : 0 ≤ 45 / 4 * e ^ 4 + 28 * e ^ 6 + 685 / 64 * e ^ 8 + 255 / 128 * e ^ 10 + 25 / 512 * e ^ 12 := by positivity
  linarith

/-- The heating of the analysis as a sum of squares. -/
theorem energydot_squares {a e rot obl G mp ms rp k2dt : ℝ} (hG : 0 < G) (ha : 0 < a) (hmp : 0 < mp) (hms : 0 < ms)
    (hrp : 0 < rp) (he0 : 0 ≤ e) (he1 : e < 1) : ∃ c w : ℝ, 0 < c ∧ 0 < w ∧ w ^ 2 = 1 - e ^ 2 ∧
    energydot a e rot obl G mp ms rp k2dt = c * k2dt * (
      orbitRate (G * (mp + ms)) a ^ 2 * (hut1 e * hut5 e - hut2 e ^ 2)
      + (orbitRate (G * (mp + ms)) a * hut2 e - rot * Real.cos obl * (hut5 e * w ^ 3)) ^ 2
      + (1 - Real.cos obl ^ 2) / 2 * rot ^ 2 * (hut5 e * w ^ 3) ^ 2) := by
  have hp : 0 < 1 - e ^ 2 := by nlinarith
  have hw2 : Real.sqrt (1 - e ^ 2) ^ 2 = 1 - e ^ 2 := Real.sq_sqrt hp.le
  have hw : 0 < Real.sqrt (1 - e ^ 2) := Real.sqrt_pos.2 hp
  have h5 : 0 < hut5 e := by unfold hut5; positivity
  refine ⟨3 * G * ms ^ 2 * rp ^ 5 / a ^ 6 / (hut5 e * Real.sqrt (1 - e ^ 2) ^ 15), Real.sqrt (1 - e ^ 2), by positivity, hw, hw2, ?_⟩
  rw [energydot_real hG ha hmp hms hrp he0 he1]
  generalize Real.sqrt (1 - e ^ 2) = w at *
  field_simp
  ring

/-- **C128**: the heating is never negative. -/
theorem C128_nonneg {a e rot obl G mp ms rp k2dt : ℝ} (hG : 0 < G) (ha : 0 < a) (hmp : 0 < mp) (hms : 0 < ms)
    (hrp : 0 < rp) (he0 : 0 ≤ e) (he1 : e < 1) (hk : 0 ≤ k2dt) : 0 ≤ energydot a e rot obl G mp ms rp k2dt := by
  obtain ⟨c, w, hc, -, -, h⟩ := energydot_squares (rot := rot) (obl := obl) (k2dt := k2dt) hG ha hmp hms hrp he0 he1
  rw [h]
  have h1 := hut_schwarz e
  have h2 : 0 ≤ hut1 e * hut5 e - hut2 e ^ 2 := by nlinarith [sq_nonneg e]
  have h3 : 0 ≤ 1 - Real.cos obl ^ 2 := by nlinarith [Real.sin_sq_add_cos_sq obl, sq_nonneg (Real.sin obl)]
  positivity

/-- **C128**: there is no heating if and only if the orbit is a circle and the planet turns with it, without tilt. -/
theorem C128_zero {a e rot obl G mp ms rp k2dt : ℝ} (hG : 0 < G) (ha : 0 < a) (hmp : 0 < mp) (hms : 0 < ms)
    (hrp : 0 < rp) (he0 : 0 ≤ e) (he1 : e < 1) (hk : 0 < k2dt) (hrot : 0 ≤ rot) :
    energydot a e rot obl G mp ms rp k2dt = 0 ↔ e = 0 ∧ rot = orbitRate (G * (mp + ms)) a ∧ Real.cos obl = 1 := by
  obtain ⟨c, w, hc, hw, hw2, h⟩ := energydot_squares (rot := rot) (obl := obl) (k2dt := k2dt) hG ha hmp hms hrp he0 he1
  have hn := orbitRate_pos (mul_pos hG (add_pos hmp hms)) ha
  rw [h]
  have h1 := hut_schwarz e
  have h2 : 0 ≤ hut1 e * hut5 e - hut2 e ^ 2 := by nlinarith [sq_nonneg e]
  have h3 : 0 ≤ 1 - Real.cos obl ^ 2 := by nlinarith [Real.sin_sq_add_cos_sq obl, sq_nonneg (Real.sin obl)]
  have h5 : 0 < hut5 e := by unfold hut5; positivity
  generalize orbitRate (G * (mp + ms)) a = n at *
  constructor
  · intro h0
    have h0 := (mul_eq_zero.1 h0).resolve_left (by positivity)
    have p1 : 0 ≤ n ^ 2 * (hut1 e * hut5 e - hut2 e ^ 2) := by positivity
    have p2 := sq_nonneg (n * hut2 e - rot * Real.cos obl * (hut5 e * w ^ 3))
    have p3 : 0 ≤ (1 - Real.cos obl ^ 2) / 2 * rot ^ 2 * (hut5 e * w ^ 3) ^ 2 := by positivity
    have q1 : n ^ 2 * (hut1 e * hut5 e - hut2 e ^ 2) = 0 := by linarith
    have q2 : (n * hut2 e - rot * Real.cos obl * (hut5 e * w ^ 3)) ^ 2 = 0 := by linarith
    have q3 : (1 - Real.cos obl ^ 2) / 2 * rot ^ 2 * (hut5 e * w ^ 3) ^ 2 = 0 := by linarith
    have he : e = 0 := by
      have := (mul_eq_zero.1 q1).resolve_left (by positivity)
      have : e ^ 2 = 0 := by nlinarith [sq_nonneg e]
      exact pow_eq_zero_iff two_ne_zero |>.1 this
    subst he
    have hw1 : w = 1 := (pow_eq_one_iff_of_nonneg hw.le two_ne_zero).1 (by rw [hw2]; norm_num)
    subst hw1
    have z2 : hut2 0 = 1 := by norm_num [hut2]
    have z5 : hut5 0 = 1 := by norm_num [hut5]
    rw [z2, z5] at q2
    rw [z5] at q3
    have hr : rot * Real.cos obl = n := by
      have := pow_eq_zero_iff two_ne_zero |>.1 q2
      linarith
    have hr0 : rot ≠ 0 := fun hr0 => by rw [hr0] at hr; linarith
    have hc2 : Real.cos obl ^ 2 = 1 := by
      have : (1 - Real.cos obl ^ 2) / 2 = 0 := by
        refine (mul_eq_zero.1 ((mul_eq_zero.1 q3).resolve_right (by norm_num))).resolve_right (by positivity)
      linarith
    have hc1 : Real.cos obl = 1 := by
      rcases eq_or_eq_neg_of_sq_eq_sq _ 1 (hc2.trans (one_pow 2).symm) with h | h
      · exact h
      · rw [h] at hr
        linarith
    exact ⟨rfl, by rw [hc1] at hr; linarith, hc1⟩
  · rintro ⟨rfl, rfl, ho⟩
    have hw1 : w = 1 := (pow_eq_one_iff_of_nonneg hw.le two_ne_zero).1 (by rw [hw2]; norm_num)
    rw [ho, hw1]
    norm_num [hut1, hut2, hut5]

/-- The Earth without tilt on its orbit, in units of the astronomical unit, the year and the mass of the Sun: its eccentricity
alone heats it. -/
example : 0 < energydot 1 (1 / 60) (2 * Real.pi) 0 (4 * Real.pi ^ 2) (1 / 333000) 1 (1 / 23500) (1 / 10 ^ 6) := by
  have hpi := Real.pi_pos
  refine lt_of_le_of_ne (C128_nonneg (by positivity) one_pos (by norm_num) one_pos (by norm_num) (by norm_num) (by norm_num)
    (by norm_num)) fun h => ?_
  have := (C128_zero (by positivity) one_pos (by norm_num) one_pos (by norm_num) (by norm_num) (by norm_num) (by norm_num)
    (by positivity)).1 h.symm
  norm_num at this

end Posidonius.Analysis
