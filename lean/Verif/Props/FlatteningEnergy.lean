import Verif.Props.Flattening
import Verif.Props.TidalEnergy

/-! # C106 Rotational flattening keeps the energy -/

namespace Posidonius.Univ
open Finset
open Gravity (Ignore)

/-- How the quadrupole potential changes when the body moves along `e` and the rotation vector along `f`. -/
theorem quadrupole_deriv_both (c : ℝ) (w f r e : Axes ℝ) (hr : 0 < r.norm2) :
    HasDerivAt (fun t : ℝ => quadrupole c (w + t • f) (r + t • e))
      (c / 6 * (-3 * w.norm2 * r.dot e / Real.sqrt r.norm2 ^ 5
        - 6 * r.dot w * e.dot w / Real.sqrt r.norm2 ^ 5
        + 15 * r.dot w ^ 2 * r.dot e / Real.sqrt r.norm2 ^ 7)
        + c / 6 * (2 * w.dot f / Real.sqrt r.norm2 ^ 3 - 6 * r.dot w * r.dot f / Real.sqrt r.norm2 ^ 5)) 0 := by
  have hN : ∀ a b : Axes ℝ, HasDerivAt (fun t : ℝ => (a + t • b).norm2) (2 * a.dot b) 0 := by
    intro a b
    have e1 : (fun t : ℝ => (a + t • b).norm2) = fun t : ℝ => a.norm2 + (2 * a.dot b) * t + b.norm2 * t ^ 2 := by
      funext t
      simp only [Axes.norm2, Axes.dot]
      simp
      ring
    rw [e1]
    have := (((hasDerivAt_id' (0 : ℝ)).const_mul (2 * a.dot b)).const_add a.norm2).fun_add
      (((hasDerivAt_id' (0 : ℝ)).fun_pow 2).const_mul b.norm2)
    exact this.congr_deriv (by simp)
  have h0 : ∀ a b : Axes ℝ, a + (0 : ℝ) • b = a := fun a b => by simp
  have hd : 0 < Real.sqrt r.norm2 := Real.sqrt_pos.2 hr
  have hS : HasDerivAt (fun t : ℝ => Real.sqrt (r + t • e).norm2) (r.dot e / Real.sqrt r.norm2) 0 := by
    have := (hN r e).sqrt (by rw [h0]; exact hr.ne')
    rw [h0] at this
    exact this.congr_deriv (by field_simp)
  have hG : HasDerivAt (fun t : ℝ => (r + t • e).dot (w + t • f)) (e.dot w + r.dot f) 0 := by
    have e1 : (fun t : ℝ => (r + t • e).dot (w + t • f))
        = fun t : ℝ => r.dot w + (e.dot w + r.dot f) * t + e.dot f * t ^ 2 := by
      funext t
      simp only [Axes.dot]
      simp
      ring
    rw [e1]
    have := (((hasDerivAt_id' (0 : ℝ)).const_mul (e.dot w + r.dot f)).const_add (r.dot w)).fun_add
      (((hasDerivAt_id' (0 : ℝ)).fun_pow 2).const_mul (e.dot f))
    exact this.congr_deriv (by simp)
  have d3 : Real.sqrt (r + (0 : ℝ) • e).norm2 ^ 3 ≠ 0 := by rw [h0]; positivity
  have d5 : Real.sqrt (r + (0 : ℝ) • e).norm2 ^ 5 ≠ 0 := by rw [h0]; positivity
  have t1 := (hN w f).fun_div (hS.fun_pow 3) d3
  have t2 := ((hG.fun_pow 2).const_mul 3).fun_div (hS.fun_pow 5) d5
  have t3 := (t1.fun_sub t2).const_mul (c / 6)
  unfold quadrupole
  refine t3.congr_deriv ?_
  simp only [h0]
  generalize Real.sqrt r.norm2 = d at *
  field_simp
  ring

section
variable {n : Nat} {k : Consts ℝ} {m : Models ℝ} {eps2 time : ℝ} {evolution : Bool} {ignore : Ignore}
  {u u' : Universe ℝ n} {h : Fin n} {love : Fin n → ℝ}

/-- **C106**: the torques by flattening turn the rotation vectors without changing the rates of rotation, and the power
of the forces is the loss of the energy of the bodies in the quadrupole fields of the rotating bodies, the change of the
rotation vectors included: the energy of orbits, rotations and flattening is constant. -/
theorem C106_energy (hok : HostsOk u) (hh : u.hosts.flattening = some h)
    (cf : u.consider.flattening = true) (hc : AllOblate h love u.particles)
    (hm : ∀ i, (u.particles i).mass ≠ 0)
    (he : (evolution && u.consider.evolution) = false)
    (hs : ∀ i, (u.particles i).momentOfInertia • (u.particles i).spin = (u.particles i).angularMomentum)
    (hw : ∀ i, (u.particles i).spin ≠ 0)
    (hsep : ∀ i, i ≠ h → (u.particles i).inertialPosition ≠ (u.particles h).inertialPosition)
    (hu : calculateAdditionalEffects k m eps2 time evolution true true ignore (inertialToHeliocentric u)
      = some u') :
    let r (i : Fin n) := (u.particles i).inertialPosition - (u.particles h).inertialPosition
    let v (i : Fin n) := (u.particles i).inertialVelocity - (u.particles h).inertialVelocity
    let spin (i : Fin n) (t : ℝ) := (u.particles i).spin
      + t • ((u.particles i).momentOfInertia⁻¹ • (u'.particles i).flattening.dAngularMomentumDt)
    (∀ i, (u.particles i).spin.dot (u'.particles i).flattening.dAngularMomentumDt = 0)
      ∧ HasDerivAt (fun t : ℝ => -∑ i ∈ univ.erase h,
          (quadrupole ((u.particles i).mass * love h * (u.particles h).radius ^ 5) (spin h t) (r i + t • v i)
            + quadrupole ((u.particles h).mass * love i * (u.particles i).radius ^ 5) (spin i t) (r i + t • v i)))
        (-∑ i, (u.particles i).mass * (u.particles i).inertialVelocity.dot (u'.particles i).flattening.acceleration) 0 := by
  intro r v spin
  have mom := C38_momentum hok hh cf hc hm hu
  obtain ⟨P, a, b, c, d, -, tq⟩ := flattening_evaluation hok hh cf hc hu
  have pos : ∀ i, i ≠ h → 0 < (r i).norm2 := fun i hi => separation_pos (hsep i hi)
  have hsp : ∀ j, (P j).spin = (u.particles j).spin ∧ (P j).radius = (u.particles j).radius := by
    intro j
    obtain ⟨inertia, e1, e2, e3⟩ := c j
    rw [e1, ← hs j, Axes.sdiv_eq_smul, smul_smul, ← (e3 he).1, inv_mul_cancel₀ e2, one_smul]
    exact ⟨rfl, (e3 he).2⟩
  have hn : ∀ j, (u.particles j).spin.norm2 ≠ 0 := fun j e0 => hw j (Axes.dot_self_eq_zero e0)
  -- the values the code stores, in terms of the potentials
  let cs (i : Fin n) := (u.particles i).mass * love h * (u.particles h).radius ^ 5
  let cp (i : Fin n) := (u.particles h).mass * love i * (u.particles i).radius ^ 5
  let os (i : Fin n) := -(cs i) * (r i).dot (u.particles h).spin / Real.sqrt (r i).norm2 ^ 5
  let op (i : Fin n) := -(cp i) * (r i).dot (u.particles i).spin / Real.sqrt (r i).norm2 ^ 5
  have vs : ∀ i, i ≠ h → (oblateValues (love h) (love i) (P h) (P i)).orthogonalStar = os i
      ∧ (oblateValues (love h) (love i) (P h) (P i)).orthogonalPlanet = op i := by
    intro i hi
    obtain ⟨g1, g2, g3, g4⟩ := b i hi
    have hD : Real.sqrt (r i).norm2 ≠ 0 := (Real.sqrt_pos.2 (pos i hi)).ne'
    have n1 := hn i
    have n2 := hn h
    unfold oblateValues
    dsimp only [os, op, cs, cp]
    rw [g2, g3, g4, (a i).1, (a h).1, (a i).2.1, (a h).2.1, (hsp i).1, (hsp h).1, (hsp i).2, (hsp h).2]
    rw [show (u.particles i).inertialPosition - (u.particles h).inertialPosition = r i from rfl]
    generalize Real.sqrt (r i).norm2 = D at hD
    constructor <;> field_simp
  have th : (u'.particles h).flattening.dAngularMomentumDt
      = -(∑ i ∈ univ.erase h, os i • r i).cross (u.particles h).spin := by
    rw [tq, Axes.cross_comm _ (u.particles h).spin, Axes.cross_sum, neg_neg, ← sum_neg_distrib]
    refine sum_congr rfl fun i hi => ?_
    have hi' := ne_of_mem_erase hi
    rw [(vs i hi').1, (b i hi').position, (hsp h).1, Axes.cross_smul, Axes.cross_comm (u.particles h).spin, smul_neg]
  have ti : ∀ i, i ≠ h → (u'.particles i).flattening.dAngularMomentumDt = -(op i • (r i).cross (u.particles i).spin) := by
    intro i hi
    rw [(d i hi).2, (vs i hi).2, (b i hi).position, (hsp i).1]
  have perp : ∀ i, (u.particles i).spin.dot (u'.particles i).flattening.dAngularMomentumDt = 0 := by
    intro i
    by_cases hi : i = h
    · subst hi
      rw [th, Axes.dot_neg, Axes.dot_cross_self_right, neg_zero]
    · rw [ti i hi, Axes.dot_neg, Axes.dot_smul, Axes.dot_cross_self_right, mul_zero, neg_zero]
  refine ⟨perp, ?_⟩
  have hd := HasDerivAt.fun_sum fun i (hi : i ∈ univ.erase h) =>
    (quadrupole_deriv_both (cs i) (u.particles h).spin
        ((u.particles h).momentOfInertia⁻¹ • (u'.particles h).flattening.dAngularMomentumDt) (r i) (v i)
        (pos i (ne_of_mem_erase hi))).fun_add
      (quadrupole_deriv_both (cp i) (u.particles i).spin
        ((u.particles i).momentOfInertia⁻¹ • (u'.particles i).flattening.dAngularMomentumDt) (r i) (v i)
        (pos i (ne_of_mem_erase hi)))
  refine hd.fun_neg.congr_deriv (congrArg Neg.neg ?_)
  have z1 : ∑ i, (u.particles h).inertialVelocity.dot ((u.particles i).mass • (u'.particles i).flattening.acceleration) = 0 := by
    rw [← dot_sum, mom, Axes.dot_zero]
  have z2 : ∑ i ∈ univ.erase h,
      os i * (r i).dot ((u.particles h).momentOfInertia⁻¹ • (u'.particles h).flattening.dAngularMomentumDt) = 0 := by
    have e : ∀ i, os i * (r i).dot ((u.particles h).momentOfInertia⁻¹ • (u'.particles h).flattening.dAngularMomentumDt)
        = ((u.particles h).momentOfInertia⁻¹ • (u'.particles h).flattening.dAngularMomentumDt).dot (os i • r i) := fun i => by
      rw [Axes.dot_comm, ← Axes.dot_smul]
    rw [sum_congr rfl fun i _ => e i, ← dot_sum, th, Axes.smul_dot, Axes.neg_dot, Axes.dot_comm, Axes.dot_cross_self_left,
      neg_zero, mul_zero]
  have total : ∑ i, (u.particles i).mass * (u.particles i).inertialVelocity.dot (u'.particles i).flattening.acceleration
      = ∑ i, ((u.particles i).mass • (u'.particles i).flattening.acceleration).dot (v i) := by
    rw [← sub_zero (∑ i, _), ← z1, ← sum_sub_distrib]
    refine sum_congr rfl fun i _ => ?_
    rw [Axes.dot_comm, ← Axes.smul_dot, Axes.dot_comm (u.particles h).inertialVelocity, ← Axes.dot_sub]
  have hv : v h = 0 := sub_self _
  rw [total, ← add_sum_erase univ _ (mem_univ h), hv, Axes.dot_zero, zero_add, ← add_zero (∑ i ∈ univ.erase h, Axes.dot _ _),
    ← z2, ← sum_add_distrib]
  refine sum_congr rfl fun i hi => ?_
  have hi' := ne_of_mem_erase hi
  have grad := (C63_partial hok hh cf hc hm he hs hw hu i hi' (hsep i hi') (v i)).unique
    ((quadrupole_deriv _ _ (r i) (v i) (pos i hi')).fun_add (quadrupole_deriv _ _ (r i) (v i) (pos i hi')))
  rw [grad]
  have q1 : (u.particles h).spin.dot ((u.particles h).momentOfInertia⁻¹ • (u'.particles h).flattening.dAngularMomentumDt) = 0 := by
    rw [Axes.dot_smul, perp, mul_zero]
  have q2 : (u.particles i).spin.dot ((u.particles i).momentOfInertia⁻¹ • (u'.particles i).flattening.dAngularMomentumDt) = 0 := by
    rw [Axes.dot_smul, perp, mul_zero]
  have q3 : (r i).dot ((u.particles i).momentOfInertia⁻¹ • (u'.particles i).flattening.dAngularMomentumDt) = 0 := by
    rw [ti i hi', Axes.dot_smul, Axes.dot_neg, Axes.dot_smul, Axes.dot_cross_self_left, mul_zero, neg_zero, mul_zero]
  rw [q1, q2, q3]
  dsimp only [os, cs, cp]
  ring
end

/-- The hypotheses can be met: the oblate star and planet; the star precesses. -/
example (k : Consts ℝ) (m : Models ℝ) : ∃ u',
    calculateAdditionalEffects k m 0 0 false true true .none (inertialToHeliocentric oblateUniverse) = some u'
    ∧ (∀ i, (oblateUniverse.particles i).spin.dot (u'.particles i).flattening.dAngularMomentumDt = 0) := by
  obtain ⟨u', hu⟩ := oblateUniverse_defined k m
  exact ⟨u', hu, (C106_energy oblateUniverse_ok rfl rfl oblateUniverse_oblate oblateUniverse_mass rfl
    (fun i => by by_cases hi : i = 0 <;> simp [oblateUniverse, hi])
    (fun i e0 => by
      have := congrArg Axes.z e0
      by_cases hi : i = 0 <;> simp [oblateUniverse, hi] at this)
    (fun i hi e0 => by
      have := congrArg Axes.x e0
      simp [oblateUniverse, blank, hi] at this) hu).1⟩

end Posidonius.Univ
