import Verif.Props.CreepSlow
import Verif.Spec.Ellipsoid
import Verif.Lemmas.Univ

/-! # C82: force and torque of the creep model -/

namespace Posidonius.Creep
open Posidonius Posidonius.Univ Ellipsoid

/-- The potential in terms of the equatorial prolateness `(X, Y)` and the oblateness `Z`. -/
theorem energy_eq {g M m R a2 b2 c2 angle : ℝ} {r q : Axes ℝ} {X Y Z : ℝ}
    (hX : a2 - b2 = 2 * R ^ 2 * Real.sqrt (X ^ 2 + Y ^ 2)) (hZ : (a2 + b2) / 2 - c2 = 2 * R ^ 2 * Z)
    (hx : X = Real.sqrt (X ^ 2 + Y ^ 2) * Real.cos (2 * angle)) (hy : Y = Real.sqrt (X ^ 2 + Y ^ 2) * Real.sin (2 * angle))
    (hr : 0 < r.x ^ 2 + r.y ^ 2) (hq : 0 < q.dot q) :
    energy g M m a2 b2 c2 angle r q
      = -(g * M * m * R ^ 2)
        * (Z / 5 * (1 - 3 * (q.z ^ 2 / q.dot q)) / Real.sqrt (q.dot q) ^ 3
          + 3 / 10 * ((X * ((r.x * q.x + r.y * q.y) ^ 2 - (r.x * q.y - r.y * q.x) ^ 2)
              + 2 * Y * ((r.x * q.x + r.y * q.y) * (r.x * q.y - r.y * q.x))) / (r.x ^ 2 + r.y ^ 2))
            / (q.dot q * Real.sqrt (q.dot q) ^ 3)) := by
  rw [Real.cos_two_mul] at hx
  rw [Real.sin_two_mul] at hy
  have hcs := Real.sin_sq_add_cos_sq angle
  set E := Real.sqrt (X ^ 2 + Y ^ 2) with hE
  have hd2 : Real.sqrt (r.x ^ 2 + r.y ^ 2) ^ 2 = r.x ^ 2 + r.y ^ 2 := Real.sq_sqrt hr.le
  have hd0 : 0 < Real.sqrt (r.x ^ 2 + r.y ^ 2) := Real.sqrt_pos.2 hr
  set d := Real.sqrt (r.x ^ 2 + r.y ^ 2) with hd
  simp only [energy, macCullagh, ← hd]
  conv_rhs => rw [← hd2]
  set U := (r.x * q.x + r.y * q.y) / d with hU
  set V := (r.x * q.y - r.y * q.x) / d with hV
  have hUV : U ^ 2 + V ^ 2 = q.x ^ 2 + q.y ^ 2 := by
    have : U ^ 2 + V ^ 2 = (r.x ^ 2 + r.y ^ 2) * (q.x ^ 2 + q.y ^ 2) / d ^ 2 := by rw [hU, hV]; ring
    rw [this, hd2, mul_div_cancel_left₀ _ hr.ne']
  have hN : (X * ((r.x * q.x + r.y * q.y) ^ 2 - (r.x * q.y - r.y * q.x) ^ 2)
              + 2 * Y * ((r.x * q.x + r.y * q.y) * (r.x * q.y - r.y * q.x))) / d ^ 2 = X * (U ^ 2 - V ^ 2) + 2 * Y * (U * V) := by
    rw [hU, hV]; ring
  rw [hN]
  set s := Real.sin angle
  set c := Real.cos angle
  have hN2 : X * (U ^ 2 - V ^ 2) + 2 * Y * (U * V) = E * ((c * U + s * V) ^ 2 - (c * V - s * U) ^ 2) := by
    linear_combination (U ^ 2 - V ^ 2) * hx + 2 * U * V * hy + E * (U ^ 2 - V ^ 2) * hcs
  have hsum : (c * U + s * V) ^ 2 + (c * V - s * U) ^ 2 = q.dot q - q.z ^ 2 := by
    simp only [Axes.dot]
    linear_combination (U ^ 2 + V ^ 2) * hcs + hUV
  have hnorm : Axes.dot (⟨c * U + s * V, c * V - s * U, q.z⟩ : Axes ℝ) ⟨c * U + s * V, c * V - s * U, q.z⟩ = q.dot q := by
    simp only [Axes.dot] at hsum ⊢
    linear_combination hsum
  rw [hnorm, hN2]
  have hw0 : 0 < Real.sqrt (q.dot q) ^ 3 := by
    have := Real.sqrt_pos.2 hq
    positivity
  have hb : b2 = a2 - 2 * R ^ 2 * E := by linarith
  have hc2 : c2 = a2 - R ^ 2 * E - 2 * R ^ 2 * Z := by linarith
  generalize Real.sqrt (q.dot q) ^ 3 = w at *
  generalize q.dot q = Q at *
  have hA : (c * U + s * V) ^ 2 = Q - q.z ^ 2 - (c * V - s * U) ^ 2 := by linarith
  rw [hA, hb, hc2]
  generalize (c * V - s * U) ^ 2 = B
  field_simp
  ring

/-- The force in closed form. -/
theorem force_eq (k : Consts ℝ) (host p : Particle ℝ) {r : Axes ℝ} (hr : p.tides.position = r) {d : ℝ}
    (hd : p.tides.distance = d) (hd0 : 0 < d) :
    force k host p
      = ⟨k.g * p.mass * host.mass * p.radius ^ 2 / d ^ 5
          * (-(9 / 10 * p.tides.shape.x + 3 / 5 * p.tides.shape.z) * r.x - 3 / 5 * p.tides.shape.y * r.y),
         k.g * p.mass * host.mass * p.radius ^ 2 / d ^ 5
          * (-(9 / 10 * p.tides.shape.x + 3 / 5 * p.tides.shape.z) * r.y + 3 / 5 * p.tides.shape.y * r.x), 0⟩ := by
  have hd' := hd0.ne'
  simp only [force, hr, hd, lit_real, ipow_real, Axes.mk.injEq]
  push_cast
  refine ⟨?_, ?_, ?_⟩
  · field_simp
    ring
  · field_simp
    ring
  · norm_num

/-- The derivative of the closed form of the potential. -/
theorem potential_deriv (X Y Z : ℝ) {r w : Axes ℝ} (hz : r.z = 0) {d : ℝ} (hd0 : 0 < d) (hd : d ^ 2 = r.x ^ 2 + r.y ^ 2) :
    HasDerivAt (fun h : ℝ => Z / 5 * (1 - 3 * ((r + h • w).z ^ 2 / (r + h • w).dot (r + h • w))) / Real.sqrt ((r + h • w).dot (r + h • w)) ^ 3
          + 3 / 10 * ((X * ((r.x * (r + h • w).x + r.y * (r + h • w).y) ^ 2 - (r.x * (r + h • w).y - r.y * (r + h • w).x) ^ 2)
              + 2 * Y * ((r.x * (r + h • w).x + r.y * (r + h • w).y) * (r.x * (r + h • w).y - r.y * (r + h • w).x))) / (r.x ^ 2 + r.y ^ 2))
            / ((r + h • w).dot (r + h • w) * Real.sqrt ((r + h • w).dot (r + h • w)) ^ 3))
      ((-(9 / 10 * X + 3 / 5 * Z) * (r.x * w.x + r.y * w.y) + 3 / 5 * Y * (r.x * w.y - r.y * w.x)) / d ^ 5) 0 := by
  have hx : ∀ h : ℝ, (r + h • w).x = r.x + h * w.x := fun _ => rfl
  have hy : ∀ h : ℝ, (r + h • w).y = r.y + h * w.y := fun _ => rfl
  have hzz : ∀ h : ℝ, (r + h • w).z = h * w.z := fun h => by
    have : (r + h • w).z = r.z + h * w.z := rfl
    rw [this, hz, zero_add]
  have dx : HasDerivAt (fun h : ℝ => r.x + h * w.x) w.x 0 := by
    simpa using ((hasDerivAt_id' (0 : ℝ)).mul_const w.x).const_add r.x
  have dy : HasDerivAt (fun h : ℝ => r.y + h * w.y) w.y 0 := by
    simpa using ((hasDerivAt_id' (0 : ℝ)).mul_const w.y).const_add r.y
  have dz : HasDerivAt (fun h : ℝ => h * w.z) w.z 0 := by
    simpa using (hasDerivAt_id' (0 : ℝ)).mul_const w.z
  simp only [Axes.dot, hx, hy, hzz]
  set P := r.x * w.x + r.y * w.y with hP
  set Q := r.x * w.y - r.y * w.x with hQ
  have dQ : HasDerivAt (fun h : ℝ => (r.x + h * w.x) * (r.x + h * w.x) + (r.y + h * w.y) * (r.y + h * w.y) + h * w.z * (h * w.z))
      (2 * P) 0 := by
    refine (((dx.mul dx).add (dy.mul dy)).add (dz.mul dz)).congr_deriv ?_
    rw [hP]
    ring
  have q0 : (r.x + 0 * w.x) * (r.x + 0 * w.x) + (r.y + 0 * w.y) * (r.y + 0 * w.y) + 0 * w.z * (0 * w.z) = d ^ 2 := by
    rw [hd]; ring
  have dw : HasDerivAt (fun h : ℝ => Real.sqrt ((r.x + h * w.x) * (r.x + h * w.x) + (r.y + h * w.y) * (r.y + h * w.y)
      + h * w.z * (h * w.z)) ^ 3) (3 * d * P) 0 := by
    refine ((dQ.sqrt (by rw [q0]; positivity)).pow 3).congr_deriv ?_
    rw [q0, Real.sqrt_sq hd0.le]
    push_cast
    field_simp
  have w0 : Real.sqrt ((r.x + 0 * w.x) * (r.x + 0 * w.x) + (r.y + 0 * w.y) * (r.y + 0 * w.y) + 0 * w.z * (0 * w.z)) ^ 3 = d ^ 3 := by
    rw [q0, Real.sqrt_sq hd0.le]
  have dU : HasDerivAt (fun h : ℝ => r.x * (r.x + h * w.x) + r.y * (r.y + h * w.y)) P 0 :=
    (dx.const_mul r.x).add (dy.const_mul r.y)
  have dV : HasDerivAt (fun h : ℝ => r.x * (r.y + h * w.y) - r.y * (r.x + h * w.x)) Q 0 :=
    (dy.const_mul r.x).sub (dx.const_mul r.y)
  have dN := (((dU.pow 2).sub (dV.pow 2)).const_mul X).add ((dU.mul dV).const_mul (2 * Y))
  have d1 := ((((dz.pow 2).div dQ (by rw [q0]; positivity)).const_mul 3).const_sub 1).const_mul (Z / 5)
  have d2 := d1.div dw (by rw [w0]; positivity)
  have d3 := ((dN.div_const (r.x ^ 2 + r.y ^ 2)).const_mul (3 / 10)).div (dQ.mul dw)
    (by simp only [Pi.mul_apply]; rw [w0, q0]; positivity)
  refine (d2.add d3).congr_deriv ?_
  simp only [Pi.mul_apply, Pi.pow_apply, Pi.div_apply, Pi.sub_apply, Pi.add_apply]
  have hv0 : r.x * (r.y + 0 * w.y) - r.y * (r.x + 0 * w.x) = 0 := by ring
  have hu0 : r.x * (r.x + 0 * w.x) + r.y * (r.y + 0 * w.y) = d ^ 2 := by rw [hd]; ring
  rw [w0, q0, hv0, hu0, ← hd]
  norm_num
  field_simp
  ring

/-- **C82**: for a companion in the plane, the tidal force is minus the gradient of the energy of the host in the
quadrupole field of the companion, an ellipsoid with its stored shape, held fixed: the equatorial prolateness is
`(a - b)/R`, the oblateness `1 - c/R`, to the first order in the flattenings, and the longest axis is turned by half the
angle of `(x, y)`. -/
theorem C82_gradient (k : Consts ℝ) (host p : Particle ℝ) {a2 b2 c2 angle : ℝ}
    (hz : p.tides.position.z = 0) (hd : p.tides.distance = Real.sqrt p.tides.position.norm2) (hd0 : 0 < p.tides.distance)
    (ha : a2 - b2 = 2 * p.radius ^ 2 * Real.sqrt (p.tides.shape.x ^ 2 + p.tides.shape.y ^ 2))
    (hc : (a2 + b2) / 2 - c2 = 2 * p.radius ^ 2 * p.tides.shape.z)
    (hx : p.tides.shape.x = Real.sqrt (p.tides.shape.x ^ 2 + p.tides.shape.y ^ 2) * Real.cos (2 * angle))
    (hy : p.tides.shape.y = Real.sqrt (p.tides.shape.x ^ 2 + p.tides.shape.y ^ 2) * Real.sin (2 * angle)) (w : Axes ℝ) :
    HasDerivAt (fun h : ℝ => energy k.g host.mass p.mass a2 b2 c2 angle p.tides.position (p.tides.position + h • w))
      (-(force k host p).dot w) 0 := by
  set r := p.tides.position with hr
  set d := p.tides.distance with hdd
  have hd2 : d ^ 2 = r.x ^ 2 + r.y ^ 2 := by
    have : r.norm2 = r.x ^ 2 + r.y ^ 2 := by
      simp only [Axes.norm2, Axes.dot, hz]
      ring
    rw [hd, this, Real.sq_sqrt (by positivity)]
  have hpos : 0 < r.x ^ 2 + r.y ^ 2 := by rw [← hd2]; positivity
  have key := (potential_deriv p.tides.shape.x p.tides.shape.y p.tides.shape.z (w := w) hz hd0 hd2).const_mul
    (-(k.g * host.mass * p.mass * p.radius ^ 2))
  have hev : (fun h : ℝ => energy k.g host.mass p.mass a2 b2 c2 angle r (r + h • w)) =ᶠ[nhds 0] fun h : ℝ =>
      -(k.g * host.mass * p.mass * p.radius ^ 2) * (p.tides.shape.z / 5 * (1 - 3 * ((r + h • w).z ^ 2 / (r + h • w).dot (r + h • w))) / Real.sqrt ((r + h • w).dot (r + h • w)) ^ 3
          + 3 / 10 * ((p.tides.shape.x * ((r.x * (r + h • w).x + r.y * (r + h • w).y) ^ 2 - (r.x * (r + h • w).y - r.y * (r + h • w).x) ^ 2)
              + 2 * p.tides.shape.y * ((r.x * (r + h • w).x + r.y * (r + h • w).y) * (r.x * (r + h • w).y - r.y * (r + h • w).x))) / (r.x ^ 2 + r.y ^ 2))
            / ((r + h • w).dot (r + h • w) * Real.sqrt ((r + h • w).dot (r + h • w)) ^ 3)) := by
    have hcont : Continuous fun h : ℝ => (r + h • w).dot (r + h • w) := by
      have : (fun h : ℝ => (r + h • w).dot (r + h • w)) = fun h : ℝ =>
          (r.x + h * w.x) * (r.x + h * w.x) + (r.y + h * w.y) * (r.y + h * w.y) + (r.z + h * w.z) * (r.z + h * w.z) := rfl
      rw [this]
      fun_prop
    have h0 : 0 < (r + (0 : ℝ) • w).dot (r + (0 : ℝ) • w) := by
      have : (r + (0 : ℝ) • w).dot (r + (0 : ℝ) • w)
          = (r.x + 0 * w.x) * (r.x + 0 * w.x) + (r.y + 0 * w.y) * (r.y + 0 * w.y) + (r.z + 0 * w.z) * (r.z + 0 * w.z) := rfl
      rw [this, hz]
      nlinarith
    filter_upwards [hcont.continuousAt.eventually (lt_mem_nhds h0)] with h hh
    exact energy_eq ha hc hx hy hpos hh
  refine (key.congr_of_eventuallyEq hev).congr_deriv ?_
  rw [force_eq k host p hr.symm hdd.symm hd0]
  simp only [Axes.dot]
  field_simp
  ring

/-- **C82**: the torque on the companion is the moment of the force, so with the opposite torque on the spin, which
is what `tides/common.rs` applies, the total angular momentum is conserved. -/
theorem C82_torque (k : Consts ℝ) (host p : Particle ℝ) (hz : p.tides.position.z = 0)
    (hd : p.tides.distance = Real.sqrt p.tides.position.norm2) (hd0 : 0 < p.tides.distance) :
    p.tides.position.cross (force k host p) = companionTorque k host p := by
  set r := p.tides.position with hr
  set d := p.tides.distance with hdd
  have hd2 : r.x ^ 2 + r.y ^ 2 = d ^ 2 := by
    have : r.norm2 = r.x ^ 2 + r.y ^ 2 := by
      simp only [Axes.norm2, Axes.dot, hz]
      ring
    rw [hd, this, Real.sq_sqrt (by positivity)]
  rw [force_eq k host p hr.symm hdd.symm hd0]
  simp only [Axes.cross, companionTorque, ← hdd, hz, lit_real, ipow_real, Axes.mk.injEq]
  push_cast
  refine ⟨by ring, by ring, ?_⟩
  have hd' := hd0.ne'
  field_simp
  linear_combination 30 * k.g * p.mass * host.mass * p.radius ^ 2 * p.tides.shape.y * hd2

/-- Every shape is that of an ellipsoid. -/
example (R X Y Z : ℝ) : ∃ a2 b2 c2 angle : ℝ, a2 - b2 = 2 * R ^ 2 * Real.sqrt (X ^ 2 + Y ^ 2) ∧ (a2 + b2) / 2 - c2 = 2 * R ^ 2 * Z
    ∧ X = Real.sqrt (X ^ 2 + Y ^ 2) * Real.cos (2 * angle) ∧ Y = Real.sqrt (X ^ 2 + Y ^ 2) * Real.sin (2 * angle) := by
  refine ⟨R ^ 2 + 2 * R ^ 2 * Real.sqrt (X ^ 2 + Y ^ 2), R ^ 2, R ^ 2 + R ^ 2 * Real.sqrt (X ^ 2 + Y ^ 2) - 2 * R ^ 2 * Z,
    Complex.arg ⟨X, Y⟩ / 2, by ring, by ring, ?_, ?_⟩
  · have h := Complex.norm_mul_cos_arg ⟨X, Y⟩
    rw [Complex.norm_eq_sqrt_sq_add_sq] at h
    rw [mul_div_cancel₀ _ two_ne_zero]
    exact h.symm
  · have h := Complex.norm_mul_sin_arg ⟨X, Y⟩
    rw [Complex.norm_eq_sqrt_sq_add_sq] at h
    rw [mul_div_cancel₀ _ two_ne_zero]
    exact h.symm

/-! ### The host -/

/-- A host that rotates twice as fast as its companion moves on a circular orbit. -/
noncomputable def spinningHost : Particle ℝ :=
  { blank ℝ with
    mass := 1, massG := 1, radius := 1, spin := ⟨0, 0, 2⟩
    tides := { (blank ℝ).tides with effect := .central (.creepCoplanar (3 / (8 * Real.pi))) } }

/-- A companion that is a rigid sphere. -/
noncomputable def rigidCompanion : Particle ℝ :=
  { blank ℝ with
    mass := 1
    tides := { (blank ℝ).tides with position := ⟨1, 0, 0⟩, velocity := ⟨0, 1, 0⟩, distance := 1 } }

theorem circular_elements :
    let el := Tools.keplerianElements (1 : ℝ) ⟨1, 0, 0⟩ ⟨0, 1, 0⟩
    el.semiMajorAxis = 1 ∧ el.eccentricity = 0 ∧ el.meanAnomaly = 0 ∧ el.orbitalPeriod = 2 * Real.pi := by
  have hpi := Real.pi_pos
  refine ⟨?_, ?_, ?_, ?_⟩
  · simp [Tools.keplerianElements]
    norm_num
  · simp [Tools.keplerianElements]
    norm_num
  · simp [Tools.keplerianElements, Tools.inclinationAndNode, Tools.meanAnomaly, Tools.clamp, Tools.twoPi]
    norm_num
    intro h
    linarith
  · simp [Tools.keplerianElements, Tools.twoPi]
    norm_num
    ring

theorem cayley2_zero {k : ℕ} (hk : k < 15) : (cayley2 (0 : ℝ)).getD k 0 = if k = 7 then 1 else 0 := by
  interval_cases k <;> simp [cayley2, ipow]

theorem host_shape {fuel : ℕ} (k : Consts ℝ) (hk : k.g = 1) : ∃ s, particleShape k (fuel + 1) 1 0 0 (2 * Real.pi) 1 1 1 (3 / (8 * Real.pi)) 2 true false = some s
    ∧ s.y = 3 / 2 := by
  have hpi := Real.pi_pos.ne'
  have hl : anomalyLoop (0 : ℝ) 0 (fuel + 1) 0 = some 0 := by
    rw [loop_step, if_pos (by norm_num)]
    norm_num
  have hg : relaxationFactor k 1 1 (3 / (8 * Real.pi)) = 1 := by
    simp [relaxationFactor, hk]
    field_simp
  have hn : 2 * Real.pi / (2 * Real.pi) = 1 := div_self (by positivity)
  refine ⟨_, C81_fast k 1 0 0 (2 * Real.pi) 1 1 1 (3 / (8 * Real.pi)) 2 true false hl ?_, ?_⟩
  · rw [hg, hn, pseudoSynchronization]
    simp
  · rw [hg, hn]
    have hf : trueOfEccentric (0 : ℝ) 0 = 0 := by simp [trueOfEccentric]
    simp only [fastShape, fastSums_eq, hf]
    rw [Finset.sum_eq_single 7]
    · rw [cayley2_zero (by norm_num)]
      simp [epsilonRhoBar]
      norm_num
    · intro b hb hne
      rw [cayley2_zero (Finset.mem_range.1 hb), if_neg hne]
      simp
    · intro h
      simp at h

/-- **C82 violated** for the tides raised on the host: the host's spin feels the torque of its own deformation, but
there is no force that goes with it.  Here the companion is a rigid sphere, the force is zero and the torque is not. -/
theorem C82_violated (k : Consts ℝ) (hk : k.g = 1) (fuel : ℕ) : force k spinningHost rigidCompanion = ⟨0, 0, 0⟩
    ∧ ∃ N, hostTorque k (fuel + 1) spinningHost rigidCompanion = some N ∧ N = ⟨0, 0, 9 / 10⟩ := by
  constructor
  · rw [force_eq k spinningHost rigidCompanion rfl rfl (by norm_num [rigidCompanion])]
    simp [rigidCompanion, blank, Axes.zero]
  · obtain ⟨s, hs, hy⟩ := host_shape (fuel := fuel) k hk
    obtain ⟨h1, h2, h3, h4⟩ := circular_elements
    have hsh : shape k (fuel + 1) spinningHost rigidCompanion true false true = some s := by
      have : spinningHost.massG + rigidCompanion.massG = 1 := by simp [spinningHost, rigidCompanion, blank]
      simp only [shape, this, if_true]
      have hp : rigidCompanion.tides.position = ⟨1, 0, 0⟩ := rfl
      have hv : rigidCompanion.tides.velocity = ⟨0, 1, 0⟩ := rfl
      rw [hp, hv, h1, h2, h3, h4]
      exact hs
    refine ⟨_, by rw [hostTorque, hsh, Option.map_some], ?_⟩
    simp [hk, hy, spinningHost, rigidCompanion, ipow]
    norm_num

/-! ### Flattening -/

/-- **C82**: a body without tides has no equatorial prolateness; in fast rotation its oblateness is that of the
hydrostatic equilibrium, `5 Ω² R³ / (4 G M)`. -/
theorem C82_flattening_fast (z gamma n spin e m f : ℝ) : fastShape 0 z gamma n spin e m f = ⟨0, 0, z⟩ := by
  simp [fastShape]

/-- **C82**: in slow rotation the oblateness is increased by a term of the second order in the eccentricity. -/
theorem C82_flattening_slow (z mu gamma n e m : ℝ) :
    slowShape 0 z mu gamma n e m = ⟨0, 0, z * (1 + 12 * e ^ 2 / (1 + (n / gamma) ^ 2))⟩ := by
  have h : (1 : ℝ) + (n / gamma) ^ 2 ≠ 0 := by positivity
  simp only [slowShape, ipow, lit_real, Axes.mk.injEq]
  rw [pow_two] at h ⊢
  generalize n / gamma = q at h ⊢
  push_cast
  refine ⟨by simp, by simp, ?_⟩
  simp
  field_simp
  exact Or.inl trivial

/-- **C82**: the flattening of the creep model causes no torque on the host, and none on a companion with such a
shape. -/
theorem C82_flattening_torque (k : Consts ℝ) (fuel : ℕ) (host p : Particle ℝ) (N : Axes ℝ)
    (h : hostFlatteningTorque k fuel host p = some N) : N = ⟨0, 0, 0⟩ := by
  rw [hostFlatteningTorque, Option.map_eq_some_iff] at h
  obtain ⟨s, hs, rfl⟩ := h
  have hy : s.y = 0 := by
    simp only [shape, if_true, particleShape] at hs
    split_ifs at hs
    · rw [Option.some.injEq] at hs
      rw [← hs]
      simp [epsilonRhoBar, C82_flattening_slow]
    · rw [Option.map_eq_some_iff] at hs
      obtain ⟨f, _, rfl⟩ := hs
      simp [epsilonRhoBar, C82_flattening_fast]
  simp [hy]

/-- **C82**: the force of the flattening is minus the gradient of the energy of the host in the field of the oblate
companion. -/
theorem C82_flattening_gradient (k : Consts ℝ) (host p : Particle ℝ) {a2 c2 : ℝ}
    (hz : p.flattening.position.z = 0) (hd : p.flattening.distance = Real.sqrt p.flattening.position.norm2)
    (hd0 : 0 < p.flattening.distance) (hc : a2 - c2 = 2 * p.radius ^ 2 * p.flattening.shape.z) (w : Axes ℝ) :
    HasDerivAt (fun h : ℝ => energy k.g host.mass p.mass a2 a2 c2 0 p.flattening.position (p.flattening.position + h • w))
      (-(flatteningForce k host p).dot w) 0 := by
  let q : Particle ℝ := { p with tides := { p.tides with
    position := p.flattening.position, distance := p.flattening.distance, shape := ⟨0, 0, p.flattening.shape.z⟩ } }
  have h := C82_gradient k host q (a2 := a2) (b2 := a2) (c2 := c2) (angle := 0) hz hd hd0 (by simp [q]) (by simp [q]; linarith)
    (by simp [q]) (by simp [q]) w
  have hf : force k host q = flatteningForce k host p := by
    rw [force_eq k host q rfl rfl hd0]
    have hd' : p.flattening.distance ≠ 0 := hd0.ne'
    simp only [q, flatteningForce, lit_real, ipow_real, Axes.mk.injEq]
    push_cast
    refine ⟨?_, ?_, ?_⟩
    · field_simp
      ring
    · field_simp
      ring
    · norm_num
  rw [hf] at h
  exact h

/-- The viscosity used for the flattening is that of the tides: with any other tidal model it is zero. -/
theorem C82_viscosity (t : TidesEffect ℝ) (h : ∀ v, t ≠ .orbiting (.creepCoplanar v)) : orbitingViscosity t = 0 := by
  cases t with
  | central m => simp [orbitingViscosity]
  | disabled => simp [orbitingViscosity]
  | orbiting m =>
    cases m with
    | creepCoplanar v => exact absurd rfl (h v)
    | constantTimeLag => simp [orbitingViscosity]
    | kaula => simp [orbitingViscosity]

end Posidonius.Creep
