import Verif.Lemmas.TidalOrbit
import Verif.Props.TidalOrbit
import Verif.Props.Gr
import Verif.Props.Anderson

/-! # C118: the relativistic precession of an orbit -/

namespace Posidonius.Univ
open Finset Order Filter Topology
open Gravity (Ignore)
open WHFast (VecDeriv)

variable {n : Nat}

/-- An acceleration along the line of sight and the velocity: its effect on the eccentricity vector. -/
theorem eccentricityRate_frame {p q : Axes ℝ} (hp : p.dot p = 1) (hq : q.dot q = 1) (hpq : p.dot q = 0)
    {mu L H e f : ℝ} (hL : 0 < L) (hmu : mu * L = H ^ 2) (hm : 0 < mu) (hy : 0 < 1 + e * Real.cos f) (α β : ℝ) {x v : Axes ℝ}
    (hx : x = (L / (1 + e * Real.cos f) * Real.cos f) • p + (L / (1 + e * Real.cos f) * Real.sin f) • q)
    (hv : v = (H / L * -Real.sin f) • p + (H / L * (e + Real.cos f)) • q) :
    (eccentricityRate mu x v (α • ((1 + e * Real.cos f) / L) • x + β • v)).dot q
      = -(H / mu) * α * Real.cos f + 2 * β * Real.sin f
    ∧ (eccentricityRate mu x v (α • ((1 + e * Real.cos f) / L) • x + β • v)).dot p
      = H / mu * α * Real.sin f + 2 * β * (e + Real.cos f) := by
  have h2 : Real.sin f ^ 2 = 1 - Real.cos f ^ 2 := by linarith [Real.sin_sq_add_cos_sq f]
  have h3 : Real.sin f ^ 3 = Real.sin f * (1 - Real.cos f ^ 2) := by rw [← h2]; ring
  have hd : α • ((1 + e * Real.cos f) / L) • x + β • v
      = (α * Real.cos f + β * (H / L * -Real.sin f)) • p + (α * Real.sin f + β * (H / L * (e + Real.cos f))) • q := by
    have h1 : ((1 + e * Real.cos f) / L) • x = Real.cos f • p + Real.sin f • q := by
      rw [hx, smul_add, smul_smul, smul_smul]
      congr 2 <;> field_simp
    rw [h1, hv]
    module
  rw [hd, hx, hv]
  have hmu' : mu = H ^ 2 / L := by rw [eq_div_iff hL.ne', hmu]
  have hH : H ≠ 0 := by rintro rfl; rw [hmu'] at hm; simp at hm
  constructor
  · rw [eccentricityRate_q hp hq hpq, plane_p hp hpq, plane_q hq hpq, plane_dot hp hq hpq, hmu']
    generalize Real.cos f = c at *
    generalize Real.sin f = z at *
    field_simp
    ring_nf
    simp only [h2, h3]
    ring
  · rw [eccentricityRate_p hp hq hpq, plane_p hp hpq, plane_q hq hpq, plane_dot hp hq hpq, hmu']
    generalize Real.cos f = c at *
    generalize Real.sin f = z at *
    field_simp
    ring_nf
    simp only [h2, h3]
    ring

/-- The part of the second order in the turn of the pericentre. -/
noncomputable def secondTurn (e eta : ℝ) : ℝ :=
  7 + 5 * eta - 7 * eta ^ 2 + e ^ 2 * (-1 / 4 + 21 / 8 * eta - 6 * eta ^ 2)

theorem average_first (e eta : ℝ) : Averages (fun f =>
    ((1 + 3 * eta) * (1 + 2 * e * Real.cos f + e ^ 2) - 2 * (2 + eta) * (1 + e * Real.cos f) - 3 / 2 * eta * (e ^ 2 * Real.sin f ^ 2))
      * Real.cos f + 4 * (2 - eta) * (e * Real.sin f ^ 2)) (3 * e) := by
  refine (averages_trig [8 * e - 4 * e * eta, -3 + eta + e ^ 2 + 3 / 2 * e ^ 2 * eta, -10 * e + 8 * e * eta, 3 / 2 * e ^ 2 * eta]
    []).congr (fun f => ?_) ?_
  · have h2 : Real.sin f ^ 2 = 1 - Real.cos f ^ 2 := by linarith [Real.sin_sq_add_cos_sq f]
    rw [h2]
    simp only [horner]
    ring
  · simp only [hornerMean, cosMean]
    norm_num
    ring

theorem average_second (e eta : ℝ) : Averages (fun f =>
    (3 / 4 * (12 + 29 * eta) * (1 + e * Real.cos f) ^ 2 + eta * (3 - 4 * eta) * (1 + 2 * e * Real.cos f + e ^ 2) ^ 2
        + 15 / 8 * eta * (1 - 3 * eta) * (e ^ 4 * Real.sin f ^ 4)
        - 3 / 2 * eta * (3 - 4 * eta) * (1 + 2 * e * Real.cos f + e ^ 2) * (e ^ 2 * Real.sin f ^ 2)
        - 1 / 2 * eta * (13 - 4 * eta) * (1 + e * Real.cos f) * (1 + 2 * e * Real.cos f + e ^ 2)
        - (2 + 25 * eta + 2 * eta ^ 2) * (1 + e * Real.cos f) * (e ^ 2 * Real.sin f ^ 2)) * Real.cos f
      + e * Real.sin f ^ 2 * (eta * (15 + 4 * eta) * (1 + 2 * e * Real.cos f + e ^ 2)
        - (4 + 41 * eta + 8 * eta ^ 2) * (1 + e * Real.cos f) - 3 * eta * (3 + 2 * eta) * (e ^ 2 * Real.sin f ^ 2)))
    (e * secondTurn e eta) := by
  refine (averages_trig [-4 * e - 26 * e * eta - 4 * e * eta ^ 2 + 6 * e ^ 3 * eta - 2 * e ^ 3 * eta ^ 2,
    9 + 73 / 4 * eta - 2 * eta ^ 2 - 6 * e ^ 2 - 41 * e ^ 2 * eta - 2 * e ^ 2 * eta ^ 2 + 3 / 8 * e ^ 4 * eta
      - 29 / 8 * e ^ 4 * eta ^ 2,
    22 * e + 62 * e * eta - 6 * e * eta ^ 2 - 2 * e ^ 3 - 51 / 2 * e ^ 3 * eta + 4 * e ^ 3 * eta ^ 2,
    15 * e ^ 2 + 245 / 4 * e ^ 2 * eta - 16 * e ^ 2 * eta ^ 2 + 3 / 4 * e ^ 4 * eta + 21 / 4 * e ^ 4 * eta ^ 2,
    2 * e ^ 3 + 25 * e ^ 3 * eta - 16 * e ^ 3 * eta ^ 2, 15 / 8 * e ^ 4 * eta - 45 / 8 * e ^ 4 * eta ^ 2] []).congr
    (fun f => ?_) ?_
  · have h2 : Real.sin f ^ 2 = 1 - Real.cos f ^ 2 := by linarith [Real.sin_sq_add_cos_sq f]
    have h4 : Real.sin f ^ 4 = (1 - Real.cos f ^ 2) ^ 2 := by rw [← h2]; ring
    rw [h4, h2]
    simp only [horner]
    ring
  · simp only [hornerMean, cosMean, secondTurn]
    norm_num
    ring

section
variable {mu a e : ℝ} {p q : Axes ℝ} {x v : ℝ → Axes ℝ}

/-- What `k1` times the published first order and `k2` times the published second order do to the pericentre. -/
theorem kidder_turn (o : Ellipse mu a e p q x v) {c2 : ℝ} (hc : c2 ≠ 0) (eta k1 k2 : ℝ) :
    Gain (fun t => (eccentricityRate mu (x t) (v t)
        (k1 • publishedFirst c2 mu eta (x t) (v t) + k2 • publishedSecond c2 mu eta (x t) (v t))).dot q)
      (2 * Real.pi / orbitRate mu a)
      (e * (k1 * (6 * Real.pi * mu / (c2 * (a * (1 - e ^ 2))))
        + k2 * (2 * Real.pi * mu ^ 2 / (c2 * (a * (1 - e ^ 2))) ^ 2 * secondTurn e eta))) := by
  obtain ⟨f, L, H, hl, hh, hL, -, hmuL, hy, hf, ht, hx, hv, hd⟩ := o.frame
  have hmu := o.attracts
  rw [Real.sq_sqrt (show 0 ≤ 1 - e ^ 2 by nlinarith [o.round, o.closed])] at hL
  rw [← hL]
  have key := gain_of_averages (c := 1) hf ht (((average_first e eta).const_mul (k1 * mu / (c2 * L))).add
    ((average_second e eta).const_mul (k2 * mu ^ 2 / (c2 * L) ^ 2)))
    (rate := fun t => (eccentricityRate mu (x t) (v t)
        (k1 • publishedFirst c2 mu eta (x t) (v t) + k2 • publishedSecond c2 mu eta (x t) (v t))).dot q) fun t => ?_
  · refine key.congr (fun _ => rfl) ?_
    ring
  · have hyt := hy t
    have h2 : Real.sin (f t) ^ 2 = 1 - Real.cos (f t) ^ 2 := by linarith [Real.sin_sq_add_cos_sq (f t)]
    have hm' : mu = H ^ 2 / L := by rw [eq_div_iff hl.ne', hmuL]
    have n1 : Real.sqrt (x t).norm2 = L / (1 + e * Real.cos (f t)) := by
      have : (x t).norm2 = (L / (1 + e * Real.cos (f t))) ^ 2 := by
        rw [show ∀ y : Axes ℝ, y.norm2 = y.dot y from fun _ => rfl, hx, plane_dot o.pp o.qq o.pq, hd]
      rw [this, Real.sqrt_sq (by positivity)]
    have n2 : (v t).norm2 = mu / L * (1 + 2 * e * Real.cos (f t) + e ^ 2) := by
      rw [show ∀ y : Axes ℝ, y.norm2 = y.dot y from fun _ => rfl, hv, plane_dot o.pp o.qq o.pq, hm']
      field_simp
      linear_combination h2
    have n3 : ((L / (1 + e * Real.cos (f t)))⁻¹ • x t).dot (v t) = H / L * (e * Real.sin (f t)) := by
      rw [Axes.smul_dot, hx, hv, plane_dot o.pp o.qq o.pq]
      field_simp
      ring
    have shape : ∀ s A B s' A' B' : ℝ, k1 • s • (A • (L / (1 + e * Real.cos (f t)))⁻¹ • x t - B • v t)
        + k2 • s' • (A' • (L / (1 + e * Real.cos (f t)))⁻¹ • x t - B' • v t)
        = (k1 * (s * A) + k2 * (s' * A')) • ((1 + e * Real.cos (f t)) / L) • x t
          + (-(k1 * (s * B) + k2 * (s' * B'))) • v t := by
      intro s A B s' A' B'
      rw [inv_div]
      module
    unfold publishedFirst publishedSecond
    dsimp only
    rw [n1, n2, n3, shape,
      (eccentricityRate_frame o.pp o.qq o.pq hl hmuL hmu hyt _ _ (hx t) (hv t)).1]
    rw [hm']
    generalize Real.cos (f t) = c at *
    generalize Real.sin (f t) = z at *
    field_simp
    ring

/-- ... and what they do to the eccentricity. -/
theorem kidder_eccentricity (o : Ellipse mu a e p q x v) {c2 : ℝ} (hc : c2 ≠ 0) (eta k1 k2 : ℝ) :
    Gain (fun t => (eccentricityRate mu (x t) (v t)
        (k1 • publishedFirst c2 mu eta (x t) (v t) + k2 • publishedSecond c2 mu eta (x t) (v t))).dot p)
      (2 * Real.pi / orbitRate mu a)
      0 := by
  obtain ⟨f, L, H, hl, hh, hL, -, hmuL, hy, hf, ht, hx, hv, hd⟩ := o.frame
  have hmu := o.attracts
  rw [Real.sq_sqrt (show 0 ≤ 1 - e ^ 2 by nlinarith [o.round, o.closed])] at hL
  have key := gain_of_averages (c := 1) hf ht (((averages_sin_horner [3 - 1 * eta + 7 * e ^ 2 - 11 / 2 * e ^ 2 * eta, 10 * e - 8 * e * eta, -3 / 2 * e ^ 2 * eta] 0).const_mul
      (k1 * mu / (c2 * L))).add
    ((averages_sin_horner [-9 - 73 / 4 * eta + 2 * eta ^ 2 - 2 * e ^ 2 + 4 * e ^ 2 * eta - 2 * e ^ 2 * eta ^ 2 + 45 / 8 * e ^ 4 * eta +
    13 / 8 * e ^ 4 * eta ^ 2, -22 * e - 62 * e * eta + 6 * e * eta ^ 2 - 2 * e ^ 3 + 47 / 2 * e ^ 3 * eta + 2
    * e ^ 3 * eta ^ 2, -15 * e ^ 2 - 245 / 4 * e ^ 2 * eta + 16 * e ^ 2 * eta ^ 2 + 33 / 4 * e ^ 4 * eta + 3 /
    4 * e ^ 4 * eta ^ 2, -2 * e ^ 3 - 25 * e ^ 3 * eta + 16 * e ^ 3 * eta ^ 2, -15 / 8 * e ^ 4 * eta + 45 / 8
    * e ^ 4 * eta ^ 2] 0).const_mul
      (k2 * mu ^ 2 / (c2 * L) ^ 2)))
    (rate := fun t => (eccentricityRate mu (x t) (v t)
        (k1 • publishedFirst c2 mu eta (x t) (v t) + k2 • publishedSecond c2 mu eta (x t) (v t))).dot p) fun t => ?_
  · refine key.congr (fun _ => rfl) ?_
    ring
  · have hyt := hy t
    have h2 : Real.sin (f t) ^ 2 = 1 - Real.cos (f t) ^ 2 := by linarith [Real.sin_sq_add_cos_sq (f t)]
    have h3 : Real.sin (f t) ^ 3 = Real.sin (f t) * (1 - Real.cos (f t) ^ 2) := by rw [← h2]; ring
    have h5 : Real.sin (f t) ^ 5 = Real.sin (f t) * (1 - Real.cos (f t) ^ 2) ^ 2 := by rw [← h2]; ring
    have hm' : mu = H ^ 2 / L := by rw [eq_div_iff hl.ne', hmuL]
    have n1 : Real.sqrt (x t).norm2 = L / (1 + e * Real.cos (f t)) := by
      have : (x t).norm2 = (L / (1 + e * Real.cos (f t))) ^ 2 := by
        rw [show ∀ y : Axes ℝ, y.norm2 = y.dot y from fun _ => rfl, hx, plane_dot o.pp o.qq o.pq, hd]
      rw [this, Real.sqrt_sq (by positivity)]
    have n2 : (v t).norm2 = mu / L * (1 + 2 * e * Real.cos (f t) + e ^ 2) := by
      rw [show ∀ y : Axes ℝ, y.norm2 = y.dot y from fun _ => rfl, hv, plane_dot o.pp o.qq o.pq, hm']
      field_simp
      linear_combination h2
    have n3 : ((L / (1 + e * Real.cos (f t)))⁻¹ • x t).dot (v t) = H / L * (e * Real.sin (f t)) := by
      rw [Axes.smul_dot, hx, hv, plane_dot o.pp o.qq o.pq]
      field_simp
      ring
    have shape : ∀ s A B s' A' B' : ℝ, k1 • s • (A • (L / (1 + e * Real.cos (f t)))⁻¹ • x t - B • v t)
        + k2 • s' • (A' • (L / (1 + e * Real.cos (f t)))⁻¹ • x t - B' • v t)
        = (k1 * (s * A) + k2 * (s' * A')) • ((1 + e * Real.cos (f t)) / L) • x t
          + (-(k1 * (s * B) + k2 * (s' * B'))) • v t := by
      intro s A B s' A' B'
      rw [inv_div]
      module
    unfold publishedFirst publishedSecond
    dsimp only
    rw [n1, n2, n3, shape,
      (eccentricityRate_frame o.pp o.qq o.pq hl hmuL hmu hyt _ _ (hx t) (hv t)).2]
    rw [hm']
    generalize Real.cos (f t) = c at *
    generalize Real.sin (f t) = z at *
    simp only [horner]
    field_simp
    ring_nf
    simp only [h2, h3, h5]
    ring

/-- What Anderson's correction does to the pericentre to the first order in `1 / c^2`, if it uses the gravitational parameter
`mh` of the host while `mu` is that of the orbit. -/
theorem anderson_turn (o : Ellipse mu a e p q x v) (mh : ℝ) :
    Gain (fun t => (eccentricityRate mu (x t) (v t)
        (((mh / √((x t).dot (x t)) - 3 / 2 * (v t).dot (v t)) * mh / √((x t).dot (x t)) ^ 3) • x t
          - ((v t).dot (v t) / 2 + 3 * mh / √((x t).dot (x t))) • (-(mu / √((x t).dot (x t)) ^ 3) • x t)
          - ((v t).dot (-(mu / √((x t).dot (x t)) ^ 3) • x t) - 3 * mh / √((x t).dot (x t)) ^ 3 * (x t).dot (v t)) • v t)).dot q)
      (2 * Real.pi / orbitRate mu a)
      (e * (2 * Real.pi * (mu / 2 + 3 * mh - mh ^ 2 / (2 * mu)) / (a * (1 - e ^ 2)))) := by
  obtain ⟨f, L, H, hl, hh, hL, -, hmuL, hy, hf, ht, hx, hv, hd⟩ := o.frame
  have hmu := o.attracts
  rw [Real.sq_sqrt (show 0 ≤ 1 - e ^ 2 by nlinarith [o.round, o.closed])] at hL
  rw [← hL]
  have key := gain_of_averages (c := 1 / (mu * L)) hf ht
    (averages_trig [2 * e * (mu ^ 2 + 3 * mu * mh), -((mh ^ 2 + 3 * mh * mu) + (mu ^ 2 / 2 - 3 / 2 * mh * mu) * (1 + e ^ 2)),
      -e * (mh ^ 2 + 3 * mh * mu) - e * (mu ^ 2 - 3 * mh * mu) - 2 * e * (mu ^ 2 + 3 * mu * mh)] [])
    (rate := fun t => (eccentricityRate mu (x t) (v t)
        (((mh / √((x t).dot (x t)) - 3 / 2 * (v t).dot (v t)) * mh / √((x t).dot (x t)) ^ 3) • x t
          - ((v t).dot (v t) / 2 + 3 * mh / √((x t).dot (x t))) • (-(mu / √((x t).dot (x t)) ^ 3) • x t)
          - ((v t).dot (-(mu / √((x t).dot (x t)) ^ 3) • x t) - 3 * mh / √((x t).dot (x t)) ^ 3 * (x t).dot (v t)) • v t)).dot q)
    fun t => ?_
  · refine key.congr (fun _ => rfl) ?_
    simp only [hornerMean, cosMean]
    norm_num
    field_simp
    ring
  · have hyt := hy t
    have h2 : Real.sin (f t) ^ 2 = 1 - Real.cos (f t) ^ 2 := by linarith [Real.sin_sq_add_cos_sq (f t)]
    have hm' : mu = H ^ 2 / L := by rw [eq_div_iff hl.ne', hmuL]
    have n1 : √((x t).dot (x t)) = L / (1 + e * Real.cos (f t)) := by
      have : (x t).dot (x t) = (L / (1 + e * Real.cos (f t))) ^ 2 := by
        rw [hx, plane_dot o.pp o.qq o.pq, hd]
      rw [this, Real.sqrt_sq (by positivity)]
    have n2 : (v t).dot (v t) = mu / L * (1 + 2 * e * Real.cos (f t) + e ^ 2) := by
      rw [hv, plane_dot o.pp o.qq o.pq, hm']
      field_simp
      linear_combination h2
    have n3 : (x t).dot (v t) = L / (1 + e * Real.cos (f t)) * (H / L * (e * Real.sin (f t))) := by
      rw [hx, hv, plane_dot o.pp o.qq o.pq]
      field_simp
      ring
    have shape : ∀ A B C D : ℝ, A • x t - B • (-C • x t) - D • v t
        = ((A + B * C) * (L / (1 + e * Real.cos (f t)))) • ((1 + e * Real.cos (f t)) / L) • x t + (-D) • v t := by
      intro A B C D
      have : ((A + B * C) * (L / (1 + e * Real.cos (f t)))) * ((1 + e * Real.cos (f t)) / L) = A + B * C := by field_simp
      rw [smul_smul ((A + B * C) * _), this]
      module
    rw [shape, Axes.dot_smul, Axes.dot_comm (v t) (x t), n1, n2, n3,
      (eccentricityRate_frame o.pp o.qq o.pq hl hmuL hmu hyt _ _ (hx t) (hv t)).1]
    rw [hm']
    generalize Real.cos (f t) = c at *
    generalize Real.sin (f t) = z at *
    simp only [horner]
    field_simp
    ring_nf
    simp only [h2]
    ring

end

/-! ## Kidder's corrections -/

/-- A companion `i`, the only one with relativity, runs along a Kepler ellipse around the host `h` while Kidder's corrections
are evaluated; neither of them rotates. -/
structure KidderOrbit (k : Consts ℝ) (m : Models ℝ) (eps2 : ℝ) (evolution dL : Bool) (ignore : Ignore)
    (u u' : ℝ → Universe ℝ n) (h i : Fin n) (a e : ℝ) (p q : Axes ℝ) (M mi Mg mg : ℝ) : Prop where
  light : k.c2 ≠ 0
  other : i ≠ h
  hosts : ∀ t, GrHostOk (u t)
  host : ∀ t, (u t).hosts.gr = some h
  considered : ∀ t, (u t).consider.gr = true
  central : ∀ t, ((u t).particles h).gr.effect = .central .kidder1995
  orbiting : ∀ t, ((u t).particles i).gr.effect = .orbiting
  single : ∀ t j, j ≠ h → j ≠ i → ((u t).particles j).gr.effect.isOrbiting = false
  reference : ∀ t, ((u t).particles (u t).hosts.mostMassive).heliocentricVelocity = 0
  evaluated : ∀ t, calculateAdditionalEffects k m eps2 t evolution dL true ignore (inertialToHeliocentric (u t)) = some (u' t)
  still : ∀ t, ((u t).particles h).angularMomentum = 0 ∧ ((u t).particles i).angularMomentum = 0
  hostMass : ∀ t, ((u t).particles h).mass = M ∧ ((u t).particles h).massG = Mg
  companionMass : ∀ t, ((u t).particles i).mass = mi ∧ ((u t).particles i).massG = mg
  orbit : Ellipse (Mg + mg) a e p q (fun t => ((u t).particles i).inertialPosition - ((u t).particles h).inertialPosition)
    (fun t => ((u t).particles i).inertialVelocity - ((u t).particles h).inertialVelocity)

/-- A body without angular momentum has no spin after an evaluation. -/
theorem still_spin {k : Consts ℝ} {m : Models ℝ} {eps2 time : ℝ} {evolution dL : Bool}
    {ignore : Ignore} {u u' : Universe ℝ n} {h : Fin n} (hok : GrHostOk u) (hh : u.hosts.gr = some h)
    (cg : u.consider.gr = true) (hg : (u.particles h).gr.effect = .central .kidder1995)
    (hv : (u.particles u.hosts.mostMassive).heliocentricVelocity = 0)
    (hu : calculateAdditionalEffects k m eps2 time evolution dL true ignore (inertialToHeliocentric u) = some u')
    {j : Fin n} (hj : (u.particles j).angularMomentum = 0) : (u'.particles j).spin = 0 := by
  unfold calculateAdditionalEffects at hu
  split at hu
  · simp at hu
  rename_i u1 h1
  split at hu
  · simp at hu
  rename_i u2 h2
  obtain ⟨p1, p2, p3, p4, p5⟩ := preparedGr hok hh cg (Or.inl hg) hv h1 h2
  obtain ⟨pt, c1, c2, c3, c4⟩ := effects_gr (h := h) (by rw [p2]; exact cg) (by rw [p3]; exact hh) hu
  have e1 := congrArg Particle.spin (c3 j)
  have e2 : (u'.particles j).spin = (u2.particles j).spin := e1
  obtain ⟨hsp, -⟩ := calculateSpinAndEvolving_step h2
  obtain ⟨inertia, s1, -⟩ := spinAndEvolving_spin (hsp j)
  have e3 := congrArg Particle.angularMomentum (initializeAll_core h1 j)
  have e4 : (u1.particles j).angularMomentum = ((inertialToHeliocentric u).particles j).angularMomentum := e3
  rw [e2, s1, e4]
  have : ((inertialToHeliocentric u).particles j).angularMomentum = 0 := by
    rw [← hj]
    unfold inertialToHeliocentric
    dsimp only
    by_cases hjm : j = u.hosts.mostMassive
    · subst hjm
      rw [mapHost_host, mapOthers_host]
      rfl
    · rw [mapHost_other hjm, mapOthers_other hjm]
      rfl
  rw [this, Axes.sdiv_eq_smul, smul_zero]

section
variable {k : Consts ℝ} {m : Models ℝ} {eps2 : ℝ} {evolution dL : Bool} {ignore : Ignore}
  {u u' : ℝ → Universe ℝ n} {h i : Fin n} {a e : ℝ} {p q : Axes ℝ} {M mi Mg mg : ℝ}

/-- The relative acceleration along the orbit. -/
theorem KidderOrbit.relative (o : KidderOrbit k m eps2 evolution dL ignore u u' h i a e p q M mi Mg mg) (t : ℝ) :
    ((u' t).particles i).gr.acceleration - ((u' t).particles h).gr.acceleration
      = (1 + mi / M) • publishedFirst k.c2 (Mg + mg) (Mg * mg / (Mg + mg) ^ 2)
          (((u t).particles i).inertialPosition - ((u t).particles h).inertialPosition)
          (((u t).particles i).inertialVelocity - ((u t).particles h).inertialVelocity)
        + ((1 + mi / M) * k.c2) • publishedSecond k.c2 (Mg + mg) (Mg * mg / (Mg + mg) ^ 2)
          (((u t).particles i).inertialPosition - ((u t).particles h).inertialPosition)
          (((u t).particles i).inertialVelocity - ((u t).particles h).inertialVelocity) := by
  obtain ⟨f, L, H, hl, hh, -, -, -, hy, -, -, hx, hv, hd⟩ := o.orbit.frame
  have hyt := hy t
  have xne : ((u t).particles i).inertialPosition - ((u t).particles h).inertialPosition ≠ 0 := by
    intro h0
    have h1 := plane_dot o.orbit.pp o.orbit.qq o.orbit.pq (L / (1 + e * Real.cos (f t)) * Real.cos (f t))
      (L / (1 + e * Real.cos (f t)) * Real.sin (f t)) (L / (1 + e * Real.cos (f t)) * Real.cos (f t))
      (L / (1 + e * Real.cos (f t)) * Real.sin (f t))
    rw [← hx t, h0, hd, Axes.zero_dot] at h1
    have : 0 < (L / (1 + e * Real.cos (f t))) ^ 2 := by positivity
    linarith
  have vne : ((u t).particles i).inertialVelocity - ((u t).particles h).inertialVelocity ≠ 0 := by
    intro h0
    have h1 := plane_cross (p := p) (q := q) (L / (1 + e * Real.cos (f t)) * Real.cos (f t))
      (L / (1 + e * Real.cos (f t)) * Real.sin (f t)) (H / L * -Real.sin (f t)) (H / L * (e + Real.cos (f t)))
    have h2 := Real.sin_sq_add_cos_sq (f t)
    rw [← hv t, h0, Axes.cross_zero, show L / (1 + e * Real.cos (f t)) * Real.cos (f t) * (H / L * (e + Real.cos (f t)))
      - L / (1 + e * Real.cos (f t)) * Real.sin (f t) * (H / L * -Real.sin (f t)) = H by
        field_simp
        linear_combination h2] at h1
    have h3 := congrArg (fun y => y.dot (p.cross q)) h1
    rw [Axes.zero_dot, Axes.smul_dot, normal_dot o.orbit.pp o.orbit.qq o.orbit.pq] at h3
    linarith
  obtain ⟨so, x1, x2, x3, -⟩ := C64_exact_partial (o.hosts t) (o.host t) (o.considered t) (o.central t) (o.reference t) o.light
    (o.evaluated t) i o.other (o.orbiting t) (sub_ne_zero.1 xne) (sub_ne_zero.1 vne)
  have sp := fun {j} hj => still_spin (o.hosts t) (o.host t) (o.considered t) (o.central t) (o.reference t) (o.evaluated t)
    (j := j) hj
  have z := x2 (by dsimp only; rw [sp (o.still t).1, smul_zero]) (by dsimp only; rw [sp (o.still t).2, smul_zero])
  rw [x3 (o.single t), x1, z, add_zero, smul_add, smul_smul, (o.hostMass t).1, (o.hostMass t).2, (o.companionMass t).1,
    (o.companionMass t).2]

/-- **C118**: the angle, times the eccentricity, by which Kidder's corrections in the code turn the pericentre in a revolution.
Missing: the published value, which has neither the factor `1 + mi / M` nor the factor `c2` in the second summand. -/
theorem C118_kidder_partial (o : KidderOrbit k m eps2 evolution dL ignore u u' h i a e p q M mi Mg mg) :
    Gain (fun t => (eccentricityRate (Mg + mg) (((u t).particles i).inertialPosition - ((u t).particles h).inertialPosition)
        (((u t).particles i).inertialVelocity - ((u t).particles h).inertialVelocity)
        (((u' t).particles i).gr.acceleration - ((u' t).particles h).gr.acceleration)).dot q)
      (2 * Real.pi / orbitRate (Mg + mg) a)
      (e * ((1 + mi / M) * (6 * Real.pi * (Mg + mg) / (k.c2 * (a * (1 - e ^ 2)))
        + k.c2 * (2 * Real.pi * (Mg + mg) ^ 2 / (k.c2 * (a * (1 - e ^ 2))) ^ 2
          * secondTurn e (Mg * mg / (Mg + mg) ^ 2))))) := by
  refine (kidder_turn o.orbit o.light (Mg * mg / (Mg + mg) ^ 2) (1 + mi / M) ((1 + mi / M) * k.c2)).congr (fun t => ?_) ?_
  · rw [o.relative]
  · ring

/-- **C118**: they do not change the eccentricity in a revolution. -/
theorem C118_eccentricity (o : KidderOrbit k m eps2 evolution dL ignore u u' h i a e p q M mi Mg mg) :
    Gain (fun t => (eccentricityRate (Mg + mg) (((u t).particles i).inertialPosition - ((u t).particles h).inertialPosition)
        (((u t).particles i).inertialVelocity - ((u t).particles h).inertialVelocity)
        (((u' t).particles i).gr.acceleration - ((u' t).particles h).gr.acceleration)).dot p)
      (2 * Real.pi / orbitRate (Mg + mg) a) 0 := by
  refine (kidder_eccentricity o.orbit o.light (Mg * mg / (Mg + mg) ^ 2) (1 + mi / M) ((1 + mi / M) * k.c2)).congr
    (fun t => ?_) rfl
  rw [o.relative]

/-- **C118**: the published corrections turn the pericentre by Einstein's angle and a second order part. -/
theorem C118_published (o : KidderOrbit k m eps2 evolution dL ignore u u' h i a e p q M mi Mg mg) :
    Gain (fun t => (eccentricityRate (Mg + mg) (((u t).particles i).inertialPosition - ((u t).particles h).inertialPosition)
        (((u t).particles i).inertialVelocity - ((u t).particles h).inertialVelocity)
        (publishedFirst k.c2 (Mg + mg) (Mg * mg / (Mg + mg) ^ 2)
            (((u t).particles i).inertialPosition - ((u t).particles h).inertialPosition)
            (((u t).particles i).inertialVelocity - ((u t).particles h).inertialVelocity)
          + publishedSecond k.c2 (Mg + mg) (Mg * mg / (Mg + mg) ^ 2)
            (((u t).particles i).inertialPosition - ((u t).particles h).inertialPosition)
            (((u t).particles i).inertialVelocity - ((u t).particles h).inertialVelocity))).dot q)
      (2 * Real.pi / orbitRate (Mg + mg) a)
      (e * (6 * Real.pi * (Mg + mg) / (k.c2 * (a * (1 - e ^ 2)))
        + 2 * Real.pi * (Mg + mg) ^ 2 / (k.c2 * (a * (1 - e ^ 2))) ^ 2 * secondTurn e (Mg * mg / (Mg + mg) ^ 2))) := by
  refine (kidder_turn o.orbit o.light (Mg * mg / (Mg + mg) ^ 2) 1 1).congr (fun t => ?_) ?_
  · rw [one_smul, one_smul]
  · ring

/-- **C118**: the pericentre of every eccentric orbit turns by more than the published angle. -/
theorem C118_violated (o : KidderOrbit k m eps2 evolution dL ignore u u' h i a e p q M mi Mg mg) (hc : 1 < k.c2) (he : 0 < e)
    (hM : 0 < M) (hm : 0 < mi) (hMg : 0 < Mg) (hmg : 0 < mg) {turn published : ℝ}
    (ht : Gain (fun t => (eccentricityRate (Mg + mg) (((u t).particles i).inertialPosition - ((u t).particles h).inertialPosition)
        (((u t).particles i).inertialVelocity - ((u t).particles h).inertialVelocity)
        (((u' t).particles i).gr.acceleration - ((u' t).particles h).gr.acceleration)).dot q)
      (2 * Real.pi / orbitRate (Mg + mg) a) turn)
    (hp : Gain (fun t => (eccentricityRate (Mg + mg) (((u t).particles i).inertialPosition - ((u t).particles h).inertialPosition)
        (((u t).particles i).inertialVelocity - ((u t).particles h).inertialVelocity)
        (publishedFirst k.c2 (Mg + mg) (Mg * mg / (Mg + mg) ^ 2)
            (((u t).particles i).inertialPosition - ((u t).particles h).inertialPosition)
            (((u t).particles i).inertialVelocity - ((u t).particles h).inertialVelocity)
          + publishedSecond k.c2 (Mg + mg) (Mg * mg / (Mg + mg) ^ 2)
            (((u t).particles i).inertialPosition - ((u t).particles h).inertialPosition)
            (((u t).particles i).inertialVelocity - ((u t).particles h).inertialVelocity))).dot q)
      (2 * Real.pi / orbitRate (Mg + mg) a) published) : (1 + mi / M) * published < turn := by
  rw [ht.unique (C118_kidder_partial o), hp.unique (C118_published o)]
  have h1 : 0 < a * (1 - e ^ 2) := mul_pos o.orbit.size (by nlinarith [o.orbit.round, o.orbit.closed])
  have hS : 0 < secondTurn e (Mg * mg / (Mg + mg) ^ 2) := by
    have e0 : 0 < Mg * mg / (Mg + mg) ^ 2 := by positivity
    have e1 : Mg * mg / (Mg + mg) ^ 2 ≤ 1 / 4 := by
      rw [div_le_div_iff₀ (by positivity) (by norm_num)]
      nlinarith [sq_nonneg (Mg - mg)]
    generalize Mg * mg / (Mg + mg) ^ 2 = z at *
    have e2 : e ^ 2 ≤ 1 := by nlinarith [o.orbit.round, o.orbit.closed]
    have e3 : -1 ≤ -1 / 4 + 21 / 8 * z - 6 * z ^ 2 := by nlinarith
    unfold secondTurn
    nlinarith [sq_nonneg e]
  have hpi := Real.pi_pos
  obtain ⟨A, eA⟩ : ∃ A, A = 6 * Real.pi * (Mg + mg) / (k.c2 * (a * (1 - e ^ 2))) := ⟨_, rfl⟩
  obtain ⟨B, eB⟩ : ∃ B, B = 2 * Real.pi * (Mg + mg) ^ 2 / (k.c2 * (a * (1 - e ^ 2))) ^ 2
    * secondTurn e (Mg * mg / (Mg + mg) ^ 2) := ⟨_, rfl⟩
  have pB : 0 < B := by
    rw [eB]
    have : 0 < k.c2 := by linarith
    positivity
  rw [← eA, ← eB]
  have f1 : 0 < 1 + mi / M := by positivity
  have f2 : A + B < A + k.c2 * B := by nlinarith
  have f3 := mul_lt_mul_of_pos_left f2 (mul_pos he f1)
  linarith

end

/-! ## Anderson's corrections -/

/-- A companion `i`, the only one with relativity, runs along a Kepler ellipse around the host `h` while Anderson's corrections
are evaluated for all squares `c` of the speed of light. -/
structure AndersonOrbit (k : Consts ℝ) (m : Models ℝ) (eps2 : ℝ) (evolution dL : Bool)
    (u : ℝ → Universe ℝ n) (u' : ℝ → ℝ → Universe ℝ n) (h i : Fin n) (mu a e : ℝ) (p q : Axes ℝ) (Mg : ℝ) : Prop where
  other : i ≠ h
  hosts : ∀ t, GrHostOk (u t)
  host : ∀ t, (u t).hosts.gr = some h
  considered : ∀ t, (u t).consider.gr = true
  central : ∀ t, ((u t).particles h).gr.effect = .central .anderson1975
  orbiting : ∀ t, ((u t).particles i).gr.effect.isOrbiting = true
  single : ∀ t j, j ≠ h → j ≠ i → ((u t).particles j).gr.effect.isOrbiting = false
  reference : ∀ t, ((u t).particles (u t).hosts.mostMassive).heliocentricVelocity = 0
  hostMass : ∀ t, 0 < ((u t).particles h).mass ∧ ((u t).particles h).massG = Mg
  masses : ∀ t j, 0 ≤ ((u t).particles j).mass
  evaluated : ∀ c t, calculateAdditionalEffects { k with c2 := c } m eps2 t evolution dL true .none (inertialToHeliocentric (u t))
    = some (u' c t)
  newton : ∀ t, ((u t).particles i).inertialAcceleration - ((u t).particles h).inertialAcceleration
    = -(mu / √((((u t).particles i).inertialPosition - ((u t).particles h).inertialPosition).dot
        (((u t).particles i).inertialPosition - ((u t).particles h).inertialPosition)) ^ 3)
      • (((u t).particles i).inertialPosition - ((u t).particles h).inertialPosition)
  orbit : Ellipse mu a e p q (fun t => ((u t).particles i).inertialPosition - ((u t).particles h).inertialPosition)
    (fun t => ((u t).particles i).inertialVelocity - ((u t).particles h).inertialVelocity)

section
variable {k : Consts ℝ} {m : Models ℝ} {eps2 : ℝ} {evolution dL : Bool}
  {u : ℝ → Universe ℝ n} {u' : ℝ → ℝ → Universe ℝ n} {h i : Fin n} {mu a e : ℝ} {p q : Axes ℝ} {Mg : ℝ}

theorem Approaches.unique {f : ℝ → Axes ℝ} {a b : Axes ℝ} (h : Approaches f a) (h' : Approaches f b) : a = b := by
  ext
  · exact tendsto_nhds_unique h.x h'.x
  · exact tendsto_nhds_unique h.y h'.y
  · exact tendsto_nhds_unique h.z h'.z

/-- The relative acceleration along the orbit to the first order in `1 / c^2`. -/
theorem AndersonOrbit.limit (o : AndersonOrbit k m eps2 evolution dL u u' h i mu a e p q Mg) (t : ℝ) :
    let x := ((u t).particles i).inertialPosition - ((u t).particles h).inertialPosition
    let v := ((u t).particles i).inertialVelocity - ((u t).particles h).inertialVelocity
    Approaches (fun c => c • (((u' c t).particles i).gr.acceleration - ((u' c t).particles h).gr.acceleration))
      (((Mg / √(x.dot x) - 3 / 2 * v.dot v) * Mg / √(x.dot x) ^ 3) • x
        - (v.dot v / 2 + 3 * Mg / √(x.dot x)) • (-(mu / √(x.dot x) ^ 3) • x)
        - (v.dot (-(mu / √(x.dot x) ^ 3) • x) - 3 * Mg / √(x.dot x) ^ 3 * x.dot v) • v) := by
  intro x v
  have S : earlier h (fun j => ((u t).particles j).gr.effect.isOrbiting) i = {h} := by
    ext j
    simp only [earlier, mem_filter, mem_univ, true_and, mem_singleton]
    constructor
    · rintro (rfl | ⟨h1, h2⟩)
      · rfl
      · by_contra h3
        rw [o.single t j h3 h1.ne] at h2
        simp at h2
    · exact Or.inl
  have one : ∀ f : Fin n → Axes ℝ, relativeTo (fun j => ((u t).particles j).mass) {h} f i = f i - f h := by
    intro f
    have := (o.hostMass t).1.ne'
    simp [relativeTo, smul_smul, this]
  have key := fun c => C112_jacobi (o.hosts t) (o.host t) (o.considered t) (o.central t) (o.reference t) (o.hostMass t).1
    (o.masses t) (o.evaluated c t) o.other (o.orbiting t)
  simp only [S, one] at key
  simp only [key, (o.hostMass t).2, o.newton]
  exact C112_first_order k eps2 Mg _ _ _

/-- **C118**: Anderson's corrections to the first order in `1 / c^2` and the angle, times the eccentricity, by which they turn the
pericentre in a revolution. Missing: Einstein's angle; it is reached for a companion without mass only. -/
theorem C118_anderson_partial (o : AndersonOrbit k m eps2 evolution dL u u' h i mu a e p q Mg) {D : ℝ → Axes ℝ}
    (hD : ∀ t, Approaches (fun c => c • (((u' c t).particles i).gr.acceleration - ((u' c t).particles h).gr.acceleration)) (D t)) :
    Gain (fun t => (eccentricityRate mu (((u t).particles i).inertialPosition - ((u t).particles h).inertialPosition)
        (((u t).particles i).inertialVelocity - ((u t).particles h).inertialVelocity) (D t)).dot q)
      (2 * Real.pi / orbitRate mu a)
      (e * (2 * Real.pi * (mu / 2 + 3 * Mg - Mg ^ 2 / (2 * mu)) / (a * (1 - e ^ 2)))) := by
  refine (anderson_turn o.orbit Mg).congr (fun t => ?_) rfl
  rw [(hD t).unique (o.limit t)]

/-- **C118**: there is such a limit. -/
theorem C118_anderson_limit (o : AndersonOrbit k m eps2 evolution dL u u' h i mu a e p q Mg) : ∃ D : ℝ → Axes ℝ,
    ∀ t, Approaches (fun c => c • (((u' c t).particles i).gr.acceleration - ((u' c t).particles h).gr.acceleration)) (D t) :=
  ⟨_, o.limit⟩

/-- **C118**: the pericentre turns by Einstein's angle if and only if the companion has no mass: otherwise by less. -/
theorem C118_anderson_einstein (o : AndersonOrbit k m eps2 evolution dL u u' h i mu a e p q Mg) (he : 0 < e) (hM : 0 < Mg)
    (hm : Mg ≤ mu) {D : ℝ → Axes ℝ}
    (hD : ∀ t, Approaches (fun c => c • (((u' c t).particles i).gr.acceleration - ((u' c t).particles h).gr.acceleration)) (D t))
    {turn : ℝ}
    (ht : Gain (fun t => (eccentricityRate mu (((u t).particles i).inertialPosition - ((u t).particles h).inertialPosition)
        (((u t).particles i).inertialVelocity - ((u t).particles h).inertialVelocity) (D t)).dot q)
      (2 * Real.pi / orbitRate mu a) turn) :
    turn ≤ e * (6 * Real.pi * mu / (a * (1 - e ^ 2)))
    ∧ (turn = e * (6 * Real.pi * mu / (a * (1 - e ^ 2))) ↔ Mg = mu) := by
  rw [ht.unique (C118_anderson_partial o hD)]
  have h1 : 0 < a * (1 - e ^ 2) := mul_pos o.orbit.size (by nlinarith [o.orbit.round, o.orbit.closed])
  have hmu := o.orbit.attracts
  have hpi := Real.pi_pos
  have diff : e * (6 * Real.pi * mu / (a * (1 - e ^ 2)))
      - e * (2 * Real.pi * (mu / 2 + 3 * Mg - Mg ^ 2 / (2 * mu)) / (a * (1 - e ^ 2)))
      = e * Real.pi / (a * (1 - e ^ 2)) / mu * ((mu - Mg) * (5 * mu - Mg)) := by
    field_simp
    ring
  have pos : 0 < e * Real.pi / (a * (1 - e ^ 2)) / mu := by positivity
  have pos' : 0 < 5 * mu - Mg := by linarith
  refine ⟨?_, fun heq => ?_, ?_⟩
  · have : 0 ≤ e * Real.pi / (a * (1 - e ^ 2)) / mu * ((mu - Mg) * (5 * mu - Mg)) :=
      mul_nonneg pos.le (mul_nonneg (by linarith) pos'.le)
    linarith
  · rw [heq, sub_self] at diff
    rcases mul_eq_zero.1 diff.symm with h2 | h2
    · exact absurd h2 pos.ne'
    · rcases mul_eq_zero.1 h2 with h3 | h3
      · linarith
      · exact absurd h3 pos'.ne'
  · rintro rfl
    rw [sub_self, zero_mul, mul_zero] at diff
    linarith

end

/-! ## Examples -/

/-- Two bodies on an ellipse of the eccentricity 3/5; `E` is the eccentric anomaly. -/
noncomputable def turningUniverse (i : GrImplementation) (E : ℝ) : Universe ℝ 2 :=
  { relativisticUniverse i 0 0 with
    particles := fun j => if j = 0 then
        { blank ℝ with mass := 1 / 2, massG := 1 / 2, momentOfInertia := 1, angularMomentum := 0,
                       gr := { (blank ℝ).gr with effect := .central i } }
      else
        { blank ℝ with id := 1, mass := 1 / 2, massG := 1 / 2, momentOfInertia := 1, angularMomentum := 0,
                       inertialPosition := (Real.cos E - 3 / 5) • ⟨1, 0, 0⟩ + (Real.sqrt (1 - (3 / 5) ^ 2) * Real.sin E) • ⟨0, 1, 0⟩
                       inertialVelocity := (-Real.sin E * (1 / (1 - 3 / 5 * Real.cos E))) • ⟨1, 0, 0⟩
                         + (Real.sqrt (1 - (3 / 5) ^ 2) * (Real.cos E * (1 / (1 - 3 / 5 * Real.cos E)))) • ⟨0, 1, 0⟩
                       inertialAcceleration := -(1 / √(((Real.cos E - 3 / 5) • (⟨1, 0, 0⟩ : Axes ℝ)
                           + (Real.sqrt (1 - (3 / 5) ^ 2) * Real.sin E) • ⟨0, 1, 0⟩).dot ((Real.cos E - 3 / 5) • (⟨1, 0, 0⟩ : Axes ℝ)
                           + (Real.sqrt (1 - (3 / 5) ^ 2) * Real.sin E) • ⟨0, 1, 0⟩)) ^ 3)
                         • ((Real.cos E - 3 / 5) • ⟨1, 0, 0⟩ + (Real.sqrt (1 - (3 / 5) ^ 2) * Real.sin E) • ⟨0, 1, 0⟩)
                       gr := { (blank ℝ).gr with effect := .orbiting } } }

theorem turningUniverse_defined (i : GrImplementation) (k : Consts ℝ) (m : Models ℝ) (E t : ℝ) :
    ∃ u', calculateAdditionalEffects k m 0 t false true true .none (inertialToHeliocentric (turningUniverse i E)) = some u' := by
  have hh : HasHosts (inertialToHeliocentric (turningUniverse i E)) := by
    constructor <;> simp [inertialToHeliocentric, turningUniverse, relativisticUniverse]
  have hn := (additionalEffects_none (k := k) (m := m) (eps2 := 0) (time := t) (evolution := false)
    (dL := true) (acc := true) (ignore := .none) hh rfl).not
  refine Option.ne_none_iff_exists'.1 (hn.2 ?_)
  rintro ⟨j, hj⟩
  have hI : ((inertialToHeliocentric (turningUniverse i E)).particles j).momentOfInertia = 1 := by
    by_cases hi : j = 0 <;>
      simp [inertialToHeliocentric, turningUniverse, relativisticUniverse, mapHost, mapOthers, hi, toHeliocentric,
        zeroHeliocentric]
  rw [hI] at hj
  simp at hj

theorem turningUniverse_ellipse (i : GrImplementation) : ∃ E : ℝ → ℝ,
    Ellipse 1 1 (3 / 5) ⟨1, 0, 0⟩ ⟨0, 1, 0⟩ (fun t => ((turningUniverse i (E t)).particles 1).inertialPosition
        - ((turningUniverse i (E t)).particles 0).inertialPosition)
      (fun t => ((turningUniverse i (E t)).particles 1).inertialVelocity
        - ((turningUniverse i (E t)).particles 0).inertialVelocity) := by
  obtain ⟨E, hE⟩ := anomaly_exists (e := 3 / 5) (by norm_num) 1
  have rel : ∀ t, ((turningUniverse i (E t)).particles 1).inertialPosition
      - ((turningUniverse i (E t)).particles 0).inertialPosition
      = (Real.cos (E t) - 3 / 5) • (⟨1, 0, 0⟩ : Axes ℝ) + (Real.sqrt (1 - (3 / 5) ^ 2) * Real.sin (E t)) • ⟨0, 1, 0⟩ := by
    intro t
    ext <;> simp [turningUniverse, blank]
  have rel' : ∀ t, ((turningUniverse i (E t)).particles 1).inertialVelocity
      - ((turningUniverse i (E t)).particles 0).inertialVelocity
      = (-Real.sin (E t) * (1 / (1 - 3 / 5 * Real.cos (E t)))) • (⟨1, 0, 0⟩ : Axes ℝ)
        + (Real.sqrt (1 - (3 / 5) ^ 2) * (Real.cos (E t) * (1 / (1 - 3 / 5 * Real.cos (E t))))) • ⟨0, 1, 0⟩ := by
    intro t
    ext <;> simp [turningUniverse, blank]
  exact ⟨E, {
    attracts := one_pos
    size := one_pos
    round := by norm_num
    closed := by norm_num
    pp := by simp [Axes.dot]
    qq := by simp [Axes.dot]
    pq := by simp [Axes.dot]
    place := ⟨E, by rw [orbitRate_one]; exact hE, fun t => by rw [rel]; simp⟩
    moves := fun t => by
      have dE := anomaly_deriv (e := 3 / 5) (by norm_num) (by norm_num) one_ne_zero hE t
      have hv := WHFast.vecDeriv_combination (a := 0) (b := 0) ⟨1, 0, 0⟩ ⟨0, 1, 0⟩
        (((Real.hasDerivAt_cos (E t)).comp t dE).sub_const (3 / 5))
        (((Real.hasDerivAt_sin (E t)).comp t dE).const_mul (Real.sqrt (1 - (3 / 5) ^ 2)))
      rw [show (fun t => ((turningUniverse i (E t)).particles 1).inertialPosition
        - ((turningUniverse i (E t)).particles 0).inertialPosition) = _ from funext rel, rel']
      exact hv }⟩

/-- Kidder's corrections in the code turn the pericentre by more than twice the published angle if the masses are equal ... -/
example (k : Consts ℝ) (m : Models ℝ) (hk : 1 < k.c2) : ∃ (E : ℝ → ℝ) (u' : ℝ → Universe ℝ 2) (turn published : ℝ),
    (∀ t, calculateAdditionalEffects k m 0 t false true true .none (inertialToHeliocentric (turningUniverse .kidder1995 (E t)))
      = some (u' t))
    ∧ Gain (fun t => (eccentricityRate (1 / 2 + 1 / 2) (((turningUniverse .kidder1995 (E t)).particles 1).inertialPosition
          - ((turningUniverse .kidder1995 (E t)).particles 0).inertialPosition)
        (((turningUniverse .kidder1995 (E t)).particles 1).inertialVelocity
          - ((turningUniverse .kidder1995 (E t)).particles 0).inertialVelocity)
        (((u' t).particles 1).gr.acceleration - ((u' t).particles 0).gr.acceleration)).dot ⟨0, 1, 0⟩)
        (2 * Real.pi / orbitRate (1 / 2 + 1 / 2) 1) turn
    ∧ Gain (fun t => (eccentricityRate (1 / 2 + 1 / 2) (((turningUniverse .kidder1995 (E t)).particles 1).inertialPosition
          - ((turningUniverse .kidder1995 (E t)).particles 0).inertialPosition)
        (((turningUniverse .kidder1995 (E t)).particles 1).inertialVelocity
          - ((turningUniverse .kidder1995 (E t)).particles 0).inertialVelocity)
        (publishedFirst k.c2 (1 / 2 + 1 / 2) (1 / 2 * (1 / 2) / (1 / 2 + 1 / 2) ^ 2)
            (((turningUniverse .kidder1995 (E t)).particles 1).inertialPosition
              - ((turningUniverse .kidder1995 (E t)).particles 0).inertialPosition)
            (((turningUniverse .kidder1995 (E t)).particles 1).inertialVelocity
              - ((turningUniverse .kidder1995 (E t)).particles 0).inertialVelocity)
          + publishedSecond k.c2 (1 / 2 + 1 / 2) (1 / 2 * (1 / 2) / (1 / 2 + 1 / 2) ^ 2)
            (((turningUniverse .kidder1995 (E t)).particles 1).inertialPosition
              - ((turningUniverse .kidder1995 (E t)).particles 0).inertialPosition)
            (((turningUniverse .kidder1995 (E t)).particles 1).inertialVelocity
              - ((turningUniverse .kidder1995 (E t)).particles 0).inertialVelocity))).dot ⟨0, 1, 0⟩)
        (2 * Real.pi / orbitRate (1 / 2 + 1 / 2) 1) published
    ∧ 2 * published < turn := by
  obtain ⟨E, hE⟩ := turningUniverse_ellipse .kidder1995
  have hd := fun t => turningUniverse_defined .kidder1995 k m (E t) t
  choose u' hu using hd
  have o : KidderOrbit k m 0 false true .none (fun t => turningUniverse .kidder1995 (E t)) u' 0 1 1 (3 / 5) ⟨1, 0, 0⟩ ⟨0, 1, 0⟩
      (1 / 2) (1 / 2) (1 / 2) (1 / 2) := {
    light := by linarith
    other := by decide
    hosts := fun t => by constructor <;> simp [turningUniverse, relativisticUniverse]
    host := fun t => rfl
    considered := fun t => rfl
    central := fun t => rfl
    orbiting := fun t => rfl
    single := fun t j h0 h1 => by omega
    reference := fun t => by rfl
    evaluated := hu
    still := fun t => ⟨rfl, rfl⟩
    hostMass := fun t => ⟨rfl, rfl⟩
    companionMass := fun t => ⟨rfl, rfl⟩
    orbit := by
      rw [show (1 / 2 + 1 / 2 : ℝ) = 1 by norm_num]
      exact hE }
  refine ⟨E, u', _, _, hu, C118_kidder_partial o, C118_published o, ?_⟩
  have := C118_violated o hk (by norm_num) (by norm_num) (by norm_num) (by norm_num) (by norm_num) (C118_kidder_partial o)
    (C118_published o)
  refine lt_of_eq_of_lt ?_ this
  congr 1
  norm_num

/-- ... and Anderson's turn it by less than Einstein's angle. -/
example (k : Consts ℝ) (m : Models ℝ) : ∃ (E : ℝ → ℝ) (u' : ℝ → ℝ → Universe ℝ 2) (D : ℝ → Axes ℝ) (turn : ℝ),
    (∀ c t, calculateAdditionalEffects { k with c2 := c } m 0 t false true true .none
      (inertialToHeliocentric (turningUniverse .anderson1975 (E t))) = some (u' c t))
    ∧ (∀ t, Approaches (fun c => c • (((u' c t).particles 1).gr.acceleration - ((u' c t).particles 0).gr.acceleration)) (D t))
    ∧ Gain (fun t => (eccentricityRate 1 (((turningUniverse .anderson1975 (E t)).particles 1).inertialPosition
          - ((turningUniverse .anderson1975 (E t)).particles 0).inertialPosition)
        (((turningUniverse .anderson1975 (E t)).particles 1).inertialVelocity
          - ((turningUniverse .anderson1975 (E t)).particles 0).inertialVelocity) (D t)).dot ⟨0, 1, 0⟩)
        (2 * Real.pi / orbitRate 1 1) turn
    ∧ turn < 3 / 5 * (6 * Real.pi * 1 / (1 * (1 - (3 / 5) ^ 2))) := by
  obtain ⟨E, hE⟩ := turningUniverse_ellipse .anderson1975
  have hd := fun c t => turningUniverse_defined .anderson1975 { k with c2 := c } m (E t) t
  choose u' hu using hd
  have o : AndersonOrbit k m 0 false true (fun t => turningUniverse .anderson1975 (E t)) u' 0 1 1 1 (3 / 5) ⟨1, 0, 0⟩ ⟨0, 1, 0⟩
      (1 / 2) := {
    other := by decide
    hosts := fun t => by constructor <;> simp [turningUniverse, relativisticUniverse]
    host := fun t => rfl
    considered := fun t => rfl
    central := fun t => rfl
    orbiting := fun t => rfl
    single := fun t j h0 h1 => by omega
    reference := fun t => by rfl
    hostMass := fun t => ⟨by simp [turningUniverse], rfl⟩
    masses := fun t j => by by_cases hj : j = 0 <;> simp [turningUniverse, hj]
    evaluated := hu
    newton := fun t => by
      have h0 : ((turningUniverse .anderson1975 (E t)).particles 0).inertialPosition = 0 := rfl
      have h1 : ((turningUniverse .anderson1975 (E t)).particles 0).inertialAcceleration = 0 := rfl
      rw [h0, h1, sub_zero, sub_zero]
      rfl
    orbit := hE }
  obtain ⟨D, hD⟩ := C118_anderson_limit o
  refine ⟨E, u', D, _, hu, hD, C118_anderson_partial o hD, ?_⟩
  obtain ⟨h1, h2⟩ := C118_anderson_einstein o (by norm_num) (by norm_num) (by norm_num) hD (C118_anderson_partial o hD)
  refine lt_of_le_of_ne h1 (fun h3 => ?_)
  have := h2.1 h3
  norm_num at this

end Posidonius.Univ
