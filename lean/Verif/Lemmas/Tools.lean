import Verif.Model.Tools
import Verif.Model.RealTrig
import Verif.Spec.Tools
import Mathlib.Tactic.FieldSimp
import Mathlib.Tactic.LinearCombination
import Mathlib.Tactic.Linarith

/-! # Geometry of the orbit -/

namespace Posidonius.Tools
open Posidonius.Kepler

variable (i g n : ℝ)

theorem perihelion_eq : perihelionDirection i g n =
    ⟨Real.cos g * Real.cos n - Real.sin g * Real.sin n * Real.cos i,
     Real.cos g * Real.sin n + Real.sin g * Real.cos n * Real.cos i, Real.sin g * Real.sin i⟩ := by
  ext <;> simp [perihelionDirection, orient, rotZ, rotX] <;> ring

theorem transverse_eq : transverseDirection i g n =
    ⟨-(Real.sin g * Real.cos n) - Real.cos g * Real.sin n * Real.cos i,
     -(Real.sin g * Real.sin n) + Real.cos g * Real.cos n * Real.cos i, Real.cos g * Real.sin i⟩ := by
  ext <;> simp [transverseDirection, orient, rotZ, rotX] <;> ring

theorem normal_eq : normal i g n =
    ⟨Real.sin i * Real.sin n, -(Real.sin i * Real.cos n), Real.cos i⟩ := by
  ext <;> simp [normal, orient, rotZ, rotX] <;> ring

theorem PP : (perihelionDirection i g n).dot (perihelionDirection i g n) = 1 := by
  rw [perihelion_eq]; simp only [Axes.dot]
  linear_combination (Real.cos g ^ 2 + Real.sin g ^ 2 * Real.cos i ^ 2) * Real.sin_sq_add_cos_sq n +
    Real.sin g ^ 2 * Real.sin_sq_add_cos_sq i + Real.sin_sq_add_cos_sq g

theorem QQ : (transverseDirection i g n).dot (transverseDirection i g n) = 1 := by
  rw [transverse_eq]; simp only [Axes.dot]
  linear_combination (Real.sin g ^ 2 + Real.cos g ^ 2 * Real.cos i ^ 2) * Real.sin_sq_add_cos_sq n +
    Real.cos g ^ 2 * Real.sin_sq_add_cos_sq i + Real.sin_sq_add_cos_sq g

theorem NN : (normal i g n).dot (normal i g n) = 1 := by
  rw [normal_eq]; simp only [Axes.dot]
  linear_combination Real.sin i ^ 2 * Real.sin_sq_add_cos_sq n + Real.sin_sq_add_cos_sq i

theorem PQ : (perihelionDirection i g n).dot (transverseDirection i g n) = 0 := by
  rw [perihelion_eq, transverse_eq]; simp only [Axes.dot]
  linear_combination (-Real.sin g * Real.cos g + Real.sin g * Real.cos g * Real.cos i ^ 2) *
    Real.sin_sq_add_cos_sq n + Real.sin g * Real.cos g * Real.sin_sq_add_cos_sq i

theorem PxQ : (perihelionDirection i g n).cross (transverseDirection i g n) = normal i g n := by
  rw [perihelion_eq, transverse_eq, normal_eq]
  ext <;> simp
  · linear_combination Real.sin i * Real.sin n * Real.sin_sq_add_cos_sq g
  · linear_combination -(Real.sin i * Real.cos n) * Real.sin_sq_add_cos_sq g
  · linear_combination (Real.cos i * Real.cos g ^ 2 + Real.cos i * Real.sin g ^ 2) *
      Real.sin_sq_add_cos_sq n + Real.cos i * Real.sin_sq_add_cos_sq g

theorem PxN : (perihelionDirection i g n).cross (normal i g n) = -transverseDirection i g n := by
  rw [perihelion_eq, transverse_eq, normal_eq]
  ext <;> simp
  · linear_combination Real.sin g * Real.cos n *
      Real.sin_sq_add_cos_sq i
  · linear_combination Real.sin g * Real.sin n * Real.sin_sq_add_cos_sq i
  · linear_combination -(Real.cos g * Real.sin i) * Real.sin_sq_add_cos_sq n

theorem QxN : (transverseDirection i g n).cross (normal i g n) = perihelionDirection i g n := by
  rw [perihelion_eq, transverse_eq, normal_eq]
  ext <;> simp
  · linear_combination Real.cos g * Real.cos n * Real.sin_sq_add_cos_sq i
  · linear_combination Real.cos g * Real.sin n * Real.sin_sq_add_cos_sq i
  · linear_combination (Real.sin g * Real.sin i) * Real.sin_sq_add_cos_sq n

/-- The rotation of the code puts in-plane vectors into the oriented plane. -/
theorem rotate_eq (z1 z2 z3 z4 : ℝ) : rotate i g n (z1, z2, z3, z4) =
    (z1 • perihelionDirection i g n + z2 • transverseDirection i g n,
     z3 • perihelionDirection i g n + z4 • transverseDirection i g n) := by
  rw [perihelion_eq, transverse_eq]
  simp only [rotate, sin_real, cos_real, Prod.mk.injEq]
  constructor <;> ext <;> simp <;> ring

section plane
variable (P Q : Axes ℝ)

theorem plane_dot (hP : P.dot P = 1) (hQ : Q.dot Q = 1) (hPQ : P.dot Q = 0) (a b c d : ℝ) :
    (a • P + b • Q).dot (c • P + d • Q) = a * c + b * d := by
  have e : (a • P + b • Q).dot (c • P + d • Q) =
      a * c * P.dot P + (a * d + b * c) * P.dot Q + b * d * Q.dot Q := by
    simp [Axes.dot]; ring
  rw [e, hP, hQ, hPQ]; ring

theorem plane_cross (a b c d : ℝ) :
    (a • P + b • Q).cross (c • P + d • Q) = (a * d - b * c) • P.cross Q := by
  ext <;> simp <;> ring

end plane

/-- Vector form of the code's formula. -/
theorem perihelion_real (gm : ℝ) (r v : Axes ℝ) :
    perihelionDistanceAndEccentricity gm r v =
      let s := (r.cross v).dot (r.cross v) / gm
      let temp := 1 + s * (v.dot v / gm - 2 / len r)
      let e := if temp ≤ 0 then 0 else Real.sqrt temp
      (s / (1 + e), e) := by
  simp only [perihelionDistanceAndEccentricity, lit_real, sqrt_real, leb_real, Rat.cast_zero,
    Rat.cast_one, len, Axes.dot, Axes.cross_x, Axes.cross_y, Axes.cross_z, Rat.cast_ofNat]
  congr

theorem eccentricityVector_real (gm : ℝ) (r v : Axes ℝ) : eccentricityVector gm r v = lrl gm r v := by
  ext <;> simp [eccentricityVector, lrl, len, Axes.dot] <;> ring

/-- If `(r, v)` lies in the plane with in-plane components satisfying the polar equation of the conic, it
is on the orbit. -/
theorem onOrbit_of_plane {gm q e z1 z2 z3 z4 h ρ : ℝ} (hρ : 0 < ρ)
    (hr : z1 ^ 2 + z2 ^ 2 = ρ ^ 2) (hh : z1 * z4 - z2 * z3 = h)
    (h1 : h * z4 / gm - z1 / ρ = e) (h2 : -(h * z3) / gm - z2 / ρ = 0)
    (h3 : h = Real.sqrt (gm * (q * (1 + e)))) (r v : Axes ℝ)
    (er : r = z1 • perihelionDirection i g n + z2 • transverseDirection i g n)
    (ev : v = z3 • perihelionDirection i g n + z4 • transverseDirection i g n) :
    OnOrbit gm q e i g n r v where
  momentum := by
    rw [er, ev, plane_cross, PxQ, hh, h3]
  lrl_eq := by
    have hl : len r = ρ := by
      rw [len, er, plane_dot _ _ (PP i g n) (QQ i g n) (PQ i g n),
        show z1 * z1 + z2 * z2 = ρ ^ 2 by linarith, Real.sqrt_sq hρ.le]
    have hc : v.cross (r.cross v) = (h * z4) • perihelionDirection i g n +
        (-(h * z3)) • transverseDirection i g n := by
      rw [show r.cross v = h • normal i g n by rw [er, ev, plane_cross, PxQ, hh], ev, Axes.cross_smul,
        Axes.add_cross, Axes.smul_cross, Axes.smul_cross, PxN, QxN]
      module
    rw [lrl, hl, hc, er]
    have : gm⁻¹ • ((h * z4) • perihelionDirection i g n + (-(h * z3)) • transverseDirection i g n) -
        ρ⁻¹ • (z1 • perihelionDirection i g n + z2 • transverseDirection i g n) =
        (h * z4 / gm - z1 / ρ) • perihelionDirection i g n +
          (-(h * z3) / gm - z2 / ρ) • transverseDirection i g n := by
      simp only [div_eq_inv_mul]; module
    rw [this, h1, h2]
    simp

/-- On an orbit the energy integral follows: `v² = gm (2/r - (1-e)/q)`, and the code's formula gives
back `q` and `e`. -/
theorem lrl_norm (gm : ℝ) (hgm : gm ≠ 0) (r v : Axes ℝ) (hr : len r ≠ 0) :
    (lrl gm r v).dot (lrl gm r v) =
      1 + (r.cross v).dot (r.cross v) / gm * (v.dot v / gm - 2 / len r) := by
  have hl : len r ^ 2 = r.dot r := by
    rw [len, Real.sq_sqrt (Axes.dot_self_nonneg r)]
  have e : (lrl gm r v).dot (lrl gm r v) =
      (gm⁻¹) ^ 2 * (v.cross (r.cross v)).dot (v.cross (r.cross v))
      - 2 * gm⁻¹ * (len r)⁻¹ * (v.cross (r.cross v)).dot r + ((len r)⁻¹) ^ 2 * r.dot r := by
    simp only [lrl, Axes.dot, Axes.sub_x, Axes.sub_y, Axes.sub_z, Axes.smul_x, Axes.smul_y, Axes.smul_z]
    ring
  have e1 : (v.cross (r.cross v)).dot (v.cross (r.cross v)) =
      v.dot v * (r.cross v).dot (r.cross v) := by
    simp [Axes.dot]; ring
  have e2 : (v.cross (r.cross v)).dot r = (r.cross v).dot (r.cross v) := by
    simp [Axes.dot]; ring
  rw [e, e1, e2, ← hl]
  field_simp
  ring

theorem perihelion_of_onOrbit {gm q e : ℝ} (hgm : 0 < gm) (hq : 0 < q) (he : 0 ≤ e) (r v : Axes ℝ)
    (h : OnOrbit gm q e i g n r v) : perihelionDistanceAndEccentricity gm r v = (q, e) := by
  have hs : (r.cross v).dot (r.cross v) = gm * (q * (1 + e)) := by
    rw [h.momentum, Axes.dot_smul, Axes.smul_dot, NN, mul_one, Real.mul_self_sqrt]
    positivity
  have hr : len r ≠ 0 := by
    intro h0
    have : r.dot r = 0 := by
      have := Real.sqrt_eq_zero (Axes.dot_self_nonneg r) |>.mp h0
      exact this
    have hr0 := Axes.dot_self_eq_zero this
    rw [hr0, Axes.zero_cross, Axes.zero_dot] at hs
    have : 0 < gm * (q * (1 + e)) := by positivity
    linarith
  have ht := lrl_norm gm hgm.ne' r v hr
  rw [h.lrl_eq, Axes.dot_smul, Axes.smul_dot, PP, mul_one] at ht
  have hsg : (r.cross v).dot (r.cross v) / gm = q * (1 + e) := by
    rw [hs]; field_simp
  rw [perihelion_real]
  simp only [← ht]
  have hroot : (if e * e ≤ 0 then 0 else Real.sqrt (e * e)) = e := by
    split
    · have : e * e = 0 := le_antisymm ‹_› (mul_self_nonneg e)
      rw [mul_self_eq_zero.mp this]
    · exact Real.sqrt_mul_self he
  rw [hroot, hsg]
  have : (1 + e) ≠ 0 := by positivity
  simp only [Prod.mk.injEq, and_true]
  field_simp

end Posidonius.Tools
