import Verif.Lemmas.Vec
import Verif.Model.Universe
import Mathlib.Data.Finset.Basic
import Mathlib.Data.Fintype.Basic

/-! Loops over the companions of a host, with real numbers. -/

namespace Posidonius.Univ
open Finset

@[simp] theorem ipow_real (x : ℝ) (n : Nat) : ipow x n = x ^ n := by
  match n with
  | 0 => simp [ipow]
  | 1 => simp [ipow]
  | n + 2 => simp [ipow, ipow_real x (n + 1), pow_succ]

/-- A particle with all quantities zero and no effects (for examples). -/
def blank (F : Type) [FOps F] : Particle F :=
  { id := 0, mass := lit 0, massG := lit 0, radius := lit 0,
    inertialPosition := Axes.zero, inertialVelocity := Axes.zero,
    inertialAcceleration := Axes.zero, inertialAdditionalAcceleration := Axes.zero,
    heliocentricPosition := Axes.zero, heliocentricVelocity := Axes.zero,
    heliocentricDistance := lit 0, heliocentricRadialVelocity := lit 0,
    heliocentricNormVelocity := lit 0, heliocentricNormVelocity2 := lit 0,
    spin := Axes.zero, normSpin2 := lit 0, angularMomentum := Axes.zero, dAngularMomentumDt := Axes.zero,
    radiusOfGyration2 := lit 0, momentOfInertia := lit 0,
    tides := ⟨.disabled, lit 0, lit 0, lit 0, lit 0, lit 0, lit 0, lit 0, lit 0, lit 0, Axes.zero, lit 0,
      lit 0, Axes.zero, Axes.zero, Axes.zero, Axes.zero⟩,
    flattening := ⟨.disabled, lit 0, lit 0, lit 0, lit 0, lit 0, lit 0, lit 0, lit 0, Axes.zero, Axes.zero,
      Axes.zero, Axes.zero, Axes.zero⟩,
    gr := ⟨.disabled, lit 0, lit 0, lit 0, lit 0, lit 0, Axes.zero, Axes.zero, Axes.zero, Axes.zero⟩,
    wind := ⟨false, lit 0, lit 0, lit 0, Axes.zero⟩,
    disk := ⟨.disabled, lit 0, lit 0, lit 0, lit 0, Axes.zero, Axes.zero, Axes.zero⟩,
    evolution := .nonEvolving }

section
variable {n : Nat} {P : Type}

@[simp] theorem mapOthers_host (h : Fin n) (f : P → P → P) (p : Fin n → P) : mapOthers h f p h = p h := by
  simp [mapOthers]

theorem mapOthers_other {h i : Fin n} (hi : i ≠ h) (f : P → P → P) (p : Fin n → P) :
    mapOthers h f p i = f (p h) (p i) := by simp [mapOthers, hi]

@[simp] theorem mapHost_host (h : Fin n) (f : P → P) (p : Fin n → P) : mapHost h f p h = f (p h) := by
  simp [mapHost]

theorem mapHost_other {h i : Fin n} (hi : i ≠ h) (f : P → P) (p : Fin n → P) :
    mapHost h f p i = p i := by simp [mapHost, hi]

theorem mem_others {h i : Fin n} : i ∈ others h ↔ i ≠ h := by simp [others]

theorem others_nodup (h : Fin n) : (others h).Nodup := (List.nodup_finRange n).filter _

theorem others_toFinset (h : Fin n) : (others h).toFinset = univ.erase h := by
  ext i; simp [mem_others]

theorem foldl_others {M : Type} [AddCommMonoid M] (h : Fin n) (f : Fin n → M) (a : M) :
    (others h).foldl (fun acc i => acc + f i) a = a + ∑ i ∈ univ.erase h, f i := by
  rw [foldl_add_eq_sum, ← others_toFinset, List.sum_toFinset _ (others_nodup h)]

theorem sumOthers_real (h : Fin n) (f : P → Axes ℝ) (p : Fin n → P) :
    sumOthers h f p = ∑ i ∈ univ.erase h, f (p i) := by
  have := foldl_others h (fun i => f (p i)) (0 : Axes ℝ)
  rw [zero_add] at this
  exact this

/-- Accelerations of a host and its companions by forces on the companions and their opposite on the host
leave the momentum unchanged. -/
theorem momentum_of_recoil (h : Fin n) (mass : Fin n → ℝ) (a force : Fin n → Axes ℝ) (hm : ∀ i, mass i ≠ 0)
    (ha : ∀ i, i ≠ h → mass i • a i = force i)
    (hh : a h = (-(1 / mass h)) • ∑ i ∈ univ.erase h, force i) :
    ∑ i, mass i • a i = 0 := by
  rw [← add_sum_erase univ _ (mem_univ h), hh, smul_smul]
  have : mass h * -(1 / mass h) = -1 := by have := hm h; field_simp
  rw [this, sum_congr rfl (fun i hi => ha i (ne_of_mem_erase hi))]
  simp

/-- ... and change the orbital angular momentum by the torques about the host. -/
theorem torque_of_recoil (h : Fin n) (mass : Fin n → ℝ) (x a force : Fin n → Axes ℝ)
    (hm : ∀ i, mass i ≠ 0) (ha : ∀ i, i ≠ h → mass i • a i = force i)
    (hh : a h = (-(1 / mass h)) • ∑ i ∈ univ.erase h, force i) :
    ∑ i, mass i • (x i).cross (a i) = ∑ i ∈ univ.erase h, (x i - x h).cross (force i) := by
  rw [← add_sum_erase univ _ (mem_univ h), hh, Axes.cross_smul, smul_smul]
  have : mass h * -(1 / mass h) = -1 := by have := hm h; field_simp
  rw [this, Axes.cross_sum]
  have e : ∀ i ∈ univ.erase h, mass i • (x i).cross (a i) = (x i).cross (force i) := fun i hi => by
    rw [← Axes.cross_smul, ha i (ne_of_mem_erase hi)]
  rw [sum_congr rfl e, smul_sum, ← sum_add_distrib]
  refine sum_congr rfl fun i _ => ?_
  rw [Axes.sub_cross]
  module

end
end Posidonius.Univ
