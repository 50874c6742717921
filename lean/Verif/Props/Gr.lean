import Verif.Lemmas.GrUniverse
import Verif.Props.Tides

/-! Properties C40, C64-C67: general relativity. -/

namespace Posidonius.Univ
open Finset
open Gravity (Ignore)

variable {n : Nat}

/-! ## A system for the examples -/

/-- Two bodies of the same mass one unit apart, with rotational angular momenta `l0`, `l1` and relativity by
`i`. -/
noncomputable def relativisticUniverse (i : GrImplementation) (l0 l1 : Axes ℝ) : Universe ℝ 2 :=
  { particles := fun j => if j = 0 then
        { blank ℝ with mass := 1, massG := 1, momentOfInertia := 1, angularMomentum := l0,
                       gr := { (blank ℝ).gr with effect := .central i } }
      else
        { blank ℝ with id := 1, mass := 1, massG := 1, momentOfInertia := 1, angularMomentum := l1,
                       inertialPosition := ⟨1, 0, 0⟩, inertialVelocity := ⟨0, 1, 0⟩,
                       gr := { (blank ℝ).gr with effect := .orbiting } },
    evolvers := fun _ => ⟨.nonEvolving, [], [], [], [], [], 0⟩,
    consider := ⟨false, false, true, false, false, false⟩,
    grImplementation := i,
    hosts := ⟨0, none, none, some 0, none, true, false, false, true, false⟩,
    table := fun _ => none }

theorem relativisticUniverse_ok (i : GrImplementation) (l0 l1 : Axes ℝ) : GrHostOk (relativisticUniverse i l0 l1) := by
  constructor <;> simp [relativisticUniverse]

theorem relativisticUniverse_mass (i : GrImplementation) (l0 l1 : Axes ℝ) (j : Fin 2) :
    ((relativisticUniverse i l0 l1).particles j).mass = 1 := by
  by_cases hj : j = 0 <;> simp [relativisticUniverse, hj]

theorem relativisticUniverse_orbiting (i : GrImplementation) (l0 l1 : Axes ℝ) (j : Fin 2) (hj : j ≠ 0) :
    ((relativisticUniverse i l0 l1).particles j).gr.effect = .orbiting := by
  simp [relativisticUniverse, hj]

theorem relativisticUniverse_defined (i : GrImplementation) (l0 l1 : Axes ℝ) (k : Consts ℝ) (m : Models ℝ) (eps2 : ℝ)
    (ignore : Ignore) :
    ∃ u', calculateAdditionalEffects k m eps2 0 false true true ignore
      (inertialToHeliocentric (relativisticUniverse i l0 l1)) = some u' := by
  have hh : HasHosts (inertialToHeliocentric (relativisticUniverse i l0 l1)) := by
    constructor <;> simp [inertialToHeliocentric, relativisticUniverse]
  have hn := (additionalEffects_none (k := k) (m := m) (eps2 := eps2) (time := 0) (evolution := false)
    (dL := true) (acc := true) (ignore := ignore) hh rfl).not
  refine Option.ne_none_iff_exists'.1 (hn.2 ?_)
  rintro ⟨j, hj⟩
  have hI : ((inertialToHeliocentric (relativisticUniverse i l0 l1)).particles j).momentOfInertia = 1 := by
    by_cases hi : j = 0 <;>
      simp [inertialToHeliocentric, relativisticUniverse, mapHost, mapOthers, hi, toHeliocentric,
        zeroHeliocentric]
  rw [hI] at hj
  simp at hj

theorem relativisticUniverse_velocity (i : GrImplementation) (l0 l1 : Axes ℝ) :
    ((relativisticUniverse i l0 l1).particles (relativisticUniverse i l0 l1).hosts.mostMassive).heliocentricVelocity = 0 := by
  simp [relativisticUniverse, blank]

theorem relativisticUniverse_pair (l0 l1 : Axes ℝ) (i j : Fin 2) :
    grPair ((relativisticUniverse .newhall1983 l0 l1).particles i)
      ((relativisticUniverse .newhall1983 l0 l1).particles j) = true := by
  unfold grPair
  by_cases hi : i = 0
  · rw [hi]; rfl
  · rw [relativisticUniverse_orbiting _ _ _ i hi]; rfl

theorem relativisticUniverse_apart (g : GrImplementation) (l0 l1 : Axes ℝ) (i j : Fin 2) (hij : i ≠ j) :
    ((relativisticUniverse g l0 l1).particles i).inertialPosition
      ≠ ((relativisticUniverse g l0 l1).particles j).inertialPosition := by
  intro e
  have e := congrArg Axes.x e
  match i, j with
  | 0, 0 => exact hij rfl
  | 1, 1 => exact hij rfl
  | 0, 1 => simp [relativisticUniverse, blank] at e
  | 1, 0 => simp [relativisticUniverse, blank] at e

/-! ## C40 Action and reaction -/

/-- Momentum of accelerations of the companions that take part and the recoil of the host. -/
theorem momentum_of_orbiting (h : Fin n) (p : Fin n → Particle ℝ) (a f : Fin n → Axes ℝ)
    (hm : (p h).mass ≠ 0) (ha : ∀ i, i ≠ h → (p i).gr.effect.isOrbiting = true → a i = f i)
    (hz : ∀ i, i ≠ h → (p i).gr.effect.isOrbiting = false → a i = 0)
    (hh : a h = -orbitingSum h p fun i => ((p i).mass / (p h).mass) • f i) :
    ∑ i, (p i).mass • a i = 0 := by
  rw [← add_sum_erase univ _ (mem_univ h), hh, orbitingSum, smul_neg, smul_sum, ← sum_neg_distrib,
    ← sum_add_distrib]
  refine sum_eq_zero fun i hi => ?_
  have hi' := ne_of_mem_erase hi
  by_cases ho : (p i).gr.effect.isOrbiting = true
  · rw [if_pos ho, ha i hi' ho, smul_smul]
    have : (p h).mass * ((p i).mass / (p h).mass) = (p i).mass := by field_simp
    rw [this]
    simp
  · rw [if_neg ho, hz i hi' (by simpa using ho)]
    simp

/-- The relativistic accelerations by Kidder's corrections leave the total momentum unchanged; bodies that do
not take part have not been accelerated before. -/
theorem C40_momentum {k : Consts ℝ} {m : Models ℝ} {eps2 time : ℝ} {evolution dL : Bool} {ignore : Ignore}
    {u u' : Universe ℝ n} {h : Fin n} (hok : GrHostOk u) (hh : u.hosts.gr = some h)
    (cg : u.consider.gr = true) (hg : (u.particles h).gr.effect = .central .kidder1995)
    (hv : (u.particles u.hosts.mostMassive).heliocentricVelocity = 0) (hm : (u.particles h).mass ≠ 0)
    (hz : ∀ i, i ≠ h → (u.particles i).gr.effect.isOrbiting = false → (u.particles i).gr.acceleration = 0)
    (hu : calculateAdditionalEffects k m eps2 time evolution dL true ignore (inertialToHeliocentric u)
      = some u') :
    ∑ i, (u.particles i).mass • (u'.particles i).gr.acceleration = 0
      ∧ ∀ i, i ≠ h → (u.particles i).gr.effect.isOrbiting = false → (u'.particles i).gr.acceleration = 0 := by
  obtain ⟨P, a, -, c, d, -⟩ := gr_evaluation hok hh cg (Or.inl hg) hv hu
  have e0 : generalRelativity k eps2 ignore h P = kidder k h P := by
    unfold generalRelativity
    rw [(a h).2.2.2.2.2.1, hg]
  obtain ⟨r1, r2, r3⟩ := kidder_result k h P
  have ef : ∀ i, (P i).gr.effect.isOrbiting = (u.particles i).gr.effect.isOrbiting := fun i => by
    rw [(a i).2.2.2.2.2.1]
  have z : ∀ i, i ≠ h → (P i).gr.effect.isOrbiting = false → (u'.particles i).gr.acceleration = 0 := by
    intro i hi ho
    rw [d, e0, r2 i hi ho, c i hi (by rw [← ef]; exact ho)]
    exact hz i hi (by rw [← ef]; exact ho)
  refine ⟨?_, fun i hi ho => z i hi (by rw [ef]; exact ho)⟩
  have key := momentum_of_orbiting h P (fun i => (u'.particles i).gr.acceleration)
    (fun i => kidderTotal k (P h) (P i)) (by rw [(a h).1]; exact hm)
    (fun i hi ho => by rw [d, e0, r1 i hi ho]; rfl) z (by rw [d, e0, r3]; rfl)
  rw [← key]
  exact sum_congr rfl fun i _ => by rw [(a i).1]

/-- Each of the three corrections by itself leaves the momentum unchanged. -/
theorem C40_parts (k : Consts ℝ) (h : Fin n) (p : Fin n → Particle ℝ) (hm : (p h).mass ≠ 0) :
    (∀ i, i ≠ h → (p i).gr.effect.isOrbiting = false → (p i).gr.acceleration = 0) →
        ∑ i, (p i).mass • (kidderFirst k h p i).gr.acceleration = 0
      ∧ ∑ i, (p i).mass • (kidderSecond k h p i).gr.acceleration = ∑ i, (p i).mass • (p i).gr.acceleration
      ∧ ∑ i, (p i).mass • (kidderThird k h p i).gr.acceleration = ∑ i, (p i).mass • (p i).gr.acceleration := by
  intro hz
  obtain ⟨a1, b1, c1⟩ := kidderFirst_result k h p
  obtain ⟨a2, b2, c2⟩ := kidderSecond_result k h p
  obtain ⟨a3, b3, c3⟩ := kidderThird_result k h p
  have step : ∀ (q : Fin n → Particle ℝ) (f : Fin n → Axes ℝ),
      (∀ i, i ≠ h → (p i).gr.effect.isOrbiting = true → (q i).gr.acceleration = (p i).gr.acceleration + f i) →
      (∀ i, i ≠ h → (p i).gr.effect.isOrbiting = false → q i = p i) →
      (q h).gr.acceleration
        = (p h).gr.acceleration - (orbitingSum h p fun i => ((p i).mass / (p h).mass) • f i) →
      ∑ i, (p i).mass • (q i).gr.acceleration = ∑ i, (p i).mass • (p i).gr.acceleration := by
    intro q f qa qb qc
    have key := momentum_of_orbiting h p (fun i => (q i).gr.acceleration - (p i).gr.acceleration) f hm
      (fun i hi ho => by rw [qa i hi ho]; module) (fun i hi ho => by rw [qb i hi ho]; simp)
      (by rw [qc]; module)
    rw [← sub_eq_zero, ← sum_sub_distrib, ← key]
    exact sum_congr rfl fun i _ => by rw [smul_sub]
  refine ⟨momentum_of_orbiting h p _ (fun i => kidderFirstOrder k (p h) (p i)) hm
      (fun i hi ho => by rw [a1 i hi ho]; rfl) (fun i hi ho => by rw [b1 i hi ho]; exact hz i hi ho)
      (by rw [c1]; rfl),
    step _ (fun i => kidderSecondOrder k (p h) (p i)) (fun i hi ho => by rw [a2 i hi ho]; rfl) b2
      (by rw [c2]; rfl),
    step _ (fun i => kidderSpinOrbit k (p h) (p i)) (fun i hi ho => by rw [a3 i hi ho]; rfl) b3
      (by rw [c3]; rfl)⟩

/-- The relativistic torque is perpendicular to the spin: it changes only the direction of the spin. -/
theorem C40_torque {k : Consts ℝ} {m : Models ℝ} {eps2 time : ℝ} {evolution dL : Bool} {ignore : Ignore}
    {u u' : Universe ℝ n} {h : Fin n} (hok : GrHostOk u) (hh : u.hosts.gr = some h)
    (cg : u.consider.gr = true) (hg : (u.particles h).gr.effect = .central .kidder1995)
    (hv : (u.particles u.hosts.mostMassive).heliocentricVelocity = 0)
    (hu : calculateAdditionalEffects k m eps2 time evolution dL true ignore (inertialToHeliocentric u)
      = some u') (i : Fin n) (hi : i = h ∨ (u.particles i).gr.effect.isOrbiting = true) :
    (u'.particles i).gr.dAngularMomentumDt.dot (u'.particles i).spin = 0 := by
  obtain ⟨P, a, -, -, d, -⟩ := gr_evaluation hok hh cg (Or.inl hg) hv hu
  have e0 : generalRelativity k eps2 ignore h P = kidder k h P := by
    unfold generalRelativity
    rw [(a h).2.2.2.2.2.1, hg]
  obtain ⟨r1, r2, r3⟩ := kidder_result k h P
  have perp : ∀ (x y z w : Axes ℝ) (A B C K : ℝ),
      (K • (A • x.cross (C • w) - y.cross (C • w) + B • z.cross (C • w))).dot w = 0 := by
    intro x y z w A B C K
    simp only [Axes.dot]
    simp
    ring
  rw [d, e0, ← (a i).2.2.2.2.2.2.1]
  by_cases hih : i = h
  · subst hih
    rw [r3]
    unfold Particle.setGr2 orbitingSum
    dsimp only
    have : ∀ (s : Finset (Fin n)) (f : Fin n → Axes ℝ), (∀ j, (f j).dot (P i).spin = 0) →
        (∑ j ∈ s, f j).dot (P i).spin = 0 := by
      intro s f hf
      induction s using Finset.induction_on with
      | empty => simp [Axes.zero_dot]
      | insert x s hx ih => rw [sum_insert hx, Axes.add_dot, hf, ih, add_zero]
    refine this _ _ fun j => ?_
    split
    · exact perp _ _ _ _ _ _ _ _
    · exact Axes.zero_dot _
  · have ho : (P i).gr.effect.isOrbiting = true := by
      rw [(a i).2.2.2.2.2.1]
      exact hi.resolve_left hih
    rw [r1 i hih ho]
    exact perp _ _ _ _ _ _ _ _

example (k : Consts ℝ) (m : Models ℝ) : ∃ u',
    calculateAdditionalEffects k m 0 0 false true true .none
      (inertialToHeliocentric (relativisticUniverse .kidder1995 ⟨1, 0, 1⟩ ⟨0, 0, 1⟩)) = some u'
    ∧ ∑ i, ((relativisticUniverse .kidder1995 ⟨1, 0, 1⟩ ⟨0, 0, 1⟩).particles i).mass • (u'.particles i).gr.acceleration = 0
    ∧ ∀ i, (u'.particles i).gr.dAngularMomentumDt.dot (u'.particles i).spin = 0 := by
  obtain ⟨u', hu⟩ := relativisticUniverse_defined .kidder1995 ⟨1, 0, 1⟩ ⟨0, 0, 1⟩ k m 0 .none
  refine ⟨u', hu, (C40_momentum (relativisticUniverse_ok _ _ _) rfl rfl rfl (relativisticUniverse_velocity _ _ _)
    (by rw [relativisticUniverse_mass]; norm_num)
    (fun i hi ho => by rw [relativisticUniverse_orbiting _ _ _ _ hi] at ho; simp [GrEffect.isOrbiting] at ho) hu).1,
    fun i => C40_torque (relativisticUniverse_ok _ _ _) rfl rfl rfl (relativisticUniverse_velocity _ _ _) hu i ?_⟩
  by_cases hi : i = 0
  · exact Or.inl hi
  · exact Or.inr (by rw [relativisticUniverse_orbiting _ _ _ _ hi]; rfl)

/-! ## C64 The published corrections -/

/-- The first order correction of Kidder 1995, eq. 2.2b: `m` is the total mass times G, `eta` the symmetric
mass ratio, `c2` the squared speed of light, `r` and `v` the relative position and velocity. -/
noncomputable def publishedFirst (c2 m eta : ℝ) (r v : Axes ℝ) : Axes ℝ :=
  let d := Real.sqrt r.norm2
  let normal := d⁻¹ • r
  let rdot := normal.dot v
  (-(m / d ^ 2) / c2) • (((1 + 3 * eta) * v.norm2 - 2 * (2 + eta) * (m / d) - 3 / 2 * eta * rdot ^ 2) • normal
    - (2 * (2 - eta) * rdot) • v)

/-- The second order correction, eq. 2.2d. -/
noncomputable def publishedSecond (c2 m eta : ℝ) (r v : Axes ℝ) : Axes ℝ :=
  let d := Real.sqrt r.norm2
  let normal := d⁻¹ • r
  let rdot := normal.dot v
  let v2 := v.norm2
  (-(m / d ^ 2) / c2 ^ 2) •
    ((3 / 4 * (12 + 29 * eta) * (m / d) ^ 2 + eta * (3 - 4 * eta) * v2 ^ 2
        + 15 / 8 * eta * (1 - 3 * eta) * rdot ^ 4 - 3 / 2 * eta * (3 - 4 * eta) * v2 * rdot ^ 2
        - 1 / 2 * eta * (13 - 4 * eta) * (m / d) * v2
        - (2 + 25 * eta + 2 * eta ^ 2) * (m / d) * rdot ^ 2) • normal
      - (1 / 2 * rdot * (eta * (15 + 4 * eta) * v2 - (4 + 41 * eta + 8 * eta ^ 2) * (m / d)
        - 3 * eta * (3 + 2 * eta) * rdot ^ 2)) • v)

/-- The precession of the spin `s1` (of the body of mass `m1`) by the other body, eq. 2.4: `g` is the constant
of gravitation. -/
noncomputable def publishedPrecession (g c2 m1 m2 : ℝ) (s1 s2 r v : Axes ℝ) : Axes ℝ :=
  let d := Real.sqrt r.norm2
  let normal := d⁻¹ • r
  let l := (m1 * m2 / (m1 + m2)) • r.cross v
  (g / c2 / d ^ 3) • ((2 + 3 / 2 * (m2 / m1)) • l.cross s1 - s2.cross s1 + (3 * normal.dot s2) • normal.cross s1)

/-- The published corrections are accelerations of the companion relative to the host.  The code gives the
companion the sum of the first order correction, the second order correction times the squared speed of light,
and its spin-orbit term; if it is the only companion, its acceleration relative to the host is this sum times
`1 + m / M`; the torque on its spin is the published one times the cube of the distance.  Missing: all the
differences. -/
theorem C64_exact_partial {k : Consts ℝ} {m : Models ℝ} {eps2 time : ℝ} {evolution dL : Bool}
    {ignore : Ignore} {u u' : Universe ℝ n} {h : Fin n} (hok : GrHostOk u) (hh : u.hosts.gr = some h)
    (cg : u.consider.gr = true) (hg : (u.particles h).gr.effect = .central .kidder1995)
    (hv : (u.particles u.hosts.mostMassive).heliocentricVelocity = 0) (hc : k.c2 ≠ 0)
    (hu : calculateAdditionalEffects k m eps2 time evolution dL true ignore (inertialToHeliocentric u)
      = some u') (i : Fin n) (hi : i ≠ h) (ho : (u.particles i).gr.effect = .orbiting)
    (hsep : (u.particles i).inertialPosition ≠ (u.particles h).inertialPosition)
    (hmov : (u.particles i).inertialVelocity ≠ (u.particles h).inertialVelocity) :
    let r := (u.particles i).inertialPosition - (u.particles h).inertialPosition
    let v := (u.particles i).inertialVelocity - (u.particles h).inertialVelocity
    let M := (u.particles h).massG + (u.particles i).massG
    let eta := (u.particles h).massG * (u.particles i).massG / M ^ 2
    let s := fun j => (u'.particles j).momentOfInertia • (u'.particles j).spin
    ∃ spinOrbit : Axes ℝ,
      (u'.particles i).gr.acceleration
        = publishedFirst k.c2 M eta r v + k.c2 • publishedSecond k.c2 M eta r v + spinOrbit
      ∧ (s h = 0 → s i = 0 → spinOrbit = 0)
      ∧ ((∀ j, j ≠ h → j ≠ i → (u.particles j).gr.effect.isOrbiting = false) →
        (u'.particles i).gr.acceleration - (u'.particles h).gr.acceleration
          = (1 + (u.particles i).mass / (u.particles h).mass) • (u'.particles i).gr.acceleration)
      ∧ (u'.particles i).gr.dAngularMomentumDt
        = Real.sqrt r.norm2 ^ 3 • publishedPrecession k.g k.c2 (u.particles i).mass (u.particles h).mass
            (s i) (s h) r v := by
  intro r v M eta s
  obtain ⟨P, a, b, -, d, -⟩ := gr_evaluation hok hh cg (Or.inl hg) hv hu
  have e0 : generalRelativity k eps2 ignore h P = kidder k h P := by
    unfold generalRelativity
    rw [(a h).2.2.2.2.2.1, hg]
  obtain ⟨r1, -, r3⟩ := kidder_result k h P
  have ho' : (u.particles i).gr.effect.isOrbiting = true := by rw [ho]; rfl
  obtain ⟨⟨g1, g2, g3, g4, g5, g6⟩, fac⟩ := b i hi ho'
  have fac := fac (Or.inl hg)
  have npos : ∀ w : Axes ℝ, w ≠ 0 → 0 < Real.sqrt w.norm2 := fun w hw =>
    Real.sqrt_pos.2 (lt_of_le_of_ne (Axes.dot_self_nonneg _) (fun e => hw (Axes.dot_self_eq_zero e.symm)))
  have hD : Real.sqrt r.norm2 ≠ 0 := (npos r (sub_ne_zero.2 hsep)).ne'
  have hV : Real.sqrt v.norm2 ≠ 0 := (npos v (sub_ne_zero.2 hmov)).ne'
  have hP : (P i).gr.effect.isOrbiting = true := by rw [(a i).2.2.2.2.2.1]; exact ho'
  have f1 : kidderFirstOrder k (P h) (P i) = publishedFirst k.c2 M eta r v := by
    unfold kidderFirstOrder publishedFirst
    dsimp only
    rw [g1, g2, g3, g4, g5, g6, fac, (a i).2.1, (a h).2.1]
    rw [show (u.particles h).massG + (u.particles i).massG = M from rfl,
      show (u.particles h).massG * (u.particles i).massG / M ^ 2 = eta from rfl,
      show (u.particles i).inertialPosition - (u.particles h).inertialPosition = r from rfl,
      show (u.particles i).inertialVelocity - (u.particles h).inertialVelocity = v from rfl,
      Axes.smul_dot, Axes.sdiv_eq_smul, Axes.sdiv_eq_smul]
    generalize Real.sqrt r.norm2 = D at *
    generalize Real.sqrt v.norm2 = V at *
    generalize r.dot v = rv
    generalize v.norm2 = v2
    generalize k.c2 = c2 at *
    ext <;> simp <;> field_simp <;> ring
  have f2 : kidderSecondOrder k (P h) (P i) = k.c2 • publishedSecond k.c2 M eta r v := by
    unfold kidderSecondOrder publishedSecond
    dsimp only
    rw [g1, g2, g3, g4, g5, fac, (a i).2.1, (a h).2.1]
    rw [show (u.particles h).massG + (u.particles i).massG = M from rfl,
      show (u.particles h).massG * (u.particles i).massG / M ^ 2 = eta from rfl,
      show (u.particles i).inertialPosition - (u.particles h).inertialPosition = r from rfl,
      show (u.particles i).inertialVelocity - (u.particles h).inertialVelocity = v from rfl,
      Axes.smul_dot, Axes.sdiv_eq_smul]
    generalize Real.sqrt r.norm2 = D at *
    generalize r.dot v = rv
    generalize v.norm2 = v2
    generalize k.c2 = c2 at *
    ext <;> simp <;> field_simp <;> ring
  refine ⟨kidderSpinOrbit k (P h) (P i), ?_, fun s1 s2 => ?_, fun single => ?_, ?_⟩
  · rw [d, e0, r1 i hi hP, ← f1, ← f2]
    rfl
  · have z1 : rotationalMomentum (P h) = 0 := by
      unfold rotationalMomentum
      rw [(a h).2.2.2.2.2.2.1, (a h).2.2.2.2.2.2.2]
      exact s1
    have z2 : rotationalMomentum (P i) = 0 := by
      unfold rotationalMomentum
      rw [(a i).2.2.2.2.2.2.1, (a i).2.2.2.2.2.2.2]
      exact s2
    unfold kidderSpinOrbit
    rw [z1, z2]
    ext <;> simp [hadamard]
  · have eh : (u'.particles h).gr.acceleration
        = -(((u.particles i).mass / (u.particles h).mass) • (u'.particles i).gr.acceleration) := by
      rw [d, d, e0, r3, r1 i hi hP]
      show -(orbitingSum h P fun j => ((P j).mass / (P h).mass) • kidderTotal k (P h) (P j))
        = -(((u.particles i).mass / (u.particles h).mass) • kidderTotal k (P h) (P i))
      unfold orbitingSum
      rw [sum_eq_single_of_mem i (mem_erase.2 ⟨hi, mem_univ _⟩), if_pos hP]
      · dsimp only
        rw [(a i).1, (a h).1]
      intro j hj hji
      rw [(a j).2.2.2.2.2.1, single j (ne_of_mem_erase hj) hji]
      rfl
    rw [eh]
    module
  · rw [d, e0, r1 i hi hP]
    show kidderCompanionTorque k (P h) (P i) = _
    have z : ∀ j, rotationalMomentum (P j) = s j := fun j => by
      unfold rotationalMomentum
      rw [(a j).2.2.2.2.2.2.1, (a j).2.2.2.2.2.2.2]
    unfold kidderCompanionTorque publishedPrecession newtonianOrbitalMomentum
    dsimp only
    rw [z, z, g1, g2, g3, (a i).1, (a h).1,
      show (u.particles i).inertialPosition - (u.particles h).inertialPosition = r from rfl,
      show (u.particles i).inertialVelocity - (u.particles h).inertialVelocity = v from rfl,
      Axes.sdiv_eq_smul, smul_smul]
    have e1 : Real.sqrt r.norm2 ^ 3 * (k.g / k.c2 / Real.sqrt r.norm2 ^ 3) = k.g / k.c2 := by
      field_simp
    rw [e1]
    simp only [lit_real]
    push_cast
    rw [mul_comm (u.particles h).mass (u.particles i).mass, add_comm (u.particles h).mass (u.particles i).mass,
      mul_div_assoc]

/-- The relative acceleration of the two bodies of the example without spins is not the published one. -/
theorem C64_violated (k : Consts ℝ) (m : Models ℝ) (hc : 1 < k.c2) :
    let u := relativisticUniverse .kidder1995 0 0
    let r : Axes ℝ := ⟨1, 0, 0⟩
    let v : Axes ℝ := ⟨0, 1, 0⟩
    ∃ u', calculateAdditionalEffects k m 0 0 false true true .none (inertialToHeliocentric u) = some u'
      ∧ (u.particles 1).inertialPosition - (u.particles 0).inertialPosition = r
      ∧ (u.particles 1).inertialVelocity - (u.particles 0).inertialVelocity = v
      ∧ (u'.particles 0).spin = 0 ∧ (u'.particles 1).spin = 0
      ∧ (u'.particles 1).gr.acceleration - (u'.particles 0).gr.acceleration
        ≠ publishedFirst k.c2 2 (1 / 4) r v + publishedSecond k.c2 2 (1 / 4) r v := by
  intro u r v
  obtain ⟨u', hu⟩ := relativisticUniverse_defined .kidder1995 0 0 k m 0 .none
  have hr : (u.particles 1).inertialPosition - (u.particles 0).inertialPosition = r := by
    ext <;> simp [u, r, relativisticUniverse, blank]
  have hv : (u.particles 1).inertialVelocity - (u.particles 0).inertialVelocity = v := by
    ext <;> simp [u, v, relativisticUniverse, blank]
  have hs : ∀ j, (u'.particles j).spin = 0 := by
    intro j
    unfold calculateAdditionalEffects at hu
    split at hu
    · simp at hu
    rename_i u1 h1
    split at hu
    · simp at hu
    rename_i u2 h2
    obtain ⟨p1, p2, p3, p4, p5⟩ := preparedGr (relativisticUniverse_ok _ _ _) (h := 0) rfl rfl (Or.inl rfl)
      (relativisticUniverse_velocity _ _ _) h1 h2
    obtain ⟨pt, c1, c2, c3, c4⟩ := effects_gr (h := 0) (by rw [p2]; rfl) (by rw [p3]; rfl) hu
    have e1 := congrArg Particle.spin (c3 j)
    have e2 : (u'.particles j).spin = (u2.particles j).spin := e1
    obtain ⟨hsp, -⟩ := calculateSpinAndEvolving_step h2
    obtain ⟨inertia, s1, -⟩ := spinAndEvolving_spin (hsp j)
    have e3 := congrArg Particle.angularMomentum (initializeAll_core h1 j)
    have e4 : (u1.particles j).angularMomentum
      = ((inertialToHeliocentric (relativisticUniverse .kidder1995 0 0)).particles j).angularMomentum := e3
    rw [e2, s1, e4]
    have : ((inertialToHeliocentric (relativisticUniverse .kidder1995 0 0)).particles j).angularMomentum = 0 := by
      by_cases hj : j = 0 <;>
        simp [inertialToHeliocentric, relativisticUniverse, mapHost, mapOthers, hj, toHeliocentric,
          zeroHeliocentric]
    rw [this, Axes.sdiv_eq_smul, smul_zero]
  refine ⟨u', hu, hr, hv, hs 0, hs 1, ?_⟩
  have ne0 : ∀ {a b : Axes ℝ}, a - b ≠ 0 → a ≠ b := fun h e => h (sub_eq_zero.2 e)
  obtain ⟨so, x1, x2, x3, -⟩ := C64_exact_partial (relativisticUniverse_ok _ _ _) (h := 0) rfl rfl rfl
    (relativisticUniverse_velocity _ _ _) (by linarith : k.c2 ≠ 0) hu 1 (by decide)
    (relativisticUniverse_orbiting _ _ _ _ (by decide))
    (ne0 (by rw [hr]; intro e; have := congrArg Axes.x e; simp [r] at this))
    (ne0 (by rw [hv]; intro e; have := congrArg Axes.y e; simp [v] at this))
  have z := x2 (by simp [hs]) (by simp [hs])
  rw [x3 (fun j hj hji => by omega), x1, z, hr, hv]
  have mg : ∀ j, (u.particles j).massG = 1 := fun j => by
    by_cases hj : j = 0 <;> simp [u, relativisticUniverse, hj]
  rw [mg, mg, relativisticUniverse_mass, relativisticUniverse_mass]
  intro e
  have e := congrArg Axes.x e
  have n1 : r.norm2 = 1 := by simp [r, Axes.norm2, Axes.dot]
  have n2 : v.norm2 = 1 := by simp [v, Axes.norm2, Axes.dot]
  have n3 : r.dot v = 0 := by simp [r, v, Axes.dot]
  have cz : k.c2 ≠ 0 := by linarith
  unfold publishedFirst publishedSecond at e
  dsimp only at e
  rw [n1, n2, Axes.smul_dot, n3, Real.sqrt_one] at e
  simp [r, v] at e
  norm_num at e
  field_simp at e
  nlinarith

/-- The torque on a companion is not the published one whenever that is not zero and the distance is not one
astronomical unit. -/
theorem C64_violated_torque {k : Consts ℝ} {m : Models ℝ} {eps2 time : ℝ} {evolution dL : Bool}
    {ignore : Ignore} {u u' : Universe ℝ n} {h : Fin n} (hok : GrHostOk u) (hh : u.hosts.gr = some h)
    (cg : u.consider.gr = true) (hg : (u.particles h).gr.effect = .central .kidder1995)
    (hv : (u.particles u.hosts.mostMassive).heliocentricVelocity = 0) (hc : k.c2 ≠ 0)
    (hu : calculateAdditionalEffects k m eps2 time evolution dL true ignore (inertialToHeliocentric u)
      = some u') (i : Fin n) (hi : i ≠ h) (ho : (u.particles i).gr.effect = .orbiting)
    (hsep : (u.particles i).inertialPosition ≠ (u.particles h).inertialPosition)
    (hmov : (u.particles i).inertialVelocity ≠ (u.particles h).inertialVelocity)
    (hone : ((u.particles i).inertialPosition - (u.particles h).inertialPosition).norm2 ≠ 1) :
    let r := (u.particles i).inertialPosition - (u.particles h).inertialPosition
    let v := (u.particles i).inertialVelocity - (u.particles h).inertialVelocity
    let s := fun j => (u'.particles j).momentOfInertia • (u'.particles j).spin
    let published := publishedPrecession k.g k.c2 (u.particles i).mass (u.particles h).mass (s i) (s h) r v
    published ≠ 0 → (u'.particles i).gr.dAngularMomentumDt ≠ published := by
  intro r v s published hp e
  obtain ⟨-, -, -, -, x⟩ := C64_exact_partial hok hh cg hg hv hc hu i hi ho hsep hmov
  have x : (u'.particles i).gr.dAngularMomentumDt = Real.sqrt r.norm2 ^ 3 • published := x
  rw [e] at x
  have x : (Real.sqrt r.norm2 ^ 3 - 1) • published = 0 := by rw [sub_smul, one_smul, ← x, sub_self]
  rcases smul_eq_zero.1 x with y | y
  · refine hone ?_
    have z : Real.sqrt r.norm2 ^ 3 = 1 := by linarith
    have : Real.sqrt r.norm2 = 1 := (pow_eq_one_iff_of_nonneg (Real.sqrt_nonneg _) (by norm_num)).1 z
    have e1 : r.norm2 = Real.sqrt r.norm2 ^ 2 := (Real.sq_sqrt (Axes.dot_self_nonneg _)).symm
    show r.norm2 = 1
    rw [e1, this]
    norm_num
  · exact hp y

/-- A companion at rest relative to its host gets a NaN acceleration, for all masses and positions: the
tangential part is multiplied and divided by the speed. -/
theorem C64_violated_at_rest (k : Consts XQ) (host p : Particle XQ) (c2 mh mp d eta vr : ℚ) (x : Axes XQ)
    (hc : k.c2 = .fin c2) (hmh : host.massG = .fin mh) (hmp : p.massG = .fin mp)
    (hd : p.gr.distance = .fin d) (he : p.gr.factor = .fin eta) (hr : p.gr.radialVelocity = .fin vr)
    (hx : p.gr.position = x) (hv : p.gr.velocity = Axes.zero) (h0 : p.gr.normVelocity = .fin 0)
    (hz : d * d * c2 ≠ 0) :
    kidderFirstOrder k host p = ⟨.nan, .nan, .nan⟩ := by
  have dv : ∀ a b : ℚ, b ≠ 0 → (XQ.fin a / XQ.fin b : XQ) = .fin (a / b) := fun a b hb => XQ.fin_div hb
  have ip : ipow (XQ.fin d) 2 = .fin (d * d) := by rw [XQ.ipow_fin]; congr 1; ring
  unfold kidderFirstOrder
  simp only [hc, hmh, hmp, hd, he, hr, hx, hv, h0, ip, XQ.fin_add, XQ.fin_mul, XQ.lit_eq, XQ.fin_sub, XQ.fin_neg,
    dv _ _ hz, mul_zero]
  ext <;> simp

/-! ## C65 Anderson's corrections -/

/-- The state of the loop from Jacobi to inertial accelerations: the momentum of the accelerations set so far
plus the one still to be distributed is constant. -/
theorem fromJacobi_loop (p : Fin n → Particle ℝ) (jacobi : Fin n → Axes ℝ) (l : List (Fin n)) (nd : l.Nodup)
    (eta : ℝ) (s : Axes ℝ) (acc : Fin n → Axes ℝ)
    (pos : 0 < eta - (l.map fun i => if (p i).gr.effect.isOrbiting then (p i).mass else 0).sum)
    (hm : ∀ i, 0 ≤ (p i).mass) :
    let r := l.foldl (fun (s : ℝ × Axes ℝ × (Fin n → Axes ℝ)) i =>
      if (p i).gr.effect.isOrbiting then
        let ei := lit 1 / s.1
        let sa := smulRight (s.2.1 - (p i).mass • jacobi i) ei
        let eta := s.1 - (p i).mass
        (eta, smulRight sa eta, fun j => if j = i then jacobi i + sa else s.2.2 j)
      else s) (eta, s, acc)
    r.1 = eta - (l.map fun i => if (p i).gr.effect.isOrbiting then (p i).mass else 0).sum
      ∧ r.2.1 + (l.map fun i => if (p i).gr.effect.isOrbiting then (p i).mass • r.2.2 i else 0).sum = s
      ∧ (∀ j, j ∉ l → r.2.2 j = acc j) := by
  induction l generalizing eta s acc with
  | nil => simp
  | cons i l ih =>
    have nd' := (List.nodup_cons.1 nd)
    simp only [List.map_cons, List.sum_cons] at pos
    simp only [List.foldl_cons, List.map_cons, List.sum_cons, List.mem_cons, not_or]
    by_cases ho : (p i).gr.effect.isOrbiting = true
    · rw [if_pos ho] at pos
      simp only [ho, if_true]
      have tail : 0 ≤ (l.map fun i => if (p i).gr.effect.isOrbiting then (p i).mass else 0).sum := by
        refine List.sum_nonneg fun x hx => ?_
        obtain ⟨j, -, rfl⟩ := List.mem_map.1 hx
        split
        · exact hm j
        · exact le_rfl
      have hmi := hm i
      have ep : eta ≠ 0 := by intro e; rw [e] at pos; linarith
      obtain ⟨x1, x2, x3⟩ := ih nd'.2 (eta - (p i).mass)
        (smulRight (smulRight (s - (p i).mass • jacobi i) (lit 1 / eta)) (eta - (p i).mass))
        (fun j => if j = i then jacobi i + smulRight (s - (p i).mass • jacobi i) (lit 1 / eta) else acc j)
        (by linarith)
      refine ⟨by rw [x1]; ring, ?_, fun j hj => ?_⟩
      · rw [add_left_comm, x2, x3 i nd'.1, if_pos rfl]
        have sm : ∀ (a : Axes ℝ) (t : ℝ), smulRight a t = t • a := by
          intro a t; ext <;> simp [smulRight, mul_comm]
        rw [sm, sm]
        have : (lit 1 / eta : ℝ) = eta⁻¹ := by simp
        rw [this]
        ext <;> simp <;> field_simp <;> ring
      · rw [x3 j hj.2, if_neg hj.1]
    · have ho' : (p i).gr.effect.isOrbiting = false := by simpa using ho
      simp only [ho'] at pos ⊢
      obtain ⟨x1, x2, x3⟩ := ih nd'.2 eta s acc (by simpa using pos)
      refine ⟨by simpa using x1, by simpa using x2, fun j hj => x3 j hj.2⟩

theorem toJacobi_eta (h : Fin n) (p : Fin n → Particle ℝ) (newton : Fin n → Axes ℝ) :
    (toJacobi h p newton).eta
      = (p h).mass + ((others h).map fun i => if (p i).gr.effect.isOrbiting then (p i).mass else 0).sum := by
  unfold toJacobi
  dsimp only
  generalize hs : (Jacobi.mk (p h).mass _ _ _ _ _ _ : Jacobi ℝ n) = s
  have : (p h).mass = s.eta := by rw [← hs]
  rw [this]
  clear hs this
  induction others h generalizing s with
  | nil => simp
  | cons i l ih =>
    rw [List.foldl_cons, ih, List.map_cons, List.sum_cons]
    by_cases ho : (p i).gr.effect.isOrbiting = true
    · simp only [ho, if_true]
      ring
    · rw [if_neg ho, if_neg ho, zero_add]

/-- The relativistic accelerations by Anderson's corrections leave the total momentum unchanged, whatever the
corrections in Jacobi coordinates are. -/
theorem C65_momentum {k : Consts ℝ} {m : Models ℝ} {eps2 time : ℝ} {evolution dL : Bool} {ignore : Ignore}
    {u u' : Universe ℝ n} {h : Fin n} (hok : GrHostOk u) (hh : u.hosts.gr = some h)
    (cg : u.consider.gr = true) (hg : (u.particles h).gr.effect = .central .anderson1975)
    (hv : (u.particles u.hosts.mostMassive).heliocentricVelocity = 0) (hm : 0 < (u.particles h).mass)
    (hn : ∀ i, 0 ≤ (u.particles i).mass)
    (hz : ∀ i, i ≠ h → (u.particles i).gr.effect.isOrbiting = false → (u.particles i).gr.acceleration = 0)
    (hu : calculateAdditionalEffects k m eps2 time evolution dL true ignore (inertialToHeliocentric u)
      = some u') :
    ∑ i, (u.particles i).mass • (u'.particles i).gr.acceleration = 0 := by
  obtain ⟨P, a, -, c, d, -⟩ := gr_evaluation hok hh cg (Or.inr (Or.inl hg)) hv hu
  have e0 : generalRelativity k eps2 ignore h P = anderson k eps2 ignore h P := by
    unfold generalRelativity
    rw [(a h).2.2.2.2.2.1, hg]
  have ef : ∀ i, (P i).gr.effect.isOrbiting = (u.particles i).gr.effect.isOrbiting := fun i => by
    rw [(a i).2.2.2.2.2.1]
  -- the accelerations computed from the corrections
  obtain ⟨corr, hcorr⟩ : ∃ corr : Fin n → Axes ℝ, anderson k eps2 ignore h P
      = mapHost h (fun host => host.setGr
            (fromJacobi h P (toJacobi h P (newtonianAccelerations k ignore h P)).eta Axes.zero corr h))
          (fun i => if i = h then P i else
            if (P i).gr.effect.isOrbiting then
              (P i).setGr (fromJacobi h P (toJacobi h P (newtonianAccelerations k ignore h P)).eta Axes.zero corr i)
            else P i) := ⟨_, rfl⟩
  set eta := (toJacobi h P (newtonianAccelerations k ignore h P)).eta with heta
  rw [toJacobi_eta] at heta
  have sumrev : ((others h).reverse.map fun i => if (P i).gr.effect.isOrbiting then (P i).mass else 0).sum
      = ((others h).map fun i => if (P i).gr.effect.isOrbiting then (P i).mass else 0).sum := by
    rw [List.map_reverse, List.sum_reverse]
  obtain ⟨x1, x2, x3⟩ := fromJacobi_loop P corr (others h).reverse (List.nodup_reverse.2 (others_nodup h))
    eta (eta • Axes.zero) (fun _ => Axes.zero) (by rw [sumrev, heta, (a h).1]; simpa using hm)
    (fun i => by rw [(a i).1]; exact hn i)
  unfold fromJacobi at hcorr
  dsimp only at hcorr x1 x2 x3
  set r := (others h).reverse.foldl _ _ with hr
  rw [sumrev, heta] at x1
  have x1 : r.1 = (P h).mass := by rw [x1]; ring
  have ah : (P h).mass • (u'.particles h).gr.acceleration = r.2.1 := by
    rw [d, e0, hcorr, mapHost_host]
    simp only [if_true, x1]
    have mz : (P h).mass ≠ 0 := by rw [(a h).1]; exact hm.ne'
    ext <;> simp [smulRight, Particle.setGr] <;> field_simp
  have ai : ∀ i, i ≠ h → (P i).mass • (u'.particles i).gr.acceleration
      = if (P i).gr.effect.isOrbiting then (P i).mass • r.2.2 i else 0 := by
    intro i hi
    rw [d, e0, hcorr, mapHost_other hi, if_neg hi]
    by_cases ho : (P i).gr.effect.isOrbiting = true
    · rw [if_pos ho, if_pos ho, if_neg hi]
      rfl
    · rw [if_neg ho, if_neg ho, c i hi (by rw [← ef]; simpa using ho),
        hz i hi (by rw [← ef]; simpa using ho), smul_zero]
  have hl : ((others h).reverse.map fun i => if (P i).gr.effect.isOrbiting then (P i).mass • r.2.2 i else 0).sum
      = ∑ i ∈ univ.erase h, (P i).mass • (u'.particles i).gr.acceleration := by
    rw [List.map_reverse, List.sum_reverse, ← List.sum_toFinset _ (others_nodup h), others_toFinset]
    exact sum_congr rfl fun i hi => (ai i (ne_of_mem_erase hi)).symm
  rw [sum_congr rfl fun i _ => by rw [← (a i).1], ← add_sum_erase univ _ (mem_univ h), ah, ← hl, x2]
  simp

example (k : Consts ℝ) (m : Models ℝ) : ∃ u',
    calculateAdditionalEffects k m 0 0 false true true .none
      (inertialToHeliocentric (relativisticUniverse .anderson1975 ⟨1, 0, 1⟩ ⟨0, 0, 1⟩)) = some u'
    ∧ ∑ i, ((relativisticUniverse .anderson1975 ⟨1, 0, 1⟩ ⟨0, 0, 1⟩).particles i).mass
        • (u'.particles i).gr.acceleration = 0 := by
  obtain ⟨u', hu⟩ := relativisticUniverse_defined .anderson1975 ⟨1, 0, 1⟩ ⟨0, 0, 1⟩ k m 0 .none
  exact ⟨u', hu, C65_momentum (relativisticUniverse_ok _ _ _) rfl rfl rfl (relativisticUniverse_velocity _ _ _)
    (by rw [relativisticUniverse_mass]; norm_num) (fun i => by rw [relativisticUniverse_mass]; norm_num)
    (fun i hi ho => by rw [relativisticUniverse_orbiting _ _ _ _ hi] at ho; simp [GrEffect.isOrbiting] at ho) hu⟩

/-! ## C66 The equations of Einstein, Infeld and Hoffmann -/

/-- The relativistic part of the acceleration of body `i` by all others (Newhall et al. 1983), for masses,
positions, velocities and accelerations. -/
noncomputable def einsteinInfeldHoffmann (g c2 : ℝ) (mass : Fin n → ℝ) (x v a : Fin n → Axes ℝ) (i : Fin n) :
    Axes ℝ :=
  let r := fun i j => Real.sqrt (x i - x j).norm2
  ∑ j ∈ univ.erase i,
    ((g * mass j / r i j ^ 3 * (-(4 / c2) * (∑ l ∈ univ.erase i, g * mass l / r i l)
          - 1 / c2 * (∑ l ∈ univ.erase j, g * mass l / r j l)
          + (v i).norm2 / c2 + 2 * (v j).norm2 / c2 - 4 / c2 * (v i).dot (v j)
          - 3 / (2 * c2) * ((x i - x j).dot (v j) / r i j) ^ 2
          + 1 / (2 * c2) * (x j - x i).dot (a j))) • (x j - x i)
      + (g * mass j / c2 / r i j ^ 3 * (x i - x j).dot ((4 : ℝ) • v i - (3 : ℝ) • v j)) • (v i - v j)
      + (7 / (2 * c2) * (g * mass j / r i j)) • a j)

theorem hostFirst_sum {M : Type} [AddCommMonoid M] (h i : Fin n) (f : Fin n → M) :
    (hostFirst h).foldl (fun acc j => if j = i then acc else acc + f j) 0 = ∑ j ∈ univ.erase i, f j := by
  have e : (fun (acc : M) j => if j = i then acc else acc + f j)
      = fun acc j => acc + if j = i then 0 else f j := by
    funext acc j; split <;> simp
  have nd : (hostFirst h).Nodup := List.nodup_cons.2 ⟨fun hm => (mem_others.1 hm) rfl, others_nodup h⟩
  have un : (hostFirst h).toFinset = univ := by
    ext j
    simp only [hostFirst, List.mem_toFinset, List.mem_cons, mem_others, mem_univ, iff_true]
    exact em _
  rw [e, foldl_add_eq_sum, zero_add, ← List.sum_toFinset _ nd, un, ← sum_erase univ (a := i) (by simp)]
  exact sum_congr rfl fun j hj => if_neg (ne_of_mem_erase hj)

/-- A sweep of Newhall's iteration evaluates these equations with the Newtonian acceleration plus the
correction of the sweep before. -/
theorem C66_sweep (k : Consts ℝ) (h : Fin n) (p : Fin n → Particle ℝ) (newton old : Fin n → Axes ℝ) (i : Fin n)
    (hp : ∀ i j, i ≠ j → grPair (p i) (p j) = true)
    (hsep : ∀ i j, i ≠ j → (p i).inertialPosition ≠ (p j).inertialPosition) (hc : k.c2 ≠ 0) :
    newhallSweep k h p newton old i = einsteinInfeldHoffmann k.g k.c2 (fun j => (p j).mass)
      (fun j => (p j).inertialPosition) (fun j => (p j).inertialVelocity) (fun j => newton j + old j) i := by
  have hr : ∀ i j, i ≠ j → newhallR p i j
      = Real.sqrt ((p i).inertialPosition - (p j).inertialPosition).norm2 := by
    intro i j hij
    unfold newhallR newhallDr
    rw [if_pos ⟨hij.symm, hp i j hij⟩, if_pos ⟨hij.symm, hp i j hij⟩]
    rfl
  have hd : ∀ i j, i ≠ j → newhallDr p i j = (p i).inertialPosition - (p j).inertialPosition := by
    intro i j hij
    unfold newhallDr
    rw [if_pos ⟨hij.symm, hp i j hij⟩]
  have hs : ∀ i j, Real.sqrt ((p i).inertialPosition - (p j).inertialPosition).norm2
      = Real.sqrt ((p j).inertialPosition - (p i).inertialPosition).norm2 := by
    intro i j
    congr 1
    simp [Axes.norm2, Axes.dot]
    ring
  have hz : ∀ i j, i ≠ j → Real.sqrt ((p i).inertialPosition - (p j).inertialPosition).norm2 ≠ 0 := by
    intro i j hij
    refine (Real.sqrt_pos.2 (lt_of_le_of_ne (Axes.dot_self_nonneg _) fun e => hsep i j hij ?_)).ne'
    exact sub_eq_zero.1 (Axes.dot_self_eq_zero e.symm)
  have a1 : ∀ i, newhallA1 k h p i = 4 / k.c2 * ∑ l ∈ univ.erase i, k.g * (p l).mass
      / Real.sqrt ((p i).inertialPosition - (p l).inertialPosition).norm2 := by
    intro i
    have := hostFirst_sum h i fun l => lit 4 / k.c2 * k.g * (p l).mass / newhallR p i l
    unfold newhallA1
    rw [show (lit 0 : ℝ) = 0 by simp, this, mul_sum]
    refine sum_congr rfl fun l hl => ?_
    rw [hr i l (ne_of_mem_erase hl).symm]
    simp only [lit_real]
    push_cast
    ring
  have a2 : ∀ j, newhallA2 k h p j = 1 / k.c2 * ∑ l ∈ univ.erase j, k.g * (p l).mass
      / Real.sqrt ((p j).inertialPosition - (p l).inertialPosition).norm2 := by
    intro j
    have := hostFirst_sum h j fun l => lit 1 / k.c2 * k.g * (p l).mass / newhallR p l j
    unfold newhallA2
    rw [show (lit 0 : ℝ) = 0 by simp, this, mul_sum]
    refine sum_congr rfl fun l hl => ?_
    rw [hr l j (ne_of_mem_erase hl), hs l j]
    simp only [lit_real]
    push_cast
    ring
  -- the two loops as sums
  have loop : ∀ f : Fin n → Axes ℝ → Axes ℝ, ∀ t : Fin n → Axes ℝ, (∀ j acc, j ≠ i → f j acc = acc + t j) →
      (hostFirst h).foldl (fun acc j => if j ≠ i ∧ grPair (p i) (p j) = true then f j acc else acc) 0
        = ∑ j ∈ univ.erase i, t j := by
    intro f t hf
    rw [← hostFirst_sum h i t]
    congr 1
    funext acc j
    by_cases hj : j = i
    · simp [hj]
    · rw [if_pos ⟨hj, hp i j (Ne.symm hj)⟩, if_neg hj, hf j acc hj]
  unfold newhallSweep newhallConst
  dsimp only
  have z : (Axes.zero : Axes ℝ) = 0 := rfl
  rw [z, loop (fun j acc => newhallConstPair k h p i j acc) (fun j => newhallConstPair k h p i j 0) ?_,
    loop (fun j acc => acc + ((smulRight (((k.g * (p j).mass) • newhallDr p i j).sdiv
          (ipow (newhallR p i j) 2 * newhallR p i j)) ((newhallDr p i j).dot (newton j + old j))).sdiv (lit 2 * k.c2)
        + ((lit 7 / (lit 2 * k.c2) * k.g * (p j).mass) • (newton j + old j)).sdiv (newhallR p i j)))
      _ (fun j acc _ => rfl), ← sum_add_distrib]
  · unfold einsteinInfeldHoffmann
    dsimp only
    refine sum_congr rfl fun j hj => ?_
    have hij : i ≠ j := (ne_of_mem_erase hj).symm
    unfold newhallConstPair
    dsimp only
    rw [a1, a2, hr i j hij, hd i j hij]
    have hD := hz i j hij
    generalize (∑ l ∈ univ.erase i, k.g * (p l).mass
      / Real.sqrt ((p i).inertialPosition - (p l).inertialPosition).norm2) = S1
    generalize (∑ l ∈ univ.erase j, k.g * (p l).mass
      / Real.sqrt ((p j).inertialPosition - (p l).inertialPosition).norm2) = S2
    generalize Real.sqrt ((p i).inertialPosition - (p j).inertialPosition).norm2 = D at *
    have dn : ((p j).inertialPosition - (p i).inertialPosition)
        = -((p i).inertialPosition - (p j).inertialPosition) := by module
    rw [dn, Axes.neg_dot]
    generalize (p i).inertialPosition - (p j).inertialPosition = d
    generalize (p i).inertialVelocity = vi
    generalize (p j).inertialVelocity = vj
    generalize newton j + old j = a
    generalize k.c2 = c2 at *
    generalize k.g = g
    generalize (p j).mass = mj
    simp only [lit_real, ipow_real]
    push_cast
    generalize d.dot a = da
    generalize d.dot vj = dvj
    generalize vi.norm2 = vi2
    generalize vj.norm2 = vj2
    generalize vi.dot vj = vivj
    generalize d.dot ((4 : ℝ) • vi - (3 : ℝ) • vj) = q
    ext <;> simp [smulRight] <;> field_simp <;> ring
  · intro j acc hj
    unfold newhallConstPair
    dsimp only
    rw [zero_add, add_assoc]


example (k : Consts ℝ) (hc : k.c2 = 1) : newhallSweep k (0 : Fin 2)
      (relativisticUniverse .newhall1983 0 0).particles (fun _ => 0) (fun _ => 0) 0
    = einsteinInfeldHoffmann k.g k.c2 (fun _ => 1)
        (fun j => ((relativisticUniverse .newhall1983 0 0).particles j).inertialPosition)
        (fun j => ((relativisticUniverse .newhall1983 0 0).particles j).inertialVelocity) (fun _ => 0 + 0) 0 := by
  have h := C66_sweep k (0 : Fin 2)
      (relativisticUniverse .newhall1983 0 0).particles (fun _ => 0) (fun _ => 0) 0
    (fun i j _ => relativisticUniverse_pair 0 0 i j) (fun i j hij => relativisticUniverse_apart _ 0 0 i j hij)
    (by rw [hc]; exact one_ne_zero)
  simpa only [relativisticUniverse_mass] using h

/-- The test that ends the iteration passes after the first sweep if no component of the accelerations is
between zero and 1e-30. -/
theorem newhallMaxDev_first (h : Fin n) (p : Fin n → Particle ℝ) (new : Fin n → Axes ℝ)
    (hx : ∀ i, (new i).x = 0 ∨ 1 / 10 ^ 30 ≤ |(new i).x|) (hy : ∀ i, (new i).y = 0 ∨ 1 / 10 ^ 30 ≤ |(new i).y|)
    (hz : ∀ i, (new i).z = 0 ∨ 1 / 10 ^ 30 ≤ |(new i).z|) :
    newhallMaxDev h p new (fun _ => Axes.zero) = 0 := by
  have q : ∀ t : ℝ, (t = 0 ∨ 1 / 10 ^ 30 ≤ |t|) →
      (if ltb (FOps.abs t) (lit (1/1000000000000000000000000000000) : ℝ) = true
        then FOps.abs (t - 0) / t else 0) = 0 := by
    rintro t (rfl | ht)
    · simp
    · rw [if_neg]
      simp only [lit_real, ltb_real, decide_eq_true_eq, not_lt]
      refine le_trans (le_of_eq ?_) ht
      norm_num
  unfold newhallMaxDev
  dsimp only
  have z : ((lit 0, lit 0, lit 0, lit 0) : ℝ × ℝ × ℝ × ℝ) = (0, 0, 0, 0) := by simp
  rw [z]
  generalize hostFirst h = l
  suffices e : ∀ l : List (Fin n), l.foldl (fun (s : ℝ × ℝ × ℝ × ℝ) i =>
      if (p i).gr.effect != .disabled then
        let dx := if ltb (FOps.abs (new i).x) (lit (1/1000000000000000000000000000000) : ℝ)
          then FOps.abs ((new i).x - (Axes.zero : Axes ℝ).x) / (new i).x else s.2.1
        let dy := if ltb (FOps.abs (new i).y) (lit (1/1000000000000000000000000000000) : ℝ)
          then FOps.abs ((new i).y - (Axes.zero : Axes ℝ).y) / (new i).y else s.2.2.1
        let dz := if ltb (FOps.abs (new i).z) (lit (1/1000000000000000000000000000000) : ℝ)
          then FOps.abs ((new i).z - (Axes.zero : Axes ℝ).z) / (new i).z else s.2.2.2
        let m := if ltb s.1 dx then dx else s.1
        let m := if ltb m dy then dy else m
        let m := if ltb m dz then dz else m
        (m, dx, dy, dz)
      else s) (0, 0, 0, 0) = (0, 0, 0, 0) by
    rw [e l]
  intro l
  induction l with
  | nil => rfl
  | cons i l ih =>
    rw [List.foldl_cons]
    by_cases hd : ((p i).gr.effect != .disabled) = true
    · rw [if_pos hd]
      dsimp only
      have z0 : (Axes.zero : Axes ℝ) = 0 := rfl
      simp only [z0, Axes.zero_x, Axes.zero_y, Axes.zero_z, q _ (hx i), q _ (hy i), q _ (hz i)] at ih ⊢
      simpa using ih
    · rw [if_neg hd]
      exact ih

/-- The accelerations of Newhall's implementation are one to ten sweeps of the equations of Einstein, Infeld
and Hoffmann that start with the Newtonian accelerations.  Missing for the whole property: that they solve
the equations, see `C66_violated`. -/
theorem C66_sweeps_partial {k : Consts ℝ} {m : Models ℝ} {eps2 time : ℝ} {evolution dL : Bool}
    {u u' : Universe ℝ n} {h : Fin n} (hok : GrHostOk u) (hh : u.hosts.gr = some h)
    (cg : u.consider.gr = true) (hg : (u.particles h).gr.effect = .central .newhall1983)
    (hv : (u.particles u.hosts.mostMassive).heliocentricVelocity = 0)
    (ho : ∀ i, i ≠ h → (u.particles i).gr.effect = .orbiting) (hc : k.c2 ≠ 0)
    (hsep : ∀ i j, i ≠ j → (u.particles i).inertialPosition ≠ (u.particles j).inertialPosition)
    (hu : calculateAdditionalEffects k m eps2 time evolution dL true .none (inertialToHeliocentric u)
      = some u') :
    let step := fun (a : Fin n → Axes ℝ) => einsteinInfeldHoffmann k.g k.c2 (fun j => (u.particles j).mass)
      (fun j => (u.particles j).inertialPosition) (fun j => (u.particles j).inertialVelocity)
      (fun j => (u.particles j).inertialAcceleration + a j)
    (∃ q, 1 ≤ q ∧ q ≤ 10 ∧ (fun i => (u'.particles i).gr.acceleration) = step^[q] (fun _ => 0))
    ∧ ((∀ i, (step (fun _ => 0) i).x = 0 ∨ 1 / 10 ^ 30 ≤ |(step (fun _ => 0) i).x|) →
      (∀ i, (step (fun _ => 0) i).y = 0 ∨ 1 / 10 ^ 30 ≤ |(step (fun _ => 0) i).y|) →
      (∀ i, (step (fun _ => 0) i).z = 0 ∨ 1 / 10 ^ 30 ≤ |(step (fun _ => 0) i).z|) →
      (fun i => (u'.particles i).gr.acceleration) = step (fun _ => 0)) := by
  intro step
  obtain ⟨P, a, -, c, d, -⟩ := gr_evaluation hok hh cg (Or.inr (Or.inr hg)) hv hu
  have e0 : generalRelativity k eps2 .none h P = newhall k .none h P := by
    unfold generalRelativity
    rw [(a h).2.2.2.2.2.1, hg]
  have nd : ∀ i, ((P i).gr.effect != .disabled) = true := by
    intro i
    rw [(a i).2.2.2.2.2.1]
    by_cases hi : i = h
    · rw [hi, hg]; rfl
    · rw [ho i hi]; rfl
  have hp : ∀ i j, i ≠ j → grPair (P i) (P j) = true := by
    intro i j _
    unfold grPair
    rw [nd i]
    rfl
  have sw : newhallSweep k h P (newtonianAccelerations k .none h P) = step := by
    funext old i
    rw [C66_sweep k h P _ old i hp (fun i j hij => by rw [(a i).2.2.1, (a j).2.2.1]; exact hsep i j hij) hc]
    have e1 : (fun j => (P j).mass) = fun j => (u.particles j).mass := funext fun j => (a j).1
    have e2 : (fun j => (P j).inertialPosition) = fun j => (u.particles j).inertialPosition :=
      funext fun j => (a j).2.2.1
    have e3 : (fun j => (P j).inertialVelocity) = fun j => (u.particles j).inertialVelocity :=
      funext fun j => (a j).2.2.2.1
    have e4 : (fun j => newtonianAccelerations k .none h P j + old j)
        = fun j => (u.particles j).inertialAcceleration + old j := by
      funext j
      rw [← (a j).2.2.2.2.1]
      rfl
    rw [e1, e2, e3, e4]
  have res : (fun i => (u'.particles i).gr.acceleration)
      = newhallLoop k h P (newtonianAccelerations k .none h P) 10 (fun _ => 0) := by
    funext i
    rw [d, e0]
    unfold newhall
    dsimp only
    by_cases hi : i = h
    · rw [hi, mapHost_host]
      rfl
    · rw [mapHost_other hi, if_neg hi, if_pos (by rw [(a i).2.2.2.2.2.1, ho i hi]; rfl)]
      rfl
  refine ⟨?_, fun hx hy hz => ?_⟩
  · rw [res]
    have key : ∀ fuel a, ∃ q, q ≤ fuel ∧ (0 < fuel → 1 ≤ q)
        ∧ newhallLoop k h P (newtonianAccelerations k .none h P) fuel a = step^[q] a := by
      intro fuel
      induction fuel with
      | zero => exact fun a => ⟨0, le_rfl, fun h => absurd h (lt_irrefl 0), rfl⟩
      | succ fuel ih =>
        intro a
        unfold newhallLoop
        rw [sw]
        dsimp only
        split
        · exact ⟨1, by omega, fun _ => le_rfl, rfl⟩
        · obtain ⟨q, q1, -, q2⟩ := ih (step a)
          exact ⟨q + 1, by omega, fun _ => by omega, by rw [q2, Function.iterate_succ_apply]⟩
    obtain ⟨q, q1, q2, q3⟩ := key 10 (fun _ => 0)
    exact ⟨q, q2 (by norm_num), q1, q3⟩
  · rw [res]
    unfold newhallLoop
    rw [sw]
    dsimp only
    have mz := newhallMaxDev_first h P (step fun _ => 0) hx hy hz
    have z0 : (fun _ : Fin n => (Axes.zero : Axes ℝ)) = fun _ => 0 := rfl
    rw [z0] at mz
    rw [mz, if_pos]
    simp only [lit_real, ltb_real, decide_eq_true_eq]
    norm_num

/-- The iteration ends after one sweep and its result does not solve the equations: two bodies of unit mass
one unit apart, one of them moving across. -/
theorem C66_violated (k : Consts ℝ) (m : Models ℝ) (hg : k.g = 1) (h1 : 1 ≤ k.c2) (h2 : k.c2 ≤ 10 ^ 30) :
    ∃ u', calculateAdditionalEffects k m 0 0 false true true .none
        (inertialToHeliocentric (relativisticUniverse .newhall1983 0 0)) = some u'
      ∧ (u'.particles 0).gr.acceleration ≠ einsteinInfeldHoffmann k.g k.c2
        (fun j => ((relativisticUniverse .newhall1983 0 0).particles j).mass)
        (fun j => ((relativisticUniverse .newhall1983 0 0).particles j).inertialPosition)
        (fun j => ((relativisticUniverse .newhall1983 0 0).particles j).inertialVelocity)
        (fun j => ((relativisticUniverse .newhall1983 0 0).particles j).inertialAcceleration
          + (u'.particles j).gr.acceleration) 0 := by
  obtain ⟨u', hu⟩ := relativisticUniverse_defined .newhall1983 0 0 k m 0 .none
  refine ⟨u', hu, ?_⟩
  have c0 : k.c2 ≠ 0 := by linarith
  have key := (C66_sweeps_partial (relativisticUniverse_ok _ _ _) rfl rfl rfl
    (relativisticUniverse_velocity _ _ _) (relativisticUniverse_orbiting _ _ _) c0
    (relativisticUniverse_apart _ _ _) hu).2
  -- the equations for the two bodies
  have e0 : (univ : Finset (Fin 2)).erase 0 = {1} := by decide
  have e1 : (univ : Finset (Fin 2)).erase 1 = {0} := by decide
  have eih : ∀ a : Fin 2 → Axes ℝ, einsteinInfeldHoffmann k.g k.c2
        (fun j => ((relativisticUniverse .newhall1983 0 0).particles j).mass)
        (fun j => ((relativisticUniverse .newhall1983 0 0).particles j).inertialPosition)
        (fun j => ((relativisticUniverse .newhall1983 0 0).particles j).inertialVelocity)
        (fun j => ((relativisticUniverse .newhall1983 0 0).particles j).inertialAcceleration + a j)
      = fun i => if i = 0 then (1 / k.c2 : ℝ) • ((⟨-3 + 4 * (a 1).x, 7 / 2 * (a 1).y, 7 / 2 * (a 1).z⟩ : Axes ℝ))
        else (1 / k.c2 : ℝ) • ((⟨4 + 4 * (a 0).x, 7 / 2 * (a 0).y, 7 / 2 * (a 0).z⟩ : Axes ℝ)) := by
    intro a
    have s1 : Real.sqrt 1 = 1 := Real.sqrt_one
    funext i
    match i with
    | 0 =>
      simp only [einsteinInfeldHoffmann, e0, e1, sum_singleton, relativisticUniverse_mass, hg]
      ext <;> simp [relativisticUniverse, blank, Axes.norm2, Axes.dot] <;> field_simp <;> ring
    | 1 =>
      simp only [einsteinInfeldHoffmann, e0, e1, sum_singleton, relativisticUniverse_mass, hg]
      ext <;> simp [relativisticUniverse, blank, Axes.norm2, Axes.dot] <;> field_simp <;> ring
  have e00 := eih (fun _ => 0)
  have euu := eih (fun j => (u'.particles j).gr.acceleration)
  dsimp only at e00 euu key
  rw [e00] at key
  rw [euu]
  have low : ∀ t : ℝ, 1 ≤ |t| → 1 / 10 ^ 30 ≤ |k.c2⁻¹ * t| := by
    intro t ht
    have cp : 0 < k.c2 := by linarith
    rw [abs_mul, abs_of_pos (inv_pos.2 cp), ← one_div]
    have : 1 / 10 ^ 30 ≤ 1 / k.c2 := one_div_le_one_div_of_le cp h2
    nlinarith [one_div_pos.2 cp]
  have hx := key (fun i => by
      by_cases hi : i = 0
      · refine Or.inr ?_
        simpa [hi] using low (-3) (by norm_num)
      · refine Or.inr ?_
        simpa [hi] using low 4 (by norm_num))
    (fun i => by by_cases hi : i = 0 <;> simp [hi]) (fun i => by by_cases hi : i = 0 <;> simp [hi])
  intro h
  have a0 := congrArg Axes.x (congrFun hx 0)
  have a1 := congrArg Axes.x (congrFun hx 1)
  have h := congrArg Axes.x h
  simp at a0 a1 h
  rw [a0, a1] at h
  have : k.c2⁻¹ ≠ 0 := inv_ne_zero c0
  have : k.c2⁻¹ * (k.c2⁻¹ * 4) = 0 := by linarith
  simp [c0] at this

/-! ## C67 The Newtonian accelerations -/

/-- The acceleration of body `i` by all the pairs host-companion in `l`, in addition to `a`. -/
noncomputable def addedGravity (g : ℝ) (mass : Fin n → ℝ) (x : Fin n → Axes ℝ) (h : Fin n) (l : Finset (Fin n))
    (a : Fin n → Axes ℝ) (i : Fin n) : Axes ℝ :=
  if i = h then a h + ∑ j ∈ l, (g * mass j / Real.sqrt (x j - x h).norm2 ^ 3) • (x j - x h)
  else if i ∈ l then a i + (g * mass h / Real.sqrt (x h - x i).norm2 ^ 3) • (x h - x i) else a i

/-- If the integrator leaves no terms out, the Newtonian accelerations are those of the bodies. -/
theorem C67_complete_partial (k : Consts ℝ) (h : Fin n) (p : Fin n → Particle ℝ) (i : Fin n) :
    newtonianAccelerations k .none h p i = (p i).inertialAcceleration := rfl

/-- The accelerations by the loop that adds the terms left out, with the differences of positions that the
code uses. -/
theorem newtonian_loop (k : Consts ℝ) (h : Fin n) (p : Fin n → Particle ℝ) (l : List (Fin n)) (nd : l.Nodup)
    (hl : h ∉ l) (a : Fin n → Axes ℝ) (i : Fin n) :
    l.foldl (fun a i =>
      let d := (p h).inertialPosition - (p i).gr.position
      let r2 := d.norm2
      let r := FOps.sqrt r2
      let prefac := k.g / (r2 * r)
      fun j => if j = h then a j - (prefac * (p i).mass) • d
        else if j = i then a j + (prefac * (p h).mass) • d else a j) a i
      = if i = h then a h - ∑ j ∈ l.toFinset, (k.g * (p j).mass
            / Real.sqrt ((p h).inertialPosition - (p j).gr.position).norm2 ^ 3)
              • ((p h).inertialPosition - (p j).gr.position)
        else if i ∈ l then a i + (k.g * (p h).mass
            / Real.sqrt ((p h).inertialPosition - (p i).gr.position).norm2 ^ 3)
              • ((p h).inertialPosition - (p i).gr.position)
        else a i := by
  have cube : ∀ d : Axes ℝ, d.norm2 * FOps.sqrt d.norm2 = Real.sqrt d.norm2 ^ 3 := by
    intro d
    have := Real.sq_sqrt (Axes.dot_self_nonneg d)
    change d.norm2 * Real.sqrt d.norm2 = _
    have e : d.norm2 = Real.sqrt d.norm2 ^ 2 := this.symm
    nth_rw 1 [e]
    ring
  induction l generalizing a with
  | nil => by_cases hi : i = h <;> simp [hi]
  | cons j l ih =>
    have nd' := List.nodup_cons.1 nd
    simp only [List.mem_cons, not_or] at hl
    rw [List.foldl_cons, ih nd'.2 hl.2, cube]
    by_cases hi : i = h
    · subst hi
      simp only [if_true]
      rw [List.toFinset_cons, sum_insert (by simpa using nd'.1), div_mul_eq_mul_div]
      module
    · simp only [if_neg hi, List.mem_cons]
      by_cases hj : i = j
      · subst hj
        simp only [nd'.1, if_false, if_true, or_false, div_mul_eq_mul_div]
      · simp only [hj, false_or, if_false]

/-- With the host at the origin the terms left out by the integrator are added again: the gravity between the
host and its companions.  Missing for the whole property: hosts elsewhere, see `C67_violated`. -/
theorem C67_restored_partial (k : Consts ℝ) (h : Fin n) (p : Fin n → Particle ℝ) (i : Fin n)
    (hg : ∀ j, j ≠ h → (p j).gr.position = (p j).inertialPosition - (p h).inertialPosition)
    (h0 : (p h).inertialPosition = 0) :
    newtonianAccelerations k .whfastTwo h p i = addedGravity k.g (fun j => (p j).mass)
        (fun j => (p j).inertialPosition) h (univ.erase h) (fun j => (p j).inertialAcceleration) i
    ∧ newtonianAccelerations k .whfastOne h p i = addedGravity k.g (fun j => (p j).mass)
        (fun j => (p j).inertialPosition) h ((others h).take 1).toFinset (fun j => (p j).inertialAcceleration) i := by
  have gen : ∀ l : List (Fin n), l.Nodup → h ∉ l → l.foldl (fun a i =>
      let d := (p h).inertialPosition - (p i).gr.position
      let r2 := d.norm2
      let r := FOps.sqrt r2
      let prefac := k.g / (r2 * r)
      fun j => if j = h then a j - (prefac * (p i).mass) • d
        else if j = i then a j + (prefac * (p h).mass) • d else a j) (fun j => (p j).inertialAcceleration) i
      = addedGravity k.g (fun j => (p j).mass)
        (fun j => (p j).inertialPosition) h l.toFinset (fun j => (p j).inertialAcceleration) i := by
    intro l nd hl
    rw [newtonian_loop k h p l nd hl]
    have pos : ∀ j, j ≠ h → (p h).inertialPosition - (p j).gr.position
        = (p h).inertialPosition - (p j).inertialPosition := by
      intro j hj
      rw [hg j hj, h0, sub_zero]
    unfold addedGravity
    by_cases hi : i = h
    · rw [if_pos hi, if_pos hi, sub_eq_add_neg, ← sum_neg_distrib]
      congr 1
      refine sum_congr rfl fun j hj => ?_
      have hjh : j ≠ h := fun e => hl (e ▸ List.mem_toFinset.1 hj)
      rw [pos j hjh]
      have : ((p h).inertialPosition - (p j).inertialPosition).norm2
          = ((p j).inertialPosition - (p h).inertialPosition).norm2 := by
        simp [Axes.norm2, Axes.dot]; ring
      rw [this]
      module
    · rw [if_neg hi, if_neg hi]
      simp only [List.mem_toFinset]
      rw [pos i hi]
  have hh : h ∉ others h := fun hm => (mem_others.1 hm) rfl
  refine ⟨?_, ?_⟩
  · rw [← others_toFinset]
    exact gen _ (others_nodup h) hh
  · exact gen _ ((others_nodup h).sublist (List.take_sublist 1 _)) fun hm => hh (List.mem_of_mem_take hm)

/-- With a host away from the origin other terms are added: two bodies on a line, the host at 1 and its
companion at 3. -/
theorem C67_violated (k : Consts ℝ) (hk : k.g ≠ 0) (p : Fin 2 → Particle ℝ)
    (hg : (p 1).gr.position = (p 1).inertialPosition - (p 0).inertialPosition)
    (x0 : (p 0).inertialPosition = ⟨1, 0, 0⟩) (x1 : (p 1).inertialPosition = ⟨3, 0, 0⟩) (hm : (p 0).mass ≠ 0)
    (i : Ignore) (hi : i = .whfastOne ∨ i = .whfastTwo) :
    newtonianAccelerations k i 0 p 1 ≠ addedGravity k.g (fun j => (p j).mass)
        (fun j => (p j).inertialPosition) 0 {1} (fun j => (p j).inertialAcceleration) 1 := by
  have e : newtonianAccelerations k i 0 p 1 = [1].foldl (fun a i =>
      let d := (p 0).inertialPosition - (p i).gr.position
      let r2 := d.norm2
      let r := FOps.sqrt r2
      let prefac := k.g / (r2 * r)
      fun j => if j = 0 then a j - (prefac * (p i).mass) • d
        else if j = i then a j + (prefac * (p 0).mass) • d else a j)
        (fun j : Fin 2 => (p j).inertialAcceleration) 1 := by
    rcases hi with rfl | rfl <;> rfl
  rw [e, newtonian_loop k 0 p [1] (by simp) (by simp)]
  unfold addedGravity
  intro h
  have h := congrArg Axes.x h
  have s1 : Real.sqrt 1 = 1 := Real.sqrt_one
  have s2 : Real.sqrt 4 = 2 := by rw [show (4 : ℝ) = 2 ^ 2 by norm_num, Real.sqrt_sq (by norm_num)]
  simp [hg, x0, x1, Axes.norm2, Axes.dot] at h
  norm_num [s1, s2] at h
  have : k.g * (p 0).mass = 0 := by linarith
  rcases mul_eq_zero.1 this with h | h
  · exact hk h
  · exact hm h

example : newtonianAccelerations (F := ℝ) ⟨1, 1, 1, 1, 1, 1, 1⟩ .whfastTwo (0 : Fin 2)
      (fun j => if j = 0 then { blank ℝ with mass := 1, inertialPosition := ⟨1, 0, 0⟩ }
        else { blank ℝ with inertialPosition := ⟨3, 0, 0⟩, gr := { (blank ℝ).gr with position := ⟨2, 0, 0⟩ } }) 1
    ≠ addedGravity 1 (fun j => if j = 0 then 1 else 0)
        (fun j => if j = 0 then ⟨1, 0, 0⟩ else ⟨3, 0, 0⟩) 0 {1} (fun _ => 0) (1 : Fin 2) := by
  have h := C67_violated ⟨1, 1, 1, 1, 1, 1, 1⟩ one_ne_zero
    (fun j => if j = 0 then { blank ℝ with mass := 1, inertialPosition := ⟨1, 0, 0⟩ }
        else { blank ℝ with inertialPosition := ⟨3, 0, 0⟩, gr := { (blank ℝ).gr with position := ⟨2, 0, 0⟩ } })
    (by ext <;> simp <;> norm_num) rfl rfl (by simp) .whfastTwo (Or.inr rfl)
  intro e
  refine h (e.trans ?_)
  unfold addedGravity
  simp [blank]

end Posidonius.Univ
