import Verif.Props.Config

/-! Properties C44 and C68: the frame of the most massive body. -/

namespace Posidonius.Univ
open Finset

variable {n : Nat}

/-! ## C44 Heliocentric coordinates -/

/-- Give a particle the heliocentric coordinates of another one. -/
def Particle.setHeliocentric {F : Type} (q p : Particle F) : Particle F :=
  { q with heliocentricPosition := p.heliocentricPosition, heliocentricVelocity := p.heliocentricVelocity,
           heliocentricDistance := p.heliocentricDistance,
           heliocentricRadialVelocity := p.heliocentricRadialVelocity,
           heliocentricNormVelocity := p.heliocentricNormVelocity,
           heliocentricNormVelocity2 := p.heliocentricNormVelocity2 }

/-- After the update the most massive body is at the origin at rest, and the others have the coordinates
relative to it; nothing else changes. -/
theorem C44_coordinates (u : Universe ℝ n) :
    let h := u.hosts.mostMassive
    let p := u.particles
    let q := (inertialToHeliocentric u).particles
    (q h).heliocentricPosition = 0 ∧ (q h).heliocentricVelocity = 0 ∧ (q h).heliocentricDistance = 0
      ∧ (q h).heliocentricRadialVelocity = 0 ∧ (q h).heliocentricNormVelocity = 0
      ∧ (∀ i, (q i).heliocentricPosition = (p i).inertialPosition - (p h).inertialPosition
        ∧ (q i).heliocentricVelocity = (p i).inertialVelocity - (p h).inertialVelocity
        ∧ (q i).heliocentricDistance = Real.sqrt ((p i).inertialPosition - (p h).inertialPosition).norm2
        ∧ (q i).heliocentricRadialVelocity * (q i).heliocentricDistance
          = ((p i).inertialPosition - (p h).inertialPosition).dot
            ((p i).inertialVelocity - (p h).inertialVelocity))
      ∧ ∀ i, (q i).setHeliocentric (p i) = p i := by
  intro h p q
  have qh : q h = zeroHeliocentric (p h) := by
    change mapHost h zeroHeliocentric (mapOthers h toHeliocentric p) h = _
    rw [mapHost_host, mapOthers_host]
  have qi : ∀ i, i ≠ h → q i = toHeliocentric (p h) (p i) := by
    intro i hi
    change mapHost h zeroHeliocentric (mapOthers h toHeliocentric p) i = _
    rw [mapHost_other hi, mapOthers_other hi]
  have z : (Axes.zero : Axes ℝ) = 0 := rfl
  refine ⟨by rw [qh]; rfl, by rw [qh]; rfl, by rw [qh]; simp [zeroHeliocentric],
    by rw [qh]; simp [zeroHeliocentric], by rw [qh]; simp [zeroHeliocentric], fun i => ?_, fun i => ?_⟩
  · by_cases hi : i = h
    · rw [hi, qh, sub_self, sub_self]
      refine ⟨rfl, rfl, ?_, ?_⟩
      · simp [zeroHeliocentric, Axes.norm2, Axes.dot]
      · simp [zeroHeliocentric, Axes.dot]
    · rw [qi i hi]
      refine ⟨rfl, rfl, rfl, ?_⟩
      unfold toHeliocentric
      dsimp only
      simp only [sqrt_real]
      by_cases h0 : ((p i).inertialPosition - (p h).inertialPosition).norm2 = 0
      · have := Axes.dot_self_eq_zero h0
        rw [this, Axes.zero_dot]
        simp
      · have h1 : 0 < ((p i).inertialPosition - (p h).inertialPosition).norm2 :=
          lt_of_le_of_ne (Axes.dot_self_nonneg _) (Ne.symm h0)
        have h2 := (Real.sqrt_pos.2 h1).ne'
        field_simp
  · by_cases hi : i = h
    · rw [hi, qh]; rfl
    · rw [qi i hi]; rfl

/-- When the most massive body was at rest before in heliocentric coordinates, the speeds are those relative
to it.  Missing: the first update of a universe, see `C44_violated`. -/
theorem C44_speed_partial (u : Universe ℝ n)
    (hv : (u.particles u.hosts.mostMassive).heliocentricVelocity = 0) (i : Fin n) :
    ((inertialToHeliocentric u).particles i).heliocentricNormVelocity2
      = ((u.particles i).inertialVelocity - (u.particles u.hosts.mostMassive).inertialVelocity).norm2
    ∧ ((inertialToHeliocentric u).particles i).heliocentricNormVelocity
      = Real.sqrt ((u.particles i).inertialVelocity
        - (u.particles u.hosts.mostMassive).inertialVelocity).norm2 := by
  by_cases hi : i = u.hosts.mostMassive
  · have e : (inertialToHeliocentric u).particles i = zeroHeliocentric (u.particles u.hosts.mostMassive) := by
      rw [hi]
      change mapHost _ zeroHeliocentric (mapOthers _ toHeliocentric u.particles) _ = _
      rw [mapHost_host, mapOthers_host]
    rw [e, hi, sub_self]
    simp [zeroHeliocentric, Axes.norm2, Axes.dot]
  · have e : (inertialToHeliocentric u).particles i
        = toHeliocentric (u.particles u.hosts.mostMassive) (u.particles i) := by
      change mapHost _ zeroHeliocentric (mapOthers _ toHeliocentric u.particles) i = _
      rw [mapHost_other hi, mapOthers_other hi]
    rw [e]
    unfold toHeliocentric
    dsimp only
    rw [hv, sub_zero]
    exact ⟨rfl, rfl⟩

/-- Repeating the update changes nothing once the most massive body is at rest in heliocentric coordinates.
Missing: see `C44_violated`. -/
theorem C44_idempotent_partial (u : Universe ℝ n)
    (hv : (u.particles u.hosts.mostMassive).heliocentricVelocity = 0) :
    inertialToHeliocentric (inertialToHeliocentric u) = inertialToHeliocentric u := by
  have key : (inertialToHeliocentric (inertialToHeliocentric u)).particles
      = (inertialToHeliocentric u).particles := by
    change mapHost u.hosts.mostMassive zeroHeliocentric (mapOthers u.hosts.mostMassive toHeliocentric
      (mapHost u.hosts.mostMassive zeroHeliocentric (mapOthers u.hosts.mostMassive toHeliocentric u.particles)))
      = mapHost u.hosts.mostMassive zeroHeliocentric (mapOthers u.hosts.mostMassive toHeliocentric u.particles)
    funext i
    by_cases hi : i = u.hosts.mostMassive
    · rw [hi, mapHost_host, mapOthers_host, mapHost_host, mapOthers_host]
      rfl
    · rw [mapHost_other hi, mapOthers_other hi, mapHost_host, mapOthers_host, mapHost_other hi,
        mapOthers_other hi]
      unfold toHeliocentric
      dsimp only [zeroHeliocentric]
      rw [hv]
      rfl
  change ({ inertialToHeliocentric u with particles := (inertialToHeliocentric (inertialToHeliocentric u)).particles }
    : Universe ℝ n) = _
  rw [key]

/-- From the second update on, repeating it changes nothing, whatever the state was. -/
theorem C44_settles (u : Universe ℝ n) :
    inertialToHeliocentric (inertialToHeliocentric (inertialToHeliocentric u))
      = inertialToHeliocentric (inertialToHeliocentric u) :=
  C44_idempotent_partial _ (C44_coordinates u).2.1

example : ∃ u, newUniverse askAll noEvolver (starAndPlanet 0 ⟨1, 2, 3⟩ ⟨0, 1, 0⟩) = some u
    ∧ inertialToHeliocentric (inertialToHeliocentric u) = inertialToHeliocentric u := by
  obtain ⟨u, hu, -, -, hg, -⟩ := starAndPlanet_defined 0 ⟨1, 2, 3⟩ ⟨0, 1, 0⟩
  refine ⟨u, hu, C44_idempotent_partial u ?_⟩
  have h0 : u.hosts.mostMassive = 0 := (((C43_hosts hu).2.2.1 hg).2.2 0 .kidder1995 ⟨by decide, rfl⟩).symm
  obtain ⟨q, -, h⟩ := newUniverse_fields hu
  rw [(h _).2.2.2.2.1, h0]
  rfl

/-- In a new universe whose star was supplied with a velocity, the speed of the planet is wrong after the
first update, and a second update changes it. -/
theorem C44_violated : ∃ p0 : Fin 2 → Particle ℝ, ∃ u, newUniverse askAll noEvolver p0 = some u
    ∧ ((inertialToHeliocentric u).particles 1).heliocentricNormVelocity2
      ≠ ((inertialToHeliocentric u).particles 1).heliocentricVelocity.norm2
    ∧ inertialToHeliocentric (inertialToHeliocentric u) ≠ inertialToHeliocentric u := by
  obtain ⟨u, hu, -, -, hg, -⟩ := starAndPlanet_defined ⟨1, 0, 0⟩ ⟨1, 2, 3⟩ ⟨2, 0, 0⟩
  have h0 : u.hosts.mostMassive = 0 := (((C43_hosts hu).2.2.1 hg).2.2 0 .kidder1995 ⟨by decide, rfl⟩).symm
  have vd := ((C42_bodies hu).2.1 1 0).2
  have hv : (u.particles 0).heliocentricVelocity = ⟨1, 0, 0⟩ := by
    obtain ⟨q, -, h⟩ := newUniverse_fields hu
    rw [(h 0).2.2.2.2.1]
    rfl
  have hvel : (starAndPlanet ⟨1, 0, 0⟩ ⟨1, 2, 3⟩ ⟨2, 0, 0⟩ 1).heliocentricVelocity
      - (starAndPlanet ⟨1, 0, 0⟩ ⟨1, 2, 3⟩ ⟨2, 0, 0⟩ 0).heliocentricVelocity = ⟨1, 0, 0⟩ := by
    ext <;> simp [starAndPlanet] <;> norm_num
  rw [hvel] at vd
  have e1 : ((inertialToHeliocentric u).particles 1).heliocentricNormVelocity2 = 0 := by
    have e : (inertialToHeliocentric u).particles 1 = toHeliocentric (u.particles 0) (u.particles 1) := by
      change mapHost u.hosts.mostMassive zeroHeliocentric
        (mapOthers u.hosts.mostMassive toHeliocentric u.particles) 1 = _
      rw [h0, mapHost_other (by decide), mapOthers_other (by decide)]
    rw [e]
    unfold toHeliocentric
    dsimp only
    rw [vd, hv, sub_self]
    simp [Axes.norm2, Axes.dot]
  have e2 : ((inertialToHeliocentric u).particles 1).heliocentricVelocity = ⟨1, 0, 0⟩ := by
    rw [((C44_coordinates u).2.2.2.2.2.1 1).2.1, h0]
    exact vd
  have ne : ((inertialToHeliocentric u).particles 1).heliocentricNormVelocity2
      ≠ ((inertialToHeliocentric u).particles 1).heliocentricVelocity.norm2 := by
    rw [e1, e2]
    simp [Axes.norm2, Axes.dot]
  refine ⟨_, u, hu, ne, fun e => ?_⟩
  have s := (C44_speed_partial (inertialToHeliocentric u) (C44_coordinates u).2.1 1).1
  rw [e, e1] at s
  have f := ((C44_coordinates (inertialToHeliocentric u)).2.2.2.2.2.1 1).2.1
  rw [e] at f
  apply ne
  rw [f, e1]
  exact s

/-! ## C68 Energy and angular momentum -/

/-- Kinetic and potential energy for masses `m`, `m G`, positions `x` and velocities `v`. -/
noncomputable def energyOf (m mg : Fin n → ℝ) (x v : Fin n → Axes ℝ) : ℝ :=
  ∑ i, 1 / 2 * m i * (v i).norm2
    - ∑ i, ∑ j ∈ univ.filter (i < ·), mg j * m i / Real.sqrt (x i - x j).norm2

/-- Orbital angular momentum. -/
noncomputable def angularMomentumOf (m : Fin n → ℝ) (x v : Fin n → Axes ℝ) : Axes ℝ :=
  ∑ i, m i • (x i).cross (v i)

theorem foldl_sub_eq (l : List (Fin n)) (f : Fin n → ℝ) (a : ℝ) :
    l.foldl (fun e j => e - f j) a = a - (l.map f).sum := by
  induction l generalizing a with
  | nil => simp
  | cons b l ih => simp [ih]; ring

theorem totalEnergy_eq (p : Fin n → Particle ℝ) :
    totalEnergy p = energyOf (fun i => (p i).mass) (fun i => (p i).massG)
      (fun i => (p i).heliocentricPosition) (fun i => (p i).heliocentricVelocity) := by
  unfold totalEnergy energyOf
  dsimp only
  rw [foldl_finRange (fun i => lit (1 / 2) * (p i).mass * (p i).heliocentricVelocity.norm2)]
  simp only [foldl_sub_eq]
  rw [← List.ofFn_eq_map, List.sum_ofFn]
  have : ∀ i : Fin n, (((List.finRange n).filter (fun j => decide (i < j))).map fun j =>
      (p j).massG * (p i).mass
        / FOps.sqrt ((p i).heliocentricPosition - (p j).heliocentricPosition).norm2).sum
      = ∑ j ∈ univ.filter (i < ·), (p j).massG * (p i).mass
        / Real.sqrt ((p i).heliocentricPosition - (p j).heliocentricPosition).norm2 := by
    intro i
    rw [← List.sum_toFinset _ ((List.nodup_finRange n).filter _)]
    refine sum_congr ?_ fun j _ => rfl
    ext j
    simp
  simp only [this, lit_real]
  push_cast
  ring

theorem totalAngularMomentum_eq (p : Fin n → Particle ℝ) :
    totalAngularMomentum p = Real.sqrt (angularMomentumOf (fun i => (p i).mass)
      (fun i => (p i).heliocentricPosition) (fun i => (p i).heliocentricVelocity)).norm2 := by
  unfold totalAngularMomentum angularMomentumOf
  dsimp only
  rw [foldl_finRange (fun i => (p i).mass • (p i).heliocentricPosition.cross (p i).heliocentricVelocity)]
  rw [show (Axes.zero : Axes ℝ) = 0 from rfl, zero_add]
  rfl

/-- In the frame of the centre of mass, the reported energy is the energy of the system plus the kinetic
energy of the total mass moving with the most massive body; likewise the reported angular momentum.
Missing: equality with the energy and the angular momentum of the system, see `C68_violated`. -/
theorem C68_offset_partial (u : Universe ℝ n)
    (hx : ∑ i, (u.particles i).mass • (u.particles i).inertialPosition = 0)
    (hv : ∑ i, (u.particles i).mass • (u.particles i).inertialVelocity = 0) :
    let p := u.particles
    let h := u.hosts.mostMassive
    let total := ∑ i, (p i).mass
    totalEnergy (inertialToHeliocentric u).particles
      = energyOf (fun i => (p i).mass) (fun i => (p i).massG) (fun i => (p i).inertialPosition)
          (fun i => (p i).inertialVelocity) + 1 / 2 * total * (p h).inertialVelocity.norm2
    ∧ totalAngularMomentum (inertialToHeliocentric u).particles
      = Real.sqrt (angularMomentumOf (fun i => (p i).mass) (fun i => (p i).inertialPosition)
          (fun i => (p i).inertialVelocity)
          + total • (p h).inertialPosition.cross (p h).inertialVelocity).norm2 := by
  intro p h total
  obtain ⟨-, -, -, -, -, c1, c2⟩ := C44_coordinates u
  have m1 : ∀ i, ((inertialToHeliocentric u).particles i).mass = (p i).mass :=
    fun i => by have e := congrArg Particle.mass (c2 i); exact e
  have m2 : ∀ i, ((inertialToHeliocentric u).particles i).massG = (p i).massG :=
    fun i => by have e := congrArg Particle.massG (c2 i); exact e
  have m3 : ∀ i, ((inertialToHeliocentric u).particles i).heliocentricPosition
      = (p i).inertialPosition - (p h).inertialPosition := fun i => (c1 i).1
  have m4 : ∀ i, ((inertialToHeliocentric u).particles i).heliocentricVelocity
      = (p i).inertialVelocity - (p h).inertialVelocity := fun i => (c1 i).2.1
  constructor
  · rw [totalEnergy_eq]
    simp only [m1, m2, m3, m4]
    unfold energyOf
    have pot : ∀ i j, (p i).inertialPosition - (p h).inertialPosition
        - ((p j).inertialPosition - (p h).inertialPosition) = (p i).inertialPosition - (p j).inertialPosition := by
      intro i j
      module
    simp only [pot]
    have kin : ∀ i, 1 / 2 * (p i).mass * ((p i).inertialVelocity - (p h).inertialVelocity).norm2
        = 1 / 2 * (p i).mass * (p i).inertialVelocity.norm2
          - ((p i).mass • (p i).inertialVelocity).dot (p h).inertialVelocity
          + (p i).mass * (1 / 2 * (p h).inertialVelocity.norm2) := by
      intro i
      simp [Axes.norm2, Axes.dot]
      ring
    simp only [kin]
    rw [sum_add_distrib, sum_sub_distrib, ← sum_mul]
    have dotsum : ∑ i, ((p i).mass • (p i).inertialVelocity).dot (p h).inertialVelocity
        = (∑ i, (p i).mass • (p i).inertialVelocity).dot (p h).inertialVelocity := by
      have : ∀ s : Finset (Fin n), ∑ i ∈ s, ((p i).mass • (p i).inertialVelocity).dot (p h).inertialVelocity
          = (∑ i ∈ s, (p i).mass • (p i).inertialVelocity).dot (p h).inertialVelocity := by
        intro s
        induction s using Finset.induction_on with
        | empty => rw [sum_empty, sum_empty, Axes.zero_dot]
        | insert a s ha ih => rw [sum_insert ha, sum_insert ha, ih, Axes.add_dot]
      exact this univ
    rw [dotsum, hv, Axes.zero_dot]
    ring
  · rw [totalAngularMomentum_eq]
    simp only [m1, m3, m4]
    unfold angularMomentumOf
    congr 2
    have term : ∀ i, (p i).mass • ((p i).inertialPosition - (p h).inertialPosition).cross
          ((p i).inertialVelocity - (p h).inertialVelocity)
        = (p i).mass • (p i).inertialPosition.cross (p i).inertialVelocity
          - ((p i).mass • (p i).inertialPosition).cross (p h).inertialVelocity
          - (p h).inertialPosition.cross ((p i).mass • (p i).inertialVelocity)
          + (p i).mass • (p h).inertialPosition.cross (p h).inertialVelocity := by
      intro i
      ext <;> simp <;> ring
    simp only [term]
    rw [sum_add_distrib, sum_sub_distrib, sum_sub_distrib, ← sum_smul]
    have s1 : ∑ i, ((p i).mass • (p i).inertialPosition).cross (p h).inertialVelocity
        = (∑ i, (p i).mass • (p i).inertialPosition).cross (p h).inertialVelocity := by
      have : ∀ s : Finset (Fin n), ∑ i ∈ s, ((p i).mass • (p i).inertialPosition).cross (p h).inertialVelocity
          = (∑ i ∈ s, (p i).mass • (p i).inertialPosition).cross (p h).inertialVelocity := by
        intro s
        induction s using Finset.induction_on with
        | empty => ext <;> simp
        | insert a s ha ih => rw [sum_insert ha, sum_insert ha, ih]; ext <;> simp <;> ring
      exact this univ
    have s2 : ∑ i, (p h).inertialPosition.cross ((p i).mass • (p i).inertialVelocity)
        = (p h).inertialPosition.cross (∑ i, (p i).mass • (p i).inertialVelocity) := by
      have : ∀ s : Finset (Fin n), ∑ i ∈ s, (p h).inertialPosition.cross ((p i).mass • (p i).inertialVelocity)
          = (p h).inertialPosition.cross (∑ i ∈ s, (p i).mass • (p i).inertialVelocity) := by
        intro s
        induction s using Finset.induction_on with
        | empty => ext <;> simp
        | insert a s ha ih => rw [sum_insert ha, sum_insert ha, ih]; ext <;> simp <;> ring
      exact this univ
    rw [s1, s2, hx, hv]
    change _ - _ - _ + total • _ = _
    ext <;> simp

/-- The reported energy and angular momentum are not those of the system. -/
theorem C68_violated : ∃ p0 : Fin 2 → Particle ℝ, ∃ u, newUniverse askAll noEvolver p0 = some u
    ∧ totalEnergy (inertialToHeliocentric u).particles
      ≠ energyOf (fun i => (u.particles i).mass) (fun i => (u.particles i).massG)
          (fun i => (u.particles i).inertialPosition) (fun i => (u.particles i).inertialVelocity)
    ∧ totalAngularMomentum (inertialToHeliocentric u).particles
      ≠ Real.sqrt (angularMomentumOf (fun i => (u.particles i).mass) (fun i => (u.particles i).inertialPosition)
          (fun i => (u.particles i).inertialVelocity)).norm2 := by
  obtain ⟨u, hu, -, -, hg, -⟩ := starAndPlanet_defined 0 ⟨4, 0, 0⟩ ⟨0, 4, 0⟩
  have hm : ∀ i, 0 ≤ (starAndPlanet 0 ⟨4, 0, 0⟩ ⟨0, 4, 0⟩ i).mass := by
    intro i
    by_cases hi : i = 0 <;> simp [starAndPlanet, hi]
  obtain ⟨cx, cv⟩ := C42_center hm hu
  obtain ⟨a, b⟩ := C68_offset_partial u cx cv
  have h0 : u.hosts.mostMassive = 0 := (((C43_hosts hu).2.2.1 hg).2.2 0 .kidder1995 ⟨by decide, rfl⟩).symm
  have ms := fun i => ((C42_bodies hu).2.2 i).2.1
  have dx := ((C42_bodies hu).2.1 1 0).1
  have dv := ((C42_bodies hu).2.1 1 0).2
  have m0 : (u.particles 0).mass = 3 := by rw [ms]; rfl
  have m1 : (u.particles 1).mass = 1 := by rw [ms]; rfl
  rw [Fin.sum_univ_two, m0, m1] at cx cv
  have x0 : (u.particles 0).inertialPosition = ⟨-1, 0, 0⟩ := by
    have ex := congrArg Axes.x cx
    have ey := congrArg Axes.y cx
    have ez := congrArg Axes.z cx
    have fx := congrArg Axes.x dx
    have fy := congrArg Axes.y dx
    have fz := congrArg Axes.z dx
    simp [starAndPlanet, blank] at ex ey ez fx fy fz
    ext <;> simp <;> linarith
  have x1 : (u.particles 1).inertialPosition = ⟨3, 0, 0⟩ := by
    have fx := congrArg Axes.x dx
    have fy := congrArg Axes.y dx
    have fz := congrArg Axes.z dx
    rw [x0] at fx fy fz
    simp [starAndPlanet, blank] at fx fy fz
    ext <;> simp <;> linarith
  have v0 : (u.particles 0).inertialVelocity = ⟨0, -1, 0⟩ := by
    have ex := congrArg Axes.x cv
    have ey := congrArg Axes.y cv
    have ez := congrArg Axes.z cv
    have fx := congrArg Axes.x dv
    have fy := congrArg Axes.y dv
    have fz := congrArg Axes.z dv
    simp [starAndPlanet, blank] at ex ey ez fx fy fz
    ext <;> simp <;> linarith
  have v1 : (u.particles 1).inertialVelocity = ⟨0, 3, 0⟩ := by
    have fx := congrArg Axes.x dv
    have fy := congrArg Axes.y dv
    have fz := congrArg Axes.z dv
    rw [v0] at fx fy fz
    simp [starAndPlanet, blank] at fx fy fz
    ext <;> simp <;> linarith
  refine ⟨_, u, hu, ?_, ?_⟩
  · rw [a, h0, Fin.sum_univ_two, m0, m1, v0]
    intro e
    have : (1 / 2 : ℝ) * (3 + 1) * (⟨0, -1, 0⟩ : Axes ℝ).norm2 = 0 := by linarith
    simp [Axes.norm2, Axes.dot] at this
    norm_num at this
  · rw [b, h0]
    unfold angularMomentumOf
    rw [Fin.sum_univ_two, Fin.sum_univ_two]
    dsimp only
    rw [m0, m1, x0, x1, v0, v1]
    have e1 : ((3 : ℝ) • (⟨-1, 0, 0⟩ : Axes ℝ).cross ⟨0, -1, 0⟩ + (1 : ℝ) • (⟨3, 0, 0⟩ : Axes ℝ).cross ⟨0, 3, 0⟩
        + (3 + 1 : ℝ) • (⟨-1, 0, 0⟩ : Axes ℝ).cross ⟨0, -1, 0⟩).norm2 = 16 ^ 2 := by
      simp [Axes.norm2, Axes.dot]; norm_num
    have e2 : ((3 : ℝ) • (⟨-1, 0, 0⟩ : Axes ℝ).cross ⟨0, -1, 0⟩ + (1 : ℝ) • (⟨3, 0, 0⟩ : Axes ℝ).cross ⟨0, 3, 0⟩
        ).norm2 = 12 ^ 2 := by
      simp [Axes.norm2, Axes.dot]; norm_num
    rw [e1, e2, Real.sqrt_sq (by norm_num), Real.sqrt_sq (by norm_num)]
    norm_num

end Posidonius.Univ
