import Verif.Lemmas.TidesUniverse

/-! The disk and the stellar wind in a whole evaluation of the additional effects. -/

namespace Posidonius.Univ
open Finset
open Gravity (Ignore)

variable {n : Nat}

section
variable {F : Type} [Add F] [Sub F] [Mul F] [Div F] [Neg F] [FOps F]

theorem initializeAll_disk {dL acc : Bool} {u u1 : Universe F n} (hu : initializeAll dL acc u = some u1) :
    ∃ pg pd : Fin n → Particle F, Same core pg u.particles ∧ (∀ i, (pg i).disk = (u.particles i).disk)
      ∧ (∀ i, (pg i).wind = if dL && u.consider.wind then (windInitialize (u.particles i)).wind
          else (u.particles i).wind)
      ∧ initializeEffect (acc && u.consider.disk) u.hosts.mostMassiveDisk u.hosts.all u.hosts.mostMassive
          u.hosts.disk diskCopyHeliocentric diskInertialToHeliocentric diskInitialize pg = some pd
      ∧ (∀ i, (u1.particles i).disk = (pd i).disk) ∧ (∀ i, (u1.particles i).wind = (pg i).wind) := by
  unfold initializeAll at hu
  dsimp only at hu
  split at hu
  · simp at hu
  rename_i pt ht
  split at hu
  · simp at hu
  rename_i pf hf
  split at hu
  · simp at hu
  rename_i pg hg
  split at hu
  · simp at hu
  rename_i pd hd
  injection hu with hu
  subst hu
  have hw : Same noWind (if dL && u.consider.wind then fun i => windInitialize (u.particles i) else u.particles)
      u.particles := Same.ite (windInitialize_frame _) (Same.refl _)
  have h1 := initializeEffect_frame tidesCopyHeliocentric_frame tidesInertialToHeliocentric_frame
    tidesInitialize_frame ht
  have h2 := initializeEffect_frame flatteningCopyHeliocentric_frame flatteningInertialToHeliocentric_frame
    flatteningInitialize_frame hf
  have h3 := initializeEffect_frame grCopyHeliocentric_frame grInertialToHeliocentric_frame
    grInitialize_frame hg
  have h4 := initializeEffect_frame diskCopyHeliocentric_frame diskInertialToHeliocentric_frame
    diskInitialize_frame hd
  refine ⟨pg, pd, h3.core_gr.trans (h2.core_flattening.trans (h1.core_tides.trans hw.core_wind)), fun i => ?_,
    fun i => ?_, hd, fun i => ?_, fun i => ?_⟩
  · rw [h3.disk_of_gr, h2.disk_of_flattening, h1.disk_of_tides, hw.disk_of_wind]
  · rw [h3.wind_of_gr, h2.wind_of_flattening, h1.wind_of_tides]
    split <;> rfl
  · dsimp only
    split <;> rfl
  · rw [← h4.wind_of_disk]
    dsimp only
    split <;> rfl

variable [FPow F]

theorem tidesAndFlattening_disk (k : Consts F) (m : Models F) (dL acc : Bool) (c : Consider) (h : Fin n)
    (p : Fin n → Particle F) (t : Table F) :
    Same core (tidesAndFlattening k m dL acc c h p t).1 p
      ∧ (∀ i, ((tidesAndFlattening k m dL acc c h p t).1 i).disk = (p i).disk)
      ∧ (∀ i, ((tidesAndFlattening k m dL acc c h p t).1 i).wind = (p i).wind) := by
  unfold tidesAndFlattening
  split
  · dsimp only
    generalize pairFactors k h p t = t1
    have a1 : Same noTides (if c.tides then tidesShapes m h (orthogonalComponent t1 h p) else p) p :=
      Same.ite ((tidesShapes_frame m h _).trans (orthogonalComponent_frame t1 h p)) (Same.refl _)
    revert a1
    generalize (if c.tides then tidesShapes m h (orthogonalComponent t1 h p) else p) = p1
    intro a1
    have a2 : Same noFlattening (if c.flattening then flatteningShapes m h (flatteningOrthogonal h p1) else p1) p1 :=
      Same.ite ((flatteningShapes_frame m h _).trans (flatteningOrthogonal_frame h p1)) (Same.refl _)
    revert a2
    generalize (if c.flattening then flatteningShapes m h (flatteningOrthogonal h p1) else p1) = p2
    intro a2
    have a3 : Same noTides (if acc && c.tides then tidalAcceleration m.tides h (radialComponent k t1 h p2) else p2)
        p2 := Same.ite ((tidalAcceleration_frame _ h _).trans (radialComponent_frame k t1 h p2)) (Same.refl _)
    revert a3
    generalize (if acc && c.tides then tidalAcceleration m.tides h (radialComponent k t1 h p2) else p2) = p3
    intro a3
    have a4 : Same noFlattening
        (if acc && c.flattening then flatteningAcceleration m.flattening h (flatteningRadial h p3) else p3) p3 :=
      Same.ite ((flatteningAcceleration_frame _ h _).trans (flatteningRadial_frame h p3)) (Same.refl _)
    revert a4
    generalize (if acc && c.flattening then flatteningAcceleration m.flattening h (flatteningRadial h p3) else p3)
      = p4
    intro a4
    have a5 : Same noTides (if dL && c.tides then tidalDL m.tides h p4 else p4) p4 :=
      Same.ite (tidalDL_frame _ h _) (Same.refl _)
    revert a5
    generalize (if dL && c.tides then tidalDL m.tides h p4 else p4) = p5
    intro a5
    have a6 : Same noFlattening (if dL && c.flattening then flatteningDL m.flattening h p5 else p5) p5 :=
      Same.ite (flatteningDL_frame _ h _) (Same.refl _)
    refine ⟨a6.core_flattening.trans (a5.core_tides.trans (a4.core_flattening.trans (a3.core_tides.trans
      (a2.core_flattening.trans a1.core_tides)))), fun i => ?_, fun i => ?_⟩
    · rw [a6.disk_of_flattening, a5.disk_of_tides, a4.disk_of_flattening, a3.disk_of_tides, a2.disk_of_flattening,
        a1.disk_of_tides]
    · rw [a6.wind_of_flattening, a5.wind_of_tides, a4.wind_of_flattening, a3.wind_of_tides, a2.wind_of_flattening,
        a1.wind_of_tides]
  · exact ⟨Same.refl _, fun _ => rfl, fun _ => rfl⟩

variable [FTrig F]

theorem effects_disk {k : Consts F} {m : Models F} {eps2 time : F} {dL acc : Bool} {ignore : Ignore}
    {u u1 : Universe F n} (hu : effects k m eps2 time dL acc ignore u = some u1) :
    ∃ pg : Fin n → Particle F, Same core pg u.particles ∧ (∀ i, (pg i).disk = (u.particles i).disk)
      ∧ Same core u1.particles u.particles
      ∧ (∀ h, (acc && u.consider.disk) = true → u.hosts.disk = some h →
          ∀ i, (u1.particles i).disk = (diskAcceleration k time h pg i).disk)
      ∧ (∀ i, (u1.particles i).wind = if dL && u.consider.wind then (windFactor k (u.particles i)).wind
          else (u.particles i).wind) := by
  unfold effects at hu
  dsimp only at hu
  split at hu
  · simp at hu
  rename_i pt t1 ht
  split at hu
  · simp at hu
  rename_i pg hg
  split at hu
  · simp at hu
  rename_i pd hd
  injection hu with hu
  subst hu
  have hw : Same noWind (if dL && u.consider.wind then fun i => windFactor k (u.particles i) else u.particles)
      u.particles := Same.ite (windFactor_frame _ _) (Same.refl _)
  have hww : ∀ i, ((if dL && u.consider.wind then fun i => windFactor k (u.particles i) else u.particles) i).wind
      = if dL && u.consider.wind then (windFactor k (u.particles i)).wind else (u.particles i).wind := by
    intro i
    split <;> rfl
  have h1 : Same core pt u.particles ∧ (∀ i, (pt i).disk = (u.particles i).disk)
      ∧ (∀ i, (pt i).wind = if dL && u.consider.wind then (windFactor k (u.particles i)).wind
          else (u.particles i).wind) := by
    split at ht
    · unfold withHost at ht
      split at ht
      · simp at ht
      · rename_i hst hh
        injection ht with ht
        dsimp only at ht
        obtain ⟨a, b, c⟩ := tidesAndFlattening_disk k m dL acc u.consider hst
          (if dL && u.consider.wind then fun i => windFactor k (u.particles i) else u.particles) u.table
        rw [ht] at a b c
        exact ⟨a.trans hw.core_wind, fun i => by rw [b, hw.disk_of_wind], fun i => by rw [c, hww]⟩
    · simp only [Option.some.injEq, Prod.mk.injEq] at ht
      rw [← ht.1]
      exact ⟨hw.core_wind, fun i => hw.disk_of_wind i, hww⟩
  have h2 : Same noGr pg pt := by
    split at hg
    · unfold withHost at hg
      split at hg
      · simp at hg
      · injection hg with hg
        subst hg
        exact generalRelativity_frame k eps2 ignore _ _
    · injection hg with hg
      subst hg
      exact Same.refl _
  have h3 : Same noDisk pd pg := by
    split at hd
    · unfold withHost at hd
      split at hd
      · simp at hd
      · injection hd with hd
        subst hd
        exact diskAcceleration_frame k time _ _
    · injection hd with hd
      subst hd
      exact Same.refl _
  refine ⟨pg, h2.core_gr.trans h1.1, fun i => by rw [h2.disk_of_gr, h1.2.1], fun i => ?_, fun h ha hh i => ?_,
    fun i => ?_⟩
  · rw [← (h3.core_disk.trans (h2.core_gr.trans h1.1)) i]
    dsimp only
    split <;> split <;> rfl
  · rw [ha, hh] at hd
    simp only [if_true, withHost, Option.some.injEq] at hd
    rw [hd]
    dsimp only
    split <;> split <;> rfl
  · rw [← h1.2.2 i, ← h2.wind_of_gr i, ← h3.wind_of_disk i]
    dsimp only
    split <;> split <;> rfl

end

/-! ### Geometry -/

/-- What `find_indices` guarantees about the host of the disk. -/
structure DiskHostOk {F : Type} (u : Universe F n) : Prop where
  disk : u.consider.disk = true → (u.hosts.mostMassiveDisk = true ↔ u.hosts.disk = some u.hosts.mostMassive)
  allDisk : u.hosts.all = true → u.consider.disk = true → u.hosts.mostMassiveDisk = true

/-- The coordinates of a companion relative to the host. -/
structure DiskGeometry (r v : Axes ℝ) (d : Disk ℝ) : Prop where
  position : d.position = r
  velocity : d.velocity = v
  distance : d.distance = Real.sqrt r.norm2
  normVelocity2 : d.normVelocity2 = v.norm2

/-- The disk part of a companion after `initialize`, and the host's. -/
theorem diskInit_fields (f : Fin n → (Fin n → Particle ℝ) → (Fin n → Particle ℝ)) (h : Fin n)
    (p : Fin n → Particle ℝ) {d : DiskProperties ℝ} (hd : (p h).disk.effect = .central d)
    (he : ∀ i, (f h p i).disk.effect = (p i).disk.effect) :
    (∀ i, (diskInitialize h (f h p) i).disk.effect = (p i).disk.effect)
      ∧ (diskInitialize h (f h p) h).disk.acceleration = 0
      ∧ (∀ i, i ≠ h → (p i).disk.effect.isOrbiting = false →
          (diskInitialize h (f h p) i).disk = (f h p i).disk)
      ∧ (∀ i, i ≠ h → (p i).disk.effect.isOrbiting = true →
          (diskInitialize h (f h p) i).disk = { (f h p i).disk with acceleration := 0 }) := by
  have e : (f h p h).disk.effect.central? = some d := by rw [he, hd]; rfl
  have act : diskInitialize h (f h p) = mapOthers h (fun _ q =>
        if q.disk.effect.isOrbiting then { q with disk := { q.disk with acceleration := Axes.zero } } else q)
      (mapHost h (fun host => { host with disk := { host.disk with acceleration := Axes.zero } }) (f h p)) := by
    unfold diskInitialize
    rw [e]
  rw [act]
  refine ⟨fun i => ?_, ?_, fun i hi ho => ?_, fun i hi ho => ?_⟩
  · by_cases hi : i = h
    · rw [hi, mapOthers_host, mapHost_host]
      exact he h
    · rw [mapOthers_other hi, mapHost_other hi]
      dsimp only
      split <;> exact he i
  · rw [mapOthers_host, mapHost_host]
    rfl
  · rw [mapOthers_other hi, mapHost_other hi]
    dsimp only
    rw [he, if_neg (by rw [ho]; simp)]
  · rw [mapOthers_other hi, mapHost_other hi]
    dsimp only
    rw [he, if_pos ho]
    rfl

theorem diskConvert_fields (h : Fin n) (p : Fin n → Particle ℝ) {d : DiskProperties ℝ}
    (hd : (p h).disk.effect = .central d) :
    (∀ i, (diskInertialToHeliocentric h p i).disk.effect = (p i).disk.effect)
      ∧ (∀ i, i ≠ h → (p i).disk.effect.isOrbiting = false →
          (diskInertialToHeliocentric h p i).disk = (p i).disk)
      ∧ (∀ i, i ≠ h → (p i).disk.effect.isOrbiting = true →
          DiskGeometry ((p i).inertialPosition - (p h).inertialPosition)
            ((p i).inertialVelocity - (p h).inertialVelocity) (diskInertialToHeliocentric h p i).disk) := by
  have e : (p h).disk.effect.central? = some d := by rw [hd]; rfl
  have hother : ∀ i, i ≠ h → diskInertialToHeliocentric h p i =
      if (p i).disk.effect.isOrbiting then
          let position := (p i).inertialPosition - (p h).inertialPosition
          let velocity := (p i).inertialVelocity - (p h).inertialVelocity
          let v2 := (velocity - Axes.zero).norm2
          { p i with disk := { (p i).disk with
              position := position, velocity := velocity, distance := FOps.sqrt position.norm2,
              normVelocity2 := v2, normVelocity := FOps.sqrt v2 } }
        else p i := by
    intro i hi
    unfold diskInertialToHeliocentric
    rw [e]
    dsimp only
    rw [mapOthers_other hi, mapHost_other hi, mapHost_host]
  have hhost : (diskInertialToHeliocentric h p h).disk.effect = (p h).disk.effect := by
    unfold diskInertialToHeliocentric
    rw [e]
    dsimp only
    rw [mapOthers_host, mapHost_host]
  refine ⟨fun i => ?_, fun i hi ho => ?_, fun i hi ho => ?_⟩
  · by_cases hi : i = h
    · rw [hi, hhost]
    · rw [hother i hi]
      split <;> rfl
  · rw [hother i hi, if_neg (by rw [ho]; simp)]
  · rw [hother i hi, if_pos ho]
    refine ⟨rfl, rfl, rfl, ?_⟩
    dsimp only
    rw [show (Axes.zero : Axes ℝ) = 0 from rfl, sub_zero]

theorem diskCopy_fields (h : Fin n) (p : Fin n → Particle ℝ) {d : DiskProperties ℝ}
    (hd : (p h).disk.effect = .central d) :
    (∀ i, (diskCopyHeliocentric h p i).disk.effect = (p i).disk.effect)
      ∧ (∀ i, i ≠ h → (p i).disk.effect.isOrbiting = false →
          (diskCopyHeliocentric h p i).disk = (p i).disk)
      ∧ (∀ i, i ≠ h → (p i).disk.effect.isOrbiting = true →
          (diskCopyHeliocentric h p i).disk.position = (p i).heliocentricPosition
          ∧ (diskCopyHeliocentric h p i).disk.velocity = (p i).heliocentricVelocity
          ∧ (diskCopyHeliocentric h p i).disk.distance = (p i).heliocentricDistance
          ∧ (diskCopyHeliocentric h p i).disk.normVelocity2 = (p i).heliocentricNormVelocity2) := by
  have e : (p h).disk.effect.central? = some d := by rw [hd]; rfl
  have hother : ∀ i, i ≠ h → diskCopyHeliocentric h p i =
      if (p i).disk.effect.isOrbiting then
          { p i with disk := { (p i).disk with
              position := (p i).heliocentricPosition, velocity := (p i).heliocentricVelocity,
              distance := (p i).heliocentricDistance, normVelocity := (p i).heliocentricNormVelocity,
              normVelocity2 := (p i).heliocentricNormVelocity2 } }
        else p i := by
    intro i hi
    unfold diskCopyHeliocentric
    dsimp only
    rw [e]
    dsimp only
    rw [mapOthers_other hi, mapHost_other hi]
  have hhost : (diskCopyHeliocentric h p h).disk.effect = (p h).disk.effect := by
    unfold diskCopyHeliocentric
    dsimp only
    rw [e]
    dsimp only
    rw [mapOthers_host, mapHost_host]
  refine ⟨fun i => ?_, fun i hi ho => ?_, fun i hi ho => ?_⟩
  · by_cases hi : i = h
    · rw [hi, hhost]
    · rw [hother i hi]
      split <;> rfl
  · rw [hother i hi, if_neg (by rw [ho]; simp)]
  · rw [hother i hi, if_pos ho]
    exact ⟨rfl, rfl, rfl, rfl⟩

/-- Everything about the disk in an evaluation of the additional effects: `P` is the state in which
the accelerations are computed. -/
theorem disk_evaluation {k : Consts ℝ} {m : Models ℝ} {eps2 time : ℝ} {evolution dL : Bool}
    {ignore : Ignore} {u0 u' : Universe ℝ n} {h : Fin n} {d : DiskProperties ℝ}
    (hok : DiskHostOk u0) (hh : u0.hosts.disk = some h) (cg : u0.consider.disk = true)
    (hg : (u0.particles h).disk.effect = .central d)
    (hv : (u0.particles u0.hosts.mostMassive).heliocentricVelocity = 0)
    (hu : calculateAdditionalEffects k m eps2 time evolution dL true ignore (inertialToHeliocentric u0)
      = some u') :
    ∃ P : Fin n → Particle ℝ,
      (∀ i, (P i).mass = (u0.particles i).mass ∧ (P i).massG = (u0.particles i).massG
        ∧ (P i).disk.effect = (u0.particles i).disk.effect)
      ∧ (P h).disk.acceleration = 0
      ∧ (∀ i, i ≠ h → (u0.particles i).disk.effect.isOrbiting = true →
          DiskGeometry ((u0.particles i).inertialPosition - (u0.particles h).inertialPosition)
            ((u0.particles i).inertialVelocity - (u0.particles h).inertialVelocity) (P i).disk)
      ∧ (∀ i, i ≠ h → (u0.particles i).disk.effect.isOrbiting = false → (P i).disk = (u0.particles i).disk)
      ∧ (∀ i, (u'.particles i).disk = (diskAcceleration k time h P i).disk)
      ∧ (∀ i, (u'.particles i).mass = (u0.particles i).mass) := by
  unfold calculateAdditionalEffects at hu
  split at hu
  · simp at hu
  rename_i u1 h1
  split at hu
  · simp at hu
  rename_i u2 h2
  set u := inertialToHeliocentric u0 with hu0
  have hup : ∀ i, (u.particles i).mass = (u0.particles i).mass
      ∧ (u.particles i).massG = (u0.particles i).massG
      ∧ (u.particles i).inertialPosition = (u0.particles i).inertialPosition
      ∧ (u.particles i).inertialVelocity = (u0.particles i).inertialVelocity
      ∧ (u.particles i).disk = (u0.particles i).disk := by
    intro i
    rw [hu0]
    unfold inertialToHeliocentric
    dsimp only
    by_cases hi : i = u0.hosts.mostMassive
    · subst hi
      rw [mapHost_host, mapOthers_host]
      exact ⟨rfl, rfl, rfl, rfl, rfl⟩
    · rw [mapHost_other hi, mapOthers_other hi]
      exact ⟨rfl, rfl, rfl, rfl, rfl⟩
  have hnv : ∀ i, i ≠ u0.hosts.mostMassive →
      (u.particles i).heliocentricNormVelocity2 = (u.particles i).heliocentricVelocity.norm2 := by
    intro i hi
    rw [hu0]
    unfold inertialToHeliocentric
    dsimp only
    rw [mapHost_other hi, mapOthers_other hi]
    unfold toHeliocentric
    dsimp only
    rw [hv, sub_zero]
  have hcore := initializeAll_core h1
  obtain ⟨pg, pd, cpg, gpg, -, hpd, gu1, -⟩ := initializeAll_disk h1
  obtain ⟨-, -, -, -, -, -, -, -, -, -, uc, -, uh, -⟩ := initializeAll_stages h1
  obtain ⟨hsp, uc2, -, uh2, -⟩ := calculateSpinAndEvolving_step h2
  have ce : ∀ {A : Type} (f : Particle ℝ → A), (∀ q, f q = f (core q)) →
      ∀ i, f (pg i) = f (u.particles i) := by
    intro A f hf' i
    rw [hf', cpg i, ← hf']
  have hgf : (pg h).disk.effect = .central d := by rw [gpg, (hup h).2.2.2.2]; exact hg
  have key : (∀ i, (pd i).disk.effect = (pg i).disk.effect) ∧ (pd h).disk.acceleration = 0
      ∧ (∀ i, i ≠ h → (pg i).disk.effect.isOrbiting = false → (pd i).disk = (pg i).disk)
      ∧ (∀ i, i ≠ h → (pg i).disk.effect.isOrbiting = true →
          DiskGeometry ((pg i).inertialPosition - (pg h).inertialPosition)
            ((pg i).inertialVelocity - (pg h).inertialVelocity) (pd i).disk) := by
    unfold initializeEffect at hpd
    rw [if_pos (show (true && u.consider.disk) = true by change (true && u0.consider.disk) = true; rw [cg]; rfl)] at hpd
    split at hpd
    · rename_i hm
      have hmm := (hok.disk cg).1 hm
      rw [hh] at hmm
      injection hmm with hmm
      injection hpd with hpd
      have hmm' : u.hosts.mostMassive = h := hmm.symm
      rw [hmm'] at hpd
      subst hpd
      obtain ⟨c1, c2, c3⟩ := diskCopy_fields h pg hgf
      obtain ⟨i1, i2, i3, i4⟩ := diskInit_fields diskCopyHeliocentric h pg hgf c1
      refine ⟨i1, i2, fun i hi ho => by rw [i3 i hi ho, c2 i hi ho], fun i hi ho => ?_⟩
      obtain ⟨j1, j2, j3, j4⟩ := c3 i hi ho
      have hel := inertialToHeliocentric_helio u0
      rw [← hmm, ← hu0] at hel
      obtain ⟨a, b, c, -⟩ := hel i hi
      have e1 := hnv i (by rw [← hmm]; exact hi)
      have hp : (pg i).heliocentricPosition = (pg i).inertialPosition - (pg h).inertialPosition := by
        rw [ce Particle.heliocentricPosition (fun _ => rfl), ce Particle.inertialPosition (fun _ => rfl),
              ce Particle.inertialPosition (fun _ => rfl)]; exact a
      have hvel : (pg i).heliocentricVelocity = (pg i).inertialVelocity - (pg h).inertialVelocity := by
        rw [ce Particle.heliocentricVelocity (fun _ => rfl), ce Particle.inertialVelocity (fun _ => rfl),
              ce Particle.inertialVelocity (fun _ => rfl)]; exact b
      rw [i4 i hi ho]
      refine ⟨j1.trans hp, j2.trans hvel, j3.trans ?_, j4.trans ?_⟩
      · rw [← hp, ce Particle.heliocentricDistance (fun _ => rfl),
              ce Particle.heliocentricPosition (fun _ => rfl)]; exact c
      · rw [← hvel, ce Particle.heliocentricNormVelocity2 (fun _ => rfl),
              ce Particle.heliocentricVelocity (fun _ => rfl)]; exact e1
    · rename_i hm
      split at hpd
      · rename_i hall
        exact absurd (hok.allDisk hall cg) hm
      · have hh' : u.hosts.disk = some h := hh
        rw [hh'] at hpd
        simp only [withHost, Option.some.injEq] at hpd
        subst hpd
        obtain ⟨c1, c2, c3⟩ := diskConvert_fields h pg hgf
        obtain ⟨i1, i2, i3, i4⟩ := diskInit_fields diskInertialToHeliocentric h pg hgf c1
        refine ⟨i1, i2, fun i hi ho => by rw [i3 i hi ho, c2 i hi ho], fun i hi ho => ?_⟩
        have g := c3 i hi ho
        rw [i4 i hi ho]
        exact ⟨g.position, g.velocity, g.distance, g.normVelocity2⟩
  have cr : ∀ {A : Type} (f : Particle ℝ → A), (∀ q, f q = f (core q)) →
      ∀ i, f (u1.particles i) = f (u.particles i) := by
    intro A f hf' i
    rw [hf', hcore i, ← hf']
  have sp : ∀ {A : Type} (f : Particle ℝ → A), (∀ q, f q = f (noSpin q)) →
      ∀ i, f (u2.particles i) = f (u1.particles i) := by
    intro A f hf' i
    rw [hf', spinAndEvolving_noSpin (hsp i), ← hf']
  obtain ⟨pt, c1, c2, c3, c4, -⟩ := effects_disk hu
  have ct : ∀ {A : Type} (f : Particle ℝ → A), (∀ q, f q = f (core q)) →
      ∀ i, f (pt i) = f (u2.particles i) := by
    intro A f hf' i
    rw [hf', c1 i, ← hf']
  have cu : ∀ {A : Type} (f : Particle ℝ → A), (∀ q, f q = f (core q)) →
      ∀ i, f (u'.particles i) = f (u2.particles i) := by
    intro A f hf' i
    rw [hf', c3 i, ← hf']
  have dd : ∀ i, (pt i).disk = (pd i).disk := fun i => by rw [c2, sp Particle.disk (fun _ => rfl), gu1]
  have gf : ∀ i, (pg i).disk = (u0.particles i).disk := fun i => by rw [gpg, (hup i).2.2.2.2]
  have uc' : u2.consider = u0.consider := uc2.trans uc
  have uh' : u2.hosts = u0.hosts := uh2.trans uh
  refine ⟨pt, fun i => ⟨?_, ?_, ?_⟩, by rw [dd]; exact key.2.1, fun i hi ho => ?_, fun i hi ho => ?_,
    c4 h (by rw [uc', cg]; rfl) (by rw [uh', hh]), fun i => ?_⟩
  · rw [ct Particle.mass (fun _ => rfl), sp Particle.mass (fun _ => rfl), cr Particle.mass (fun _ => rfl), (hup i).1]
  · rw [ct Particle.massG (fun _ => rfl), sp Particle.massG (fun _ => rfl), cr Particle.massG (fun _ => rfl),
      (hup i).2.1]
  · rw [dd, key.1, gf]
  · have g := key.2.2.2 i hi (by rw [gf]; exact ho)
    rw [ce Particle.inertialPosition (fun _ => rfl), ce Particle.inertialPosition (fun _ => rfl),
      ce Particle.inertialVelocity (fun _ => rfl), ce Particle.inertialVelocity (fun _ => rfl),
      (hup i).2.2.1, (hup h).2.2.1, (hup i).2.2.2.1, (hup h).2.2.2.1, ← dd i] at g
    exact g
  · rw [dd, key.2.2.1 i hi (by rw [gf]; exact ho), gf]
  · rw [cu Particle.mass (fun _ => rfl), sp Particle.mass (fun _ => rfl), cr Particle.mass (fun _ => rfl), (hup i).1]

/-- The wind torque of an evaluation, with the spins after the refresh. -/
theorem wind_evaluation {k : Consts ℝ} {m : Models ℝ} {eps2 time : ℝ} {evolution acc : Bool}
    {ignore : Ignore} {u u' : Universe ℝ n} (cw : u.consider.wind = true)
    (hu : calculateAdditionalEffects k m eps2 time evolution true acc ignore u = some u') (i : Fin n) :
    ∃ q : Particle ℝ, q.spin = (u'.particles i).spin ∧ q.normSpin2 = q.spin.norm2
      ∧ q.mass = (u.particles i).mass ∧ q.radius = (u'.particles i).radius
      ∧ q.wind.interaction = (u.particles i).wind.interaction ∧ q.wind.kFactor = (u.particles i).wind.kFactor
      ∧ q.wind.rotationSaturation = (u.particles i).wind.rotationSaturation
      ∧ q.wind.rotationSaturation2 = (u.particles i).wind.rotationSaturation2
      ∧ ((u.particles i).wind.interaction = false → q.wind = (u.particles i).wind)
      ∧ (u'.particles i).wind = (windFactor k q).wind
      ∧ (u'.particles i).spin.norm2 = (u'.particles i).normSpin2
      ∧ (u'.particles i).mass = (u.particles i).mass := by
  unfold calculateAdditionalEffects at hu
  split at hu
  · simp at hu
  rename_i u1 h1
  split at hu
  · simp at hu
  rename_i u2 h2
  obtain ⟨pg, pd, cpg, -, wpg, -, -, wu1⟩ := initializeAll_disk h1
  obtain ⟨-, -, -, -, -, -, -, -, -, -, uc, -, uh, -⟩ := initializeAll_stages h1
  obtain ⟨hsp, uc2, -, uh2, -⟩ := calculateSpinAndEvolving_step h2
  obtain ⟨pt, -, -, c3, -, c5⟩ := effects_disk hu
  have hcore := initializeAll_core h1
  have cr : ∀ {A : Type} (f : Particle ℝ → A), (∀ q, f q = f (core q)) →
      ∀ i, f (u1.particles i) = f (u.particles i) := by
    intro A f hf' i
    rw [hf', hcore i, ← hf']
  have sp : ∀ {A : Type} (f : Particle ℝ → A), (∀ q, f q = f (noSpin q)) →
      ∀ i, f (u2.particles i) = f (u1.particles i) := by
    intro A f hf' i
    rw [hf', spinAndEvolving_noSpin (hsp i), ← hf']
  have cu : ∀ {A : Type} (f : Particle ℝ → A), (∀ q, f q = f (core q)) →
      ∀ i, f (u'.particles i) = f (u2.particles i) := by
    intro A f hf' i
    rw [hf', c3 i, ← hf']
  have wi : (u2.particles i).wind = (windInitialize (u.particles i)).wind := by
    rw [sp Particle.wind (fun _ => rfl), wu1, wpg, cw]
    rfl
  obtain ⟨-, -, -, -, hs⟩ := spinAndEvolving_spin (hsp i)
  have wf : ∀ q : Particle ℝ, (windInitialize q).wind.interaction = q.wind.interaction
      ∧ (windInitialize q).wind.kFactor = q.wind.kFactor
      ∧ (windInitialize q).wind.rotationSaturation = q.wind.rotationSaturation
      ∧ (windInitialize q).wind.rotationSaturation2 = q.wind.rotationSaturation2 := by
    intro q
    unfold windInitialize
    split <;> exact ⟨rfl, rfl, rfl, rfl⟩
  have mm : (u2.particles i).mass = (u.particles i).mass := by
    rw [sp Particle.mass (fun _ => rfl), cr Particle.mass (fun _ => rfl)]
  refine ⟨u2.particles i, ?_, hs, mm, ?_, ?_, ?_, ?_, ?_, fun hf => ?_, ?_, ?_, ?_⟩
  · rw [cu Particle.spin (fun _ => rfl)]
  · rw [cu Particle.radius (fun _ => rfl)]
  · rw [wi]; exact (wf _).1
  · rw [wi]; exact (wf _).2.1
  · rw [wi]; exact (wf _).2.2.1
  · rw [wi]; exact (wf _).2.2.2
  · rw [wi]
    unfold windInitialize
    rw [hf]
    rfl
  · rw [c5, uc2, uc, cw]
    rfl
  · rw [cu Particle.spin (fun _ => rfl), cu Particle.normSpin2 (fun _ => rfl), hs]
  · rw [cu Particle.mass (fun _ => rfl), mm]

end Posidonius.Univ
