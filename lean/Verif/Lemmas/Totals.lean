import Verif.Lemmas.GrUniverse
import Verif.Lemmas.DiskUniverse

/-! What an evaluation of the additional effects does to the totals and to the effects switched off. -/

namespace Posidonius.Univ
open Gravity (Ignore)
open Evolution (Evolver)

section
variable {F : Type} [Add F] [Sub F] [Mul F] [Div F] [Neg F] [FOps F] {n : Nat}

set_option linter.unusedSectionVars false

/-- Forget the effects, keep the totals. -/
def five (p : Particle F) : Particle F :=
  { p with tides := (blank F).tides, flattening := (blank F).flattening, gr := (blank F).gr,
           wind := (blank F).wind, disk := (blank F).disk }

theorem Same.five_tides {p q : Fin n → Particle F} (h : Same noTides q p) : Same five q p := fun i => by
  have e := congrArg five (h i)
  exact e

theorem Same.five_flattening {p q : Fin n → Particle F} (h : Same noFlattening q p) : Same five q p := fun i => by
  have e := congrArg five (h i)
  exact e

theorem Same.five_gr {p q : Fin n → Particle F} (h : Same noGr q p) : Same five q p := fun i => by
  have e := congrArg five (h i)
  exact e

theorem Same.five_wind {p q : Fin n → Particle F} (h : Same noWind q p) : Same five q p := fun i => by
  have e := congrArg five (h i)
  exact e

theorem Same.five_disk {p q : Fin n → Particle F} (h : Same noDisk q p) : Same five q p := fun i => by
  have e := congrArg five (h i)
  exact e

variable [FPow F]

/-- Tides and flattening keep the totals, and each keeps the other if it is off. -/
theorem tidesAndFlattening_five (k : Consts F) (m : Models F) (dL acc : Bool) (c : Consider) (h : Fin n)
    (p : Fin n → Particle F) (t : Table F) :
    Same five (tidesAndFlattening k m dL acc c h p t).1 p
      ∧ (c.tides = false → ∀ i, ((tidesAndFlattening k m dL acc c h p t).1 i).tides = (p i).tides)
      ∧ (c.flattening = false →
          ∀ i, ((tidesAndFlattening k m dL acc c h p t).1 i).flattening = (p i).flattening)
      ∧ (∀ i, ((tidesAndFlattening k m dL acc c h p t).1 i).wind = (p i).wind) := by
  unfold tidesAndFlattening
  split
  · dsimp only
    generalize pairFactors k h p t = t1
    have a1 : Same noTides (if c.tides then tidesShapes m h (orthogonalComponent t1 h p) else p) p
        ∧ (c.tides = false → (if c.tides then tidesShapes m h (orthogonalComponent t1 h p) else p) = p) :=
      ⟨Same.ite ((tidesShapes_frame m h _).trans (orthogonalComponent_frame t1 h p)) (Same.refl _),
        fun e => by rw [e]; rfl⟩
    revert a1
    generalize (if c.tides then tidesShapes m h (orthogonalComponent t1 h p) else p) = p1
    rintro ⟨a1, b1⟩
    have a2 : Same noFlattening (if c.flattening then flatteningShapes m h (flatteningOrthogonal h p1) else p1) p1
        ∧ (c.flattening = false →
          (if c.flattening then flatteningShapes m h (flatteningOrthogonal h p1) else p1) = p1) :=
      ⟨Same.ite ((flatteningShapes_frame m h _).trans (flatteningOrthogonal_frame h p1)) (Same.refl _),
        fun e => by rw [e]; rfl⟩
    revert a2
    generalize (if c.flattening then flatteningShapes m h (flatteningOrthogonal h p1) else p1) = p2
    rintro ⟨a2, b2⟩
    have a3 : Same noTides (if acc && c.tides then tidalAcceleration m.tides h (radialComponent k t1 h p2) else p2)
        p2 ∧ (c.tides = false →
          (if acc && c.tides then tidalAcceleration m.tides h (radialComponent k t1 h p2) else p2) = p2) :=
      ⟨Same.ite ((tidalAcceleration_frame _ h _).trans (radialComponent_frame k t1 h p2)) (Same.refl _),
        fun e => by rw [e, Bool.and_false]; rfl⟩
    revert a3
    generalize (if acc && c.tides then tidalAcceleration m.tides h (radialComponent k t1 h p2) else p2) = p3
    rintro ⟨a3, b3⟩
    have a4 : Same noFlattening
        (if acc && c.flattening then flatteningAcceleration m.flattening h (flatteningRadial h p3) else p3) p3
        ∧ (c.flattening = false →
          (if acc && c.flattening then flatteningAcceleration m.flattening h (flatteningRadial h p3) else p3)
            = p3) :=
      ⟨Same.ite ((flatteningAcceleration_frame _ h _).trans (flatteningRadial_frame h p3)) (Same.refl _),
        fun e => by rw [e, Bool.and_false]; rfl⟩
    revert a4
    generalize (if acc && c.flattening then flatteningAcceleration m.flattening h (flatteningRadial h p3) else p3)
      = p4
    rintro ⟨a4, b4⟩
    have a5 : Same noTides (if dL && c.tides then tidalDL m.tides h p4 else p4) p4
        ∧ (c.tides = false → (if dL && c.tides then tidalDL m.tides h p4 else p4) = p4) :=
      ⟨Same.ite (tidalDL_frame _ h _) (Same.refl _), fun e => by rw [e, Bool.and_false]; rfl⟩
    revert a5
    generalize (if dL && c.tides then tidalDL m.tides h p4 else p4) = p5
    rintro ⟨a5, b5⟩
    have a6 : Same noFlattening (if dL && c.flattening then flatteningDL m.flattening h p5 else p5) p5
        ∧ (c.flattening = false → (if dL && c.flattening then flatteningDL m.flattening h p5 else p5) = p5) :=
      ⟨Same.ite (flatteningDL_frame _ h _) (Same.refl _), fun e => by rw [e, Bool.and_false]; rfl⟩
    obtain ⟨a6, b6⟩ := a6
    refine ⟨a6.five_flattening.trans (a5.five_tides.trans (a4.five_flattening.trans (a3.five_tides.trans
      (a2.five_flattening.trans a1.five_tides)))), fun e i => ?_, fun e i => ?_, fun i => ?_⟩
    · rw [a6.tides_of_flattening, b5 e, a4.tides_of_flattening, b3 e, a2.tides_of_flattening, b1 e]
    · rw [b6 e, a5.flattening_of_tides, b4 e, a3.flattening_of_tides, b2 e, a1.flattening_of_tides]
    · rw [a6.wind_of_flattening, a5.wind_of_tides, a4.wind_of_flattening, a3.wind_of_tides,
        a2.wind_of_flattening, a1.wind_of_tides]
  · exact ⟨Same.refl _, fun _ _ => rfl, fun _ _ => rfl, fun _ => rfl⟩

variable [FTrig F]

/-- The torques of the effects switched off are those before. -/
structure OffTorques (c : Consider) (p q : Fin n → Particle F) : Prop where
  tides : c.tides = false → ∀ i, (q i).tides.dAngularMomentumDt = (p i).tides.dAngularMomentumDt
  flattening : c.flattening = false → ∀ i, (q i).flattening.dAngularMomentumDt = (p i).flattening.dAngularMomentumDt
  gr : c.gr = false → ∀ i, (q i).gr.dAngularMomentumDt = (p i).gr.dAngularMomentumDt
  wind : c.wind = false → ∀ i, (q i).wind.dAngularMomentumDt = (p i).wind.dAngularMomentumDt

theorem OffTorques.trans {c : Consider} {p q r : Fin n → Particle F} (a : OffTorques c p q)
    (b : OffTorques c q r) : OffTorques c p r :=
  ⟨fun h i => (b.tides h i).trans (a.tides h i), fun h i => (b.flattening h i).trans (a.flattening h i),
    fun h i => (b.gr h i).trans (a.gr h i), fun h i => (b.wind h i).trans (a.wind h i)⟩

theorem initializeAll_totals {dL acc : Bool} {u u1 : Universe F n} (hu : initializeAll dL acc u = some u1) :
    u1.consider = u.consider ∧ u1.grImplementation = u.grImplementation ∧ u1.hosts = u.hosts
      ∧ OffTorques u.consider u.particles u1.particles
      ∧ ∃ pd : Fin n → Particle F, Same five pd u.particles
        ∧ ∀ i, u1.particles i = if acc then { pd i with inertialAdditionalAcceleration := Axes.zero } else pd i := by
  unfold initializeAll at hu
  dsimp only at hu
  split at hu
  · simp at hu
  rename_i pt ht
  split at hu
  · simp at hu
  rename_i pf hf
  split at hu
  · simp at hu
  rename_i pg hg
  split at hu
  · simp at hu
  rename_i pd hd
  injection hu with hu
  subst hu
  have hw : Same noWind (if dL && u.consider.wind then fun i => windInitialize (u.particles i) else u.particles)
      u.particles := Same.ite (windInitialize_frame _) (Same.refl _)
  have hw' : u.consider.wind = false →
      (if dL && u.consider.wind then fun i => windInitialize (u.particles i) else u.particles) = u.particles :=
    fun e => by rw [e, Bool.and_false]; rfl
  have off : ∀ {b x y : Bool} {a : Fin n} {o : Option (Fin n)} {f1 f2 f3} {p q : Fin n → Particle F},
      initializeEffect b x y a o f1 f2 f3 p = some q → b = false → q = p := by
    intro b x y a o f1 f2 f3 p q h e
    rw [e] at h
    simp only [initializeEffect, Bool.false_eq_true, if_false, Option.some.injEq] at h
    exact h.symm
  have h1 := initializeEffect_frame tidesCopyHeliocentric_frame tidesInertialToHeliocentric_frame
    tidesInitialize_frame ht
  have h2 := initializeEffect_frame flatteningCopyHeliocentric_frame flatteningInertialToHeliocentric_frame
    flatteningInitialize_frame hf
  have h3 := initializeEffect_frame grCopyHeliocentric_frame grInertialToHeliocentric_frame
    grInitialize_frame hg
  have h4 := initializeEffect_frame diskCopyHeliocentric_frame diskInertialToHeliocentric_frame
    diskInitialize_frame hd
  refine ⟨rfl, rfl, rfl, ?_, pd, h4.five_disk.trans (h3.five_gr.trans (h2.five_flattening.trans
    (h1.five_tides.trans hw.five_wind))), fun i => ?_⟩
  · have strip : ∀ {A : Type} (f : Particle F → A), (∀ q, f { q with inertialAdditionalAcceleration := Axes.zero } = f q)
        → ∀ i, f ((if acc then fun i => { pd i with inertialAdditionalAcceleration := Axes.zero } else pd) i)
          = f (pd i) := by
      intro A f hf i
      split
      · exact hf _
      · rfl
    refine ⟨fun e i => ?_, fun e i => ?_, fun e i => ?_, fun e i => ?_⟩
    · refine (strip (fun q => q.tides.dAngularMomentumDt) (fun _ => rfl) i).trans ?_
      rw [h4.tides_of_disk, h3.tides_of_gr, h2.tides_of_flattening, off ht (by simp [e]), hw.tides_of_wind]
    · refine (strip (fun q => q.flattening.dAngularMomentumDt) (fun _ => rfl) i).trans ?_
      rw [h4.flattening_of_disk, h3.flattening_of_gr, off hf (by simp [e]), h1.flattening_of_tides,
        hw.flattening_of_wind]
    · refine (strip (fun q => q.gr.dAngularMomentumDt) (fun _ => rfl) i).trans ?_
      rw [h4.gr_of_disk, off hg (by simp [e]), h2.gr_of_flattening, h1.gr_of_tides, hw.gr_of_wind]
    · refine (strip (fun q => q.wind.dAngularMomentumDt) (fun _ => rfl) i).trans ?_
      rw [h4.wind_of_disk, h3.wind_of_gr, h2.wind_of_flattening, h1.wind_of_tides, hw' e]
  · dsimp only
    split <;> rfl

theorem effects_totals {k : Consts F} {m : Models F} {eps2 time : F} {dL acc : Bool}
    {ignore : Ignore} {u u1 : Universe F n} (h : effects k m eps2 time dL acc ignore u = some u1) :
    u1.consider = u.consider ∧ u1.grImplementation = u.grImplementation ∧ u1.hosts = u.hosts
      ∧ ∃ pd : Fin n → Particle F, Same five pd u.particles ∧ OffTorques u.consider u.particles pd
        ∧ (acc = false → ∀ i, (pd i).gr = (u.particles i).gr)
        ∧ ∀ i, u1.particles i
          = (let a := if dL && (u.consider.tides || u.consider.flattening
                || (u.consider.gr && (u.grImplementation == .kidder1995)) || u.consider.wind)
              then totalDL (pd i) else pd i
            if acc then addAccelerations u.consider a else a) := by
  unfold effects at h
  dsimp only at h
  split at h
  · simp at h
  rename_i pt t1 ht
  split at h
  · simp at h
  rename_i pg hg
  split at h
  · simp at h
  rename_i pd hd
  injection h with h
  subst h
  have hw : Same noWind (if dL && u.consider.wind then fun i => windFactor k (u.particles i) else u.particles)
      u.particles := Same.ite (windFactor_frame _ _) (Same.refl _)
  have hw' : u.consider.wind = false →
      (if dL && u.consider.wind then fun i => windFactor k (u.particles i) else u.particles) = u.particles :=
    fun e => by rw [e, Bool.and_false]; rfl
  revert hw hw' ht
  generalize (if dL && u.consider.wind then fun i => windFactor k (u.particles i) else u.particles) = pw
  intro ht hw hw'
  have h1 : Same five pt pw ∧ (u.consider.tides = false → ∀ i, (pt i).tides = (pw i).tides)
      ∧ (u.consider.flattening = false → ∀ i, (pt i).flattening = (pw i).flattening)
      ∧ (∀ i, (pt i).wind = (pw i).wind) ∧ (∀ i, (pt i).gr = (pw i).gr) := by
    split at ht
    · unfold withHost at ht
      split at ht
      · simp at ht
      · rename_i hst hh
        injection ht with ht
        dsimp only at ht
        obtain ⟨a, b, c, d⟩ := tidesAndFlattening_five k m dL acc u.consider hst pw u.table
        obtain ⟨-, e⟩ := tidesAndFlattening_gr k m dL acc u.consider hst pw u.table
        rw [ht] at a b c d e
        exact ⟨a, b, c, d, e⟩
    · simp only [Option.some.injEq, Prod.mk.injEq] at ht
      rw [← ht.1]
      exact ⟨Same.refl _, fun _ _ => rfl, fun _ _ => rfl, fun _ => rfl, fun _ => rfl⟩
  obtain ⟨a, b, c, d, e⟩ := h1
  have h2 : Same noGr pg pt ∧ ((acc && u.consider.gr) = false → pg = pt) := by
    split at hg
    · unfold withHost at hg
      split at hg
      · simp at hg
      · injection hg with hg
        subst hg
        exact ⟨generalRelativity_frame k eps2 ignore _ pt, fun e => by simp_all⟩
    · injection hg with hg
      subst hg
      exact ⟨Same.refl _, fun _ => rfl⟩
  obtain ⟨g1, g2⟩ := h2
  have h3 : Same noDisk pd pg := by
    split at hd
    · unfold withHost at hd
      split at hd
      · simp at hd
      · injection hd with hd
        subst hd
        exact diskAcceleration_frame k time _ _
    · injection hd with hd
      subst hd
      exact Same.refl _
  refine ⟨rfl, rfl, rfl, pd, h3.five_disk.trans (g1.five_gr.trans (a.trans hw.five_wind)),
    ⟨fun x i => ?_, fun x i => ?_, fun x i => ?_, fun x i => ?_⟩, fun x i => ?_, fun i => ?_⟩
  · rw [h3.tides_of_disk, g1.tides_of_gr, b x, hw.tides_of_wind]
  · rw [h3.flattening_of_disk, g1.flattening_of_gr, c x, hw.flattening_of_wind]
  · rw [h3.gr_of_disk, g2 (by simp [x]), e, hw.gr_of_wind]
  · rw [h3.wind_of_disk, g1.wind_of_gr, d, hw' x]
  · rw [h3.gr_of_disk, g2 (by simp [x]), e, hw.gr_of_wind]
  · dsimp only
    split <;> split <;> rfl

/-- What an evaluation keeps besides the spins: everything but the effects and the totals. -/
def fixed (p : Particle F) : Particle F := core (noSpin p)

/-- An evaluation as a whole: the totals are computed from the effects in `pd`. -/
theorem evaluation_totals {k : Consts F} {m : Models F} {eps2 time : F} {evolution dL acc : Bool}
    {ignore : Ignore} {u u' : Universe F n}
    (h : calculateAdditionalEffects k m eps2 time evolution dL acc ignore u = some u') :
    u'.consider = u.consider ∧ u'.grImplementation = u.grImplementation ∧ u'.hosts = u.hosts
      ∧ Same fixed u'.particles u.particles
      ∧ OffTorques u.consider u.particles u'.particles
      ∧ ∃ pd : Fin n → Particle F,
        (∀ i, (pd i).inertialAdditionalAcceleration
          = if acc then Axes.zero else (u.particles i).inertialAdditionalAcceleration)
        ∧ (∀ i, (pd i).dAngularMomentumDt = (u.particles i).dAngularMomentumDt)
        ∧ ∀ i, u'.particles i
          = (let a := if dL && (u.consider.tides || u.consider.flattening
                || (u.consider.gr && (u.grImplementation == .kidder1995)) || u.consider.wind)
              then totalDL (pd i) else pd i
            if acc then addAccelerations u.consider a else a) := by
  unfold calculateAdditionalEffects at h
  split at h
  · simp at h
  rename_i u1 h1
  split at h
  · simp at h
  rename_i u2 h2
  obtain ⟨a1, a2, a3, a4, p1, a5, a6⟩ := initializeAll_totals h1
  obtain ⟨b1, b2, b3, b4, -⟩ := calculateSpinAndEvolving_step h2
  obtain ⟨c1, c2, c3, pd, c4, c5, c6, c7⟩ := effects_totals h
  have ns : ∀ i, noSpin (u2.particles i) = noSpin (u1.particles i) := fun i => spinAndEvolving_noSpin (b1 i)
  have e1 : u2.consider = u.consider := b2.trans a1
  have e2 : u2.grImplementation = u.grImplementation := b3.trans a2
  rw [e1, e2] at c7
  rw [e1] at c5
  have strip : ∀ {A : Type} (f : Particle F → A), (∀ q, f (totalDL q) = f q)
      → (∀ q, f (addAccelerations u.consider q) = f q) → ∀ i, f (u'.particles i) = f (pd i) := by
    intro A f hf hg i
    rw [c7 i]
    dsimp only
    split <;> split <;> simp only [hf, hg]
  refine ⟨c1.trans e1, c2.trans e2, c3.trans (b4.trans a3), fun i => ?_, ?_, pd, fun i => ?_, fun i => ?_, c7⟩
  · rw [strip fixed (fun _ => rfl) (fun _ => rfl) i]
    have x1 : fixed (pd i) = fixed (u2.particles i) := by
      have := congrArg fixed (c4 i)
      exact this
    have x2 : fixed (u2.particles i) = fixed (u1.particles i) := congrArg core (ns i)
    have x3 : fixed (u1.particles i) = fixed (p1 i) := by
      rw [a6 i]; split <;> rfl
    have x4 : fixed (p1 i) = fixed (u.particles i) := by
      have := congrArg fixed (a5 i)
      exact this
    rw [x1, x2, x3, x4]
  · have o1 : OffTorques u.consider u1.particles u2.particles := by
      refine ⟨fun _ i => ?_, fun _ i => ?_, fun _ i => ?_, fun _ i => ?_⟩
      · have := congrArg (fun q : Particle F => q.tides.dAngularMomentumDt) (ns i); exact this
      · have := congrArg (fun q : Particle F => q.flattening.dAngularMomentumDt) (ns i); exact this
      · have := congrArg (fun q : Particle F => q.gr.dAngularMomentumDt) (ns i); exact this
      · have := congrArg (fun q : Particle F => q.wind.dAngularMomentumDt) (ns i); exact this
    have o2 : OffTorques u.consider pd u'.particles := by
      refine ⟨fun _ i => ?_, fun _ i => ?_, fun _ i => ?_, fun _ i => ?_⟩
      · exact strip (fun q => q.tides.dAngularMomentumDt) (fun _ => rfl) (fun _ => rfl) i
      · exact strip (fun q => q.flattening.dAngularMomentumDt) (fun _ => rfl) (fun _ => rfl) i
      · exact strip (fun q => q.gr.dAngularMomentumDt) (fun _ => rfl) (fun _ => rfl) i
      · exact strip (fun q => q.wind.dAngularMomentumDt) (fun _ => rfl) (fun _ => rfl) i
    exact a4.trans (o1.trans (c5.trans o2))
  · have x1 : (pd i).inertialAdditionalAcceleration = (u2.particles i).inertialAdditionalAcceleration := by
      have := congrArg Particle.inertialAdditionalAcceleration (c4 i); exact this
    have x2 : (u2.particles i).inertialAdditionalAcceleration = (u1.particles i).inertialAdditionalAcceleration := by
      have := congrArg Particle.inertialAdditionalAcceleration (ns i); exact this
    have x4 : (p1 i).inertialAdditionalAcceleration = (u.particles i).inertialAdditionalAcceleration := by
      have := congrArg Particle.inertialAdditionalAcceleration (a5 i); exact this
    rw [x1, x2, a6 i]
    split
    · rfl
    · exact x4
  · have x1 : (pd i).dAngularMomentumDt = (u2.particles i).dAngularMomentumDt := by
      have := congrArg Particle.dAngularMomentumDt (c4 i); exact this
    have x2 : (u2.particles i).dAngularMomentumDt = (u1.particles i).dAngularMomentumDt := by
      have := congrArg Particle.dAngularMomentumDt (ns i); exact this
    have x4 : (p1 i).dAngularMomentumDt = (u.particles i).dAngularMomentumDt := by
      have := congrArg Particle.dAngularMomentumDt (a5 i); exact this
    rw [x1, x2, a6 i]
    split
    · exact x4
    · exact x4

end
end Posidonius.Univ
