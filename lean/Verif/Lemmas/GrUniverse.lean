import Verif.Lemmas.TidesUniverse
import Mathlib.Algebra.BigOperators.Group.Finset.Piecewise

/-! General relativity within an evaluation of the additional effects. -/

namespace Posidonius.Univ
open Finset
open Gravity (Ignore)

variable {n : Nat}

/-! ### Kidder's corrections -/

/-- The sum of the three corrections of a companion. -/
def kidderTotal {F : Type} [Add F] [Sub F] [Mul F] [Div F] [Neg F] [FOps F] (k : Consts F) (host p : Particle F) :
    Axes F :=
  kidderFirstOrder k host p + kidderSecondOrder k host p + kidderSpinOrbit k host p

/-- Replace the relativistic acceleration. -/
def Particle.setGr {F : Type} (p : Particle F) (a : Axes F) : Particle F :=
  { p with gr := { p.gr with acceleration := a } }

/-- Replace the relativistic acceleration and torque. -/
def Particle.setGr2 {F : Type} (p : Particle F) (a t : Axes F) : Particle F :=
  { p with gr := { p.gr with acceleration := a, dAngularMomentumDt := t } }

/-- A sum over the companions that take part. -/
noncomputable def orbitingSum (h : Fin n) (p : Fin n → Particle ℝ) (f : Fin n → Axes ℝ) : Axes ℝ :=
  ∑ i ∈ univ.erase h, if (p i).gr.effect.isOrbiting then f i else 0

theorem sumOthers_recoil (h : Fin n) (a : Particle ℝ → Particle ℝ → Axes ℝ) (p : Fin n → Particle ℝ) :
    sumOthers h (recoilTerm a (p h)) p
      = orbitingSum h p fun i => ((p i).mass / (p h).mass) • a (p h) (p i) := by
  rw [sumOthers_real]
  unfold orbitingSum recoilTerm
  rfl

theorem kidderFirst_result (k : Consts ℝ) (h : Fin n) (p : Fin n → Particle ℝ) :
    (∀ i, i ≠ h → (p i).gr.effect.isOrbiting = true → kidderFirst k h p i
        = (p i).setGr (kidderFirstOrder k (p h) (p i)))
      ∧ (∀ i, i ≠ h → (p i).gr.effect.isOrbiting = false → kidderFirst k h p i = p i)
      ∧ kidderFirst k h p h = (p h).setGr
          (-orbitingSum h p fun i => ((p i).mass / (p h).mass) • kidderFirstOrder k (p h) (p i)) := by
  unfold kidderFirst
  refine ⟨fun i hi ho => ?_, fun i hi ho => ?_, ?_⟩
  · dsimp only
    rw [mapHost_other hi, mapOthers_other hi, if_pos ho]
    rfl
  · dsimp only
    rw [mapHost_other hi, mapOthers_other hi, ho]
    rfl
  · dsimp only
    rw [mapHost_host, mapOthers_host, sumOthers_recoil]
    simp [Particle.setGr]

theorem kidderSecond_result (k : Consts ℝ) (h : Fin n) (p : Fin n → Particle ℝ) :
    (∀ i, i ≠ h → (p i).gr.effect.isOrbiting = true → kidderSecond k h p i
        = (p i).setGr ((p i).gr.acceleration + kidderSecondOrder k (p h) (p i)))
      ∧ (∀ i, i ≠ h → (p i).gr.effect.isOrbiting = false → kidderSecond k h p i = p i)
      ∧ kidderSecond k h p h = (p h).setGr ((p h).gr.acceleration
          - orbitingSum h p fun i => ((p i).mass / (p h).mass) • kidderSecondOrder k (p h) (p i)) := by
  unfold kidderSecond
  refine ⟨fun i hi ho => ?_, fun i hi ho => ?_, ?_⟩
  · dsimp only
    rw [mapHost_other hi, mapOthers_other hi, if_pos ho]
    rfl
  · dsimp only
    rw [mapHost_other hi, mapOthers_other hi, ho]
    rfl
  · dsimp only
    rw [mapHost_host, mapOthers_host, sumOthers_recoil]
    simp [sub_eq_add_neg, Particle.setGr]

theorem kidderThird_result (k : Consts ℝ) (h : Fin n) (p : Fin n → Particle ℝ) :
    (∀ i, i ≠ h → (p i).gr.effect.isOrbiting = true → kidderThird k h p i
        = (p i).setGr2 ((p i).gr.acceleration + kidderSpinOrbit k (p h) (p i))
            (kidderCompanionTorque k (p h) (p i)))
      ∧ (∀ i, i ≠ h → (p i).gr.effect.isOrbiting = false → kidderThird k h p i = p i)
      ∧ kidderThird k h p h = (p h).setGr2
          ((p h).gr.acceleration
            - orbitingSum h p fun i => ((p i).mass / (p h).mass) • kidderSpinOrbit k (p h) (p i))
          (orbitingSum h p fun i => kidderHostTorque k (p h) (p i)) := by
  unfold kidderThird
  refine ⟨fun i hi ho => ?_, fun i hi ho => ?_, ?_⟩
  · dsimp only
    rw [mapHost_other hi, mapOthers_other hi, if_pos ho]
    rfl
  · dsimp only
    rw [mapHost_other hi, mapOthers_other hi, ho]
    rfl
  · dsimp only
    rw [mapHost_host, mapOthers_host, sumOthers_recoil, sumOthers_real]
    rw [show ∀ x : Axes ℝ, (lit (-1) : ℝ) • x = -x by intro x; simp, ← sub_eq_add_neg]
    rfl

theorem kidder_result (k : Consts ℝ) (h : Fin n) (p : Fin n → Particle ℝ) :
    (∀ i, i ≠ h → (p i).gr.effect.isOrbiting = true → kidder k h p i
        = (p i).setGr2 (kidderTotal k (p h) (p i)) (kidderCompanionTorque k (p h) (p i)))
      ∧ (∀ i, i ≠ h → (p i).gr.effect.isOrbiting = false → kidder k h p i = p i)
      ∧ kidder k h p h = (p h).setGr2
          (-orbitingSum h p fun i => ((p i).mass / (p h).mass) • kidderTotal k (p h) (p i))
          (orbitingSum h p fun i => kidderHostTorque k (p h) (p i)) := by
  obtain ⟨a1, b1, c1⟩ := kidderFirst_result k h p
  obtain ⟨a2, b2, c2⟩ := kidderSecond_result k h (kidderFirst k h p)
  obtain ⟨a3, b3, c3⟩ := kidderThird_result k h (kidderSecond k h (kidderFirst k h p))
  have eff1 : ∀ i, (kidderFirst k h p i).gr.effect = (p i).gr.effect := by
    intro i
    by_cases hi : i = h
    · subst hi; rw [c1]; rfl
    · by_cases ho : (p i).gr.effect.isOrbiting = true
      · rw [a1 i hi ho]; rfl
      · rw [b1 i hi (by simpa using ho)]
  have eff2 : ∀ i, (kidderSecond k h (kidderFirst k h p) i).gr.effect = (p i).gr.effect := by
    intro i
    by_cases hi : i = h
    · subst hi; rw [c2, ← eff1]; rfl
    · by_cases ho : (kidderFirst k h p i).gr.effect.isOrbiting = true
      · rw [a2 i hi ho, ← eff1]; rfl
      · rw [b2 i hi (by simpa using ho), eff1]
  refine ⟨fun i hi ho => ?_, fun i hi ho => ?_, ?_⟩
  · have e1 := a1 i hi ho
    have e2 := a2 i hi (by rw [eff1]; exact ho)
    have e3 := a3 i hi (by rw [eff2]; exact ho)
    unfold kidder
    rw [e3, e2, e1, c2, c1]
    rfl
  · unfold kidder
    rw [b3 i hi (by rw [eff2]; exact ho), b2 i hi (by rw [eff1]; exact ho), b1 i hi ho]
  · have s2 : (orbitingSum h (kidderFirst k h p) fun i =>
        ((kidderFirst k h p i).mass / (kidderFirst k h p h).mass)
          • kidderSecondOrder k (kidderFirst k h p h) (kidderFirst k h p i))
        = orbitingSum h p fun i => ((p i).mass / (p h).mass) • kidderSecondOrder k (p h) (p i) := by
      unfold orbitingSum
      refine sum_congr rfl fun i hi => ?_
      rw [eff1]
      split
      · rename_i ho
        dsimp only
        rw [a1 i (ne_of_mem_erase hi) ho, c1]
        rfl
      · rfl
    have s3 : ∀ f : Particle ℝ → Particle ℝ → Axes ℝ,
        (∀ a b x y, f (a.setGr x) (b.setGr y) = f a b) →
        (orbitingSum h (kidderSecond k h (kidderFirst k h p)) fun i =>
          f (kidderSecond k h (kidderFirst k h p) h) (kidderSecond k h (kidderFirst k h p) i))
        = orbitingSum h p fun i => f (p h) (p i) := by
      intro f hf
      unfold orbitingSum
      refine sum_congr rfl fun i hi => ?_
      rw [eff2]
      split
      · rename_i ho
        dsimp only
        rw [a2 i (ne_of_mem_erase hi) (by rw [eff1]; exact ho), a1 i (ne_of_mem_erase hi) ho, c2, c1]
        exact hf (p h) (p i) _ _
      · rfl
    unfold kidder
    rw [c3, s3 (fun a b => (b.mass / a.mass) • kidderSpinOrbit k a b) (fun _ _ _ _ => rfl),
      s3 (fun a b => kidderHostTorque k a b) (fun _ _ _ _ => rfl), c2, s2, c1]
    unfold Particle.setGr2 Particle.setGr
    dsimp only
    congr 2
    unfold orbitingSum
    rw [← sum_neg_distrib, ← sum_neg_distrib, ← sum_sub_distrib, ← sum_sub_distrib]
    refine sum_congr rfl fun i _ => ?_
    split
    · unfold kidderTotal
      module
    · simp

/-! ### The stages of an evaluation -/

section
variable {F : Type} [Add F] [Sub F] [Mul F] [Div F] [Neg F] [FOps F]

theorem initializeAll_gr {dL acc : Bool} {u u1 : Universe F n} (hu : initializeAll dL acc u = some u1) :
    ∃ pf pg : Fin n → Particle F, Same core pf u.particles ∧ (∀ i, (pf i).gr = (u.particles i).gr)
      ∧ initializeEffect ((dL && u.consider.gr && (u.grImplementation == .kidder1995)) || (acc && u.consider.gr))
          u.hosts.mostMassiveGr u.hosts.all u.hosts.mostMassive u.hosts.gr grCopyHeliocentric
          grInertialToHeliocentric grInitialize pf = some pg
      ∧ (∀ i, (u1.particles i).gr = (pg i).gr) := by
  unfold initializeAll at hu
  dsimp only at hu
  split at hu
  · simp at hu
  rename_i pt ht
  split at hu
  · simp at hu
  rename_i pf hf
  split at hu
  · simp at hu
  rename_i pg hg
  split at hu
  · simp at hu
  rename_i pd hd
  injection hu with hu
  subst hu
  have hw : Same noWind (if dL && u.consider.wind then fun i => windInitialize (u.particles i) else u.particles)
      u.particles := Same.ite (windInitialize_frame _) (Same.refl _)
  have h1 := initializeEffect_frame tidesCopyHeliocentric_frame tidesInertialToHeliocentric_frame
    tidesInitialize_frame ht
  have h2 := initializeEffect_frame flatteningCopyHeliocentric_frame flatteningInertialToHeliocentric_frame
    flatteningInitialize_frame hf
  have h4 := initializeEffect_frame diskCopyHeliocentric_frame diskInertialToHeliocentric_frame
    diskInitialize_frame hd
  refine ⟨pf, pg, h2.core_flattening.trans (h1.core_tides.trans hw.core_wind), fun i => ?_, hg, fun i => ?_⟩
  · rw [h2.gr_of_flattening, h1.gr_of_tides, hw.gr_of_wind]
  · rw [← h4.gr_of_disk]
    dsimp only
    split <;> rfl

variable [FPow F]

theorem tidesAndFlattening_gr (k : Consts F) (m : Models F) (dL acc : Bool) (c : Consider) (h : Fin n)
    (p : Fin n → Particle F) (t : Table F) :
    Same core (tidesAndFlattening k m dL acc c h p t).1 p
      ∧ (∀ i, ((tidesAndFlattening k m dL acc c h p t).1 i).gr = (p i).gr) := by
  unfold tidesAndFlattening
  split
  · dsimp only
    generalize pairFactors k h p t = t1
    have a1 : Same noTides (if c.tides then tidesShapes m h (orthogonalComponent t1 h p) else p) p :=
      Same.ite ((tidesShapes_frame m h _).trans (orthogonalComponent_frame t1 h p)) (Same.refl _)
    revert a1
    generalize (if c.tides then tidesShapes m h (orthogonalComponent t1 h p) else p) = p1
    intro a1
    have a2 : Same noFlattening (if c.flattening then flatteningShapes m h (flatteningOrthogonal h p1) else p1) p1 :=
      Same.ite ((flatteningShapes_frame m h _).trans (flatteningOrthogonal_frame h p1)) (Same.refl _)
    revert a2
    generalize (if c.flattening then flatteningShapes m h (flatteningOrthogonal h p1) else p1) = p2
    intro a2
    have a3 : Same noTides (if acc && c.tides then tidalAcceleration m.tides h (radialComponent k t1 h p2) else p2)
        p2 := Same.ite ((tidalAcceleration_frame _ h _).trans (radialComponent_frame k t1 h p2)) (Same.refl _)
    revert a3
    generalize (if acc && c.tides then tidalAcceleration m.tides h (radialComponent k t1 h p2) else p2) = p3
    intro a3
    have a4 : Same noFlattening
        (if acc && c.flattening then flatteningAcceleration m.flattening h (flatteningRadial h p3) else p3) p3 :=
      Same.ite ((flatteningAcceleration_frame _ h _).trans (flatteningRadial_frame h p3)) (Same.refl _)
    revert a4
    generalize (if acc && c.flattening then flatteningAcceleration m.flattening h (flatteningRadial h p3) else p3)
      = p4
    intro a4
    have a5 : Same noTides (if dL && c.tides then tidalDL m.tides h p4 else p4) p4 :=
      Same.ite (tidalDL_frame _ h _) (Same.refl _)
    revert a5
    generalize (if dL && c.tides then tidalDL m.tides h p4 else p4) = p5
    intro a5
    have a6 : Same noFlattening (if dL && c.flattening then flatteningDL m.flattening h p5 else p5) p5 :=
      Same.ite (flatteningDL_frame _ h _) (Same.refl _)
    refine ⟨a6.core_flattening.trans (a5.core_tides.trans (a4.core_flattening.trans (a3.core_tides.trans
      (a2.core_flattening.trans a1.core_tides)))), fun i => ?_⟩
    rw [a6.gr_of_flattening, a5.gr_of_tides, a4.gr_of_flattening, a3.gr_of_tides, a2.gr_of_flattening,
      a1.gr_of_tides]
  · exact ⟨Same.refl _, fun _ => rfl⟩

variable [FTrig F]

theorem effects_gr {k : Consts F} {m : Models F} {eps2 time : F} {dL : Bool} {ignore : Ignore} {h : Fin n}
    {u u1 : Universe F n} (hg : u.consider.gr = true) (hh : u.hosts.gr = some h)
    (hu : effects k m eps2 time dL true ignore u = some u1) :
    ∃ pt : Fin n → Particle F, Same core pt u.particles ∧ (∀ i, (pt i).gr = (u.particles i).gr)
      ∧ Same core u1.particles u.particles
      ∧ (∀ i, (u1.particles i).gr = (generalRelativity k eps2 ignore h pt i).gr) := by
  unfold effects at hu
  dsimp only at hu
  split at hu
  · simp at hu
  rename_i pt t1 ht
  simp only [hg, Bool.and_self, if_true, hh, withHost] at hu
  split at hu
  · simp at hu
  rename_i pd hd
  injection hu with hu
  subst hu
  have hw : Same noWind (if dL && u.consider.wind then fun i => windFactor k (u.particles i) else u.particles)
      u.particles := Same.ite (windFactor_frame _ _) (Same.refl _)
  have h1 : Same core pt u.particles ∧ ∀ i, (pt i).gr = (u.particles i).gr := by
    split at ht
    · unfold withHost at ht
      split at ht
      · simp at ht
      · rename_i hst hh
        injection ht with ht
        dsimp only at ht
        obtain ⟨a, b⟩ := tidesAndFlattening_gr k m dL true u.consider hst
          (if dL && u.consider.wind then fun i => windFactor k (u.particles i) else u.particles) u.table
        rw [ht] at a b
        exact ⟨a.trans hw.core_wind, fun i => by rw [b, hw.gr_of_wind]⟩
    · simp only [Option.some.injEq, Prod.mk.injEq] at ht
      rw [← ht.1]
      exact ⟨hw.core_wind, fun i => hw.gr_of_wind i⟩
  have h2 : Same noDisk pd (generalRelativity k eps2 ignore h pt) := by
    split at hd
    · split at hd
      · simp at hd
      · injection hd with hd
        subst hd
        exact diskAcceleration_frame k time _ _
    · injection hd with hd
      subst hd
      exact Same.refl _
  refine ⟨pt, h1.1, h1.2, ?_, fun i => ?_⟩
  · intro i
    rw [← (h2.core_disk.trans ((generalRelativity_frame k eps2 ignore h pt).core_gr.trans h1.1)) i]
    dsimp only
    split <;> rfl
  · rw [← h2.gr_of_disk]
    dsimp only
    split <;> rfl

end

/-! ### Geometry -/

/-- What `find_indices` guarantees about the host of general relativity. -/
structure GrHostOk {F : Type} (u : Universe F n) : Prop where
  gr : u.consider.gr = true → (u.hosts.mostMassiveGr = true ↔ u.hosts.gr = some u.hosts.mostMassive)
  allGr : u.hosts.all = true → u.consider.gr = true → u.hosts.mostMassiveGr = true

/-- The coordinates of a companion relative to the host. -/
structure GrGeometry (r v : Axes ℝ) (g : Gr ℝ) : Prop where
  position : g.position = r
  velocity : g.velocity = v
  distance : g.distance = Real.sqrt r.norm2
  radialVelocity : g.radialVelocity = r.dot v / Real.sqrt r.norm2
  normVelocity2 : g.normVelocity2 = v.norm2
  normVelocity : g.normVelocity = Real.sqrt v.norm2

theorem grInitialize_active {h : Fin n} {p : Fin n → Particle ℝ}
    (hc : (p h).gr.effect = .central .kidder1995 ∨ (p h).gr.effect = .central .anderson1975) :
    grInitialize h p = mapOthers h (fun host q =>
        if q.gr.effect.isOrbiting then
          { q with gr := { q.gr with
              factor := host.massG * q.massG / ipow (host.massG + q.massG) 2,
              acceleration := Axes.zero, dAngularMomentumDt := Axes.zero } }
        else q)
      (mapHost h (fun host => { host with gr := { host.gr with
          factor := lit 0, acceleration := Axes.zero, dAngularMomentumDt := Axes.zero } }) p) := by
  unfold grInitialize
  rcases hc with hc | hc <;> rw [hc] <;> rfl

theorem grInitialize_inactive {h : Fin n} {p : Fin n → Particle ℝ}
    (hc : ¬((p h).gr.effect = .central .kidder1995 ∨ (p h).gr.effect = .central .anderson1975)) :
    grInitialize h p = p := by
  unfold grInitialize
  generalize he : (p h).gr.effect = e at hc
  rcases e with i | _ | _
  · cases i <;> simp_all [GrEffect.implementation?]
  · rfl
  · rfl

theorem grInit_fields (f : Fin n → (Fin n → Particle ℝ) → (Fin n → Particle ℝ)) (h : Fin n)
    (p : Fin n → Particle ℝ) (hf : ∀ i, (f h p i).gr.effect = (p i).gr.effect)
    (hn : ∀ i, i ≠ h → (p i).gr.effect.isOrbiting = false → f h p i = p i)
    (hm : Same noGr (f h p) p) :
    (∀ i, (grInitialize h (f h p) i).gr.effect = (p i).gr.effect)
      ∧ (∀ i, i ≠ h → (p i).gr.effect.isOrbiting = false → grInitialize h (f h p) i = p i)
      ∧ (∀ i, i ≠ h → (p i).gr.effect.isOrbiting = true →
          (grInitialize h (f h p) i).gr.position = (f h p i).gr.position
          ∧ (grInitialize h (f h p) i).gr.velocity = (f h p i).gr.velocity
          ∧ (grInitialize h (f h p) i).gr.distance = (f h p i).gr.distance
          ∧ (grInitialize h (f h p) i).gr.radialVelocity = (f h p i).gr.radialVelocity
          ∧ (grInitialize h (f h p) i).gr.normVelocity2 = (f h p i).gr.normVelocity2
          ∧ (grInitialize h (f h p) i).gr.normVelocity = (f h p i).gr.normVelocity
          ∧ (((p h).gr.effect = .central .kidder1995 ∨ (p h).gr.effect = .central .anderson1975) →
            (grInitialize h (f h p) i).gr.factor
              = (p h).massG * (p i).massG / ((p h).massG + (p i).massG) ^ 2)) := by
  have mg : ∀ i, (f h p i).massG = (p i).massG := fun i => by
    have e := congrArg Particle.massG (hm i)
    exact e
  refine ⟨fun i => ?_, fun i hi ho => ?_, fun i hi ho => ?_⟩
  · rw [← hf i]
    by_cases hc : (f h p h).gr.effect = .central .kidder1995 ∨ (f h p h).gr.effect = .central .anderson1975
    · rw [grInitialize_active hc]
      by_cases hi : i = h
      · subst hi; rw [mapOthers_host, mapHost_host]
      · rw [mapOthers_other hi, mapHost_other hi]; dsimp only; split <;> rfl
    · rw [grInitialize_inactive hc]
  · have ho' : (f h p i).gr.effect.isOrbiting = false := by rw [hf]; exact ho
    by_cases hc : (f h p h).gr.effect = .central .kidder1995 ∨ (f h p h).gr.effect = .central .anderson1975
    · rw [grInitialize_active hc, mapOthers_other hi, mapHost_other hi]; dsimp only; rw [ho', hn i hi ho]; rfl
    · rw [grInitialize_inactive hc]; exact hn i hi ho
  · have ho' : (f h p i).gr.effect.isOrbiting = true := by rw [hf]; exact ho
    by_cases hc : (f h p h).gr.effect = .central .kidder1995 ∨ (f h p h).gr.effect = .central .anderson1975
    · rw [grInitialize_active hc, mapOthers_other hi, mapHost_other hi, mapHost_host, if_pos ho']
      dsimp only
      rw [mg, mg]
      exact ⟨rfl, rfl, rfl, rfl, rfl, rfl, fun _ => by simp⟩
    · rw [grInitialize_inactive hc]
      rw [hf] at hc
      exact ⟨rfl, rfl, rfl, rfl, rfl, rfl, fun hc' => absurd hc' hc⟩

/-- The host takes part with an implementation. -/
def GrHost (g : Gr ℝ) : Prop :=
  g.effect = .central .kidder1995 ∨ g.effect = .central .anderson1975 ∨ g.effect = .central .newhall1983

theorem grConvert_active {h : Fin n} {p : Fin n → Particle ℝ} (hc : GrHost (p h).gr) :
    grInertialToHeliocentric h p = mapOthers h (fun host q =>
        if q.gr.effect.isOrbiting then
          let position := q.inertialPosition - host.inertialPosition
          let velocity := q.inertialVelocity - host.inertialVelocity
          let distance := FOps.sqrt position.norm2
          let v2 := (velocity - host.gr.velocity).norm2
          { q with gr := { q.gr with
              position := position, velocity := velocity, distance := distance,
              radialVelocity := position.dot velocity / distance,
              normVelocity2 := v2, normVelocity := FOps.sqrt v2 } }
        else q)
      (mapHost h (fun host => { host with gr := { host.gr with
          position := Axes.zero, velocity := Axes.zero, distance := lit 0, radialVelocity := lit 0,
          normVelocity := lit 0, normVelocity2 := lit 0 } }) p) := by
  unfold grInertialToHeliocentric
  rcases hc with hc | hc | hc <;> rw [hc] <;> rfl

/-- Copy the heliocentric coordinates. -/
def grCopied (q : Particle ℝ) : Particle ℝ :=
  { q with gr := { q.gr with
    position := q.heliocentricPosition, velocity := q.heliocentricVelocity,
    distance := q.heliocentricDistance, radialVelocity := q.heliocentricRadialVelocity,
    normVelocity := q.heliocentricNormVelocity, normVelocity2 := q.heliocentricNormVelocity2 } }

theorem grCopy_active {h : Fin n} {p : Fin n → Particle ℝ} (hc : GrHost (p h).gr) :
    grCopyHeliocentric h p
      = mapOthers h (fun _ q => if q.gr.effect.isOrbiting then grCopied q else q) (mapHost h grCopied p) := by
  unfold grCopyHeliocentric
  rcases hc with hc | hc | hc <;> rw [hc] <;> rfl

theorem grConvert_fields (h : Fin n) (p : Fin n → Particle ℝ) (hc : GrHost (p h).gr) :
    (∀ i, (grInertialToHeliocentric h p i).gr.effect = (p i).gr.effect)
      ∧ (∀ i, i ≠ h → (p i).gr.effect.isOrbiting = false → grInertialToHeliocentric h p i = p i)
      ∧ (∀ i, i ≠ h → (p i).gr.effect.isOrbiting = true →
        GrGeometry ((p i).inertialPosition - (p h).inertialPosition)
          ((p i).inertialVelocity - (p h).inertialVelocity) (grInertialToHeliocentric h p i).gr) := by
  rw [grConvert_active hc]
  refine ⟨fun i => ?_, fun i hi ho => ?_, fun i hi ho => ?_⟩
  · by_cases hi : i = h
    · subst hi; rw [mapOthers_host, mapHost_host]; try rfl
    · rw [mapOthers_other hi, mapHost_other hi]; dsimp only; split <;> rfl
  · rw [mapOthers_other hi, mapHost_other hi]; dsimp only; rw [ho]; rfl
  · rw [mapOthers_other hi, mapHost_other hi, mapHost_host]
    dsimp only
    rw [if_pos ho]
    have z : (((p i).inertialVelocity - (p h).inertialVelocity) - (Axes.zero : Axes ℝ))
          = (p i).inertialVelocity - (p h).inertialVelocity := by simp
    exact ⟨rfl, rfl, rfl, rfl, by dsimp only; rw [z], by dsimp only; rw [z]; rfl⟩

theorem grCopy_fields (h : Fin n) (p : Fin n → Particle ℝ) (hc : GrHost (p h).gr) :
    (∀ i, (grCopyHeliocentric h p i).gr.effect = (p i).gr.effect)
      ∧ (∀ i, i ≠ h → (p i).gr.effect.isOrbiting = false → grCopyHeliocentric h p i = p i)
      ∧ (∀ i, i ≠ h → (p i).gr.effect.isOrbiting = true →
        (p i).heliocentricPosition = (p i).inertialPosition - (p h).inertialPosition →
        (p i).heliocentricVelocity = (p i).inertialVelocity - (p h).inertialVelocity →
        (p i).heliocentricDistance = Real.sqrt (p i).heliocentricPosition.norm2 →
        (p i).heliocentricRadialVelocity
          = (p i).heliocentricPosition.dot (p i).heliocentricVelocity / (p i).heliocentricDistance →
        (p i).heliocentricNormVelocity2 = (p i).heliocentricVelocity.norm2 →
        (p i).heliocentricNormVelocity = Real.sqrt (p i).heliocentricNormVelocity2 →
        GrGeometry ((p i).inertialPosition - (p h).inertialPosition)
          ((p i).inertialVelocity - (p h).inertialVelocity) (grCopyHeliocentric h p i).gr) := by
  rw [grCopy_active hc]
  refine ⟨fun i => ?_, fun i hi ho => ?_, fun i hi ho h1 h2 h3 h4 h5 h6 => ?_⟩
  · by_cases hi : i = h
    · subst hi; rw [mapOthers_host, mapHost_host]; try rfl
    · rw [mapOthers_other hi, mapHost_other hi]; split <;> rfl
  · rw [mapOthers_other hi, mapHost_other hi, ho]; rfl
  · rw [mapOthers_other hi, mapHost_other hi, if_pos ho]
    refine ⟨h1, h2, ?_, ?_, ?_, ?_⟩
    · rw [← h1]; exact h3
    · rw [← h1, ← h2, ← h3]; exact h4
    · rw [← h2]; exact h5
    · rw [← h2, ← h5]; exact h6

/-- The state of relativity after `initialize` and the refresh of the spins. -/
theorem preparedGr {k : Consts ℝ} {time : ℝ} {evolution dL : Bool} {u0 u1 u2 : Universe ℝ n}
    {h : Fin n} (hok : GrHostOk u0) (hh : u0.hosts.gr = some h) (cg : u0.consider.gr = true)
    (hg : GrHost (u0.particles h).gr) (hv : (u0.particles u0.hosts.mostMassive).heliocentricVelocity = 0)
    (h1 : initializeAll dL true (inertialToHeliocentric u0) = some u1)
    (h2 : calculateSpinAndEvolving k time evolution u1 = some u2) :
    (∀ i, (u2.particles i).mass = (u0.particles i).mass
        ∧ (u2.particles i).massG = (u0.particles i).massG
        ∧ (u2.particles i).inertialPosition = (u0.particles i).inertialPosition
        ∧ (u2.particles i).inertialVelocity = (u0.particles i).inertialVelocity
        ∧ (u2.particles i).inertialAcceleration = (u0.particles i).inertialAcceleration
        ∧ (u2.particles i).gr.effect = (u0.particles i).gr.effect)
      ∧ u2.consider = u0.consider ∧ u2.hosts = u0.hosts
      ∧ (∀ i, i ≠ h → (u0.particles i).gr.effect.isOrbiting = true →
          GrGeometry ((u0.particles i).inertialPosition - (u0.particles h).inertialPosition)
            ((u0.particles i).inertialVelocity - (u0.particles h).inertialVelocity) (u2.particles i).gr
          ∧ (((u0.particles h).gr.effect = .central .kidder1995
              ∨ (u0.particles h).gr.effect = .central .anderson1975) →
            (u2.particles i).gr.factor = (u0.particles h).massG * (u0.particles i).massG
              / ((u0.particles h).massG + (u0.particles i).massG) ^ 2))
      ∧ (∀ i, i ≠ h → (u0.particles i).gr.effect.isOrbiting = false →
          (u2.particles i).gr = (u0.particles i).gr) := by
  set u := inertialToHeliocentric u0 with hu
  have hup : ∀ i, (u.particles i).mass = (u0.particles i).mass
      ∧ (u.particles i).massG = (u0.particles i).massG
      ∧ (u.particles i).inertialPosition = (u0.particles i).inertialPosition
      ∧ (u.particles i).inertialVelocity = (u0.particles i).inertialVelocity
      ∧ (u.particles i).inertialAcceleration = (u0.particles i).inertialAcceleration
      ∧ (u.particles i).gr = (u0.particles i).gr := by
    intro i
    rw [hu]
    unfold inertialToHeliocentric
    dsimp only
    by_cases hi : i = u0.hosts.mostMassive
    · subst hi
      rw [mapHost_host, mapOthers_host]
      exact ⟨rfl, rfl, rfl, rfl, rfl, rfl⟩
    · rw [mapHost_other hi, mapOthers_other hi]
      exact ⟨rfl, rfl, rfl, rfl, rfl, rfl⟩
  have hnv : ∀ i, i ≠ u0.hosts.mostMassive →
      (u.particles i).heliocentricNormVelocity2 = (u.particles i).heliocentricVelocity.norm2
      ∧ (u.particles i).heliocentricNormVelocity = Real.sqrt (u.particles i).heliocentricNormVelocity2 := by
    intro i hi
    rw [hu]
    unfold inertialToHeliocentric
    dsimp only
    rw [mapHost_other hi, mapOthers_other hi]
    unfold toHeliocentric
    dsimp only
    rw [hv, sub_zero]
    exact ⟨rfl, rfl⟩
  have hcore := initializeAll_core h1
  obtain ⟨pf, pg, cpf, gpf, hpg, gu1⟩ := initializeAll_gr h1
  obtain ⟨-, -, -, -, -, -, -, -, -, -, uc, -, uh, -⟩ := initializeAll_stages h1
  obtain ⟨hsp, uc2, -, uh2, -⟩ := calculateSpinAndEvolving_step h2
  have hcons : u.consider = u0.consider := rfl
  have hhost : u.hosts = u0.hosts := rfl
  have ce : ∀ {A : Type} (f : Particle ℝ → A), (∀ q, f q = f (core q)) →
      ∀ i, f (pf i) = f (u.particles i) := by
    intro A f hf' i
    rw [hf', cpf i, ← hf']
  have hgf : GrHost (pf h).gr := by rw [gpf, (hup h).2.2.2.2.2]; exact hg
  have hact : ((dL && u.consider.gr && (u.grImplementation == .kidder1995)) || (true && u.consider.gr)) = true := by
    rw [hcons, cg]; simp
  unfold initializeEffect at hpg
  rw [if_pos hact, hhost] at hpg
  have key : (∀ i, (pg i).gr.effect = (pf i).gr.effect)
      ∧ (∀ i, i ≠ h → (pf i).gr.effect.isOrbiting = false → pg i = pf i)
      ∧ (∀ i, i ≠ h → (pf i).gr.effect.isOrbiting = true →
          GrGeometry ((pf i).inertialPosition - (pf h).inertialPosition)
            ((pf i).inertialVelocity - (pf h).inertialVelocity) (pg i).gr
          ∧ (((pf h).gr.effect = .central .kidder1995 ∨ (pf h).gr.effect = .central .anderson1975) →
            (pg i).gr.factor = (pf h).massG * (pf i).massG / ((pf h).massG + (pf i).massG) ^ 2)) := by
    split at hpg
    · rename_i hm
      have hmm := (hok.gr cg).1 hm
      rw [hh] at hmm
      injection hmm with hmm
      injection hpg with hpg
      subst hpg
      rw [← hmm]
      obtain ⟨c1, c2, c3⟩ := grCopy_fields h pf hgf
      obtain ⟨i1, i2, i3⟩ := grInit_fields grCopyHeliocentric h pf c1 c2 (grCopyHeliocentric_frame h pf)
      refine ⟨i1, i2, fun i hi ho => ?_⟩
      obtain ⟨j1, j2, j3, j4, j5, j6, j7⟩ := i3 i hi ho
      refine ⟨?_, j7⟩
      have hel := inertialToHeliocentric_helio u0
      rw [← hmm, ← hu] at hel
      obtain ⟨a, b, c, d⟩ := hel i hi
      obtain ⟨e1, e2⟩ := hnv i (by rw [← hmm]; exact hi)
      have g := c3 i hi ho
        (by rw [ce Particle.heliocentricPosition (fun _ => rfl), ce Particle.inertialPosition (fun _ => rfl),
              ce Particle.inertialPosition (fun _ => rfl)]; exact a)
        (by rw [ce Particle.heliocentricVelocity (fun _ => rfl), ce Particle.inertialVelocity (fun _ => rfl),
              ce Particle.inertialVelocity (fun _ => rfl)]; exact b)
        (by rw [ce Particle.heliocentricDistance (fun _ => rfl),
              ce Particle.heliocentricPosition (fun _ => rfl)]; exact c)
        (by rw [ce Particle.heliocentricDistance (fun _ => rfl),
              ce Particle.heliocentricPosition (fun _ => rfl), ce Particle.heliocentricVelocity (fun _ => rfl),
              ce Particle.heliocentricRadialVelocity (fun _ => rfl)]; exact d)
        (by rw [ce Particle.heliocentricNormVelocity2 (fun _ => rfl),
              ce Particle.heliocentricVelocity (fun _ => rfl)]; exact e1)
        (by rw [ce Particle.heliocentricNormVelocity2 (fun _ => rfl),
              ce Particle.heliocentricNormVelocity (fun _ => rfl)]; exact e2)
      exact ⟨j1.trans g.position, j2.trans g.velocity, j3.trans g.distance, j4.trans g.radialVelocity,
        j5.trans g.normVelocity2, j6.trans g.normVelocity⟩
    · rename_i hm
      split at hpg
      · rename_i hall
        exact absurd (hok.allGr hall cg) hm
      · rw [hh] at hpg
        simp only [withHost, Option.some.injEq] at hpg
        subst hpg
        obtain ⟨c1, c2, c3⟩ := grConvert_fields h pf hgf
        obtain ⟨i1, i2, i3⟩ := grInit_fields grInertialToHeliocentric h pf c1 c2
          (grInertialToHeliocentric_frame h pf)
        refine ⟨i1, i2, fun i hi ho => ?_⟩
        obtain ⟨j1, j2, j3, j4, j5, j6, j7⟩ := i3 i hi ho
        have g := c3 i hi ho
        exact ⟨⟨j1.trans g.position, j2.trans g.velocity, j3.trans g.distance, j4.trans g.radialVelocity,
          j5.trans g.normVelocity2, j6.trans g.normVelocity⟩, j7⟩
  have cr : ∀ {A : Type} (f : Particle ℝ → A), (∀ q, f q = f (core q)) →
      ∀ i, f (u1.particles i) = f (u.particles i) := by
    intro A f hf' i
    rw [hf', hcore i, ← hf']
  have sp : ∀ {A : Type} (f : Particle ℝ → A), (∀ q, f q = f (noSpin q)) →
      ∀ i, f (u2.particles i) = f (u1.particles i) := by
    intro A f hf' i
    rw [hf', spinAndEvolving_noSpin (hsp i), ← hf']
  have gg : ∀ i, (u2.particles i).gr = (pg i).gr := fun i => by rw [sp Particle.gr (fun _ => rfl), gu1]
  have gf : ∀ i, (pf i).gr = (u0.particles i).gr := fun i => by rw [gpf, (hup i).2.2.2.2.2]
  refine ⟨fun i => ?_, uc2.trans uc, uh2.trans uh, fun i hi ho => ?_, fun i hi ho => ?_⟩
  · obtain ⟨a1, a2, a3, a4, a5, a6⟩ := hup i
    refine ⟨?_, ?_, ?_, ?_, ?_, ?_⟩
    · rw [sp Particle.mass (fun _ => rfl), cr Particle.mass (fun _ => rfl), a1]
    · rw [sp Particle.massG (fun _ => rfl), cr Particle.massG (fun _ => rfl), a2]
    · rw [sp Particle.inertialPosition (fun _ => rfl), cr Particle.inertialPosition (fun _ => rfl), a3]
    · rw [sp Particle.inertialVelocity (fun _ => rfl), cr Particle.inertialVelocity (fun _ => rfl), a4]
    · rw [sp Particle.inertialAcceleration (fun _ => rfl), cr Particle.inertialAcceleration (fun _ => rfl), a5]
    · rw [gg, key.1, gf]
  · have g := key.2.2 i hi (by rw [gf]; exact ho)
    rw [ce Particle.inertialPosition (fun _ => rfl), ce Particle.inertialPosition (fun _ => rfl),
      ce Particle.inertialVelocity (fun _ => rfl), ce Particle.inertialVelocity (fun _ => rfl),
      ce Particle.massG (fun _ => rfl), ce Particle.massG (fun _ => rfl),
      (hup i).2.2.1, (hup h).2.2.1, (hup i).2.2.2.1, (hup h).2.2.2.1, (hup i).2.1, (hup h).2.1, gf h, ← gg i] at g
    exact g
  · rw [gg, key.2.1 i hi (by rw [gf]; exact ho), gf]

/-- Everything about relativity in an evaluation of the additional effects: `P` is the state in which
the accelerations are computed. -/
theorem gr_evaluation {k : Consts ℝ} {m : Models ℝ} {eps2 time : ℝ} {evolution dL : Bool}
    {ignore : Ignore} {u0 u' : Universe ℝ n} {h : Fin n}
    (hok : GrHostOk u0) (hh : u0.hosts.gr = some h) (cg : u0.consider.gr = true)
    (hg : GrHost (u0.particles h).gr) (hv : (u0.particles u0.hosts.mostMassive).heliocentricVelocity = 0)
    (hu : calculateAdditionalEffects k m eps2 time evolution dL true ignore (inertialToHeliocentric u0)
      = some u') :
    ∃ P : Fin n → Particle ℝ,
      (∀ i, (P i).mass = (u0.particles i).mass ∧ (P i).massG = (u0.particles i).massG
        ∧ (P i).inertialPosition = (u0.particles i).inertialPosition
        ∧ (P i).inertialVelocity = (u0.particles i).inertialVelocity
        ∧ (P i).inertialAcceleration = (u0.particles i).inertialAcceleration
        ∧ (P i).gr.effect = (u0.particles i).gr.effect
        ∧ (P i).spin = (u'.particles i).spin ∧ (P i).momentOfInertia = (u'.particles i).momentOfInertia)
      ∧ (∀ i, i ≠ h → (u0.particles i).gr.effect.isOrbiting = true →
          GrGeometry ((u0.particles i).inertialPosition - (u0.particles h).inertialPosition)
            ((u0.particles i).inertialVelocity - (u0.particles h).inertialVelocity) (P i).gr
          ∧ (((u0.particles h).gr.effect = .central .kidder1995
              ∨ (u0.particles h).gr.effect = .central .anderson1975) →
            (P i).gr.factor = (u0.particles h).massG * (u0.particles i).massG
              / ((u0.particles h).massG + (u0.particles i).massG) ^ 2))
      ∧ (∀ i, i ≠ h → (u0.particles i).gr.effect.isOrbiting = false → (P i).gr = (u0.particles i).gr)
      ∧ (∀ i, (u'.particles i).gr = (generalRelativity k eps2 ignore h P i).gr)
      ∧ (∀ i, (u'.particles i).mass = (u0.particles i).mass
        ∧ (u'.particles i).inertialPosition = (u0.particles i).inertialPosition
        ∧ (u'.particles i).inertialVelocity = (u0.particles i).inertialVelocity) := by
  unfold calculateAdditionalEffects at hu
  split at hu
  · simp at hu
  rename_i u1 h1
  split at hu
  · simp at hu
  rename_i u2 h2
  obtain ⟨p1, p2, p3, p4, p5⟩ := preparedGr hok hh cg hg hv h1 h2
  obtain ⟨pt, c1, c2, c3, c4⟩ := effects_gr (by rw [p2]; exact cg) (by rw [p3]; exact hh) hu
  have ct : ∀ {A : Type} (f : Particle ℝ → A), (∀ q, f q = f (core q)) →
      ∀ i, f (pt i) = f (u2.particles i) := by
    intro A f hf' i
    rw [hf', c1 i, ← hf']
  have cu : ∀ {A : Type} (f : Particle ℝ → A), (∀ q, f q = f (core q)) →
      ∀ i, f (u'.particles i) = f (u2.particles i) := by
    intro A f hf' i
    rw [hf', c3 i, ← hf']
  refine ⟨pt, fun i => ?_, fun i hi ho => ?_, fun i hi ho => ?_, c4, fun i => ?_⟩
  · obtain ⟨a1, a2, a3, a4, a5, a6⟩ := p1 i
    refine ⟨?_, ?_, ?_, ?_, ?_, ?_, ?_, ?_⟩
    · rw [ct Particle.mass (fun _ => rfl), a1]
    · rw [ct Particle.massG (fun _ => rfl), a2]
    · rw [ct Particle.inertialPosition (fun _ => rfl), a3]
    · rw [ct Particle.inertialVelocity (fun _ => rfl), a4]
    · rw [ct Particle.inertialAcceleration (fun _ => rfl), a5]
    · rw [c2, a6]
    · rw [ct Particle.spin (fun _ => rfl), cu Particle.spin (fun _ => rfl)]
    · rw [ct Particle.momentOfInertia (fun _ => rfl), cu Particle.momentOfInertia (fun _ => rfl)]
  · rw [c2]; exact p4 i hi ho
  · rw [c2]; exact p5 i hi ho
  · obtain ⟨a1, a2, a3, a4, a5, a6⟩ := p1 i
    rw [cu Particle.mass (fun _ => rfl), cu Particle.inertialPosition (fun _ => rfl),
      cu Particle.inertialVelocity (fun _ => rfl)]
    exact ⟨a1, a3, a4⟩

end Posidonius.Univ
