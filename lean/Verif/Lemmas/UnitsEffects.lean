import Verif.Lemmas.Units

/-! Flattening, wind, relativity and disk in other units. -/

namespace Posidonius.Univ
open Gravity (Ignore)
open Evolution (Evolver)

section
variable {n : Nat} (o : Units)

/-! ### Flattening -/

theorem flatteningIsCentral_units (q : Particle ℝ) :
    (o.sees q).flattening.effect.isCentral = q.flattening.effect.isCentral := by
  show (o.flatteningEffect q.flattening.effect).isCentral = _
  cases q.flattening.effect <;> rfl

theorem flatteningIsOrbiting_units (q : Particle ℝ) :
    (o.sees q).flattening.effect.isOrbiting = q.flattening.effect.isOrbiting := by
  show (o.flatteningEffect q.flattening.effect).isOrbiting = _
  cases q.flattening.effect <;> rfl

theorem flatteningLove_units (q : Particle ℝ) :
    (o.sees q).flattening.effect.hostLoveNumber = q.flattening.effect.hostLoveNumber := by
  show (o.flatteningEffect q.flattening.effect).hostLoveNumber = _
  rcases q.flattening.effect with m | m | _
  · cases m <;> rfl
  · rfl
  · rfl

theorem flatteningOrthogonal_units (h : Fin n) (p : Fin n → Particle ℝ) :
    flatteningOrthogonal h (fun i => o.sees (p i)) = fun i => o.sees (flatteningOrthogonal h p i) := by
  have hL := o.length_pos
  have hT := o.time_pos
  have hM := o.mass_pos
  have e1 : ∀ host q, oblateStarStep (o.sees host) (o.sees q) = o.sees (oblateStarStep host q) := by
    intro host q
    unfold oblateStarStep
    rw [flatteningLove_units, show (o.sees q).flattening.effect = o.flatteningEffect q.flattening.effect from rfl]
    rcases hq : q.flattening.effect with m | m | _
    · rfl
    · cases m with
      | oblateSpheroid a =>
        simp only [Units.flatteningEffect, Units.flatteningModel, Units.sees, Units.flattening, Particle.mk.injEq,
          Flattening.mk.injEq, true_and, and_true, hq]
        dims
        constructor <;> field_simp
      | creepCoplanar v => rfl
    · rfl
  have e2 : ∀ host q, oblatePlanetStep (o.sees host) (o.sees q) = o.sees (oblatePlanetStep host q) := by
    intro host q
    unfold oblatePlanetStep
    rw [show (o.sees q).flattening.effect = o.flatteningEffect q.flattening.effect from rfl]
    rcases hq : q.flattening.effect with m | m | _
    · rfl
    · cases m with
      | oblateSpheroid a =>
        simp only [Units.flatteningEffect, Units.flatteningModel, Units.sees, Units.flattening, Particle.mk.injEq,
          Flattening.mk.injEq, true_and, and_true, hq]
        dims
        constructor <;> field_simp
      | creepCoplanar v => rfl
    · rfl
  unfold flatteningOrthogonal
  rw [mapOthers_units h fun i _ => e1 _ _, mapOthers_units h fun i _ => e2 _ _]

theorem flatteningRadial_units (h : Fin n) (p : Fin n → Particle ℝ) :
    flatteningRadial h (fun i => o.sees (p i)) = fun i => o.sees (flatteningRadial h p i) := by
  have hL := o.length_pos
  have hT := o.time_pos
  have hM := o.mass_pos
  unfold flatteningRadial
  refine mapOthers_units h fun i _ => ?_
  unfold flatteningRadialStep
  rw [flatteningIsOrbiting_units]
  split <;> [skip; rfl]
  simp only [Units.sees, Units.flattening, Particle.mk.injEq, Flattening.mk.injEq, true_and, and_true]
  dims
  field_simp

theorem flatteningInitialize_units (h : Fin n) (p : Fin n → Particle ℝ) :
    flatteningInitialize h (fun i => o.sees (p i)) = fun i => o.sees (flatteningInitialize h p i) := by
  unfold flatteningInitialize
  dsimp only
  rw [flatteningIsCentral_units]
  split
  · rw [mapHost_seen h (T := o.sees) (g := fun host : Particle ℝ => { host with flattening := { host.flattening with
          rDotStellarSpin := lit 0, rDotPlanetarySpin := lit 0,
          acceleration := Axes.zero, dAngularMomentumDt := Axes.zero } })
      (by simp [Units.sees, Units.flattening]), mapOthers_units]
    intro i hi
    rw [flatteningIsOrbiting_units]
    split <;> [skip; rfl]
    simp only [Units.sees, Units.flattening, Particle.mk.injEq, Flattening.mk.injEq, true_and, and_true, Axes.zero_def,
      smul_zero, Axes.dot_smul, Axes.smul_dot]
    dims
    constructor <;> field_simp
  · rfl

theorem flatteningInertialToHeliocentric_units (h : Fin n) (p : Fin n → Particle ℝ) :
    flatteningInertialToHeliocentric h (fun i => o.sees (p i))
      = fun i => o.sees (flatteningInertialToHeliocentric h p i) := by
  have hL := o.length_pos
  unfold flatteningInertialToHeliocentric
  dsimp only
  rw [flatteningIsCentral_units]
  split
  · rw [mapHost_seen h (T := o.sees) (g := fun host : Particle ℝ => { host with flattening := { host.flattening with
          position := Axes.zero, velocity := Axes.zero, distance := lit 0 } })
      (by simp [Units.sees, Units.flattening]), mapOthers_units]
    intro i hi
    rw [flatteningIsOrbiting_units]
    split <;> [skip; rfl]
    simp only [Units.sees, Units.flattening, Particle.mk.injEq, Flattening.mk.injEq, true_and, and_true, ← smul_sub,
      Axes.norm2_smul, sqrt_real, sqrt_units hL.le]
  · rfl

theorem flatteningCopyHeliocentric_units (h : Fin n) (p : Fin n → Particle ℝ) :
    flatteningCopyHeliocentric h (fun i => o.sees (p i)) = fun i => o.sees (flatteningCopyHeliocentric h p i) := by
  unfold flatteningCopyHeliocentric
  dsimp only
  rw [flatteningIsCentral_units]
  split
  · rw [mapHost_seen h (T := o.sees) (g := fun q : Particle ℝ => { q with flattening := { q.flattening with
    position := q.heliocentricPosition, velocity := q.heliocentricVelocity,
    distance := q.heliocentricDistance } }) rfl, mapOthers_units]
    intro i hi
    rw [flatteningIsOrbiting_units]
    split <;> rfl
  · rfl

/-- A model of the flattening that is the same in other units. -/
structure FlatteningModelUnits (m m' : Models ℝ) (model : FlatteningModel ℝ) : Prop where
  torque : ∀ host q b, flatteningTorque m'.flattening (o.flatteningModel model) (o.sees host) (o.sees q) b
    = o.torque • flatteningTorque m.flattening model host q b
  force : ∀ host q, flatteningForce m'.flattening (o.flatteningModel model) (o.sees host) (o.sees q)
    = o.force • flatteningForce m.flattening model host q
  shape : ∀ v, model = .creepCoplanar v → ∀ host q, m'.flatteningShape (o.sees host) (o.sees q) = m.flatteningShape host q

/-- The same for all models in use. -/
def FlatteningUnits (m m' : Models ℝ) (p : Fin n → Particle ℝ) : Prop :=
  ∀ i model, ((p i).flattening.effect = .central model ∨ (p i).flattening.effect = .orbiting model) →
    FlatteningModelUnits o m m' model

theorem FlatteningUnits.same {m m' : Models ℝ} {p q : Fin n → Particle ℝ} (h : FlatteningUnits o m m' p)
    (hs : Same settings q p) : FlatteningUnits o m m' q := fun i model hi => h i model (by
  have e : (q i).flattening.effect = (p i).flattening.effect := settings_flattening (hs i)
  rwa [e] at hi)

/-- The oblate spheroid is the same in all units. -/
theorem oblate_units (m m' : Models ℝ) (a : ℝ) : FlatteningModelUnits o m m' (.oblateSpheroid a) := by
  have hL := o.length_pos
  have hT := o.time_pos
  refine ⟨fun host q b => ?_, fun host q => ?_, fun v h => by cases h⟩
  · show oblateTorque _ _ b = o.torque • oblateTorque _ _ b
    unfold oblateTorque
    cases b <;> simp only [Units.sees, Units.flattening, if_true, Bool.false_eq_true, if_false] <;> dims <;> ext <;>
      parts <;> field_simp
  · show oblateForce _ _ = o.force • oblateForce _ _
    unfold oblateForce
    simp only [Units.sees, Units.flattening]
    dims
    ext <;> parts <;> field_simp

theorem flatteningViscosity_units (e : FlatteningEffect ℝ) :
    (o.flatteningEffect e).viscosity = o.viscosity * e.viscosity := by
  have z : (lit 0 : ℝ) = o.viscosity * lit 0 := by simp
  rcases e with m | m | _
  · cases m <;> first | rfl | exact z
  · cases m <;> first | rfl | exact z
  · exact z

theorem flatteningShapes_units {m m' : Models ℝ} {h : Fin n} {p : Fin n → Particle ℝ} (hm : FlatteningUnits o m m' p) :
    flatteningShapes m' h (fun i => o.sees (p i)) = fun i => o.sees (flatteningShapes m h p i) := by
  unfold flatteningShapes
  refine mapOthers_units h fun i _ => ?_
  have e : (o.sees (p i)).flattening.effect.viscosity = o.viscosity * (p i).flattening.effect.viscosity :=
    flatteningViscosity_units o _
  have e2 : eqb (o.sees (p i)).flattening.effect.viscosity (lit 0) = eqb (p i).flattening.effect.viscosity (lit 0) := by
    rw [Bool.eq_iff_iff, eqb_real, eqb_real, e, lit_real]
    simp [(viscosity_pos o).ne']
  dsimp only
  rw [e2]
  split
  · rfl
  · rename_i hv
    have hc : ∃ v, (p i).flattening.effect = .central (.creepCoplanar v)
        ∨ (p i).flattening.effect = .orbiting (.creepCoplanar v) := by
      unfold FlatteningEffect.viscosity at hv
      split at hv
      · exact ⟨_, .inl (by assumption)⟩
      · exact ⟨_, .inr (by assumption)⟩
      · exact absurd (by simp) hv
    obtain ⟨v, hc⟩ := hc
    rw [(hm i _ hc).shape v rfl]
    rfl

theorem flatteningDL_units {m m' : Models ℝ} {h : Fin n} {p : Fin n → Particle ℝ} (hm : FlatteningUnits o m m' p) :
    flatteningDL m'.flattening h (fun i => o.sees (p i)) = fun i => o.sees (flatteningDL m.flattening h p i) := by
  have e1 : ∀ i, companionFlatteningDL m'.flattening (o.sees (p h)) (o.sees (p i))
      = o.sees (companionFlatteningDL m.flattening (p h) (p i)) := by
    intro i
    unfold companionFlatteningDL
    rw [show (o.sees (p i)).flattening.effect = o.flatteningEffect (p i).flattening.effect from rfl]
    rcases hi : (p i).flattening.effect with model | model | _
    · rfl
    · simp only [Units.flatteningEffect]
      rw [(hm i model (.inr hi)).torque, smul_comm]
      rfl
    · rfl
  have e2 : ∀ (p : Fin n → Particle ℝ) (q : Particle ℝ), FlatteningUnits o m m' p →
      hostFlatteningDLTerm m'.flattening (o.sees (p h)) (o.sees q)
      = o.torque • hostFlatteningDLTerm m.flattening (p h) q := by
    intro p q hm
    unfold hostFlatteningDLTerm
    rw [show (o.sees (p h)).flattening.effect = o.flatteningEffect (p h).flattening.effect from rfl]
    rcases hi : (p h).flattening.effect with model | model | _
    · simp only [Units.flatteningEffect]
      rw [(hm h model (.inl hi)).torque, smul_comm]
    · simp [Units.flatteningEffect]
    · simp [Units.flatteningEffect]
  have s1 : Same settings (mapOthers h (companionFlatteningDL m.flattening) p) p :=
    mapOthers_frame _ (fun a b => by unfold companionFlatteningDL; split <;> rfl) (Same.refl _)
  have hm1 := FlatteningUnits.same o hm s1
  unfold flatteningDL
  dsimp only
  rw [mapOthers_units h (T := o.sees) (g := companionFlatteningDL m.flattening) (p := p) fun i _ => e1 i]
  refine mapHost_seen h ?_
  dsimp only
  rw [sumOthers_units o.torque h (T := o.sees)
    (g := hostFlatteningDLTerm m.flattening (mapOthers h (companionFlatteningDL m.flattening) p h))
    fun i _ => e2 _ _ hm1]
  rfl

theorem flatteningAcceleration_units {m m' : Models ℝ} {h : Fin n} {p : Fin n → Particle ℝ} (hm : FlatteningUnits o m m' p) :
    flatteningAcceleration m'.flattening h (fun i => o.sees (p i))
      = fun i => o.sees (flatteningAcceleration m.flattening h p i) := by
  have e1 : ∀ i, companionFlatteningAcceleration m'.flattening (o.sees (p h)) (o.sees (p i))
      = o.sees (companionFlatteningAcceleration m.flattening (p h) (p i)) := by
    intro i
    unfold companionFlatteningAcceleration
    rw [show (o.sees (p i)).flattening.effect = o.flatteningEffect (p i).flattening.effect from rfl]
    rcases hi : (p i).flattening.effect with model | model | _
    · rfl
    · simp only [Units.flatteningEffect]
      rw [(hm i model (.inr hi)).force, show (o.sees (p i)).mass = o.mass * (p i).mass from rfl, newton_units]
      rfl
    · rfl
  have e2 : ∀ i, companionFlatteningForce m'.flattening (o.sees (p h)) (o.sees (p i))
      = o.force • companionFlatteningForce m.flattening (p h) (p i) := by
    intro i
    unfold companionFlatteningForce
    rw [show (o.sees (p i)).flattening.effect = o.flatteningEffect (p i).flattening.effect from rfl]
    rcases hi : (p i).flattening.effect with model | model | _
    · simp [Units.flatteningEffect]
    · simp only [Units.flatteningEffect]
      rw [(hm i model (.inr hi)).force]
    · simp [Units.flatteningEffect]
  unfold flatteningAcceleration
  dsimp only
  rw [mapOthers_units h (T := o.sees) (g := companionFlatteningAcceleration m.flattening) (p := p) fun i _ => e1 i,
    sumOthers_units o.force h (T := o.sees) (p := p) (g := companionFlatteningForce m.flattening (p h)) fun i _ => e2 i]
  refine mapHost_seen h ?_
  simp only [Units.sees, Units.flattening, recoil_units]

/-! ### Wind -/

theorem windInitialize_units (q : Particle ℝ) : windInitialize (o.sees q) = o.sees (windInitialize q) := by
  unfold windInitialize
  show (if q.wind.interaction then _ else _) = _
  split
  · simp [Units.sees, Units.wind]
  · rfl

theorem windFactor_units (k : Consts ℝ) (q : Particle ℝ) : windFactor (o.consts k) (o.sees q) = o.sees (windFactor k q) := by
  have hL := o.length_pos
  have hT := o.time_pos
  have hM := o.mass_pos
  unfold windFactor
  show (if q.wind.interaction then _ else _) = _
  split <;> [skip; rfl]
  have e1 : FOps.sqrt ((o.sees q).radius / (o.consts k).rSun * lit 1 / (o.sees q).mass)
      = FOps.sqrt (q.radius / k.rSun * lit 1 / q.mass) / Real.sqrt o.mass := by
    rw [sqrt_real, sqrt_real, ← Real.sqrt_div' _ hM.le]
    congr 1
    simp only [Units.sees, Units.consts]
    field_simp
  have e2 : FOps.sqrt (o.sees q).normSpin2 = FOps.sqrt q.normSpin2 / o.time :=
    (frequency_units o q.normSpin2 0).2
  have e3 : leb (o.sees q).wind.rotationSaturation (FOps.sqrt (o.sees q).normSpin2)
      = leb q.wind.rotationSaturation (FOps.sqrt q.normSpin2) := by
    rw [e2, Bool.eq_iff_iff, leb_real, leb_real]
    exact div_le_div_iff_of_pos_right hT
  have hs : 0 < Real.sqrt o.mass := Real.sqrt_pos.2 hM
  have hs2 : Real.sqrt o.mass ^ 2 = o.mass := Real.sq_sqrt hM.le
  dsimp only
  simp only [e1, e3]
  generalize FOps.sqrt (q.radius / k.rSun * lit 1 / q.mass) = root
  simp only [Units.sees, Units.wind, Particle.mk.injEq, Wind.mk.injEq, true_and, and_true]
  dims
  split <;> ext <;> parts <;> field_simp

/-! ### Relativity -/

theorem grInitialize_units (h : Fin n) (p : Fin n → Particle ℝ) :
    grInitialize h (fun i => o.sees (p i)) = fun i => o.sees (grInitialize h p i) := by
  have hL := o.length_pos
  have hT := o.time_pos
  have key : mapOthers h (fun host q : Particle ℝ =>
        if q.gr.effect.isOrbiting then
          { q with gr := { q.gr with
              factor := host.massG * q.massG / ipow (host.massG + q.massG) 2,
              acceleration := Axes.zero, dAngularMomentumDt := Axes.zero } }
        else q)
      (mapHost h (fun host : Particle ℝ => { host with gr := { host.gr with
          factor := lit 0, acceleration := Axes.zero, dAngularMomentumDt := Axes.zero } }) (fun i => o.sees (p i)))
      = fun i => o.sees (mapOthers h (fun host q : Particle ℝ =>
        if q.gr.effect.isOrbiting then
          { q with gr := { q.gr with
              factor := host.massG * q.massG / ipow (host.massG + q.massG) 2,
              acceleration := Axes.zero, dAngularMomentumDt := Axes.zero } }
        else q)
      (mapHost h (fun host : Particle ℝ => { host with gr := { host.gr with
          factor := lit 0, acceleration := Axes.zero, dAngularMomentumDt := Axes.zero } }) p) i) := by
    rw [mapHost_seen h (T := o.sees) (g := fun host : Particle ℝ => { host with gr := { host.gr with
          factor := lit 0, acceleration := Axes.zero, dAngularMomentumDt := Axes.zero } })
      (by simp [Units.sees, Units.gr]), mapOthers_units]
    intro i hi
    show (if (mapHost h _ p i).gr.effect.isOrbiting then _ else _) = _
    split <;> [skip; rfl]
    simp only [Units.sees, Units.gr, Particle.mk.injEq, Gr.mk.injEq, true_and, and_true, Axes.zero_def, smul_zero,
      ← mul_add, ipow]
    field_simp
  unfold grInitialize
  rw [show (o.sees (p h)).gr.effect = (p h).gr.effect from rfl]
  generalize (p h).gr.effect.implementation? = x
  rcases x with _ | x
  · rfl
  · cases x <;> first | exact key | rfl

theorem grInertialToHeliocentric_units (h : Fin n) (p : Fin n → Particle ℝ) :
    grInertialToHeliocentric h (fun i => o.sees (p i)) = fun i => o.sees (grInertialToHeliocentric h p i) := by
  have hL := o.length_pos
  have hT := o.time_pos
  have hV : 0 ≤ o.velocity := (div_pos hL hT).le
  unfold grInertialToHeliocentric
  rw [show (o.sees (p h)).gr.effect = (p h).gr.effect from rfl]
  have key : mapOthers h (fun host q : Particle ℝ =>
        if q.gr.effect.isOrbiting then
          let position := q.inertialPosition - host.inertialPosition
          let velocity := q.inertialVelocity - host.inertialVelocity
          let distance := FOps.sqrt position.norm2
          let v2 := (velocity - host.gr.velocity).norm2
          { q with gr := { q.gr with
              position := position, velocity := velocity, distance := distance,
              radialVelocity := position.dot velocity / distance,
              normVelocity2 := v2, normVelocity := FOps.sqrt v2 } }
        else q)
      (mapHost h (fun host : Particle ℝ => { host with gr := { host.gr with
          position := Axes.zero, velocity := Axes.zero, distance := lit 0, radialVelocity := lit 0,
          normVelocity := lit 0, normVelocity2 := lit 0 } }) fun i => o.sees (p i))
      = fun i => o.sees (mapOthers h (fun host q : Particle ℝ =>
        if q.gr.effect.isOrbiting then
          let position := q.inertialPosition - host.inertialPosition
          let velocity := q.inertialVelocity - host.inertialVelocity
          let distance := FOps.sqrt position.norm2
          let v2 := (velocity - host.gr.velocity).norm2
          { q with gr := { q.gr with
              position := position, velocity := velocity, distance := distance,
              radialVelocity := position.dot velocity / distance,
              normVelocity2 := v2, normVelocity := FOps.sqrt v2 } }
        else q)
      (mapHost h (fun host : Particle ℝ => { host with gr := { host.gr with
          position := Axes.zero, velocity := Axes.zero, distance := lit 0, radialVelocity := lit 0,
          normVelocity := lit 0, normVelocity2 := lit 0 } }) p) i) := by
    rw [mapHost_seen h (T := o.sees) (g := fun host : Particle ℝ => { host with gr := { host.gr with
          position := Axes.zero, velocity := Axes.zero, distance := lit 0, radialVelocity := lit 0,
          normVelocity := lit 0, normVelocity2 := lit 0 } }) (by simp [Units.sees, Units.gr]), mapOthers_units]
    intro i hi
    show (if (mapHost h _ p i).gr.effect.isOrbiting then _ else _) = _
    split <;> [skip; rfl]
    simp only [Units.sees, Units.gr, Particle.mk.injEq, Gr.mk.injEq, true_and, and_true, ← smul_sub,
      Axes.dot_smul, Axes.smul_dot, Axes.norm2_smul, sqrt_real, sqrt_units hL.le, sqrt_units hV]
    dims
    field_simp
  generalize (p h).gr.effect.implementation? = x
  rcases x with _ | x
  · rfl
  · cases x <;> first | exact key | rfl

theorem grCopyHeliocentric_units (h : Fin n) (p : Fin n → Particle ℝ) :
    grCopyHeliocentric h (fun i => o.sees (p i)) = fun i => o.sees (grCopyHeliocentric h p i) := by
  unfold grCopyHeliocentric
  dsimp only
  rw [show (o.sees (p h)).gr.effect = (p h).gr.effect from rfl]
  have key : mapOthers h (fun _ q : Particle ℝ => if q.gr.effect.isOrbiting then
        { q with gr := { q.gr with
    position := q.heliocentricPosition, velocity := q.heliocentricVelocity,
    distance := q.heliocentricDistance, radialVelocity := q.heliocentricRadialVelocity,
    normVelocity := q.heliocentricNormVelocity, normVelocity2 := q.heliocentricNormVelocity2 } } else q)
      (mapHost h (fun q : Particle ℝ => { q with gr := { q.gr with
    position := q.heliocentricPosition, velocity := q.heliocentricVelocity,
    distance := q.heliocentricDistance, radialVelocity := q.heliocentricRadialVelocity,
    normVelocity := q.heliocentricNormVelocity, normVelocity2 := q.heliocentricNormVelocity2 } }) fun i => o.sees (p i))
      = fun i => o.sees (mapOthers h (fun _ q : Particle ℝ => if q.gr.effect.isOrbiting then
        { q with gr := { q.gr with
    position := q.heliocentricPosition, velocity := q.heliocentricVelocity,
    distance := q.heliocentricDistance, radialVelocity := q.heliocentricRadialVelocity,
    normVelocity := q.heliocentricNormVelocity, normVelocity2 := q.heliocentricNormVelocity2 } } else q)
      (mapHost h (fun q : Particle ℝ => { q with gr := { q.gr with
    position := q.heliocentricPosition, velocity := q.heliocentricVelocity,
    distance := q.heliocentricDistance, radialVelocity := q.heliocentricRadialVelocity,
    normVelocity := q.heliocentricNormVelocity, normVelocity2 := q.heliocentricNormVelocity2 } }) p) i) := by
    rw [mapHost_seen h (T := o.sees) (g := fun q : Particle ℝ => { q with gr := { q.gr with
    position := q.heliocentricPosition, velocity := q.heliocentricVelocity,
    distance := q.heliocentricDistance, radialVelocity := q.heliocentricRadialVelocity,
    normVelocity := q.heliocentricNormVelocity, normVelocity2 := q.heliocentricNormVelocity2 } }) rfl, mapOthers_units]
    intro i hi
    show (if (mapHost h _ p i).gr.effect.isOrbiting then _ else _) = _
    split <;> rfl
  generalize (p h).gr.effect.implementation? = x
  rcases x with _ | x
  · rfl
  · cases x <;> first | exact key | rfl

theorem newtonianAccelerations_units (k : Consts ℝ) (ignore : Ignore) (h : Fin n) (p : Fin n → Particle ℝ) :
    newtonianAccelerations (o.consts k) ignore h (fun i => o.sees (p i))
      = fun i => o.acceleration • newtonianAccelerations k ignore h p i := by
  have hL := o.length_pos
  have hT := o.time_pos
  have hM := o.mass_pos
  have pair : ∀ (m : ℝ) (d : Axes ℝ),
      ((o.consts k).g / ((o.length • d).norm2 * FOps.sqrt (o.length • d).norm2) * (o.mass * m)) • (o.length • d)
      = o.acceleration • (k.g / (d.norm2 * FOps.sqrt d.norm2) * m) • d := by
    intro m d
    rw [Axes.norm2_smul, sqrt_real, sqrt_real, sqrt_units hL.le]
    simp only [Units.consts]
    dims
    generalize d.norm2 = x
    generalize Real.sqrt x = y
    ext <;> parts <;> field_simp
  have key : ∀ (l : List (Fin n)) (a : Fin n → Axes ℝ),
      l.foldl (fun a i =>
        let d := (o.sees (p h)).inertialPosition - (o.sees (p i)).gr.position
        let r2 := d.norm2
        let r := FOps.sqrt r2
        let prefac := (o.consts k).g / (r2 * r)
        fun j => if j = h then a j - (prefac * (o.sees (p i)).mass) • d
          else if j = i then a j + (prefac * (o.sees (p h)).mass) • d else a j) (fun j => o.acceleration • a j)
      = fun j => o.acceleration • l.foldl (fun a i =>
        let d := (p h).inertialPosition - (p i).gr.position
        let r2 := d.norm2
        let r := FOps.sqrt r2
        let prefac := k.g / (r2 * r)
        fun j => if j = h then a j - (prefac * (p i).mass) • d
          else if j = i then a j + (prefac * (p h).mass) • d else a j) a j := by
    intro l
    induction l with
    | nil => intro a; rfl
    | cons i l ih =>
      intro a
      rw [List.foldl_cons, List.foldl_cons, ← ih]
      congr 1
      funext j
      dsimp only
      rw [show (o.sees (p h)).inertialPosition - (o.sees (p i)).gr.position
        = o.length • ((p h).inertialPosition - (p i).gr.position) from (smul_sub _ _ _).symm]
      split
      · rw [show (o.sees (p i)).mass = o.mass * (p i).mass from rfl, pair, ← smul_sub]
      · split
        · rw [show (o.sees (p h)).mass = o.mass * (p h).mass from rfl, pair, ← smul_add]
        · rfl
  unfold newtonianAccelerations
  exact key _ _

/-- Jacobi coordinates in other units. -/
noncomputable def Units.jacobi (s : Jacobi ℝ n) : Jacobi ℝ n where
  eta := o.mass * s.eta
  sx := (o.mass * o.length) • s.sx
  sv := (o.mass * o.velocity) • s.sv
  sa := (o.mass * o.acceleration) • s.sa
  position := fun i => o.length • s.position i
  velocity := fun i => o.velocity • s.velocity i
  acceleration := fun i => o.acceleration • s.acceleration i

theorem toJacobi_units (h : Fin n) (p : Fin n → Particle ℝ) (a : Fin n → Axes ℝ) :
    toJacobi h (fun i => o.sees (p i)) (fun i => o.acceleration • a i) = o.jacobi (toJacobi h p a) := by
  have hM := o.mass_pos
  have shift : ∀ (c e : ℝ) (x s : Axes ℝ), c • x - smulRight ((o.mass * c) • s) (lit 1 / (o.mass * e))
      = c • (x - smulRight s (lit 1 / e)) := by
    intro c e x s
    ext <;> parts <;> push_cast <;> field_simp
  have grow : ∀ (c e m : ℝ) (x s : Axes ℝ),
      smulRight ((o.mass * c) • s) (o.mass * (e + m) * (lit 1 / (o.mass * e))) + (o.mass * m) • (c • x)
      = (o.mass * c) • (smulRight s ((e + m) * (lit 1 / e)) + m • x) := by
    intro c e m x s
    ext <;> parts <;> push_cast <;> field_simp
  unfold toJacobi
  dsimp only
  have key : ∀ (l : List (Fin n)) (s : Jacobi ℝ n), l.foldl (fun (s : Jacobi ℝ n) i =>
        if (o.sees (p i)).gr.effect.isOrbiting then
          { eta := s.eta + (o.sees (p i)).mass,
            sx := smulRight s.sx ((s.eta + (o.sees (p i)).mass) * (lit 1 / s.eta))
              + (o.sees (p i)).mass • ((o.sees (p i)).inertialPosition - smulRight s.sx (lit 1 / s.eta)),
            sv := smulRight s.sv ((s.eta + (o.sees (p i)).mass) * (lit 1 / s.eta))
              + (o.sees (p i)).mass • ((o.sees (p i)).inertialVelocity - smulRight s.sv (lit 1 / s.eta)),
            sa := smulRight s.sa ((s.eta + (o.sees (p i)).mass) * (lit 1 / s.eta))
              + (o.sees (p i)).mass • (o.acceleration • a i - smulRight s.sa (lit 1 / s.eta)),
            position := fun j => if j = i then (o.sees (p i)).inertialPosition - smulRight s.sx (lit 1 / s.eta) else s.position j,
            velocity := fun j => if j = i then (o.sees (p i)).inertialVelocity - smulRight s.sv (lit 1 / s.eta) else s.velocity j,
            acceleration := fun j => if j = i then o.acceleration • a i - smulRight s.sa (lit 1 / s.eta) else s.acceleration j }
        else s) (o.jacobi s)
      = o.jacobi (l.foldl (fun (s : Jacobi ℝ n) i =>
        if (p i).gr.effect.isOrbiting then
          { eta := s.eta + (p i).mass,
            sx := smulRight s.sx ((s.eta + (p i).mass) * (lit 1 / s.eta))
              + (p i).mass • ((p i).inertialPosition - smulRight s.sx (lit 1 / s.eta)),
            sv := smulRight s.sv ((s.eta + (p i).mass) * (lit 1 / s.eta))
              + (p i).mass • ((p i).inertialVelocity - smulRight s.sv (lit 1 / s.eta)),
            sa := smulRight s.sa ((s.eta + (p i).mass) * (lit 1 / s.eta))
              + (p i).mass • (a i - smulRight s.sa (lit 1 / s.eta)),
            position := fun j => if j = i then (p i).inertialPosition - smulRight s.sx (lit 1 / s.eta) else s.position j,
            velocity := fun j => if j = i then (p i).inertialVelocity - smulRight s.sv (lit 1 / s.eta) else s.velocity j,
            acceleration := fun j => if j = i then a i - smulRight s.sa (lit 1 / s.eta) else s.acceleration j }
        else s) s) := by
    intro l
    induction l with
    | nil => intro s; rfl
    | cons i l ih =>
      intro s
      rw [List.foldl_cons, List.foldl_cons, ← ih]
      congr 1
      show (if (p i).gr.effect.isOrbiting then _ else _) = _
      split <;> [skip; rfl]
      simp only [Units.sees, Units.jacobi, shift, grow, ← mul_add, Jacobi.mk.injEq, true_and]
      refine ⟨?_, ?_, ?_⟩ <;> funext j <;> split <;> rfl
  refine Eq.trans ?_ (key _ _)
  congr 1
  simp only [Units.sees, Units.jacobi, Jacobi.mk.injEq, true_and, Axes.zero_def, smul_zero, and_true]
  refine ⟨?_, ?_, ?_⟩ <;> simp only [smul_smul] <;> congr 1 <;> ring

theorem andersonLoop_units (k : Consts ℝ) (eps2 mu ri : ℝ) (v : Axes ℝ) (fuel : Nat) (vi : Axes ℝ) (vi2 a : ℝ) :
    andersonLoop (o.consts k) eps2 (o.length ^ 3 / o.time ^ 2 * mu) (o.length * ri) (o.velocity • v) fuel (o.velocity • vi)
      (o.velocity ^ 2 * vi2) a
      = (o.velocity • (andersonLoop k eps2 mu ri v fuel vi vi2 a).1, o.velocity ^ 2 * (andersonLoop k eps2 mu ri v fuel vi vi2 a).2.1,
        (andersonLoop k eps2 mu ri v fuel vi vi2 a).2.2) := by
  have hL := o.length_pos
  have hT := o.time_pos
  have hV : 0 < o.velocity := div_pos hL hT
  induction fuel generalizing vi vi2 a with
  | zero => rfl
  | succ fuel ih =>
    unfold andersonLoop
    dsimp only
    have e1 : (o.velocity • v).sdiv (lit 1 - a) = o.velocity • v.sdiv (lit 1 - a) := by
      rw [Axes.sdiv_eq_smul, Axes.sdiv_eq_smul, smul_comm]
    rw [e1, ← smul_sub, Axes.norm2_smul, Axes.norm2_smul]
    generalize v.sdiv (lit 1 - a) = w
    have e2 : (lit (1/2) * (o.velocity ^ 2 * w.norm2) + lit 3 * (o.length ^ 3 / o.time ^ 2 * mu) / (o.length * ri)) / (o.consts k).c2
        = (lit (1/2) * w.norm2 + lit 3 * mu / ri) / k.c2 := by
      simp only [Units.consts]
      dims
      field_simp
    have e3 : o.velocity ^ 2 * (w - vi).norm2 / (o.velocity ^ 2 * w.norm2) = (w - vi).norm2 / w.norm2 := by
      field_simp
    rw [e2, e3]
    split
    · rfl
    · exact ih _ _ _

theorem andersonCorrection_units (k : Consts ℝ) (eps2 mu : ℝ) (x v a : Axes ℝ) :
    andersonCorrection (o.consts k) eps2 (o.length ^ 3 / o.time ^ 2 * mu) (o.length • x) (o.velocity • v) (o.acceleration • a)
      = o.acceleration • andersonCorrection k eps2 mu x v a := by
  have hL := o.length_pos
  have hT := o.time_pos
  unfold andersonCorrection
  dsimp only
  rw [Axes.norm2_smul, Axes.norm2_smul, sqrt_real, sqrt_real, sqrt_units hL.le]
  generalize Real.sqrt x.norm2 = ri
  have e1 : (lit (1/2) * (o.velocity ^ 2 * v.norm2) + lit 3 * (o.length ^ 3 / o.time ^ 2 * mu) / (o.length * ri)) / (o.consts k).c2
        = (lit (1/2) * v.norm2 + lit 3 * mu / ri) / k.c2 := by
    simp only [Units.consts]
    dims
    field_simp
  rw [e1, andersonLoop_units]
  generalize andersonLoop k eps2 mu ri v 10 v v.norm2 ((lit (1/2) * v.norm2 + lit 3 * mu / ri) / k.c2) = r
  obtain ⟨vi, vi2, fa⟩ := r
  dsimp only
  have e2 : (o.length ^ 3 / o.time ^ 2 * mu / (o.length * ri) - lit (3/2) * (o.velocity ^ 2 * vi2)) * (o.length ^ 3 / o.time ^ 2 * mu)
      / (o.length * ri * (o.length * ri) * (o.length * ri)) / (o.consts k).c2
      = ((mu / ri - lit (3/2) * vi2) * mu / (ri * ri * ri) / k.c2) / o.time ^ 2 := by
    simp only [Units.consts]
    dims
    field_simp
  rw [e2]
  generalize (mu / ri - lit (3/2) * vi2) * mu / (ri * ri * ri) / k.c2 = fb
  have e3 : o.acceleration • a + (fb / o.time ^ 2) • o.length • x = o.acceleration • (a + fb • x) := by
    dims
    ext <;> parts <;> field_simp
  rw [e3]
  generalize a + fb • x = w
  have e4 : ((o.velocity • vi).dot (o.acceleration • w)
      - lit 3 * (o.length ^ 3 / o.time ^ 2 * mu) / (o.length * ri * (o.length * ri) * (o.length * ri)) * (o.length • x).dot (o.velocity • v))
        / (o.consts k).c2 = (vi.dot w - lit 3 * mu / (ri * ri * ri) * x.dot v) / k.c2 / o.time := by
    rw [Axes.smul_dot, Axes.dot_smul, Axes.smul_dot, Axes.dot_smul]
    simp only [Units.consts]
    dims
    field_simp
  rw [e4]
  generalize (vi.dot w - lit 3 * mu / (ri * ri * ri) * x.dot v) / k.c2 = fd
  dims
  ext <;> parts <;> field_simp

theorem fromJacobi_units (c : ℝ) (h : Fin n) (p : Fin n → Particle ℝ) (m : ℝ) (s : Axes ℝ) (a : Fin n → Axes ℝ) :
    fromJacobi h (fun i => o.sees (p i)) (o.mass * m) (c • s) (fun i => c • a i)
      = fun i => c • fromJacobi h p m s a i := by
  have hM := o.mass_pos
  unfold fromJacobi
  dsimp only
  have key : ∀ (l : List (Fin n)) (t : ℝ × Axes ℝ × (Fin n → Axes ℝ)),
      l.foldl (fun (t : ℝ × Axes ℝ × (Fin n → Axes ℝ)) i =>
        if (o.sees (p i)).gr.effect.isOrbiting then
          (t.1 - (o.sees (p i)).mass, smulRight (smulRight (t.2.1 - (o.sees (p i)).mass • (c • a i)) (lit 1 / t.1)) (t.1 - (o.sees (p i)).mass),
            fun j => if j = i then c • a i + smulRight (t.2.1 - (o.sees (p i)).mass • (c • a i)) (lit 1 / t.1) else t.2.2 j)
        else t) (o.mass * t.1, (o.mass * c) • t.2.1, fun i => c • t.2.2 i)
      = (let r := l.foldl (fun (t : ℝ × Axes ℝ × (Fin n → Axes ℝ)) i =>
        if (p i).gr.effect.isOrbiting then
          (t.1 - (p i).mass, smulRight (smulRight (t.2.1 - (p i).mass • a i) (lit 1 / t.1)) (t.1 - (p i).mass),
            fun j => if j = i then a i + smulRight (t.2.1 - (p i).mass • a i) (lit 1 / t.1) else t.2.2 j)
        else t) t
        (o.mass * r.1, (o.mass * c) • r.2.1, fun i => c • r.2.2 i)) := by
    intro l
    induction l with
    | nil => intro t; rfl
    | cons i l ih =>
      intro t
      rw [List.foldl_cons, List.foldl_cons, ← ih]
      congr 1
      show (if (p i).gr.effect.isOrbiting then _ else _) = _
      split <;> [skip; rfl]
      dsimp only
      have e : smulRight ((o.mass * c) • t.2.1 - (o.mass * (p i).mass) • (c • a i)) (lit 1 / (o.mass * t.1))
          = c • smulRight (t.2.1 - (p i).mass • a i) (lit 1 / t.1) := by
        ext <;> parts <;> push_cast <;> field_simp
      simp only [Units.sees, e, ← mul_sub, ← smul_add, Prod.mk.injEq, true_and]
      refine ⟨?_, ?_⟩
      · ext <;> parts <;> ring
      · funext j; split <;> rfl
  have k2 := key (others h).reverse (m, m • s, fun _ => Axes.zero)
  dsimp only at k2
  rw [show (fun _ : Fin n => c • (Axes.zero : Axes ℝ)) = fun _ => Axes.zero by funext; rw [Axes.zero_def, smul_zero],
    show (o.mass * c) • m • s = (o.mass * m) • c • s by rw [smul_smul, smul_smul]; congr 1; ring] at k2
  rw [k2]
  funext j
  dsimp only
  split
  · ext <;> parts <;> push_cast <;> field_simp
  · rfl

theorem anderson_units (k : Consts ℝ) (eps2 : ℝ) (ignore : Ignore) (h : Fin n) (p : Fin n → Particle ℝ) :
    anderson (o.consts k) eps2 ignore h (fun i => o.sees (p i)) = fun i => o.sees (anderson k eps2 ignore h p i) := by
  unfold anderson
  dsimp only
  rw [newtonianAccelerations_units, toJacobi_units]
  generalize toJacobi h p (newtonianAccelerations k ignore h p) = jac
  have e1 : (fun i => if (o.sees (p i)).gr.effect.isOrbiting then
      andersonCorrection (o.consts k) eps2 (o.sees (p h)).massG ((o.jacobi jac).position i) ((o.jacobi jac).velocity i)
        ((o.jacobi jac).acceleration i) else (o.jacobi jac).acceleration i)
      = fun i => o.acceleration • (if (p i).gr.effect.isOrbiting then
      andersonCorrection k eps2 (p h).massG (jac.position i) (jac.velocity i) (jac.acceleration i)
        else jac.acceleration i) := by
    funext i
    show (if (p i).gr.effect.isOrbiting then _ else _) = _
    split
    · exact andersonCorrection_units o k eps2 _ _ _ _
    · rfl
  have ef := fromJacobi_units o o.acceleration h p jac.eta Axes.zero (fun i => if (p i).gr.effect.isOrbiting then
      andersonCorrection k eps2 (p h).massG (jac.position i) (jac.velocity i) (jac.acceleration i)
        else jac.acceleration i)
  rw [Axes.zero_def, smul_zero, ← Axes.zero_def] at ef
  rw [e1, show (o.jacobi jac).eta = o.mass * jac.eta from rfl, ef]
  generalize fromJacobi h p jac.eta _ _ = a
  funext i
  unfold mapHost
  dsimp only
  split
  · rename_i hi
    subst hi
    rfl
  · show (if (p i).gr.effect.isOrbiting then _ else _) = _
    split <;> rfl

/-- Relativity that is the same in all units. -/
def GrUnits (p : Fin n → Particle ℝ) (h : Fin n) : Prop :=
  (p h).gr.effect ≠ .central .kidder1995 ∧ (p h).gr.effect ≠ .central .newhall1983

theorem GrUnits.same {p q : Fin n → Particle ℝ} {h : Fin n} (hg : GrUnits p h)
    (hs : Same settings q p) : GrUnits q h := by
  unfold GrUnits at hg ⊢
  rw [settings_gr (hs h)]
  exact hg

theorem generalRelativity_units (k : Consts ℝ) (eps2 : ℝ) (ignore : Ignore) {h : Fin n} {p : Fin n → Particle ℝ}
    (hg : GrUnits p h) : generalRelativity (o.consts k) eps2 ignore h (fun i => o.sees (p i))
      = fun i => o.sees (generalRelativity k eps2 ignore h p i) := by
  obtain ⟨g1, g3⟩ := hg
  unfold generalRelativity
  dsimp only
  rw [show (o.sees (p h)).gr.effect = (p h).gr.effect from rfl]
  rcases hx : (p h).gr.effect with x | _ | _
  · cases x
    · exact absurd hx g1
    · exact anderson_units o k eps2 ignore h p
    · exact absurd hx g3
    · rfl
  · rfl
  · rfl

/-! ### Disk -/

theorem diskCentral_units (q : Particle ℝ) :
    (o.sees q).disk.effect.central? = q.disk.effect.central?.map o.diskProperties := by
  show (o.diskEffect q.disk.effect).central? = _
  cases q.disk.effect <;> rfl

theorem diskIsOrbiting_units (q : Particle ℝ) : (o.sees q).disk.effect.isOrbiting = q.disk.effect.isOrbiting := by
  show (o.diskEffect q.disk.effect).isOrbiting = _
  cases q.disk.effect <;> rfl

theorem diskInitialize_units (h : Fin n) (p : Fin n → Particle ℝ) :
    diskInitialize h (fun i => o.sees (p i)) = fun i => o.sees (diskInitialize h p i) := by
  unfold diskInitialize
  dsimp only
  rw [diskCentral_units]
  rcases (p h).disk.effect.central? with _ | x
  · rfl
  · simp only [Option.map_some]
    rw [mapHost_seen h (T := o.sees)
      (g := fun host : Particle ℝ => { host with disk := { host.disk with acceleration := Axes.zero } })
      (by simp [Units.sees, Units.disk]), mapOthers_units]
    intro i hi
    rw [diskIsOrbiting_units]
    split <;> [skip; rfl]
    simp [Units.sees, Units.disk]

theorem diskInertialToHeliocentric_units (h : Fin n) (p : Fin n → Particle ℝ) :
    diskInertialToHeliocentric h (fun i => o.sees (p i)) = fun i => o.sees (diskInertialToHeliocentric h p i) := by
  have hL := o.length_pos
  have hT := o.time_pos
  have hV : 0 ≤ o.velocity := (div_pos hL hT).le
  unfold diskInertialToHeliocentric
  dsimp only
  rw [diskCentral_units]
  rcases (p h).disk.effect.central? with _ | x
  · rfl
  · simp only [Option.map_some]
    rw [mapHost_seen h (T := o.sees)
      (g := fun host : Particle ℝ => { host with disk := { host.disk with
          position := Axes.zero, velocity := Axes.zero, distance := lit 0,
          normVelocity := lit 0, normVelocity2 := lit 0 } })
      (by simp [Units.sees, Units.disk]), mapOthers_units]
    intro i hi
    rw [diskIsOrbiting_units]
    split <;> [skip; rfl]
    simp only [Units.sees, Units.disk, ← smul_sub, Axes.norm2_smul, sqrt_real, sqrt_units hL.le, sqrt_units hV]

theorem diskCopyHeliocentric_units (h : Fin n) (p : Fin n → Particle ℝ) :
    diskCopyHeliocentric h (fun i => o.sees (p i)) = fun i => o.sees (diskCopyHeliocentric h p i) := by
  unfold diskCopyHeliocentric
  dsimp only
  rw [diskCentral_units]
  rcases (p h).disk.effect.central? with _ | x
  · rfl
  · simp only [Option.map_some]
    rw [mapHost_seen h (T := o.sees)
      (g := fun q : Particle ℝ => { q with disk := { q.disk with
    position := q.heliocentricPosition, velocity := q.heliocentricVelocity,
    distance := q.heliocentricDistance, normVelocity := q.heliocentricNormVelocity,
    normVelocity2 := q.heliocentricNormVelocity2 } })
      rfl, mapOthers_units]
    intro i hi
    rw [diskIsOrbiting_units]
    split <;> rfl

theorem surfaceDensity_units (d : DiskProperties ℝ) (time r : ℝ) :
    surfaceDensity (o.diskProperties d) (o.time * time) (o.length * r) = o.mass / o.length ^ 2 * surfaceDensity d time r := by
  have hL := o.length_pos
  have hT := o.time_pos
  unfold surfaceDensity
  have e1 : ltb (o.diskProperties d).innerEdgeDistance (o.length * r) = ltb d.innerEdgeDistance r := by
    rw [Bool.eq_iff_iff, ltb_real, ltb_real]
    exact mul_lt_mul_iff_right₀ hL
  have e2 : lit (-1) * (o.length * r) / (o.diskProperties d).outerEdgeDistance = lit (-1) * r / d.outerEdgeDistance := by
    simp only [Units.diskProperties]
    field_simp
  have e3 : (o.diskProperties d).innerEdgeDistance / (o.length * r) = d.innerEdgeDistance / r := by
    simp only [Units.diskProperties]
    field_simp
  have e4 : (-(o.time * time)) / (o.diskProperties d).lifetime = (-time) / d.lifetime := by
    simp only [Units.diskProperties]
    field_simp
  dsimp only
  rw [e1, e2, e3, e4]
  split
  · simp only [Units.diskProperties, lit_real]
    push_cast
    field_simp
  · simp

theorem diskViscosity_units (k : Consts ℝ) (d : DiskProperties ℝ) (m mg r : ℝ) :
    diskViscosity (o.consts k) (o.diskProperties d) (o.mass * m) (o.length ^ 3 / o.time ^ 2 * mg) (o.length * r)
      = o.length ^ 2 / o.time * diskViscosity k d m mg r := by
  have hL := o.length_pos
  have hT := o.time_pos
  have hM := o.mass_pos
  unfold diskViscosity keplerianFrequency diskTemperature
  have e1 : FOps.sqrt (o.length ^ 3 / o.time ^ 2 * mg / ipow (o.length * r) 3) = FOps.sqrt (mg / ipow r 3) / o.time := by
    rw [sqrt_real, sqrt_real, show o.length ^ 3 / o.time ^ 2 * mg / ipow (o.length * r) 3 = mg / ipow r 3 / o.time ^ 2 by
      simp only [ipow]; field_simp]
    exact (frequency_units o _ 0).2
  have e2 : Real.sqrt o.length * o.length ^ (((-1 / 2 : ℚ)) : ℝ) = 1 := by
    rw [Real.sqrt_eq_rpow, ← Real.rpow_add hL]
    norm_num
  dsimp only
  rw [e1, powf_real, powf_real, rpow_units hL]
  generalize FOps.sqrt (mg / ipow r 3) = f
  simp only [lit_real] at e2 ⊢
  generalize r ^ (((-1 / 2 : ℚ)) : ℝ) = x
  generalize o.length ^ (((-1 / 2 : ℚ)) : ℝ) = y at e2 ⊢
  have hy : y = (Real.sqrt o.length)⁻¹ := by
    have : Real.sqrt o.length ≠ 0 := (Real.sqrt_pos.2 hL).ne'
    field_simp
    linarith
  have : 0 < Real.sqrt o.length := Real.sqrt_pos.2 hL
  rw [hy]
  simp only [Units.consts, Units.diskProperties]
  dims
  field_simp

theorem companionTimescale_units (k : Consts ℝ) (time : ℝ) (d : DiskProperties ℝ) (host q : Particle ℝ) :
    companionTimescale (o.consts k) (o.time * time) (o.diskProperties d) (o.sees host) (o.sees q)
      = o.time * companionTimescale k time d host q := by
  have hL := o.length_pos
  have hT := o.time_pos
  have hM := o.mass_pos
  have e1 : diskSma (o.sees host) (o.sees q) = o.length * diskSma host q := by
    unfold diskSma
    simp only [Units.sees, Units.disk]
    rw [← mul_add]
    dims
    have : lit 2 * (o.length ^ 3 / o.time ^ 2 * (q.massG + host.massG)) - o.length * q.disk.distance * ((o.length / o.time) ^ 2 * q.disk.normVelocity2)
        = o.length ^ 3 / o.time ^ 2 * (lit 2 * (q.massG + host.massG) - q.disk.distance * q.disk.normVelocity2) := by
      field_simp
    rw [this]
    field_simp
  unfold companionTimescale
  rw [e1]
  generalize diskSma host q = a
  unfold migrationTimescale gasRadialVelocity
  simp only [Units.sees, Units.disk]
  rw [diskViscosity_units, surfaceDensity_units]
  have e2 : lit 2 * (o.mass / o.length ^ 2 * surfaceDensity d time q.disk.distance) * ipow (o.length * a) 2 / (o.mass * q.mass)
      = lit 2 * surfaceDensity d time q.disk.distance * ipow a 2 / q.mass := by
    simp only [ipow]
    field_simp
  rw [e2]
  generalize fmin (lit 1) (lit 2 * surfaceDensity d time q.disk.distance * ipow a 2 / q.mass) = x
  generalize diskViscosity k d host.mass host.massG q.disk.distance = y
  field_simp

theorem diskForce_units (q : Particle ℝ) (tau : ℝ) :
    diskForce (o.sees q) (o.time * tau) = o.force • diskForce q tau := by
  have hL := o.length_pos
  have hT := o.time_pos
  have hM := o.mass_pos
  unfold diskForce
  simp only [Units.sees, Units.disk]
  dims
  ext <;> parts <;> push_cast <;> field_simp <;> ring

theorem diskAcceleration_units (k : Consts ℝ) (time : ℝ) (h : Fin n) (p : Fin n → Particle ℝ) :
    diskAcceleration (o.consts k) (o.time * time) h (fun i => o.sees (p i))
      = fun i => o.sees (diskAcceleration k time h p i) := by
  have e1 : ∀ d host q, diskStep (o.consts k) (o.time * time) (o.diskProperties d) (o.sees host) (o.sees q)
      = o.sees (diskStep k time d host q) := by
    intro d host q
    unfold diskStep
    rw [diskIsOrbiting_units, companionTimescale_units]
    split
    · dsimp only
      rw [diskForce_units, show (o.sees q).mass = o.mass * q.mass from rfl, newton_units]
      rfl
    · rfl
  have e2 : ∀ d host q, diskForceTerm (o.consts k) (o.time * time) (o.diskProperties d) (o.sees host) (o.sees q)
      = o.force • diskForceTerm k time d host q := by
    intro d host q
    unfold diskForceTerm
    rw [companionTimescale_units, diskForce_units, diskIsOrbiting_units]
    split
    · rfl
    · rw [Axes.zero_def, smul_zero]
  unfold diskAcceleration
  dsimp only
  rw [diskCentral_units]
  rcases (p h).disk.effect.central? with _ | d
  · rfl
  · simp only [Option.map_some]
    rw [mapOthers_units h (T := o.sees) (g := diskStep k time d) (p := p) fun i _ => e1 d _ _]
    rw [sumOthers_units o.force h (T := o.sees) (g := diskForceTerm k time d (p h)) fun i _ => e2 d _ _]
    by_cases ho : (others h).isEmpty = true
    · rw [if_pos ho, if_pos ho]
    · rw [if_neg ho, if_neg ho]
      refine mapHost_seen h ?_
      simp only [Units.sees, Units.disk, recoil_units]

end
end Posidonius.Univ
