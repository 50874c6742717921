import Verif.Lemmas.Totals

/-! An evaluation keeps the configuration of the particles. -/

namespace Posidonius.Univ
open Gravity (Ignore)
open Evolution (Evolver)

section
variable {F : Type} [Add F] [Sub F] [Mul F] [Div F] [Neg F] [FOps F] {n : Nat}

set_option linter.unusedSectionVars false

/-- The configuration of a particle: identifier, mass, effects with their parameters, evolution type. -/
def settings (p : Particle F) : Particle F :=
  { blank F with
    id := p.id, mass := p.mass, massG := p.massG, evolution := p.evolution,
    tides := { (blank F).tides with
      effect := p.tides.effect, scaledDissipationFactor := p.tides.scaledDissipationFactor },
    flattening := { (blank F).flattening with effect := p.flattening.effect },
    gr := { (blank F).gr with effect := p.gr.effect },
    wind := { p.wind with dAngularMomentumDt := Axes.zero },
    disk := { (blank F).disk with effect := p.disk.effect } }

/-! ### Tides -/

theorem orthogonalComponent_settings (t : Table F) (h : Fin n) (p : Fin n → Particle F) : Same settings (orthogonalComponent t h p) p := by
  unfold orthogonalComponent
  refine mapOthers_frame _ (fun a b => ?_) (mapOthers_frame _ (fun a b => ?_) (Same.refl _))
  · unfold orthogonalPlanetaryStep; split <;> rfl
  · unfold orthogonalStellarStep; split <;> rfl

theorem radialComponent_settings (k : Consts F) (t : Table F) (h : Fin n) (p : Fin n → Particle F) : Same settings (radialComponent k t h p) p := by
  unfold radialComponent
  refine mapOthers_frame _ (fun a b => ?_) (Same.refl _)
  unfold radialStep; split <;> rfl

theorem tidesShapes_settings (m : Models F) (h : Fin n) (p : Fin n → Particle F) : Same settings (tidesShapes m h p) p := by
  unfold tidesShapes
  refine mapOthers_frame _ (fun a b => ?_) (Same.refl _)
  dsimp only; split <;> rfl

theorem calculateDenergyDt_settings (h : Fin n) (p : Fin n → Particle F) : Same settings (calculateDenergyDt h p) p := by
  unfold calculateDenergyDt
  refine mapOthers_frame _ (fun a b => ?_) (Same.refl _)
  dsimp only; split <;> rfl

theorem tidesInitialize_settings (h : Fin n) (p : Fin n → Particle F) : Same settings (tidesInitialize h p) p := by
  unfold tidesInitialize
  split
  all_goals first
  | exact Same.refl _
  | refine mapOthers_frame _ (fun a b => ?_) (mapHost_frame _ (fun a => rfl) (Same.refl _))
    split <;> rfl

theorem tidesCopyHeliocentric_settings (h : Fin n) (p : Fin n → Particle F) : Same settings (tidesCopyHeliocentric h p) p := by
  unfold tidesCopyHeliocentric
  dsimp only
  split
  all_goals first
  | exact Same.refl _
  | refine mapOthers_frame _ (fun a b => ?_) (mapHost_frame _ (fun a => rfl) (Same.refl _))
    split <;> rfl

theorem tidesInertialToHeliocentric_settings (h : Fin n) (p : Fin n → Particle F) : Same settings (tidesInertialToHeliocentric h p) p := by
  unfold tidesInertialToHeliocentric
  split
  all_goals first
  | exact Same.refl _
  | refine mapOthers_frame _ (fun a b => ?_) (mapHost_frame _ (fun a => rfl) (Same.refl _))
    split <;> rfl

theorem tidalDL_settings (m : OtherModels F) (h : Fin n) (p : Fin n → Particle F) : Same settings (tidalDL m h p) p := by
  unfold tidalDL
  refine mapHost_frame _ (fun a => rfl) (mapOthers_frame _ (fun a b => ?_) (Same.refl _))
  unfold companionTidalDL; split <;> rfl

theorem tidalAcceleration_settings (m : OtherModels F) (h : Fin n) (p : Fin n → Particle F) :
    Same settings (tidalAcceleration m h p) p := by
  have e : ∀ (f : Particle F → Particle F) (hf : ∀ a, settings (f a) = settings a),
      Same settings (mapHost h f (mapOthers h (companionTidalAcceleration m) p)) p := by
    intro f hf
    refine mapHost_frame _ hf (mapOthers_frame _ (fun a b => ?_) (Same.refl _))
    unfold companionTidalAcceleration; split <;> rfl
  unfold tidalAcceleration
  dsimp only
  split
  · refine foldl_frame _ _ ?_ (e _ (fun a => rfl))
    intro q j i
    dsimp only
    split
    · rename_i h1; subst h1; rfl
    · split
      · rename_i h1; subst h1; rfl
      · rfl
  · exact e _ (fun a => rfl)

/-! ### Flattening -/

theorem flatteningOrthogonal_settings (h : Fin n) (p : Fin n → Particle F) : Same settings (flatteningOrthogonal h p) p := by
  unfold flatteningOrthogonal
  refine mapOthers_frame _ (fun a b => ?_) (mapOthers_frame _ (fun a b => ?_) (Same.refl _))
  · unfold oblatePlanetStep; split <;> rfl
  · unfold oblateStarStep; split <;> rfl

theorem flatteningRadial_settings (h : Fin n) (p : Fin n → Particle F) : Same settings (flatteningRadial h p) p := by
  unfold flatteningRadial
  refine mapOthers_frame _ (fun a b => ?_) (Same.refl _)
  unfold flatteningRadialStep; split <;> rfl

theorem flatteningShapes_settings (m : Models F) (h : Fin n) (p : Fin n → Particle F) : Same settings (flatteningShapes m h p) p := by
  unfold flatteningShapes
  refine mapOthers_frame _ (fun a b => ?_) (Same.refl _)
  dsimp only; split <;> rfl

theorem flatteningInitialize_settings (h : Fin n) (p : Fin n → Particle F) : Same settings (flatteningInitialize h p) p := by
  unfold flatteningInitialize
  split
  all_goals first
  | exact Same.refl _
  | refine mapOthers_frame _ (fun a b => ?_) (mapHost_frame _ (fun a => rfl) (Same.refl _))
    split <;> rfl

theorem flatteningCopyHeliocentric_settings (h : Fin n) (p : Fin n → Particle F) : Same settings (flatteningCopyHeliocentric h p) p := by
  unfold flatteningCopyHeliocentric
  dsimp only
  split
  all_goals first
  | exact Same.refl _
  | refine mapOthers_frame _ (fun a b => ?_) (mapHost_frame _ (fun a => rfl) (Same.refl _))
    split <;> rfl

theorem flatteningInertialToHeliocentric_settings (h : Fin n) (p : Fin n → Particle F) : Same settings (flatteningInertialToHeliocentric h p) p := by
  unfold flatteningInertialToHeliocentric
  split
  all_goals first
  | exact Same.refl _
  | refine mapOthers_frame _ (fun a b => ?_) (mapHost_frame _ (fun a => rfl) (Same.refl _))
    split <;> rfl

theorem flatteningDL_settings (m : FlatteningModels F) (h : Fin n) (p : Fin n → Particle F) : Same settings (flatteningDL m h p) p := by
  unfold flatteningDL
  refine mapHost_frame _ (fun a => rfl) (mapOthers_frame _ (fun a b => ?_) (Same.refl _))
  unfold companionFlatteningDL; split <;> rfl

theorem flatteningAcceleration_settings (m : FlatteningModels F) (h : Fin n) (p : Fin n → Particle F) : Same settings (flatteningAcceleration m h p) p := by
  unfold flatteningAcceleration
  refine mapHost_frame _ (fun a => rfl) (mapOthers_frame _ (fun a b => ?_) (Same.refl _))
  unfold companionFlatteningAcceleration; split <;> rfl

/-! ### General relativity -/

theorem grInitialize_settings (h : Fin n) (p : Fin n → Particle F) : Same settings (grInitialize h p) p := by
  unfold grInitialize
  split
  all_goals first
  | exact Same.refl _
  | refine mapOthers_frame _ (fun a b => ?_) (mapHost_frame _ (fun a => rfl) (Same.refl _))
    split <;> rfl

theorem grCopyHeliocentric_settings (h : Fin n) (p : Fin n → Particle F) : Same settings (grCopyHeliocentric h p) p := by
  unfold grCopyHeliocentric
  dsimp only
  split
  all_goals first
  | exact Same.refl _
  | refine mapOthers_frame _ (fun a b => ?_) (mapHost_frame _ (fun a => rfl) (Same.refl _))
    split <;> rfl

theorem grInertialToHeliocentric_settings (h : Fin n) (p : Fin n → Particle F) : Same settings (grInertialToHeliocentric h p) p := by
  unfold grInertialToHeliocentric
  split
  all_goals first
  | exact Same.refl _
  | refine mapOthers_frame _ (fun a b => ?_) (mapHost_frame _ (fun a => rfl) (Same.refl _))
    split <;> rfl

theorem kidderFirst_settings (k : Consts F) (h : Fin n) (p : Fin n → Particle F) : Same settings (kidderFirst k h p) p := by
  unfold kidderFirst
  refine mapHost_frame _ (fun a => rfl) (mapOthers_frame _ (fun a b => ?_) (Same.refl _))
  split <;> rfl

theorem kidderSecond_settings (k : Consts F) (h : Fin n) (p : Fin n → Particle F) : Same settings (kidderSecond k h p) p := by
  unfold kidderSecond
  refine mapHost_frame _ (fun a => rfl) (mapOthers_frame _ (fun a b => ?_) (Same.refl _))
  split <;> rfl

theorem kidderThird_settings (k : Consts F) (h : Fin n) (p : Fin n → Particle F) : Same settings (kidderThird k h p) p := by
  unfold kidderThird
  refine mapHost_frame _ (fun a => rfl) (mapOthers_frame _ (fun a b => ?_) (Same.refl _))
  split <;> rfl

theorem kidder_settings (k : Consts F) (h : Fin n) (p : Fin n → Particle F) : Same settings (kidder k h p) p :=
  (kidderThird_settings k h _).trans ((kidderSecond_settings k h _).trans (kidderFirst_settings k h p))

theorem anderson_settings (k : Consts F) (eps2 : F) (ignore : Ignore) (h : Fin n) (p : Fin n → Particle F) :
    Same settings (anderson k eps2 ignore h p) p := by
  unfold anderson
  refine mapHost_frame _ (fun a => rfl) (fun i => ?_)
  dsimp only
  split
  · rfl
  · split <;> rfl

theorem newhall_settings (k : Consts F) (ignore : Ignore) (h : Fin n) (p : Fin n → Particle F) :
    Same settings (newhall k ignore h p) p := by
  unfold newhall
  refine mapHost_frame _ (fun a => rfl) (fun i => ?_)
  dsimp only
  split
  · rfl
  · split <;> rfl

theorem generalRelativity_settings (k : Consts F) (eps2 : F) (ignore : Ignore) (h : Fin n)
    (p : Fin n → Particle F) : Same settings (generalRelativity k eps2 ignore h p) p := by
  unfold generalRelativity
  split
  · exact kidder_settings k h p
  · exact anderson_settings k eps2 ignore h p
  · exact newhall_settings k ignore h p
  · exact Same.refl _

/-! ### Wind and disk -/

theorem windInitialize_settings (p : Fin n → Particle F) : Same settings (fun i => windInitialize (p i)) p := by
  intro i; dsimp only; unfold windInitialize; split <;> rfl

theorem windFactor_settings (k : Consts F) (p : Fin n → Particle F) :
    Same settings (fun i => windFactor k (p i)) p := by
  intro i; dsimp only; unfold windFactor; split <;> rfl

theorem diskInitialize_settings (h : Fin n) (p : Fin n → Particle F) : Same settings (diskInitialize h p) p := by
  unfold diskInitialize
  split
  all_goals first
  | exact Same.refl _
  | refine mapOthers_frame _ (fun a b => ?_) (mapHost_frame _ (fun a => rfl) (Same.refl _))
    split <;> rfl

theorem diskCopyHeliocentric_settings (h : Fin n) (p : Fin n → Particle F) : Same settings (diskCopyHeliocentric h p) p := by
  unfold diskCopyHeliocentric
  dsimp only
  split
  all_goals first
  | exact Same.refl _
  | refine mapOthers_frame _ (fun a b => ?_) (mapHost_frame _ (fun a => rfl) (Same.refl _))
    split <;> rfl

theorem diskInertialToHeliocentric_settings (h : Fin n) (p : Fin n → Particle F) : Same settings (diskInertialToHeliocentric h p) p := by
  unfold diskInertialToHeliocentric
  split
  all_goals first
  | exact Same.refl _
  | refine mapOthers_frame _ (fun a b => ?_) (mapHost_frame _ (fun a => rfl) (Same.refl _))
    split <;> rfl

theorem diskAcceleration_settings [FPow F] [FTrig F] (k : Consts F) (time : F) (h : Fin n)
    (p : Fin n → Particle F) : Same settings (diskAcceleration k time h p) p := by
  have e : ∀ d, Same settings (mapOthers h (diskStep k time d) p) p := by
    intro d
    refine mapOthers_frame _ (fun a b => ?_) (Same.refl _)
    unfold diskStep; split <;> rfl
  unfold diskAcceleration
  split
  · exact Same.refl _
  · dsimp only
    split
    · exact e _
    · exact mapHost_frame _ (fun a => rfl) (e _)


theorem initializeAll_settings {dL acc : Bool} {u u1 : Universe F n} (hu : initializeAll dL acc u = some u1) :
    Same settings u1.particles u.particles := by
  unfold initializeAll at hu
  dsimp only at hu
  split at hu
  · simp at hu
  rename_i pt ht
  split at hu
  · simp at hu
  rename_i pf hf
  split at hu
  · simp at hu
  rename_i pg hg
  split at hu
  · simp at hu
  rename_i pd hd
  injection hu with hu
  subst hu
  have hw : Same settings (if dL && u.consider.wind then fun i => windInitialize (u.particles i) else u.particles)
      u.particles := Same.ite (windInitialize_settings _) (Same.refl _)
  have h1 := initializeEffect_frame tidesCopyHeliocentric_settings tidesInertialToHeliocentric_settings
    tidesInitialize_settings ht
  have h2 := initializeEffect_frame flatteningCopyHeliocentric_settings flatteningInertialToHeliocentric_settings
    flatteningInitialize_settings hf
  have h3 := initializeEffect_frame grCopyHeliocentric_settings grInertialToHeliocentric_settings
    grInitialize_settings hg
  have h4 := initializeEffect_frame diskCopyHeliocentric_settings diskInertialToHeliocentric_settings
    diskInitialize_settings hd
  have h5 : Same settings (if acc then fun i => { pd i with inertialAdditionalAcceleration := Axes.zero } else pd)
      pd := Same.ite (fun _ => rfl) (Same.refl _)
  exact h5.trans (h4.trans (h3.trans (h2.trans (h1.trans hw))))

variable [FPow F]

theorem tidesAndFlattening_settings (k : Consts F) (m : Models F) (dL acc : Bool) (c : Consider) (h : Fin n)
    (p : Fin n → Particle F) (t : Table F) : Same settings (tidesAndFlattening k m dL acc c h p t).1 p := by
  unfold tidesAndFlattening
  split
  · dsimp only
    generalize pairFactors k h p t = t1
    refine Same.trans (Same.ite (flatteningDL_settings _ h _) (Same.refl _)) ?_
    refine Same.trans (Same.ite (tidalDL_settings _ h _) (Same.refl _)) ?_
    refine Same.trans (Same.ite ((flatteningAcceleration_settings _ h _).trans (flatteningRadial_settings h _))
      (Same.refl _)) ?_
    refine Same.trans (Same.ite ((tidalAcceleration_settings _ h _).trans (radialComponent_settings k t1 h _))
      (Same.refl _)) ?_
    refine Same.trans (Same.ite ((flatteningShapes_settings m h _).trans (flatteningOrthogonal_settings h _))
      (Same.refl _)) ?_
    exact Same.ite ((tidesShapes_settings m h _).trans (orthogonalComponent_settings t1 h p)) (Same.refl _)
  · exact Same.refl _

variable [FTrig F]

theorem effects_settings {k : Consts F} {m : Models F} {eps2 time : F} {dL acc : Bool}
    {ignore : Ignore} {u u1 : Universe F n} (h : effects k m eps2 time dL acc ignore u = some u1) :
    Same settings u1.particles u.particles := by
  unfold effects at h
  dsimp only at h
  split at h
  · simp at h
  rename_i pt t1 ht
  split at h
  · simp at h
  rename_i pg hg
  split at h
  · simp at h
  rename_i pd hd
  injection h with h
  subst h
  have hw : Same settings (if dL && u.consider.wind then fun i => windFactor k (u.particles i) else u.particles)
      u.particles := Same.ite (windFactor_settings _ _) (Same.refl _)
  have h1 : Same settings pt (if dL && u.consider.wind then fun i => windFactor k (u.particles i)
      else u.particles) := by
    split at ht
    · unfold withHost at ht
      split at ht
      · simp at ht
      · rename_i hst hh
        injection ht with ht
        dsimp only at ht
        have a := tidesAndFlattening_settings k m dL acc u.consider hst
          (if dL && u.consider.wind then fun i => windFactor k (u.particles i) else u.particles) u.table
        rw [ht] at a
        exact a
    · simp only [Option.some.injEq, Prod.mk.injEq] at ht
      rw [← ht.1]
      exact Same.refl _
  have h2 : Same settings pg pt := by
    split at hg
    · unfold withHost at hg
      split at hg
      · simp at hg
      · injection hg with hg
        subst hg
        exact generalRelativity_settings k eps2 ignore _ pt
    · injection hg with hg
      subst hg
      exact Same.refl _
  have h3 : Same settings pd pg := by
    split at hd
    · unfold withHost at hd
      split at hd
      · simp at hd
      · injection hd with hd
        subst hd
        exact diskAcceleration_settings k time _ _
    · injection hd with hd
      subst hd
      exact Same.refl _
  refine Same.trans ?_ (h3.trans (h2.trans (h1.trans hw)))
  intro i
  dsimp only
  split <;> split <;> rfl

theorem evaluation_settings {k : Consts F} {m : Models F} {eps2 time : F} {evolution dL acc : Bool}
    {ignore : Ignore} {u u' : Universe F n}
    (h : calculateAdditionalEffects k m eps2 time evolution dL acc ignore u = some u') :
    Same settings u'.particles u.particles := by
  unfold calculateAdditionalEffects at h
  split at h
  · simp at h
  rename_i u1 h1
  split at h
  · simp at h
  rename_i u2 h2
  obtain ⟨b1, -⟩ := calculateSpinAndEvolving_step h2
  refine (effects_settings h).trans (Same.trans (fun i => ?_) (initializeAll_settings h1))
  have := congrArg settings (spinAndEvolving_noSpin (b1 i))
  exact this

theorem inertialToHeliocentric_settings (u : Universe F n) :
    Same settings (inertialToHeliocentric u).particles u.particles := by
  unfold inertialToHeliocentric
  exact mapHost_frame _ (fun _ => rfl) (mapOthers_frame _ (fun _ _ => rfl) (Same.refl _))

end
end Posidonius.Univ
