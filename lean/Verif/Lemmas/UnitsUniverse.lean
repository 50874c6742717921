import Verif.Lemmas.UnitsEffects

/-! An evaluation of the effects and a step of LeapFrog in other units. -/

namespace Posidonius.Univ
open Gravity (Ignore Body)
open Evolution (Evolver)

section
variable {n : Nat} (o : Units)

/-! ### Spin and evolution -/

theorem findIndices_units {c : ℝ} (hc : 0 < c) (data : List ℝ) (t : ℝ) :
    Interp.findIndices (data.map (c * ·)) (c * t) = Interp.findIndices data t := by
  have e : ∀ r, ltb (c * t) (c * r) = ltb t r := by
    intro r
    rw [Bool.eq_iff_iff, ltb_real, ltb_real]
    exact mul_lt_mul_iff_right₀ hc
  unfold Interp.findIndices
  simp only [List.length_map, List.getElem?_map, List.findIdx?_map, Function.comp_def, e]
  cases data.findIdx? (fun r => ltb t r) with
  | none => cases data[data.length - 1]? <;> simp [e]
  | some i => rfl

theorem linearInterpolation_units {c : ℝ} (hc : 0 < c) (s t : ℝ) (x y : List ℝ) :
    Interp.linearInterpolation (c * t) (x.map (c * ·)) (y.map (s * ·))
      = (Interp.linearInterpolation t x y).map fun r => (s * r.1, r.2) := by
  unfold Interp.linearInterpolation
  rw [findIndices_units hc]
  cases Interp.findIndices x t with
  | none => rfl
  | some r =>
    obtain ⟨l, r⟩ := r
    dsimp only
    split
    · rw [List.getElem?_map]
      cases y[l]? <;> rfl
    · simp only [List.getElem?_map]
      cases x[l]? <;> cases x[r]? <;> cases y[l]? <;> cases y[r]? <;> try rfl
      simp only [Option.map_some, Option.some.injEq, Prod.mk.injEq, and_true, ← mul_sub]
      rw [mul_div_mul_left _ _ hc.ne']
      ring

theorem lookup_units (e : Evolver ℝ) (s t : ℝ) (column : List ℝ) :
    (o.evolver e).lookup (o.time * t) (column.map (s * ·))
      = (e.lookup t column).map fun r => (s * r.1, o.evolver r.2) := by
  unfold Evolver.lookup
  have : (o.evolver e).idx = e.idx := rfl
  rw [this, show (o.evolver e).time = e.time.map (o.time * ·) from rfl, ← List.map_drop, ← List.map_drop,
    linearInterpolation_units o.time_pos]
  cases Interp.linearInterpolation t (e.time.drop e.idx) (column.drop e.idx) with
  | none => rfl
  | some r => rfl

theorem lookup_units_one (e : Evolver ℝ) (t : ℝ) (column : List ℝ) :
    (o.evolver e).lookup (o.time * t) column = (e.lookup t column).map fun r => (r.1, o.evolver r.2) := by
  have := lookup_units o e 1 t column
  simpa only [one_mul, List.map_id'] using this

/-- The evolving quantities of a body. -/
noncomputable def Units.part (p : Evolution.Part ℝ) : Evolution.Part ℝ :=
  { p with mass := o.mass * p.mass, radius := o.length * p.radius,
           momentOfInertia := o.mass * o.length ^ 2 * p.momentOfInertia,
           normSpinVector2 := p.normSpinVector2 / o.time ^ 2 }

theorem nonSpinDependent_units (t : ℝ) (p : Evolution.Part ℝ) (e : Evolver ℝ) :
    Evolution.nonSpinDependent (o.time * t) (o.part p) (o.evolver e)
      = (Evolution.nonSpinDependent t p e).map fun r => (o.part r.1, o.evolver r.2) := by
  have hL := o.length_pos
  have q1 : (o.evolver e).queryRadius (o.time * t) (o.part p).radius
      = (e.queryRadius t p.radius).map fun r => (o.length * r.1, o.evolver r.2) := by
    unfold Evolver.queryRadius
    rw [show (o.evolver e).evolution = e.evolution from rfl,
      show (o.evolver e).radius = e.radius.map (o.length * ·) from rfl, lookup_units]
    cases e.evolution <;> rfl
  have q2 : ∀ (e : Evolver ℝ) x, (o.evolver e).queryRadiusOfGyration2 (o.time * t) x
      = (e.queryRadiusOfGyration2 t x).map fun r => (r.1, o.evolver r.2) := by
    intro e x
    unfold Evolver.queryRadiusOfGyration2
    rw [show (o.evolver e).evolution = e.evolution from rfl,
      show (o.evolver e).radiusOfGyration2 = e.radiusOfGyration2 from rfl, lookup_units_one]
    cases e.evolution <;> rfl
  have q3 : ∀ (e : Evolver ℝ) x, (o.evolver e).queryLoveNumber (o.time * t) x
      = (e.queryLoveNumber t x).map fun r => (r.1, o.evolver r.2) := by
    intro e x
    unfold Evolver.queryLoveNumber
    rw [show (o.evolver e).evolution = e.evolution from rfl,
      show (o.evolver e).loveNumber = e.loveNumber from rfl, lookup_units_one]
    cases e.evolution <;> rfl
  unfold Evolution.nonSpinDependent
  rw [q1]
  cases e.queryRadius t p.radius with
  | none => rfl
  | some r =>
    obtain ⟨r, e1⟩ := r
    simp only [Option.map_some]
    rw [q2, show (o.part p).radiusOfGyration2 = p.radiusOfGyration2 from rfl]
    cases e1.queryRadiusOfGyration2 t p.radiusOfGyration2 with
    | none => rfl
    | some g =>
      obtain ⟨g, e2⟩ := g
      simp only [Option.map_some]
      have x1 : eqb (o.length * r) (o.part p).radius = eqb r p.radius := by
        rw [Bool.eq_iff_iff, eqb_real, eqb_real]
        exact mul_right_inj' hL.ne'
      have x2 : (if !(eqb r p.radius) || !(eqb g p.radiusOfGyration2) then
          { o.part p with radius := o.length * r, radiusOfGyration2 := g,
                          momentOfInertia := (o.part p).mass * g * (o.length * r * (o.length * r)) }
          else o.part p)
          = o.part (if !(eqb r p.radius) || !(eqb g p.radiusOfGyration2) then
          { p with radius := r, radiusOfGyration2 := g, momentOfInertia := p.mass * g * (r * r) }
          else p) := by
        split
        · simp only [Units.part, Evolution.Part.mk.injEq, true_and, and_true]
          ring
        · rfl
      rw [x1, x2]
      generalize (if !(eqb r p.radius) || !(eqb g p.radiusOfGyration2) then
          { p with radius := r, radiusOfGyration2 := g, momentOfInertia := p.mass * g * (r * r) }
          else p) = p1
      rw [show (o.part p1).tides = p1.tides from rfl]
      cases p1.tides with
      | other => rfl
      | constantTimeLag love =>
        dsimp only
        rw [q3]
        cases e2.queryLoveNumber t love <;> rfl

theorem spinDependent_units (k : Consts ℝ) (t : ℝ) (p : Evolution.Part ℝ) (e : Evolver ℝ) :
    Evolution.spinDependent (o.consts k).sunDynFreq2 (o.time * t) (o.part p) (o.evolver e)
      = (Evolution.spinDependent k.sunDynFreq2 t p e).map fun r => (o.part r.1, o.evolver r.2) := by
  have hT := o.time_pos
  have q : (o.evolver e).queryInverseTidalQFactor (o.time * t) (lit 0)
      = (e.queryInverseTidalQFactor t (lit 0)).map fun r => (r.1, o.evolver r.2) := by
    unfold Evolver.queryInverseTidalQFactor
    rw [show (o.evolver e).evolution = e.evolution from rfl,
      show (o.evolver e).inverseTidalQFactor = e.inverseTidalQFactor from rfl, lookup_units_one]
    cases e.evolution with
    | leconteChabrier2013 b => cases b <;> rfl
    | _ => rfl
  have hr : (o.part p).normSpinVector2 / (o.consts k).sunDynFreq2 = p.normSpinVector2 / k.sunDynFreq2 :=
    div_div_div_cancel_right₀ (pow_pos hT 2).ne' _ _
  unfold Evolution.spinDependent
  rw [show (o.evolver e).evolution = e.evolution from rfl]
  cases e.evolution with
  | leconteChabrier2013 b =>
    cases b
    · rfl
    · dsimp only
      rw [q, hr]
      cases e.queryInverseTidalQFactor t (lit 0) <;> rfl
  | bolmontMathis2016 =>
    dsimp only
    rw [q, hr]
    cases e.queryInverseTidalQFactor t (lit 0) <;> rfl
  | galletBolmont2017 =>
    dsimp only
    rw [q, hr]
    cases e.queryInverseTidalQFactor t (lit 0) <;> rfl
  | _ => rfl

theorem calculateSpin_units (p : Particle ℝ) : calculateSpin (o.sees p) = (calculateSpin p).map o.sees := by
  have hL := o.length_pos
  have hT := o.time_pos
  have hM := o.mass_pos
  have e : eqb (o.sees p).momentOfInertia (lit 0) = eqb p.momentOfInertia (lit 0) := by
    rw [Bool.eq_iff_iff, eqb_real, eqb_real, lit_real]
    simp [Units.sees, hM.ne', hL.ne']
  unfold calculateSpin
  rw [e]
  split
  · rfl
  · rw [Option.map_some]
    have es : (o.sees p).angularMomentum.sdiv (o.sees p).momentOfInertia
        = (1 / o.time) • p.angularMomentum.sdiv p.momentOfInertia := by
      simp only [Units.sees]
      dims
      ext <;> parts <;> field_simp
    dsimp only
    rw [es, Axes.norm2_smul]
    simp only [Units.sees, Option.some.injEq, Particle.mk.injEq, true_and, and_true]
    field_simp

theorem evolutionPart_units (q : Particle ℝ) : evolutionPart (o.sees q) = o.part (evolutionPart q) := by
  unfold evolutionPart Units.part
  rw [Evolution.Part.mk.injEq]
  refine ⟨rfl, rfl, rfl, rfl, rfl, rfl, ?_⟩
  dsimp only
  rw [show (o.sees q).tides.effect = o.tidesEffect q.tides.effect from rfl]
  rcases q.tides.effect with m | m | _
  · cases m <;> rfl
  · cases m <;> rfl
  · rfl

theorem withEvolution_units (q : Particle ℝ) (x : Evolution.Part ℝ) :
    withEvolution (o.sees q) (o.part x) = o.sees (withEvolution q x) := rfl

theorem spinAndEvolving_units (k : Consts ℝ) (time : ℝ) (evolve : Bool) (p : Particle ℝ) (e : Evolver ℝ) :
    spinAndEvolving (o.consts k) (o.time * time) evolve (o.sees p) (o.evolver e)
      = (spinAndEvolving k time evolve p e).map fun r => (o.sees r.1, o.evolver r.2) := by
  unfold spinAndEvolving
  cases evolve
  · simp only [calculateSpin_units, Bool.false_eq_true, if_false]
    cases calculateSpin p <;> rfl
  · simp only [evolutionPart_units, if_true, nonSpinDependent_units]
    cases Evolution.nonSpinDependent time (evolutionPart p) e with
    | none => rfl
    | some r =>
      obtain ⟨q, x⟩ := r
      simp only [Option.map_some, withEvolution_units, calculateSpin_units]
      cases calculateSpin (withEvolution p q) with
      | none => rfl
      | some p1 =>
        simp only [Option.map_some, evolutionPart_units, spinDependent_units]
        cases Evolution.spinDependent k.sunDynFreq2 time (evolutionPart p1) x with
        | none => rfl
        | some r => rfl

theorem calculateSpinAndEvolving_units (k : Consts ℝ) (time : ℝ) (evolution : Bool) (u : Universe ℝ n) :
    calculateSpinAndEvolving (o.consts k) (o.time * time) evolution (o.describes u)
      = (calculateSpinAndEvolving k time evolution u).map o.describes := by
  unfold calculateSpinAndEvolving
  have e : (fun i => spinAndEvolving (o.consts k) (o.time * time) (evolution && (o.describes u).consider.evolution)
      ((o.describes u).particles i) ((o.describes u).evolvers i))
      = fun i => (spinAndEvolving k time (evolution && u.consider.evolution) (u.particles i) (u.evolvers i)).map
          fun r => (o.sees r.1, o.evolver r.2) := funext fun i => spinAndEvolving_units o k time _ _ _
  rw [e, traverse_seen]
  cases traverse (fun i => spinAndEvolving k time (evolution && u.consider.evolution) (u.particles i) (u.evolvers i))
    <;> rfl

/-! ### Coordinates -/

theorem toHeliocentric_units (host q : Particle ℝ) :
    toHeliocentric (o.sees host) (o.sees q) = o.sees (toHeliocentric host q) := by
  have hL := o.length_pos
  have hT := o.time_pos
  have hV : 0 ≤ o.velocity := (div_pos hL hT).le
  unfold toHeliocentric
  simp only [Units.sees, Particle.mk.injEq, true_and, and_true, ← smul_sub,
      Axes.dot_smul, Axes.smul_dot, Axes.norm2_smul, sqrt_real, sqrt_units hL.le, sqrt_units hV]
  dims
  field_simp

theorem inertialToHeliocentric_units (u : Universe ℝ n) :
    inertialToHeliocentric (o.describes u) = o.describes (inertialToHeliocentric u) := by
  have key : mapHost u.hosts.mostMassive zeroHeliocentric
      (mapOthers u.hosts.mostMassive toHeliocentric fun i => o.sees (u.particles i))
      = fun i => o.sees (mapHost u.hosts.mostMassive zeroHeliocentric
        (mapOthers u.hosts.mostMassive toHeliocentric u.particles) i) := by
    rw [mapOthers_units _ (T := o.sees) fun i _ => toHeliocentric_units o _ _]
    refine mapHost_seen _ ?_
    unfold zeroHeliocentric
    simp [Units.sees]
  unfold inertialToHeliocentric
  show Universe.mk _ _ _ _ _ _ = Universe.mk _ _ _ _ _ _
  congr 1

/-! ### Initialisation -/

theorem initializeEffect_units {active isMostMassive all : Bool} {mostMassive : Fin n} {host : Option (Fin n)}
    {copy convert init : Fin n → (Fin n → Particle ℝ) → (Fin n → Particle ℝ)}
    (h1 : ∀ h p, copy h (fun i => o.sees (p i)) = fun i => o.sees (copy h p i))
    (h2 : ∀ h p, convert h (fun i => o.sees (p i)) = fun i => o.sees (convert h p i))
    (h3 : ∀ h p, init h (fun i => o.sees (p i)) = fun i => o.sees (init h p i)) (p : Fin n → Particle ℝ) :
    initializeEffect active isMostMassive all mostMassive host copy convert init (fun i => o.sees (p i))
      = (initializeEffect active isMostMassive all mostMassive host copy convert init p).map
        fun q i => o.sees (q i) := by
  unfold initializeEffect withHost
  cases active <;> cases isMostMassive <;> cases all <;> cases host <;> simp [h1, h2, h3]

theorem initializeAll_units (dL acc : Bool) (u : Universe ℝ n) :
    initializeAll dL acc (o.describes u) = (initializeAll dL acc u).map o.describes := by
  have e0 : (if dL && u.consider.wind then fun i => windInitialize (o.sees (u.particles i)) else fun i => o.sees (u.particles i))
      = fun i => o.sees ((if dL && u.consider.wind then fun i => windInitialize (u.particles i) else u.particles) i) := by
    split
    · funext i; rw [windInitialize_units]
    · rfl
  unfold initializeAll
  dsimp only [Units.describes]
  rw [e0]
  simp only [initializeEffect_units o (tidesCopyHeliocentric_units o) (tidesInertialToHeliocentric_units o) (tidesInitialize_units o)]
  generalize (if dL && u.consider.wind then fun i => windInitialize (u.particles i) else u.particles) = p0
  generalize initializeEffect _ _ _ _ _ tidesCopyHeliocentric _ _ p0 = x
  rcases x with _ | p1
  · rfl
  simp only [Option.map_some, initializeEffect_units o (flatteningCopyHeliocentric_units o)
    (flatteningInertialToHeliocentric_units o) (flatteningInitialize_units o)]
  generalize initializeEffect _ _ _ _ _ flatteningCopyHeliocentric _ _ p1 = x
  rcases x with _ | p2
  · rfl
  simp only [Option.map_some, initializeEffect_units o (grCopyHeliocentric_units o)
    (grInertialToHeliocentric_units o) (grInitialize_units o)]
  generalize initializeEffect _ _ _ _ _ grCopyHeliocentric _ _ p2 = x
  rcases x with _ | p3
  · rfl
  simp only [Option.map_some, initializeEffect_units o (diskCopyHeliocentric_units o)
    (diskInertialToHeliocentric_units o) (diskInitialize_units o)]
  generalize initializeEffect _ _ _ _ _ diskCopyHeliocentric _ _ p3 = x
  rcases x with _ | p4
  · rfl
  simp only [Option.map_some, Option.some.injEq]
  congr 1
  cases acc
  · rfl
  · simp only [if_true]
    funext i
    simp [Units.sees]

/-! ### The effects -/

/-- What is needed for the effects of the universe to be the same in other units. -/
structure UnitsFit (m m' : Models ℝ) (u : Universe ℝ n) : Prop where
  tides : TidesUnits o m m' u.particles
  flattening : FlatteningUnits o m m' u.particles
  gr : u.consider.gr = true → ∀ h, u.hosts.gr = some h → GrUnits u.particles h

theorem UnitsFit.same {m m' : Models ℝ} {u v : Universe ℝ n} (hf : UnitsFit o m m' u)
    (hs : Same settings v.particles u.particles) (hc : v.consider = u.consider) (hh : v.hosts = u.hosts) :
    UnitsFit o m m' v where
  tides := hf.tides.same o hs
  flattening := hf.flattening.same o hs
  gr := by rw [hc, hh]; exact fun h1 h h2 => (hf.gr h1 h h2).same hs

theorem tidesAndFlattening_units (k : Consts ℝ) {m m' : Models ℝ} (dL acc : Bool) (c : Consider) (h : Fin n)
    {p : Fin n → Particle ℝ} (t : Table ℝ) (ht : TidesUnits o m m' p) (hf : FlatteningUnits o m m' p) :
    tidesAndFlattening (o.consts k) m' dL acc c h (fun i => o.sees (p i)) (o.table t)
      = ((fun i => o.sees ((tidesAndFlattening k m dL acc c h p t).1 i)), o.table (tidesAndFlattening k m dL acc c h p t).2) := by
  unfold tidesAndFlattening
  split <;> [skip; rfl]
  dsimp only
  rw [pairFactors_units]
  generalize pairFactors k h p t = t1
  refine Prod.ext ?_ rfl
  dsimp only
  -- each stage in turn
  have stage : ∀ (b : Bool) (f' f : (Fin n → Particle ℝ) → Fin n → Particle ℝ) (q : Fin n → Particle ℝ),
      (f' (fun i => o.sees (q i)) = fun i => o.sees (f q i)) →
      (if b then f' (fun i => o.sees (q i)) else fun i => o.sees (q i)) = fun i => o.sees ((if b then f q else q) i) := by
    intro b f' f q hq
    cases b
    · rfl
    · exact hq
  have keep : ∀ (b : Bool) (f : (Fin n → Particle ℝ) → Fin n → Particle ℝ) (q : Fin n → Particle ℝ),
      Same settings (f q) q → Same settings (if b then f q else q) q := by
    intro b f q hq
    cases b
    · exact Same.refl _
    · exact hq
  have s1 := keep c.tides (fun p => tidesShapes m h (orthogonalComponent t1 h p)) p
    ((tidesShapes_settings m h _).trans (orthogonalComponent_settings t1 h p))
  rw [stage c.tides (fun p => tidesShapes m' h (orthogonalComponent (o.table t1) h p)) (fun p => tidesShapes m h (orthogonalComponent t1 h p)) p (by
    show _ = _
    rw [orthogonalComponent_units, tidesShapes_units o (ht.same o (orthogonalComponent_settings t1 h p))])]
  generalize (if c.tides then tidesShapes m h (orthogonalComponent t1 h p) else p) = p1 at s1 ⊢
  have s2 := (keep c.flattening (fun p => flatteningShapes m h (flatteningOrthogonal h p)) p1
    ((flatteningShapes_settings m h _).trans (flatteningOrthogonal_settings h p1))).trans s1
  rw [stage c.flattening (fun p => flatteningShapes m' h (flatteningOrthogonal h p)) (fun p => flatteningShapes m h (flatteningOrthogonal h p)) p1 (by
    show _ = _
    rw [flatteningOrthogonal_units, flatteningShapes_units o (hf.same o ((flatteningOrthogonal_settings h p1).trans s1))])]
  generalize (if c.flattening then flatteningShapes m h (flatteningOrthogonal h p1) else p1) = p2 at s2 ⊢
  have s3 := (keep (acc && c.tides) (fun p => tidalAcceleration m.tides h (radialComponent k t1 h p)) p2
    ((tidalAcceleration_settings m.tides h _).trans (radialComponent_settings k t1 h p2))).trans s2
  rw [stage (acc && c.tides) (fun p => tidalAcceleration m'.tides h (radialComponent (o.consts k) (o.table t1) h p)) (fun p => tidalAcceleration m.tides h (radialComponent k t1 h p)) p2 (by
    show _ = _
    rw [radialComponent_units, tidalAcceleration_units o (ht.same o ((radialComponent_settings k t1 h p2).trans s2))])]
  generalize (if acc && c.tides then tidalAcceleration m.tides h (radialComponent k t1 h p2) else p2) = p3 at s3 ⊢
  have s4 := (keep (acc && c.flattening) (fun p => flatteningAcceleration m.flattening h (flatteningRadial h p)) p3
    ((flatteningAcceleration_settings m.flattening h _).trans (flatteningRadial_settings h p3))).trans s3
  rw [stage (acc && c.flattening) (fun p => flatteningAcceleration m'.flattening h (flatteningRadial h p)) (fun p => flatteningAcceleration m.flattening h (flatteningRadial h p)) p3 (by
    show _ = _
    rw [flatteningRadial_units, flatteningAcceleration_units o (hf.same o ((flatteningRadial_settings h p3).trans s3))])]
  generalize (if acc && c.flattening then flatteningAcceleration m.flattening h (flatteningRadial h p3) else p3) = p4 at s4 ⊢
  have s5 := (keep (dL && c.tides) (fun p => tidalDL m.tides h p) p4 (tidalDL_settings m.tides h p4)).trans s4
  rw [stage (dL && c.tides) (fun p => tidalDL m'.tides h p) (fun p => tidalDL m.tides h p) p4 (tidalDL_units o (ht.same o s4))]
  generalize (if dL && c.tides then tidalDL m.tides h p4 else p4) = p5 at s5 ⊢
  rw [stage (dL && c.flattening) (fun p => flatteningDL m'.flattening h p) (fun p => flatteningDL m.flattening h p) p5 (flatteningDL_units o (hf.same o s5))]

theorem totalDL_units (q : Particle ℝ) : totalDL (o.sees q) = o.sees (totalDL q) := by
  unfold totalDL
  simp only [Units.sees, Units.tides, Units.flattening, Units.gr, Units.wind, ← smul_add]

theorem addAccelerations_units (c : Consider) (q : Particle ℝ) :
    addAccelerations c (o.sees q) = o.sees (addAccelerations c q) := by
  unfold addAccelerations
  dsimp only
  cases c.tides <;> cases c.disk <;> cases c.flattening <;> cases c.gr <;>
    simp [Units.sees, Units.tides, Units.flattening, Units.gr, Units.disk, smul_add, Axes.zero_def]

theorem applyAccelerations_units (q : Particle ℝ) : applyAccelerations (o.sees q) = o.sees (applyAccelerations q) := by
  unfold applyAccelerations
  simp only [Units.sees, smul_add]

theorem effects_units (k : Consts ℝ) {m m' : Models ℝ} (eps2 time : ℝ) (dL acc : Bool) (ignore : Ignore) {u : Universe ℝ n}
    (hf : UnitsFit o m m' u) :
    effects (o.consts k) m' eps2 (o.time * time) dL acc ignore (o.describes u)
      = (effects k m eps2 time dL acc ignore u).map o.describes := by
  unfold effects
  have e0 : (if dL && u.consider.wind then fun i => windFactor (o.consts k) (o.sees (u.particles i)) else fun i => o.sees (u.particles i))
      = fun i => o.sees ((if dL && u.consider.wind then fun i => windFactor k (u.particles i) else u.particles) i) := by
    split
    · funext i; rw [windFactor_units]
    · rfl
  have s0 : Same settings (if dL && u.consider.wind then fun i => windFactor k (u.particles i) else u.particles) u.particles := by
    split
    · exact windFactor_settings k _
    · exact Same.refl _
  dsimp only [Units.describes]
  rw [e0]
  generalize (if dL && u.consider.wind then fun i => windFactor k (u.particles i) else u.particles) = p0 at s0 ⊢
  have e1 : (if (u.consider.tides || u.consider.flattening) = true then
      withHost u.hosts.tides (fun h => tidesAndFlattening (o.consts k) m' dL acc u.consider h (fun i => o.sees (p0 i)) (o.table u.table))
      else some ((fun i => o.sees (p0 i)), o.table u.table))
      = (if (u.consider.tides || u.consider.flattening) = true then
      withHost u.hosts.tides (fun h => tidesAndFlattening k m dL acc u.consider h p0 u.table)
      else some (p0, u.table)).map fun r => ((fun i => o.sees (r.1 i)), o.table r.2) := by
    simp only [tidesAndFlattening_units o k dL acc u.consider _ u.table (hf.tides.same o s0) (hf.flattening.same o s0)]
    split
    · unfold withHost
      cases u.hosts.tides <;> rfl
    · rfl
  have s1 : ∀ r, (if (u.consider.tides || u.consider.flattening) = true then
      withHost u.hosts.tides (fun h => tidesAndFlattening k m dL acc u.consider h p0 u.table)
      else some (p0, u.table)) = some r → Same settings r.1 u.particles := by
    intro r hr
    split at hr
    · unfold withHost at hr
      split at hr
      · cases hr
      · cases hr
        exact (tidesAndFlattening_settings k m dL acc u.consider _ p0 u.table).trans s0
    · cases hr
      exact s0
  rw [e1]
  generalize (if (u.consider.tides || u.consider.flattening) = true then
      withHost u.hosts.tides (fun h => tidesAndFlattening k m dL acc u.consider h p0 u.table)
      else some (p0, u.table)) = x at s1 ⊢
  rcases x with _ | ⟨p1, t1⟩
  · rfl
  have s1 := s1 _ rfl
  simp only [Option.map_some]
  have e2 : (if (acc && u.consider.gr) = true then
      withHost u.hosts.gr (fun h => generalRelativity (o.consts k) eps2 ignore h (fun i => o.sees (p1 i)))
      else some (fun i => o.sees (p1 i)))
      = (if (acc && u.consider.gr) = true then
      withHost u.hosts.gr (fun h => generalRelativity k eps2 ignore h p1) else some p1).map fun r i => o.sees (r i) := by
    split
    · rename_i hc
      unfold withHost
      cases hh : u.hosts.gr with
      | none => rfl
      | some h =>
        dsimp only
        rw [generalRelativity_units o k eps2 ignore ((hf.gr (by simp at hc; exact hc.2) h hh).same s1)]
        rfl
    · rfl
  rw [e2]
  generalize (if (acc && u.consider.gr) = true then
      withHost u.hosts.gr (fun h => generalRelativity k eps2 ignore h p1) else some p1) = x
  rcases x with _ | p2
  · rfl
  simp only [Option.map_some]
  have e3 : (if (acc && u.consider.disk) = true then
      withHost u.hosts.disk (fun h => diskAcceleration (o.consts k) (o.time * time) h (fun i => o.sees (p2 i)))
      else some (fun i => o.sees (p2 i)))
      = (if (acc && u.consider.disk) = true then
      withHost u.hosts.disk (fun h => diskAcceleration k time h p2) else some p2).map fun r i => o.sees (r i) := by
    split
    · rename_i hc
      unfold withHost
      cases hh : u.hosts.disk with
      | none => rfl
      | some h =>
        dsimp only
        rw [diskAcceleration_units o]
        rfl
    · rfl
  rw [e3]
  generalize (if (acc && u.consider.disk) = true then
      withHost u.hosts.disk (fun h => diskAcceleration k time h p2) else some p2) = x
  rcases x with _ | p3
  · rfl
  simp only [Option.map_some, Option.some.injEq]
  congr 1
  funext i
  have t4 : ∀ b : Bool, (if b then fun i => totalDL (o.sees (p3 i)) else fun i => o.sees (p3 i))
      = fun i => o.sees ((if b then fun i => totalDL (p3 i) else p3) i) := by
    intro b
    cases b
    · rfl
    · funext i; exact totalDL_units o _
  rw [t4]
  cases acc
  · rfl
  · exact addAccelerations_units o _ _

/-- An evaluation in other units. -/
theorem evaluation_units (k : Consts ℝ) {m m' : Models ℝ} (eps2 time : ℝ) (evolution dL acc : Bool) (ignore : Ignore)
    {u : Universe ℝ n} (hf : UnitsFit o m m' u) :
    calculateAdditionalEffects (o.consts k) m' eps2 (o.time * time) evolution dL acc ignore (o.describes u)
      = (calculateAdditionalEffects k m eps2 time evolution dL acc ignore u).map o.describes := by
  unfold calculateAdditionalEffects
  rw [initializeAll_units]
  cases h1 : initializeAll dL acc u with
  | none => rfl
  | some u1 =>
    simp only [Option.map_some]
    rw [calculateSpinAndEvolving_units]
    have s1 := initializeAll_settings h1
    obtain ⟨c1, -, d1, -⟩ := initializeAll_totals h1
    cases h2 : calculateSpinAndEvolving k time evolution u1 with
    | none => rfl
    | some u2 =>
      simp only [Option.map_some]
      obtain ⟨b2, c2, -, d2, -⟩ := calculateSpinAndEvolving_step h2
      have s2 : Same settings u2.particles u1.particles := fun i => by
        have := congrArg settings (spinAndEvolving_noSpin (b2 i))
        exact this
      exact effects_units o k eps2 time dL acc ignore (hf.same o (s2.trans s1) (c2.trans c1) (d2.trans d1))

/-! ### Gravity -/

/-- Runs in two units: the ejection limit is a number of the code, so that with a smaller unit of length only the original
run and with a larger one only the new one may go on. -/
def Agree (x x' : Option (Universe ℝ n)) : Prop :=
  (o.length ≤ 1 → ∀ v, x = some v → x' = some (o.describes v))
    ∧ (1 ≤ o.length → ∀ v', x' = some v' → ∃ v, x = some v ∧ v' = o.describes v)

theorem Agree.of_map {x x' : Option (Universe ℝ n)} (h : x' = x.map o.describes) : Agree o x x' := by
  subst h
  refine ⟨fun _ v hv => by rw [hv]; rfl, fun _ v' hv => ?_⟩
  rw [Option.map_eq_some_iff] at hv
  obtain ⟨v, h1, h2⟩ := hv
  exact ⟨v, h1, h2.symm⟩

theorem Agree.bind {x x' : Option (Universe ℝ n)} {f f' : Universe ℝ n → Option (Universe ℝ n)} (h : Agree o x x')
    (hf : ∀ v, x = some v → Agree o (f v) (f' (o.describes v))) : Agree o (x.bind f) (x'.bind f') := by
  refine ⟨fun hl w hw => ?_, fun hl w hw => ?_⟩
  · rw [Option.bind_eq_some_iff] at hw
    obtain ⟨v, h1, h2⟩ := hw
    rw [h.1 hl v h1, Option.bind_some]
    exact (hf v h1).1 hl w h2
  · rw [Option.bind_eq_some_iff] at hw
    obtain ⟨v', h1, h2⟩ := hw
    obtain ⟨v, h3, rfl⟩ := h.2 hl v' h1
    obtain ⟨w0, h4, h5⟩ := (hf v h3).2 hl w h2
    exact ⟨w0, by rw [h3, Option.bind_some, h4], h5⟩

theorem gravity_units (k : Consts ℝ) (roche : Fin n → Fin n → ℝ) (ignore : Ignore) (u : Universe ℝ n) :
    Agree o (universeGravity k roche ignore u)
      (universeGravity (o.consts k) (fun i j => o.length * roche i j) ignore (o.describes u)) := by
  have hL := o.length_pos
  have hT := o.time_pos
  have hM := o.mass_pos
  have ed : ∀ i j, (bodyOf (o.sees (u.particles i))).position - (bodyOf (o.sees (u.particles j))).position
      = o.length • ((bodyOf (u.particles i)).position - (bodyOf (u.particles j)).position) := by
    intro i j
    exact (smul_sub _ _ _).symm
  have e2 : ∀ i, Gravity.acceleration (o.consts k).g (fun i => bodyOf (o.sees (u.particles i))) ignore u.hosts.mostMassive i
      = o.acceleration • Gravity.acceleration k.g (fun i => bodyOf (u.particles i)) ignore u.hosts.mostMassive i := by
    intro i
    unfold Gravity.acceleration
    have : ∀ (l : List (Fin n)) (s : Axes ℝ), l.foldl (fun acc j => if i = j then acc
          else if Gravity.ignored ignore u.hosts.mostMassive i j then acc
          else acc + Gravity.pairAcceleration (o.consts k).g (bodyOf (o.sees (u.particles i))) (bodyOf (o.sees (u.particles j))))
            (o.acceleration • s)
        = o.acceleration • (l.foldl (fun acc j => if i = j then acc
          else if Gravity.ignored ignore u.hosts.mostMassive i j then acc
          else acc + Gravity.pairAcceleration k.g (bodyOf (u.particles i)) (bodyOf (u.particles j))) s) := by
      intro l
      induction l with
      | nil => intro s; rfl
      | cons j l ih =>
        intro s
        simp only [List.foldl_cons]
        rw [← ih]
        congr 1
        split
        · rfl
        · split
          · rfl
          · rw [smul_add]
            congr 1
            unfold Gravity.pairAcceleration
            dsimp only
            rw [ed, Axes.norm2_smul, sqrt_real, sqrt_real, sqrt_units hL.le]
            generalize Real.sqrt _ = x
            simp only [Units.consts, bodyOf, Units.sees]
            dims
            ext <;> parts <;> field_simp
    rw [← this, Axes.zero_def, smul_zero]
  have c : ∀ i j, (o.length ≤ 1 → Gravity.check (fun i => bodyOf (u.particles i)) roche u.hosts.mostMassive i j = none →
        Gravity.check (fun i => bodyOf (o.sees (u.particles i))) (fun i j => o.length * roche i j) u.hosts.mostMassive i j = none)
      ∧ (1 ≤ o.length → Gravity.check (fun i => bodyOf (o.sees (u.particles i))) (fun i j => o.length * roche i j)
          u.hosts.mostMassive i j = none →
        Gravity.check (fun i => bodyOf (u.particles i)) roche u.hosts.mostMassive i j = none) := by
    intro i j
    have x0 : Gravity.distance2 (bodyOf (o.sees (u.particles i))) (bodyOf (o.sees (u.particles j)))
        = o.length ^ 2 * Gravity.distance2 (bodyOf (u.particles i)) (bodyOf (u.particles j)) := by
      unfold Gravity.distance2
      rw [ed, Axes.norm2_smul]
    have le : ∀ a b : ℝ, leb (o.length ^ 2 * a) (o.length ^ 2 * b) = leb a b := by
      intro a b
      rw [Bool.eq_iff_iff, leb_real, leb_real]
      exact mul_le_mul_iff_right₀ (pow_pos hL 2)
    have x1 : o.length * roche i j * (o.length * roche i j) = o.length ^ 2 * (roche i j * roche i j) := by ring
    have x2 : ((bodyOf (o.sees (u.particles i))).radius + (bodyOf (o.sees (u.particles j))).radius)
          * ((bodyOf (o.sees (u.particles i))).radius + (bodyOf (o.sees (u.particles j))).radius)
        = o.length ^ 2 * (((bodyOf (u.particles i)).radius + (bodyOf (u.particles j)).radius)
          * ((bodyOf (u.particles i)).radius + (bodyOf (u.particles j)).radius)) := by
      simp only [bodyOf, Units.sees]
      ring
    have hd : 0 ≤ Gravity.distance2 (bodyOf (u.particles i)) (bodyOf (u.particles j)) := by
      unfold Gravity.distance2 Axes.norm2
      exact add_nonneg (add_nonneg (mul_self_nonneg _) (mul_self_nonneg _)) (mul_self_nonneg _)
    unfold Gravity.check
    rw [x0, x1, x2, le, le]
    generalize Gravity.distance2 (bodyOf (u.particles i)) (bodyOf (u.particles j)) = d at hd ⊢
    split <;> [skip; simp]
    split <;> [simp; skip]
    split <;> [simp; skip]
    simp only [Gravity.maxDistance2, Bool.and_eq_true, ltb_real, lit_real, decide_eq_true_eq]
    refine ⟨fun hl => ?_, fun hl => ?_⟩
    · intro h
      rw [if_neg]
      rintro ⟨h1, h2⟩
      rw [if_pos] at h
      · cases h
      · refine ⟨h1, lt_of_lt_of_le h2 ?_⟩
        exact mul_le_of_le_one_left hd (pow_le_one₀ hL.le hl)
    · intro h
      rw [if_neg]
      rintro ⟨h1, h2⟩
      rw [if_pos] at h
      · cases h
      · refine ⟨h1, lt_of_lt_of_le h2 ?_⟩
        exact le_mul_of_one_le_left hd (one_le_pow₀ hl)
  have e1 : ∀ (p : Fin n → Body ℝ) (r : Fin n → Fin n → ℝ), Gravity.firstStop p r u.hosts.mostMassive = none
      ↔ ∀ i j, i ≠ j → Gravity.check p r u.hosts.mostMassive i j = none := by
    intro p r
    unfold Gravity.firstStop
    simp only [List.findSome?_eq_none_iff, List.mem_finRange, true_imp_iff]
    refine forall₂_congr fun i j => ?_
    by_cases h : i = j <;> simp [h]
  unfold universeGravity Gravity.gravity
  dsimp only [Units.describes]
  refine ⟨fun hl v hv => ?_, fun hl v hv => ?_⟩
  · cases h : Gravity.firstStop (fun i => bodyOf (u.particles i)) roche u.hosts.mostMassive with
    | some s => rw [h] at hv; cases hv
    | none =>
      rw [h] at hv
      cases hv
      rw [(e1 _ _).2 fun i j hij => (c i j).1 hl ((e1 _ _).1 h i j hij)]
      simp only [e2, Option.some.injEq]
      rfl
  · cases h : Gravity.firstStop (fun i => bodyOf (o.sees (u.particles i))) (fun i j => o.length * roche i j)
        u.hosts.mostMassive with
    | some s => rw [h] at hv; cases hv
    | none =>
      rw [h] at hv
      cases hv
      rw [(e1 _ _).2 fun i j hij => (c i j).2 hl ((e1 _ _).1 h i j hij)]
      refine ⟨_, rfl, ?_⟩
      simp only [e2]
      rfl

/-! ### A step -/

theorem drift_units (half : ℝ) (u : Universe ℝ n) :
    drift (o.time * half) (o.describes u) = o.describes (drift half u) := by
  have hT := o.time_pos
  unfold drift driftParticle
  dsimp only [Units.describes]
  congr 1
  funext i
  simp only [Units.sees, Particle.mk.injEq, true_and, and_true]
  dims
  constructor <;> ext <;> parts <;> field_simp

theorem kickDrift_units (dt half : ℝ) (u : Universe ℝ n) :
    kickDrift (o.time * dt) (o.time * half) (o.describes u) = o.describes (kickDrift dt half u) := by
  have hT := o.time_pos
  unfold kickDrift kickDriftParticle
  dsimp only [Units.describes]
  congr 1
  funext i
  simp only [Units.sees, Particle.mk.injEq, true_and, and_true]
  dims
  refine ⟨?_, ?_, ?_⟩ <;> ext <;> parts <;> field_simp

/-! ### A record -/

theorem observe_units (k : Consts ℝ) (time : ℝ) (u : Universe ℝ n) :
    Univ.observe (o.consts k) (o.time * time) (o.describes u) = (Univ.observe k time u).map o.describes := by
  unfold Univ.observe
  rw [inertialToHeliocentric_units, calculateSpinAndEvolving_units]
  cases calculateSpinAndEvolving k time true (inertialToHeliocentric u) with
  | none => rfl
  | some u1 =>
    simp only [Option.map_some]
    show (if u1.consider.tides then _ else _) = _
    split
    · unfold universeDenergyDt withHost
      show (match u1.hosts.tides with | none => _ | some i => _) = _
      cases u1.hosts.tides with
      | none => rfl
      | some h =>
        simp only [Option.map_some, Units.describes, calculateDenergyDt_units]
    · rfl

/-! ### Runs -/

theorem UnitsFit.kept {o : Units} {m m' : Models ℝ} {u v : Universe ℝ n} (hf : UnitsFit o m m' u)
    (h : Kept u v) : UnitsFit o m m' v := hf.same o h.particles h.consider h.hosts

theorem leapfrogStep_units (k : Consts ℝ) {m m' : Models ℝ} (eps2 : ℝ) (roche : Fin n → Fin n → ℝ) (dt half time : ℝ)
    {u : Universe ℝ n} (h0 : UnitsFit o m m' u) :
    Agree o (leapfrogStep k m eps2 roche dt half time u)
      (leapfrogStep (o.consts k) m' eps2 (fun i j => o.length * roche i j) (o.time * dt) (o.time * half) (o.time * time)
        (o.describes u)) := by
  have bind : ∀ (k : Consts ℝ) (m : Models ℝ) (roche : Fin n → Fin n → ℝ) (dt half time : ℝ) (u : Universe ℝ n),
      leapfrogStep k m eps2 roche dt half time u
      = (calculateAdditionalEffects k m eps2 time true true false .none (inertialToHeliocentric u)).bind fun u1 =>
        (universeGravity k roche .none (drift half u1)).bind fun u2 =>
        (calculateAdditionalEffects k m eps2 (time + half) true true true .none (inertialToHeliocentric u2)).bind fun u3 =>
        some (kickDrift dt half { u3 with particles := fun i => applyAccelerations (u3.particles i) }) := by
    intro k m roche dt half time u
    unfold leapfrogStep
    cases calculateAdditionalEffects k m eps2 time true true false .none (inertialToHeliocentric u) with
    | none => rfl
    | some u1 =>
      dsimp only [Option.bind_some]
      cases universeGravity k roche .none (drift half u1) with
      | none => rfl
      | some u2 =>
        dsimp only [Option.bind_some]
        cases calculateAdditionalEffects k m eps2 (time + half) true true true .none (inertialToHeliocentric u2) <;> rfl
  rw [bind, bind]
  refine Agree.bind o (Agree.of_map o ?_) fun u1 e1 => ?_
  · rw [inertialToHeliocentric_units, evaluation_units o k eps2 time true true false .none (h0.kept (kept_heliocentric u))]
  rw [drift_units]
  refine Agree.bind o (gravity_units o k roche .none _) fun u2 e2 => ?_
  have kp : Kept u u2 := ((kept_heliocentric u).trans (kept_evaluation e1)).trans
        ((kept_drift half u1).trans (kept_gravity e2))
  refine Agree.bind o (Agree.of_map o ?_) fun u3 e3 => ?_
  · rw [inertialToHeliocentric_units, ← mul_add, evaluation_units o k eps2 (time + half) true true true .none
        (h0.kept (kp.trans (kept_heliocentric u2)))]
  · refine Agree.of_map o ?_
    simp only [Option.map_some, Option.some.injEq]
    rw [← kickDrift_units]
    congr 1
    show Universe.mk _ _ _ _ _ _ = Universe.mk _ _ _ _ _ _
    congr 1
    funext i
    exact applyAccelerations_units _ _

theorem leapfrogIterate_units (k : Consts ℝ) {m m' : Models ℝ} (eps2 : ℝ) (roche : Fin n → Fin n → ℝ) (dt half time : ℝ)
    (record : Bool) {u : Universe ℝ n} (h0 : UnitsFit o m m' u) :
    Agree o (leapfrogIterate k m eps2 roche dt half time record u)
      (leapfrogIterate (o.consts k) m' eps2 (fun i j => o.length * roche i j) (o.time * dt) (o.time * half) (o.time * time)
        record (o.describes u)) := by
  unfold leapfrogIterate
  cases record
  · exact leapfrogStep_units o k eps2 roche dt half time h0
  · simp only [if_true]
    rw [observe_units]
    cases e : Univ.observe k time u with
    | none => exact Agree.of_map o rfl
    | some u1 => exact leapfrogStep_units o k eps2 roche dt half time (h0.kept (kept_observe e))

end
end Posidonius.Univ
