import Verif.Spec.Units
import Verif.Lemmas.ObserverUniverse

/-! How the parts of an evaluation look in other units. -/

namespace Posidonius.Univ
open Gravity (Ignore)
open Evolution (Evolver)

/-! ### Combinators -/

section
variable {n : Nat} {P : Type} {T : P → P}

theorem mapOthers_units (h : Fin n) {f g : P → P → P} {p : Fin n → P}
    (hf : ∀ i, i ≠ h → f (T (p h)) (T (p i)) = T (g (p h) (p i))) :
    mapOthers h f (fun i => T (p i)) = fun i => T (mapOthers h g p i) := by
  funext i
  unfold mapOthers
  split
  · rfl
  · rename_i hi; exact hf i hi

theorem foldl_units {ι : Type} (c : ℝ) (l : List ι) {f g : ι → Axes ℝ} (hf : ∀ i ∈ l, f i = c • g i) (a : Axes ℝ) :
    l.foldl (fun acc i => acc + f i) (c • a) = c • l.foldl (fun acc i => acc + g i) a := by
  induction l generalizing a with
  | nil => rfl
  | cons i l ih =>
    rw [List.foldl_cons, List.foldl_cons, hf i (by simp), ← smul_add, ih fun j hj => hf j (by simp [hj])]

theorem sumOthers_units (c : ℝ) (h : Fin n) {f g : P → Axes ℝ} {p : Fin n → P}
    (hf : ∀ i, i ≠ h → f (T (p i)) = c • g (p i)) :
    sumOthers h f (fun i => T (p i)) = c • sumOthers h g p := by
  unfold sumOthers
  have e : (Axes.zero : Axes ℝ) = c • Axes.zero := by rw [Axes.zero_def, smul_zero]
  conv_lhs => rw [e]
  exact foldl_units c _ (fun i hi => hf i (by simpa [others] using hi)) _

end

/-! ### Powers and roots -/

theorem sqrt_units {c x : ℝ} (hc : 0 ≤ c) : Real.sqrt (c ^ 2 * x) = c * Real.sqrt x := by
  rw [Real.sqrt_mul (sq_nonneg c), Real.sqrt_sq hc]

theorem rpow_units {c : ℝ} (hc : 0 < c) (x y : ℝ) : (c * x) ^ y = c ^ y * x ^ y := by
  rcases lt_trichotomy x 0 with h | rfl | h
  · rw [Real.rpow_def_of_neg (mul_neg_of_pos_of_neg hc h), Real.rpow_def_of_neg h, Real.rpow_def_of_pos hc,
      Real.log_mul hc.ne' h.ne, add_mul, Real.exp_add]
    ring
  · rw [mul_zero]
    by_cases hy : y = 0
    · subst hy; simp
    · rw [Real.zero_rpow hy, mul_zero]
  · exact Real.mul_rpow hc.le h.le

theorem Axes.norm2_smul (c : ℝ) (v : Axes ℝ) : (c • v).norm2 = c ^ 2 * v.norm2 := by
  unfold Axes.norm2; rw [Axes.dot_smul, Axes.smul_dot]; ring

section
variable {n : Nat} (o : Units)

/-- The components of vectors. -/
macro "parts" : tactic => `(tactic|
  simp only [Axes.smul_x, Axes.smul_y, Axes.smul_z, Axes.add_x, Axes.add_y, Axes.add_z, Axes.sub_x, Axes.sub_y, Axes.sub_z,
    Axes.neg_x, Axes.neg_y, Axes.neg_z, Axes.cross_x, Axes.cross_y, Axes.cross_z, Axes.sdiv_x, Axes.sdiv_y, Axes.sdiv_z,
    Axes.zero_def, Axes.zero_x, Axes.zero_y, Axes.zero_z, smulRight, Axes.dot, lit_real])

/-- The dimensions. -/
macro "dims" : tactic => `(tactic|
  simp only [Units.velocity, Units.acceleration, Units.force, Units.torque, Units.angularMomentum, Units.dissipation,
    Units.viscosity, ipow])

/-! ### Tides -/

theorem perihelion_units (gm : ℝ) (x v : Axes ℝ) :
    Tools.perihelionDistanceAndEccentricity (o.length ^ 3 / o.time ^ 2 * gm) (o.length • x) (o.velocity • v)
      = (o.length * (Tools.perihelionDistanceAndEccentricity gm x v).1,
         (Tools.perihelionDistanceAndEccentricity gm x v).2) := by
  have hL := o.length_pos
  have hT := o.time_pos
  have e : ∀ (gm : ℝ) (x v : Axes ℝ), Tools.perihelionDistanceAndEccentricity gm x v =
      (let s := (x.cross v).norm2 / gm
       let temp := lit 1 + s * (v.norm2 / gm - lit 2 / FOps.sqrt x.norm2)
       let e := if leb temp (lit 0) then lit 0 else FOps.sqrt temp
       (s / (lit 1 + e), e)) := fun gm x v => rfl
  rw [e, e]
  have e1 : ((o.length • x).cross (o.velocity • v)).norm2 / (o.length ^ 3 / o.time ^ 2 * gm)
      = o.length * ((x.cross v).norm2 / gm) := by
    rw [Axes.cross_smul, Axes.smul_cross, smul_smul, Axes.norm2_smul]
    dims
    field_simp
  have e2 : (o.velocity • v).norm2 / (o.length ^ 3 / o.time ^ 2 * gm) - lit 2 / FOps.sqrt (o.length • x).norm2
      = (v.norm2 / gm - lit 2 / FOps.sqrt x.norm2) / o.length := by
    rw [Axes.norm2_smul, Axes.norm2_smul, sqrt_real, sqrt_real, sqrt_units hL.le]
    dims
    field_simp
  dsimp only
  rw [e1, e2, show o.length * ((x.cross v).norm2 / gm) * ((v.norm2 / gm - lit 2 / FOps.sqrt x.norm2) / o.length)
    = ((x.cross v).norm2 / gm) * (v.norm2 / gm - lit 2 / FOps.sqrt x.norm2) by field_simp]
  rw [mul_div_assoc]

theorem sqrt_cube (hL : 0 < o.length) : Real.sqrt (o.length ^ 3) * o.length ^ (-(3 : ℝ) / 2) = 1 := by
  rw [Real.sqrt_eq_rpow, ← Real.rpow_natCast, ← Real.rpow_mul hL.le, ← Real.rpow_add hL]
  norm_num

theorem meanMotion_units (host p : Particle ℝ) : meanMotion (o.sees host) (o.sees p) = meanMotion host p / o.time := by
  have hL := o.length_pos
  have hT := o.time_pos
  unfold meanMotion
  simp only [Units.sees, Units.tides, ← mul_add, perihelion_units]
  rw [sqrt_real, powf_real, sqrt_real, powf_real, mul_div_assoc, rpow_units hL, Real.sqrt_mul (by positivity),
    Real.sqrt_div (by positivity), Real.sqrt_sq hT.le]
  have := sqrt_cube o hL
  simp only [lit_real, show ((((-3 : ℚ) / 2 : ℚ)) : ℝ) = -(3 : ℝ) / 2 by norm_num]
  linear_combination (Real.sqrt (host.massG + p.massG) / o.time *
    ((Tools.perihelionDistanceAndEccentricity (host.massG + p.massG) p.tides.position p.tides.velocity).1 /
      (((1 : ℚ) : ℝ) - (Tools.perihelionDistanceAndEccentricity (host.massG + p.massG) p.tides.position p.tides.velocity).2))
      ^ (-(3 : ℝ) / 2)) * this

theorem dynamicalFactor_units (k : Consts ℝ) (half scale radius lag sigma : ℝ) :
    dynamicalFactor (o.consts k) (half / o.time) scale (o.length * radius) lag (o.dissipation * sigma)
      = o.dissipation * dynamicalFactor k half scale radius lag sigma := by
  have hL := o.length_pos
  have hT := o.time_pos
  have hM := o.mass_pos
  unfold dynamicalFactor
  have e : (if ltb (half / o.time) (o.consts k).smoothing then (o.consts k).smoothing else half / o.time)
      = (if ltb half k.smoothing then k.smoothing else half) / o.time := by
    have : (o.consts k).smoothing = k.smoothing / o.time := rfl
    rw [this]
    by_cases hc : half < k.smoothing
    · rw [if_pos ((ltb_real _ _).2 hc), if_pos ((ltb_real _ _).2 (div_lt_div_of_pos_right hc hT))]
    · rw [if_neg (by rw [ltb_real, div_lt_div_iff_of_pos_right hT]; exact hc), if_neg (by rw [ltb_real]; exact hc)]
  dsimp only
  rw [e]
  generalize (if ltb half k.smoothing then k.smoothing else half) = hf
  simp only [Units.consts, lit_real]
  dims
  push_cast
  by_cases h0 : hf = 0
  · subst h0; field_simp
  · field_simp

theorem setPairFactor_units (t : Table ℝ) (a b : Nat) (x : ℝ) :
    setPairFactor (o.table t) a b (o.dissipation * x) = o.table (setPairFactor t a b x) := by
  funext key
  unfold setPairFactor Units.table
  dsimp only
  split <;> rfl

theorem removePairFactor_units (t : Table ℝ) (a b : Nat) :
    removePairFactor (o.table t) a b = o.table (removePairFactor t a b) := by
  funext key
  unfold removePairFactor Units.table
  dsimp only
  split <;> rfl

theorem getPairFactor_units (t : Table ℝ) (a b : Nat) (e : Evolution.EvolutionType) (x : ℝ) :
    getPairFactorOrElse (o.table t) a b e (o.dissipation * x) = o.dissipation * getPairFactorOrElse t a b e x := by
  unfold getPairFactorOrElse Units.table
  dsimp only
  split
  · cases t (a * maxParticles + b) <;> rfl
  · rfl

theorem orbitingCtl_units (q : Particle ℝ) : (o.sees q).tides.effect.orbitingCtl
    = q.tides.effect.orbitingCtl.map fun x => (o.dissipation * x.1, x.2.1, x.2.2) := by
  show (o.tidesEffect q.tides.effect).orbitingCtl = _
  rcases q.tides.effect with m | m | _
  · rfl
  · cases m <;> rfl
  · rfl

theorem hostScaleAndFactor_units (q : Particle ℝ) : (o.sees q).tides.effect.hostScaleAndFactor
    = (q.tides.effect.hostScaleAndFactor.1, o.dissipation * q.tides.effect.hostScaleAndFactor.2) := by
  have z : ((lit 0 : ℝ), (lit 0 : ℝ)) = (lit 0, o.dissipation * lit 0) := by simp
  show (o.tidesEffect q.tides.effect).hostScaleAndFactor = _
  rcases q.tides.effect with m | m | _
  · cases m
    · rfl
    · exact z
    · exact z
  · exact z
  · exact z

theorem hostLoveNumber_units (q : Particle ℝ) :
    (o.sees q).tides.effect.hostLoveNumber = q.tides.effect.hostLoveNumber := by
  show (o.tidesEffect q.tides.effect).hostLoveNumber = _
  rcases q.tides.effect with m | m | _
  · cases m <;> rfl
  · rfl
  · rfl

theorem frequency_units (a b : ℝ) : FOps.abs (FOps.sqrt (a / o.time ^ 2) - b / o.time) = FOps.abs (FOps.sqrt a - b) / o.time
    ∧ FOps.sqrt (a / o.time ^ 2) = FOps.sqrt a / o.time := by
  have hT := o.time_pos
  have e : Real.sqrt (a / o.time ^ 2) = Real.sqrt a / o.time := by
    rw [Real.sqrt_div' _ (by positivity), Real.sqrt_sq hT.le]
  refine ⟨?_, by rw [sqrt_real, sqrt_real, e]⟩
  rw [sqrt_real, sqrt_real, abs_real, abs_real, e, ← sub_div, abs_div, abs_of_pos hT]

theorem ltb_units {c : ℝ} (hc : 0 < c) (a b : ℝ) : ltb (a / c) (b / c) = ltb a b := by
  rw [Bool.eq_iff_iff, ltb_real, ltb_real, div_lt_div_iff_of_pos_right hc]

theorem planetDependentStep_units (k : Consts ℝ) (host q : Particle ℝ) (t : Table ℝ) :
    planetDependentStep (o.consts k) (o.sees host) (o.sees q) (o.table t) = o.table (planetDependentStep k host q t) := by
  unfold planetDependentStep
  rw [orbitingCtl_units, hostScaleAndFactor_units, meanMotion_units]
  cases q.tides.effect.orbitingCtl with
  | none => rfl
  | some x =>
    simp only [Option.map_some]
    have e1 : (o.sees host).normSpin2 = host.normSpin2 / o.time ^ 2 := rfl
    obtain ⟨f1, f2⟩ := frequency_units o host.normSpin2 (meanMotion host q)
    rw [e1, f1, f2, ltb_units o.time_pos]
    split
    · rw [show (o.sees host).radius = o.length * host.radius from rfl, dynamicalFactor_units, setPairFactor_units]
      rfl
    · exact removePairFactor_units o _ _ _

theorem hostDependentStep_units (k : Consts ℝ) (host q : Particle ℝ) (t : Table ℝ) :
    hostDependentStep (o.consts k) (o.sees host) (o.sees q) (o.table t) = o.table (hostDependentStep k host q t) := by
  unfold hostDependentStep
  show (if hasDynamicalTide q.evolution then _ else _) = _
  split <;> [skip; rfl]
  rw [orbitingCtl_units, meanMotion_units]
  cases q.tides.effect.orbitingCtl with
  | none => rfl
  | some x =>
    simp only [Option.map_some]
    have e1 : (o.sees q).normSpin2 = q.normSpin2 / o.time ^ 2 := rfl
    obtain ⟨f1, f2⟩ := frequency_units o q.normSpin2 (meanMotion host q)
    rw [e1, f1, f2, ltb_units o.time_pos]
    split
    · rw [show (o.sees q).radius = o.length * q.radius from rfl, dynamicalFactor_units, setPairFactor_units]
      rfl
    · exact removePairFactor_units o _ _ _

theorem pairFactors_units (k : Consts ℝ) (h : Fin n) (p : Fin n → Particle ℝ) (t : Table ℝ) :
    pairFactors (o.consts k) h (fun i => o.sees (p i)) (o.table t) = o.table (pairFactors k h p t) := by
  have key : ∀ {f g : Fin n → Table ℝ → Table ℝ}, (∀ i t, f i (o.table t) = o.table (g i t)) →
      ∀ (l : List (Fin n)) (t : Table ℝ), l.foldl (fun t i => f i t) (o.table t) = o.table (l.foldl (fun t i => g i t) t) := by
    intro f g hf l
    induction l with
    | nil => intro t; rfl
    | cons i l ih => intro t; rw [List.foldl_cons, List.foldl_cons, hf, ih]
  unfold pairFactors planetDependent hostDependent
  have e : (if hasDynamicalTide (o.sees (p h)).evolution = true then
      (others h).foldl (fun t i => planetDependentStep (o.consts k) (o.sees (p h)) (o.sees (p i)) t) (o.table t)
      else o.table t) = o.table (if hasDynamicalTide (p h).evolution = true then
      (others h).foldl (fun t i => planetDependentStep k (p h) (p i) t) t else t) := by
    show (if hasDynamicalTide (p h).evolution = true then _ else _) = _
    split
    · exact key (fun i t => planetDependentStep_units o k _ _ t) _ _
    · rfl
  dsimp only at e ⊢
  rw [e]
  exact key (fun i t => hostDependentStep_units o k _ _ t) _ _

theorem hostSigma_units (t : Table ℝ) (host q : Particle ℝ) :
    hostSigma (o.table t) (o.sees host) (o.sees q) = o.dissipation * hostSigma t host q := getPairFactor_units o _ _ _ _ _

theorem particleSigma_units (t : Table ℝ) (host q : Particle ℝ) :
    particleSigma (o.table t) (o.sees host) (o.sees q) = o.dissipation * particleSigma t host q :=
  getPairFactor_units o _ _ _ _ _

theorem orthogonalComponent_units (t : Table ℝ) (h : Fin n) (p : Fin n → Particle ℝ) :
    orthogonalComponent (o.table t) h (fun i => o.sees (p i)) = fun i => o.sees (orthogonalComponent t h p i) := by
  have hL := o.length_pos
  have hT := o.time_pos
  have hM := o.mass_pos
  have e1 : ∀ host q, orthogonalStellarStep (o.table t) (o.sees host) (o.sees q) = o.sees (orthogonalStellarStep t host q) := by
    intro host q
    unfold orthogonalStellarStep
    rw [orbitingCtl_units, hostSigma_units]
    cases q.tides.effect.orbitingCtl with
    | none => rfl
    | some x =>
      simp only [Option.map_some, Units.sees, Units.tides, Particle.mk.injEq, Tides.mk.injEq, true_and, and_true]
      dims
      field_simp
  have e2 : ∀ host q, orthogonalPlanetaryStep (o.table t) (o.sees host) (o.sees q) = o.sees (orthogonalPlanetaryStep t host q) := by
    intro host q
    unfold orthogonalPlanetaryStep
    rw [orbitingCtl_units, particleSigma_units]
    cases q.tides.effect.orbitingCtl with
    | none => rfl
    | some x =>
      simp only [Option.map_some, Units.sees, Units.tides, Particle.mk.injEq, Tides.mk.injEq, true_and, and_true]
      dims
      field_simp
  unfold orthogonalComponent
  rw [mapOthers_units h fun i _ => e1 _ _, mapOthers_units h fun i _ => e2 _ _]

theorem radialComponent_units (k : Consts ℝ) (t : Table ℝ) (h : Fin n) (p : Fin n → Particle ℝ) :
    radialComponent (o.consts k) (o.table t) h (fun i => o.sees (p i)) = fun i => o.sees (radialComponent k t h p i) := by
  have hL := o.length_pos
  have hT := o.time_pos
  have hM := o.mass_pos
  have e1 : ∀ host q, radialStep (o.consts k) (o.table t) (o.sees host) (o.sees q) = o.sees (radialStep k t host q) := by
    intro host q
    unfold radialStep
    rw [orbitingCtl_units, particleSigma_units, hostSigma_units, hostLoveNumber_units]
    cases q.tides.effect.orbitingCtl with
    | none => rfl
    | some x =>
      simp only [Option.map_some, Units.sees, Units.tides, Units.consts, Particle.mk.injEq, Tides.mk.injEq, true_and, and_true]
      generalize hostSigma t host q = s1
      generalize particleSigma t host q = s2
      dims
      constructor
      · field_simp
      · field_simp
  unfold radialComponent
  rw [mapOthers_units h fun i _ => e1 _ _]

theorem isCentral_units (q : Particle ℝ) : (o.sees q).tides.effect.isCentral = q.tides.effect.isCentral := by
  show (o.tidesEffect q.tides.effect).isCentral = _
  cases q.tides.effect <;> rfl

theorem isOrbiting_units (q : Particle ℝ) : (o.sees q).tides.effect.isOrbiting = q.tides.effect.isOrbiting := by
  show (o.tidesEffect q.tides.effect).isOrbiting = _
  cases q.tides.effect <;> rfl

theorem tidesInitialize_units (h : Fin n) (p : Fin n → Particle ℝ) :
    tidesInitialize h (fun i => o.sees (p i)) = fun i => o.sees (tidesInitialize h p i) := by
  unfold tidesInitialize
  dsimp only
  rw [isCentral_units]
  split
  · rw [mapHost_seen h (T := o.sees) (g := fun host : Particle ℝ => { host with tides := { host.tides with
          rDotStellarSpin := lit 0, rDotPlanetarySpin := lit 0,
          acceleration := Axes.zero, dAngularMomentumDt := Axes.zero } })
      (by simp [Units.sees, Units.tides]), mapOthers_units]
    intro i hi
    rw [isOrbiting_units]
    split <;> [skip; rfl]
    simp only [Units.sees, Units.tides, Particle.mk.injEq, Tides.mk.injEq, true_and, and_true, Axes.zero_def, smul_zero,
      Axes.dot_smul, Axes.smul_dot]
    dims
    constructor <;> field_simp
  · rfl

theorem tidesInertialToHeliocentric_units (h : Fin n) (p : Fin n → Particle ℝ) :
    tidesInertialToHeliocentric h (fun i => o.sees (p i)) = fun i => o.sees (tidesInertialToHeliocentric h p i) := by
  have hL := o.length_pos
  have hT := o.time_pos
  unfold tidesInertialToHeliocentric
  dsimp only
  rw [isCentral_units]
  split
  · rw [mapHost_seen h (T := o.sees) (g := fun host : Particle ℝ => { host with tides := { host.tides with
          position := Axes.zero, velocity := Axes.zero, distance := lit 0, radialVelocity := lit 0 } })
      (by simp [Units.sees, Units.tides]), mapOthers_units]
    intro i hi
    rw [isOrbiting_units]
    split <;> [skip; rfl]
    simp only [Units.sees, Units.tides, Particle.mk.injEq, Tides.mk.injEq, true_and, and_true, ← smul_sub,
      Axes.dot_smul, Axes.smul_dot, Axes.norm2_smul, sqrt_real, sqrt_units hL.le]
    dims
    field_simp
  · rfl

theorem tidesCopyHeliocentric_units (h : Fin n) (p : Fin n → Particle ℝ) :
    tidesCopyHeliocentric h (fun i => o.sees (p i)) = fun i => o.sees (tidesCopyHeliocentric h p i) := by
  unfold tidesCopyHeliocentric
  dsimp only
  rw [isCentral_units]
  split
  · rw [mapHost_seen h (T := o.sees) (g := fun q : Particle ℝ => { q with tides := { q.tides with
    position := q.heliocentricPosition, velocity := q.heliocentricVelocity,
    distance := q.heliocentricDistance, radialVelocity := q.heliocentricRadialVelocity } }) rfl, mapOthers_units]
    intro i hi
    rw [isOrbiting_units]
    split <;> rfl
  · rfl

/-- A tidal model whose forces, torques and deformations are the same in other units: `m` computes with the old units, `m'`
with the new ones. -/
structure TidalUnits (m m' : Models ℝ) (model : TidalModel ℝ) : Prop where
  torque : ∀ host q b, tidalTorque m'.tides (o.tidalModel model) (o.sees host) (o.sees q) b
    = o.torque • tidalTorque m.tides model host q b
  force : ∀ host q, tidalForce m'.tides (o.tidalModel model) (o.sees host) (o.sees q)
    = o.force • tidalForce m.tides model host q
  host : model = .kaula → ∀ host q, m'.tides.kaulaForce (o.sees host) (o.sees q) true
    = o.force • m.tides.kaulaForce host q true
  shape : ∀ v, model = .creepCoplanar v → ∀ host q, m'.tideShape (o.sees host) (o.sees q) = m.tideShape host q

/-- The same for all models in use. -/
def TidesUnits (m m' : Models ℝ) (p : Fin n → Particle ℝ) : Prop :=
  ∀ i model, ((p i).tides.effect = .central model ∨ (p i).tides.effect = .orbiting model) → TidalUnits o m m' model

theorem TidesUnits.same {m m' : Models ℝ} {p q : Fin n → Particle ℝ} (h : TidesUnits o m m' p) (hs : Same settings q p) :
    TidesUnits o m m' q := fun i model hi => h i model (by
  have e : (q i).tides.effect = (p i).tides.effect := settings_effect (hs i)
  rwa [e] at hi)

theorem ctlTorque_units (host q : Particle ℝ) (b : Bool) :
    ctlTorque (o.sees host) (o.sees q) b = o.torque • ctlTorque host q b := by
  have hL := o.length_pos
  have hT := o.time_pos
  have hM := o.mass_pos
  unfold ctlTorque
  cases b <;> simp only [Units.sees, Units.tides, if_true, Bool.false_eq_true, if_false] <;> dims <;> ext <;> parts <;>
    push_cast <;> field_simp

theorem ctlForce_units (host q : Particle ℝ) :
    ctlForce (o.sees host) (o.sees q) = o.force • ctlForce host q := by
  have hL := o.length_pos
  have hT := o.time_pos
  have hM := o.mass_pos
  unfold ctlForce
  simp only [Units.sees, Units.tides]
  dims
  ext <;> parts <;> field_simp

/-- The constant time lag model is the same in all units. -/
theorem ctl_units (m m' : Models ℝ) (a b c : ℝ) : TidalUnits o m m' (.constantTimeLag a b c) :=
  ⟨ctlTorque_units o, ctlForce_units o, (fun h => by cases h), (fun v h => by cases h)⟩

theorem viscosity_units (e : TidesEffect ℝ) : (o.tidesEffect e).viscosity = o.viscosity * e.viscosity := by
  have z : (lit 0 : ℝ) = o.viscosity * lit 0 := by simp
  rcases e with m | m | _
  · cases m <;> first | rfl | exact z
  · cases m <;> first | rfl | exact z
  · exact z

theorem viscosity_pos : 0 < o.viscosity := div_pos o.mass_pos (mul_pos o.length_pos o.time_pos)

theorem tidesShapes_units {m m' : Models ℝ} {h : Fin n} {p : Fin n → Particle ℝ} (hm : TidesUnits o m m' p) :
    tidesShapes m' h (fun i => o.sees (p i)) = fun i => o.sees (tidesShapes m h p i) := by
  unfold tidesShapes
  refine mapOthers_units h fun i _ => ?_
  have e : (o.sees (p i)).tides.effect.viscosity = o.viscosity * (p i).tides.effect.viscosity := viscosity_units o _
  have e2 : eqb (o.sees (p i)).tides.effect.viscosity (lit 0) = eqb (p i).tides.effect.viscosity (lit 0) := by
    rw [Bool.eq_iff_iff, eqb_real, eqb_real, e, lit_real]
    simp [(viscosity_pos o).ne']
  dsimp only
  rw [e2]
  split
  · rfl
  · rename_i hv
    have hc : ∃ v, (p i).tides.effect = .central (.creepCoplanar v) ∨ (p i).tides.effect = .orbiting (.creepCoplanar v) := by
      unfold TidesEffect.viscosity at hv
      split at hv
      · exact ⟨_, .inl (by assumption)⟩
      · exact ⟨_, .inr (by assumption)⟩
      · exact absurd (by simp) hv
    obtain ⟨v, hc⟩ := hc
    rw [(hm i _ hc).shape v rfl]
    rfl

theorem companionTidalDL_units {m m' : Models ℝ} {p : Fin n → Particle ℝ} (hm : TidesUnits o m m' p) (host : Particle ℝ)
    (i : Fin n) : companionTidalDL m'.tides (o.sees host) (o.sees (p i)) = o.sees (companionTidalDL m.tides host (p i)) := by
  unfold companionTidalDL
  have e : (o.sees (p i)).tides.effect = o.tidesEffect (p i).tides.effect := rfl
  rw [e]
  rcases hi : (p i).tides.effect with model | model | _
  · rfl
  · simp only [Units.tidesEffect]
    rw [(hm i model (.inr hi)).torque, smul_comm]
    rfl
  · rfl

theorem hostTidalDLTerm_units {m m' : Models ℝ} {p : Fin n → Particle ℝ} (hm : TidesUnits o m m' p) (h : Fin n) (q : Particle ℝ) :
    hostTidalDLTerm m'.tides (o.sees (p h)) (o.sees q) = o.torque • hostTidalDLTerm m.tides (p h) q := by
  unfold hostTidalDLTerm
  have e : (o.sees (p h)).tides.effect = o.tidesEffect (p h).tides.effect := rfl
  rw [e]
  rcases hi : (p h).tides.effect with model | model | _
  · simp only [Units.tidesEffect]
    rw [(hm h model (.inl hi)).torque, smul_comm]
  · simp [Units.tidesEffect]
  · simp [Units.tidesEffect]

theorem tidalDL_units {m m' : Models ℝ} {h : Fin n} {p : Fin n → Particle ℝ} (hm : TidesUnits o m m' p) :
    tidalDL m'.tides h (fun i => o.sees (p i)) = fun i => o.sees (tidalDL m.tides h p i) := by
  unfold tidalDL
  dsimp only
  have s1 : Same settings (mapOthers h (companionTidalDL m.tides) p) p :=
    mapOthers_frame _ (fun a b => by unfold companionTidalDL; split <;> rfl) (Same.refl _)
  have hm1 := TidesUnits.same o hm s1
  rw [mapOthers_units h (T := o.sees) (g := companionTidalDL m.tides) (p := p) fun i _ => companionTidalDL_units o hm _ i]
  refine mapHost_seen h ?_
  dsimp only
  rw [sumOthers_units o.torque h (T := o.sees) (g := hostTidalDLTerm m.tides (mapOthers h (companionTidalDL m.tides) p h))
    fun i _ => hostTidalDLTerm_units o hm1 h _]
  rfl

theorem companionTidalForce_units {m m' : Models ℝ} {p : Fin n → Particle ℝ} (hm : TidesUnits o m m' p) (host : Particle ℝ)
    (i : Fin n) : companionTidalForce m'.tides (o.sees host) (o.sees (p i)) = o.force • companionTidalForce m.tides host (p i) := by
  unfold companionTidalForce
  have e : (o.sees (p i)).tides.effect = o.tidesEffect (p i).tides.effect := rfl
  rw [e]
  rcases hi : (p i).tides.effect with model | model | _
  · simp [Units.tidesEffect]
  · simp only [Units.tidesEffect]
    rw [(hm i model (.inr hi)).force]
  · simp [Units.tidesEffect]

/-- Newton's second law. -/
theorem newton_units (m : ℝ) (v : Axes ℝ) : (lit 1 / (o.mass * m)) • o.force • v = o.acceleration • (lit 1 / m) • v := by
  have hM := o.mass_pos
  have hT := o.time_pos
  dims
  ext <;> parts <;> push_cast <;> field_simp

theorem recoil_units (m : ℝ) (v : Axes ℝ) :
    (lit (-1) * (lit 1 / (o.mass * m))) • o.force • v = o.acceleration • (lit (-1) * (lit 1 / m)) • v := by
  rw [mul_smul, newton_units, smul_comm, mul_smul]

theorem companionTidalAcceleration_units {m m' : Models ℝ} {p : Fin n → Particle ℝ} (hm : TidesUnits o m m' p)
    (host : Particle ℝ) (i : Fin n) : companionTidalAcceleration m'.tides (o.sees host) (o.sees (p i))
      = o.sees (companionTidalAcceleration m.tides host (p i)) := by
  unfold companionTidalAcceleration
  have e : (o.sees (p i)).tides.effect = o.tidesEffect (p i).tides.effect := rfl
  rw [e]
  rcases hi : (p i).tides.effect with model | model | _
  · rfl
  · simp only [Units.tidesEffect]
    rw [(hm i model (.inr hi)).force, show (o.sees (p i)).mass = o.mass * (p i).mass from rfl, newton_units]
    rfl
  · rfl

theorem kaulaHostStep_units {m m' : Models ℝ} (hm : TidalUnits o m m' .kaula) (host q : Particle ℝ) :
    kaulaHostStep m'.tides (o.sees host) (o.sees q)
      = (o.sees (kaulaHostStep m.tides host q).1, o.sees (kaulaHostStep m.tides host q).2) := by
  unfold kaulaHostStep
  rw [hm.host rfl]
  simp only [Units.sees, Units.tides, newton_units, recoil_units, smul_add]

theorem tidalAcceleration_units {m m' : Models ℝ} {h : Fin n} {p : Fin n → Particle ℝ} (hm : TidesUnits o m m' p) :
    tidalAcceleration m'.tides h (fun i => o.sees (p i)) = fun i => o.sees (tidalAcceleration m.tides h p i) := by
  unfold tidalAcceleration
  dsimp only
  have e : (o.sees (p h)).tides.effect = o.tidesEffect (p h).tides.effect := rfl
  rw [e, mapOthers_units h (T := o.sees) (g := companionTidalAcceleration m.tides) (p := p)
      fun i _ => companionTidalAcceleration_units o hm _ i,
    sumOthers_units o.force h (T := o.sees) (p := p) (g := companionTidalForce m.tides (p h))
      fun i _ => companionTidalForce_units o hm _ i]
  rw [mapHost_seen h (T := o.sees) (g := fun host : Particle ℝ => { host with tides := { host.tides with
    acceleration := (lit (-1) * (lit 1 / host.mass)) • sumOthers h (companionTidalForce m.tides (p h)) p } })
    (by simp only [Units.sees, Units.tides, recoil_units])]
  have key : TidalUnits o m m' .kaula → ∀ (l : List (Fin n)) (q : Fin n → Particle ℝ),
        l.foldl (fun q i =>
          let r := kaulaHostStep m'.tides (q h) (q i)
          fun j => if j = h then r.1 else if j = i then r.2 else q j) (fun i => o.sees (q i))
        = fun i => o.sees (l.foldl (fun q i =>
          let r := kaulaHostStep m.tides (q h) (q i)
          fun j => if j = h then r.1 else if j = i then r.2 else q j) q i) := by
    intro hk l
    induction l with
    | nil => intro q; rfl
    | cons i l ih =>
      intro q
      rw [List.foldl_cons, List.foldl_cons, ← ih]
      congr 1
      funext j
      dsimp only
      rw [kaulaHostStep_units o hk]
      split
      · rfl
      · split <;> rfl
  rcases hi : (p h).tides.effect with model | model | _
  · cases model
    · rfl
    · rfl
    · exact key (hm h _ (.inl hi)) _ _
  · rfl
  · rfl

theorem calculateDenergyDt_units (h : Fin n) (p : Fin n → Particle ℝ) :
    calculateDenergyDt h (fun i => o.sees (p i)) = fun i => o.sees (calculateDenergyDt h p i) := by
  have hL := o.length_pos
  have hT := o.time_pos
  have hM := o.mass_pos
  have e : ∀ q, denergyDt (o.sees q) = o.torque / o.time * denergyDt q := by
    intro q
    unfold denergyDt
    simp only [Units.sees, Units.tides]
    dims
    parts
    push_cast
    field_simp
  unfold calculateDenergyDt
  refine mapOthers_units h fun i _ => ?_
  dsimp only
  rw [e, isOrbiting_units]
  split <;> rfl

end
end Posidonius.Univ
