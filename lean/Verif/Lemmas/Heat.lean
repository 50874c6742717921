import Verif.Model.LeapfrogUniverse
import Verif.Lemmas.Universe

/-! The stored tidal heating has no influence on anything else. -/

namespace Posidonius.Univ
open Gravity (Ignore)
open Evolution (Evolver)

/-- Replace the stored heating. -/
def heat {F : Type} (x : F) (p : Particle F) : Particle F :=
  { p with tides := { p.tides with denergyDt := x } }

/-- Replace the stored heating of all particles. -/
def heatAll {F : Type} {n : Nat} (e : Fin n → F) (p : Fin n → Particle F) : Fin n → Particle F :=
  fun i => heat (e i) (p i)

/-- Replace the stored heating in a universe. -/
def setHeat {F : Type} {n : Nat} (e : Fin n → F) (u : Universe F n) : Universe F n :=
  { u with particles := heatAll e u.particles }

/-- The creep and Kaula functions do not look at the heating. -/
structure IgnoresHeat {F : Type} (m : Models F) : Prop where
  tideTorque : ∀ x y a b c, m.tides.creepTorque (heat x a) (heat y b) c = m.tides.creepTorque a b c
  tideForce : ∀ x y a b, m.tides.creepForce (heat x a) (heat y b) = m.tides.creepForce a b
  kaulaTorque : ∀ x y a b c, m.tides.kaulaTorque (heat x a) (heat y b) c = m.tides.kaulaTorque a b c
  kaulaForce : ∀ x y a b c, m.tides.kaulaForce (heat x a) (heat y b) c = m.tides.kaulaForce a b c
  flatteningTorque : ∀ x y a b c, m.flattening.creepTorque (heat x a) (heat y b) c = m.flattening.creepTorque a b c
  flatteningForce : ∀ x y a b, m.flattening.creepForce (heat x a) (heat y b) = m.flattening.creepForce a b
  tideShape : ∀ x y a b, m.tideShape (heat x a) (heat y b) = m.tideShape a b
  flatteningShape : ∀ x y a b, m.flatteningShape (heat x a) (heat y b) = m.flatteningShape a b

section
variable {F : Type} [Add F] [Sub F] [Mul F] [Div F] [Neg F] [FOps F] {n : Nat}

set_option linter.unusedSectionVars false

theorem mapOthers_heat (h : Fin n) {f : Particle F → Particle F → Particle F}
    (hf : ∀ x y a b, f (heat x a) (heat y b) = heat y (f a b)) (e : Fin n → F) (p : Fin n → Particle F) :
    mapOthers h f (heatAll e p) = heatAll e (mapOthers h f p) := by
  funext i
  by_cases hi : i = h
  · simp [mapOthers, heatAll, hi]
  · simp [mapOthers, heatAll, hi, hf]

theorem mapHost_heat (h : Fin n) {f : Particle F → Particle F}
    (hf : ∀ x a, f (heat x a) = heat x (f a)) (e : Fin n → F) (p : Fin n → Particle F) :
    mapHost h f (heatAll e p) = heatAll e (mapHost h f p) := by
  funext i
  by_cases hi : i = h
  · simp [mapHost, heatAll, hi, hf]
  · simp [mapHost, heatAll, hi]

theorem sumOthers_heat (h : Fin n) {f g : Particle F → Axes F} (hf : ∀ x a, f (heat x a) = g a)
    (e : Fin n → F) (p : Fin n → Particle F) : sumOthers h f (heatAll e p) = sumOthers h g p := by
  unfold sumOthers heatAll
  simp only [hf]

/-! ### Tides -/

variable [FPow F] [FTrig F]

theorem pairFactors_heat (k : Consts F) (h : Fin n) (e : Fin n → F) (p : Fin n → Particle F) (t : Table F) :
    pairFactors k h (heatAll e p) t = pairFactors k h p t := rfl

theorem orthogonalComponent_heat (t : Table F) (h : Fin n) (e : Fin n → F) (p : Fin n → Particle F) :
    orthogonalComponent t h (heatAll e p) = heatAll e (orthogonalComponent t h p) := by
  unfold orthogonalComponent
  rw [mapOthers_heat h, mapOthers_heat h]
  · intro x y a b
    unfold orthogonalPlanetaryStep
    try dsimp only
    rw [show (heat y b).tides.effect.orbitingCtl = b.tides.effect.orbitingCtl from rfl]
    generalize b.tides.effect.orbitingCtl = o
    cases o <;> rfl
  · intro x y a b
    unfold orthogonalStellarStep
    try dsimp only
    rw [show (heat y b).tides.effect.orbitingCtl = b.tides.effect.orbitingCtl from rfl]
    generalize b.tides.effect.orbitingCtl = o
    cases o <;> rfl

theorem radialComponent_heat (k : Consts F) (t : Table F) (h : Fin n) (e : Fin n → F) (p : Fin n → Particle F) :
    radialComponent k t h (heatAll e p) = heatAll e (radialComponent k t h p) := by
  unfold radialComponent
  rw [mapOthers_heat h]
  intro x y a b
  unfold radialStep
  try dsimp only
  rw [show (heat y b).tides.effect.orbitingCtl = b.tides.effect.orbitingCtl from rfl]
  generalize b.tides.effect.orbitingCtl = o
  cases o <;> rfl

theorem tidesInitialize_heat (h : Fin n) (e : Fin n → F) (p : Fin n → Particle F) :
    tidesInitialize h (heatAll e p) = heatAll e (tidesInitialize h p) := by
  unfold tidesInitialize
  try dsimp only
  rw [show (heatAll e p h).tides.effect.isCentral = (p h).tides.effect.isCentral from rfl]
  generalize (p h).tides.effect.isCentral = o
  cases o <;> simp only [Bool.false_eq_true, if_true, if_false]
  rw [mapHost_heat h, mapOthers_heat h]
  · intro x y a b
    try dsimp only
    rw [show (heat y b).tides.effect.isOrbiting = b.tides.effect.isOrbiting from rfl]
    generalize b.tides.effect.isOrbiting = o
    cases o <;> rfl
  · exact fun _ _ => rfl

theorem tidesCopyHeliocentric_heat (h : Fin n) (e : Fin n → F) (p : Fin n → Particle F) :
    tidesCopyHeliocentric h (heatAll e p) = heatAll e (tidesCopyHeliocentric h p) := by
  unfold tidesCopyHeliocentric
  try dsimp only
  rw [show (heatAll e p h).tides.effect.isCentral = (p h).tides.effect.isCentral from rfl]
  generalize (p h).tides.effect.isCentral = o
  cases o <;> simp only [Bool.false_eq_true, if_true, if_false]
  rw [mapHost_heat h, mapOthers_heat h]
  · intro x y a b
    try dsimp only
    rw [show (heat y b).tides.effect.isOrbiting = b.tides.effect.isOrbiting from rfl]
    generalize b.tides.effect.isOrbiting = o
    cases o <;> rfl
  · exact fun _ _ => rfl

theorem tidesInertialToHeliocentric_heat (h : Fin n) (e : Fin n → F) (p : Fin n → Particle F) :
    tidesInertialToHeliocentric h (heatAll e p) = heatAll e (tidesInertialToHeliocentric h p) := by
  unfold tidesInertialToHeliocentric
  try dsimp only
  rw [show (heatAll e p h).tides.effect.isCentral = (p h).tides.effect.isCentral from rfl]
  generalize (p h).tides.effect.isCentral = o
  cases o <;> simp only [Bool.false_eq_true, if_true, if_false]
  rw [mapHost_heat h, mapOthers_heat h]
  · intro x y a b
    try dsimp only
    rw [show (heat y b).tides.effect.isOrbiting = b.tides.effect.isOrbiting from rfl]
    generalize b.tides.effect.isOrbiting = o
    cases o <;> rfl
  · exact fun _ _ => rfl

theorem tidesShapes_heat {m : Models F} (hm : IgnoresHeat m) (h : Fin n) (e : Fin n → F)
    (p : Fin n → Particle F) : tidesShapes m h (heatAll e p) = heatAll e (tidesShapes m h p) := by
  unfold tidesShapes
  rw [mapOthers_heat h]
  intro x y a b
  try dsimp only
  rw [show eqb (heat y b).tides.effect.viscosity (lit 0) = eqb b.tides.effect.viscosity (lit 0) from rfl]
  generalize eqb b.tides.effect.viscosity (lit 0) = o
  cases o <;> simp only [Bool.false_eq_true, if_true, if_false]
  rw [hm.tideShape]; rfl

theorem tidalTorque_heat {m : Models F} (hm : IgnoresHeat m) (model : TidalModel F) (x y : F)
    (a b : Particle F) (c : Bool) :
    tidalTorque m.tides model (heat x a) (heat y b) c = tidalTorque m.tides model a b c := by
  unfold tidalTorque
  cases model
  · rfl
  · exact hm.tideTorque ..
  · exact hm.kaulaTorque ..

theorem tidalForce_heat {m : Models F} (hm : IgnoresHeat m) (model : TidalModel F) (x y : F)
    (a b : Particle F) : tidalForce m.tides model (heat x a) (heat y b) = tidalForce m.tides model a b := by
  unfold tidalForce
  cases model
  · rfl
  · exact hm.tideForce ..
  · exact hm.kaulaForce ..

theorem companionTidalDL_heat {m : Models F} (hm : IgnoresHeat m) (x y : F) (a b : Particle F) :
    companionTidalDL m.tides (heat x a) (heat y b) = heat y (companionTidalDL m.tides a b) := by
  unfold companionTidalDL
  try dsimp only
  rw [show (heat y b).tides.effect = b.tides.effect from rfl]
  generalize b.tides.effect = o
  cases o with
  | orbiting model => dsimp only; rw [tidalTorque_heat hm]; rfl
  | _ => rfl

theorem hostTidalDLTerm_heat {m : Models F} (hm : IgnoresHeat m) (x y : F) (a b : Particle F) :
    hostTidalDLTerm m.tides (heat x a) (heat y b) = hostTidalDLTerm m.tides a b := by
  unfold hostTidalDLTerm
  try dsimp only
  rw [show (heat x a).tides.effect = a.tides.effect from rfl]
  generalize a.tides.effect = o
  cases o with
  | central model => dsimp only; rw [tidalTorque_heat hm]
  | _ => rfl

theorem tidalDL_heat {m : Models F} (hm : IgnoresHeat m) (h : Fin n) (e : Fin n → F) (p : Fin n → Particle F) :
    tidalDL m.tides h (heatAll e p) = heatAll e (tidalDL m.tides h p) := by
  unfold tidalDL
  dsimp only
  rw [mapOthers_heat h (companionTidalDL_heat hm)]
  set q := mapOthers h (companionTidalDL m.tides) p
  have : sumOthers h (hostTidalDLTerm m.tides (heatAll e q h)) (heatAll e q)
      = sumOthers h (hostTidalDLTerm m.tides (q h)) q :=
    sumOthers_heat h (fun x a => hostTidalDLTerm_heat hm _ _ _ _) e q
  rw [this, mapHost_heat h]
  exact fun _ _ => rfl

theorem companionTidalForce_heat {m : Models F} (hm : IgnoresHeat m) (x y : F) (a b : Particle F) :
    companionTidalForce m.tides (heat x a) (heat y b) = companionTidalForce m.tides a b := by
  unfold companionTidalForce
  try dsimp only
  rw [show (heat y b).tides.effect = b.tides.effect from rfl]
  generalize b.tides.effect = o
  cases o with
  | orbiting model => dsimp only; rw [tidalForce_heat hm]
  | _ => rfl

theorem companionTidalAcceleration_heat {m : Models F} (hm : IgnoresHeat m) (x y : F) (a b : Particle F) :
    companionTidalAcceleration m.tides (heat x a) (heat y b)
      = heat y (companionTidalAcceleration m.tides a b) := by
  unfold companionTidalAcceleration
  try dsimp only
  rw [show (heat y b).tides.effect = b.tides.effect from rfl]
  generalize b.tides.effect = o
  cases o with
  | orbiting model => dsimp only; rw [tidalForce_heat hm]; rfl
  | _ => rfl

theorem foldl_heat {ι : Type} (l : List ι) (f : (Fin n → Particle F) → ι → (Fin n → Particle F))
    (e : Fin n → F) (hf : ∀ q i, f (heatAll e q) i = heatAll e (f q i)) (p : Fin n → Particle F) :
    l.foldl f (heatAll e p) = heatAll e (l.foldl f p) := by
  induction l generalizing p with
  | nil => rfl
  | cons a l ih => simp only [List.foldl_cons, hf, ih]

theorem tidalAcceleration_heat {m : Models F} (hm : IgnoresHeat m) (h : Fin n) (e : Fin n → F)
    (p : Fin n → Particle F) :
    tidalAcceleration m.tides h (heatAll e p) = heatAll e (tidalAcceleration m.tides h p) := by
  unfold tidalAcceleration
  dsimp only
  have h1 : sumOthers h (companionTidalForce m.tides (heatAll e p h)) (heatAll e p)
      = sumOthers h (companionTidalForce m.tides (p h)) p :=
    sumOthers_heat h (fun x a => companionTidalForce_heat hm _ _ _ _) e p
  rw [h1, mapOthers_heat h (companionTidalAcceleration_heat hm), mapHost_heat h (fun _ _ => rfl)]
  try dsimp only
  rw [show (heatAll e p h).tides.effect = (p h).tides.effect from rfl]
  generalize (p h).tides.effect = o
  rcases o with (_ | _ | _) | _ | _
  any_goals rfl
  refine foldl_heat _ _ _ ?_ _
  intro q i
  funext j
  have hk : kaulaHostStep m.tides (heatAll e q h) (heatAll e q i)
      = (heat (e h) (kaulaHostStep m.tides (q h) (q i)).1, heat (e i) (kaulaHostStep m.tides (q h) (q i)).2) := by
    unfold kaulaHostStep heatAll
    dsimp only
    rw [hm.kaulaForce]
    rfl
  try dsimp only
  rw [hk]
  unfold heatAll
  by_cases h1 : j = h
  · subst h1; simp
  · by_cases h2 : j = i
    · subst h2; simp [h1]
    · simp [h1, h2]

/-! ### Flattening -/

theorem flatteningOrthogonal_heat (h : Fin n) (e : Fin n → F) (p : Fin n → Particle F) :
    flatteningOrthogonal h (heatAll e p) = heatAll e (flatteningOrthogonal h p) := by
  unfold flatteningOrthogonal
  rw [mapOthers_heat h, mapOthers_heat h]
  · intro x y a b
    unfold oblatePlanetStep
    try dsimp only
    rw [show (heat y b).flattening.effect = b.flattening.effect from rfl]
    generalize b.flattening.effect = o
    rcases o with (_ | _) | (_ | _) | _ <;> rfl
  · intro x y a b
    unfold oblateStarStep
    try dsimp only
    rw [show (heat y b).flattening.effect = b.flattening.effect from rfl]
    generalize b.flattening.effect = o
    rcases o with (_ | _) | (_ | _) | _ <;> rfl

theorem flatteningRadial_heat (h : Fin n) (e : Fin n → F) (p : Fin n → Particle F) :
    flatteningRadial h (heatAll e p) = heatAll e (flatteningRadial h p) := by
  unfold flatteningRadial
  rw [mapOthers_heat h]
  intro x y a b
  unfold flatteningRadialStep
  try dsimp only
  rw [show (heat y b).flattening.effect.isOrbiting = b.flattening.effect.isOrbiting from rfl]
  generalize b.flattening.effect.isOrbiting = o
  cases o <;> rfl

theorem flatteningInitialize_heat (h : Fin n) (e : Fin n → F) (p : Fin n → Particle F) :
    flatteningInitialize h (heatAll e p) = heatAll e (flatteningInitialize h p) := by
  unfold flatteningInitialize
  try dsimp only
  rw [show (heatAll e p h).flattening.effect.isCentral = (p h).flattening.effect.isCentral from rfl]
  generalize (p h).flattening.effect.isCentral = o
  cases o <;> simp only [Bool.false_eq_true, if_true, if_false]
  rw [mapHost_heat h, mapOthers_heat h]
  · intro x y a b
    try dsimp only
    rw [show (heat y b).flattening.effect.isOrbiting = b.flattening.effect.isOrbiting from rfl]
    generalize b.flattening.effect.isOrbiting = o
    cases o <;> rfl
  · exact fun _ _ => rfl

theorem flatteningCopyHeliocentric_heat (h : Fin n) (e : Fin n → F) (p : Fin n → Particle F) :
    flatteningCopyHeliocentric h (heatAll e p) = heatAll e (flatteningCopyHeliocentric h p) := by
  unfold flatteningCopyHeliocentric
  try dsimp only
  rw [show (heatAll e p h).flattening.effect.isCentral = (p h).flattening.effect.isCentral from rfl]
  generalize (p h).flattening.effect.isCentral = o
  cases o <;> simp only [Bool.false_eq_true, if_true, if_false]
  rw [mapHost_heat h, mapOthers_heat h]
  · intro x y a b
    try dsimp only
    rw [show (heat y b).flattening.effect.isOrbiting = b.flattening.effect.isOrbiting from rfl]
    generalize b.flattening.effect.isOrbiting = o
    cases o <;> rfl
  · exact fun _ _ => rfl

theorem flatteningInertialToHeliocentric_heat (h : Fin n) (e : Fin n → F) (p : Fin n → Particle F) :
    flatteningInertialToHeliocentric h (heatAll e p) = heatAll e (flatteningInertialToHeliocentric h p) := by
  unfold flatteningInertialToHeliocentric
  try dsimp only
  rw [show (heatAll e p h).flattening.effect.isCentral = (p h).flattening.effect.isCentral from rfl]
  generalize (p h).flattening.effect.isCentral = o
  cases o <;> simp only [Bool.false_eq_true, if_true, if_false]
  rw [mapHost_heat h, mapOthers_heat h]
  · intro x y a b
    try dsimp only
    rw [show (heat y b).flattening.effect.isOrbiting = b.flattening.effect.isOrbiting from rfl]
    generalize b.flattening.effect.isOrbiting = o
    cases o <;> rfl
  · exact fun _ _ => rfl

theorem flatteningShapes_heat {m : Models F} (hm : IgnoresHeat m) (h : Fin n) (e : Fin n → F)
    (p : Fin n → Particle F) : flatteningShapes m h (heatAll e p) = heatAll e (flatteningShapes m h p) := by
  unfold flatteningShapes
  rw [mapOthers_heat h]
  intro x y a b
  try dsimp only
  rw [show eqb (heat y b).flattening.effect.viscosity (lit 0) = eqb b.flattening.effect.viscosity (lit 0) from rfl]
  generalize eqb b.flattening.effect.viscosity (lit 0) = o
  cases o <;> simp only [Bool.false_eq_true, if_true, if_false]
  rw [hm.flatteningShape]; rfl

theorem flatteningTorque_heat {m : Models F} (hm : IgnoresHeat m) (model : FlatteningModel F) (x y : F)
    (a b : Particle F) (c : Bool) :
    flatteningTorque m.flattening model (heat x a) (heat y b) c = flatteningTorque m.flattening model a b c := by
  unfold flatteningTorque
  cases model
  · rfl
  · exact hm.flatteningTorque ..

theorem flatteningForce_heat {m : Models F} (hm : IgnoresHeat m) (model : FlatteningModel F) (x y : F)
    (a b : Particle F) :
    flatteningForce m.flattening model (heat x a) (heat y b) = flatteningForce m.flattening model a b := by
  unfold flatteningForce
  cases model
  · rfl
  · exact hm.flatteningForce ..

theorem companionFlatteningDL_heat {m : Models F} (hm : IgnoresHeat m) (x y : F) (a b : Particle F) :
    companionFlatteningDL m.flattening (heat x a) (heat y b)
      = heat y (companionFlatteningDL m.flattening a b) := by
  unfold companionFlatteningDL
  try dsimp only
  rw [show (heat y b).flattening.effect = b.flattening.effect from rfl]
  generalize b.flattening.effect = o
  cases o with
  | orbiting model => dsimp only; rw [flatteningTorque_heat hm]; rfl
  | _ => rfl

theorem hostFlatteningDLTerm_heat {m : Models F} (hm : IgnoresHeat m) (x y : F) (a b : Particle F) :
    hostFlatteningDLTerm m.flattening (heat x a) (heat y b) = hostFlatteningDLTerm m.flattening a b := by
  unfold hostFlatteningDLTerm
  try dsimp only
  rw [show (heat x a).flattening.effect = a.flattening.effect from rfl]
  generalize a.flattening.effect = o
  cases o with
  | central model => dsimp only; rw [flatteningTorque_heat hm]
  | _ => rfl

theorem flatteningDL_heat {m : Models F} (hm : IgnoresHeat m) (h : Fin n) (e : Fin n → F)
    (p : Fin n → Particle F) :
    flatteningDL m.flattening h (heatAll e p) = heatAll e (flatteningDL m.flattening h p) := by
  unfold flatteningDL
  dsimp only
  rw [mapOthers_heat h (companionFlatteningDL_heat hm)]
  set q := mapOthers h (companionFlatteningDL m.flattening) p
  have : sumOthers h (hostFlatteningDLTerm m.flattening (heatAll e q h)) (heatAll e q)
      = sumOthers h (hostFlatteningDLTerm m.flattening (q h)) q :=
    sumOthers_heat h (fun x a => hostFlatteningDLTerm_heat hm _ _ _ _) e q
  rw [this, mapHost_heat h]
  exact fun _ _ => rfl

theorem companionFlatteningForce_heat {m : Models F} (hm : IgnoresHeat m) (x y : F) (a b : Particle F) :
    companionFlatteningForce m.flattening (heat x a) (heat y b)
      = companionFlatteningForce m.flattening a b := by
  unfold companionFlatteningForce
  try dsimp only
  rw [show (heat y b).flattening.effect = b.flattening.effect from rfl]
  generalize b.flattening.effect = o
  cases o with
  | orbiting model => dsimp only; rw [flatteningForce_heat hm]
  | _ => rfl

theorem companionFlatteningAcceleration_heat {m : Models F} (hm : IgnoresHeat m) (x y : F) (a b : Particle F) :
    companionFlatteningAcceleration m.flattening (heat x a) (heat y b)
      = heat y (companionFlatteningAcceleration m.flattening a b) := by
  unfold companionFlatteningAcceleration
  try dsimp only
  rw [show (heat y b).flattening.effect = b.flattening.effect from rfl]
  generalize b.flattening.effect = o
  cases o with
  | orbiting model => dsimp only; rw [flatteningForce_heat hm]; rfl
  | _ => rfl

theorem flatteningAcceleration_heat {m : Models F} (hm : IgnoresHeat m) (h : Fin n) (e : Fin n → F)
    (p : Fin n → Particle F) :
    flatteningAcceleration m.flattening h (heatAll e p)
      = heatAll e (flatteningAcceleration m.flattening h p) := by
  unfold flatteningAcceleration
  dsimp only
  have h1 : sumOthers h (companionFlatteningForce m.flattening (heatAll e p h)) (heatAll e p)
      = sumOthers h (companionFlatteningForce m.flattening (p h)) p :=
    sumOthers_heat h (fun x a => companionFlatteningForce_heat hm _ _ _ _) e p
  rw [h1, mapOthers_heat h (companionFlatteningAcceleration_heat hm), mapHost_heat h (fun _ _ => rfl)]

/-! ### Disk and wind -/

theorem windInitialize_heat (x : F) (p : Particle F) : windInitialize (heat x p) = heat x (windInitialize p) := by
  unfold windInitialize
  try dsimp only
  rw [show (heat x p).wind.interaction = p.wind.interaction from rfl]
  generalize p.wind.interaction = o
  cases o <;> rfl

theorem windFactor_heat (k : Consts F) (x : F) (p : Particle F) :
    windFactor k (heat x p) = heat x (windFactor k p) := by
  unfold windFactor
  try dsimp only
  rw [show (heat x p).wind.interaction = p.wind.interaction from rfl]
  generalize p.wind.interaction = o
  cases o <;> rfl

theorem diskInitialize_heat (h : Fin n) (e : Fin n → F) (p : Fin n → Particle F) :
    diskInitialize h (heatAll e p) = heatAll e (diskInitialize h p) := by
  unfold diskInitialize
  try dsimp only
  rw [show (heatAll e p h).disk.effect.central? = (p h).disk.effect.central? from rfl]
  generalize (p h).disk.effect.central? = o
  rcases o with _ | d
  · rfl
  · dsimp only
    rw [mapHost_heat h, mapOthers_heat h]
    · intro x y a b
      try dsimp only
      rw [show (heat y b).disk.effect.isOrbiting = b.disk.effect.isOrbiting from rfl]
      generalize b.disk.effect.isOrbiting = o
      cases o <;> rfl
    · exact fun _ _ => rfl

theorem diskCopyHeliocentric_heat (h : Fin n) (e : Fin n → F) (p : Fin n → Particle F) :
    diskCopyHeliocentric h (heatAll e p) = heatAll e (diskCopyHeliocentric h p) := by
  unfold diskCopyHeliocentric
  try dsimp only
  rw [show (heatAll e p h).disk.effect.central? = (p h).disk.effect.central? from rfl]
  generalize (p h).disk.effect.central? = o
  rcases o with _ | d
  · rfl
  · dsimp only
    rw [mapHost_heat h, mapOthers_heat h]
    · intro x y a b
      try dsimp only
      rw [show (heat y b).disk.effect.isOrbiting = b.disk.effect.isOrbiting from rfl]
      generalize b.disk.effect.isOrbiting = o
      cases o <;> rfl
    · exact fun _ _ => rfl

theorem diskInertialToHeliocentric_heat (h : Fin n) (e : Fin n → F) (p : Fin n → Particle F) :
    diskInertialToHeliocentric h (heatAll e p) = heatAll e (diskInertialToHeliocentric h p) := by
  unfold diskInertialToHeliocentric
  try dsimp only
  rw [show (heatAll e p h).disk.effect.central? = (p h).disk.effect.central? from rfl]
  generalize (p h).disk.effect.central? = o
  rcases o with _ | d
  · rfl
  · dsimp only
    rw [mapHost_heat h, mapOthers_heat h]
    · intro x y a b
      try dsimp only
      rw [show (heat y b).disk.effect.isOrbiting = b.disk.effect.isOrbiting from rfl]
      generalize b.disk.effect.isOrbiting = o
      cases o <;> rfl
    · exact fun _ _ => rfl

theorem diskAcceleration_heat (k : Consts F) (time : F) (h : Fin n) (e : Fin n → F) (p : Fin n → Particle F) :
    diskAcceleration k time h (heatAll e p) = heatAll e (diskAcceleration k time h p) := by
  unfold diskAcceleration
  try dsimp only
  rw [show (heatAll e p h).disk.effect.central? = (p h).disk.effect.central? from rfl]
  generalize (p h).disk.effect.central? = o
  rcases o with _ | d
  · rfl
  · dsimp only
    have h1 : sumOthers h (diskForceTerm k time d (heatAll e p h)) (heatAll e p)
        = sumOthers h (diskForceTerm k time d (p h)) p := sumOthers_heat h (fun x a => rfl) e p
    have h2 : ∀ x y a b, diskStep k time d (heat x a) (heat y b) = heat y (diskStep k time d a b) := by
      intro x y a b
      unfold diskStep
      try dsimp only
      rw [show (heat y b).disk.effect.isOrbiting = b.disk.effect.isOrbiting from rfl]
      generalize b.disk.effect.isOrbiting = o
      cases o <;> rfl
    rw [h1, mapOthers_heat h h2]
    split
    · rfl
    · rw [mapHost_heat h (fun _ _ => rfl)]

/-! ### General relativity -/

theorem grInitialize_heat (h : Fin n) (e : Fin n → F) (p : Fin n → Particle F) :
    grInitialize h (heatAll e p) = heatAll e (grInitialize h p) := by
  have key : ∀ (f : Particle F → Particle F → Particle F) (g : Particle F → Particle F),
      (∀ x y a b, f (heat x a) (heat y b) = heat y (f a b)) → (∀ x a, g (heat x a) = heat x (g a)) →
      mapOthers h f (mapHost h g (heatAll e p)) = heatAll e (mapOthers h f (mapHost h g p)) := by
    intro f g hf hg
    rw [mapHost_heat h hg, mapOthers_heat h hf]
  unfold grInitialize
  try dsimp only
  rw [show (heatAll e p h).gr.effect.implementation? = (p h).gr.effect.implementation? from rfl]
  generalize (p h).gr.effect.implementation? = o
  rcases o with _ | (_ | _ | _ | _)
  any_goals rfl
  · refine key _ _ ?_ (fun _ _ => rfl)
    intro x y a b
    try dsimp only
    rw [show (heat y b).gr.effect.isOrbiting = b.gr.effect.isOrbiting from rfl]
    generalize b.gr.effect.isOrbiting = o
    cases o <;> rfl
  · refine key _ _ ?_ (fun _ _ => rfl)
    intro x y a b
    try dsimp only
    rw [show (heat y b).gr.effect.isOrbiting = b.gr.effect.isOrbiting from rfl]
    generalize b.gr.effect.isOrbiting = o
    cases o <;> rfl

theorem grCopyHeliocentric_heat (h : Fin n) (e : Fin n → F) (p : Fin n → Particle F) :
    grCopyHeliocentric h (heatAll e p) = heatAll e (grCopyHeliocentric h p) := by
  unfold grCopyHeliocentric
  try dsimp only
  rw [show (heatAll e p h).gr.effect.implementation? = (p h).gr.effect.implementation? from rfl]
  generalize (p h).gr.effect.implementation? = o
  rcases o with _ | (_ | _ | _ | _)
  any_goals rfl
  all_goals
    dsimp only
    rw [mapHost_heat h, mapOthers_heat h]
    · intro x y a b
      try dsimp only
      rw [show (heat y b).gr.effect.isOrbiting = b.gr.effect.isOrbiting from rfl]
      generalize b.gr.effect.isOrbiting = o
      cases o <;> rfl
    · exact fun _ _ => rfl

theorem grInertialToHeliocentric_heat (h : Fin n) (e : Fin n → F) (p : Fin n → Particle F) :
    grInertialToHeliocentric h (heatAll e p) = heatAll e (grInertialToHeliocentric h p) := by
  unfold grInertialToHeliocentric
  try dsimp only
  rw [show (heatAll e p h).gr.effect.implementation? = (p h).gr.effect.implementation? from rfl]
  generalize (p h).gr.effect.implementation? = o
  rcases o with _ | (_ | _ | _ | _)
  any_goals rfl
  all_goals
    dsimp only
    rw [mapHost_heat h, mapOthers_heat h]
    · intro x y a b
      try dsimp only
      rw [show (heat y b).gr.effect.isOrbiting = b.gr.effect.isOrbiting from rfl]
      generalize b.gr.effect.isOrbiting = o
      cases o <;> rfl
    · exact fun _ _ => rfl

theorem orbiting_heat {f : Particle F → Particle F → Particle F}
    (hf : ∀ x y a b, f (heat x a) (heat y b) = heat y (f a b)) (x y : F) (a b : Particle F) :
    (if (heat y b).gr.effect.isOrbiting then f (heat x a) (heat y b) else heat y b)
      = heat y (if b.gr.effect.isOrbiting then f a b else b) := by
  try dsimp only
  rw [show (heat y b).gr.effect.isOrbiting = b.gr.effect.isOrbiting from rfl]
  generalize b.gr.effect.isOrbiting = o
  cases o <;> simp only [Bool.false_eq_true, if_true, if_false]
  exact hf ..

theorem kidderFirst_heat (k : Consts F) (h : Fin n) (e : Fin n → F) (p : Fin n → Particle F) :
    kidderFirst k h (heatAll e p) = heatAll e (kidderFirst k h p) := by
  unfold kidderFirst
  dsimp only
  have h1 : sumOthers h (recoilTerm (kidderFirstOrder k) (heatAll e p h)) (heatAll e p)
      = sumOthers h (recoilTerm (kidderFirstOrder k) (p h)) p := sumOthers_heat h (fun x a => rfl) e p
  rw [h1, mapOthers_heat h, mapHost_heat h]
  · exact fun _ _ => rfl
  · intro x y a b
    try dsimp only
    rw [show (heat y b).gr.effect.isOrbiting = b.gr.effect.isOrbiting from rfl]
    generalize b.gr.effect.isOrbiting = o
    cases o <;> rfl

theorem kidderSecond_heat (k : Consts F) (h : Fin n) (e : Fin n → F) (p : Fin n → Particle F) :
    kidderSecond k h (heatAll e p) = heatAll e (kidderSecond k h p) := by
  unfold kidderSecond
  dsimp only
  have h1 : sumOthers h (recoilTerm (kidderSecondOrder k) (heatAll e p h)) (heatAll e p)
      = sumOthers h (recoilTerm (kidderSecondOrder k) (p h)) p := sumOthers_heat h (fun x a => rfl) e p
  rw [h1, mapOthers_heat h, mapHost_heat h]
  · exact fun _ _ => rfl
  · intro x y a b
    try dsimp only
    rw [show (heat y b).gr.effect.isOrbiting = b.gr.effect.isOrbiting from rfl]
    generalize b.gr.effect.isOrbiting = o
    cases o <;> rfl

theorem kidderThird_heat (k : Consts F) (h : Fin n) (e : Fin n → F) (p : Fin n → Particle F) :
    kidderThird k h (heatAll e p) = heatAll e (kidderThird k h p) := by
  unfold kidderThird
  dsimp only
  have h1 : sumOthers h (recoilTerm (kidderSpinOrbit k) (heatAll e p h)) (heatAll e p)
      = sumOthers h (recoilTerm (kidderSpinOrbit k) (p h)) p := sumOthers_heat h (fun x a => rfl) e p
  have h2 : sumOthers h (hostTorqueTerm k (heatAll e p h)) (heatAll e p)
      = sumOthers h (hostTorqueTerm k (p h)) p := sumOthers_heat h (fun x a => rfl) e p
  rw [h1, h2, mapOthers_heat h, mapHost_heat h]
  · exact fun _ _ => rfl
  · intro x y a b
    try dsimp only
    rw [show (heat y b).gr.effect.isOrbiting = b.gr.effect.isOrbiting from rfl]
    generalize b.gr.effect.isOrbiting = o
    cases o <;> rfl

theorem orbitingUpdate_heat (h : Fin n) (e : Fin n → F) (p : Fin n → Particle F) (a : Fin n → Axes F) :
    mapHost h (fun host => { host with gr := { host.gr with acceleration := a h } })
      (fun i => if i = h then heatAll e p i else
        if (heatAll e p i).gr.effect.isOrbiting then
          { heatAll e p i with gr := { (heatAll e p i).gr with acceleration := a i } } else heatAll e p i)
      = heatAll e (mapHost h (fun host => { host with gr := { host.gr with acceleration := a h } })
        (fun i => if i = h then p i else
          if (p i).gr.effect.isOrbiting then { p i with gr := { (p i).gr with acceleration := a i } } else p i)) := by
  rw [← mapHost_heat h (fun _ _ => rfl)]
  congr 1
  funext i
  unfold heatAll
  by_cases hi : i = h
  · simp only [hi, if_true]
  · simp only [hi, if_false]
    exact orbiting_heat (f := fun _ b => { b with gr := { b.gr with acceleration := a i } })
      (fun _ _ _ _ => rfl) (e i) (e i) (p i) (p i)

theorem anderson_heat (k : Consts F) (eps2 : F) (ignore : Ignore) (h : Fin n) (e : Fin n → F)
    (p : Fin n → Particle F) :
    anderson k eps2 ignore h (heatAll e p) = heatAll e (anderson k eps2 ignore h p) :=
  orbitingUpdate_heat h e p _

theorem newhallLoop_heat (k : Consts F) (h : Fin n) (e : Fin n → F) (p : Fin n → Particle F)
    (newton : Fin n → Axes F) (fuel : Nat) (a : Fin n → Axes F) :
    newhallLoop k h (heatAll e p) newton fuel a = newhallLoop k h p newton fuel a := by
  have h1 : ∀ a, newhallSweep k h (heatAll e p) newton a = newhallSweep k h p newton a := fun _ => rfl
  have h2 : ∀ a b, newhallMaxDev h (heatAll e p) a b = newhallMaxDev h p a b := fun _ _ => rfl
  induction fuel generalizing a with
  | zero => rfl
  | succ fuel ih =>
    unfold newhallLoop
    dsimp only
    rw [h1, h2, ih]

theorem newhall_heat (k : Consts F) (ignore : Ignore) (h : Fin n) (e : Fin n → F)
    (p : Fin n → Particle F) :
    newhall k ignore h (heatAll e p) = heatAll e (newhall k ignore h p) := by
  unfold newhall
  dsimp only
  rw [newhallLoop_heat]
  exact orbitingUpdate_heat h e p _

theorem generalRelativity_heat (k : Consts F) (eps2 : F) (ignore : Ignore) (h : Fin n) (e : Fin n → F)
    (p : Fin n → Particle F) :
    generalRelativity k eps2 ignore h (heatAll e p) = heatAll e (generalRelativity k eps2 ignore h p) := by
  unfold generalRelativity
  try dsimp only
  rw [show (heatAll e p h).gr.effect = (p h).gr.effect from rfl]
  generalize (p h).gr.effect = o
  rcases o with (_ | _ | _ | _) | _ | _
  · unfold kidder
    rw [kidderFirst_heat, kidderSecond_heat, kidderThird_heat]
  · exact anderson_heat ..
  · exact newhall_heat ..
  · rfl
  · rfl
  · rfl

/-! ### The universe -/

theorem initializeEffect_heat {active isMm all : Bool} {mm : Fin n} {host : Option (Fin n)}
    {copy convert init : Fin n → (Fin n → Particle F) → (Fin n → Particle F)} {e : Fin n → F}
    (hc : ∀ h p, copy h (heatAll e p) = heatAll e (copy h p))
    (hv : ∀ h p, convert h (heatAll e p) = heatAll e (convert h p))
    (hi : ∀ h p, init h (heatAll e p) = heatAll e (init h p)) (p : Fin n → Particle F) :
    initializeEffect active isMm all mm host copy convert init (heatAll e p)
      = (initializeEffect active isMm all mm host copy convert init p).map (heatAll e) := by
  unfold initializeEffect
  cases active <;> cases isMm <;> cases all <;> cases host <;> simp [withHost, hc, hv, hi]

theorem initializeAll_heat (dL acc : Bool) (e : Fin n → F) (u : Universe F n) :
    initializeAll dL acc (setHeat e u) = (initializeAll dL acc u).map (setHeat e) := by
  unfold initializeAll
  dsimp only [setHeat]
  have hw : (if dL && u.consider.wind then fun i => windInitialize (heatAll e u.particles i)
        else heatAll e u.particles)
      = heatAll e (if dL && u.consider.wind then fun i => windInitialize (u.particles i) else u.particles) := by
    split
    · funext i; exact windInitialize_heat _ _
    · rfl
  rw [hw, initializeEffect_heat (fun h p => tidesCopyHeliocentric_heat h e p)
    (fun h p => tidesInertialToHeliocentric_heat h e p) (fun h p => tidesInitialize_heat h e p)]
  split <;> rename_i h1
  · rw [Option.map_eq_none_iff] at h1
    rw [h1]; rfl
  obtain ⟨p1, h1', rfl⟩ := Option.map_eq_some_iff.1 h1
  rw [h1']
  dsimp only
  rw [initializeEffect_heat (fun h p => flatteningCopyHeliocentric_heat h e p)
    (fun h p => flatteningInertialToHeliocentric_heat h e p) (fun h p => flatteningInitialize_heat h e p)]
  split <;> rename_i h2
  · rw [Option.map_eq_none_iff] at h2
    rw [h2]; rfl
  obtain ⟨p2, h2', rfl⟩ := Option.map_eq_some_iff.1 h2
  rw [h2']
  dsimp only
  rw [initializeEffect_heat (fun h p => grCopyHeliocentric_heat h e p)
    (fun h p => grInertialToHeliocentric_heat h e p) (fun h p => grInitialize_heat h e p)]
  split <;> rename_i h3
  · rw [Option.map_eq_none_iff] at h3
    rw [h3]; rfl
  obtain ⟨p3, h3', rfl⟩ := Option.map_eq_some_iff.1 h3
  rw [h3']
  dsimp only
  rw [initializeEffect_heat (fun h p => diskCopyHeliocentric_heat h e p)
    (fun h p => diskInertialToHeliocentric_heat h e p) (fun h p => diskInitialize_heat h e p)]
  split <;> rename_i h4
  · rw [Option.map_eq_none_iff] at h4
    rw [h4]; rfl
  obtain ⟨p4, h4', rfl⟩ := Option.map_eq_some_iff.1 h4
  rw [h4']
  cases acc <;> rfl

theorem spinAndEvolving_heat (k : Consts F) (time : F) (evolve : Bool) (x : F) (p : Particle F) (v : Evolver F) :
    spinAndEvolving k time evolve (heat x p) v
      = (spinAndEvolving k time evolve p v).map (fun r => (heat x r.1, r.2)) := by
  have hs : ∀ q : Particle F, calculateSpin (heat x q) = (calculateSpin q).map (heat x) := by
    intro q
    unfold calculateSpin
    rw [show (heat x q).momentOfInertia = q.momentOfInertia from rfl]
    by_cases hq : eqb q.momentOfInertia (lit 0) = true
    · simp only [hq, if_true]; rfl
    · simp only [hq, Bool.false_eq_true, if_false]; rfl
  have he : ∀ q : Particle F, evolutionPart (heat x q) = evolutionPart q := fun _ => rfl
  have hw : ∀ (q : Particle F) r, withEvolution (heat x q) r = heat x (withEvolution q r) := fun _ _ => rfl
  unfold spinAndEvolving
  cases evolve
  · simp only [Bool.false_eq_true, if_false, hs]
    cases calculateSpin p <;> rfl
  · simp only [if_true, he, hw, hs]
    cases Evolution.nonSpinDependent time (evolutionPart p) v with
    | none => rfl
    | some r =>
      obtain ⟨q, e1⟩ := r
      dsimp only
      cases calculateSpin (withEvolution p q) with
      | none => rfl
      | some p1 =>
        simp only [Option.map_some, he]
        cases Evolution.spinDependent k.sunDynFreq2 time (evolutionPart p1) e1 <;> rfl

theorem traverse_map {α β : Type} (f : Fin n → Option α) (g : Fin n → α → β) :
    traverse (fun i => (f i).map (g i)) = (traverse f).map (fun r i => g i (r i)) := by
  unfold traverse
  by_cases h : ∀ i, (f i).isSome
  · have h' : ∀ i, ((f i).map (g i)).isSome := fun i => by simpa using h i
    rw [dif_pos h, dif_pos h', Option.map_some]
    congr 1
    funext i
    simp [Option.get_map]
  · have h' : ¬ ∀ i, ((f i).map (g i)).isSome := fun c => h fun i => by simpa using c i
    rw [dif_neg h, dif_neg h', Option.map_none]

theorem calculateSpinAndEvolving_heat (k : Consts F) (time : F) (evolution : Bool) (e : Fin n → F)
    (u : Universe F n) :
    calculateSpinAndEvolving k time evolution (setHeat e u)
      = (calculateSpinAndEvolving k time evolution u).map (setHeat e) := by
  unfold calculateSpinAndEvolving
  have : (fun i => spinAndEvolving k time (evolution && (setHeat e u).consider.evolution)
        ((setHeat e u).particles i) ((setHeat e u).evolvers i))
      = fun i => (spinAndEvolving k time (evolution && u.consider.evolution) (u.particles i) (u.evolvers i)).map
          ((fun j r => (heat (e j) r.1, r.2)) i) := by
    funext i
    exact spinAndEvolving_heat ..
  rw [this, traverse_map]
  cases traverse fun i => spinAndEvolving k time (evolution && u.consider.evolution) (u.particles i) (u.evolvers i) <;>
    rfl

theorem tidesAndFlattening_heat {m : Models F} (hm : IgnoresHeat m) (k : Consts F) (dL acc : Bool) (c : Consider)
    (h : Fin n) (e : Fin n → F) (p : Fin n → Particle F) (t : Table F) :
    tidesAndFlattening k m dL acc c h (heatAll e p) t
      = (heatAll e (tidesAndFlattening k m dL acc c h p t).1, (tidesAndFlattening k m dL acc c h p t).2) := by
  have hif : ∀ (b : Bool) (f : (Fin n → Particle F) → (Fin n → Particle F)) (q : Fin n → Particle F),
      (∀ q, f (heatAll e q) = heatAll e (f q)) →
      (if b then f (heatAll e q) else heatAll e q) = heatAll e (if b then f q else q) := by
    intro b f q hf
    cases b
    · rfl
    · exact hf q
  unfold tidesAndFlattening
  split
  · dsimp only
    rw [pairFactors_heat]
    generalize pairFactors k h p t = t1
    rw [hif _ (fun q => tidesShapes m h (orthogonalComponent t1 h q)) p
      (fun q => by rw [orthogonalComponent_heat, tidesShapes_heat hm])]
    generalize (if c.tides = true then tidesShapes m h (orthogonalComponent t1 h p) else p) = p1
    rw [hif _ (fun q => flatteningShapes m h (flatteningOrthogonal h q)) p1
      (fun q => by rw [flatteningOrthogonal_heat, flatteningShapes_heat hm])]
    generalize (if c.flattening = true then flatteningShapes m h (flatteningOrthogonal h p1) else p1) = p2
    rw [hif _ (fun q => tidalAcceleration m.tides h (radialComponent k t1 h q)) p2
      (fun q => by rw [radialComponent_heat, tidalAcceleration_heat hm])]
    generalize (if (acc && c.tides) = true then tidalAcceleration m.tides h (radialComponent k t1 h p2) else p2) = p3
    rw [hif _ (fun q => flatteningAcceleration m.flattening h (flatteningRadial h q)) p3
      (fun q => by rw [flatteningRadial_heat, flatteningAcceleration_heat hm])]
    generalize (if (acc && c.flattening) = true then flatteningAcceleration m.flattening h (flatteningRadial h p3)
      else p3) = p4
    rw [hif _ (fun q => tidalDL m.tides h q) p4 (fun q => by rw [tidalDL_heat hm])]
    generalize (if (dL && c.tides) = true then tidalDL m.tides h p4 else p4) = p5
    rw [hif _ (fun q => flatteningDL m.flattening h q) p5 (fun q => by rw [flatteningDL_heat hm])]
  · rfl

theorem effects_heat {m : Models F} (hm : IgnoresHeat m) (k : Consts F) (eps2 time : F) (dL acc : Bool)
    (ignore : Ignore) (e : Fin n → F) (u : Universe F n) :
    effects k m eps2 time dL acc ignore (setHeat e u)
      = (effects k m eps2 time dL acc ignore u).map (setHeat e) := by
  unfold effects
  dsimp only [setHeat]
  have hw : (if dL && u.consider.wind then fun i => windFactor k (heatAll e u.particles i)
        else heatAll e u.particles)
      = heatAll e (if dL && u.consider.wind then fun i => windFactor k (u.particles i) else u.particles) := by
    split
    · funext i; exact windFactor_heat _ _ _
    · rfl
  rw [hw]
  generalize (if dL && u.consider.wind then fun i => windFactor k (u.particles i) else u.particles) = p0
  have h1 : (if u.consider.tides || u.consider.flattening then
        withHost u.hosts.tides (fun h => tidesAndFlattening k m dL acc u.consider h (heatAll e p0) u.table)
      else some (heatAll e p0, u.table))
      = (if u.consider.tides || u.consider.flattening then
        withHost u.hosts.tides (fun h => tidesAndFlattening k m dL acc u.consider h p0 u.table)
      else some (p0, u.table)).map (fun r => (heatAll e r.1, r.2)) := by
    split
    · cases u.hosts.tides with
      | none => rfl
      | some h => simp only [withHost, Option.map_some]; rw [tidesAndFlattening_heat hm]
    · rfl
  rw [h1]
  cases (if u.consider.tides || u.consider.flattening then
        withHost u.hosts.tides (fun h => tidesAndFlattening k m dL acc u.consider h p0 u.table)
      else some (p0, u.table)) with
  | none => rfl
  | some r =>
  obtain ⟨p1, t1⟩ := r
  dsimp only [Option.map_some]
  have h2 : (if acc && u.consider.gr then
        withHost u.hosts.gr (fun h => generalRelativity k eps2 ignore h (heatAll e p1)) else some (heatAll e p1))
      = (if acc && u.consider.gr then withHost u.hosts.gr (fun h => generalRelativity k eps2 ignore h p1)
        else some p1).map (heatAll e) := by
    split
    · cases u.hosts.gr with
      | none => rfl
      | some h => simp only [withHost, Option.map_some]; rw [generalRelativity_heat]
    · rfl
  rw [h2]
  cases (if acc && u.consider.gr then withHost u.hosts.gr (fun h => generalRelativity k eps2 ignore h p1)
        else some p1) with
  | none => rfl
  | some p2 =>
  dsimp only [Option.map_some]
  have h3 : (if acc && u.consider.disk then
        withHost u.hosts.disk (fun h => diskAcceleration k time h (heatAll e p2)) else some (heatAll e p2))
      = (if acc && u.consider.disk then withHost u.hosts.disk (fun h => diskAcceleration k time h p2)
        else some p2).map (heatAll e) := by
    split
    · cases u.hosts.disk with
      | none => rfl
      | some h => simp only [withHost, Option.map_some]; rw [diskAcceleration_heat]
    · rfl
  rw [h3]
  cases (if acc && u.consider.disk then withHost u.hosts.disk (fun h => diskAcceleration k time h p2)
        else some p2) with
  | none => rfl
  | some p3 =>
  dsimp only [Option.map_some]
  generalize (dL && (u.consider.tides || u.consider.flattening
    || (u.consider.gr && (u.grImplementation == .kidder1995)) || u.consider.wind)) = b
  cases b <;> cases acc <;> rfl

theorem additionalEffects_heat {m : Models F} (hm : IgnoresHeat m) (k : Consts F) (eps2 time : F)
    (evolution dL acc : Bool) (ignore : Ignore) (e : Fin n → F) (u : Universe F n) :
    calculateAdditionalEffects k m eps2 time evolution dL acc ignore (setHeat e u)
      = (calculateAdditionalEffects k m eps2 time evolution dL acc ignore u).map (setHeat e) := by
  unfold calculateAdditionalEffects
  rw [initializeAll_heat]
  cases initializeAll dL acc u with
  | none => rfl
  | some u1 =>
    dsimp only [Option.map_some]
    rw [calculateSpinAndEvolving_heat]
    cases calculateSpinAndEvolving k time evolution u1 with
    | none => rfl
    | some u2 => exact effects_heat hm ..

theorem inertialToHeliocentric_heat (e : Fin n → F) (u : Universe F n) :
    inertialToHeliocentric (setHeat e u) = setHeat e (inertialToHeliocentric u) := by
  unfold inertialToHeliocentric setHeat
  dsimp only
  rw [mapOthers_heat _ (fun _ _ _ _ => rfl), mapHost_heat _ (fun _ _ => rfl)]

theorem universeGravity_heat (k : Consts F) (roche : Fin n → Fin n → F) (ignore : Ignore) (e : Fin n → F)
    (u : Universe F n) :
    universeGravity k roche ignore (setHeat e u) = (universeGravity k roche ignore u).map (setHeat e) := by
  unfold universeGravity
  rw [show (fun i => bodyOf ((setHeat e u).particles i)) = fun i => bodyOf (u.particles i) from rfl,
    show (setHeat e u).hosts = u.hosts from rfl]
  cases Gravity.gravity k.g (fun i => bodyOf (u.particles i)) roche ignore u.hosts.mostMassive <;> rfl

/-- A step does not depend on the stored heating. -/
theorem leapfrogStep_heat {m : Models F} (hm : IgnoresHeat m) (k : Consts F) (eps2 : F)
    (roche : Fin n → Fin n → F) (dt half time : F) (e : Fin n → F) (u : Universe F n) :
    leapfrogStep k m eps2 roche dt half time (setHeat e u)
      = (leapfrogStep k m eps2 roche dt half time u).map (setHeat e) := by
  unfold leapfrogStep
  rw [inertialToHeliocentric_heat, additionalEffects_heat hm]
  cases calculateAdditionalEffects k m eps2 time true true false .none (inertialToHeliocentric u) with
  | none => rfl
  | some u1 =>
  dsimp only [Option.map_some]
  rw [show drift half (setHeat e u1) = setHeat e (drift half u1) from rfl, universeGravity_heat]
  cases universeGravity k roche .none (drift half u1) with
  | none => rfl
  | some u2 =>
  dsimp only [Option.map_some]
  rw [inertialToHeliocentric_heat, additionalEffects_heat hm]
  cases calculateAdditionalEffects k m eps2 (time + half) true true true .none (inertialToHeliocentric u2) <;> rfl

end
end Posidonius.Univ
