import Verif.Lemmas.Spun
import Verif.Lemmas.Univ
import Verif.Lemmas.Follow
import Verif.Model.Integrators

/-! # C55 Writing a historic record does not alter the trajectory -/

namespace Posidonius.Univ
open Gravity (Ignore)

/-- Powers and elementary functions do not occur in the examples below. -/
local instance : FPow XQ := ⟨fun x _ => x⟩
local instance : FTrig XQ := ⟨id, id, id, fun x _ => x, id, id, id, id, .fin 0⟩

def noModels : Models XQ where
  tides := ⟨fun _ _ _ => 0, fun _ _ => 0, fun _ _ _ => 0, fun _ _ _ => 0⟩
  flattening := ⟨fun _ _ _ => 0, fun _ _ => 0⟩
  tideShape := fun _ _ => 0
  flatteningShape := fun _ _ => 0

/-- All constants one. -/
def unitConsts : Consts XQ := ⟨.fin 1, .fin 1, .fin 1, .fin 1, .fin 1, .fin 1, .fin 1⟩

/-- A star whose stored spin is older than its angular momentum. -/
def rationalStar : Particle XQ :=
  { blank XQ with mass := (.fin 1), massG := (.fin 1), radius := (.fin 1), momentOfInertia := (.fin 1),
                  spin := ⟨(.fin 1), (.fin 0), (.fin 0)⟩, angularMomentum := ⟨(.fin 2), (.fin 0), (.fin 0)⟩,
                  tides := { (blank XQ).tides with
                   effect := .central (.constantTimeLag (.fin 1) (.fin 1) (.fin 0)),
                   scaledDissipationFactor := (.fin 1) } }

/-- A planet three units away. -/
def rationalPlanet : Particle XQ :=
  { blank XQ with id := 1, mass := (.fin 1), massG := (.fin 1), radius := (.fin 1), momentOfInertia := (.fin 1),
                  inertialPosition := ⟨(.fin 3), (.fin 0), (.fin 0)⟩,
                  tides := { (blank XQ).tides with
                   effect := .orbiting (.constantTimeLag (.fin 1) (.fin 1) (.fin 0)),
                   scaledDissipationFactor := (.fin 1) } }

def rationalUniverse : Universe XQ 2 :=
  { particles := fun i => if i = 0 then rationalStar else rationalPlanet,
    evolvers := fun _ => ⟨.nonEvolving, [], [], [], [], [], 0⟩,
    consider := ⟨true, false, false, false, false, false⟩,
    grImplementation := .disabled,
    hosts := ⟨0, some 0, none, none, none, true, true, false, false, false⟩,
    table := fun _ => none }

/-- A record made before an iteration changes its outcome: the record refreshes the spins from the angular
momenta, and the first evaluation of the tides in the iteration reads the stored spins before it refreshes them
itself.  Here, in exact rational arithmetic, the angular momentum of the star after the iteration is different,
with a star whose stored spin is older than its angular momentum (as it is after every step of LeapFrog, which
ends with a kick of the angular momentum). -/
theorem C55_violated : ∃ u : Universe XQ 2,
    (∀ i, eqb (u.particles i).momentOfInertia (lit 0) = false) ∧ u.consider.evolution = false
    ∧ (u.particles u.hosts.mostMassive).heliocentricVelocity = Axes.zero
    ∧ ∃ x y, (leapfrogIterate unitConsts noModels (.fin 0) (fun _ _ => .fin 0) (.fin 2) (.fin 1) (.fin 0) true
          u).map (fun u => (u.particles 0).angularMomentum.x) = some x
      ∧ (leapfrogIterate unitConsts noModels (.fin 0) (fun _ _ => .fin 0) (.fin 2) (.fin 1) (.fin 0) false
          u).map (fun u => (u.particles 0).angularMomentum.x) = some y
      ∧ x ≠ y := by
  refine ⟨rationalUniverse, by decide +kernel, rfl, rfl, .fin 2,
    .fin (2 - 1 / 162 + 1 / 26244), ?_, ?_, by decide +kernel⟩ <;> decide +kernel

section
variable {F : Type} [Add F] [Sub F] [Mul F] [Div F] [Neg F] [FOps F] [FPow F] [FTrig F] {n : Nat}

set_option linter.unusedSectionVars false

/-- With up to date spins, preparing a record changes the heliocentric coordinates and the stored heating. -/
theorem observe_current (k : Consts F) (time : F) (u : Universe F n)
    (hs : ∀ i, (u.particles i).spin = (u.particles i).angularMomentum.sdiv (u.particles i).momentOfInertia
      ∧ (u.particles i).normSpin2 = (u.particles i).spin.norm2)
    (hI : ∀ i, eqb (u.particles i).momentOfInertia (lit 0) = false) (he : u.consider.evolution = false)
    (hh : u.consider.tides = true → u.hosts.tides ≠ none) :
    ∃ e, Univ.observe k time u = some (setHeat e (inertialToHeliocentric u)) := by
  have same : ∀ {A : Type} (f : Particle F → A), (∀ q, f (zeroHeliocentric q) = f q) →
      (∀ a q, f (toHeliocentric a q) = f q) → ∀ i, f ((inertialToHeliocentric u).particles i) = f (u.particles i) := by
    intro A f h1 h2 i
    unfold inertialToHeliocentric mapHost mapOthers
    dsimp only
    split <;> simp_all
  have e1 : calculateSpinAndEvolving k time true (inertialToHeliocentric u) = some (inertialToHeliocentric u) := by
    rw [calculateSpinAndEvolving_eq k time true (inertialToHeliocentric u) he (fun i => by
      rw [same Particle.momentOfInertia (fun _ => rfl) (fun _ _ => rfl)]; exact hI i)]
    congr 1
    unfold setSpin
    have : ∀ i, spun (((inertialToHeliocentric u).particles i).angularMomentum.sdiv
          ((inertialToHeliocentric u).particles i).momentOfInertia,
        (((inertialToHeliocentric u).particles i).angularMomentum.sdiv
          ((inertialToHeliocentric u).particles i).momentOfInertia).norm2)
          ((inertialToHeliocentric u).particles i) = (inertialToHeliocentric u).particles i := by
      intro i
      rw [same Particle.momentOfInertia (fun _ => rfl) (fun _ _ => rfl),
        same Particle.angularMomentum (fun _ => rfl) (fun _ _ => rfl), ← (hs i).1, ← (hs i).2,
        ← same Particle.spin (fun _ => rfl) (fun _ _ => rfl), ← same Particle.normSpin2 (fun _ => rfl) (fun _ _ => rfl)]
      rfl
    rw [show spunAll _ (inertialToHeliocentric u).particles = (inertialToHeliocentric u).particles from
      funext this]
  unfold Univ.observe
  rw [e1]
  dsimp only
  split
  · rename_i ht
    obtain ⟨h, hh⟩ := Option.ne_none_iff_exists'.1 (hh ht)
    obtain ⟨e, e3⟩ := calculateDenergyDt_heat h (inertialToHeliocentric u).particles
    refine ⟨e, ?_⟩
    unfold universeDenergyDt
    rw [show (inertialToHeliocentric u).hosts = u.hosts from rfl, hh]
    simp only [withHost, e3]
    rfl
  · exact ⟨fun i => ((inertialToHeliocentric u).particles i).tides.denergyDt, rfl⟩

/-- Without tides, preparing a record changes the heliocentric coordinates and the stored spins. -/
theorem observe_quiet (k : Consts F) (time : F) (u : Universe F n)
    (hI : ∀ i, eqb (u.particles i).momentOfInertia (lit 0) = false) (he : u.consider.evolution = false)
    (ht : u.consider.tides = false) :
    ∃ e, Univ.observe k time u = some (setSpin e (inertialToHeliocentric u)) := by
  have hI' : ∀ i, eqb ((inertialToHeliocentric u).particles i).momentOfInertia (lit 0) = false := by
    intro i
    have : ((inertialToHeliocentric u).particles i).momentOfInertia = (u.particles i).momentOfInertia := by
      unfold inertialToHeliocentric mapHost mapOthers
      dsimp only
      by_cases hi : i = u.hosts.mostMassive <;> simp [hi, zeroHeliocentric, toHeliocentric]
    rw [this, hI]
  refine ⟨fun i => (((inertialToHeliocentric u).particles i).angularMomentum.sdiv
        ((inertialToHeliocentric u).particles i).momentOfInertia,
      (((inertialToHeliocentric u).particles i).angularMomentum.sdiv
        ((inertialToHeliocentric u).particles i).momentOfInertia).norm2), ?_⟩
  unfold Univ.observe
  rw [calculateSpinAndEvolving_eq k time true (inertialToHeliocentric u) he hI']
  dsimp only
  rw [show (setSpin _ (inertialToHeliocentric u)).consider.tides = false from ht]
  simp only [Bool.false_eq_true, if_false]

/-- Heliocentric coordinates computed before the bodies are moved do not matter. -/
theorem heliocentric_again (u : Universe F n) (hv : (u.particles u.hosts.mostMassive).heliocentricVelocity = Axes.zero)
    (x v l a : Fin n → Axes F) :
    inertialToHeliocentric { u with particles := fun i => { (inertialToHeliocentric u).particles i with
        inertialPosition := x i, inertialVelocity := v i, angularMomentum := l i, inertialAcceleration := a i } }
      = inertialToHeliocentric { u with particles := fun i => { u.particles i with
        inertialPosition := x i, inertialVelocity := v i, angularMomentum := l i, inertialAcceleration := a i } } := by
  unfold inertialToHeliocentric
  dsimp only
  congr 1
  funext i
  by_cases hi : i = u.hosts.mostMassive
  · subst hi
    simp [mapHost, mapOthers, zeroHeliocentric]
  · simp [mapHost, mapOthers, hi, toHeliocentric, zeroHeliocentric, hv]

theorem heliocentric_place (u : Universe F n) (i : Fin n) :
    bodyOf ((inertialToHeliocentric u).particles i) = bodyOf (u.particles i)
      ∧ placeOf ((inertialToHeliocentric u).particles i) = placeOf (u.particles i)
      ∧ motionOf ((inertialToHeliocentric u).particles i) = motionOf (u.particles i)
      ∧ keplerBody ((inertialToHeliocentric u).particles i) = keplerBody (u.particles i)
      ∧ ((inertialToHeliocentric u).particles i).inertialAcceleration = (u.particles i).inertialAcceleration := by
  unfold inertialToHeliocentric mapHost mapOthers
  dsimp only
  split <;> exact ⟨rfl, rfl, rfl, rfl, rfl⟩

/-! ### LeapFrog -/

/-- If the stored spins are those of the angular momenta, a record changes the stored tidal heating and
nothing else, in any arithmetic.  Missing: stored spins that are older, see `C55_violated`; bodies that follow
evolution tables; a host whose stored heliocentric velocity is not zero. -/
theorem C55_current_spins_partial {m : Models F} (hm : IgnoresHeat m) (k : Consts F) (eps2 : F)
    (roche : Fin n → Fin n → F) (dt half time : F) (u : Universe F n)
    (hs : ∀ i, (u.particles i).spin = (u.particles i).angularMomentum.sdiv (u.particles i).momentOfInertia
      ∧ (u.particles i).normSpin2 = (u.particles i).spin.norm2)
    (hI : ∀ i, eqb (u.particles i).momentOfInertia (lit 0) = false) (he : u.consider.evolution = false)
    (hv : (u.particles u.hosts.mostMassive).heliocentricVelocity = Axes.zero)
    (hh : u.consider.tides = true → u.hosts.tides ≠ none) :
    ∃ e : Fin n → F, leapfrogIterate k m eps2 roche dt half time true u
      = (leapfrogIterate k m eps2 roche dt half time false u).map
          (fun v => { v with particles := fun i => { v.particles i with
                        tides := { (v.particles i).tides with denergyDt := e i } } }) := by
  obtain ⟨e, e2⟩ := observe_current k time u hs hI he hh
  refine ⟨e, ?_⟩
  unfold leapfrogIterate
  simp only [if_true, Bool.false_eq_true, if_false, e2]
  rw [leapfrogStep_heat hm]
  have e4 : leapfrogStep k m eps2 roche dt half time (inertialToHeliocentric u)
      = leapfrogStep k m eps2 roche dt half time u := by
    unfold leapfrogStep
    rw [inertialToHeliocentric_twice u hv]
  rw [e4]
  rfl

/-- With relativity, disk and wind only, a record changes nothing at all, whatever spins are stored. -/
theorem C55_no_spin_coupling_partial (m : Models F) (k : Consts F) (eps2 : F)
    (roche : Fin n → Fin n → F) (dt half time : F) (u : Universe F n)
    (hI : ∀ i, eqb (u.particles i).momentOfInertia (lit 0) = false) (he : u.consider.evolution = false)
    (ht : u.consider.tides = false) (hf : u.consider.flattening = false)
    (hv : (u.particles u.hosts.mostMassive).heliocentricVelocity = Axes.zero) :
    leapfrogIterate k m eps2 roche dt half time true u = leapfrogIterate k m eps2 roche dt half time false u := by
  obtain ⟨e, e2⟩ := observe_quiet k time u hI he ht
  unfold leapfrogIterate
  simp only [if_true, Bool.false_eq_true, if_false, e2]
  unfold leapfrogStep
  rw [inertialToHeliocentric_spun, inertialToHeliocentric_twice u hv,
    additionalEffects_spun k m eps2 time true true false .none _ (inertialToHeliocentric u) ht hf he]

/-! ### IAS15 -/

theorem ias15Evaluate_carries {m : Models F} (hm : IgnoresHeat m) (k : Consts F) (eps2 : F) (roche : Fin n → Fin n → F)
    (e : Fin n → F) : Ias15.Carries (setHeat e) (ias15Evaluate k m eps2 roche) := by
  intro u time l
  unfold ias15Evaluate
  rw [show placeAll l (setHeat e u) = setHeat e (placeAll l u) from rfl, universeGravity_heat]
  cases universeGravity k roche .none (placeAll l u) with
  | none => rfl
  | some u1 =>
  dsimp only [Option.map_some]
  rw [inertialToHeliocentric_heat, additionalEffects_heat hm]
  cases calculateAdditionalEffects k m eps2 time true true true .none (inertialToHeliocentric u1) <;> rfl

/-- The universe after the accelerations of gravity are written, with the bodies at the given places. -/
theorem universeGravity_placed (k : Consts F) (roche : Fin n → Fin n → F) (l : List (Ias15.Place F)) (u : Universe F n)
    (hv : (u.particles u.hosts.mostMassive).heliocentricVelocity = Axes.zero) :
    (universeGravity k roche .none (placeAll l (inertialToHeliocentric u))).map inertialToHeliocentric
      = (universeGravity k roche .none (placeAll l u)).map inertialToHeliocentric := by
  have eb : ∀ i, bodyOf ((placeAll l (inertialToHeliocentric u)).particles i) = bodyOf ((placeAll l u).particles i) := by
    intro i
    obtain ⟨h1, h2, -⟩ := heliocentric_place u i
    have h1 := congrArg (fun b : Gravity.Body F => (b.mass, b.radius)) h1
    have h1a := congrArg Prod.fst h1
    have h1b := congrArg Prod.snd h1
    show (⟨_, _, _, _⟩ : Gravity.Body F) = ⟨_, _, _, _⟩
    unfold placeAll placed
    dsimp only
    rw [h2]
    congr 1
  unfold universeGravity
  rw [show (fun i => bodyOf ((placeAll l (inertialToHeliocentric u)).particles i))
    = fun i => bodyOf ((placeAll l u).particles i) from funext eb,
    show (placeAll l (inertialToHeliocentric u)).hosts = (placeAll l u).hosts from rfl]
  cases Gravity.gravity k.g (fun i => bodyOf ((placeAll l u).particles i)) roche .none (placeAll l u).hosts.mostMassive with
  | error _ => rfl
  | ok a =>
    dsimp only [Option.map_some]
    congr 1
    have key := heliocentric_again u hv (fun i => (l[i.val]?.getD (placeOf (u.particles i))).position)
      (fun i => (l[i.val]?.getD (placeOf (u.particles i))).velocity)
      (fun i => (l[i.val]?.getD (placeOf (u.particles i))).angular) a
    refine Eq.trans ?_ key
    unfold placeAll placed
    dsimp only
    congr 1
    congr 1
    funext i
    rw [(heliocentric_place u i).2.1]

theorem ias15Evaluate_heliocentric (k : Consts F) (m : Models F) (eps2 : F) (roche : Fin n → Fin n → F)
    (u : Universe F n) (hv : (u.particles u.hosts.mostMassive).heliocentricVelocity = Axes.zero) (time : F)
    (l : List (Ias15.Place F)) :
    ias15Evaluate k m eps2 roche (inertialToHeliocentric u) time l = ias15Evaluate k m eps2 roche u time l := by
  have key := universeGravity_placed k roche l u hv
  unfold ias15Evaluate
  cases e1 : universeGravity k roche .none (placeAll l (inertialToHeliocentric u)) with
  | none =>
    rw [e1, Option.map_none] at key
    rw [Option.map_eq_none_iff.1 key.symm]
  | some u1 =>
    cases e2 : universeGravity k roche .none (placeAll l u) with
    | none => rw [e1, e2] at key; cases key
    | some u2 =>
      rw [e1, e2] at key
      injection key with key
      dsimp only
      rw [key]

theorem ias15Evaluate_spun {m : Models F} (k : Consts F) (eps2 : F) (roche : Fin n → Fin n → F)
    (u : Universe F n) (he : u.consider.evolution = false)
    (ht : u.consider.tides = false) (hf : u.consider.flattening = false) (e : Fin n → Axes F × F) (time : F)
    (l : List (Ias15.Place F)) :
    ias15Evaluate k m eps2 roche (setSpin e u) time l = ias15Evaluate k m eps2 roche u time l := by
  unfold ias15Evaluate
  have : universeGravity k roche .none (placeAll l (setSpin e u))
      = (universeGravity k roche .none (placeAll l u)).map (setSpin e) := by
    unfold universeGravity
    rw [show (fun i => bodyOf ((placeAll l (setSpin e u)).particles i)) = fun i => bodyOf ((placeAll l u).particles i) from rfl,
      show (placeAll l (setSpin e u)).hosts = (placeAll l u).hosts from rfl]
    cases Gravity.gravity k.g (fun i => bodyOf ((placeAll l u).particles i)) roche .none (placeAll l u).hosts.mostMassive <;> rfl
  rw [this]
  cases e1 : universeGravity k roche .none (placeAll l u) with
  | none => rfl
  | some u1 =>
    have hc : u1.consider = u.consider := by
      unfold universeGravity at e1
      split at e1
      · cases e1
      · cases e1; rfl
    dsimp only [Option.map_some]
    rw [inertialToHeliocentric_spun, additionalEffects_spun k m eps2 time true true true .none _ (inertialToHeliocentric u1)
      (by rw [← ht, ← hc]; rfl) (by rw [← hf, ← hc]; rfl) (by rw [← he, ← hc]; rfl)]

section
variable [Ias15.FNormal F]

/-- The same for IAS15. -/
theorem C55_ias15_current_spins_partial {m : Models F} (hm : IgnoresHeat m) (k : Consts F) (eps2 : F)
    (roche : Fin n → Fin n → F) (fuel : Nat) (r : Ias15Run F n)
    (hs : ∀ i, (r.world.particles i).spin
        = (r.world.particles i).angularMomentum.sdiv (r.world.particles i).momentOfInertia
      ∧ (r.world.particles i).normSpin2 = (r.world.particles i).spin.norm2)
    (hI : ∀ i, eqb (r.world.particles i).momentOfInertia (lit 0) = false) (he : r.world.consider.evolution = false)
    (hv : (r.world.particles r.world.hosts.mostMassive).heliocentricVelocity = Axes.zero)
    (hh : r.world.consider.tides = true → r.world.hosts.tides ≠ none) :
    ∃ e : Fin n → F, ias15Iterate k m eps2 roche fuel true r
      = (ias15Iterate k m eps2 roche fuel false r).map
          (fun v => { v with world := { v.world with particles := fun i => { v.world.particles i with
                        tides := { (v.world.particles i).tides with denergyDt := e i } } } }) := by
  obtain ⟨e, e2⟩ := observe_current k r.time r.world hs hI he hh
  refine ⟨e, ?_⟩
  have el : (fun i => loaded ((setHeat e (inertialToHeliocentric r.world)).particles i) (r.arrays i))
      = fun i => loaded (r.world.particles i) (r.arrays i) := by
    funext i
    have h := (heliocentric_place r.world i).2.1
    have h1 := congrArg Ias15.Place.position h
    have h2 := congrArg Ias15.Place.velocity h
    have h3 := congrArg Ias15.Place.angular h
    change ((inertialToHeliocentric r.world).particles i).inertialPosition = _ at h1
    change ((inertialToHeliocentric r.world).particles i).inertialVelocity = _ at h2
    change ((inertialToHeliocentric r.world).particles i).angularMomentum = _ at h3
    show loaded ((inertialToHeliocentric r.world).particles i) _ = _
    unfold loaded
    rw [h1, h2, h3]
    rfl
  unfold ias15Iterate
  simp only [if_true, Bool.false_eq_true, if_false, e2, el]
  rw [show integrateSpin (setHeat e (inertialToHeliocentric r.world)) = integrateSpin r.world from rfl]
  have k1 := Ias15.iterate_carries (T := Ias15.tables) (spin := integrateSpin r.world)
    (ias15Evaluate_carries hm k eps2 roche e) fuel
    { particles := List.ofFn fun i => loaded (r.world.particles i) (r.arrays i),
      hidden := inertialToHeliocentric r.world, time := r.time, dt := r.dt, last := r.last }
  have k2 := Ias15.iterate_congr (T := Ias15.tables) (spin := integrateSpin r.world) (fuel := fuel)
    (eval := ias15Evaluate k m eps2 roche) (s := inertialToHeliocentric r.world)
    (u := { particles := List.ofFn fun i => loaded (r.world.particles i) (r.arrays i),
            hidden := r.world, time := r.time, dt := r.dt, last := r.last })
    (ias15Evaluate_heliocentric k m eps2 roche r.world hv _ _)
  dsimp only at k1 k2
  rw [k1, k2]
  cases Ias15.iterate Ias15.tables (integrateSpin r.world) (ias15Evaluate k m eps2 roche) fuel
    { particles := List.ofFn fun i => loaded (r.world.particles i) (r.arrays i),
      hidden := r.world, time := r.time, dt := r.dt, last := r.last } <;> rfl

/-- The same for IAS15. -/
theorem C55_ias15_no_spin_coupling_partial (m : Models F) (k : Consts F) (eps2 : F)
    (roche : Fin n → Fin n → F) (fuel : Nat) (r : Ias15Run F n)
    (hI : ∀ i, eqb (r.world.particles i).momentOfInertia (lit 0) = false) (he : r.world.consider.evolution = false)
    (ht : r.world.consider.tides = false) (hf : r.world.consider.flattening = false)
    (hv : (r.world.particles r.world.hosts.mostMassive).heliocentricVelocity = Axes.zero) :
    ias15Iterate k m eps2 roche fuel true r = ias15Iterate k m eps2 roche fuel false r := by
  obtain ⟨e, e2⟩ := observe_quiet k r.time r.world hI he ht
  have el : (fun i => loaded ((setSpin e (inertialToHeliocentric r.world)).particles i) (r.arrays i))
      = fun i => loaded (r.world.particles i) (r.arrays i) := by
    funext i
    have h := (heliocentric_place r.world i).2.1
    have h1 := congrArg Ias15.Place.position h
    have h2 := congrArg Ias15.Place.velocity h
    have h3 := congrArg Ias15.Place.angular h
    change ((inertialToHeliocentric r.world).particles i).inertialPosition = _ at h1
    change ((inertialToHeliocentric r.world).particles i).inertialVelocity = _ at h2
    change ((inertialToHeliocentric r.world).particles i).angularMomentum = _ at h3
    show loaded ((inertialToHeliocentric r.world).particles i) _ = _
    unfold loaded
    rw [h1, h2, h3]
    rfl
  unfold ias15Iterate
  simp only [if_true, Bool.false_eq_true, if_false, e2, el]
  rw [show integrateSpin (setSpin e (inertialToHeliocentric r.world)) = integrateSpin r.world from rfl]
  have k2 := Ias15.iterate_congr (T := Ias15.tables) (spin := integrateSpin r.world) (fuel := fuel)
    (eval := ias15Evaluate k m eps2 roche) (s := setSpin e (inertialToHeliocentric r.world))
    (u := { particles := List.ofFn fun i => loaded (r.world.particles i) (r.arrays i),
            hidden := r.world, time := r.time, dt := r.dt, last := r.last })
    ((ias15Evaluate_spun k eps2 roche (inertialToHeliocentric r.world) he ht hf e _ _).trans
      (ias15Evaluate_heliocentric k m eps2 roche r.world hv _ _))
  dsimp only at k2
  rw [k2]

end

/-! ### WHFast -/

theorem whfastEvaluate_carries {m : Models F} (hm : IgnoresHeat m) (k : Consts F) (eps2 : F) (c : WHFast.Coordinates)
    (spin : Bool) (time : F) (e : Fin n → F) :
    WHFast.Carries (setHeat (n := n) e) (whfastEvaluate k m eps2 c spin time) := by
  intro u evolution l
  unfold whfastEvaluate
  rw [show withMotions l (setHeat e u) = setHeat e (withMotions l u) from rfl, inertialToHeliocentric_heat,
    additionalEffects_heat hm]
  cases calculateAdditionalEffects k m eps2 time evolution spin true (ignored c)
    (inertialToHeliocentric (withMotions l u)) <;> rfl

theorem whfastEvaluate_heliocentric (k : Consts F) (m : Models F) (eps2 : F) (c : WHFast.Coordinates) (spin : Bool)
    (time : F) (u : Universe F n) (hv : (u.particles u.hosts.mostMassive).heliocentricVelocity = Axes.zero)
    (evolution : Bool) (l : List (WHFast.Motion F)) :
    whfastEvaluate k m eps2 c spin time (inertialToHeliocentric u) evolution l
      = whfastEvaluate k m eps2 c spin time u evolution l := by
  have key : inertialToHeliocentric (withMotions l (inertialToHeliocentric u))
      = inertialToHeliocentric (withMotions l u) := by
    have key := heliocentric_again u hv (fun i => (u.particles i).inertialPosition)
      (fun i => (entry u.hosts.mostMassive l (motionOf (u.particles i)) i).velocity)
      (fun i => (entry u.hosts.mostMassive l (motionOf (u.particles i)) i).angular)
      (fun i => (u.particles i).inertialAcceleration)
    refine Eq.trans ?_ key
    unfold withMotions
    dsimp only
    congr 1
    congr 1
    funext i
    obtain ⟨-, h2, h3, -, h5⟩ := heliocentric_place u i
    have h2 : ((inertialToHeliocentric u).particles i).inertialPosition = _ := congrArg Ias15.Place.position h2
    show { (inertialToHeliocentric u).particles i with
        inertialVelocity := (entry u.hosts.mostMassive l (motionOf ((inertialToHeliocentric u).particles i)) i).velocity,
        angularMomentum := (entry u.hosts.mostMassive l (motionOf ((inertialToHeliocentric u).particles i)) i).angular } = _
    rw [h3]
    have e : ∀ (p : Particle F) x y v w, p.inertialPosition = x → p.inertialAcceleration = y →
        { p with inertialVelocity := v, angularMomentum := w }
          = { p with inertialPosition := x, inertialVelocity := v, angularMomentum := w, inertialAcceleration := y } := by
      rintro p x y v w rfl rfl
      rfl
    exact e _ _ _ _ _ h2 h5
  unfold whfastEvaluate
  rw [key]
  rfl

theorem whfastEvaluate_spun (k : Consts F) (m : Models F) (eps2 : F) (c : WHFast.Coordinates) (spin : Bool)
    (time : F) (u : Universe F n) (he : u.consider.evolution = false)
    (ht : u.consider.tides = false) (hf : u.consider.flattening = false) (e : Fin n → Axes F × F)
    (evolution : Bool) (l : List (WHFast.Motion F)) :
    whfastEvaluate k m eps2 c spin time (setSpin e u) evolution l
      = whfastEvaluate k m eps2 c spin time u evolution l := by
  unfold whfastEvaluate
  rw [show withMotions l (setSpin e u) = setSpin e (withMotions l u) from rfl, inertialToHeliocentric_spun,
    additionalEffects_spun k m eps2 time evolution spin true (ignored c) _ (inertialToHeliocentric (withMotions l u)) ht hf he]
  rfl

theorem motions_heliocentric (u : Universe F n) :
    ((starFirst (inertialToHeliocentric u).hosts.mostMassive).map fun i => motionOf ((inertialToHeliocentric u).particles i))
      = (starFirst u.hosts.mostMassive).map fun i => motionOf (u.particles i) := by
  simp only [(heliocentric_place u _).2.2.1]
  rfl

theorem whfastForced_heliocentric (k : Consts F) (m : Models F) (eps2 : F) (c : WHFast.Coordinates) (half : F)
    (spin evolution : Bool) (r : WHFastRun F n)
    (hv : (r.world.particles r.world.hosts.mostMassive).heliocentricVelocity = Axes.zero) :
    whfastForced k m eps2 c half spin evolution { r with world := inertialToHeliocentric r.world }
      = whfastForced k m eps2 c half spin evolution r := by
  unfold whfastForced
  dsimp only
  rw [motions_heliocentric, WHFast.midpoint_congr (whfastEvaluate_heliocentric k m eps2 c spin r.time r.world hv _ _)]

theorem whfastForced_spun (k : Consts F) (m : Models F) (eps2 : F) (c : WHFast.Coordinates) (half : F)
    (spin evolution : Bool) (r : WHFastRun F n) (he : r.world.consider.evolution = false)
    (ht : r.world.consider.tides = false) (hf : r.world.consider.flattening = false) (e : Fin n → Axes F × F) :
    whfastForced k m eps2 c half spin evolution { r with world := setSpin e r.world }
      = whfastForced k m eps2 c half spin evolution r := by
  unfold whfastForced
  dsimp only
  rw [WHFast.midpoint_congr (whfastEvaluate_spun k m eps2 c spin r.time r.world he ht hf e _ _)]
  rfl

theorem whfastForced_heat {m : Models F} (hm : IgnoresHeat m) (k : Consts F) (eps2 : F) (c : WHFast.Coordinates) (half : F)
    (spin evolution : Bool) (r : WHFastRun F n) (e : Fin n → F) :
    whfastForced k m eps2 c half spin evolution { r with world := setHeat e r.world }
      = (whfastForced k m eps2 c half spin evolution r).map fun x => { x with world := setHeat e x.world } := by
  unfold whfastForced
  dsimp only
  rw [WHFast.midpoint_carries (whfastEvaluate_carries hm k eps2 c spin r.time e),
    show ((starFirst (setHeat e r.world).hosts.mostMassive).map fun i => motionOf ((setHeat e r.world).particles i))
      = (starFirst r.world.hosts.mostMassive).map fun i => motionOf (r.world.particles i) from rfl]
  cases WHFast.midpoint (whfastEvaluate k m eps2 c spin r.time) half spin evolution r.world
    ((starFirst r.world.hosts.mostMassive).map fun i => motionOf (r.world.particles i)) r.errors <;> rfl

theorem whfastGravity_heat (k : Consts F) (roche : Fin n → Fin n → F) (c : WHFast.Coordinates) (u : Universe F n)
    (e : Fin n → F) : whfastGravity k roche c (setHeat e u) = whfastGravity k roche c u := by
  funext s
  unfold whfastGravity
  rw [show withSystem s (setHeat e u) = setHeat e (withSystem s u) from rfl, universeGravity_heat]
  cases universeGravity k roche (ignored c) (withSystem s u) <;> rfl

/-- The same for WHFast. -/
theorem C55_whfast_current_spins_partial {m : Models F} (hm : IgnoresHeat m) (k : Consts F) (eps2 : F)
    (roche : Fin n → Fin n → F) (c : WHFast.Coordinates) (fuel : Nat) (dt half : F) (r : WHFastRun F n)
    (hs : ∀ i, (r.world.particles i).spin
        = (r.world.particles i).angularMomentum.sdiv (r.world.particles i).momentOfInertia
      ∧ (r.world.particles i).normSpin2 = (r.world.particles i).spin.norm2)
    (hI : ∀ i, eqb (r.world.particles i).momentOfInertia (lit 0) = false) (he : r.world.consider.evolution = false)
    (hv : (r.world.particles r.world.hosts.mostMassive).heliocentricVelocity = Axes.zero)
    (hh : r.world.consider.tides = true → r.world.hosts.tides ≠ none) :
    ∃ e : Fin n → F, whfastIterate k m eps2 roche c fuel dt half true r
      = (whfastIterate k m eps2 roche c fuel dt half false r).map
          (fun v => { v with world := { v.world with particles := fun i => { v.world.particles i with
                        tides := { (v.world.particles i).tides with denergyDt := e i } } } }) := by
  obtain ⟨e, e2⟩ := observe_current k r.time r.world hs hI he hh
  refine ⟨e, ?_⟩
  have e1 := whfastForced_heat hm k eps2 c half (integrateSpin r.world) true
    { r with world := inertialToHeliocentric r.world } e
  rw [whfastForced_heliocentric k m eps2 c half (integrateSpin r.world) true r hv] at e1
  dsimp only at e1
  unfold whfastIterate
  simp only [if_true, Bool.false_eq_true, if_false, e2]
  rw [show integrateSpin (setHeat e (inertialToHeliocentric r.world)) = integrateSpin r.world from rfl, e1]
  cases whfastForced k m eps2 c half (integrateSpin r.world) true r with
  | none => rfl
  | some r1 =>
  dsimp only [Option.map_some]
  rw [whfastGravity_heat, show system (setHeat e r1.world) = system r1.world from rfl]
  cases WHFast.step c fuel k.g dt half (whfastGravity k roche c r1.world) (system r1.world) with
  | none => rfl
  | some s =>
  dsimp only
  have e3 := whfastForced_heat hm k eps2 c half (integrateSpin r.world) false { r1 with world := withSystem s r1.world } e
  dsimp only at e3
  rw [show withSystem s (setHeat e r1.world) = setHeat e (withSystem s r1.world) from rfl, e3]
  cases whfastForced k m eps2 c half (integrateSpin r.world) false { r1 with world := withSystem s r1.world } <;> rfl

/-- The same for WHFast. -/
theorem C55_whfast_no_spin_coupling_partial (m : Models F) (k : Consts F) (eps2 : F)
    (roche : Fin n → Fin n → F) (c : WHFast.Coordinates) (fuel : Nat) (dt half : F) (r : WHFastRun F n)
    (hI : ∀ i, eqb (r.world.particles i).momentOfInertia (lit 0) = false) (he : r.world.consider.evolution = false)
    (ht : r.world.consider.tides = false) (hf : r.world.consider.flattening = false)
    (hv : (r.world.particles r.world.hosts.mostMassive).heliocentricVelocity = Axes.zero) :
    whfastIterate k m eps2 roche c fuel dt half true r = whfastIterate k m eps2 roche c fuel dt half false r := by
  obtain ⟨e, e2⟩ := observe_quiet k r.time r.world hI he ht
  have e1 := whfastForced_spun k m eps2 c half (integrateSpin r.world) true
    { r with world := inertialToHeliocentric r.world } he ht hf e
  rw [whfastForced_heliocentric k m eps2 c half (integrateSpin r.world) true r hv] at e1
  dsimp only at e1
  unfold whfastIterate
  simp only [if_true, Bool.false_eq_true, if_false, e2]
  rw [show integrateSpin (setSpin e (inertialToHeliocentric r.world)) = integrateSpin r.world from rfl, e1]

end

/-- A universe with up to date spins and tides: the iterations are defined and the hypotheses of
`C55_current_spins_partial` hold. -/
def rationalCurrent : Universe XQ 2 :=
  { rationalUniverse with particles := fun i =>
      if i = 0 then { rationalStar with spin := ⟨.fin 2, .fin 0, .fin 0⟩, normSpin2 := .fin 4 }
      else rationalPlanet }

theorem rationalCurrent_spins (i : Fin 2) : (rationalCurrent.particles i).spin
      = (rationalCurrent.particles i).angularMomentum.sdiv (rationalCurrent.particles i).momentOfInertia
    ∧ (rationalCurrent.particles i).normSpin2 = (rationalCurrent.particles i).spin.norm2 := by
  fin_cases i <;> exact ⟨by decide +kernel, by decide +kernel⟩

theorem rationalCurrent_inertia : ∀ i, eqb (rationalCurrent.particles i).momentOfInertia (lit 0) = false := by
  decide +kernel

example : ∃ e : Fin 2 → XQ,
    leapfrogIterate unitConsts noModels (.fin 0) (fun _ _ => .fin 0) (.fin 2) (.fin 1) (.fin 0) true rationalCurrent
      = (leapfrogIterate unitConsts noModels (.fin 0) (fun _ _ => .fin 0) (.fin 2) (.fin 1) (.fin 0) false
          rationalCurrent).map
          (fun v => { v with particles := fun i => { v.particles i with
                        tides := { (v.particles i).tides with denergyDt := e i } } }) := by
  refine C55_current_spins_partial (by constructor <;> intros <;> rfl) _ _ _ _ _ _ _ rationalCurrent_spins
    rationalCurrent_inertia rfl rfl (fun _ => Option.some_ne_none _)

example : (leapfrogIterate unitConsts noModels (.fin 0) (fun _ _ => .fin 0) (.fin 2) (.fin 1) (.fin 0) false
    rationalCurrent).isSome = true := by decide +kernel

/-- The same bodies with the wind considered instead of tides. -/
def rationalQuiet : Universe XQ 2 :=
  { rationalUniverse with consider := ⟨false, false, false, false, true, false⟩ }

example : leapfrogIterate unitConsts noModels (.fin 0) (fun _ _ => .fin 0) (.fin 2) (.fin 1) (.fin 0) true
      rationalQuiet
    = leapfrogIterate unitConsts noModels (.fin 0) (fun _ _ => .fin 0) (.fin 2) (.fin 1) (.fin 0) false
      rationalQuiet :=
  C55_no_spin_coupling_partial _ _ _ _ _ _ _ _ (by decide +kernel) rfl rfl rfl rfl

example : (leapfrogIterate unitConsts noModels (.fin 0) (fun _ _ => .fin 0) (.fin 2) (.fin 1) (.fin 0) false
    rationalQuiet).isSome = true := by decide +kernel

/-- The hypotheses of the theorems about WHFast and IAS15 hold for the same universes. -/
example (r : WHFastRun XQ 2) (hr : r.world = rationalCurrent) (c : WHFast.Coordinates) (fuel : Nat) : ∃ e : Fin 2 → XQ,
    whfastIterate unitConsts noModels (.fin 0) (fun _ _ => .fin 0) c fuel (.fin 2) (.fin 1) true r
      = (whfastIterate unitConsts noModels (.fin 0) (fun _ _ => .fin 0) c fuel (.fin 2) (.fin 1) false r).map
          (fun v => { v with world := { v.world with particles := fun i => { v.world.particles i with
                        tides := { (v.world.particles i).tides with denergyDt := e i } } } }) := by
  obtain ⟨w, es, t⟩ := r
  subst hr
  refine C55_whfast_current_spins_partial (by constructor <;> intros <;> rfl) _ _ _ _ _ _ _ _ rationalCurrent_spins
    rationalCurrent_inertia rfl rfl (fun _ => Option.some_ne_none _)

example [Ias15.FNormal XQ] (r : Ias15Run XQ 2) (hr : r.world = rationalCurrent) (fuel : Nat) : ∃ e : Fin 2 → XQ,
    ias15Iterate unitConsts noModels (.fin 0) (fun _ _ => .fin 0) fuel true r
      = (ias15Iterate unitConsts noModels (.fin 0) (fun _ _ => .fin 0) fuel false r).map
          (fun v => { v with world := { v.world with particles := fun i => { v.world.particles i with
                        tides := { (v.world.particles i).tides with denergyDt := e i } } } }) := by
  obtain ⟨w, es, t, dt, last⟩ := r
  subst hr
  refine C55_ias15_current_spins_partial (by constructor <;> intros <;> rfl) _ _ _ _ _ rationalCurrent_spins
    rationalCurrent_inertia rfl rfl (fun _ => Option.some_ne_none _)

/-- A run of WHFast that is defined: one body and a light one, with the wind considered. -/
example : (whfastForced unitConsts noModels (.fin 0) .jacobi (.fin 1) false true
    ⟨rationalQuiet, [⟨⟨.fin 0, .fin 0, .fin 0⟩, ⟨.fin 0, .fin 0, .fin 0⟩⟩, ⟨⟨.fin 0, .fin 0, .fin 0⟩, ⟨.fin 0, .fin 0, .fin 0⟩⟩],
      .fin 0⟩).isSome = true := by decide +kernel

end Posidonius.Univ
