import Verif.Lemmas.Heat

/-! The stored spin is overwritten before wind, relativity and disk use it. -/

namespace Posidonius.Univ
open Gravity (Ignore)
open Evolution (Evolver)

/-- Replace the stored spin. -/
def spun {F : Type} (x : Axes F × F) (p : Particle F) : Particle F :=
  { p with spin := x.1, normSpin2 := x.2 }

/-- Replace the stored spin of all particles. -/
def spunAll {F : Type} {n : Nat} (e : Fin n → Axes F × F) (p : Fin n → Particle F) : Fin n → Particle F :=
  fun i => spun (e i) (p i)

/-- Replace the stored spins in a universe. -/
def setSpin {F : Type} {n : Nat} (e : Fin n → Axes F × F) (u : Universe F n) : Universe F n :=
  { u with particles := spunAll e u.particles }

section
variable {F : Type} [Add F] [Sub F] [Mul F] [Div F] [Neg F] [FOps F] {n : Nat}

set_option linter.unusedSectionVars false

theorem mapOthers_spun (h : Fin n) {f : Particle F → Particle F → Particle F}
    (hf : ∀ x y a b, f (spun x a) (spun y b) = spun y (f a b)) (e : Fin n → Axes F × F) (p : Fin n → Particle F) :
    mapOthers h f (spunAll e p) = spunAll e (mapOthers h f p) := by
  funext i
  by_cases hi : i = h
  · simp [mapOthers, spunAll, hi]
  · simp [mapOthers, spunAll, hi, hf]


theorem mapHost_spun (h : Fin n) {f : Particle F → Particle F}
    (hf : ∀ x a, f (spun x a) = spun x (f a)) (e : Fin n → Axes F × F) (p : Fin n → Particle F) :
    mapHost h f (spunAll e p) = spunAll e (mapHost h f p) := by
  funext i
  by_cases hi : i = h
  · simp [mapHost, spunAll, hi, hf]
  · simp [mapHost, spunAll, hi]


theorem windInitialize_spun (x : Axes F × F) (p : Particle F) : windInitialize (spun x p) = spun x (windInitialize p) := by
  unfold windInitialize
  try dsimp only
  rw [show (spun x p).wind.interaction = p.wind.interaction from rfl]
  generalize p.wind.interaction = o
  cases o <;> rfl


theorem diskInitialize_spun (h : Fin n) (e : Fin n → Axes F × F) (p : Fin n → Particle F) :
    diskInitialize h (spunAll e p) = spunAll e (diskInitialize h p) := by
  unfold diskInitialize
  try dsimp only
  rw [show (spunAll e p h).disk.effect.central? = (p h).disk.effect.central? from rfl]
  generalize (p h).disk.effect.central? = o
  rcases o with _ | d
  · rfl
  · dsimp only
    rw [mapHost_spun h, mapOthers_spun h]
    · intro x y a b
      try dsimp only
      rw [show (spun y b).disk.effect.isOrbiting = b.disk.effect.isOrbiting from rfl]
      generalize b.disk.effect.isOrbiting = o
      cases o <;> rfl
    · exact fun _ _ => rfl


theorem diskCopyHeliocentric_spun (h : Fin n) (e : Fin n → Axes F × F) (p : Fin n → Particle F) :
    diskCopyHeliocentric h (spunAll e p) = spunAll e (diskCopyHeliocentric h p) := by
  unfold diskCopyHeliocentric
  try dsimp only
  rw [show (spunAll e p h).disk.effect.central? = (p h).disk.effect.central? from rfl]
  generalize (p h).disk.effect.central? = o
  rcases o with _ | d
  · rfl
  · dsimp only
    rw [mapHost_spun h, mapOthers_spun h]
    · intro x y a b
      try dsimp only
      rw [show (spun y b).disk.effect.isOrbiting = b.disk.effect.isOrbiting from rfl]
      generalize b.disk.effect.isOrbiting = o
      cases o <;> rfl
    · exact fun _ _ => rfl


theorem diskInertialToHeliocentric_spun (h : Fin n) (e : Fin n → Axes F × F) (p : Fin n → Particle F) :
    diskInertialToHeliocentric h (spunAll e p) = spunAll e (diskInertialToHeliocentric h p) := by
  unfold diskInertialToHeliocentric
  try dsimp only
  rw [show (spunAll e p h).disk.effect.central? = (p h).disk.effect.central? from rfl]
  generalize (p h).disk.effect.central? = o
  rcases o with _ | d
  · rfl
  · dsimp only
    rw [mapHost_spun h, mapOthers_spun h]
    · intro x y a b
      try dsimp only
      rw [show (spun y b).disk.effect.isOrbiting = b.disk.effect.isOrbiting from rfl]
      generalize b.disk.effect.isOrbiting = o
      cases o <;> rfl
    · exact fun _ _ => rfl


theorem grInitialize_spun (h : Fin n) (e : Fin n → Axes F × F) (p : Fin n → Particle F) :
    grInitialize h (spunAll e p) = spunAll e (grInitialize h p) := by
  have key : ∀ (f : Particle F → Particle F → Particle F) (g : Particle F → Particle F),
      (∀ x y a b, f (spun x a) (spun y b) = spun y (f a b)) → (∀ x a, g (spun x a) = spun x (g a)) →
      mapOthers h f (mapHost h g (spunAll e p)) = spunAll e (mapOthers h f (mapHost h g p)) := by
    intro f g hf hg
    rw [mapHost_spun h hg, mapOthers_spun h hf]
  unfold grInitialize
  try dsimp only
  rw [show (spunAll e p h).gr.effect.implementation? = (p h).gr.effect.implementation? from rfl]
  generalize (p h).gr.effect.implementation? = o
  rcases o with _ | (_ | _ | _ | _)
  any_goals rfl
  · refine key _ _ ?_ (fun _ _ => rfl)
    intro x y a b
    try dsimp only
    rw [show (spun y b).gr.effect.isOrbiting = b.gr.effect.isOrbiting from rfl]
    generalize b.gr.effect.isOrbiting = o
    cases o <;> rfl
  · refine key _ _ ?_ (fun _ _ => rfl)
    intro x y a b
    try dsimp only
    rw [show (spun y b).gr.effect.isOrbiting = b.gr.effect.isOrbiting from rfl]
    generalize b.gr.effect.isOrbiting = o
    cases o <;> rfl


theorem grCopyHeliocentric_spun (h : Fin n) (e : Fin n → Axes F × F) (p : Fin n → Particle F) :
    grCopyHeliocentric h (spunAll e p) = spunAll e (grCopyHeliocentric h p) := by
  unfold grCopyHeliocentric
  try dsimp only
  rw [show (spunAll e p h).gr.effect.implementation? = (p h).gr.effect.implementation? from rfl]
  generalize (p h).gr.effect.implementation? = o
  rcases o with _ | (_ | _ | _ | _)
  any_goals rfl
  all_goals
    dsimp only
    rw [mapHost_spun h, mapOthers_spun h]
    · intro x y a b
      try dsimp only
      rw [show (spun y b).gr.effect.isOrbiting = b.gr.effect.isOrbiting from rfl]
      generalize b.gr.effect.isOrbiting = o
      cases o <;> rfl
    · exact fun _ _ => rfl


theorem grInertialToHeliocentric_spun (h : Fin n) (e : Fin n → Axes F × F) (p : Fin n → Particle F) :
    grInertialToHeliocentric h (spunAll e p) = spunAll e (grInertialToHeliocentric h p) := by
  unfold grInertialToHeliocentric
  try dsimp only
  rw [show (spunAll e p h).gr.effect.implementation? = (p h).gr.effect.implementation? from rfl]
  generalize (p h).gr.effect.implementation? = o
  rcases o with _ | (_ | _ | _ | _)
  any_goals rfl
  all_goals
    dsimp only
    rw [mapHost_spun h, mapOthers_spun h]
    · intro x y a b
      try dsimp only
      rw [show (spun y b).gr.effect.isOrbiting = b.gr.effect.isOrbiting from rfl]
      generalize b.gr.effect.isOrbiting = o
      cases o <;> rfl
    · exact fun _ _ => rfl


theorem initializeEffect_spun {active isMm all : Bool} {mm : Fin n} {host : Option (Fin n)}
    {copy convert init : Fin n → (Fin n → Particle F) → (Fin n → Particle F)} {e : Fin n → Axes F × F}
    (hc : ∀ h p, copy h (spunAll e p) = spunAll e (copy h p))
    (hv : ∀ h p, convert h (spunAll e p) = spunAll e (convert h p))
    (hi : ∀ h p, init h (spunAll e p) = spunAll e (init h p)) (p : Fin n → Particle F) :
    initializeEffect active isMm all mm host copy convert init (spunAll e p)
      = (initializeEffect active isMm all mm host copy convert init p).map (spunAll e) := by
  unfold initializeEffect
  cases active <;> cases isMm <;> cases all <;> cases host <;> simp [withHost, hc, hv, hi]


end

section
variable {F : Type} [Add F] [Sub F] [Mul F] [Div F] [Neg F] [FOps F] [FPow F] [FTrig F] {n : Nat}

set_option linter.unusedSectionVars false

theorem initializeAll_spun (dL acc : Bool) (e : Fin n → Axes F × F) (u : Universe F n)
    (ht : u.consider.tides = false) (hf : u.consider.flattening = false) :
    initializeAll dL acc (setSpin e u) = (initializeAll dL acc u).map (setSpin e) := by
  unfold initializeAll
  dsimp only [setSpin]
  have hw : (if dL && u.consider.wind then fun i => windInitialize (spunAll e u.particles i)
        else spunAll e u.particles)
      = spunAll e (if dL && u.consider.wind then fun i => windInitialize (u.particles i) else u.particles) := by
    split
    · funext i; exact windInitialize_spun _ _
    · rfl
  have off : ∀ (isMm all : Bool) (mm : Fin n) host copy convert init (p : Fin n → Particle F),
      initializeEffect false isMm all mm host copy convert init p = some p := by
    intros; simp [initializeEffect]
  simp only [hw, ht, hf, Bool.and_false, Bool.or_false, off]
  rw [initializeEffect_spun (fun h p => grCopyHeliocentric_spun h e p)
    (fun h p => grInertialToHeliocentric_spun h e p) (fun h p => grInitialize_spun h e p)]
  split <;> rename_i h3
  · rw [Option.map_eq_none_iff] at h3
    rw [h3]; rfl
  obtain ⟨p3, h3', rfl⟩ := Option.map_eq_some_iff.1 h3
  rw [h3']
  dsimp only
  rw [initializeEffect_spun (fun h p => diskCopyHeliocentric_spun h e p)
    (fun h p => diskInertialToHeliocentric_spun h e p) (fun h p => diskInitialize_spun h e p)]
  split <;> rename_i h4
  · rw [Option.map_eq_none_iff] at h4
    rw [h4]; rfl
  obtain ⟨p4, h4', rfl⟩ := Option.map_eq_some_iff.1 h4
  rw [h4']
  cases acc <;> rfl

theorem calculateSpinAndEvolving_spun (k : Consts F) (time : F) (evolution : Bool) (e : Fin n → Axes F × F)
    (u : Universe F n) (he : u.consider.evolution = false) :
    calculateSpinAndEvolving k time evolution (setSpin e u) = calculateSpinAndEvolving k time evolution u := by
  have key : (fun i => spinAndEvolving k time (evolution && (setSpin e u).consider.evolution)
        ((setSpin e u).particles i) ((setSpin e u).evolvers i))
      = fun i => spinAndEvolving k time (evolution && u.consider.evolution) (u.particles i) (u.evolvers i) := by
    funext i
    rw [show (setSpin e u).consider = u.consider from rfl, he, Bool.and_false]
    rfl
  unfold calculateSpinAndEvolving
  rw [key]
  rfl

theorem additionalEffects_spun (k : Consts F) (m : Models F) (eps2 time : F) (evolution dL acc : Bool)
    (ignore : Ignore) (e : Fin n → Axes F × F) (u : Universe F n) (ht : u.consider.tides = false)
    (hf : u.consider.flattening = false) (he : u.consider.evolution = false) :
    calculateAdditionalEffects k m eps2 time evolution dL acc ignore (setSpin e u)
      = calculateAdditionalEffects k m eps2 time evolution dL acc ignore u := by
  unfold calculateAdditionalEffects
  rw [initializeAll_spun dL acc e u ht hf]
  cases h : initializeAll dL acc u with
  | none => rfl
  | some u1 =>
    have hc : u1.consider = u.consider := by
      unfold initializeAll at h
      dsimp only at h
      repeat' split at h
      all_goals first | (simp at h; done) | (injection h with h; rw [← h])
    rw [Option.map_some]
    dsimp only
    rw [calculateSpinAndEvolving_spun k time evolution e u1 (by rw [hc, he])]

/-- The heliocentric coordinates do not change when they are computed again. -/
theorem inertialToHeliocentric_twice (u : Universe F n)
    (hv : (u.particles u.hosts.mostMassive).heliocentricVelocity = Axes.zero) :
    inertialToHeliocentric (inertialToHeliocentric u) = inertialToHeliocentric u := by
  unfold inertialToHeliocentric
  dsimp only
  congr 1
  funext i
  by_cases hi : i = u.hosts.mostMassive
  · subst hi
    simp [mapHost, mapOthers, zeroHeliocentric]
  · simp [mapHost, mapOthers, hi, toHeliocentric, zeroHeliocentric, hv]

theorem inertialToHeliocentric_spun (e : Fin n → Axes F × F) (u : Universe F n) :
    inertialToHeliocentric (setSpin e u) = setSpin e (inertialToHeliocentric u) := by
  unfold inertialToHeliocentric setSpin
  dsimp only
  rw [mapOthers_spun _ (fun _ _ _ _ => rfl), mapHost_spun _ (fun _ _ => rfl)]

/-- Without evolution the spins are computed from the angular momenta. -/
theorem calculateSpinAndEvolving_eq (k : Consts F) (time : F) (evolution : Bool) (u : Universe F n)
    (he : u.consider.evolution = false) (hI : ∀ i, eqb (u.particles i).momentOfInertia (lit 0) = false) :
    calculateSpinAndEvolving k time evolution u
      = some (setSpin (fun i => ((u.particles i).angularMomentum.sdiv (u.particles i).momentOfInertia,
          ((u.particles i).angularMomentum.sdiv (u.particles i).momentOfInertia).norm2)) u) := by
  have key : (fun i => spinAndEvolving k time (evolution && u.consider.evolution) (u.particles i) (u.evolvers i))
      = fun i => some (spun ((u.particles i).angularMomentum.sdiv (u.particles i).momentOfInertia,
          ((u.particles i).angularMomentum.sdiv (u.particles i).momentOfInertia).norm2) (u.particles i),
          u.evolvers i) := by
    funext i
    simp [spinAndEvolving, calculateSpin, he, hI, spun]
  unfold calculateSpinAndEvolving
  rw [key]
  simp [traverse]
  rfl

/-- The heating is the only thing changed by its computation. -/
theorem calculateDenergyDt_heat (h : Fin n) (p : Fin n → Particle F) :
    ∃ e, calculateDenergyDt h p = heatAll e p := by
  refine ⟨fun i => (calculateDenergyDt h p i).tides.denergyDt, ?_⟩
  funext i
  unfold heatAll calculateDenergyDt mapOthers
  dsimp only
  split
  · rfl
  · split <;> rfl

end
end Posidonius.Univ
