import Verif.Lemmas.Config
import Verif.Lemmas.DiskUniverse
import Verif.Lemmas.GrUniverse
import Verif.Lemmas.TidesUniverse
import Verif.Model.RealTrig

/-! Properties C42, C43 and C69: construction of the universe. -/

namespace Posidonius.Univ
open Finset
open Evolution (EvolutionType Evolver)
open Gravity (Ignore)

variable {n : Nat}

/-! ## A system for the examples -/

/-- A star with tides, flattening and relativity that moves with `w` and a planet at `x` that moves with `v`. -/
noncomputable def starAndPlanet (w x v : Axes ℝ) : Fin 2 → Particle ℝ := fun i =>
  if i = 0 then
    { blank ℝ with
        mass := 3, massG := 3, momentOfInertia := 1, heliocentricVelocity := w
        tides := { (blank ℝ).tides with effect := .central (.constantTimeLag 1 1 1) }
        flattening := { (blank ℝ).flattening with effect := .central (.oblateSpheroid 1) }
        gr := { (blank ℝ).gr with effect := .central .kidder1995 } }
  else
    { blank ℝ with
        mass := 1, massG := 1, momentOfInertia := 1, heliocentricPosition := x, heliocentricVelocity := v
        tides := { (blank ℝ).tides with effect := .orbiting (.constantTimeLag 1 1 1) } }

/-- Evolvers of bodies that do not evolve. -/
def noEvolver : Fin n → Option (Evolver ℝ) := fun _ => some ⟨.nonEvolving, [], [], [], [], [], 0⟩

/-- All effects are asked for. -/
def askAll : Consider := ⟨true, true, true, true, true, true⟩

theorem findHost_of {role : Fin n → Bool} {h : Fin n} (h1 : role h = true) (h2 : ∀ j, role j = true → j = h) :
    findHost role = some (some h) := findHost_some.2 ⟨h1, h2⟩

theorem starAndPlanet_consider (w x v : Axes ℝ) :
    disableUnnecessary askAll (starAndPlanet w x v) = some ⟨true, true, true, false, false, false⟩ := by
  unfold disableUnnecessary
  have ht : foundOnce (fun i => (starAndPlanet w x v i).tides.effect.isCentral) = some true := by
    rw [foundOnce_eq, findHost_of (h := 0)] <;> simp [starAndPlanet, TidesEffect.isCentral]
  have hf : foundOnce (fun i => (starAndPlanet w x v i).flattening.effect.isCentral) = some true := by
    rw [foundOnce_eq, findHost_of (h := 0)] <;> simp [starAndPlanet, FlatteningEffect.isCentral, blank]
  have hg : foundOnce (fun i => (starAndPlanet w x v i).gr.effect.isCentral) = some true := by
    rw [foundOnce_eq, findHost_of (h := 0)] <;> simp [starAndPlanet, GrEffect.isCentral, blank]
  have hd : foundOnce (fun i => (starAndPlanet w x v i).disk.effect.isCentral) = some false := by
    rw [foundOnce_eq, findHost_empty.2]
    · rfl
    · intro j; by_cases hj : j = 0 <;> simp [starAndPlanet, hj, blank, DiskEffect.isCentral]
  have hw : foundAny (fun i => (starAndPlanet w x v i).wind.interaction) = false := by
    rw [← Bool.not_eq_true, foundAny_eq]
    rintro ⟨j, hj⟩
    by_cases h0 : j = 0 <;> simp [starAndPlanet, h0, blank] at hj
  have he : foundAny (fun i => (starAndPlanet w x v i).evolution != .nonEvolving) = false := by
    rw [← Bool.not_eq_true, foundAny_eq]
    rintro ⟨j, hj⟩
    by_cases h0 : j = 0 <;> simp [starAndPlanet, h0, blank] at hj
  rw [ht, hf, hg, hd, hw, he]
  rfl

theorem starAndPlanet_defined (w x v : Axes ℝ) :
    ∃ u, newUniverse askAll noEvolver (starAndPlanet w x v) = some u ∧ u.consider.tides = true
      ∧ u.consider.flattening = true ∧ u.consider.gr = true ∧ u.consider.disk = false
      ∧ u.consider.evolution = false := by
  have h0 := starAndPlanet_consider w x v
  have hm : mostMassive (starAndPlanet w x v) = some 0 := by
    rw [mostMassive_some]
    refine ⟨by simp [starAndPlanet], fun j => ?_, fun j hj => ?_⟩
    · by_cases hj : j = 0 <;> simp [starAndPlanet, hj]
    · exact absurd hj (by simp)
  have ht : findHost (fun i => (starAndPlanet w x v i).tides.effect.isCentral) = some (some 0) := by
    rw [findHost_of (h := 0)] <;> simp [starAndPlanet, TidesEffect.isCentral]
  have hf : findHost (fun i => (starAndPlanet w x v i).flattening.effect.isCentral) = some (some 0) := by
    rw [findHost_of (h := 0)] <;> simp [starAndPlanet, FlatteningEffect.isCentral, blank]
  have hg : findHost (fun i => (starAndPlanet w x v i).gr.effect.isCentral) = some (some 0) := by
    rw [findHost_of (h := 0)] <;> simp [starAndPlanet, GrEffect.isCentral, blank]
  have hi : ∃ hosts, findIndices (starAndPlanet w x v) ⟨true, true, true, false, false, false⟩ = some hosts := by
    unfold findIndices
    simp only [hm, findIf, ht, hf, hg, if_true]
    simp
  obtain ⟨hosts, hi⟩ := hi
  have key : ∃ u, newUniverse askAll noEvolver (starAndPlanet w x v) = some u := by
    unfold newUniverse
    rw [h0]
    dsimp only
    rw [hi]
    dsimp only
    rw [if_neg (by decide)]
    rw [show traverse (noEvolver (n := 2)) = some fun _ => ⟨.nonEvolving, [], [], [], [], [], 0⟩ by
      unfold traverse noEvolver; simp]
    dsimp only
    simp only [Bool.false_eq_true, if_false]
    unfold traverse
    simp
  obtain ⟨u, hu⟩ := key
  obtain ⟨ev, s1, -⟩ := newUniverse_stages hu
  rw [h0] at s1
  have s1 := Option.some.inj s1
  exact ⟨u, hu, by rw [← s1], by rw [← s1], by rw [← s1], by rw [← s1], by rw [← s1]⟩

/-! ## C42 The frame -/

/-- Give a particle the size and rotation of another one. -/
def Particle.setRotation {F : Type} (q p : Particle F) : Particle F :=
  { q with radius := p.radius, radiusOfGyration2 := p.radiusOfGyration2,
           momentOfInertia := p.momentOfInertia, angularMomentum := p.angularMomentum }

theorem matchEvolution_fields {F : Type} [Add F] [Sub F] [Mul F] [Div F] [Neg F] [FOps F] {p q : Particle F}
    {e e' : Evolver F} (h : matchEvolution p e = some (q, e')) : q.setRotation p = p := by
  unfold matchEvolution at h
  split at h
  · have h : p = q := congrArg Prod.fst (Option.some.inj h)
    rw [← h]
    rfl
  · split at h
    · simp at h
    · dsimp only at h
      split at h
      · simp at h
      · split at h
        · have h := congrArg Prod.fst (Option.some.inj h)
          dsimp only at h
          rw [← h]
          rfl
        · have h := congrArg Prod.fst (Option.some.inj h)
          dsimp only at h
          rw [← h]
          rfl

/-- What the construction leaves alone and what it sets. -/
theorem newUniverse_fields {c0 : Consider} {make : Fin n → Option (Evolver ℝ)} {p0 : Fin n → Particle ℝ}
    {u : Universe ℝ n} (hu : newUniverse c0 make p0 = some u) :
    ∃ q : Fin n → Particle ℝ, (∀ i, (q i).mass = (p0 i).mass
      ∧ (q i).heliocentricPosition = (p0 i).heliocentricPosition
      ∧ (q i).heliocentricVelocity = (p0 i).heliocentricVelocity)
      ∧ ∀ i, (u.particles i).id = i.val ∧ (u.particles i).mass = (p0 i).mass
      ∧ (u.particles i).massG = (p0 i).massG
      ∧ (u.particles i).heliocentricPosition = (p0 i).heliocentricPosition
      ∧ (u.particles i).heliocentricVelocity = (p0 i).heliocentricVelocity
      ∧ (u.particles i).inertialPosition = (p0 i).heliocentricPosition - (centerOfMass q).1
      ∧ (u.particles i).inertialVelocity = (p0 i).heliocentricVelocity - (centerOfMass q).2
      ∧ (u.particles i).spin = (p0 i).spin ∧ (u.particles i).tides = (p0 i).tides
      ∧ (u.particles i).flattening = (p0 i).flattening ∧ (u.particles i).disk = (p0 i).disk
      ∧ (u.particles i).wind = (p0 i).wind ∧ (u.particles i).gr.effect = (p0 i).gr.effect := by
  obtain ⟨ev, -, -, -, -, -, s⟩ := newUniverse_stages hu
  refine ⟨(grSetup u.consider u.hosts.gr p0).2, fun i => ?_, fun i => ?_⟩
  · have e := grSetup_fields u.consider u.hosts.gr p0 i
    generalize (grSetup u.consider u.hosts.gr p0).2 i = q at e
    rw [← e]
    exact ⟨rfl, rfl, rfl⟩
  · have s := s i
    have e := grSetup_fields u.consider u.hosts.gr p0 i
    dsimp only at s
    generalize centerOfMass (grSetup u.consider u.hosts.gr p0).2 = c at s
    generalize (grSetup u.consider u.hosts.gr p0).2 i = q at e s
    have f : ∃ p, (u.particles i).setRotation p = { toInertial c.1 c.2 q with id := i.val } := by
      split at s
      · exact ⟨_, matchEvolution_fields s⟩
      · exact ⟨u.particles i, s.1⟩
    obtain ⟨r, f⟩ := f
    have g : ∀ {α : Type} (π : Particle ℝ → α), π ((u.particles i).setRotation r)
        = π { toInertial c.1 c.2 q with id := i.val } :=
      fun π => congrArg π f
    have k : ∀ {α : Type} (π : Particle ℝ → α), π { q with gr := { q.gr with factor := (p0 i).gr.factor } }
        = π (p0 i) := fun π => congrArg π e
    refine ⟨g Particle.id, (g Particle.mass).trans (k Particle.mass),
      (g Particle.massG).trans (k Particle.massG),
      (g Particle.heliocentricPosition).trans (k Particle.heliocentricPosition),
      (g Particle.heliocentricVelocity).trans (k Particle.heliocentricVelocity),
      (g Particle.inertialPosition).trans ?_, (g Particle.inertialVelocity).trans ?_,
      (g Particle.spin).trans (k Particle.spin), (g Particle.tides).trans (k Particle.tides),
      (g Particle.flattening).trans (k Particle.flattening), (g Particle.disk).trans (k Particle.disk),
      (g Particle.wind).trans (k Particle.wind),
      (g fun p => p.gr.effect).trans (k fun p => p.gr.effect)⟩
    · exact congrArg (· - c.1) (k Particle.heliocentricPosition)
    · exact congrArg (· - c.2) (k Particle.heliocentricVelocity)

/-- The centre of mass of a new universe is at the origin and at rest. -/
theorem C42_center {c0 : Consider} {make : Fin n → Option (Evolver ℝ)} {p0 : Fin n → Particle ℝ}
    {u : Universe ℝ n} (hm : ∀ i, 0 ≤ (p0 i).mass) (hu : newUniverse c0 make p0 = some u) :
    ∑ i, (u.particles i).mass • (u.particles i).inertialPosition = 0
      ∧ ∑ i, (u.particles i).mass • (u.particles i).inertialVelocity = 0 := by
  obtain ⟨q, hq, h⟩ := newUniverse_fields hu
  obtain ⟨c1, c2⟩ := centerOfMass_spec q (fun i => by rw [(hq i).1]; exact hm i)
  constructor
  · calc ∑ i, (u.particles i).mass • (u.particles i).inertialPosition
        = ∑ i, ((q i).mass • (q i).heliocentricPosition - (q i).mass • (centerOfMass q).1) := by
          refine sum_congr rfl fun i _ => ?_
          rw [(h i).2.1, (h i).2.2.2.2.2.1, (hq i).1, (hq i).2.1, smul_sub]
      _ = 0 := by rw [sum_sub_distrib, ← c1, sum_smul, sub_self]
  · calc ∑ i, (u.particles i).mass • (u.particles i).inertialVelocity
        = ∑ i, ((q i).mass • (q i).heliocentricVelocity - (q i).mass • (centerOfMass q).2) := by
          refine sum_congr rfl fun i _ => ?_
          rw [(h i).2.1, (h i).2.2.2.2.2.2.1, (hq i).1, (hq i).2.2, smul_sub]
      _ = 0 := by rw [sum_sub_distrib, ← c2, sum_smul, sub_self]

/-- Relative positions and velocities are the supplied ones, ids are the indices, and there are at most ten
bodies; masses, spins and roles are the supplied ones. -/
theorem C42_bodies {c0 : Consider} {make : Fin n → Option (Evolver ℝ)} {p0 : Fin n → Particle ℝ}
    {u : Universe ℝ n} (hu : newUniverse c0 make p0 = some u) :
    n ≤ 10 ∧ (∀ i j, (u.particles i).inertialPosition - (u.particles j).inertialPosition
        = (p0 i).heliocentricPosition - (p0 j).heliocentricPosition
      ∧ (u.particles i).inertialVelocity - (u.particles j).inertialVelocity
        = (p0 i).heliocentricVelocity - (p0 j).heliocentricVelocity)
      ∧ ∀ i, (u.particles i).id = i.val ∧ (u.particles i).mass = (p0 i).mass
        ∧ (u.particles i).spin = (p0 i).spin ∧ (u.particles i).tides = (p0 i).tides
        ∧ (u.particles i).flattening = (p0 i).flattening ∧ (u.particles i).disk = (p0 i).disk
        ∧ (u.particles i).wind = (p0 i).wind ∧ (u.particles i).gr.effect = (p0 i).gr.effect := by
  obtain ⟨ev, -, -, hn, -⟩ := newUniverse_stages hu
  obtain ⟨q, -, h⟩ := newUniverse_fields hu
  refine ⟨hn, fun i j => ?_, fun i => ?_⟩
  · rw [(h i).2.2.2.2.2.1, (h j).2.2.2.2.2.1, (h i).2.2.2.2.2.2.1, (h j).2.2.2.2.2.2.1]
    constructor <;> module
  · obtain ⟨h1, h2, -, -, -, -, -, h3, h4, h5, h6, h7, h8⟩ := h i
    exact ⟨h1, h2, h3, h4, h5, h6, h7, h8⟩

example : ∃ u, newUniverse askAll noEvolver (starAndPlanet 0 ⟨1, 2, 3⟩ ⟨0, 1, 0⟩) = some u
    ∧ ∑ i, (u.particles i).mass • (u.particles i).inertialPosition = 0
    ∧ (u.particles 1).inertialPosition - (u.particles 0).inertialPosition = ⟨1, 2, 3⟩ := by
  obtain ⟨u, hu, -⟩ := starAndPlanet_defined 0 ⟨1, 2, 3⟩ ⟨0, 1, 0⟩
  refine ⟨u, hu, (C42_center (fun i => ?_) hu).1, ((C42_bodies hu).2.1 1 0).1.trans ?_⟩
  · by_cases hi : i = 0 <;> simp [starAndPlanet, hi]
  · ext <;> simp [starAndPlanet, blank]

/-! ## C43 Effects and hosts -/

/-- Central body of the tides. -/
def TidalHost (p : Particle ℝ) : Prop := ∃ m, p.tides.effect = .central m
/-- Central body of the rotational flattening. -/
def FlatteningHost (p : Particle ℝ) : Prop := ∃ m, p.flattening.effect = .central m
/-- Central body of the relativistic corrections `g`. -/
def RelativityHost (g : GrImplementation) (p : Particle ℝ) : Prop := g ≠ .disabled ∧ p.gr.effect = .central g
/-- Central body with a disk. -/
def DiskHost (p : Particle ℝ) : Prop := ∃ d, p.disk.effect = .central d

theorem tidalHost_iff (p : Particle ℝ) : p.tides.effect.isCentral = true ↔ TidalHost p := by
  unfold TidalHost TidesEffect.isCentral
  cases p.tides.effect <;> simp
theorem flatteningHost_iff (p : Particle ℝ) : p.flattening.effect.isCentral = true ↔ FlatteningHost p := by
  unfold FlatteningHost FlatteningEffect.isCentral
  cases p.flattening.effect <;> simp
theorem relativityHost_iff (p : Particle ℝ) : p.gr.effect.isCentral = true ↔ ∃ g, RelativityHost g p := by
  unfold RelativityHost GrEffect.isCentral
  cases p.gr.effect <;> simp
theorem diskHost_iff (p : Particle ℝ) : p.disk.effect.isCentral = true ↔ DiskHost p := by
  unfold DiskHost DiskEffect.isCentral
  cases p.disk.effect <;> simp

theorem foundOnce_some {role : Fin n → Bool} {b : Bool} (h : foundOnce role = some b) :
    (∀ i j, role i = true → role j = true → i = j) ∧ (b = true ↔ ∃ i, role i = true) := by
  rw [foundOnce_eq] at h
  obtain ⟨o, ho, rfl⟩ := Option.map_eq_some_iff.1 h
  cases o with
  | none =>
    have := findHost_empty.1 ho
    refine ⟨fun i j hi => ?_, ?_⟩
    · rw [this i] at hi; simp at hi
    · simp [this]
  | some g =>
    obtain ⟨h1, h2⟩ := findHost_some.1 ho
    exact ⟨fun i j hi hj => (h2 i hi).trans (h2 j hj).symm, by simpa using ⟨g, h1⟩⟩

theorem foundOnce_none {role : Fin n → Bool} {i j : Fin n} (hij : i ≠ j) (hi : role i = true)
    (hj : role j = true) : foundOnce role = none := by
  cases h : foundOnce role with
  | none => rfl
  | some b => exact absurd ((foundOnce_some h).1 i j hi hj) hij

theorem findIf_some {considered : Bool} {role : Fin n → Bool} {o : Option (Fin n)}
    (h : findIf considered role = some o) (hc : considered = true) :
    (∀ g, o = some g → role g = true ∧ ∀ j, role j = true → j = g) ∧ (o = none → ∀ j, role j = false) := by
  unfold findIf at h
  rw [if_pos hc] at h
  refine ⟨fun g hg => ?_, fun hg => ?_⟩
  · rw [hg] at h; exact findHost_some.1 h
  · rw [hg] at h; exact findHost_empty.1 h

theorem disableUnnecessary_some {c0 c : Consider} {p : Fin n → Particle ℝ}
    (h : disableUnnecessary c0 p = some c) :
    ((∀ i j, TidalHost (p i) → TidalHost (p j) → i = j)
      ∧ (c.tides = true ↔ c0.tides = true ∧ ∃ i, TidalHost (p i)))
    ∧ ((∀ i j, FlatteningHost (p i) → FlatteningHost (p j) → i = j)
      ∧ (c.flattening = true ↔ c0.flattening = true ∧ ∃ i, FlatteningHost (p i)))
    ∧ ((∀ i j g g', RelativityHost g (p i) → RelativityHost g' (p j) → i = j)
      ∧ (c.gr = true ↔ c0.gr = true ∧ ∃ i g, RelativityHost g (p i)))
    ∧ ((∀ i j, DiskHost (p i) → DiskHost (p j) → i = j)
      ∧ (c.disk = true ↔ c0.disk = true ∧ ∃ i, DiskHost (p i)))
    ∧ (c.wind = true ↔ c0.wind = true ∧ ∃ i, (p i).wind.interaction = true)
    ∧ (c.evolution = true ↔ c0.evolution = true ∧ ∃ i, (p i).evolution ≠ .nonEvolving) := by
  unfold disableUnnecessary at h
  split at h
  · rename_i t f g d ht hf hg hd
    have h := Option.some.inj h
    subst h
    obtain ⟨t1, t2⟩ := foundOnce_some ht
    obtain ⟨f1, f2⟩ := foundOnce_some hf
    obtain ⟨g1, g2⟩ := foundOnce_some hg
    obtain ⟨d1, d2⟩ := foundOnce_some hd
    have w2 := foundAny_eq (fun i => (p i).wind.interaction)
    have e2 := foundAny_eq (fun i => (p i).evolution != .nonEvolving)
    simp only [tidalHost_iff] at t1 t2
    simp only [flatteningHost_iff] at f1 f2
    simp only [relativityHost_iff] at g1 g2
    simp only [diskHost_iff] at d1 d2
    have comb : ∀ (a b : Bool) (P : Prop), (b = true ↔ P) →
        ((if a && !b then false else a) = true ↔ a = true ∧ P) := by
      intro a b P hP
      rw [← hP]
      cases a <;> cases b <;> simp
    refine ⟨⟨t1, comb _ _ _ t2⟩, ⟨f1, comb _ _ _ f2⟩, ⟨fun i j k k' hi hj => g1 i j ⟨k, hi⟩ ⟨k', hj⟩,
      comb _ _ _ g2⟩, ⟨d1, comb _ _ _ d2⟩, comb _ _ _ w2, comb _ _ _ ?_⟩
    rw [e2]
    simp
  · simp at h

/-- An effect stays enabled exactly if it was asked for and some body has the central role (a wind, an
evolution). -/
theorem C43_enabled {c0 : Consider} {make : Fin n → Option (Evolver ℝ)} {p0 : Fin n → Particle ℝ}
    {u : Universe ℝ n} (hu : newUniverse c0 make p0 = some u) :
    (u.consider.tides = true ↔ c0.tides = true ∧ ∃ i, TidalHost (p0 i))
      ∧ (u.consider.flattening = true ↔ c0.flattening = true ∧ ∃ i, FlatteningHost (p0 i))
      ∧ (u.consider.gr = true ↔ c0.gr = true ∧ ∃ i g, RelativityHost g (p0 i))
      ∧ (u.consider.disk = true ↔ c0.disk = true ∧ ∃ i, DiskHost (p0 i))
      ∧ (u.consider.wind = true ↔ c0.wind = true ∧ ∃ i, (p0 i).wind.interaction = true)
      ∧ (u.consider.evolution = true ↔ c0.evolution = true ∧ ∃ i, (p0 i).evolution ≠ .nonEvolving) := by
  obtain ⟨ev, h, -⟩ := newUniverse_stages hu
  obtain ⟨a, b, c, d, e, f⟩ := disableUnnecessary_some h
  exact ⟨a.2, b.2, c.2, d.2, e, f⟩

/-- Two central bodies for one effect are rejected, whether or not the effect is asked for. -/
theorem C43_rejects (c0 : Consider) (make : Fin n → Option (Evolver ℝ)) (p0 : Fin n → Particle ℝ) {i j : Fin n}
    (hij : i ≠ j) (h : (TidalHost (p0 i) ∧ TidalHost (p0 j)) ∨ (FlatteningHost (p0 i) ∧ FlatteningHost (p0 j))
      ∨ ((∃ g, RelativityHost g (p0 i)) ∧ ∃ g, RelativityHost g (p0 j)) ∨ (DiskHost (p0 i) ∧ DiskHost (p0 j))) :
    newUniverse c0 make p0 = none := by
  cases hu : newUniverse c0 make p0 with
  | none => rfl
  | some u =>
    obtain ⟨ev, hd, -⟩ := newUniverse_stages hu
    obtain ⟨a, b, c, d, -⟩ := disableUnnecessary_some hd
    refine absurd ?_ hij
    rcases h with h | h | h | h
    · exact a.1 i j h.1 h.2
    · exact b.1 i j h.1 h.2
    · obtain ⟨⟨g, hg⟩, g', hg'⟩ := h
      exact c.1 i j g g' hg hg'
    · exact d.1 i j h.1 h.2

/-- What `find_indices` finds. -/
theorem findIndices_some {p : Fin n → Particle ℝ} {c : Consider} {hosts : Hosts n}
    (h : findIndices p c = some hosts) :
    mostMassive p = some hosts.mostMassive
    ∧ ∃ t, findIf c.gr (fun i => (p i).gr.effect.isCentral) = some hosts.gr
      ∧ (c.gr = true → hosts.gr = some hosts.mostMassive)
      ∧ findIf c.tides (fun i => (p i).tides.effect.isCentral) = some t
      ∧ findIf c.flattening (fun i => (p i).flattening.effect.isCentral) = some hosts.flattening
      ∧ (c.tides = true → hosts.tides = t) ∧ (c.flattening = true → hosts.tides = hosts.flattening)
      ∧ findIf c.disk (fun i => (p i).disk.effect.hasDisk) = some hosts.disk
      ∧ (hosts.mostMassiveTides = (c.tides && (some hosts.mostMassive == hosts.tides)))
      ∧ (hosts.mostMassiveFlattening = (c.flattening && (some hosts.mostMassive == hosts.flattening)))
      ∧ (hosts.mostMassiveGr = (c.gr && (some hosts.mostMassive == hosts.gr)))
      ∧ (hosts.mostMassiveDisk = (c.disk && (some hosts.mostMassive == hosts.disk)))
      ∧ (hosts.all = true ↔ (c.tides = true → hosts.mostMassiveTides = true)
        ∧ (c.flattening = true → hosts.mostMassiveFlattening = true)
        ∧ (c.gr = true → hosts.mostMassiveGr = true) ∧ (c.disk = true → hosts.mostMassiveDisk = true)) := by
  unfold findIndices at h
  cases hm : mostMassive p with
  | none => rw [hm] at h; simp at h
  | some mm =>
  rw [hm] at h
  dsimp only at h
  cases hg : findIf c.gr (fun i => (p i).gr.effect.isCentral) with
  | none => rw [hg] at h; simp at h
  | some g =>
  rw [hg] at h
  dsimp only at h
  split at h
  · simp at h
  rename_i hgm
  cases ht : findIf c.tides (fun i => (p i).tides.effect.isCentral) with
  | none => rw [ht] at h; simp at h
  | some t =>
  rw [ht] at h
  dsimp only at h
  cases hf : findIf c.flattening (fun i => (p i).flattening.effect.isCentral) with
  | none => rw [hf] at h; simp at h
  | some f =>
  rw [hf] at h
  dsimp only at h
  split at h
  · simp at h
  rename_i htf
  cases hd : findIf c.disk (fun i => (p i).disk.effect.hasDisk) with
  | none => rw [hd] at h; simp at h
  | some d =>
  rw [hd] at h
  have h := Option.some.inj h
  subst h
  refine ⟨rfl, t, rfl, fun hc => ?_, rfl, rfl, fun hc => ?_, fun hc => ?_, rfl, rfl, rfl, rfl, rfl, ?_⟩
  · rw [hc] at hgm
    have : some mm = g := by simpa using hgm
    exact this.symm
  · dsimp only
    rw [hc]
    simp
  · dsimp only
    rw [hc] at htf ⊢
    cases hct : c.tides with
    | true => rw [hct] at htf; simpa using htf
    | false => simp
  · dsimp only
    cases c.tides <;> cases c.flattening <;> cases c.gr <;> cases c.disk <;> simp [and_assoc]

/-- The host of a considered effect is the only body with the role.  The host of the relativistic corrections
is the most massive body and determines the implementation; tides and flattening have a common host. -/
theorem C43_hosts {c0 : Consider} {make : Fin n → Option (Evolver ℝ)} {p0 : Fin n → Particle ℝ}
    {u : Universe ℝ n} (hu : newUniverse c0 make p0 = some u) :
    (u.consider.tides = true → ∃ h, u.hosts.tides = some h ∧ TidalHost (p0 h)
      ∧ ∀ j, TidalHost (p0 j) → j = h)
    ∧ (u.consider.flattening = true → ∃ h, u.hosts.flattening = some h ∧ u.hosts.tides = some h
      ∧ FlatteningHost (p0 h) ∧ ∀ j, FlatteningHost (p0 j) → j = h)
    ∧ (u.consider.gr = true → u.hosts.gr = some u.hosts.mostMassive
      ∧ RelativityHost u.grImplementation (p0 u.hosts.mostMassive)
      ∧ ∀ j g, RelativityHost g (p0 j) → j = u.hosts.mostMassive)
    ∧ (u.consider.disk = true → ∃ h d, (p0 h).disk.effect = .central d ∧ (∀ j, DiskHost (p0 j) → j = h)
      ∧ u.hosts.disk = if d.innerEdgeDistance = 0 ∧ d.outerEdgeDistance = 0 then none else some h) := by
  obtain ⟨ev, hd, hi, -, -, hgi, -⟩ := newUniverse_stages hu
  obtain ⟨a, b, c, d, -, -⟩ := disableUnnecessary_some hd
  obtain ⟨-, t, f1, f2, f3, f4, f5, f6, f7, -⟩ := findIndices_some hi
  refine ⟨fun hc => ?_, fun hc => ?_, fun hc => ?_, fun hc => ?_⟩
  · obtain ⟨s1, s2⟩ := findIf_some f3 hc
    obtain ⟨-, i, hh⟩ := a.2.1 hc
    cases t with
    | none =>
      have := s2 rfl i
      rw [(tidalHost_iff _).2 hh] at this
      simp at this
    | some h =>
      obtain ⟨r1, r2⟩ := s1 h rfl
      exact ⟨h, f5 hc, (tidalHost_iff _).1 r1, fun j hj => r2 j ((tidalHost_iff _).2 hj)⟩
  · obtain ⟨s1, s2⟩ := findIf_some f4 hc
    obtain ⟨-, i, hh⟩ := b.2.1 hc
    have f6 := f6 hc
    cases ho : u.hosts.flattening with
    | none =>
      have := s2 ho i
      rw [(flatteningHost_iff _).2 hh] at this
      simp at this
    | some h =>
      obtain ⟨r1, r2⟩ := s1 h ho
      rw [ho] at f6
      exact ⟨h, rfl, f6, (flatteningHost_iff _).1 r1, fun j hj => r2 j ((flatteningHost_iff _).2 hj)⟩
  · obtain ⟨s1, -⟩ := findIf_some f1 hc
    obtain ⟨r1, r2⟩ := s1 _ (f2 hc)
    refine ⟨f2 hc, ?_, fun j g hj => r2 j ((relativityHost_iff _).2 ⟨g, hj⟩)⟩
    obtain ⟨g, hg1, hg2⟩ := (relativityHost_iff _).1 r1
    rw [hgi, f2 hc]
    unfold grSetup
    rw [if_pos hc]
    dsimp only
    rw [hg2]
    dsimp only
    rw [if_pos (by simpa using hg1)]
    exact ⟨hg1, hg2⟩
  · obtain ⟨-, i, di, hh⟩ := d.2.1 hc
    have uq : ∀ j, DiskHost (p0 j) → j = i := fun j hj => d.1 j i hj ⟨di, hh⟩
    refine ⟨i, di, hh, uq, ?_⟩
    obtain ⟨s1, s2⟩ := findIf_some f7 hc
    have role : ∀ j, (p0 j).disk.effect.hasDisk = true → DiskHost (p0 j) := by
      intro j hj
      unfold DiskEffect.hasDisk at hj
      split at hj
      · rename_i dd hdd; exact ⟨dd, hdd⟩
      · simp at hj
    have here : (p0 i).disk.effect.hasDisk = true ↔ ¬ (di.innerEdgeDistance = 0 ∧ di.outerEdgeDistance = 0) := by
      rw [hh]
      unfold DiskEffect.hasDisk
      simp [← not_and_or]
    cases ho : u.hosts.disk with
    | none =>
      have := s2 ho i
      rw [if_pos]
      by_contra hne
      rw [here.2 hne] at this
      simp at this
    | some h =>
      obtain ⟨r1, -⟩ := s1 h ho
      have e := uq h (role h r1)
      rw [e] at r1 ⊢
      rw [if_neg (here.1 r1)]

/-- The most massive body: the first of the bodies with the greatest mass, which is positive.  Without a
body of positive mass there is no universe. -/
theorem C43_most_massive {c0 : Consider} {make : Fin n → Option (Evolver ℝ)} {p0 : Fin n → Particle ℝ}
    {u : Universe ℝ n} (hu : newUniverse c0 make p0 = some u) :
    0 < (p0 u.hosts.mostMassive).mass ∧ (∀ j, (p0 j).mass ≤ (p0 u.hosts.mostMassive).mass)
      ∧ ∀ j, j < u.hosts.mostMassive → (p0 j).mass < (p0 u.hosts.mostMassive).mass := by
  obtain ⟨ev, -, hi, -⟩ := newUniverse_stages hu
  exact mostMassive_some.1 (findIndices_some hi).1

/-- A new universe meets the conditions on the hosts under which the effects are evaluated as proved
elsewhere. -/
theorem C43_consistent {c0 : Consider} {make : Fin n → Option (Evolver ℝ)} {p0 : Fin n → Particle ℝ}
    {u : Universe ℝ n} (hu : newUniverse c0 make p0 = some u) : HostsOk u ∧ GrHostOk u ∧ DiskHostOk u := by
  obtain ⟨ev, -, hi, -⟩ := newUniverse_stages hu
  obtain ⟨-, t, -, -, -, -, -, f6, -, m1, m2, m3, m4, al⟩ := findIndices_some hi
  refine ⟨⟨fun hc => ?_, fun hc => ?_, f6, fun ha => (al.1 ha).1, fun ha => (al.1 ha).2.1⟩,
    ⟨fun hc => ?_, fun ha => (al.1 ha).2.2.1⟩, ⟨fun hc => ?_, fun ha => (al.1 ha).2.2.2⟩⟩
  · rw [m1, hc, Bool.true_and, beq_iff_eq]; exact eq_comm
  · rw [m2, hc, Bool.true_and, beq_iff_eq]; exact eq_comm
  · rw [m3, hc, Bool.true_and, beq_iff_eq]; exact eq_comm
  · rw [m4, hc, Bool.true_and, beq_iff_eq]; exact eq_comm

/-- If a disk has an edge, every considered effect of a new universe has a host.  Missing: disks without
edges, see `C43_violated`. -/
theorem C43_hosts_partial {c0 : Consider} {make : Fin n → Option (Evolver ℝ)} {p0 : Fin n → Particle ℝ}
    {u : Universe ℝ n} (hu : newUniverse c0 make p0 = some u)
    (hd : ∀ i d, (p0 i).disk.effect = .central d → d.innerEdgeDistance ≠ 0 ∨ d.outerEdgeDistance ≠ 0) :
    HasHosts u := by
  obtain ⟨a, b, c, d⟩ := C43_hosts hu
  refine ⟨fun hc => ?_, fun hc => ?_, fun hc => ?_, fun hc => ?_⟩
  · obtain ⟨h, e, -⟩ := a hc; rw [e]; rfl
  · obtain ⟨h, e, e', -⟩ := b hc; rw [e, e']; exact ⟨rfl, rfl⟩
  · rw [(c hc).1]; rfl
  · obtain ⟨h, di, e1, -, e2⟩ := d hc
    rw [e2, if_neg]
    · rfl
    · rintro ⟨z1, z2⟩
      rcases hd h di e1 with hz | hz
      · exact hz z1
      · exact hz z2

example : ∃ u, newUniverse askAll noEvolver (starAndPlanet 0 ⟨1, 2, 3⟩ ⟨0, 1, 0⟩) = some u
    ∧ HasHosts u ∧ HostsOk u ∧ GrHostOk u ∧ DiskHostOk u := by
  obtain ⟨u, hu, -⟩ := starAndPlanet_defined 0 ⟨1, 2, 3⟩ ⟨0, 1, 0⟩
  refine ⟨u, hu, C43_hosts_partial hu fun i d hd => ?_, C43_consistent hu⟩
  by_cases hi : i = 0 <;> simp [starAndPlanet, hi, blank] at hd

example : newUniverse askAll noEvolver (fun _ : Fin 2 =>
    { blank ℝ with tides := { (blank ℝ).tides with effect := .central (.constantTimeLag 1 1 1) } }) = none :=
  C43_rejects askAll noEvolver _ (i := 0) (j := 1) (by decide) (Or.inl ⟨⟨_, rfl⟩, ⟨_, rfl⟩⟩)

/-- Without a host for a considered disk, every evaluation of accelerations is a panic. -/
theorem additionalEffects_without_disk {k : Consts ℝ} {m : Models ℝ} {eps2 time : ℝ} {evolution dL : Bool}
    {ignore : Ignore} {u : Universe ℝ n} (hc : u.consider.disk = true) (hd : u.hosts.disk = none)
    (hm : u.hosts.mostMassiveDisk = false) (ha : u.hosts.all = false) :
    calculateAdditionalEffects k m eps2 time evolution dL true ignore u = none := by
  have : initializeAll dL true u = none := by
    unfold initializeAll
    dsimp only
    split
    · rfl
    split
    · rfl
    split
    · rfl
    have e : ∀ p : Fin n → Particle ℝ, initializeEffect (true && u.consider.disk) u.hosts.mostMassiveDisk
        u.hosts.all u.hosts.mostMassive u.hosts.disk diskCopyHeliocentric diskInertialToHeliocentric
        diskInitialize p = none := by
      intro p
      unfold initializeEffect withHost
      rw [hc, hm, ha, hd]
      rfl
    rw [e]
  unfold calculateAdditionalEffects
  rw [this]

/-- A star with a disk that has no edges, and a planet. -/
noncomputable def starWithEmptyDisk : Fin 2 → Particle ℝ := fun i =>
  if i = 0 then
    { blank ℝ with mass := 3, massG := 3, momentOfInertia := 1,
                   disk := { (blank ℝ).disk with effect := .central ⟨0, 0, 1, 1, 1, 1⟩ } }
  else
    { blank ℝ with mass := 1, massG := 1, momentOfInertia := 1, heliocentricPosition := ⟨1, 0, 0⟩,
                   disk := { (blank ℝ).disk with effect := .orbiting } }

/-- A disk stays enabled although it has no host: all evaluations of accelerations panic. -/
theorem C43_violated : ∃ u, newUniverse askAll noEvolver starWithEmptyDisk = some u
    ∧ u.consider.disk = true ∧ u.hosts.disk = none
    ∧ ∀ k m eps2 time evolution dL ignore,
      calculateAdditionalEffects k m eps2 time evolution dL true ignore (inertialToHeliocentric u) = none := by
  have h0 : disableUnnecessary askAll starWithEmptyDisk = some ⟨false, false, false, true, false, false⟩ := by
    unfold disableUnnecessary
    have ht : foundOnce (fun i => (starWithEmptyDisk i).tides.effect.isCentral) = some false := by
      rw [foundOnce_eq, findHost_empty.2]
      · rfl
      · intro j; by_cases hj : j = 0 <;> simp [starWithEmptyDisk, hj, blank, TidesEffect.isCentral]
    have hf : foundOnce (fun i => (starWithEmptyDisk i).flattening.effect.isCentral) = some false := by
      rw [foundOnce_eq, findHost_empty.2]
      · rfl
      · intro j; by_cases hj : j = 0 <;> simp [starWithEmptyDisk, hj, blank, FlatteningEffect.isCentral]
    have hg : foundOnce (fun i => (starWithEmptyDisk i).gr.effect.isCentral) = some false := by
      rw [foundOnce_eq, findHost_empty.2]
      · rfl
      · intro j; by_cases hj : j = 0 <;> simp [starWithEmptyDisk, hj, blank, GrEffect.isCentral]
    have hd : foundOnce (fun i => (starWithEmptyDisk i).disk.effect.isCentral) = some true := by
      rw [foundOnce_eq, findHost_of (h := 0)] <;> simp [starWithEmptyDisk, DiskEffect.isCentral]
    have hw : foundAny (fun i => (starWithEmptyDisk i).wind.interaction) = false := by
      rw [← Bool.not_eq_true, foundAny_eq]
      rintro ⟨j, hj⟩
      by_cases h0 : j = 0 <;> simp [starWithEmptyDisk, h0, blank] at hj
    have he : foundAny (fun i => (starWithEmptyDisk i).evolution != .nonEvolving) = false := by
      rw [← Bool.not_eq_true, foundAny_eq]
      rintro ⟨j, hj⟩
      by_cases h0 : j = 0 <;> simp [starWithEmptyDisk, h0, blank] at hj
    rw [ht, hf, hg, hd, hw, he]
    rfl
  have hm : mostMassive starWithEmptyDisk = some 0 := by
    rw [mostMassive_some]
    refine ⟨by simp [starWithEmptyDisk], fun j => ?_, fun j hj => ?_⟩
    · by_cases hj : j = 0 <;> simp [starWithEmptyDisk, hj]
    · exact absurd hj (by simp)
  have hd : findHost (fun i => (starWithEmptyDisk i).disk.effect.hasDisk) = some none := by
    rw [findHost_empty]
    intro j
    by_cases hj : j = 0 <;> simp [starWithEmptyDisk, hj, DiskEffect.hasDisk]
  have hi : findIndices starWithEmptyDisk ⟨false, false, false, true, false, false⟩
      = some ⟨0, none, none, none, none, false, false, false, false, false⟩ := by
    unfold findIndices
    simp only [hm, findIf, hd, if_true]
    simp
  have key : ∃ u, newUniverse askAll noEvolver starWithEmptyDisk = some u := by
    unfold newUniverse
    rw [h0]
    dsimp only
    rw [hi]
    dsimp only
    rw [if_neg (by decide)]
    rw [show traverse (noEvolver (n := 2)) = some fun _ => ⟨.nonEvolving, [], [], [], [], [], 0⟩ by
      unfold traverse noEvolver; simp]
    dsimp only
    simp only [Bool.false_eq_true, if_false]
    unfold traverse
    simp
  obtain ⟨u, hu⟩ := key
  obtain ⟨ev, s1, s2, -⟩ := newUniverse_stages hu
  rw [h0] at s1
  have s1 := Option.some.inj s1
  rw [← s1, hi] at s2
  have s2 := Option.some.inj s2
  refine ⟨u, hu, by rw [← s1], by rw [← s2], fun k m eps2 time evolution dL ignore => ?_⟩
  exact additionalEffects_without_disk (by change u.consider.disk = true; rw [← s1])
    (by change u.hosts.disk = none; rw [← s2]) (by change u.hosts.mostMassiveDisk = false; rw [← s2])
    (by change u.hosts.all = false; rw [← s2])

/-- An effect stays enabled although no other body takes part in it. -/
theorem C43_violated_alone : ∃ p0 : Fin 2 → Particle ℝ, ∃ u, newUniverse askAll noEvolver p0 = some u
    ∧ u.consider.flattening = true ∧ u.hosts.flattening = some 0
    ∧ (u.particles 1).flattening.effect = .disabled := by
  obtain ⟨u, hu, -, hf, -⟩ := starAndPlanet_defined 0 ⟨1, 2, 3⟩ ⟨0, 1, 0⟩
  refine ⟨_, u, hu, hf, ?_, ?_⟩
  · obtain ⟨h, h1, -, -, h2⟩ := (C43_hosts hu).2.1 hf
    rw [h1, ← h2 0 ⟨_, rfl⟩]
  · rw [((C42_bodies hu).2.2 1).2.2.2.2.1]
    simp [starAndPlanet, blank]

/-! ## C69 Bodies start in a consistent state -/

/-- Angular momentum, spin, mass, radius and radius of gyration fit together. -/
def RotationConsistent (p : Particle ℝ) : Prop :=
  p.momentOfInertia = p.mass * p.radiusOfGyration2 * p.radius ^ 2 ∧ p.angularMomentum = p.momentOfInertia • p.spin

/-- A consistent rotation stays consistent when an evolving body is put into its initial state, with the
supplied spin; afterwards radius and radius of gyration are those of the model up to one millionth. -/
theorem C69_rotation {c0 : Consider} {make : Fin n → Option (Evolver ℝ)} {p0 : Fin n → Particle ℝ}
    {u : Universe ℝ n} (hu : newUniverse c0 make p0 = some u) (i : Fin n) (hr : RotationConsistent (p0 i)) :
    RotationConsistent (u.particles i) ∧ (u.particles i).spin = (p0 i).spin
      ∧ (u.consider.evolution = true → (p0 i).evolution ≠ .nonEvolving →
        ∃ e e' e'' radius rg2, make i = some e ∧ e.queryRadius 0 (p0 i).radius = some (radius, e')
          ∧ e'.queryRadiusOfGyration2 0 (p0 i).radiusOfGyration2 = some (rg2, e'')
          ∧ |radius - (u.particles i).radius| ≤ 1 / 1000000
          ∧ |rg2 - (u.particles i).radiusOfGyration2| ≤ 1 / 1000000) := by
  have hspin := ((C42_bodies hu).2.2 i).2.2.1
  obtain ⟨ev, -, -, -, hmk, -, s⟩ := newUniverse_stages hu
  have s := s i
  have e := grSetup_fields u.consider u.hosts.gr p0 i
  dsimp only at s
  generalize centerOfMass (grSetup u.consider u.hosts.gr p0).2 = c at s
  generalize (grSetup u.consider u.hosts.gr p0).2 i = q at e s
  have k : ∀ {α : Type} (π : Particle ℝ → α), π { q with gr := { q.gr with factor := (p0 i).gr.factor } }
      = π (p0 i) := fun π => congrArg π e
  have k1 : q.mass = (p0 i).mass := k Particle.mass
  have k2 : q.radius = (p0 i).radius := k Particle.radius
  have k3 : q.radiusOfGyration2 = (p0 i).radiusOfGyration2 := k Particle.radiusOfGyration2
  have k4 : q.momentOfInertia = (p0 i).momentOfInertia := k Particle.momentOfInertia
  have k5 : q.angularMomentum = (p0 i).angularMomentum := k Particle.angularMomentum
  have k6 : q.spin = (p0 i).spin := k Particle.spin
  have k7 : q.evolution = (p0 i).evolution := k Particle.evolution
  have hq : RotationConsistent q := by
    unfold RotationConsistent at hr ⊢
    rw [k1, k2, k3, k4, k5, k6]
    exact hr
  rw [← and_assoc, and_comm (a := RotationConsistent _), and_assoc]
  refine ⟨hspin, ?_⟩
  by_cases he : u.consider.evolution = true
  · rw [if_pos he] at s
    unfold matchEvolution at s
    split at s
    · rename_i hne
      have s := congrArg Prod.fst (Option.some.inj s)
      dsimp only at s
      refine ⟨by rw [← s]; exact hq, fun _ hne' => absurd ?_ hne'⟩
      rw [← k7]
      exact hne
    · split at s
      · simp at s
      · rename_i newRadius e1 hrad
        dsimp only at s
        split at s
        · simp at s
        · rename_i newRg2 e2 hrg
          change (ev i).queryRadius (lit 0) q.radius = _ at hrad
          change e1.queryRadiusOfGyration2 (lit 0) q.radiusOfGyration2 = _ at hrg
          change (if (ltb (lit (1 / 1000000)) (FOps.abs (newRadius - q.radius))
            || ltb (lit (1 / 1000000)) (FOps.abs (newRg2 - q.radiusOfGyration2))) = true then _ else _) = _ at s
          rw [k2] at hrad
          rw [k3] at hrg
          simp only [lit_real] at hrad hrg
          push_cast at hrad hrg
          have close : ∀ a b : ℝ, |a - (if ltb (lit (1 / 1000000)) (FOps.abs (a - b)) then a else b)| ≤ 1 / 1000000 := by
            intro a b
            simp only [ltb_real, lit_real, abs_real]
            push_cast
            split
            · simp
            · rename_i hlt
              simpa using hlt
          have fin : RotationConsistent (u.particles i)
              ∧ |newRadius - (u.particles i).radius| ≤ 1 / 1000000
              ∧ |newRg2 - (u.particles i).radiusOfGyration2| ≤ 1 / 1000000 := by
            split at s
            · have s := congrArg Prod.fst (Option.some.inj s)
              dsimp only at s
              rw [← s]
              refine ⟨⟨by simp, Axes.ext (mul_comm _ _) (mul_comm _ _) (mul_comm _ _)⟩, close newRadius q.radius,
                close newRg2 q.radiusOfGyration2⟩
            · rename_i hno
              have s := congrArg Prod.fst (Option.some.inj s)
              dsimp only at s
              rw [← s]
              rw [Bool.or_eq_true, not_or] at hno
              refine ⟨?_, close newRadius q.radius, close newRg2 q.radiusOfGyration2⟩
              unfold RotationConsistent
              dsimp only
              rw [if_neg (show ¬ ltb (lit (1 / 1000000))
                  (FOps.abs (newRadius - (toInertial c.1 c.2 q).radius)) = true from hno.1),
                if_neg (show ¬ ltb (lit (1 / 1000000))
                  (FOps.abs (newRg2 - (toInertial c.1 c.2 q).radiusOfGyration2)) = true from hno.2)]
              exact hq
          exact ⟨fin.1, fun _ _ => ⟨ev i, e1, e2, newRadius, newRg2, hmk i, hrad, hrg, fin.2.1, fin.2.2⟩⟩
  · rw [if_neg he] at s
    refine ⟨by rw [s.1]; exact hq, fun h => absurd h he⟩

/-- A single star that contracts. -/
noncomputable def evolvingStar : Fin 1 → Particle ℝ := fun _ =>
  { blank ℝ with mass := 1, radius := 5, radiusOfGyration2 := 1, momentOfInertia := 25, spin := ⟨0, 0, 1⟩,
                 angularMomentum := ⟨0, 0, 25⟩, evolution := .baraffe1998 }

/-- Its table: radius 2 at time 0. -/
noncomputable def evolvingStarTable : Fin 1 → Option (Evolver ℝ) :=
  fun _ => some ⟨.baraffe1998, [0, 1], [2, 1], [], [], [], 0⟩

example : ∃ u, newUniverse askAll evolvingStarTable evolvingStar = some u ∧ RotationConsistent (u.particles 0)
    ∧ (u.particles 0).spin = ⟨0, 0, 1⟩ ∧ |2 - (u.particles 0).radius| ≤ 1 / 1000000 := by
  have none : ∀ role : Fin 1 → Bool, role 0 = false → foundOnce role = some false := by
    intro role h
    rw [foundOnce_eq, findHost_empty.2]
    · rfl
    · intro j; rw [Subsingleton.elim j 0]; exact h
  have h0 : disableUnnecessary askAll evolvingStar = some ⟨false, false, false, false, false, true⟩ := by
    unfold disableUnnecessary
    rw [none _ rfl, none _ rfl, none _ rfl, none _ rfl]
    have hw : foundAny (fun i => (evolvingStar i).wind.interaction) = false := by
      rw [← Bool.not_eq_true, foundAny_eq]
      simp [evolvingStar, blank]
    have he : foundAny (fun i => (evolvingStar i).evolution != .nonEvolving) = true := by
      rw [foundAny_eq]
      exact ⟨0, rfl⟩
    rw [hw, he]
    rfl
  have hm : mostMassive evolvingStar = some 0 := by
    rw [mostMassive_some]
    simp [evolvingStar]
  have hi : ∃ hosts, findIndices evolvingStar ⟨false, false, false, false, false, true⟩ = some hosts := by
    unfold findIndices
    simp only [hm, findIf]
    simp
  obtain ⟨hosts, hi⟩ := hi
  have hq : Evolver.queryRadius (F := ℝ) ⟨.baraffe1998, [0, 1], [2, 1], [], [], [], 0⟩ 0 5
      = some (2, ⟨.baraffe1998, [0, 1], [2, 1], [], [], [], 0⟩) := by
    simp [Evolver.queryRadius, Evolver.lookup, Evolver.idx, Interp.linearInterpolation, Interp.findIndices,
      List.findIdx?_cons]
  have key : ∃ u, newUniverse askAll evolvingStarTable evolvingStar = some u := by
    unfold newUniverse
    rw [h0]
    dsimp only
    rw [hi]
    dsimp only
    rw [if_neg (by decide)]
    rw [show traverse evolvingStarTable = some fun _ => ⟨.baraffe1998, [0, 1], [2, 1], [], [], [], 0⟩ by
      unfold traverse evolvingStarTable; simp]
    dsimp only
    simp only [if_true]
    generalize centerOfMass (grSetup _ hosts.gr evolvingStar).2 = c
    have hs : (grSetup ⟨false, false, false, false, false, true⟩ hosts.gr evolvingStar).2 = evolvingStar := rfl
    rw [hs]
    have hx : ∀ i : Fin 1, ∃ r, matchEvolution { toInertial c.1 c.2 (evolvingStar i) with id := i.val }
        ⟨.baraffe1998, [0, 1], [2, 1], [], [], [], 0⟩ = some r := by
      intro i
      unfold matchEvolution
      dsimp only [toInertial, evolvingStar]
      simp only [lit_real]
      push_cast
      rw [hq]
      dsimp only [Evolver.queryRadiusOfGyration2]
      split <;> exact ⟨_, rfl⟩
    unfold traverse
    rw [dif_pos fun i => by obtain ⟨r, hr⟩ := hx i; dsimp only; rw [hr]; rfl]
    exact ⟨_, rfl⟩
  obtain ⟨u, hu⟩ := key
  obtain ⟨r1, r2, r3⟩ := C69_rotation hu 0 ⟨by simp [evolvingStar]; norm_num, by ext <;> simp [evolvingStar]⟩
  refine ⟨u, hu, r1, r2, ?_⟩
  have hc : u.consider.evolution = true := ((C43_enabled hu).2.2.2.2.2).2 ⟨rfl, 0, by simp [evolvingStar]⟩
  obtain ⟨e, e', e'', r, g, m1, m2, -, m4, -⟩ := r3 hc (by simp [evolvingStar])
  have m1 := Option.some.inj m1
  rw [← m1] at m2
  rw [show (evolvingStar 0).radius = 5 from rfl, hq] at m2
  have m2 : 2 = r := congrArg Prod.fst (Option.some.inj m2)
  rw [m2]
  exact m4

end Posidonius.Univ
