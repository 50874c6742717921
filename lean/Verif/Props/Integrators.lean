import Verif.Model.Integrators
import Verif.Lemmas.Ias15Guard
import Verif.Props.Ias15Momentum
import Verif.Props.WHFastIterate
import Verif.Props.Totals

/-! Properties C97-C99: IAS15 and WHFast with the whole universe, and the braking by the stellar wind. -/

namespace Posidonius.Univ
open Finset
open Gravity (Ignore newton)

variable {n : Nat}

/-! ## What an evaluation and a record keep -/

section
variable {F : Type} [Add F] [Sub F] [Mul F] [Div F] [Neg F] [FOps F] [FPow F] [FTrig F]

/-- The same configuration: switches, hosts and the settings of all particles. -/
structure Alike (u v : Universe F n) : Prop where
  consider : u.consider = v.consider
  hosts : u.hosts = v.hosts
  gr : u.grImplementation = v.grImplementation
  settings : Same settings u.particles v.particles

theorem Alike.refl (u : Universe F n) : Alike u u := ⟨rfl, rfl, rfl, Same.refl _⟩

theorem Alike.trans {u v w : Universe F n} (a : Alike u v) (b : Alike v w) : Alike u w :=
  ⟨a.consider.trans b.consider, a.hosts.trans b.hosts, a.gr.trans b.gr, a.settings.trans b.settings⟩

theorem Alike.field {A : Type} {u v : Universe F n} (h : Alike u v) (f : Particle F → A)
    (hf : ∀ q, f q = f (Univ.settings q)) (i : Fin n) : f (u.particles i) = f (v.particles i) := by
  rw [hf, h.settings i, ← hf]

theorem Alike.list {u v : Universe F n} (h : Alike u v) (i : Fin n) :
    (u.particles i).id = (v.particles i).id ∧ (u.particles i).mass = (v.particles i).mass
      ∧ (u.particles i).massG = (v.particles i).massG ∧ (u.particles i).evolution = (v.particles i).evolution
      ∧ (u.particles i).tides.effect = (v.particles i).tides.effect
      ∧ (u.particles i).flattening.effect = (v.particles i).flattening.effect
      ∧ (u.particles i).gr.effect = (v.particles i).gr.effect
      ∧ (u.particles i).disk.effect = (v.particles i).disk.effect
      ∧ (u.particles i).wind.interaction = (v.particles i).wind.interaction
      ∧ (u.particles i).wind.kFactor = (v.particles i).wind.kFactor
      ∧ u.consider = v.consider ∧ u.hosts = v.hosts ∧ u.grImplementation = v.grImplementation :=
  ⟨h.field _ (fun _ => rfl) i, h.field _ (fun _ => rfl) i, h.field _ (fun _ => rfl) i, h.field _ (fun _ => rfl) i,
    h.field (fun q => q.tides.effect) (fun _ => rfl) i, h.field (fun q => q.flattening.effect) (fun _ => rfl) i,
    h.field (fun q => q.gr.effect) (fun _ => rfl) i, h.field (fun q => q.disk.effect) (fun _ => rfl) i,
    h.field (fun q => q.wind.interaction) (fun _ => rfl) i, h.field (fun q => q.wind.kFactor) (fun _ => rfl) i,
    h.consider, h.hosts, h.gr⟩

theorem helio_alike (u : Universe F n) : Alike (inertialToHeliocentric u) u :=
  ⟨rfl, rfl, rfl, inertialToHeliocentric_settings u⟩

theorem placeAll_alike (l : List (Ias15.Place F)) (u : Universe F n) : Alike (placeAll l u) u :=
  ⟨rfl, rfl, rfl, fun _ => rfl⟩

theorem gravity_alike {k : Consts F} {roche : Fin n → Fin n → F} {ignore : Ignore} {u u' : Universe F n}
    (h : universeGravity k roche ignore u = some u') : Alike u' u := by
  unfold universeGravity at h
  split at h
  · cases h
  · cases h
    exact ⟨rfl, rfl, rfl, fun _ => rfl⟩

theorem evaluation_alike {k : Consts F} {m : Models F} {eps2 time : F} {evolution dL acc : Bool}
    {ignore : Ignore} {u u' : Universe F n}
    (h : calculateAdditionalEffects k m eps2 time evolution dL acc ignore u = some u') : Alike u' u := by
  obtain ⟨a, b, c, -⟩ := evaluation_totals h
  exact ⟨a, c, b, evaluation_settings h⟩

theorem observe_parts {k : Consts F} {time : F} {u u' : Universe F n} (h : observe k time u = some u') :
    Alike u' u ∧ ∀ i, fixed (u'.particles i) = fixed ((inertialToHeliocentric u).particles i) := by
  unfold observe at h
  split at h
  · cases h
  · next u1 h1 =>
    obtain ⟨b1, b2, b3, b4, -⟩ := calculateSpinAndEvolving_step h1
    have s1 : Same settings u1.particles (inertialToHeliocentric u).particles := fun i => by
      have := congrArg settings (spinAndEvolving_noSpin (b1 i))
      exact this
    have f1 : ∀ i, fixed (u1.particles i) = fixed ((inertialToHeliocentric u).particles i) := fun i =>
      congrArg core (spinAndEvolving_noSpin (b1 i))
    have a1 : Alike u1 u := (Alike.mk b2 b4 b3 s1).trans (helio_alike u)
    split at h
    · unfold universeDenergyDt withHost at h
      split at h
      · cases h
      · next hst hh =>
        cases h
        refine ⟨Alike.trans (v := u1) ⟨rfl, rfl, rfl, calculateDenergyDt_settings hst u1.particles⟩ a1, fun i => ?_⟩
        rw [← f1 i]
        have := congrArg fixed (calculateDenergyDt_frame hst u1.particles i)
        exact this
    · cases h
      exact ⟨a1, f1⟩

end

/-! ## C97 IAS15 -/

section
variable {F : Type} [Add F] [Sub F] [Mul F] [Div F] [Neg F] [FOps F] [FPow F] [FTrig F]
variable {k : Consts F} {m : Models F} {eps2 : F} {roche : Fin n → Fin n → F}

theorem ias15Evaluate_parts {u u' : Universe F n} {time : F} {l : List (Ias15.Place F)} {r : List (Axes F × Axes F)}
    (h : ias15Evaluate k m eps2 roche u time l = some (u', r)) :
    ∃ (a : Fin n → Axes F) (u2 : Universe F n),
      Gravity.gravity k.g (fun i => bodyOf ((placeAll l u).particles i)) roche .none u.hosts.mostMassive = .ok a
      ∧ calculateAdditionalEffects k m eps2 time true true true .none (inertialToHeliocentric
          { placeAll l u with particles := fun i => { (placeAll l u).particles i with inertialAcceleration := a i } })
        = some u2
      ∧ u' = { u2 with particles := fun i => applyAccelerations (u2.particles i) }
      ∧ r = List.ofFn fun i => ((u'.particles i).inertialAcceleration, (u'.particles i).dAngularMomentumDt) := by
  unfold ias15Evaluate universeGravity at h
  split at h
  · cases h
  · next u1 h1 =>
    split at h1
    · cases h1
    · next a ha =>
      cases h1
      split at h
      · cases h
      · next u2 h2 =>
        cases h
        exact ⟨a, u2, ha, h2, rfl, rfl⟩

theorem ias15Evaluate_alike {u u' : Universe F n} {time : F} {l : List (Ias15.Place F)} {r : List (Axes F × Axes F)}
    (h : ias15Evaluate k m eps2 roche u time l = some (u', r)) : Alike u' u := by
  obtain ⟨a, u2, -, h2, h3, -⟩ := ias15Evaluate_parts h
  have e := (evaluation_alike h2).trans (helio_alike _)
  rw [h3]
  exact ⟨e.consider, e.hosts, e.gr, e.settings⟩

variable [Ias15.FNormal F]

/-- One iteration, with or without a record. -/
def Ias15Step (k : Consts F) (m : Models F) (eps2 : F) (roche : Fin n → Fin n → F) (r r' : Ias15Run F n) : Prop :=
  ∃ fuel record, ias15Iterate k m eps2 roche fuel record r = some r'

omit [Ias15.FNormal F] in
theorem observed_parts {k : Consts F} {time : F} {record : Bool} {u u' : Universe F n}
    (h : (if record then observe k time u else some u) = some u') :
    Alike u' u ∧ (∀ i, placeOf (u'.particles i) = placeOf (u.particles i))
      ∧ ((u.particles u.hosts.mostMassive).heliocentricVelocity = Axes.zero →
        (u'.particles u'.hosts.mostMassive).heliocentricVelocity = Axes.zero) := by
  cases record
  · cases h
    exact ⟨Alike.refl _, fun _ => rfl, fun h => h⟩
  · obtain ⟨a, b⟩ := observe_parts h
    have e {A : Type} (f : Particle F → A) (hf : ∀ q, f q = f (fixed q)) (i : Fin n) :
        f (u'.particles i) = f ((inertialToHeliocentric u).particles i) := by rw [hf, b i, ← hf]
    refine ⟨a, fun i => ?_, fun _ => ?_⟩
    · rw [e placeOf (fun _ => rfl)]
      unfold inertialToHeliocentric
      by_cases hi : i = u.hosts.mostMassive
      · subst hi
        dsimp only
        rw [mapHost_host]
        unfold mapOthers
        simp [placeOf, zeroHeliocentric]
      · dsimp only
        rw [mapHost_other hi]
        unfold mapOthers
        rw [if_neg hi]
        rfl
    · rw [e Particle.heliocentricVelocity (fun _ => rfl), a.hosts]
      unfold inertialToHeliocentric
      dsimp only
      rw [mapHost_host]
      rfl

theorem ias15Step_parts {r r' : Ias15Run F n} {fuel : ℕ} {record : Bool}
    (h : ias15Iterate k m eps2 roche fuel record r = some r') :
    ∃ (u : Universe F n) (s : Ias15.State (Universe F n) F),
      (if record then observe k r.time r.world else some r.world) = some u
      ∧ Ias15.iterate Ias15.tables (integrateSpin u) (ias15Evaluate k m eps2 roche) fuel
        { particles := List.ofFn fun i => loaded (u.particles i) (r.arrays i), hidden := u, time := r.time, dt := r.dt,
          last := r.last } = some s
      ∧ r' = { world := placeAll (Ias15.places s.particles) s.hidden,
               arrays := fun i => s.particles[i.val]?.getD (r.arrays i), time := s.time, dt := s.dt,
               last := s.last } := by
  unfold ias15Iterate at h
  split at h
  · cases h
  · next u hu =>
    split at h
    · cases h
    · next s hs =>
      cases h
      exact ⟨u, s, hu, hs, rfl⟩

theorem ias15Step_alike {r r' : Ias15Run F n} (h : Ias15Step k m eps2 roche r r') : Alike r'.world r.world := by
  obtain ⟨fuel, record, h⟩ := h
  obtain ⟨u, s, hu, hs, rfl⟩ := ias15Step_parts h
  have keeps : Ias15.Keeps (fun v => Alike v u) n (ias15Evaluate k m eps2 roche) := by
    intro v t l v' q hv _ he
    refine ⟨(ias15Evaluate_alike he).trans hv, ?_⟩
    obtain ⟨-, -, -, -, -, e⟩ := ias15Evaluate_parts he
    rw [e, List.length_ofFn]
  have := ((Ias15.iterate_guarded keeps (Alike.refl u) (by simp)).2 s hs).1
  exact (placeAll_alike _ _).trans (this.trans (observed_parts hu).1)

/-- Masses, identifiers, effects with their parameters and the type of evolution never change, in any arithmetic. -/
theorem C97_settings {r r' : Ias15Run F n} (h : Relation.ReflTransGen (Ias15Step k m eps2 roche) r r') (i : Fin n) :
    (r'.world.particles i).id = (r.world.particles i).id ∧ (r'.world.particles i).mass = (r.world.particles i).mass
      ∧ (r'.world.particles i).massG = (r.world.particles i).massG
      ∧ (r'.world.particles i).evolution = (r.world.particles i).evolution
      ∧ (r'.world.particles i).tides.effect = (r.world.particles i).tides.effect
      ∧ (r'.world.particles i).flattening.effect = (r.world.particles i).flattening.effect
      ∧ (r'.world.particles i).gr.effect = (r.world.particles i).gr.effect
      ∧ (r'.world.particles i).disk.effect = (r.world.particles i).disk.effect
      ∧ (r'.world.particles i).wind.interaction = (r.world.particles i).wind.interaction
      ∧ (r'.world.particles i).wind.kFactor = (r.world.particles i).wind.kFactor
      ∧ r'.world.consider = r.world.consider ∧ r'.world.hosts = r.world.hosts
      ∧ r'.world.grImplementation = r.world.grImplementation := by
  have key : Alike r'.world r.world := by
    induction h with
    | refl => exact Alike.refl _
    | tail _ hs ih => exact (ias15Step_alike hs).trans ih
  exact key.list i

end

section
variable {k : Consts ℝ} {m : Models ℝ} {eps2 time : ℝ} {roche : Fin n → Fin n → ℝ}

/-- The accelerations by the effects of a closed system have no net force. -/
theorem closed_balance {u u' : Universe ℝ n} {evolution dL : Bool} {ignore : Ignore} (hc : Closed u)
    (hd : u.consider.tides = true ∨ u.consider.flattening = true → dL = true)
    (hv : (u.particles u.hosts.mostMassive).heliocentricVelocity = 0)
    (sep : ∀ i j, i ≠ j → (u.particles i).inertialPosition ≠ (u.particles j).inertialPosition)
    (h : calculateAdditionalEffects k m eps2 time evolution dL true ignore (inertialToHeliocentric u) = some u') :
    ∑ i, (u.particles i).mass • (u'.particles i).inertialAdditionalAcceleration = 0 := by
  have pt : u.consider.tides = true → ∑ i, (u.particles i).mass • (u'.particles i).tides.acceleration = 0 := by
    intro x
    obtain ⟨j, j1, j2⟩ := hc.tides x
    have hd := hd (Or.inl x)
    subst hd
    exact C33_evaluation hc.hosts j1 x j2 hc.mass (fun i hi => sep i j hi) h
  have pf : u.consider.flattening = true →
      ∑ i, (u.particles i).mass • (u'.particles i).flattening.acceleration = 0 := by
    intro x
    obtain ⟨j, l, j1, j2⟩ := hc.flattening x
    have hd := hd (Or.inr x)
    subst hd
    exact C38_momentum hc.hosts j1 x j2 hc.mass h
  have pg : u.consider.gr = true → ∑ i, (u.particles i).mass • (u'.particles i).gr.acceleration = 0 := by
    intro x
    obtain ⟨j, j1, j2, j3⟩ := hc.gr x
    exact (C40_momentum hc.grHosts j1 x j2 hv (hc.mass j)
      (fun i hi ho => by rw [j3 i hi] at ho; simp [GrEffect.isOrbiting] at ho) h).1
  have e := C94_acceleration h
  have cc : (inertialToHeliocentric u).consider = u.consider := rfl
  rw [cc] at e
  simp only [e, hc.disk, Bool.false_eq_true, if_false, add_zero, smul_add, sum_add_distrib]
  have z : ∀ {b : Bool} {f : Fin n → Axes ℝ}, (b = true → ∑ i, (u.particles i).mass • f i = 0) →
      ∑ i, (u.particles i).mass • (if b then f i else 0) = 0 := by
    intro b f hb
    cases b
    · simp
    · exact hb rfl
  rw [z pt, z pf, z pg, add_zero, add_zero]

theorem noOffTorque_moved {u v : Universe ℝ n} (h : NoOffTorque u) (hc : v.consider = u.consider)
    (ht : ∀ i, (v.particles i).tides.dAngularMomentumDt = (u.particles i).tides.dAngularMomentumDt)
    (hf : ∀ i, (v.particles i).flattening.dAngularMomentumDt = (u.particles i).flattening.dAngularMomentumDt)
    (hg : ∀ i, (v.particles i).gr.dAngularMomentumDt = (u.particles i).gr.dAngularMomentumDt)
    (hw : ∀ i, (v.particles i).wind.dAngularMomentumDt = (u.particles i).wind.dAngularMomentumDt) : NoOffTorque v where
  tides x i := by rw [ht]; rw [hc] at x; exact h.tides x i
  flattening x i := by rw [hf]; rw [hc] at x; exact h.flattening x i
  gr x i := by rw [hg]; rw [hc] at x; exact h.gr x i
  wind x i := by rw [hw]; rw [hc] at x; exact h.wind x i

theorem helio_noOffTorque {u : Universe ℝ n} (h : NoOffTorque u) : NoOffTorque (inertialToHeliocentric u) :=
  noOffTorque_moved h rfl
    (fun i => by rw [helio_field Particle.tides (fun _ => rfl) (fun _ _ => rfl)])
    (fun i => by rw [helio_field Particle.flattening (fun _ => rfl) (fun _ _ => rfl)])
    (fun i => by rw [helio_field Particle.gr (fun _ => rfl) (fun _ _ => rfl)])
    (fun i => by rw [helio_field Particle.wind (fun _ => rfl) (fun _ _ => rfl)])

/-- What IAS15 gets at the places `l`: the attraction of all bodies there and the accelerations of the effects
switched on, and the torques of those effects. -/
theorem C97_evaluation {u u' : Universe ℝ n} {l : List (Ias15.Place ℝ)} (hl : l.length = n)
    {r : List (Axes ℝ × Axes ℝ)} (h : ias15Evaluate k m eps2 roche u time l = some (u', r)) :
    r.length = n ∧ ∀ i : Fin n, r[i.val]? = some ((u'.particles i).inertialAcceleration, (u'.particles i).dAngularMomentumDt)
      ∧ l[i.val]? = some (placeOf (u'.particles i))
      ∧ (u'.particles i).mass = (u.particles i).mass
      ∧ (u'.particles i).inertialAcceleration
        = (∑ j, if j = i then 0 else newton k.g (u'.particles j).mass (u'.particles i).inertialPosition
            (u'.particles j).inertialPosition)
          + additional u.consider (u'.particles i)
      ∧ (NoOffTorque u → (u.consider.tides || u.consider.flattening
          || (u.consider.gr && (u.grImplementation == .kidder1995)) || u.consider.wind) = true →
        (u'.particles i).dAngularMomentumDt
          = (if u.consider.tides then (u'.particles i).tides.dAngularMomentumDt else 0)
            + (if u.consider.flattening then (u'.particles i).flattening.dAngularMomentumDt else 0)
            + (if u.consider.gr then (u'.particles i).gr.dAngularMomentumDt else 0)
            + (if u.consider.wind then (u'.particles i).wind.dAngularMomentumDt else 0)) := by
  have al := ias15Evaluate_alike h
  obtain ⟨a, u2, ha, h2, h3, h4⟩ := ias15Evaluate_parts h
  obtain ⟨-, -, -, f1, -, -⟩ := evaluation_totals h2
  have e {A : Type} (f : Particle ℝ → A) (hf : ∀ q, f q = f (fixed q)) (h1 : ∀ q, f (zeroHeliocentric q) = f q)
      (h2 : ∀ p q, f (toHeliocentric p q) = f q) (i : Fin n) : f (u2.particles i)
      = f { (placeAll l u).particles i with inertialAcceleration := a i } := by
    rw [fixed_field f hf f1, helio_field f h1 h2]
  have pl : ∀ i, placeOf (u'.particles i) = placeOf ((placeAll l u).particles i) := fun i => by
    rw [h3]
    exact e placeOf (fun _ => rfl) (fun _ => rfl) (fun _ _ => rfl) i
  have pos : ∀ i, (u'.particles i).inertialPosition = ((placeAll l u).particles i).inertialPosition := fun i =>
    congrArg Ias15.Place.position (pl i)
  have mass : ∀ i, (u'.particles i).mass = (u.particles i).mass := fun i => al.field _ (fun _ => rfl) i
  refine ⟨by rw [h4, List.length_ofFn], fun i => ⟨?_, ?_, mass i, ?_, ?_⟩⟩
  · rw [h4, List.getElem?_ofFn]
    simp
  · have hi : i.val < l.length := by rw [hl]; exact i.isLt
    rw [pl i]
    unfold placeAll
    dsimp only
    rw [List.getElem?_eq_getElem hi]
    rfl
  · have hn := Gravity.C19_newtons_law k.g _ roche _ a ha i
    have q : (u'.particles i).inertialAcceleration = a i + (u2.particles i).inertialAdditionalAcceleration := by
      have e1 := e Particle.inertialAcceleration (fun _ => rfl) (fun _ => rfl) (fun _ _ => rfl) i
      rw [h3]
      show (u2.particles i).inertialAcceleration + (u2.particles i).inertialAdditionalAcceleration = _
      rw [e1]
    have q2 := C94_acceleration h2 i
    have q3 : additional u.consider (u'.particles i) = (u2.particles i).inertialAdditionalAcceleration := by
      rw [q2, h3]
      rfl
    rw [q, q3, hn]
    congr 1
    refine sum_congr rfl fun j _ => ?_
    rw [pos i, pos j, mass j]
    rfl
  · intro hq hon
    set w : Universe ℝ n := { placeAll l u with
      particles := fun i => { (placeAll l u).particles i with inertialAcceleration := a i } } with hw
    have t := (C94_torque (helio_noOffTorque (u := w) (noOffTorque_moved hq rfl (fun _ => rfl) (fun _ => rfl)
      (fun _ => rfl) (fun _ => rfl))) h2).2 i
    have cw : (inertialToHeliocentric w).consider = u.consider := rfl
    have gw : (inertialToHeliocentric w).grImplementation = u.grImplementation := rfl
    rw [cw, gw, if_pos hon] at t
    rw [h3]
    exact t

/-- The universe moves with the star: the star's own heliocentric velocity is zero, as in a new universe. -/
def Centred (u : Universe ℝ n) : Prop := (u.particles u.hosts.mostMassive).heliocentricVelocity = 0

theorem evaluation_centred {u u' : Universe ℝ n} {evolution dL acc : Bool} {ignore : Ignore}
    (h : calculateAdditionalEffects k m eps2 time evolution dL acc ignore (inertialToHeliocentric u) = some u') :
    Centred u' := by
  obtain ⟨-, -, t1, f1, -, -⟩ := evaluation_totals h
  unfold Centred
  rw [fixed_field Particle.heliocentricVelocity (fun _ => rfl) f1, t1]
  show (mapHost u.hosts.mostMassive zeroHeliocentric _ u.hosts.mostMassive).heliocentricVelocity = 0
  rw [mapHost_host]
  rfl

/-- The forces on a closed system in IAS15 balance. -/
theorem ias15Evaluate_balance {u u' : Universe ℝ n} {l : List (Ias15.Place ℝ)} {r : List (Axes ℝ × Axes ℝ)}
    (hc : Closed u) (hv : Centred u) (h : ias15Evaluate k m eps2 roche u time l = some (u', r)) :
    ∑ i, (u.particles i).mass • (u'.particles i).inertialAcceleration = 0 := by
  obtain ⟨a, u2, ha, h2, h3, -⟩ := ias15Evaluate_parts h
  set v : Universe ℝ n := { placeAll l u with
    particles := fun i => { (placeAll l u).particles i with inertialAcceleration := a i } } with hvv
  have hcv : Closed v := hc.congr rfl rfl (fun _ => rfl)
  have b1 := closed_balance hcv (fun _ => rfl) (show Centred v from hv) (fun i j hij => separated ha i j hij) h2
  have b2 : ∑ i, (u.particles i).mass • a i = 0 := Gravity.C19_forces_balance k.g _ roche _ _ a ha
  obtain ⟨-, -, -, f1, -, -⟩ := evaluation_totals h2
  have q : ∀ i, (u'.particles i).inertialAcceleration = a i + (u2.particles i).inertialAdditionalAcceleration := by
    intro i
    have e1 : (u2.particles i).inertialAcceleration = a i := by
      rw [fixed_field Particle.inertialAcceleration (fun _ => rfl) f1,
        helio_field Particle.inertialAcceleration (fun _ => rfl) (fun _ _ => rfl)]
    rw [h3]
    show (u2.particles i).inertialAcceleration + (u2.particles i).inertialAdditionalAcceleration = _
    rw [e1]
  simp only [q, smul_add, sum_add_distrib, b2, zero_add]
  exact b1

/-- A new simulation: no predicted accelerations and no compensations. -/
structure Fresh (c : Ias15.Comp ℝ) : Prop where
  b : c.acc.b = Ias15.Seven.zero
  e : c.acc.e = Ias15.Seven.zero
  br : c.acc.br = Ias15.Seven.zero
  er : c.acc.er = Ias15.Seven.zero
  csx : c.csx = 0
  csv : c.csv = 0

theorem zipWith_ofFn {A B C : Type} (f : A → B → C) (a : Fin n → A) (b : Fin n → B) :
    List.zipWith f (List.ofFn a) (List.ofFn b) = List.ofFn fun i => f (a i) (b i) := by
  apply List.ext_getElem <;> simp

theorem ofFn_entries {A : Type} {l : List A} (hl : l.length = n) (d : Fin n → A) :
    (List.ofFn fun i : Fin n => l[i.val]?.getD (d i)) = l := by
  apply List.ext_getElem
  · simp [hl]
  · intro i h1 h2
    simp [List.getElem?_eq_getElem h2]

theorem tot_parts (ms : List ℝ) (cs ds : List (Ias15.Comp ℝ))
    (h : List.Forall₂ (fun c d => c.acc = d.acc ∧ c.csx = d.csx ∧ c.csv = d.csv) cs ds) :
    (Ias15.tot ms cs).acc = (Ias15.tot ms ds).acc ∧ (Ias15.tot ms cs).csx = (Ias15.tot ms ds).csx
      ∧ (Ias15.tot ms cs).csv = (Ias15.tot ms ds).csv := by
  induction h generalizing ms with
  | nil => exact ⟨rfl, rfl, rfl⟩
  | cons a _ ih =>
    cases ms with
    | nil => exact ⟨rfl, rfl, rfl⟩
    | cons x ms =>
      obtain ⟨i1, i2, i3⟩ := ih ms
      simp only [Ias15.tot, Ias15.Comp.comb, a.1, a.2.1, a.2.2, i1, i2, i3]
      exact ⟨trivial, trivial, trivial⟩

theorem settled_loaded {ms : List ℝ} {p : Fin n → Particle ℝ} {a : Fin n → Ias15.Particle ℝ}
    (h : Ias15.Settled ms (List.ofFn a)) : Ias15.Settled ms (List.ofFn fun i => loaded (p i) (a i)) := by
  intro α
  obtain ⟨h1, h2, h3, h4, h5, h6⟩ := h α
  have key := tot_parts ms ((List.ofFn fun i => loaded (p i) (a i)).map α.get) ((List.ofFn a).map α.get) (by
    rw [List.forall₂_iff_get]
    refine ⟨by simp, fun i _ _ => ?_⟩
    simp only [List.get_eq_getElem, List.getElem_map, List.getElem_ofFn]
    cases α <;> exact ⟨rfl, rfl, rfl⟩)
  obtain ⟨k1, k2, k3⟩ := key
  unfold Ias15.total at *
  exact ⟨by rw [k1]; exact h1, by rw [k1]; exact h2, by rw [k1]; exact h3, by rw [k1]; exact h4,
    by rw [k2]; exact h5, by rw [k3]; exact h6⟩

theorem fresh_settled {ms : List ℝ} {a : Fin n → Ias15.Particle ℝ}
    (h : ∀ i, Fresh (a i).x ∧ Fresh (a i).y ∧ Fresh (a i).z) : Ias15.Settled ms (List.ofFn a) := by
  intro α
  have key : ∀ (ms : List ℝ) (cs : List (Ias15.Comp ℝ)), (∀ c ∈ cs, Fresh c) → Ias15.Rested (Ias15.tot ms cs) := by
    intro ms
    induction ms with
    | nil => intro cs _; rw [Ias15.tot_nil]; exact ⟨rfl, rfl, rfl, rfl, rfl, rfl⟩
    | cons x ms ih =>
      intro cs hc
      cases cs with
      | nil => exact ⟨rfl, rfl, rfl, rfl, rfl, rfl⟩
      | cons c cs =>
        obtain ⟨i1, i2, i3, i4, i5, i6⟩ := ih cs fun d hd => hc d (by simp [hd])
        obtain ⟨j1, j2, j3, j4, j5, j6⟩ := hc c (by simp)
        refine ⟨?_, ?_, ?_, ?_, ?_, ?_⟩
        all_goals
          simp only [Ias15.tot, Ias15.Comp.comb, Ias15.Series.comb, i1, i2, i3, i4, i5, i6, j1, j2, j3, j4, j5, j6]
          simp [Ias15.Seven.comb, Ias15.Seven.zero, Ias15.Seven.nil]
  refine key ms _ fun c hc => ?_
  simp only [List.mem_map, List.mem_ofFn] at hc
  obtain ⟨_, ⟨i, rfl⟩, rfl⟩ := hc
  obtain ⟨h1, h2, h3⟩ := h i
  cases α
  · exact h1
  · exact h2
  · exact h3

variable [Ias15.FNormal ℝ]

theorem ias15Step_momentum {r r' : Ias15Run ℝ n} (hc : Closed r.world) (hv : Centred r.world)
    (hs : Ias15.Settled (List.ofFn fun i => (r.world.particles i).mass) (List.ofFn r.arrays))
    (h : Ias15Step k m eps2 roche r r') :
    Closed r'.world ∧ Centred r'.world
      ∧ Ias15.Settled (List.ofFn fun i => (r.world.particles i).mass) (List.ofFn r'.arrays)
      ∧ ∑ i, (r.world.particles i).mass • (r'.world.particles i).inertialVelocity
        = ∑ i, (r.world.particles i).mass • (r.world.particles i).inertialVelocity
      ∧ ∑ i, (r.world.particles i).mass • (r'.world.particles i).inertialPosition
        = ∑ i, (r.world.particles i).mass • (r.world.particles i).inertialPosition
          + (r'.time - r.time) • ∑ i, (r.world.particles i).mass • (r.world.particles i).inertialVelocity := by
  have al := ias15Step_alike h
  obtain ⟨fuel, record, h⟩ := h
  obtain ⟨u, s, hu, hi, rfl⟩ := ias15Step_parts h
  obtain ⟨au, pu, vu⟩ := observed_parts hu
  have hcu : Closed u := hc.congr au.consider au.hosts au.settings
  set ms : List ℝ := List.ofFn fun i => (r.world.particles i).mass with hms
  have keeps : Ias15.Keeps (fun v => Alike v u ∧ Centred v) n (ias15Evaluate k m eps2 roche) := by
    intro v t l v' q hv' _ he
    have a := ias15Evaluate_alike he
    obtain ⟨_, u2, -, h2, h3, e⟩ := ias15Evaluate_parts he
    refine ⟨⟨a.trans hv'.1, ?_⟩, by rw [e, List.length_ofFn]⟩
    have := evaluation_centred h2
    rw [h3]
    exact this
  obtain ⟨g1, g2⟩ := Ias15.iterate_guarded (T := Ias15.tables) (spin := integrateSpin u) (fuel := fuel)
    (u := { particles := List.ofFn fun i => loaded (u.particles i) (r.arrays i), hidden := u, time := r.time,
            dt := r.dt, last := r.last }) keeps ⟨Alike.refl u, vu hv⟩ (by simp)
  obtain ⟨⟨-, vs⟩, ls⟩ := g2 s hi
  rw [← g1] at hi
  have total : Ias15.Total (Ias15.guarded (fun v => Alike v u ∧ Centred v) n (ias15Evaluate k m eps2 roche)) := by
    intro v t l v' q he
    unfold Ias15.guarded at he
    split at he
    · next hg => rw [(keeps _ _ _ _ _ hg.1 hg.2 he).2, hg.2]
    · cases he
  have balanced : Ias15.Balanced ms
      (Ias15.guarded (fun v => Alike v u ∧ Centred v) n (ias15Evaluate k m eps2 roche)) := by
    intro v t l v' q he
    unfold Ias15.guarded at he
    split at he
    · next hg =>
      have b := ias15Evaluate_balance (hcu.congr hg.1.1.consider hg.1.1.hosts hg.1.1.settings) hg.1.2 he
      obtain ⟨-, -, -, -, -, e⟩ := ias15Evaluate_parts he
      rw [e, hms, zipWith_ofFn, List.sum_ofFn, ← b]
      exact sum_congr rfl fun i _ => by rw [(hg.1.1.trans au).field Particle.mass (fun _ => rfl)]
    · cases he
  obtain ⟨t1, t2, t3⟩ := Ias15.C77_momentum total balanced (.single ⟨fuel, hi⟩) (settled_loaded hs)
  have ent := ofFn_entries ls r.arrays
  have wl : ∀ (f : Ias15.Comp ℝ → ℝ) (a : Fin n → Ias15.Particle ℝ), Ias15.weighted ms f (List.ofFn a)
      = ∑ i, (r.world.particles i).mass • Ias15.Axes.map f (a i) := by
    intro f a
    unfold Ias15.weighted
    rw [hms, zipWith_ofFn, List.sum_ofFn]
  have v0 : ∀ i, (u.particles i).inertialVelocity = (r.world.particles i).inertialVelocity := fun i =>
    congrArg Ias15.Place.velocity (pu i)
  have x0 : ∀ i, (u.particles i).inertialPosition = (r.world.particles i).inertialPosition := fun i =>
    congrArg Ias15.Place.position (pu i)
  have pl : ∀ i : Fin n, (Ias15.places s.particles)[i.val]? = some ⟨Ias15.Axes.map Ias15.Comp.x
      (s.particles[i.val]?.getD (r.arrays i)), Ias15.Axes.map Ias15.Comp.v (s.particles[i.val]?.getD (r.arrays i)),
      Ias15.Axes.map Ias15.Comp.l (s.particles[i.val]?.getD (r.arrays i))⟩ := by
    intro i
    have hi : i.val < s.particles.length := by rw [ls]; exact i.isLt
    simp [Ias15.places, List.getElem?_eq_getElem hi]
  refine ⟨hc.congr al.consider al.hosts al.settings, vs, ?_, ?_, ?_⟩
  · dsimp only
    rw [ent]
    exact t1
  · rw [← ent, wl, wl] at t2
    refine Eq.trans ?_ (t2.trans ?_)
    · refine sum_congr rfl fun i _ => ?_
      simp only [placeAll, pl i, Option.getD_some, placed]
    · exact sum_congr rfl fun i _ => by rw [← v0 i]; rfl
  · rw [← ent, wl, wl, wl] at t3
    refine Eq.trans ?_ (t3.trans ?_)
    · refine sum_congr rfl fun i _ => ?_
      simp only [placeAll, pl i, Option.getD_some, placed]
    · congr 1
      · exact sum_congr rfl fun i _ => by rw [← x0 i]; rfl
      · congr 1
        exact sum_congr rfl fun i _ => by rw [← v0 i]; rfl

/-- A closed system with tides, flattening, relativity, winds and evolving bodies keeps its total linear momentum
in any number of iterations of IAS15, with any sequence of sweeps, rejected and accepted steps and records, and its
centre of mass moves uniformly. -/
theorem C97_momentum {r r' : Ias15Run ℝ n} (hc : Closed r.world) (hv : Centred r.world)
    (hf : ∀ i, Fresh (r.arrays i).x ∧ Fresh (r.arrays i).y ∧ Fresh (r.arrays i).z)
    (h : Relation.ReflTransGen (Ias15Step k m eps2 roche) r r') :
    ∑ i, (r'.world.particles i).mass • (r'.world.particles i).inertialVelocity
        = ∑ i, (r.world.particles i).mass • (r.world.particles i).inertialVelocity
      ∧ ∑ i, (r'.world.particles i).mass • (r'.world.particles i).inertialPosition
        = ∑ i, (r.world.particles i).mass • (r.world.particles i).inertialPosition
          + (r'.time - r.time) • ∑ i, (r.world.particles i).mass • (r.world.particles i).inertialVelocity := by
  have key : Closed r'.world ∧ Centred r'.world ∧ (∀ i, (r'.world.particles i).mass = (r.world.particles i).mass)
      ∧ Ias15.Settled (List.ofFn fun i => (r'.world.particles i).mass) (List.ofFn r'.arrays)
      ∧ ∑ i, (r'.world.particles i).mass • (r'.world.particles i).inertialVelocity
        = ∑ i, (r.world.particles i).mass • (r.world.particles i).inertialVelocity
      ∧ ∑ i, (r'.world.particles i).mass • (r'.world.particles i).inertialPosition
        = ∑ i, (r.world.particles i).mass • (r.world.particles i).inertialPosition
          + (r'.time - r.time) • ∑ i, (r.world.particles i).mass • (r.world.particles i).inertialVelocity := by
    induction h with
    | refl => exact ⟨hc, hv, fun _ => rfl, fresh_settled hf, rfl, by simp⟩
    | tail _ hs ih =>
      obtain ⟨i1, i2, i3, i4, i5, i6⟩ := ih
      obtain ⟨j1, j2, j3, j4, j5⟩ := ias15Step_momentum i1 i2 i4 hs
      have jm := fun i => (ias15Step_alike hs).field Particle.mass (fun _ => rfl) i
      refine ⟨j1, j2, fun i => (jm i).trans (i3 i), ?_, ?_, ?_⟩
      · simp only [jm]
        exact j3
      · simp only [jm]
        exact j4.trans i5
      · simp only [jm]
        rw [j5, i6, i5]
        module
  exact ⟨key.2.2.2.2.1, key.2.2.2.2.2⟩

/-- Two spinning relativistic bodies in a new simulation meet the hypotheses (`windStar` in `WindBraking` is an
example of an iteration). -/
example : Closed (relativisticUniverse .kidder1995 ⟨1, 0, 1⟩ ⟨0, 0, 1⟩)
    ∧ Centred (relativisticUniverse .kidder1995 ⟨1, 0, 1⟩ ⟨0, 0, 1⟩) ∧ Fresh (.rest 0) :=
  ⟨relativisticUniverse_closed _ _, relativisticUniverse_velocity _ _ _,
    ⟨rfl, rfl, rfl, rfl, by simp [Ias15.Comp.rest], by simp [Ias15.Comp.rest]⟩⟩

end
end Posidonius.Univ
