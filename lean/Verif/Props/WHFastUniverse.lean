import Verif.Lemmas.MidpointGuard
import Verif.Props.Integrators

/-! Property C98: WHFast with the whole universe. -/

namespace Posidonius.Univ
open Finset
open Gravity (Ignore newton)

variable {n : Nat}

theorem starFirst_nodup (h : Fin n) : (starFirst h).Nodup := by
  unfold starFirst
  rw [List.nodup_cons]
  exact ⟨by simp, (List.nodup_finRange n).filter _⟩

theorem mem_starFirst (h i : Fin n) : i ∈ starFirst h := by
  unfold starFirst
  by_cases hi : i = h <;> simp [hi]

theorem starFirst_perm (h : Fin n) : (starFirst h).Perm (List.finRange n) :=
  (List.perm_ext_iff_of_nodup (starFirst_nodup h) (List.nodup_finRange n)).2 fun i => by simp [mem_starFirst]

theorem starFirst_length (h : Fin n) : (starFirst h).length = n := by
  rw [(starFirst_perm h).length_eq, List.length_finRange]

theorem map_entry {A : Type} (h : Fin n) {l : List A} (hl : l.length = n) (d : Fin n → A) :
    ((starFirst h).map fun i => entry h l (d i) i) = l := by
  apply List.ext_getElem
  · simp [starFirst_length, hl]
  · intro j h1 h2
    have hj : j < (starFirst h).length := by simpa using h1
    simp only [List.getElem_map, entry]
    rw [(starFirst_nodup h).idxOf_getElem j hj, List.getElem?_eq_getElem h2]
    rfl

theorem sum_starFirst (h : Fin n) (f : Fin n → Axes ℝ) : ((starFirst h).map f).sum = ∑ i, f i := by
  rw [((starFirst_perm h).map f).sum_eq, ← List.ofFn_eq_map, List.sum_ofFn]

section
variable {F : Type} [Add F] [Sub F] [Mul F] [Div F] [Neg F] [FOps F] [FPow F] [FTrig F]
variable {k : Consts F} {m : Models F} {eps2 : F} {roche : Fin n → Fin n → F} {c : WHFast.Coordinates}

theorem withMotions_alike (l : List (WHFast.Motion F)) (u : Universe F n) : Alike (withMotions l u) u :=
  ⟨rfl, rfl, rfl, fun _ => rfl⟩

theorem withSystem_alike (s : WHFast.Sys F) (u : Universe F n) : Alike (withSystem s u) u :=
  ⟨rfl, rfl, rfl, fun _ => rfl⟩

theorem system_bodies (u : Universe F n) :
    (system u).bodies = (starFirst u.hosts.mostMassive).map fun i => keplerBody (u.particles i) := rfl

theorem whfastEvaluate_parts {u u' : Universe F n} {spin evolution : Bool} {time : F} {l : List (WHFast.Motion F)}
    {r : List (WHFast.Rate F)} (h : whfastEvaluate k m eps2 c spin time u evolution l = some (u', r)) :
    calculateAdditionalEffects k m eps2 time evolution spin true (ignored c)
        (inertialToHeliocentric (withMotions l u)) = some u'
      ∧ r = (starFirst u.hosts.mostMassive).map fun i =>
        ⟨(u'.particles i).inertialAdditionalAcceleration, (u'.particles i).dAngularMomentumDt⟩ := by
  unfold whfastEvaluate at h
  split at h
  · cases h
  · next u1 h1 =>
    cases h
    exact ⟨h1, rfl⟩

theorem whfastEvaluate_alike {u u' : Universe F n} {spin evolution : Bool} {time : F} {l : List (WHFast.Motion F)}
    {r : List (WHFast.Rate F)} (h : whfastEvaluate k m eps2 c spin time u evolution l = some (u', r)) :
    Alike u' u ∧ ∀ i, (u'.particles i).inertialPosition = (u.particles i).inertialPosition := by
  obtain ⟨h1, -⟩ := whfastEvaluate_parts h
  refine ⟨(evaluation_alike h1).trans ((helio_alike _).trans (withMotions_alike _ _)), fun i => ?_⟩
  obtain ⟨-, -, -, f1, -, -⟩ := evaluation_totals h1
  have e : (u'.particles i).inertialPosition
      = ((inertialToHeliocentric (withMotions l u)).particles i).inertialPosition := by
    have := congrArg Particle.inertialPosition (f1 i)
    exact this
  rw [e]
  unfold inertialToHeliocentric
  dsimp only
  by_cases hi : i = (withMotions l u).hosts.mostMassive
  · subst hi
    rw [mapHost_host]
    simp [mapOthers, zeroHeliocentric, withMotions]
  · rw [mapHost_other hi]
    have hj : i ≠ u.hosts.mostMassive := hi
    simp [mapOthers, withMotions, hj, toHeliocentric]

theorem whfastForced_parts {half : F} {spin evolution : Bool} {r r' : WHFastRun F n}
    (hl : r.errors.length = n)
    (h : whfastForced k m eps2 c half spin evolution r = some r') :
    Alike r'.world r.world ∧ (∀ i, (r'.world.particles i).inertialPosition = (r.world.particles i).inertialPosition)
      ∧ r'.time = r.time ∧ r'.errors.length = n := by
  unfold whfastForced at h
  split at h
  · cases h
  · next u final errors e =>
    cases h
    have keeps : WHFast.Keeps (fun v => Alike v r.world
        ∧ ∀ i, (v.particles i).inertialPosition = (r.world.particles i).inertialPosition) n
        (whfastEvaluate k m eps2 c spin r.time) := by
      intro v b l v' q hv _ he
      obtain ⟨a, p⟩ := whfastEvaluate_alike he
      obtain ⟨-, e⟩ := whfastEvaluate_parts he
      exact ⟨⟨a.trans hv.1, fun i => (p i).trans (hv.2 i)⟩, by rw [e]; simp [starFirst_length]⟩
    obtain ⟨⟨a, p⟩, -, q⟩ := (WHFast.midpoint_guarded keeps (by simp [starFirst_length]) hl
      ⟨Alike.refl _, fun _ => rfl⟩).2 _ _ _ e
    exact ⟨(withMotions_alike _ _).trans a, fun i => p i, rfl, q⟩

theorem whfastStep_parts {fuel : ℕ} {dt half : F} {record : Bool} {r r' : WHFastRun F n}
    (h : whfastIterate k m eps2 roche c fuel dt half record r = some r') :
    ∃ (u : Universe F n) (r1 : WHFastRun F n) (s : WHFast.Sys F) (r2 : WHFastRun F n),
      (if record then observe k r.time r.world else some r.world) = some u
      ∧ whfastForced k m eps2 c half (integrateSpin u) true { r with world := u } = some r1
      ∧ WHFast.step c fuel k.g dt half (whfastGravity k roche c r1.world) (system r1.world) = some s
      ∧ whfastForced k m eps2 c half (integrateSpin u) false { r1 with world := withSystem s r1.world } = some r2
      ∧ r' = { r2 with time := r.time + dt } := by
  unfold whfastIterate at h
  split at h
  · cases h
  · next u hu =>
    split at h
    · cases h
    · next r1 h1 =>
      split at h
      · cases h
      · next s h2 =>
        split at h
        · cases h
        · next r2 h3 =>
          cases h
          exact ⟨u, r1, s, r2, hu, h1, h2, h3, rfl⟩

/-- One iteration, with or without a record. -/
def WHFastStep (k : Consts F) (m : Models F) (eps2 : F) (roche : Fin n → Fin n → F) (c : WHFast.Coordinates)
    (dt half : F) (r r' : WHFastRun F n) : Prop :=
  ∃ fuel record, whfastIterate k m eps2 roche c fuel dt half record r = some r'

theorem whfastStep_alike {dt half : F} {r r' : WHFastRun F n} (hl : r.errors.length = n)
    (h : WHFastStep k m eps2 roche c dt half r r') : Alike r'.world r.world ∧ r'.errors.length = n := by
  obtain ⟨fuel, record, h⟩ := h
  obtain ⟨u, r1, s, r2, hu, h1, -, h3, rfl⟩ := whfastStep_parts h
  obtain ⟨a1, -, -, l1⟩ := whfastForced_parts (by exact hl) h1
  obtain ⟨a2, -, -, l2⟩ := whfastForced_parts (by exact l1) h3
  exact ⟨a2.trans ((withSystem_alike _ _).trans (a1.trans (observed_parts hu).1)), l2⟩

/-- Masses, identifiers, effects with their parameters and the type of evolution never change, in any arithmetic. -/
theorem C98_settings {dt half : F} {r r' : WHFastRun F n} (hl : r.errors.length = n)
    (h : Relation.ReflTransGen (WHFastStep k m eps2 roche c dt half) r r') (i : Fin n) :
    (r'.world.particles i).id = (r.world.particles i).id ∧ (r'.world.particles i).mass = (r.world.particles i).mass
      ∧ (r'.world.particles i).massG = (r.world.particles i).massG
      ∧ (r'.world.particles i).evolution = (r.world.particles i).evolution
      ∧ (r'.world.particles i).tides.effect = (r.world.particles i).tides.effect
      ∧ (r'.world.particles i).flattening.effect = (r.world.particles i).flattening.effect
      ∧ (r'.world.particles i).gr.effect = (r.world.particles i).gr.effect
      ∧ (r'.world.particles i).disk.effect = (r.world.particles i).disk.effect
      ∧ (r'.world.particles i).wind.interaction = (r.world.particles i).wind.interaction
      ∧ (r'.world.particles i).wind.kFactor = (r.world.particles i).wind.kFactor
      ∧ r'.world.consider = r.world.consider ∧ r'.world.hosts = r.world.hosts
      ∧ r'.world.grImplementation = r.world.grImplementation := by
  have key : Alike r'.world r.world ∧ r'.errors.length = n := by
    induction h with
    | refl => exact ⟨Alike.refl _, hl⟩
    | tail _ hs ih =>
      obtain ⟨a, b⟩ := whfastStep_alike ih.2 hs
      exact ⟨a.trans ih.1, b⟩
  exact key.1.list i

end

section
variable {k : Consts ℝ} {m : Models ℝ} {eps2 : ℝ} {roche : Fin n → Fin n → ℝ} {c : WHFast.Coordinates}

/-- No two bodies are at the same place. -/
def Apart (u : Universe ℝ n) : Prop :=
  ∀ i j, i ≠ j → (u.particles i).inertialPosition ≠ (u.particles j).inertialPosition

/-- The sum of mass times a vector. -/
noncomputable def massSum (u : Universe ℝ n) (f : Particle ℝ → Axes ℝ) : Axes ℝ :=
  ∑ i, (u.particles i).mass • f (u.particles i)

theorem weightedSum_starFirst (h : Fin n) (f : Fin n → ℝ) (g : Fin n → Axes ℝ) :
    WHFast.weightedSum ((starFirst h).map f) ((starFirst h).map g) = ∑ i, f i • g i := by
  unfold WHFast.weightedSum
  rw [List.zipWith_map, List.zipWith_self, sum_starFirst]

theorem whfastForced_momentum {half : ℝ} {evolution : Bool} {r r' : WHFastRun ℝ n} (hc : Closed r.world)
    (hv : Centred r.world) (ha : Apart r.world) (hl : r.errors.length = n) (hz : ∀ e ∈ r.errors, e.velocity = 0)
    (h : whfastForced k m eps2 c half (integrateSpin r.world) evolution r = some r') :
    Centred r'.world ∧ (∀ e ∈ r'.errors, e.velocity = 0)
      ∧ massSum r'.world Particle.inertialVelocity = massSum r.world Particle.inertialVelocity := by
  have par := whfastForced_parts hl h
  unfold whfastForced at h
  split at h
  · cases h
  · next u final errors e =>
    cases h
    set hst := r.world.hosts.mostMassive with hhst
    have keeps : WHFast.Keeps (fun v => (Alike v r.world
        ∧ ∀ i, (v.particles i).inertialPosition = (r.world.particles i).inertialPosition) ∧ Centred v) n
        (whfastEvaluate k m eps2 c (integrateSpin r.world) r.time) := by
      intro v b l v' q hv _ he
      obtain ⟨a, p⟩ := whfastEvaluate_alike he
      obtain ⟨e1, e2⟩ := whfastEvaluate_parts he
      exact ⟨⟨⟨a.trans hv.1.1, fun i => (p i).trans (hv.1.2 i)⟩, evaluation_centred e1⟩,
        by rw [e2]; simp [starFirst_length]⟩
    have lo : ((starFirst hst).map fun i => motionOf (r.world.particles i)).length = n := by simp [starFirst_length]
    obtain ⟨g1, g2⟩ := WHFast.midpoint_guarded (dt := half) (spin := integrateSpin r.world) (evolution := evolution)
      keeps lo hl (s := r.world) ⟨⟨Alike.refl _, fun _ => rfl⟩, hv⟩
    obtain ⟨⟨⟨au, -⟩, vu⟩, lf, -⟩ := g2 _ _ _ e
    rw [← g1] at e
    set masses := (starFirst hst).map fun i => (r.world.particles i).mass with hms
    have lm : masses.length = n := by simp [hms, starFirst_length]
    obtain ⟨m1, m2, m3⟩ := WHFast.C75_momentum _ masses (by
      intro v b l v' q he
      unfold WHFast.guarded at he
      split at he
      · next hg =>
        obtain ⟨e1, e2⟩ := whfastEvaluate_parts he
        refine ⟨by rw [e2]; simp [hms, starFirst_length], ?_⟩
        have hh : v.hosts.mostMassive = hst := by rw [hg.1.1.1.hosts]
        have hcv : Closed (withMotions l v) := hc.congr hg.1.1.1.consider hg.1.1.1.hosts hg.1.1.1.settings
        have b := closed_balance hcv (fun x => by
          have hx : (withMotions l v).consider = r.world.consider := hg.1.1.1.consider
          rw [hx] at x
          unfold integrateSpin
          rcases x with x | x <;> simp [x]) (show Centred _ from hg.1.2) (fun i j hij => by
            have := ha i j hij
            rw [← hg.1.1.2 i, ← hg.1.1.2 j] at this
            exact this) e1
        rw [e2, hh, List.map_map, hms]
        have := weightedSum_starFirst hst (fun i => (r.world.particles i).mass)
          (fun i => (v'.particles i).inertialAdditionalAcceleration)
        refine Eq.trans this (Eq.trans (sum_congr rfl fun i _ => ?_) b)
        have hm : ((withMotions l v).particles i).mass = (r.world.particles i).mass :=
          hg.1.1.1.field Particle.mass (fun _ => rfl) i
        rw [hm]
      · cases he) half (integrateSpin r.world) evolution r.world u _ r.errors final errors (by rw [lo, lm]) (by rw [hl, lm]) e
    refine ⟨vu, fun x hx => ((WHFast.C50_midpoint_exact _ _ _ _ _ _ _ _ _ _ e) x hx).1, ?_⟩
    have z : WHFast.weightedSum masses (r.errors.map WHFast.Motion.velocity) = 0 :=
      WHFast.weightedSum_zero _ _ (by
        intro x hx
        obtain ⟨y, hy, rfl⟩ := List.mem_map.1 hx
        exact hz y hy)
    rw [z, sub_zero, List.map_map, hms] at m3
    have e1 := weightedSum_starFirst hst (fun i => (r.world.particles i).mass)
      (fun i => (r.world.particles i).inertialVelocity)
    have hu : u.hosts.mostMassive = hst := by rw [au.hosts]
    have e2 := map_entry hst lf (fun i => motionOf (u.particles i))
    rw [← e2, List.map_map] at m3
    have e3 := weightedSum_starFirst hst (fun i => (r.world.particles i).mass)
      (fun i => (entry hst final (motionOf (u.particles i)) i).velocity)
    refine Eq.trans ?_ (e3.symm.trans (m3.trans e1))
    unfold massSum
    refine sum_congr rfl fun i _ => ?_
    have hm : ((withMotions final u).particles i).mass = (r.world.particles i).mass :=
      par.1.field Particle.mass (fun _ => rfl) i
    dsimp only
    rw [hm]
    unfold withMotions
    dsimp only
    rw [hu]

theorem getElem?_starFirst {A : Type} (h i : Fin n) (f : Fin n → A) :
    ((starFirst h).map f)[(starFirst h).idxOf i]? = some (f i) := by
  rw [List.getElem?_map, List.getElem?_idxOf (mem_starFirst h i)]
  rfl

/-- The half step with the velocity dependent forces: positions stay, velocities change by the time times the
accelerations of all the effects switched on, angular momenta by the time times their torques if spins are
integrated.  Accelerations and torques are those of the last evaluation, which remain stored. -/
theorem C98_forced {half : ℝ} {spin evolution : Bool} {r r' : WHFastRun ℝ n} (hl : r.errors.length = n)
    (hz : ∀ e ∈ r.errors, e.velocity = 0 ∧ e.angular = 0)
    (h : whfastForced k m eps2 c half spin evolution r = some r') (i : Fin n) :
    (r'.world.particles i).inertialPosition = (r.world.particles i).inertialPosition
      ∧ (r'.world.particles i).inertialVelocity = (r.world.particles i).inertialVelocity
        + half • additional r.world.consider (r'.world.particles i)
      ∧ (spin = false → (r'.world.particles i).angularMomentum = (r.world.particles i).angularMomentum)
      ∧ (spin = true → (r'.world.particles i).angularMomentum = (r.world.particles i).angularMomentum
        + half • (r'.world.particles i).dAngularMomentumDt)
      ∧ (spin = true → NoOffTorque r.world → (r.world.consider.tides || r.world.consider.flattening
          || (r.world.consider.gr && (r.world.grImplementation == .kidder1995)) || r.world.consider.wind) = true →
        (r'.world.particles i).dAngularMomentumDt
          = (if r.world.consider.tides then (r'.world.particles i).tides.dAngularMomentumDt else 0)
            + (if r.world.consider.flattening then (r'.world.particles i).flattening.dAngularMomentumDt else 0)
            + (if r.world.consider.gr then (r'.world.particles i).gr.dAngularMomentumDt else 0)
            + (if r.world.consider.wind then (r'.world.particles i).wind.dAngularMomentumDt else 0)) := by
  refine ⟨(whfastForced_parts hl h).2.1 i, ?_⟩
  unfold whfastForced at h
  split at h
  · cases h
  · next u final errors e =>
    cases h
    set hst := r.world.hosts.mostMassive with hhst
    have keeps : WHFast.Keeps (fun v => Alike v r.world ∧ (spin = true → NoOffTorque r.world → NoOffTorque v)) n
        (whfastEvaluate k m eps2 c spin r.time) := by
      intro v b l v' q hv _ he
      obtain ⟨e1, e2⟩ := whfastEvaluate_parts he
      refine ⟨⟨(whfastEvaluate_alike he).1.trans hv.1, fun hs hq => ?_⟩, by rw [e2]; simp [starFirst_length]⟩
      subst hs
      exact (C94_torque (helio_noOffTorque (u := withMotions l v) (noOffTorque_moved (hv.2 rfl hq) rfl (fun _ => rfl)
        (fun _ => rfl) (fun _ => rfl) (fun _ => rfl))) e1).1
    obtain ⟨g1, g2⟩ := WHFast.midpoint_guarded (dt := half) (spin := spin) (evolution := evolution)
      (orig := (starFirst hst).map fun i => motionOf (r.world.particles i)) keeps (by simp [starFirst_length]) hl
      (s := r.world) ⟨Alike.refl _, fun _ h => h⟩
    obtain ⟨⟨au, -⟩, lf, -⟩ := g2 _ _ _ e
    rw [← g1] at e
    obtain ⟨t, b, l, rates, h1, h2, -⟩ := WHFast.midpoint_last _ _ _ _ _ _ _ _ _ _ e
    unfold WHFast.guarded at h1
    split at h1
    case isFalse => cases h1
    next hg =>
    obtain ⟨e1, e2⟩ := whfastEvaluate_parts h1
    have hu : u.hosts.mostMassive = hst := by rw [au.hosts]
    have ht : t.hosts.mostMassive = hst := by rw [hg.1.1.hosts]
    have ha := C94_acceleration e1 i
    have ct : (inertialToHeliocentric (withMotions l t)).consider = r.world.consider := hg.1.1.consider
    rw [ct] at ha
    obtain ⟨x, hx⟩ : ∃ x, r.errors[(starFirst hst).idxOf i]? = some x := by
      refine ⟨_, List.getElem?_eq_getElem ?_⟩
      have := List.idxOf_lt_length_of_mem (mem_starFirst hst i)
      rw [starFirst_length] at this
      rw [hl]
      exact this
    obtain ⟨x1, x2⟩ := hz x (List.mem_of_getElem? hx)
    have hr : rates[(starFirst hst).idxOf i]?
        = some ⟨(u.particles i).inertialAdditionalAcceleration, (u.particles i).dAngularMomentumDt⟩ := by
      rw [e2, ht]
      exact getElem?_starFirst hst i _
    have hf : entry hst final (motionOf (u.particles i)) i = WHFast.finalOf spin (motionOf (r.world.particles i))
        (WHFast.changeOf half spin ⟨(u.particles i).inertialAdditionalAcceleration, (u.particles i).dAngularMomentumDt⟩
          x) := by
      unfold entry
      rw [h2, List.getElem?_zipWith, List.getElem?_zipWith, hr, hx, getElem?_starFirst hst i]
      rfl
    refine ⟨?_, ?_, ?_, ?_⟩
    · unfold withMotions
      dsimp only
      rw [hu, hf]
      unfold WHFast.finalOf WHFast.changeOf
      dsimp only
      rw [x1, sub_zero, ha]
      rfl
    · intro hs
      unfold withMotions
      dsimp only
      rw [hu, hf]
      subst hs
      rfl
    · intro hs
      unfold withMotions
      dsimp only
      rw [hu, hf]
      subst hs
      unfold WHFast.finalOf WHFast.changeOf
      simp only [if_true]
      rw [x2, sub_zero]
      rfl
    · intro hs hq hon
      subst hs
      have q := (C94_torque (helio_noOffTorque (u := withMotions l t) (noOffTorque_moved (hg.1.2 rfl hq) rfl
        (fun _ => rfl) (fun _ => rfl) (fun _ => rfl) (fun _ => rfl))) e1).2 i
      have gt : (inertialToHeliocentric (withMotions l t)).grImplementation = r.world.grImplementation := hg.1.1.gr
      rw [ct, gt, if_pos hon] at q
      exact q

theorem whfastGravity_like {u : Universe ℝ n} {s w : WHFast.Sys ℝ} (h : whfastGravity k roche c u s = some w) :
    WHFast.Like w s := by
  unfold whfastGravity at h
  split at h
  · cases h
  · cases h
    refine ⟨rfl, rfl, ?_⟩
    rw [List.forall₂_iff_get]
    refine ⟨by simp, fun i _ _ => ?_⟩
    simp

theorem system_weighted (u : Universe ℝ n) (f : WHFast.Body ℝ → Axes ℝ) :
    (system u).weighted f = massSum u fun p => f (keplerBody p) := by
  rw [WHFast.Sys.weighted_eq, system_bodies, List.map_map, List.map_map]
  exact weightedSum_starFirst _ (fun i => (u.particles i).mass) (fun i => f (keplerBody (u.particles i)))

theorem like_masses {s w : WHFast.Sys ℝ} (h : WHFast.Like w s) :
    w.bodies.map WHFast.Body.mass = s.bodies.map WHFast.Body.mass := by
  obtain ⟨h1, -, h2⟩ := h
  simp only [WHFast.Sys.bodies, List.map_cons, h1, List.cons.injEq, true_and]
  generalize w.planets = a at h2
  generalize s.planets = b at h2
  induction h2 with
  | nil => rfl
  | cons x _ ih => simp [x.1, ih]

theorem withSystem_weighted {u : Universe ℝ n} {s : WHFast.Sys ℝ} (h : WHFast.Like s (system u)) :
    massSum (withSystem s u) Particle.inertialVelocity = s.weighted WHFast.Body.velocity
    ∧ massSum (withSystem s u) Particle.inertialPosition = s.weighted WHFast.Body.position := by
  have hl : s.bodies.length = n := by rw [h.length, system_bodies]; simp [starFirst_length]
  have hm := like_masses h
  have hb := map_entry u.hosts.mostMassive hl fun i => keplerBody (u.particles i)
  have key : ∀ f : WHFast.Body ℝ → Axes ℝ, s.weighted f = ∑ i, (u.particles i).mass
      • f (entry u.hosts.mostMassive s.bodies (keplerBody (u.particles i)) i) := by
    intro f
    have e2 : s.bodies.map f = (starFirst u.hosts.mostMassive).map fun i =>
        f (entry u.hosts.mostMassive s.bodies (keplerBody (u.particles i)) i) := by
      conv_lhs => rw [← hb]
      rw [List.map_map]
      rfl
    rw [WHFast.Sys.weighted_eq, hm, e2, system_bodies, List.map_map]
    exact weightedSum_starFirst _ (fun i => (u.particles i).mass) _
  rw [key, key]
  exact ⟨rfl, rfl⟩

theorem integrateSpin_alike {u v : Universe ℝ n} (h : Alike u v) : integrateSpin u = integrateSpin v := by
  unfold integrateSpin
  rw [h.consider, h.gr]

theorem whfastStep_momentum {dt half : ℝ} (hh : half + half = dt) {r r' : WHFastRun ℝ n} (hc : Closed r.world)
    (hm : ∀ i, 0 < (r.world.particles i).mass) (hv : Centred r.world) (hl : r.errors.length = n)
    (hz : ∀ e ∈ r.errors, e.velocity = 0) (ha : Apart r.world) (ha' : Apart r'.world)
    (h : WHFastStep k m eps2 roche c dt half r r') :
    Centred r'.world ∧ (∀ e ∈ r'.errors, e.velocity = 0)
      ∧ massSum r'.world Particle.inertialVelocity = massSum r.world Particle.inertialVelocity
      ∧ massSum r'.world Particle.inertialPosition
        = massSum r.world Particle.inertialPosition + dt • massSum r.world Particle.inertialVelocity
      ∧ r'.time = r.time + dt := by
  obtain ⟨fuel, record, h⟩ := h
  obtain ⟨u, r1, s, r2, hu, h1, h2, h3, rfl⟩ := whfastStep_parts h
  obtain ⟨au, pu, vu⟩ := observed_parts hu
  have xu : ∀ i, (u.particles i).inertialPosition = (r.world.particles i).inertialPosition := fun i =>
    congrArg Ias15.Place.position (pu i)
  have yu : ∀ i, (u.particles i).inertialVelocity = (r.world.particles i).inertialVelocity := fun i =>
    congrArg Ias15.Place.velocity (pu i)
  have mu : ∀ i, (u.particles i).mass = (r.world.particles i).mass := fun i => au.field _ (fun _ => rfl) i
  have hcu : Closed u := hc.congr au.consider au.hosts au.settings
  have hau : Apart u := fun i j hij => by rw [xu, xu]; exact ha i j hij
  obtain ⟨a1, p1, -, l1⟩ := whfastForced_parts (by exact hl) h1
  obtain ⟨c1, z1, s1⟩ := whfastForced_momentum (r := { r with world := u }) hcu (vu hv) hau hl hz h1
  have a1' : Alike r1.world r.world := a1.trans au
  have m1 : ∀ i, (r1.world.particles i).mass = (r.world.particles i).mass := fun i => a1'.field _ (fun _ => rfl) i
  have massive : WHFast.Massive (system r1.world) := by
    refine ⟨?_, ?_⟩
    · show 0 < (r1.world.particles _).mass
      rw [m1]; exact hm _
    · intro p hp
      obtain ⟨i, -, rfl⟩ := List.mem_map.1 hp
      show 0 < (r1.world.particles i).mass
      rw [m1]; exact hm _
  obtain ⟨k2, v2, x2⟩ := WHFast.C70_step c fuel k.g dt half (whfastGravity k roche c r1.world)
    (fun v w => whfastGravity_like) massive hh h2
  obtain ⟨w1, w2⟩ := withSystem_weighted k2
  obtain ⟨a3, p3, -, -⟩ := whfastForced_parts (by exact l1) h3
  have a4 : Alike (withSystem s r1.world) r.world := (withSystem_alike _ _).trans a1'
  have sp : integrateSpin u = integrateSpin (withSystem s r1.world) :=
    integrateSpin_alike (au.trans ⟨a4.consider.symm, a4.hosts.symm, a4.gr.symm, fun i => (a4.settings i).symm⟩)
  rw [sp] at h3
  obtain ⟨c3, z3, s3⟩ := whfastForced_momentum (r := { r1 with world := withSystem s r1.world })
    (hc.congr a4.consider a4.hosts a4.settings) c1 (fun i j hij => by
      have := ha' i j hij
      dsimp only at this
      rw [p3 i, p3 j] at this
      exact this) l1 z1 h3
  have e1 : massSum u Particle.inertialVelocity = massSum r.world Particle.inertialVelocity := by
    unfold massSum
    exact sum_congr rfl fun i _ => by rw [mu, yu]
  have e2 : massSum r1.world Particle.inertialPosition = massSum r.world Particle.inertialPosition := by
    unfold massSum
    exact sum_congr rfl fun i _ => by rw [m1, p1 i]; dsimp only; rw [xu]
  have e3 : massSum r2.world Particle.inertialPosition
      = massSum (withSystem s r1.world) Particle.inertialPosition := by
    unfold massSum
    exact sum_congr rfl fun i _ => by rw [p3 i, a3.field Particle.mass (fun _ => rfl) i]
  rw [system_weighted, system_weighted] at x2
  rw [system_weighted] at v2
  have f1 : (massSum r1.world fun p => WHFast.Body.velocity (keplerBody p)) = massSum r.world Particle.inertialVelocity :=
    s1.trans e1
  have f2 : (massSum r1.world fun p => WHFast.Body.position (keplerBody p)) = massSum r.world Particle.inertialPosition :=
    e2
  refine ⟨c3, z3, ?_, ?_, rfl⟩
  · dsimp only
    rw [s3]
    dsimp only
    rw [w1, v2, f1]
  · dsimp only
    rw [e3, w2, x2, f1, f2]

/-- A closed system with tides, flattening, relativity, winds and evolving bodies keeps its total linear momentum in
any number of iterations of WHFast, in all three kinds of coordinates, with records or without, whatever the solver
of Kepler's equation and the implicit midpoint yield, and its centre of mass moves uniformly; no two bodies are at
the same place between the iterations. -/
theorem C98_momentum {dt half : ℝ} (hh : half + half = dt) {r r' : WHFastRun ℝ n} (hc : Closed r.world)
    (hm : ∀ i, 0 < (r.world.particles i).mass) (hv : Centred r.world) (hl : r.errors.length = n)
    (hz : ∀ e ∈ r.errors, e.velocity = 0) (ha : Apart r.world)
    (h : Relation.ReflTransGen (fun a b => WHFastStep k m eps2 roche c dt half a b ∧ Apart b.world) r r') :
    massSum r'.world Particle.inertialVelocity = massSum r.world Particle.inertialVelocity
      ∧ massSum r'.world Particle.inertialPosition
        = massSum r.world Particle.inertialPosition + (r'.time - r.time) • massSum r.world Particle.inertialVelocity := by
  have key : (Alike r'.world r.world ∧ Centred r'.world ∧ r'.errors.length = n ∧ (∀ e ∈ r'.errors, e.velocity = 0)
      ∧ Apart r'.world)
      ∧ massSum r'.world Particle.inertialVelocity = massSum r.world Particle.inertialVelocity
      ∧ massSum r'.world Particle.inertialPosition
        = massSum r.world Particle.inertialPosition
          + (r'.time - r.time) • massSum r.world Particle.inertialVelocity := by
    induction h with
    | refl => exact ⟨⟨Alike.refl _, hv, hl, hz, ha⟩, rfl, by simp⟩
    | tail _ hs ih =>
      obtain ⟨⟨i1, i2, i3, i4, i5⟩, i6, i7⟩ := ih
      obtain ⟨b1, b2⟩ := whfastStep_alike i3 hs.1
      obtain ⟨j1, j2, j3, j4, j5⟩ := whfastStep_momentum hh (hc.congr i1.consider i1.hosts i1.settings)
        (fun i => by rw [i1.field Particle.mass (fun _ => rfl) i]; exact hm i) i2 i3 i4 i5 hs.2 hs.1
      refine ⟨⟨b1.trans i1, j1, b2, j2, hs.2⟩, j3.trans i6, ?_⟩
      rw [j4, i7, i6, j5]
      module
  exact key.2

/-- Two spinning relativistic bodies meet the hypotheses (`windStar` in `WindBraking` is an example of an
iteration). -/
example : Closed (relativisticUniverse .kidder1995 ⟨1, 0, 1⟩ ⟨0, 0, 1⟩)
    ∧ (∀ i, 0 < ((relativisticUniverse .kidder1995 ⟨1, 0, 1⟩ ⟨0, 0, 1⟩).particles i).mass)
    ∧ Centred (relativisticUniverse .kidder1995 ⟨1, 0, 1⟩ ⟨0, 0, 1⟩)
    ∧ Apart (relativisticUniverse .kidder1995 ⟨1, 0, 1⟩ ⟨0, 0, 1⟩)
    ∧ integrateSpin (relativisticUniverse .kidder1995 ⟨1, 0, 1⟩ ⟨0, 0, 1⟩) = true :=
  ⟨relativisticUniverse_closed _ _, fun i => by rw [relativisticUniverse_mass]; norm_num,
    relativisticUniverse_velocity _ _ _, relativisticUniverse_apart _ _ _, rfl⟩

end
end Posidonius.Univ
