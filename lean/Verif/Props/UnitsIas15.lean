import Verif.Props.Units
import Verif.Props.Ias15Units
import Verif.Props.RelistIas15

/-! # C142 for the universe: iterations of IAS15 with all effects in other units of time and mass -/

namespace Posidonius.Univ

section
variable {n : Nat} {o : Units} {k : Consts ℝ} {m m' : Models ℝ} {eps2 : ℝ} {roche : Fin n → Fin n → ℝ}

/-- The same universe in two systems of units; the mass is in the same unit if spins are integrated. -/
structure OtherUnits (o : Units) (m m' : Models ℝ) (u v : Universe ℝ n) : Prop where
  same : v = o.describes u
  fit : UnitsFit o m m' u
  spin : integrateSpin u = true → o.mass = 1

theorem OtherUnits.kept {u v a : Universe ℝ n} (h : OtherUnits o m m' u v) (ka : Kept u a)
    (ga : a.grImplementation = u.grImplementation) : OtherUnits o m m' a (o.describes a) :=
  ⟨rfl, h.fit.kept ka, by
    have := h.spin
    unfold integrateSpin at this ⊢
    rw [ka.consider, ga]
    exact this⟩

theorem units_length (o : Units) : o.acceleration * o.time * o.time = o.length := by
  have := o.time_pos.ne'
  unfold Units.acceleration
  field_simp

theorem units_velocity (o : Units) : o.acceleration * o.time = o.velocity := by
  have := o.time_pos.ne'
  unfold Units.acceleration Units.velocity
  field_simp

theorem units_distance (o : Units) : o.velocity * o.time = o.length := by
  have := o.time_pos.ne'
  unfold Units.velocity
  field_simp

theorem units_angular (o : Units) : o.torque * o.time = o.angularMomentum := by
  have := o.time_pos.ne'
  unfold Units.torque Units.angularMomentum
  field_simp

theorem place_units (q : Ias15.Place ℝ) : q.inUnits o.acceleration o.time o.torque
    = ⟨o.length • q.position, o.velocity • q.velocity, o.angularMomentum • q.angular⟩ := by
  unfold Ias15.Place.inUnits
  rw [units_length, units_velocity, units_angular]
  rfl

theorem placeAll_units (l : List (Ias15.Place ℝ)) (u : Universe ℝ n) :
    placeAll (l.map (Ias15.Place.inUnits o.acceleration o.time o.torque)) (o.describes u) = o.describes (placeAll l u) := by
  unfold placeAll Units.describes
  congr 1
  funext i
  simp only [List.getElem?_map]
  cases l[i.val]? with
  | none => rfl
  | some q =>
    simp only [Option.map_some, Option.getD_some, place_units]
    rfl

theorem loaded_units (p : Particle ℝ) (a : Ias15.Particle ℝ) :
    loaded (o.sees p) (Ias15.inUnits o.acceleration o.time o.torque a)
      = Ias15.inUnits o.acceleration o.time o.torque (loaded p a) := by
  unfold loaded Ias15.inUnits Ias15.Axes.map Ias15.Comp.inUnits
  simp only [units_velocity, units_distance, units_angular]
  rfl

theorem apply_units (p : Particle ℝ) : applyAccelerations (o.sees p) = o.sees (applyAccelerations p) := by
  unfold applyAccelerations Units.sees
  simp [smul_add]

theorem gravity_units_same (hL : o.length = 1) (u : Universe ℝ n) :
    universeGravity (o.consts k) (fun i j => o.length * roche i j) .none (o.describes u)
      = (universeGravity k roche .none u).map o.describes := by
  obtain ⟨h1, h2⟩ := gravity_units o k roche .none u
  cases e : universeGravity k roche .none u with
  | some v => exact h1 hL.le v e
  | none =>
    cases e' : universeGravity (o.consts k) (fun i j => o.length * roche i j) .none (o.describes u) with
    | none => rfl
    | some v' =>
      obtain ⟨v, hv, -⟩ := h2 hL.ge v' e'
      rw [e] at hv
      cases hv

/-- What IAS15 evaluates is the same in the other units. -/
theorem evaluate_converts (hL : o.length = 1) :
    Ias15.Converts o.acceleration o.time o.torque (OtherUnits (n := n) o m m') (ias15Evaluate k m eps2 roche)
      (ias15Evaluate (o.consts k) m' eps2 fun i j => o.length * roche i j) := by
  intro u v t l h
  obtain rfl := h.same
  have ku : Kept u (placeAll l u) := ⟨fun _ => rfl, rfl, rfl⟩
  unfold ias15Evaluate
  rw [placeAll_units, gravity_units_same hL]
  cases e1 : universeGravity k roche .none (placeAll l u) with
  | none => exact .none
  | some u1 =>
    have k1 := ku.trans (kept_gravity e1)
    simp only [Option.map_some]
    rw [inertialToHeliocentric_units, evaluation_units o k eps2 t true true true .none (m := m) (m' := m')
      (h.fit.kept (k1.trans (kept_heliocentric u1)))]
    cases e2 : calculateAdditionalEffects k m eps2 t true true true .none (inertialToHeliocentric u1) with
    | none => exact .none
    | some u2 =>
      have k2 := k1.trans ((kept_heliocentric u1).trans (kept_evaluation e2))
      simp only [Option.map_some]
      have e3 : { o.describes u2 with particles := fun i => applyAccelerations ((o.describes u2).particles i) }
          = o.describes { u2 with particles := fun i => applyAccelerations (u2.particles i) } := by
        unfold Units.describes
        simp only [apply_units]
      rw [e3]
      have k3 : Kept u { u2 with particles := fun i => applyAccelerations (u2.particles i) } :=
        k2.trans ⟨fun _ => rfl, rfl, rfl⟩
      refine .some ⟨h.kept k3 ((evaluation_totals e2).2.1.trans ((gravity_implementation e1 :) : u1.grImplementation = _)), ?_⟩
      dsimp only
      rw [List.map_ofFn]
      refine congrArg List.ofFn (funext fun i => ?_)
      rw [show (o.describes u2).particles i = o.sees (u2.particles i) from rfl, apply_units]
      rfl

/-- A run of IAS15 in other units. -/
structure OtherRun (o : Units) (m m' : Models ℝ) (r s : Ias15Run ℝ n) : Prop where
  world : OtherUnits o m m' r.world s.world
  arrays : ∀ i, s.arrays i = Ias15.inUnits o.acceleration o.time o.torque (r.arrays i)
  time : s.time = o.time * r.time
  dt : s.dt = o.time * r.dt
  last : s.last = o.time * r.last

variable [Ias15.FNormal ℝ]

/-- **C142 for the universe**: an iteration of IAS15 with gravity and all effects gives the same in other units of time and mass; the
unit of mass is the same if spins are integrated. -/
theorem C142_universe_partial (hL : o.length = 1) (hN : ∀ c x : ℝ, 0 < c → Ias15.isNormal (c * x) = Ias15.isNormal x) (fuel : ℕ)
    (record : Bool) {r s : Ias15Run ℝ n} (h : OtherRun o m m' r s) :
    Option.Rel (OtherRun o m m') (ias15Iterate k m eps2 roche fuel record r)
      (ias15Iterate (o.consts k) m' eps2 (fun i j => o.length * roche i j) fuel record s) := by
  have hT := o.time_pos
  have hM := o.mass_pos
  have ha : 0 < o.acceleration := by unfold Units.acceleration; rw [hL]; positivity
  have hd : 0 < o.torque := by unfold Units.torque; rw [hL]; positivity
  have g : Option.Rel (OtherUnits o m m') (if record then Univ.observe k r.time r.world else some r.world)
      (if record then Univ.observe (o.consts k) s.time s.world else some s.world) := by
    cases record
    · exact .some h.world
    · simp only [if_true]
      rw [h.time, h.world.same, observe_units]
      cases e : Univ.observe k r.time r.world with
      | none => exact .none
      | some u1 => exact .some (h.world.kept (kept_observe e) (observe_implementation e))
  unfold ias15Iterate
  revert g
  generalize (if record then Univ.observe k r.time r.world else some r.world) = x
  generalize (if record then Univ.observe (o.consts k) s.time s.world else some s.world) = y
  intro g
  cases g with
  | none => exact .none
  | @some u v g =>
    have w := Ias15.C142_iterate_partial ha hT hd hN (evaluate_converts (k := k) (eps2 := eps2) (roche := roche) (m := m) (m' := m') hL)
      Ias15.tables (integrateSpin u)
      (fun e => by
        have := g.spin e
        unfold Units.torque Units.acceleration
        rw [this, hL]
        norm_num) fuel
      (u := { particles := List.ofFn fun i => loaded (u.particles i) (r.arrays i), hidden := u, time := r.time, dt := r.dt,
              last := r.last })
      (v := { particles := List.ofFn fun i => loaded (v.particles i) (s.arrays i), hidden := v, time := s.time, dt := s.dt,
              last := s.last })
      ⟨g, by
        dsimp only
        rw [List.map_ofFn, g.same]
        refine congrArg List.ofFn (funext fun i => ?_)
        rw [h.arrays]
        exact loaded_units _ _, h.time, h.dt, h.last⟩
    have e : integrateSpin v = integrateSpin u := by rw [g.same]; rfl
    dsimp only
    rw [e]
    revert w
    generalize Ias15.iterate Ias15.tables (integrateSpin u) (ias15Evaluate k m eps2 roche) fuel
      { particles := List.ofFn fun i => loaded (u.particles i) (r.arrays i), hidden := u, time := r.time, dt := r.dt,
        last := r.last } = x
    generalize Ias15.iterate Ias15.tables (integrateSpin u) (ias15Evaluate (o.consts k) m' eps2 fun i j => o.length * roche i j) fuel
      { particles := List.ofFn fun i => loaded (v.particles i) (s.arrays i), hidden := v, time := s.time, dt := s.dt,
        last := s.last } = y
    intro w
    cases w with
    | none => exact .none
    | @some a b w =>
      refine .some ⟨?_, fun i => ?_, w.time, w.dt, w.last⟩
      · dsimp only
        rw [w.particles, Ias15.places_inUnits, w.hidden.same, placeAll_units]
        exact w.hidden.kept ⟨fun _ => rfl, rfl, rfl⟩ rfl
      · dsimp only
        rw [w.particles, List.getElem?_map, h.arrays]
        cases a.particles[i.val]? <;> rfl

/-- **C142 for the universe**, any number of iterations. -/
theorem C142_run_partial (hL : o.length = 1) (hN : ∀ c x : ℝ, 0 < c → Ias15.isNormal (c * x) = Ias15.isNormal x) (fuel : ℕ)
    (records : List Bool) {r s : Ias15Run ℝ n} (h : OtherRun o m m' r s) :
    Option.Rel (OtherRun o m m') (records.foldlM (fun r record => ias15Iterate k m eps2 roche fuel record r) r)
      (records.foldlM (fun r record => ias15Iterate (o.consts k) m' eps2 (fun i j => o.length * roche i j) fuel record r) s) := by
  induction records generalizing r s with
  | nil => exact .some h
  | cons record records ih =>
    have g := C142_universe_partial (k := k) (eps2 := eps2) (roche := roche) hL hN fuel record h
    simp only [List.foldlM_cons]
    revert g
    generalize ias15Iterate k m eps2 roche fuel record r = x
    generalize ias15Iterate (o.consts k) m' eps2 (fun i j => o.length * roche i j) fuel record s = y
    intro g
    cases g with
    | none => exact .none
    | some g => exact ih g

end

/-- Hours instead of days for a star and two bodies. -/
example [FTan ℝ] (k : Consts ℝ) (m m' : Models ℝ) (fuel : ℕ) (a : Fin 3 → Ias15.Particle ℝ) :
    let o : Units := ⟨1, 24, 1, by norm_num, by norm_num, by norm_num⟩
    OtherRun o (withCreep k fuel m) (withCreep (o.consts k) fuel m') ⟨trio .anderson1975 1 1, a, 2, 1, 0⟩
      ⟨o.describes (trio .anderson1975 1 1), fun i => Ias15.inUnits o.acceleration 24 o.torque (a i), 48, 24, 0⟩ := by
  intro o
  refine ⟨⟨rfl, Scalable.fit ⟨fun i => ?_, fun _ i x => ?_⟩, fun _ => rfl⟩, fun _ => rfl, ?_, ?_, ?_⟩
  · by_cases h0 : i = 0
    · simp [trio, h0, blank]
    · by_cases h1 : i = 1 <;> simp [trio, h0, h1, blank]
  · by_cases h0 : i = 0
    · simp only [trio, h0, if_true, GrEffect.central.injEq]
      rintro rfl
      decide
    · by_cases h1 : i = 1 <;> simp [trio, h0, h1]
  · show (48 : ℝ) = 24 * 2
    norm_num
  · show (24 : ℝ) = 24 * 1
    norm_num
  · show (0 : ℝ) = 24 * 0
    norm_num

end Posidonius.Univ
