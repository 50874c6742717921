import Verif.Props.Relist
import Verif.Props.Ias15Order
import Verif.Model.Integrators

/-! # C104 for IAS15: the order in which the bodies are listed, without spins -/

namespace Posidonius.Univ
open Gravity (Ignore)

section
variable {n : Nat} {σ : Equiv.Perm (Fin n)} {k : Consts ℝ} {m : Models ℝ} {eps2 : ℝ}
  {roche roche' : Fin n → Fin n → ℝ}

/-- The places of the bodies in the other order. -/
def numbers (σ : Equiv.Perm (Fin n)) : List ℕ := (List.finRange n).map fun i => (σ i).val

theorem numbers_perm (σ : Equiv.Perm (Fin n)) : (numbers σ).Perm (List.range n) := by
  have h : ((List.finRange n).map σ).Perm (List.finRange n) := by
    refine (List.perm_ext_iff_of_nodup ((List.nodup_finRange n).map σ.injective) (List.nodup_finRange n)).2 fun i => ?_
    simp only [List.mem_map, List.mem_finRange, true_and, iff_true]
    exact ⟨σ.symm i, by simp⟩
  have g := h.map Fin.val
  rwa [List.map_map, List.map_coe_finRange_eq_range] at g

theorem numbers_relist {A : Type} (σ : Equiv.Perm (Fin n)) {l : List A} (hl : l.length = n) :
    Ias15.relist (numbers σ) l = List.ofFn fun i : Fin n => l[(σ i).val]'(by omega) := by
  unfold Ias15.relist numbers
  rw [List.filterMap_map, List.ofFn_eq_map, ← List.filterMap_eq_map]
  refine List.filterMap_congr fun i _ => ?_
  simp only [Function.comp_apply]
  exact List.getElem?_eq_getElem (by omega)

theorem numbers_get {A : Type} (σ : Equiv.Perm (Fin n)) {l : List A} (hl : l.length = n) (i : Fin n) (d e : A) :
    (Ias15.relist (numbers σ) l)[i.val]?.getD d = l[(σ i).val]?.getD e := by
  rw [numbers_relist σ hl, List.getElem?_ofFn, dif_pos i.isLt, List.getElem?_eq_getElem (by omega)]
  rfl

/-- The same universe in two orders, the most massive body first in both, without Anderson's relativity. -/
structure Reordered (σ : Equiv.Perm (Fin n)) (u v : Universe ℝ n) : Prop where
  relisted : Relisted σ u v
  numbered : Numbered u
  unordered : Unordered u
  first : u.hosts.mostMassive.val = 0
  first' : v.hosts.mostMassive.val = 0
  still : integrateSpin u = false

theorem Reordered.kept {u v a b : Universe ℝ n} (h : Reordered σ u v) (ka : Kept u a) (kb : Kept v b)
    (ga : a.grImplementation = u.grImplementation) (r : Relisted σ a b) : Reordered σ a b :=
  ⟨r, h.numbered.kept ka, h.unordered.kept ka, by rw [ka.hosts]; exact h.first, by rw [kb.hosts]; exact h.first', by
    have := h.still
    unfold integrateSpin at this ⊢
    rw [ka.consider, ga]
    exact this⟩

theorem placeAll_relist {l : List (Ias15.Place ℝ)} (hl : l.length = n) {u v : Universe ℝ n} (r : Relisted σ u v) :
    Relisted σ (placeAll l u) (placeAll (Ias15.relist (numbers σ) l) v) := by
  refine { r with particles := fun i => ?_ }
  show placed (v.particles i) _ = listedAt i (placed (u.particles (σ i)) _)
  rw [numbers_get σ hl i _ (placeOf (u.particles (σ i))), r.particles]
  rfl

theorem apply_relist {u v : Universe ℝ n} (r : Relisted σ u v) :
    Relisted σ { u with particles := fun i => applyAccelerations (u.particles i) }
      { v with particles := fun i => applyAccelerations (v.particles i) } := by
  refine { r with particles := fun i => ?_ }
  show applyAccelerations (v.particles i) = _
  rw [r.particles]
  rfl

theorem gravity_implementation {ignore : Ignore} {u v : Universe ℝ n} (h : universeGravity k roche ignore u = some v) :
    v.grImplementation = u.grImplementation := by
  unfold universeGravity at h
  split at h
  · cases h
  · cases h
    rfl

theorem observe_implementation {time : ℝ} {u v : Universe ℝ n} (h : Univ.observe k time u = some v) :
    v.grImplementation = u.grImplementation := by
  unfold Univ.observe at h
  split at h
  · cases h
  rename_i u1 h1
  have e1 : u1.grImplementation = u.grImplementation := by
    unfold calculateSpinAndEvolving at h1
    split at h1
    · cases h1
    · cases h1
      rfl
  split at h
  · unfold universeDenergyDt withHost at h
    split at h
    · cases h
    · cases h
      exact e1
  · cases h
    exact e1

/-- What IAS15 evaluates is the same for the bodies in the other order. -/
theorem evaluate_relists (hm : Unnumbered (n := n) m) (hr : ∀ i j, roche' i j = roche (σ i) (σ j))
    (hs : ∀ i j, roche i j = roche j i) :
    Ias15.Relists (Reordered σ) (numbers σ) n (ias15Evaluate k m eps2 roche) (ias15Evaluate k m eps2 roche') := by
  intro u v t l h hl
  have r0 := placeAll_relist hl h.relisted
  have ku : Kept u (placeAll l u) := ⟨fun _ => rfl, rfl, rfl⟩
  have kv : Kept v (placeAll (Ias15.relist (numbers σ) l) v) := ⟨fun _ => rfl, rfl, rfl⟩
  have g := gravity_defined_relist (k := k) r0 hr hs (by rw [ku.hosts]; exact h.first) (by rw [kv.hosts]; exact h.first')
  unfold ias15Evaluate
  cases e1 : universeGravity k roche .none (placeAll l u) with
  | none =>
    rw [e1] at g
    cases e2 : universeGravity k roche' .none (placeAll (Ias15.relist (numbers σ) l) v) with
    | none => exact .none
    | some b => rw [e2] at g; cases g
  | some u1 =>
    rw [e1] at g
    cases e2 : universeGravity k roche' .none (placeAll (Ias15.relist (numbers σ) l) v) with
    | none => rw [e2] at g; cases g
    | some v1 =>
      rw [e2] at g
      have r1 : Relisted σ u1 v1 := by cases g; assumption
      have ku1 := ku.trans (kept_gravity e1)
      have kv1 := kv.trans (kept_gravity e2)
      have r2 := C104_evaluation_partial (k := k) (eps2 := eps2) hm t true true true r1 (h.numbered.kept ku1) (h.unordered.kept ku1)
      dsimp only
      cases e3 : calculateAdditionalEffects k m eps2 t true true true .none (inertialToHeliocentric u1) with
      | none =>
        rw [e3] at r2
        cases e4 : calculateAdditionalEffects k m eps2 t true true true .none (inertialToHeliocentric v1) with
        | none => exact .none
        | some b => rw [e4] at r2; cases r2
      | some u2 =>
        rw [e3] at r2
        cases e4 : calculateAdditionalEffects k m eps2 t true true true .none (inertialToHeliocentric v1) with
        | none => rw [e4] at r2; cases r2
        | some v2 =>
          rw [e4] at r2
          have r3 : Relisted σ u2 v2 := by cases r2; assumption
          have r4 := apply_relist r3
          refine .some ⟨?_, by simp, ?_⟩
          · refine h.kept ?_ ?_ ?_ r4
            · exact (ku1.trans ((kept_heliocentric u1).trans (kept_evaluation e3))).trans ⟨fun _ => rfl, rfl, rfl⟩
            · exact (kv1.trans ((kept_heliocentric v1).trans (kept_evaluation e4))).trans ⟨fun _ => rfl, rfl, rfl⟩
            · exact (evaluation_totals e3).2.1.trans ((gravity_implementation e1 :) : u1.grImplementation = _)
          · rw [numbers_relist σ (by simp)]
            refine congrArg List.ofFn (funext fun i => ?_)
            have := r4.particles i
            dsimp only at this ⊢
            rw [this, List.getElem_ofFn]
            rfl

/-- A run of IAS15 with the bodies in another order. -/
structure ReorderedRun (σ : Equiv.Perm (Fin n)) (r s : Ias15Run ℝ n) : Prop where
  world : Reordered σ r.world s.world
  arrays : ∀ i, s.arrays i = r.arrays (σ i)
  time : s.time = r.time
  dt : s.dt = r.dt
  last : s.last = r.last

variable [Ias15.FNormal ℝ]

theorem ias15_reordered (hm : Unnumbered (n := n) m) (hr : ∀ i j, roche' i j = roche (σ i) (σ j))
    (hs : ∀ i j, roche i j = roche j i) (fuel : ℕ) {r s : Ias15Run ℝ n} (h : ReorderedRun σ r s) {u v : Universe ℝ n}
    (hu : Reordered σ u v) :
    Option.Rel (Ias15.Same (Reordered σ) (numbers σ) n)
      (Ias15.iterate Ias15.tables (integrateSpin u) (ias15Evaluate k m eps2 roche) fuel
        { particles := List.ofFn fun i => loaded (u.particles i) (r.arrays i), hidden := u, time := r.time, dt := r.dt,
          last := r.last })
      (Ias15.iterate Ias15.tables (integrateSpin v) (ias15Evaluate k m eps2 roche') fuel
        { particles := List.ofFn fun i => loaded (v.particles i) (s.arrays i), hidden := v, time := s.time, dt := s.dt,
          last := s.last }) := by
  have e : integrateSpin v = false := by
    rw [← hu.still]
    unfold integrateSpin
    rw [hu.relisted.consider, hu.relisted.grImplementation]
  rw [e, hu.still]
  refine Ias15.C141_iterate_partial (numbers_perm σ) (evaluate_relists hm hr hs) _ fuel ⟨hu, by simp, ?_, h.time, h.dt, h.last⟩
  rw [numbers_relist σ (by simp)]
  refine congrArg List.ofFn (funext fun i => ?_)
  rw [h.arrays, hu.relisted.particles, List.getElem_ofFn]
  rfl

theorem observed_reordered (time : ℝ) (record : Bool) {u v : Universe ℝ n} (h : Reordered σ u v) :
    Option.Rel (Reordered σ) (if record then Univ.observe k time u else some u)
      (if record then Univ.observe k time v else some v) := by
  cases record
  · exact .some h
  · simp only [if_true]
    have r1 := observe_relist k time h.relisted
    cases e1 : Univ.observe k time u with
    | none =>
      rw [e1] at r1
      cases e2 : Univ.observe k time v with
      | none => exact .none
      | some b => rw [e2] at r1; cases r1
    | some u1 =>
      rw [e1] at r1
      cases e2 : Univ.observe k time v with
      | none => rw [e2] at r1; cases r1
      | some v1 =>
        rw [e2] at r1
        exact .some (h.kept (kept_observe e1) (kept_observe e2) (observe_implementation e1) (by cases r1; assumption))

/-- An iteration of IAS15 without spins: it ends for the bodies in one order if it does in the other, with the same
bodies, times and step. -/
theorem C104_ias15_partial (hm : Unnumbered (n := n) m) (hr : ∀ i j, roche' i j = roche (σ i) (σ j))
    (hs : ∀ i j, roche i j = roche j i) (fuel : ℕ) (record : Bool) {r s : Ias15Run ℝ n} (h : ReorderedRun σ r s) :
    Option.Rel (ReorderedRun σ) (ias15Iterate k m eps2 roche fuel record r)
      (ias15Iterate k m eps2 roche' fuel record s) := by
  have g := observed_reordered (k := k) r.time record h.world
  unfold ias15Iterate
  rw [h.time]
  revert g
  generalize (if record then Univ.observe k r.time r.world else some r.world) = x
  generalize (if record then Univ.observe k r.time s.world else some s.world) = y
  intro g
  cases g with
  | none => exact .none
  | @some u v g =>
    have w := ias15_reordered (k := k) (eps2 := eps2) hm hr hs fuel h g
    rw [h.time] at w
    dsimp only
    revert w
    generalize Ias15.iterate Ias15.tables (integrateSpin u) (ias15Evaluate k m eps2 roche) fuel
      { particles := List.ofFn fun i => loaded (u.particles i) (r.arrays i), hidden := u, time := r.time, dt := r.dt,
        last := r.last } = x
    generalize Ias15.iterate Ias15.tables (integrateSpin v) (ias15Evaluate k m eps2 roche') fuel
      { particles := List.ofFn fun i => loaded (v.particles i) (s.arrays i), hidden := v, time := r.time, dt := s.dt,
        last := s.last } = y
    intro w
    cases w with
    | none => exact .none
    | @some a b w =>
      have hl : (Ias15.places a.particles).length = n := by simpa [Ias15.places] using w.length
      have hp : Ias15.places b.particles = Ias15.relist (numbers σ) (Ias15.places a.particles) := by
        rw [w.particles]
        exact (Ias15.relist_map _ _ _).symm
      refine .some ⟨?_, fun i => ?_, w.time, w.dt, w.last⟩
      · dsimp only
        rw [hp]
        exact w.hidden.kept ⟨fun _ => rfl, rfl, rfl⟩ ⟨fun _ => rfl, rfl, rfl⟩ rfl (placeAll_relist hl w.hidden.relisted)
      · dsimp only
        rw [w.particles]
        exact numbers_get σ w.length i _ _

/-- Any number of iterations of IAS15 without spins. -/
theorem C104_ias15_run_partial (hm : Unnumbered (n := n) m) (hr : ∀ i j, roche' i j = roche (σ i) (σ j))
    (hs : ∀ i j, roche i j = roche j i) (fuel : ℕ) (records : List Bool) {r s : Ias15Run ℝ n} (h : ReorderedRun σ r s) :
    Option.Rel (ReorderedRun σ) (records.foldlM (fun r record => ias15Iterate k m eps2 roche fuel record r) r)
      (records.foldlM (fun r record => ias15Iterate k m eps2 roche' fuel record r) s) := by
  induction records generalizing r s with
  | nil => exact .some h
  | cons record records ih =>
    have g := C104_ias15_partial (k := k) (eps2 := eps2) hm hr hs fuel record h
    simp only [List.foldlM_cons]
    revert g
    generalize ias15Iterate k m eps2 roche fuel record r = x
    generalize ias15Iterate k m eps2 roche' fuel record s = y
    intro g
    cases g with
    | none => exact .none
    | some g => exact ih g

end

/-- A star and two bodies that attract each other relativistically, listed in either order. -/
example (a : Fin 3 → Ias15.Particle ℝ) : ReorderedRun (Equiv.swap (1 : Fin 3) 2) ⟨trio .newhall1983 1 1, a, 0, 1, 0⟩
    ⟨trio .newhall1983 1 (-1), fun i => a (Equiv.swap 1 2 i), 0, 1, 0⟩ :=
  ⟨⟨trio_relisted .newhall1983 1 1, trio_numbered _ _ _, trio_unordered (by decide) _ _, rfl, rfl, rfl⟩,
    fun _ => rfl, rfl, rfl, rfl⟩

/-- The bodies are at different places, and the places are exchanged. -/
example : ((trio .newhall1983 1 1).particles 1).inertialPosition = ⟨1, 0, 0⟩
    ∧ ((trio .newhall1983 1 (-1)).particles 2).inertialPosition = ⟨1, 0, 0⟩ := by
  constructor <;> simp [trio]

/-- With Kidder's relativity, tides, flattening or evolution the spins are integrated. -/
example : integrateSpin (trio .kidder1995 1 1) = true := rfl

end Posidonius.Univ
