import Verif.Lemmas.Relist
import Verif.Lemmas.ObserverUniverse
import Verif.Props.Gravity

/-! An evaluation of the effects and a step of LeapFrog for another order of the bodies. -/

namespace Posidonius.Univ
open Gravity (Ignore Body)
open Evolution (Evolver)

section
variable {n : Nat} {σ : Equiv.Perm (Fin n)}

theorem Relisted.fun {u v : Universe ℝ n} (r : Relisted σ u v) : v.particles = relist σ u.particles :=
  funext r.particles

/-! ### Spin and evolution -/

theorem calculateSpin_listed (i : Fin n) (q : Particle ℝ) :
    calculateSpin (listedAt i q) = (calculateSpin q).map (listedAt i) := by
  unfold calculateSpin
  show (if eqb q.momentOfInertia (lit 0) then _ else _) = _
  split <;> rfl

theorem spinAndEvolving_listed (k : Consts ℝ) (time : ℝ) (evolve : Bool) (i : Fin n) (p : Particle ℝ) (e : Evolver ℝ) :
    spinAndEvolving k time evolve (listedAt i p) e
      = (spinAndEvolving k time evolve p e).map fun r => (listedAt i r.1, r.2) := by
  have e1 : ∀ q : Particle ℝ, evolutionPart (listedAt i q) = evolutionPart q := fun _ => rfl
  have e2 : ∀ (q : Particle ℝ) x, withEvolution (listedAt i q) x = listedAt i (withEvolution q x) := fun _ _ => rfl
  unfold spinAndEvolving
  cases evolve
  · simp only [calculateSpin_listed, Bool.false_eq_true, if_false]
    cases calculateSpin p <;> rfl
  · simp only [e1, if_true]
    cases Evolution.nonSpinDependent time (evolutionPart p) e with
    | none => rfl
    | some r =>
      obtain ⟨q, x⟩ := r
      simp only [e2, calculateSpin_listed]
      cases calculateSpin (withEvolution p q) with
      | none => rfl
      | some p1 =>
        simp only [Option.map_some, e1]
        cases Evolution.spinDependent k.sunDynFreq2 time (evolutionPart p1) x with
        | none => rfl
        | some r => rfl

theorem traverse_relist {A B : Type} (f : Fin n → Option A) (f' : Fin n → Option B) (g : Fin n → A → B)
    (hf : ∀ i, f' i = (f (σ i)).map (g i)) :
    traverse f' = (traverse f).map fun r i => g i (r (σ i)) := by
  unfold traverse
  by_cases h : ∀ i, (f i).isSome
  · rw [dif_pos h, dif_pos (fun i => by rw [hf, Option.isSome_map]; exact h _), Option.map_some]
    congr 1
    funext i
    simp only [hf, Option.get_map]
  · rw [dif_neg h, dif_neg (fun h' => h fun i => by
      have := h' (σ.symm i)
      rw [hf, Option.isSome_map, Equiv.apply_symm_apply] at this
      exact this)]
    rfl

theorem calculateSpinAndEvolving_relist (k : Consts ℝ) (time : ℝ) (evolution : Bool) {u v : Universe ℝ n}
    (r : Relisted σ u v) :
    Option.Rel (Relisted σ) (calculateSpinAndEvolving k time evolution u) (calculateSpinAndEvolving k time evolution v) := by
  unfold calculateSpinAndEvolving
  rw [traverse_relist (σ := σ) (fun i => spinAndEvolving k time (evolution && u.consider.evolution) (u.particles i) (u.evolvers i))
    (fun i => spinAndEvolving k time (evolution && v.consider.evolution) (v.particles i) (v.evolvers i))
    (fun i x => (listedAt i x.1, x.2)) fun i => by
      rw [r.particles, r.evolvers, r.consider, spinAndEvolving_listed]]
  cases traverse (fun i => spinAndEvolving k time (evolution && u.consider.evolution) (u.particles i) (u.evolvers i)) with
  | none => exact .none
  | some x =>
    exact .some { r with
      particles := fun i => rfl
      evolvers := fun i => rfl }

/-! ### Coordinates -/

theorem inertialToHeliocentric_relist {u v : Universe ℝ n} (r : Relisted σ u v) :
    Relisted σ (inertialToHeliocentric u) (inertialToHeliocentric v) := by
  refine { r with particles := fun i => ?_ }
  have key : mapHost v.hosts.mostMassive zeroHeliocentric (mapOthers v.hosts.mostMassive toHeliocentric v.particles)
      = relist σ (mapHost u.hosts.mostMassive zeroHeliocentric
        (mapOthers u.hosts.mostMassive toHeliocentric u.particles)) := by
    rw [r.fun, ← r.mostMassive, mapOthers_relist (f := toHeliocentric) fun i _ => rfl]
    exact mapHost_relist rfl
  exact congrFun key i

/-! ### Initialisation -/

theorem initializeEffect_relist {active isMostMassive all : Bool} {mostMassive : Fin n} {host : Option (Fin n)}
    {copy convert init : Fin n → (Fin n → Particle ℝ) → (Fin n → Particle ℝ)}
    (h1 : ∀ h p, copy h (relist σ p) = relist σ (copy (σ h) p))
    (h2 : ∀ h p, convert h (relist σ p) = relist σ (convert (σ h) p))
    (h3 : ∀ h p, init h (relist σ p) = relist σ (init (σ h) p)) (p : Fin n → Particle ℝ) :
    initializeEffect active isMostMassive all mostMassive host copy convert init (relist σ p)
      = (initializeEffect active isMostMassive all (σ mostMassive) (host.map σ) copy convert init p).map (relist σ) := by
  unfold initializeEffect withHost
  cases active <;> cases isMostMassive <;> cases all <;> cases host <;> simp [h1, h2, h3]

theorem initializeAll_relist (dL acc : Bool) {u v : Universe ℝ n} (r : Relisted σ u v) :
    Option.Rel (Relisted σ) (initializeAll dL acc u) (initializeAll dL acc v) := by
  have e0 : (if dL && u.consider.wind then fun i => windInitialize (v.particles i) else v.particles)
      = relist σ (if dL && u.consider.wind then fun i => windInitialize (u.particles i) else u.particles) := by
    rw [r.fun]
    split
    · funext i
      exact windInitialize_listed i _
    · rfl
  obtain ⟨f1, f2, f3, f4, f5⟩ := r.flags
  unfold initializeAll
  dsimp only
  rw [r.consider, e0, r.grImplementation, f1, f2, f3, f4, f5, ← r.mostMassive, ← r.tidesHost, ← r.flatteningHost,
    ← r.grHost, ← r.diskHost]
  simp only [initializeEffect_relist tidesCopyHeliocentric_relist tidesInertialToHeliocentric_relist tidesInitialize_relist]
  generalize (if dL && u.consider.wind then fun i => windInitialize (u.particles i) else u.particles) = p0
  generalize initializeEffect _ _ _ _ _ tidesCopyHeliocentric _ _ p0 = x
  rcases x with _ | p1
  · exact .none
  simp only [Option.map_some, initializeEffect_relist flatteningCopyHeliocentric_relist
    flatteningInertialToHeliocentric_relist flatteningInitialize_relist]
  generalize initializeEffect _ _ _ _ _ flatteningCopyHeliocentric _ _ p1 = x
  rcases x with _ | p2
  · exact .none
  simp only [Option.map_some, initializeEffect_relist grCopyHeliocentric_relist
    grInertialToHeliocentric_relist grInitialize_relist]
  generalize initializeEffect _ _ _ _ _ grCopyHeliocentric _ _ p2 = x
  rcases x with _ | p3
  · exact .none
  simp only [Option.map_some, initializeEffect_relist diskCopyHeliocentric_relist
    diskInertialToHeliocentric_relist diskInitialize_relist]
  generalize initializeEffect _ _ _ _ _ diskCopyHeliocentric _ _ p3 = x
  rcases x with _ | p4
  · exact .none
  refine .some { r with particles := fun i => ?_, consider := rfl, grImplementation := rfl }
  cases acc <;> rfl

/-! ### The effects -/

theorem tidesAndFlattening_relist (few : n ≤ maxParticles) (k : Consts ℝ) {m : Models ℝ} (hm : Unnumbered (n := n) m)
    (dL acc : Bool) (c : Consider) (h : Fin n) {p : Fin n → Particle ℝ} (hid : ∀ i, (p i).id = i)
    {t t' : Table ℝ} (ht : Pairs σ t t') :
    (tidesAndFlattening k m dL acc c h (relist σ p) t').1 = relist σ (tidesAndFlattening k m dL acc c (σ h) p t).1
      ∧ Pairs σ (tidesAndFlattening k m dL acc c (σ h) p t).2 (tidesAndFlattening k m dL acc c h (relist σ p) t').2 := by
  unfold tidesAndFlattening
  split <;> [skip; exact ⟨rfl, ht⟩]
  dsimp only
  have ht1 := pairFactors_relist few k hid h ht
  generalize pairFactors k (σ h) p t = t1 at ht1 ⊢
  generalize pairFactors k h (relist σ p) t' = t1' at ht1 ⊢
  refine ⟨?_, ht1⟩
  have stage : ∀ (b : Bool) (f f' : (Fin n → Particle ℝ) → Fin n → Particle ℝ) (q : Fin n → Particle ℝ),
      (f' (relist σ q) = relist σ (f q)) →
      (if b then f' (relist σ q) else relist σ q) = relist σ (if b then f q else q) := by
    intro b f f' q hq
    cases b
    · rfl
    · exact hq
  have keep : ∀ (b : Bool) (f : (Fin n → Particle ℝ) → Fin n → Particle ℝ) (q : Fin n → Particle ℝ),
      Same settings (f q) q → Same settings (if b then f q else q) q := by
    intro b f q hq
    cases b
    · exact Same.refl _
    · exact hq
  have s1 := keep c.tides (fun p => tidesShapes m (σ h) (orthogonalComponent t1 (σ h) p)) p
    ((tidesShapes_settings m (σ h) _).trans (orthogonalComponent_settings t1 (σ h) p))
  rw [stage c.tides (fun p => tidesShapes m (σ h) (orthogonalComponent t1 (σ h) p))
    (fun p => tidesShapes m h (orthogonalComponent t1' h p)) p (by
    show _ = _
    rw [orthogonalComponent_relist hid ht1, tidesShapes_relist hm])]
  generalize (if c.tides then tidesShapes m (σ h) (orthogonalComponent t1 (σ h) p) else p) = p1 at s1 ⊢
  have s2 := (keep c.flattening (fun p => flatteningShapes m (σ h) (flatteningOrthogonal (σ h) p)) p1
    ((flatteningShapes_settings m (σ h) _).trans (flatteningOrthogonal_settings (σ h) p1))).trans s1
  rw [stage c.flattening (fun p => flatteningShapes m (σ h) (flatteningOrthogonal (σ h) p))
    (fun p => flatteningShapes m h (flatteningOrthogonal h p)) p1 (by
    show _ = _
    rw [flatteningOrthogonal_relist, flatteningShapes_relist hm])]
  generalize (if c.flattening then flatteningShapes m (σ h) (flatteningOrthogonal (σ h) p1) else p1) = p2 at s2 ⊢
  rw [stage (acc && c.tides) (fun p => tidalAcceleration m.tides (σ h) (radialComponent k t1 (σ h) p))
    (fun p => tidalAcceleration m.tides h (radialComponent k t1' h p)) p2 (by
    show _ = _
    rw [radialComponent_relist k (same_id s2 hid) ht1,
      tidalAcceleration_relist hm h])]
  generalize (if acc && c.tides then tidalAcceleration m.tides (σ h) (radialComponent k t1 (σ h) p2) else p2) = p3
  rw [stage (acc && c.flattening) (fun p => flatteningAcceleration m.flattening (σ h) (flatteningRadial (σ h) p))
    (fun p => flatteningAcceleration m.flattening h (flatteningRadial h p)) p3 (by
    show _ = _
    rw [flatteningRadial_relist, flatteningAcceleration_relist hm])]
  rw [stage (dL && c.tides) (fun p => tidalDL m.tides (σ h) p) (fun p => tidalDL m.tides h p) _ (tidalDL_relist hm h _)]
  rw [stage (dL && c.flattening) (fun p => flatteningDL m.flattening (σ h) p) (fun p => flatteningDL m.flattening h p) _
    (flatteningDL_relist hm h _)]

theorem Numbered.kept {u v : Universe ℝ n} (hn : Numbered u) (h : Kept u v) : Numbered v :=
  ⟨same_id h.particles hn.ids, hn.few⟩

theorem Unordered.same {p q : Fin n → Particle ℝ} (hs : Same settings q p) (i : Fin n) :
    (q i).gr.effect = (p i).gr.effect := congrArg (fun x => x.gr.effect) (hs i)

theorem Unordered.kept {u v : Universe ℝ n} (hu : Unordered u) (h : Kept u v) : Unordered v := by
  refine ⟨fun i => ?_⟩
  rw [Unordered.same h.particles i]
  exact hu.gr i

theorem effects_relist (k : Consts ℝ) {m : Models ℝ} (hm : Unnumbered (n := n) m) (eps2 time : ℝ) (dL acc : Bool)
    {u v : Universe ℝ n} (r : Relisted σ u v) (hn : Numbered u) (ho : Unordered u) :
    Option.Rel (Relisted σ) (effects k m eps2 time dL acc .none u) (effects k m eps2 time dL acc .none v) := by
  have e0 : (if dL && u.consider.wind then fun i => windFactor k (v.particles i) else v.particles)
      = relist σ (if dL && u.consider.wind then fun i => windFactor k (u.particles i) else u.particles) := by
    rw [r.fun]
    split
    · funext i
      exact windFactor_listed k i _
    · rfl
  have s0 : Same settings (if dL && u.consider.wind then fun i => windFactor k (u.particles i) else u.particles) u.particles := by
    split
    · exact windFactor_settings k _
    · exact Same.refl _
  unfold effects
  dsimp only
  rw [r.consider, e0, r.grImplementation, ← r.tidesHost, ← r.grHost, ← r.diskHost]
  generalize (if dL && u.consider.wind then fun i => windFactor k (u.particles i) else u.particles) = p0 at s0 ⊢
  have e1 : Option.Rel (fun a b => b.1 = relist σ a.1 ∧ Pairs σ a.2 b.2 ∧ Same settings a.1 u.particles)
      (if (u.consider.tides || u.consider.flattening) = true then
        withHost (v.hosts.tides.map σ) (fun h => tidesAndFlattening k m dL acc u.consider h p0 u.table)
        else some (p0, u.table))
      (if (u.consider.tides || u.consider.flattening) = true then
        withHost v.hosts.tides (fun h => tidesAndFlattening k m dL acc u.consider h (relist σ p0) v.table)
        else some (relist σ p0, v.table)) := by
    split
    · unfold withHost
      cases v.hosts.tides with
      | none => exact .none
      | some h =>
        have := tidesAndFlattening_relist (σ := σ) hn.few k hm dL acc u.consider h (same_id s0 hn.ids) r.table
        exact .some ⟨this.1, this.2, (tidesAndFlattening_settings k m dL acc u.consider _ p0 u.table).trans s0⟩
    · exact .some ⟨rfl, r.table, s0⟩
  revert e1
  generalize (if (u.consider.tides || u.consider.flattening) = true then
        withHost (v.hosts.tides.map σ) (fun h => tidesAndFlattening k m dL acc u.consider h p0 u.table)
        else some (p0, u.table)) = x
  generalize (if (u.consider.tides || u.consider.flattening) = true then
        withHost v.hosts.tides (fun h => tidesAndFlattening k m dL acc u.consider h (relist σ p0) v.table)
        else some (relist σ p0, v.table)) = x'
  intro e1
  rcases e1 with ⟨h1⟩ | _
  swap
  · exact .none
  rename_i a b
  obtain ⟨p1, t1⟩ := a
  obtain ⟨p1', t1'⟩ := b
  obtain ⟨h1, h2, h3⟩ := h1
  dsimp only at h1 h2 h3 ⊢
  subst h1
  have e2 : (if (acc && u.consider.gr) = true then
      withHost v.hosts.gr (fun h => generalRelativity k eps2 .none h (relist σ p1)) else some (relist σ p1))
      = (if (acc && u.consider.gr) = true then
      withHost (v.hosts.gr.map σ) (fun h => generalRelativity k eps2 .none h p1) else some p1).map (relist σ) := by
    split
    · unfold withHost
      cases v.hosts.gr with
      | none => rfl
      | some h =>
        dsimp only [Option.map_some]
        rw [generalRelativity_relist k eps2 h]
        rw [Unordered.same h3 _]
        exact ho.gr _
    · rfl
  rw [e2]
  generalize (if (acc && u.consider.gr) = true then
      withHost (v.hosts.gr.map σ) (fun h => generalRelativity k eps2 .none h p1) else some p1) = x
  rcases x with _ | p2
  · exact .none
  simp only [Option.map_some]
  have e3 : (if (acc && u.consider.disk) = true then
      withHost v.hosts.disk (fun h => diskAcceleration k time h (relist σ p2)) else some (relist σ p2))
      = (if (acc && u.consider.disk) = true then
      withHost (v.hosts.disk.map σ) (fun h => diskAcceleration k time h p2) else some p2).map (relist σ) := by
    split
    · unfold withHost
      cases v.hosts.disk with
      | none => rfl
      | some h =>
        dsimp only [Option.map_some]
        rw [diskAcceleration_relist]
    · rfl
  rw [e3]
  generalize (if (acc && u.consider.disk) = true then
      withHost (v.hosts.disk.map σ) (fun h => diskAcceleration k time h p2) else some p2) = x
  rcases x with _ | p3
  · exact .none
  refine .some { r with particles := fun i => ?_, table := h2, consider := rfl, grImplementation := rfl }
  generalize (dL && (u.consider.tides || u.consider.flattening || (u.consider.gr && u.grImplementation == .kidder1995)
    || u.consider.wind)) = b
  cases acc <;> cases b <;> rfl

/-- An evaluation for another order of the bodies. -/
theorem evaluation_relist (k : Consts ℝ) {m : Models ℝ} (hm : Unnumbered (n := n) m) (eps2 time : ℝ)
    (evolution dL acc : Bool) {u v : Universe ℝ n} (r : Relisted σ u v) (hn : Numbered u)
    (ho : Unordered u) :
    Option.Rel (Relisted σ) (calculateAdditionalEffects k m eps2 time evolution dL acc .none u)
      (calculateAdditionalEffects k m eps2 time evolution dL acc .none v) := by
  unfold calculateAdditionalEffects
  have r1 := initializeAll_relist dL acc r
  cases h1 : initializeAll dL acc u with
  | none =>
    rw [h1] at r1
    cases h1' : initializeAll dL acc v with
    | none => exact .none
    | some _ => rw [h1'] at r1; cases r1
  | some u1 =>
    rw [h1] at r1
    cases h1' : initializeAll dL acc v with
    | none => rw [h1'] at r1; cases r1
    | some v1 =>
      rw [h1'] at r1
      rcases r1 with ⟨r1⟩
      dsimp only
      have s1 := initializeAll_settings h1
      obtain ⟨c1, -, d1, -⟩ := initializeAll_totals h1
      have k1 : Kept u u1 := ⟨s1, c1, d1⟩
      have r2 := calculateSpinAndEvolving_relist k time evolution r1
      cases h2 : calculateSpinAndEvolving k time evolution u1 with
      | none =>
        rw [h2] at r2
        cases h2' : calculateSpinAndEvolving k time evolution v1 with
        | none => exact .none
        | some _ => rw [h2'] at r2; cases r2
      | some u2 =>
        rw [h2] at r2
        cases h2' : calculateSpinAndEvolving k time evolution v1 with
        | none => rw [h2'] at r2; cases r2
        | some v2 =>
          rw [h2'] at r2
          rcases r2 with ⟨r2⟩
          obtain ⟨b2, c2, -, d2, -⟩ := calculateSpinAndEvolving_step h2
          have k2 : Kept u1 u2 := ⟨fun i => by
            have := congrArg settings (spinAndEvolving_noSpin (b2 i))
            exact this, c2, d2⟩
          exact effects_relist k hm eps2 time dL acc r2 (hn.kept (k1.trans k2)) (ho.kept (k1.trans k2))

/-! ### Gravity -/

theorem acceleration_relist (g : ℝ) (p : Fin n → Body ℝ) (mm mm' : Nat) (i : Fin n) :
    Gravity.acceleration g (fun i => p (σ i)) .none mm' i = Gravity.acceleration g p .none mm (σ i) := by
  unfold Gravity.acceleration
  have e : (List.finRange n).foldl (fun acc j => if i = j then acc else if Gravity.ignored .none mm' i j then acc
      else acc + Gravity.pairAcceleration g (p (σ i)) (p (σ j))) Axes.zero
      = ((List.finRange n).map σ).foldl (fun acc j => if σ i = j then acc
        else if Gravity.ignored .none mm (σ i) j then acc
        else acc + Gravity.pairAcceleration g (p (σ i)) (p j)) Axes.zero := by
    rw [List.foldl_map]
    simp only [EmbeddingLike.apply_eq_iff_eq]
    rfl
  rw [e]
  refine List.Perm.foldl_eq' ?_ (fun x _ y _ z => ?_) _
  · exact (List.perm_ext_iff_of_nodup ((List.nodup_finRange n).map σ.injective) (List.nodup_finRange n)).2 fun j =>
      ⟨fun _ => List.mem_finRange j, fun _ => List.mem_map.2 ⟨σ.symm j, List.mem_finRange _, σ.apply_symm_apply j⟩⟩
  · simp only [Gravity.ignored, Bool.false_eq_true, if_false]
    split <;> split <;> first | rfl | abel

theorem gravity_relist {k : Consts ℝ} {roche roche' : Fin n → Fin n → ℝ} {u v u' v' : Universe ℝ n}
    (r : Relisted σ u v) (hu : universeGravity k roche .none u = some u')
    (hv : universeGravity k roche' .none v = some v') : Relisted σ u' v' := by
  unfold universeGravity Gravity.gravity at hu hv
  split at hu
  · cases hu
  rename_i a ha
  split at ha
  · cases ha
  cases ha
  split at hv
  · cases hv
  rename_i b hb
  split at hb
  · cases hb
  cases hb
  cases hu
  cases hv
  refine { r with particles := fun i => ?_ }
  have e : (fun i => bodyOf (v.particles i)) = fun i => bodyOf (u.particles (σ i)) := by
    funext i
    rw [r.particles]
    rfl
  dsimp only
  rw [e, r.particles, acceleration_relist k.g (fun i => bodyOf (u.particles i)) u.hosts.mostMassive]
  rfl

/-- The checks of gravity do not depend on the order if the most massive body is the first in both lists. -/
theorem gravity_defined_relist {k : Consts ℝ} {roche roche' : Fin n → Fin n → ℝ} {u v : Universe ℝ n}
    (r : Relisted σ u v) (hr : ∀ i j, roche' i j = roche (σ i) (σ j)) (hs : ∀ i j, roche i j = roche j i)
    (hu : u.hosts.mostMassive.val = 0) (hv : v.hosts.mostMassive.val = 0) :
    Option.Rel (Relisted σ) (universeGravity k roche .none u) (universeGravity k roche' .none v) := by
  have e : (fun i => bodyOf (v.particles i)) = fun i => bodyOf (u.particles (σ i)) := by
    funext i
    rw [r.particles]
    rfl
  have iff : ∀ w : Universe ℝ n, ∀ ro : Fin n → Fin n → ℝ, (∃ w', universeGravity k ro .none w = some w')
      ↔ ∃ a, Gravity.gravity k.g (fun i => bodyOf (w.particles i)) ro .none w.hosts.mostMassive = .ok a := by
    intro w ro
    unfold universeGravity
    cases Gravity.gravity k.g (fun i => bodyOf (w.particles i)) ro .none w.hosts.mostMassive <;> simp
  have key : (∃ u', universeGravity k roche .none u = some u') ↔ ∃ v', universeGravity k roche' .none v = some v' := by
    rw [iff, iff, Gravity.C45_partial_goes_on_iff _ _ _ _ _ Gravity.maxDistance2_pos,
      Gravity.C45_partial_goes_on_iff _ _ _ _ _ Gravity.maxDistance2_pos, e]
    -- the conditions in a form without an order
    have dc : ∀ a b : Body ℝ, Gravity.distance2 a b = Gravity.distance2 b a := fun a b => by
      rw [Gravity.distance2_eq, Gravity.distance2_eq, Gravity.dist_comm]
    have sym : ∀ (p : Fin n → Body ℝ) (ro : Fin n → Fin n → ℝ), (∀ i j, ro i j = ro j i) → ∀ mm : Fin n, mm.val = 0 →
        ((∀ i j, i < j → ¬ Gravity.InsideRoche p ro i j ∧ ¬ Gravity.Overlap p i j ∧ ¬ (i.val = mm.val ∧ Gravity.Far p i j))
        ↔ ∀ i j, i ≠ j → ¬ Gravity.InsideRoche p ro i j ∧ ¬ Gravity.Overlap p i j ∧ ¬ (i = mm ∧ Gravity.Far p i j)) := by
      intro p ro hro mm hmm
      constructor
      · intro h i j hij
        rcases lt_or_gt_of_ne hij with hl | hl
        · obtain ⟨a, b, c⟩ := h i j hl
          exact ⟨a, b, fun d => c ⟨congrArg _ d.1, d.2⟩⟩
        · obtain ⟨a, b, -⟩ := h j i hl
          unfold Gravity.InsideRoche Gravity.Overlap at *
          rw [dc, hro, add_comm (p i).radius]
          refine ⟨a, b, fun d => ?_⟩
          have := Fin.lt_def.mp hl
          rw [d.1, hmm] at this
          omega
      · intro h i j hij
        obtain ⟨a, b, c⟩ := h i j (ne_of_lt hij)
        exact ⟨a, b, fun d => c ⟨Fin.ext d.1, d.2⟩⟩
    rw [sym _ roche hs _ hu, sym _ roche' (fun i j => by rw [hr, hr, hs]) _ hv]
    have hmm : ∀ i, σ i = u.hosts.mostMassive ↔ i = v.hosts.mostMassive := fun i => by
      rw [← r.mostMassive, σ.injective.eq_iff]
    constructor
    · intro h i j hij
      obtain ⟨a, b, c⟩ := h (σ i) (σ j) (fun x => hij (σ.injective x))
      unfold Gravity.InsideRoche Gravity.Overlap Gravity.Far at *
      rw [hr]
      exact ⟨a, b, fun d => c ⟨(hmm i).2 d.1, d.2⟩⟩
    · intro h i j hij
      obtain ⟨a, b, c⟩ := h (σ.symm i) (σ.symm j) (fun x => hij (σ.symm.injective x))
      unfold Gravity.InsideRoche Gravity.Overlap Gravity.Far at *
      rw [hr] at a
      simp only [Equiv.apply_symm_apply] at a b c
      exact ⟨a, b, fun d => c ⟨(hmm _).1 (by rw [Equiv.apply_symm_apply]; exact d.1), d.2⟩⟩
  cases h1 : universeGravity k roche .none u with
  | none =>
    cases h2 : universeGravity k roche' .none v with
    | none => exact .none
    | some v' =>
      obtain ⟨x, hx⟩ := key.2 ⟨v', h2⟩
      rw [h1] at hx
      cases hx
  | some u' =>
    obtain ⟨v', h2⟩ := key.1 ⟨u', h1⟩
    rw [h2]
    exact .some (gravity_relist r h1 h2)

/-! ### LeapFrog -/

theorem drift_relist (half : ℝ) {u v : Universe ℝ n} (r : Relisted σ u v) : Relisted σ (drift half u) (drift half v) := by
  refine { r with particles := fun i => ?_ }
  show driftParticle half (v.particles i) = _
  rw [r.particles]
  rfl

theorem finish_relist (dt half : ℝ) {u v : Universe ℝ n} (r : Relisted σ u v) :
    Relisted σ (kickDrift dt half { u with particles := fun i => applyAccelerations (u.particles i) })
      (kickDrift dt half { v with particles := fun i => applyAccelerations (v.particles i) }) := by
  refine { r with particles := fun i => ?_ }
  show kickDriftParticle dt half (applyAccelerations (v.particles i)) = _
  rw [r.particles]
  rfl

theorem observe_relist (k : Consts ℝ) (time : ℝ) {u v : Universe ℝ n} (r : Relisted σ u v) :
    Option.Rel (Relisted σ) (Univ.observe k time u) (Univ.observe k time v) := by
  unfold Univ.observe
  have r1 := calculateSpinAndEvolving_relist k time true (inertialToHeliocentric_relist r)
  cases h1 : calculateSpinAndEvolving k time true (inertialToHeliocentric u) with
  | none =>
    rw [h1] at r1
    cases h2 : calculateSpinAndEvolving k time true (inertialToHeliocentric v) with
    | none => exact .none
    | some b => rw [h2] at r1; cases r1
  | some a =>
    rw [h1] at r1
    cases h2 : calculateSpinAndEvolving k time true (inertialToHeliocentric v) with
    | none => rw [h2] at r1; cases r1
    | some b =>
      rw [h2] at r1
      have r2 : Relisted σ a b := by cases r1; assumption
      dsimp only
      rw [r2.consider]
      split
      · unfold universeDenergyDt withHost
        cases h3 : b.hosts.tides with
        | none =>
          have := r2.tidesHost
          rw [h3] at this
          rw [← this]
          exact .none
        | some h =>
          have := r2.tidesHost
          rw [h3] at this
          rw [← this]
          refine .some { r2 with particles := fun i => ?_ }
          dsimp only
          rw [r2.fun, calculateDenergyDt_relist]
          rfl
      · exact .some r2

end
end Posidonius.Univ
