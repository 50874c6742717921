import Verif.Lemmas.PairFactors
import Verif.Props.Tides

/-! Properties C92 and C93: the force of the constant time lag model and the dynamical tide. -/

namespace Posidonius.Univ
open Finset
open Gravity (Ignore)

variable {n : Nat}

theorem hasDynamicalTide_iff (e : Evolution.EvolutionType) :
    hasDynamicalTide e = true ↔ e ∈ dynamicalTideModels := by
  unfold dynamicalTideModels
  cases e with
  | leconteChabrier2013 d => cases d <;> simp [hasDynamicalTide]
  | _ => simp [hasDynamicalTide]

/-- The positions are apart. -/
theorem separation_pos {a b : Axes ℝ} (h : a ≠ b) : 0 < (a - b).dot (a - b) :=
  lt_of_le_of_ne (Axes.dot_self_nonneg _) (fun e => h (sub_eq_zero.1 (Axes.dot_self_eq_zero e.symm)))

/-- The value written for a pair is the specified one. -/
theorem dynamicalFactor_dissipation (k : Consts ℝ) (scale radius lag sigma spin nn : ℝ)
    (h : |spin - nn| < spin) : dynamicalFactor k |spin - nn| scale radius lag sigma
      = dissipation k.g k.smoothing radius lag scale sigma spin nn := by
  unfold dynamicalFactor dissipation
  rw [if_pos h]
  have e : (if ltb |spin - nn| k.smoothing then k.smoothing else |spin - nn|) = max |spin - nn| k.smoothing := by
    by_cases hl : |spin - nn| < k.smoothing
    · rw [if_pos (by simpa using hl), max_eq_right hl.le]
    · rw [if_neg (by simpa using hl), max_eq_left (not_lt.1 hl)]
  dsimp only
  rw [e]
  simp only [lit_real, ipow_real]
  push_cast
  generalize max |spin - nn| k.smoothing = x
  rw [add_comm sigma]
  congr 2
  rw [div_mul_eq_mul_div, mul_one_div, div_div]

section
variable {k : Consts ℝ} {m : Models ℝ} {eps2 time : ℝ} {evolution : Bool} {ignore : Ignore}
  {u u' : Universe ℝ n} {h : Fin n}

/-! ## C92 The force of the constant time lag model -/

/-- An evaluation gives every companion the acceleration of the two tides of the pair: the one it raises in
the host and the one the host raises in it, both to first order in the time lag, for bodies without a
dynamical tide.  Spins and radii are those after the evaluation refreshed them. -/
theorem C92_force (hok : HostsOk u) (hh : u.hosts.tides = some h)
    (ct : u.consider.tides = true) (hc : AllCtl h u.particles) (hm : ∀ i, (u.particles i).mass ≠ 0)
    (hsep : ∀ i, i ≠ h → (u.particles i).inertialPosition ≠ (u.particles h).inertialPosition)
    (hu : calculateAdditionalEffects k m eps2 time evolution true true ignore (inertialToHeliocentric u)
      = some u') (hg : k.g ≠ 0) {i : Fin n} (hi : i ≠ h) {a b lh a' b' lp : ℝ}
    (eh : (u.particles h).tides.effect = .central (.constantTimeLag a b lh))
    (ei : (u.particles i).tides.effect = .orbiting (.constantTimeLag a' b' lp))
    (nh : (u.particles h).evolution ∉ dynamicalTideModels)
    (ni : (u.particles i).evolution ∉ dynamicalTideModels) :
    let r := (u.particles i).inertialPosition - (u.particles h).inertialPosition
    let v := (u.particles i).inertialVelocity - (u.particles h).inertialVelocity
    ∃ fh fi : Axes ℝ,
      WeakFriction k.g (u.particles i).mass (u'.particles h).radius lh
        (u.particles h).tides.scaledDissipationFactor (u'.particles h).spin r v fh
      ∧ WeakFriction k.g (u.particles h).mass (u'.particles i).radius lp
        (u.particles i).tides.scaledDissipationFactor (u'.particles i).spin r v fi
      ∧ (u.particles i).mass • (u'.particles i).tides.acceleration = fh + fi := by
  intro r v
  obtain ⟨p, st, f⟩ := effects_force hok hh ct hc hm hsep hu
  have g := st.geometry i hi
  obtain ⟨fh, fi, w1, w2, w3⟩ := ctlForce_weakFriction k hg (pairFactors k h p u.table) lh lp (p h) (p i)
    (separation_pos (hsep i hi)) g.position g.velocity g.distance g.radialVelocity
  rw [hostSigma, C37_no_dynamical_tide _ _ _ _ _ (by
    rw [st.evolution, Bool.eq_false_iff]; exact fun e => nh ((hasDynamicalTide_iff _).1 e)),
    st.mass, st.radius, st.scaled, st.spin] at w1
  rw [particleSigma, C37_no_dynamical_tide _ _ _ _ _ (by
    rw [st.evolution, Bool.eq_false_iff]; exact fun e => ni ((hasDynamicalTide_iff _).1 e)),
    st.mass, st.radius, st.scaled, st.spin] at w2
  exact ⟨fh, fi, w1, w2, by rw [f a b lh eh i hi a' b' lp ei, w3]⟩

/-- The definition determines the force, and it is the published one (Bolmont et al. 2015, equations 5 to 8):
the conservative part is `-3 G k m² R⁵ / r⁷` along `r`, the dissipative one is
`9/2 m² R¹⁰ σ / r⁸ (spin × r - v - 2 (r·v) r / r²)`. -/
theorem C92_definition (G M R love sigma : ℝ) (spin r v force : Axes ℝ) (hG : G ≠ 0) (hr : 0 < r.dot r) :
    WeakFriction G M R love sigma spin r v force ↔
      force = (-3 * G * M ^ 2 * R ^ 5 * love / Real.sqrt (r.dot r) ^ 8) • r
        + (9 / 2 * M ^ 2 * R ^ 10 * sigma / Real.sqrt (r.dot r) ^ 8) •
          ((spin.cross r - v) - (2 * r.dot v / r.dot r) • r) := by
  have e : r.dot (spin.cross r - v) = -r.dot v := by simp [Axes.dot]; ring
  have key := weakFriction_formula G M R love sigma spin r v hG hr
  rw [e, mul_neg, neg_div, neg_smul, ← sub_eq_add_neg] at key
  exact ⟨fun hf => hf.unique key, fun hf => hf ▸ key⟩

/-! ## C93 The dynamical tide -/

/-- The evaluation uses for a host with dynamical tide the dissipation of the pair: with the tidal frequency
of the companion's Keplerian orbit, if the companion has no dynamical tide or is in the regime of its own.
Missing: a companion outside the regime of its own dynamical tide, which makes the host's factor the
equilibrium one (`C61_violated`). -/
theorem C93_host_partial (hok : HostsOk u) (hh : u.hosts.tides = some h)
    (ct : u.consider.tides = true) (hc : AllCtl h u.particles) (hm : ∀ i, (u.particles i).mass ≠ 0)
    (hsep : ∀ i, i ≠ h → (u.particles i).inertialPosition ≠ (u.particles h).inertialPosition)
    (hu : calculateAdditionalEffects k m eps2 time evolution true true ignore (inertialToHeliocentric u)
      = some u') (hg : k.g ≠ 0) {i : Fin n} (hi : i ≠ h) {a b lh a' b' lp : ℝ}
    (eh : (u.particles h).tides.effect = .central (.constantTimeLag a b lh))
    (ei : (u.particles i).tides.effect = .orbiting (.constantTimeLag a' b' lp))
    (hs : (u.particles h).tides.scaledDissipationFactor = b * a)
    (hid : ∀ j, (u.particles j).id < maxParticles)
    (hinj : ∀ i j, (u.particles i).id = (u.particles j).id → i = j)
    (dh : (u.particles h).evolution ∈ dynamicalTideModels)
    (hgm : 0 < (u.particles h).massG + (u.particles i).massG) :
    let r := (u.particles i).inertialPosition - (u.particles h).inertialPosition
    let v := (u.particles i).inertialVelocity - (u.particles h).inertialVelocity
    let gm := (u.particles h).massG + (u.particles i).massG
    r.cross v ≠ 0 → v.dot v / 2 - gm / Real.sqrt (r.dot r) < 0 →
    ∃ nn, IsMeanMotion gm r v nn ∧
      let rate (j : Fin n) := Real.sqrt ((u'.particles j).spin.dot (u'.particles j).spin)
      ((u.particles i).evolution ∈ dynamicalTideModels → |rate i - nn| < rate i) →
      ∃ (fh fi : Axes ℝ) (si : ℝ),
        WeakFriction k.g (u.particles i).mass (u'.particles h).radius lh
          (dissipation k.g k.smoothing (u'.particles h).radius (u'.particles h).tides.lagAngle b a (rate h) nn)
          (u'.particles h).spin r v fh
        ∧ WeakFriction k.g (u.particles h).mass (u'.particles i).radius lp si (u'.particles i).spin r v fi
        ∧ (u.particles i).mass • (u'.particles i).tides.acceleration = fh + fi := by
  intro r v gm hL hE
  obtain ⟨p, st, f⟩ := effects_force hok hh ct hc hm hsep hu
  have g := st.geometry i hi
  have hmm := meanMotion_kepler (p h) (p i) g.position g.velocity (by rw [st.massG, st.massG]; exact hgm) hL
    (by rw [st.massG, st.massG]; exact hE)
  rw [st.massG, st.massG] at hmm
  refine ⟨meanMotion (p h) (p i), hmm, fun hreg => ?_⟩
  obtain ⟨fh, fi, w1, w2, w3⟩ := ctlForce_weakFriction k hg (pairFactors k h p u.table) lh lp (p h) (p i)
    (separation_pos (hsep i hi)) g.position g.velocity g.distance g.radialVelocity
  have hp : (p i).tides.effect.orbitingCtl = some (a', b', lp) := by rw [st.effect, ei]; rfl
  obtain ⟨t1, t2⟩ := pairFactors_host k h p u.table (fun j => by rw [st.id]; exact hid j)
    (fun i j e => hinj i j (by rwa [st.id, st.id] at e)) hi hp
    (by rw [st.evolution]; exact (hasDynamicalTide_iff _).2 dh)
    (fun e => by
      rw [st.evolution] at e
      have := hreg ((hasDynamicalTide_iff _).1 e)
      unfold InRegime
      rw [st.normSpin2]
      exact this)
  have hsig : hostSigma (pairFactors k h p u.table) (p h) (p i)
      = dissipation k.g k.smoothing (u'.particles h).radius (u'.particles h).tides.lagAngle b a
          (Real.sqrt ((u'.particles h).spin.dot (u'.particles h).spin)) (meanMotion (p h) (p i)) := by
    have hd : hasDynamicalTide (p h).evolution = true := by
      rw [st.evolution]; exact (hasDynamicalTide_iff _).2 dh
    have hsf : (p h).tides.effect.hostScaleAndFactor = (b, a) := by rw [st.effect, eh]; rfl
    unfold hostSigma getPairFactorOrElse
    rw [if_pos hd]
    by_cases hr : InRegime (p h) (p i) (p h)
    · rw [t1 hr, hsf]
      unfold InRegime at hr
      dsimp only
      rw [dynamicalFactor_dissipation k _ _ _ _ _ _ hr, st.normSpin2, st.radius, st.lagAngle]
    · rw [t2 hr]
      unfold InRegime at hr
      rw [st.normSpin2] at hr
      dsimp only
      unfold dissipation
      rw [if_neg hr, st.scaled, hs]
  rw [hsig, st.mass, st.radius, st.spin] at w1
  rw [st.mass, st.radius, st.spin] at w2
  exact ⟨fh, fi, _, w1, w2, by rw [f a b lh eh i hi a' b' lp ei, w3]⟩

/-- The same for a companion with dynamical tide.  Missing: outside of the regime, with a factor left over
from an evaluation inside it, that factor is used (`C61_violated`). -/
theorem C93_companion_partial (hok : HostsOk u) (hh : u.hosts.tides = some h)
    (ct : u.consider.tides = true) (hc : AllCtl h u.particles) (hm : ∀ i, (u.particles i).mass ≠ 0)
    (hsep : ∀ i, i ≠ h → (u.particles i).inertialPosition ≠ (u.particles h).inertialPosition)
    (hu : calculateAdditionalEffects k m eps2 time evolution true true ignore (inertialToHeliocentric u)
      = some u') (hg : k.g ≠ 0) {i : Fin n} (hi : i ≠ h) {a b lh a' b' lp : ℝ}
    (eh : (u.particles h).tides.effect = .central (.constantTimeLag a b lh))
    (ei : (u.particles i).tides.effect = .orbiting (.constantTimeLag a' b' lp))
    (hs : (u.particles i).tides.scaledDissipationFactor = b' * a')
    (hid : ∀ j, (u.particles j).id < maxParticles)
    (hinj : ∀ i j, (u.particles i).id = (u.particles j).id → i = j)
    (di : (u.particles i).evolution ∈ dynamicalTideModels)
    (hgm : 0 < (u.particles h).massG + (u.particles i).massG) :
    let r := (u.particles i).inertialPosition - (u.particles h).inertialPosition
    let v := (u.particles i).inertialVelocity - (u.particles h).inertialVelocity
    let gm := (u.particles h).massG + (u.particles i).massG
    r.cross v ≠ 0 → v.dot v / 2 - gm / Real.sqrt (r.dot r) < 0 →
    ∃ nn, IsMeanMotion gm r v nn ∧
      let rate (j : Fin n) := Real.sqrt ((u'.particles j).spin.dot (u'.particles j).spin)
      (|rate i - nn| < rate i ∨ u.table ((u.particles i).id * maxParticles + (u.particles h).id) = none) →
      ∃ (fh fi : Axes ℝ) (sh : ℝ),
        WeakFriction k.g (u.particles i).mass (u'.particles h).radius lh sh (u'.particles h).spin r v fh
        ∧ WeakFriction k.g (u.particles h).mass (u'.particles i).radius lp
          (dissipation k.g k.smoothing (u'.particles i).radius (u'.particles i).tides.lagAngle b' a' (rate i) nn)
          (u'.particles i).spin r v fi
        ∧ (u.particles i).mass • (u'.particles i).tides.acceleration = fh + fi := by
  intro r v gm hL hE
  obtain ⟨p, st, f⟩ := effects_force hok hh ct hc hm hsep hu
  have g := st.geometry i hi
  have hmm := meanMotion_kepler (p h) (p i) g.position g.velocity (by rw [st.massG, st.massG]; exact hgm) hL
    (by rw [st.massG, st.massG]; exact hE)
  rw [st.massG, st.massG] at hmm
  refine ⟨meanMotion (p h) (p i), hmm, fun hreg => ?_⟩
  obtain ⟨fh, fi, w1, w2, w3⟩ := ctlForce_weakFriction k hg (pairFactors k h p u.table) lh lp (p h) (p i)
    (separation_pos (hsep i hi)) g.position g.velocity g.distance g.radialVelocity
  have hp : (p i).tides.effect.orbitingCtl = some (a', b', lp) := by rw [st.effect, ei]; rfl
  have hd : hasDynamicalTide (p i).evolution = true := by
    rw [st.evolution]; exact (hasDynamicalTide_iff _).2 di
  obtain ⟨t1, t2⟩ := pairFactors_companion k h p u.table (fun j => by rw [st.id]; exact hid j)
    (fun i j e => hinj i j (by rwa [st.id, st.id] at e)) hi hp hd
  have hsig : particleSigma (pairFactors k h p u.table) (p h) (p i)
      = dissipation k.g k.smoothing (u'.particles i).radius (u'.particles i).tides.lagAngle b' a'
          (Real.sqrt ((u'.particles i).spin.dot (u'.particles i).spin)) (meanMotion (p h) (p i)) := by
    unfold particleSigma getPairFactorOrElse
    rw [if_pos hd]
    by_cases hr : InRegime (p h) (p i) (p i)
    · rw [t1 hr]
      unfold InRegime at hr
      dsimp only
      rw [dynamicalFactor_dissipation k _ _ _ _ _ _ hr, st.normSpin2, st.radius, st.lagAngle]
    · rw [t2 hr]
      unfold InRegime at hr
      rw [st.normSpin2] at hr
      rcases hreg with hreg | hreg
      · exact absurd hreg hr
      · rw [st.id, st.id, hreg]
        dsimp only
        unfold dissipation
        rw [if_neg hr, st.scaled, hs]
  rw [st.mass, st.radius, st.spin] at w1
  rw [hsig, st.mass, st.radius, st.spin] at w2
  exact ⟨fh, fi, _, w1, w2, by rw [f a b lh eh i hi a' b' lp ei, w3]⟩

end

/-! ## Examples -/

example (k : Consts ℝ) (hg : k.g ≠ 0) (m : Models ℝ) : ∃ u' fh fi,
    calculateAdditionalEffects k m 0 0 false true true .none (inertialToHeliocentric currentUniverse) = some u'
    ∧ WeakFriction k.g 1 (u'.particles 0).radius 0 1 (u'.particles 0).spin
      (examplePlanet.inertialPosition - exampleStar.inertialPosition)
      (examplePlanet.inertialVelocity - exampleStar.inertialVelocity) fh
    ∧ (1 : ℝ) • (u'.particles 1).tides.acceleration = fh + fi := by
  obtain ⟨u', hu⟩ := example_defined k m 0 0 .none _ (Or.inr rfl)
  obtain ⟨fh, fi, h1, -, h3⟩ := C92_force currentUniverse_ok rfl rfl currentUniverse_ctl
    (example_mass _ (Or.inr rfl)) (example_separated _ (Or.inr rfl)) hu hg (i := 1) (by decide)
    (a := 1) (b := 1) (lh := 0) (a' := 1) (b' := 1) (lp := 0)
    (by simp [currentUniverse, exampleStar]) (by simp [currentUniverse, examplePlanet])
    (by simp [currentUniverse, exampleStar, blank, dynamicalTideModels])
    (by simp [currentUniverse, examplePlanet, blank, dynamicalTideModels])
  exact ⟨u', fh, fi, hu, h1, h3⟩

/-- A star and a planet with tables of the dynamical tide; the planet moves on an orbit. -/
noncomputable def wavyUniverse : Universe ℝ 2 :=
  { exampleUniverse with
    particles := fun i => if i = 0 then { exampleStar with evolution := .galletBolmont2017, spin := ⟨2, 0, 0⟩ }
      else { examplePlanet with evolution := .leconteChabrier2013 true, inertialVelocity := ⟨0, 1, 0⟩,
                                angularMomentum := ⟨0, 0, 2⟩ } }

theorem wavy_hyps (k : Consts ℝ) (m : Models ℝ) :
    HostsOk wavyUniverse ∧ AllCtl 0 wavyUniverse.particles ∧ (∀ i, (wavyUniverse.particles i).mass ≠ 0)
    ∧ (∀ i, i ≠ 0 → (wavyUniverse.particles i).inertialPosition ≠ (wavyUniverse.particles 0).inertialPosition)
    ∧ (∀ j, (wavyUniverse.particles j).id < maxParticles)
    ∧ (∀ i j, (wavyUniverse.particles i).id = (wavyUniverse.particles j).id → i = j)
    ∧ ∃ u', calculateAdditionalEffects k m 0 0 false true true .none (inertialToHeliocentric wavyUniverse)
      = some u' := by
  refine ⟨?_, ?_, ?_, ?_, ?_, ?_, ?_⟩
  · constructor <;> simp [wavyUniverse, exampleUniverse]
  · refine ⟨⟨1, 1, 0, by simp [wavyUniverse, exampleStar]⟩, fun i hi => ⟨1, 1, 0, ?_⟩⟩
    simp [wavyUniverse, examplePlanet, hi]
  · intro i
    by_cases hi : i = 0 <;> simp [wavyUniverse, hi, examplePlanet, exampleStar]
  · intro i hi e
    have := congrArg Axes.x e
    simp [wavyUniverse, hi, examplePlanet, exampleStar, blank] at this
  · intro i
    by_cases hi : i = 0 <;> simp [wavyUniverse, hi, examplePlanet, exampleStar, blank, maxParticles]
  · intro i j
    by_cases hi : i = 0 <;> by_cases hj : j = 0 <;>
      simp [wavyUniverse, hi, hj, examplePlanet, exampleStar, blank]
    omega
  · have hh : HasHosts (inertialToHeliocentric wavyUniverse) := by
      constructor <;> simp [inertialToHeliocentric, wavyUniverse, exampleUniverse]
    have hn := (additionalEffects_none (k := k) (m := m) (eps2 := 0) (time := 0) (evolution := false)
      (dL := true) (acc := true) (ignore := .none) hh rfl).not
    refine Option.ne_none_iff_exists'.1 (hn.2 ?_)
    rintro ⟨i, hi⟩
    have hI : ((inertialToHeliocentric wavyUniverse).particles i).momentOfInertia = 1 := by
      by_cases hi : i = 0 <;>
        simp [inertialToHeliocentric, wavyUniverse, exampleUniverse, mapHost, mapOthers, hi, examplePlanet,
          exampleStar, toHeliocentric, zeroHeliocentric]
    rw [hI] at hi
    simp at hi

/-- The planet of the example has no factor left over, so the specified one is used. -/
example (k : Consts ℝ) (hg : k.g ≠ 0) (m : Models ℝ) : ∃ u' nn fh fi sh,
    calculateAdditionalEffects k m 0 0 false true true .none (inertialToHeliocentric wavyUniverse) = some u'
    ∧ IsMeanMotion 2 ⟨1, 0, 0⟩ ⟨0, 1, 0⟩ nn
    ∧ WeakFriction k.g 1 (u'.particles 0).radius 0 sh (u'.particles 0).spin ⟨1, 0, 0⟩ ⟨0, 1, 0⟩ fh
    ∧ WeakFriction k.g 1 (u'.particles 1).radius 0
      (dissipation k.g k.smoothing (u'.particles 1).radius (u'.particles 1).tides.lagAngle 1 1
        (Real.sqrt ((u'.particles 1).spin.dot (u'.particles 1).spin)) nn)
      (u'.particles 1).spin ⟨1, 0, 0⟩ ⟨0, 1, 0⟩ fi
    ∧ (1 : ℝ) • (u'.particles 1).tides.acceleration = fh + fi := by
  obtain ⟨h1, h2, h3, h4, h5, h6, u', hu⟩ := wavy_hyps k m
  have er : (wavyUniverse.particles 1).inertialPosition - (wavyUniverse.particles 0).inertialPosition
      = ⟨1, 0, 0⟩ := by ext <;> simp [wavyUniverse, examplePlanet, exampleStar, blank]
  have ev : (wavyUniverse.particles 1).inertialVelocity - (wavyUniverse.particles 0).inertialVelocity
      = ⟨0, 1, 0⟩ := by ext <;> simp [wavyUniverse, examplePlanet, exampleStar, blank]
  have eg : (wavyUniverse.particles 0).massG + (wavyUniverse.particles 1).massG = 2 := by
    simp [wavyUniverse, examplePlanet, exampleStar]; norm_num
  have em : (wavyUniverse.particles 0).mass = 1 ∧ (wavyUniverse.particles 1).mass = 1 := by
    simp [wavyUniverse, examplePlanet, exampleStar]
  have key := C93_companion_partial h1 rfl rfl h2 h3 h4 hu hg (i := 1) (by decide)
    (a := 1) (b := 1) (lh := 0) (a' := 1) (b' := 1) (lp := 0)
    (by simp [wavyUniverse, exampleStar]) (by simp [wavyUniverse, examplePlanet])
    (by simp [wavyUniverse, examplePlanet]) h5 h6
    (by simp [wavyUniverse, dynamicalTideModels])
    (by rw [eg]; norm_num)
  dsimp only at key
  rw [er, ev, eg, em.1, em.2] at key
  obtain ⟨nn, hnn, hf⟩ := key
    (fun e => by have := congrArg Axes.z e; simp at this)
    (by simp [Axes.dot]; norm_num)
  obtain ⟨fh, fi, sh, f1, f2, f3⟩ := hf (Or.inr rfl)
  exact ⟨u', nn, fh, fi, sh, hu, hnn, f1, f2, f3⟩

/-- ... and for the star, if the planet rotates so that it is inside its own regime. -/
example (k : Consts ℝ) (hg : k.g ≠ 0) (m : Models ℝ) : ∃ u' nn,
    calculateAdditionalEffects k m 0 0 false true true .none (inertialToHeliocentric wavyUniverse) = some u'
    ∧ IsMeanMotion 2 ⟨1, 0, 0⟩ ⟨0, 1, 0⟩ nn
    ∧ ∃ fh, WeakFriction k.g 1 (u'.particles 0).radius 0
      (dissipation k.g k.smoothing (u'.particles 0).radius (u'.particles 0).tides.lagAngle 1 1
        (Real.sqrt ((u'.particles 0).spin.dot (u'.particles 0).spin)) nn)
      (u'.particles 0).spin ⟨1, 0, 0⟩ ⟨0, 1, 0⟩ fh := by
  obtain ⟨h1, h2, h3, h4, h5, h6, u', hu⟩ := wavy_hyps k m
  have er : (wavyUniverse.particles 1).inertialPosition - (wavyUniverse.particles 0).inertialPosition
      = ⟨1, 0, 0⟩ := by ext <;> simp [wavyUniverse, examplePlanet, exampleStar, blank]
  have ev : (wavyUniverse.particles 1).inertialVelocity - (wavyUniverse.particles 0).inertialVelocity
      = ⟨0, 1, 0⟩ := by ext <;> simp [wavyUniverse, examplePlanet, exampleStar, blank]
  have eg : (wavyUniverse.particles 0).massG + (wavyUniverse.particles 1).massG = 2 := by
    simp [wavyUniverse, examplePlanet, exampleStar]; norm_num
  have em : (wavyUniverse.particles 0).mass = 1 ∧ (wavyUniverse.particles 1).mass = 1 := by
    simp [wavyUniverse, examplePlanet, exampleStar]
  have key := C93_host_partial h1 rfl rfl h2 h3 h4 hu hg (i := 1) (by decide)
    (a := 1) (b := 1) (lh := 0) (a' := 1) (b' := 1) (lp := 0)
    (by simp [wavyUniverse, exampleStar]) (by simp [wavyUniverse, examplePlanet])
    (by simp [wavyUniverse, exampleStar]) h5 h6
    (by simp [wavyUniverse, dynamicalTideModels])
    (by rw [eg]; norm_num)
  dsimp only at key
  rw [er, ev, eg, em.1, em.2] at key
  obtain ⟨nn, hnn, hf⟩ := key
    (fun e => by have := congrArg Axes.z e; simp at this)
    (by simp [Axes.dot]; norm_num)
  obtain ⟨inertia, s1, -, s3⟩ := (effects_balance h1 rfl rfl h2 h3 h4 hu).2.2.1 1
  have hs : (u'.particles 1).spin = ⟨0, 0, 2⟩ := by
    rw [s1, (s3 rfl).1]
    ext <;> simp [wavyUniverse, examplePlanet]
  have hrate : Real.sqrt ((u'.particles 1).spin.dot (u'.particles 1).spin) = 2 := by
    rw [hs]
    simp [Axes.dot]
  refine ⟨u', nn, hu, hnn, ?_⟩
  obtain ⟨fh, fi, si, f1, -⟩ := hf (fun _ => by
    rw [hrate]
    obtain ⟨n0, a, a0, e1, e2⟩ := hnn
    have ha : a = 2 / 3 := by
      simp [Axes.dot] at e1
      field_simp at e1
      linarith
    subst ha
    rw [abs_lt]
    constructor <;> nlinarith)
  exact ⟨fh, f1⟩

end Posidonius.Univ
