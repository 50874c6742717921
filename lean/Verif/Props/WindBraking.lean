import Verif.Props.WHFastUniverse
import Verif.Lemmas.Ias15Still
import Verif.Lemmas.Ias15Free
import Verif.Props.WindDisk

/-! Property C99: the stellar wind brakes the star, whatever the integrator. -/

namespace Posidonius.Univ
open Finset
open Gravity (Ignore)

variable {n : Nat}

/-! ## IAS15 and WHFast -/

section
variable {F : Type} [Add F] [Sub F] [Mul F] [Div F] [Neg F] [FOps F] [FPow F] [FTrig F]
variable {k : Consts F} {m : Models F} {eps2 : F} {roche : Fin n → Fin n → F} {c : WHFast.Coordinates}

theorem integrateSpin_congr {u v : Universe F n} (h : Alike u v) : integrateSpin u = integrateSpin v := by
  unfold integrateSpin
  rw [h.consider, h.gr]

theorem integrateSpin_off {u : Universe F n} (ht : u.consider.tides = false) (hf : u.consider.flattening = false)
    (he : u.consider.evolution = false) (hg : u.consider.gr = false ∨ u.grImplementation ≠ .kidder1995) :
    integrateSpin u = false := by
  unfold integrateSpin
  rw [ht, hf, he]
  rcases hg with hg | hg
  · simp [hg]
  · have : (u.grImplementation == .kidder1995) = false := by
      generalize u.grImplementation = g at hg
      cases g <;> first | exact absurd rfl hg | rfl
    simp [this]

theorem whfastForced_still {half : F} {evolution : Bool} {r r' : WHFastRun F n} (hl : r.errors.length = n)
    (h : whfastForced k m eps2 c half false evolution r = some r') (i : Fin n) :
    (r'.world.particles i).angularMomentum = (r.world.particles i).angularMomentum := by
  unfold whfastForced at h
  split at h
  · cases h
  · next u final errors e =>
    cases h
    set hst := r.world.hosts.mostMassive with hhst
    have keeps : WHFast.Keeps (fun v => Alike v r.world) n (whfastEvaluate k m eps2 c false r.time) := by
      intro v b l v' q hv _ he
      obtain ⟨e1, e2⟩ := whfastEvaluate_parts he
      exact ⟨(whfastEvaluate_alike he).1.trans hv, by rw [e2]; simp [starFirst_length]⟩
    obtain ⟨g1, g2⟩ := WHFast.midpoint_guarded (dt := half) (spin := false) (evolution := evolution)
      (orig := (starFirst hst).map fun i => motionOf (r.world.particles i)) keeps (by simp [starFirst_length]) hl
      (s := r.world) (Alike.refl _)
    obtain ⟨au, lf, -⟩ := g2 _ _ _ e
    rw [← g1] at e
    obtain ⟨t, b, l, rates, h1, h2, -⟩ := WHFast.midpoint_last _ _ _ _ _ _ _ _ _ _ e
    unfold WHFast.guarded at h1
    split at h1
    case isFalse => cases h1
    next hg =>
    obtain ⟨e1, e2⟩ := whfastEvaluate_parts h1
    have hu : u.hosts.mostMassive = hst := by rw [au.hosts]
    have ht : t.hosts.mostMassive = hst := by rw [hg.1.hosts]
    obtain ⟨x, hx⟩ : ∃ x, r.errors[(starFirst hst).idxOf i]? = some x := by
      refine ⟨_, List.getElem?_eq_getElem ?_⟩
      have := List.idxOf_lt_length_of_mem (mem_starFirst hst i)
      rw [starFirst_length] at this
      rw [hl]
      exact this
    unfold withMotions
    dsimp only
    unfold entry
    rw [hu, h2, List.getElem?_zipWith, List.getElem?_zipWith, e2, ht, getElem?_starFirst, hx, getElem?_starFirst]
    rfl

/-- If neither tides, flattening, evolution nor relativity by Kidder are on, WHFast never changes an angular momentum,
in any number of iterations and in any arithmetic: the wind does not brake. -/
theorem C99_violated_whfast {dt half : F} {r r' : WHFastRun F n} (hl : r.errors.length = n)
    (ht : r.world.consider.tides = false) (hf : r.world.consider.flattening = false)
    (he : r.world.consider.evolution = false)
    (hg : r.world.consider.gr = false ∨ r.world.grImplementation ≠ .kidder1995)
    (h : Relation.ReflTransGen (WHFastStep k m eps2 roche c dt half) r r') (i : Fin n) :
    (r'.world.particles i).angularMomentum = (r.world.particles i).angularMomentum := by
  have hs := integrateSpin_off ht hf he hg
  have key : Alike r'.world r.world ∧ r'.errors.length = n
      ∧ (r'.world.particles i).angularMomentum = (r.world.particles i).angularMomentum := by
    induction h with
    | refl => exact ⟨Alike.refl _, hl, rfl⟩
    | tail _ hs' ih =>
      obtain ⟨i1, i2, i3⟩ := ih
      obtain ⟨b1, b2⟩ := whfastStep_alike i2 hs'
      refine ⟨b1.trans i1, b2, ?_⟩
      obtain ⟨fuel, record, h⟩ := hs'
      obtain ⟨u, r1, s, r2, hu, h1, -, h3, rfl⟩ := whfastStep_parts h
      obtain ⟨au, pu, -⟩ := observed_parts hu
      rw [integrateSpin_congr (au.trans i1), hs] at h1 h3
      obtain ⟨-, -, -, l1⟩ := whfastForced_parts (by exact i2) h1
      have e1 := whfastForced_still (by exact i2) h1 i
      have e3 := whfastForced_still (by exact l1) h3 i
      have eu : (u.particles i).angularMomentum = _ := congrArg Ias15.Place.angular (pu i)
      rw [← i3]
      exact e3.trans (e1.trans eu)
  exact key.2.2

variable [Ias15.FNormal F]

/-- The same with IAS15, which does compute the torques. -/
theorem C99_violated_ias15 {r r' : Ias15Run F n} (ht : r.world.consider.tides = false)
    (hf : r.world.consider.flattening = false) (he : r.world.consider.evolution = false)
    (hg : r.world.consider.gr = false ∨ r.world.grImplementation ≠ .kidder1995)
    (h : Relation.ReflTransGen (Ias15Step k m eps2 roche) r r') (i : Fin n) :
    (r'.world.particles i).angularMomentum = (r.world.particles i).angularMomentum := by
  have hs := integrateSpin_off ht hf he hg
  have key : Alike r'.world r.world
      ∧ (r'.world.particles i).angularMomentum = (r.world.particles i).angularMomentum := by
    induction h with
    | refl => exact ⟨Alike.refl _, rfl⟩
    | @tail b d _ hs' ih =>
      obtain ⟨i1, i2⟩ := ih
      refine ⟨(ias15Step_alike hs').trans i1, ?_⟩
      obtain ⟨fuel, record, h⟩ := hs'
      obtain ⟨u, s, hu, hi, rfl⟩ := ias15Step_parts h
      obtain ⟨au, pu, -⟩ := observed_parts hu
      rw [integrateSpin_congr (au.trans i1), hs] at hi
      have keeps : Ias15.Keeps (fun _ => True) n (ias15Evaluate k m eps2 roche) := by
        intro v t l v' q hv' _ he
        obtain ⟨_, u2, -, h2, h3, e⟩ := ias15Evaluate_parts he
        exact ⟨trivial, by rw [e, List.length_ofFn]⟩
      obtain ⟨g1, g2⟩ := Ias15.iterate_guarded (T := Ias15.tables) (spin := false) (fuel := fuel)
        (u := { particles := List.ofFn fun i => loaded (u.particles i) (b.arrays i), hidden := u, time := b.time,
                dt := b.dt, last := b.last }) keeps trivial (by simp)
      obtain ⟨-, ls⟩ := g2 s hi
      rw [← g1] at hi
      have even : Ias15.Even (Ias15.guarded (fun _ => True) n (ias15Evaluate k m eps2 roche)) := by
        intro v t l v' q he
        unfold Ias15.guarded at he
        split at he
        · next hg => rw [(keeps _ _ _ _ _ hg.1 hg.2 he).2, hg.2]
        · cases he
      have ang := Ias15.iterate_still even hi
      have hi : i.val < s.particles.length := by rw [ls]; exact i.isLt
      have a1 : (Ias15.angulars s.particles)[i.val]? = some (Ias15.Axes.map Ias15.Comp.l s.particles[i.val]) := by
        simp [Ias15.angulars, List.getElem?_eq_getElem hi]
      rw [ang] at a1
      have a2 : (Ias15.angulars (List.ofFn fun i => loaded (u.particles i) (b.arrays i)))[i.val]?
          = some (u.particles i).angularMomentum := by
        simp [Ias15.angulars]
        rfl
      rw [a2] at a1
      have eu : (u.particles i).angularMomentum = _ := congrArg Ias15.Place.angular (pu i)
      rw [← i2]
      refine Eq.trans ?_ ((Option.some.inj a1).symm.trans eu)
      simp only [placeAll, placed, Ias15.places, List.getElem?_map, List.getElem?_eq_getElem hi, Option.map_some,
        Option.getD_some]
  exact key.2

end

/-! ## LeapFrog -/

section
variable {k : Consts ℝ} {m : Models ℝ} {eps2 time dt : ℝ} {roche : Fin n → Fin n → ℝ} {u u' : Universe ℝ n}

/-- The torque by the wind divided by the angular momentum `l`, for a body of radius `R`, mass `M` and moment of
inertia `I`. -/
noncomputable def windRate (k : Consts ℝ) (kFactor saturation R M I : ℝ) (l : Axes ℝ) : ℝ :=
  kFactor * min ((1 / I) • l).norm2 (saturation ^ 2) * Real.sqrt (R / k.rSun / M) / I

/-- A step of LeapFrog for a body with a wind and without other torques. -/
theorem leapfrog_wind (hq : NoOffTorque u) (ht : u.consider.tides = false) (hf : u.consider.flattening = false)
    (hg : u.consider.gr = false) (he : u.consider.evolution = false) (hw : u.consider.wind = true)
    (h : leapfrogStep k m eps2 roche dt (dt / 2) time u = some u') (i : Fin n)
    (hi : (u.particles i).wind.interaction = true) {saturation kFactor : ℝ} (hs : 0 ≤ saturation)
    (hk : (u.particles i).wind.kFactor = kFactor) (hs1 : (u.particles i).wind.rotationSaturation = saturation)
    (hs2 : (u.particles i).wind.rotationSaturation2 = saturation ^ 2) :
    let rate := windRate k kFactor saturation (u.particles i).radius (u.particles i).mass
      (u.particles i).momentOfInertia
    let middle := (1 - dt / 2 * rate (u.particles i).angularMomentum) • (u.particles i).angularMomentum
    (u'.particles i).angularMomentum = (1 - dt / 2 * rate middle) • middle ∧ Alike u' u ∧ NoOffTorque u'
      ∧ (u'.particles i).radius = (u.particles i).radius
      ∧ (u'.particles i).momentOfInertia = (u.particles i).momentOfInertia := by
  intro rate middle
  have torque : ∀ {v w : Universe ℝ n} {t : ℝ} {acc : Bool}, Alike v u → NoOffTorque v →
      (v.particles i).radius = (u.particles i).radius →
      (v.particles i).momentOfInertia = (u.particles i).momentOfInertia →
      calculateAdditionalEffects k m eps2 t true true acc .none (inertialToHeliocentric v) = some w →
      (w.particles i).dAngularMomentumDt = -(rate (v.particles i).angularMomentum • (v.particles i).angularMomentum)
        ∧ NoOffTorque w ∧ (w.particles i).radius = (u.particles i).radius
        ∧ (w.particles i).momentOfInertia = (u.particles i).momentOfInertia := by
    intro v w t acc a q hR hI e
    have cv : (inertialToHeliocentric v).consider = u.consider := a.consider
    have ev : (true && (inertialToHeliocentric v).consider.evolution) = false := by rw [cv, he]; rfl
    obtain ⟨r1, r2, r3⟩ := evaluation_radius k m ev e i
    rw [helio_field Particle.radius (fun _ => rfl) (fun _ _ => rfl), hR] at r1
    rw [helio_field Particle.momentOfInertia (fun _ => rfl) (fun _ _ => rfl), hI] at r2
    rw [helio_field Particle.momentOfInertia (fun _ => rfl) (fun _ _ => rfl), hI,
      helio_field Particle.angularMomentum (fun _ => rfl) (fun _ _ => rfl)] at r3
    have ah : Alike (inertialToHeliocentric v) u := (helio_alike v).trans a
    obtain ⟨t1, t2⟩ := C94_torque (helio_noOffTorque q) e
    refine ⟨?_, t1, r1, r2⟩
    have tw := wind_torque (kFactor := kFactor) (saturation := saturation) (by rw [cv]; exact hw) e i
      (by rw [ah.field (fun p => p.wind.interaction) (fun _ => rfl) i]; exact hi) hs
      (by rw [ah.field (fun p => p.wind.kFactor) (fun _ => rfl) i]; exact hk)
      (by rw [ah.field (fun p => p.wind.rotationSaturation) (fun _ => rfl) i]; exact hs1)
      (by rw [ah.field (fun p => p.wind.rotationSaturation2) (fun _ => rfl) i]; exact hs2)
    rw [t2 i, cv, ht, hf, hg, hw]
    simp only [Bool.false_or, Bool.false_and, if_true, Bool.false_eq_true, if_false, zero_add, Bool.or_true]
    dsimp only at tw
    rw [tw, r1, r3, ah.field Particle.mass (fun _ => rfl) i]
    have hd : (v.particles i).angularMomentum.sdiv (u.particles i).momentOfInertia
        = (1 / (u.particles i).momentOfInertia) • (v.particles i).angularMomentum := by
      ext <;> simp [Axes.sdiv] <;> field_simp
    rw [hd, smul_smul]
    congr 2
    show _ = windRate _ _ _ _ _ _ _
    unfold windRate
    ring
  obtain ⟨u1, u3, a, h1, ha, h3, h4⟩ := leapfrogStep_parts h
  obtain ⟨t1, q1, R1, I1⟩ := torque (Alike.refl u) hq rfl rfl h1
  obtain ⟨-, -, -, f1, -, -⟩ := evaluation_totals h1
  have a1 : Alike u1 u := (evaluation_alike h1).trans (helio_alike u)
  have L1 : (u1.particles i).angularMomentum = (u.particles i).angularMomentum := by
    rw [fixed_field Particle.angularMomentum (fun _ => rfl) f1,
      helio_field Particle.angularMomentum (fun _ => rfl) (fun _ _ => rfl)]
  set v : Universe ℝ n := { drift (dt / 2) u1 with
    particles := fun i => { (drift (dt / 2) u1).particles i with inertialAcceleration := a i } } with hv
  obtain ⟨-, -, -, f3, -, -⟩ := evaluation_totals h3
  have Lv : (v.particles i).angularMomentum = middle := by
    show (u1.particles i).angularMomentum + smulRight (u1.particles i).dAngularMomentumDt (dt / 2) = middle
    rw [L1, t1]
    ext <;> simp [smulRight, middle] <;> ring
  obtain ⟨t3, q3, R3, I3⟩ := torque (v := v) ⟨a1.consider, a1.hosts, a1.gr, a1.settings⟩
    (noOffTorque_moved q1 rfl (fun _ => rfl) (fun _ => rfl) (fun _ => rfl) (fun _ => rfl)) R1 I1 h3
  have L3 : (u3.particles i).angularMomentum = middle := by
    rw [fixed_field Particle.angularMomentum (fun _ => rfl) f3,
      helio_field Particle.angularMomentum (fun _ => rfl) (fun _ _ => rfl), Lv]
  have a3 : Alike u3 u := (evaluation_alike h3).trans ((helio_alike v).trans ⟨a1.consider, a1.hosts, a1.gr, a1.settings⟩)
  rw [h4]
  refine ⟨?_, ⟨a3.consider, a3.hosts, a3.gr, a3.settings⟩,
    noOffTorque_moved q3 rfl (fun _ => rfl) (fun _ => rfl) (fun _ => rfl) (fun _ => rfl), R3, I3⟩
  show (u3.particles i).angularMomentum + smulRight (u3.particles i).dAngularMomentumDt (dt / 2) = _
  rw [L3, t3, Lv]
  ext <;> simp [smulRight] <;> ring

/-- With LeapFrog the wind does brake: without other torques and evolution a step multiplies the angular momentum
with one minus half of the step times the rate, twice.  Missing: IAS15 and WHFast (`C99_violated_ias15`,
`C99_violated_whfast`). -/
theorem C99_leapfrog_partial (hq : NoOffTorque u) (ht : u.consider.tides = false) (hf : u.consider.flattening = false)
    (hg : u.consider.gr = false) (he : u.consider.evolution = false) (hw : u.consider.wind = true)
    (h : leapfrogStep k m eps2 roche dt (dt / 2) time u = some u') (i : Fin n)
    (hi : (u.particles i).wind.interaction = true) {saturation kFactor : ℝ} (hs : 0 ≤ saturation)
    (hk : (u.particles i).wind.kFactor = kFactor) (hs1 : (u.particles i).wind.rotationSaturation = saturation)
    (hs2 : (u.particles i).wind.rotationSaturation2 = saturation ^ 2) :
    let rate := windRate k kFactor saturation (u.particles i).radius (u.particles i).mass
      (u.particles i).momentOfInertia
    let middle := (1 - dt / 2 * rate (u.particles i).angularMomentum) • (u.particles i).angularMomentum
    (u'.particles i).angularMomentum = (1 - dt / 2 * rate middle) • middle := by
  exact (leapfrog_wind hq ht hf hg he hw h i hi hs hk hs1 hs2).1

/-- It never spins the body up, if the step is not much too long. -/
theorem C99_leapfrog_brakes_partial (hq : NoOffTorque u) (ht : u.consider.tides = false)
    (hf : u.consider.flattening = false) (hg : u.consider.gr = false) (he : u.consider.evolution = false)
    (hw : u.consider.wind = true) (h : leapfrogStep k m eps2 roche dt (dt / 2) time u = some u') (i : Fin n)
    (hi : (u.particles i).wind.interaction = true) {saturation kFactor : ℝ} (hs : 0 ≤ saturation) (hk0 : 0 ≤ kFactor)
    (hk : (u.particles i).wind.kFactor = kFactor) (hs1 : (u.particles i).wind.rotationSaturation = saturation)
    (hs2 : (u.particles i).wind.rotationSaturation2 = saturation ^ 2) (hI : 0 < (u.particles i).momentOfInertia)
    (hdt : 0 ≤ dt)
    (hshort : dt * (kFactor * saturation ^ 2 * Real.sqrt ((u.particles i).radius / k.rSun / (u.particles i).mass))
      ≤ 4 * (u.particles i).momentOfInertia) :
    (u'.particles i).angularMomentum.norm2 ≤ (u.particles i).angularMomentum.norm2 := by
  have e := C99_leapfrog_partial hq ht hf hg he hw h i hi hs hk hs1 hs2
  dsimp only at e
  set R := (u.particles i).radius
  set M := (u.particles i).mass
  set I := (u.particles i).momentOfInertia
  have key : ∀ l : Axes ℝ, ((1 - dt / 2 * windRate k kFactor saturation R M I l) • l).norm2 ≤ l.norm2 := by
    intro l
    have n2 : ∀ v : Axes ℝ, 0 ≤ v.norm2 := fun v => Axes.dot_self_nonneg _
    have hmin0 : 0 ≤ min ((1 / I) • l).norm2 (saturation ^ 2) := le_min (n2 _) (sq_nonneg _)
    have hmin1 : min ((1 / I) • l).norm2 (saturation ^ 2) ≤ saturation ^ 2 := min_le_right _ _
    set y := windRate k kFactor saturation R M I l with hy
    have y0 : 0 ≤ y := by
      rw [hy]
      unfold windRate
      positivity
    have y1 : dt * y ≤ 4 := by
      have : y ≤ kFactor * saturation ^ 2 * Real.sqrt (R / k.rSun / M) / I := by
        rw [hy]
        unfold windRate
        gcongr
      calc dt * y ≤ dt * (kFactor * saturation ^ 2 * Real.sqrt (R / k.rSun / M) / I) := by gcongr
        _ = dt * (kFactor * saturation ^ 2 * Real.sqrt (R / k.rSun / M)) / I := by ring
        _ ≤ 4 := by rw [div_le_iff₀ hI]; exact hshort
    have sq : (1 - dt / 2 * y) ^ 2 ≤ 1 := by
      have : 0 ≤ dt * y := mul_nonneg hdt y0
      nlinarith
    have : ((1 - dt / 2 * y) • l).norm2 = (1 - dt / 2 * y) ^ 2 * l.norm2 := by
      simp [Axes.norm2, Axes.dot]
      ring
    rw [this]
    nlinarith [n2 l]
  rw [e]
  exact (key _).trans (key _)

end

/-! ## A star alone with a wind -/

/-- A moving star with a wind and nothing else. -/
noncomputable def windStar : Universe ℝ 1 :=
  { particles := fun _ =>
      { blank ℝ with mass := 1, massG := 1, momentOfInertia := 1, radius := 1, angularMomentum := ⟨0, 0, 3⟩,
                     inertialVelocity := ⟨1, 0, 0⟩, wind := Wind.new true 1 2 },
    evolvers := fun _ => ⟨.nonEvolving, [], [], [], [], [], 0⟩,
    consider := ⟨false, false, false, false, true, false⟩,
    grImplementation := .disabled,
    hosts := ⟨0, none, none, none, none, true, false, false, false, false⟩,
    table := fun _ => none }

theorem windStar_quiet : NoOffTorque windStar := by
  constructor <;> intro _ i <;> simp [windStar, blank] <;> rfl

section
variable (k : Consts ℝ) (m : Models ℝ)

/-- A universe like the star. -/
def Lone (v : Universe ℝ 1) : Prop := Alike v windStar ∧ ∀ j, (v.particles j).momentOfInertia = 1

theorem lone_evaluation {v : Universe ℝ 1} (hv : Lone v) (time : ℝ) (evolution dL acc : Bool) (ignore : Ignore) :
    ∃ w, calculateAdditionalEffects k m 0 time evolution dL acc ignore (inertialToHeliocentric v) = some w
      ∧ Lone w := by
  have hc : (inertialToHeliocentric v).consider = ⟨false, false, false, false, true, false⟩ := hv.1.consider
  have hh : HasHosts (inertialToHeliocentric v) := by constructor <;> rw [hc] <;> simp
  have he : (evolution && (inertialToHeliocentric v).consider.evolution) = false := by rw [hc]; simp
  have hn := (additionalEffects_none (k := k) (m := m) (eps2 := 0) (time := time) (evolution := evolution)
    (dL := dL) (acc := acc) (ignore := ignore) hh he).not
  obtain ⟨w, hw⟩ := Option.ne_none_iff_exists'.1 (hn.2 (by
    rintro ⟨j, hj⟩
    rw [helio_field Particle.momentOfInertia (fun _ => rfl) (fun _ _ => rfl), hv.2] at hj
    simp at hj))
  refine ⟨w, hw, (evaluation_alike hw).trans ((helio_alike v).trans hv.1), fun j => ?_⟩
  rw [(evaluation_radius k m he hw j).2.1, helio_field Particle.momentOfInertia (fun _ => rfl) (fun _ _ => rfl), hv.2]

theorem lone_gravity (v : Universe ℝ 1) (roche : Fin 1 → Fin 1 → ℝ) (ignore : Ignore) :
    ∃ a, Gravity.gravity k.g (fun i => bodyOf (v.particles i)) roche ignore v.hosts.mostMassive = .ok a := by
  rw [Gravity.C45_partial_goes_on_iff _ _ _ _ _ Gravity.maxDistance2_pos]
  intro i j hij
  omega

variable (roche : Fin 1 → Fin 1 → ℝ)

theorem lone_leapfrog {v : Universe ℝ 1} (hv : Lone v) (dt time : ℝ) :
    ∃ u', leapfrogStep k m 0 roche dt (dt / 2) time v = some u' := by
  obtain ⟨u1, h1, l1⟩ := lone_evaluation k m hv time true true false .none
  obtain ⟨a, ha⟩ := lone_gravity k (drift (dt / 2) u1) roche .none
  obtain ⟨u3, h3, -⟩ := lone_evaluation k m (v := { drift (dt / 2) u1 with
    particles := fun i => { (drift (dt / 2) u1).particles i with inertialAcceleration := a i } })
    ⟨⟨l1.1.consider, l1.1.hosts, l1.1.gr, l1.1.settings⟩, l1.2⟩ (time + dt / 2) true true true .none
  refine ⟨kickDrift dt (dt / 2) { u3 with particles := fun i => applyAccelerations (u3.particles i) }, ?_⟩
  unfold leapfrogStep universeGravity
  rw [h1]
  dsimp only
  rw [ha]
  dsimp only
  rw [h3]

theorem windStar_leapfrog (dt : ℝ) : ∃ u', leapfrogStep k m 0 roche dt (dt / 2) 0 windStar = some u' :=
  lone_leapfrog k m roche ⟨Alike.refl _, fun _ => rfl⟩ dt 0

theorem windStar_free : Ias15.Free Lone 1 (ias15Evaluate k m 0 roche) := by
  intro v t l hv hl
  obtain ⟨a, ha⟩ := lone_gravity k (placeAll l v) roche .none
  obtain ⟨w, hw, lw⟩ := lone_evaluation k m (v := { placeAll l v with
    particles := fun i => { (placeAll l v).particles i with inertialAcceleration := a i } })
    ⟨⟨hv.1.consider, hv.1.hosts, hv.1.gr, hv.1.settings⟩, hv.2⟩ t true true true .none
  have ev : ias15Evaluate k m 0 roche v t l = some ({ w with particles := fun i => applyAccelerations (w.particles i) },
      List.ofFn fun i => ((applyAccelerations (w.particles i)).inertialAcceleration,
        (applyAccelerations (w.particles i)).dAngularMomentumDt)) := by
    unfold ias15Evaluate universeGravity
    rw [ha]
    dsimp only
    rw [hw]
  refine ⟨_, _, ev, ⟨⟨lw.1.consider, lw.1.hosts, lw.1.gr, lw.1.settings⟩, lw.2⟩, by simp, ?_⟩
  obtain ⟨-, c⟩ := C97_evaluation hl ev
  intro q hq
  obtain ⟨i, rfl⟩ := List.mem_ofFn.1 hq
  obtain ⟨-, -, -, c4, -⟩ := c i
  dsimp only at c4 ⊢
  rw [c4, hv.1.consider]
  have : ∀ j : Fin 1, j = i := fun j => Subsingleton.elim _ _
  simp [this, additional, windStar]
  ext <;> simp

theorem lone_whfastForced (c : WHFast.Coordinates) (half : ℝ) (spin evolution : Bool) {r : WHFastRun ℝ 1}
    (hr : Lone r.world) (hl : r.errors.length = 1) :
    ∃ r', whfastForced k m 0 c half spin evolution r = some r' ∧ Lone r'.world ∧ r'.errors.length = 1 := by
  have keeps : WHFast.Keeps Lone 1 (whfastEvaluate k m 0 c spin r.time) := by
    intro v b l v' q hv _ he
    obtain ⟨e1, e2⟩ := whfastEvaluate_parts he
    obtain ⟨w, hw, lw⟩ := lone_evaluation k m (v := withMotions l v)
      ⟨⟨hv.1.consider, hv.1.hosts, hv.1.gr, hv.1.settings⟩, hv.2⟩ r.time b spin true (ignored c)
    rw [e1] at hw
    cases hw
    exact ⟨lw, by rw [e2]; simp [starFirst_length]⟩
  have total : ∀ v b l, Lone v → l.length = 1 → (whfastEvaluate k m 0 c spin r.time v b l).isSome := by
    intro v b l hv _
    obtain ⟨w, hw, lw⟩ := lone_evaluation k m (v := withMotions l v)
      ⟨⟨hv.1.consider, hv.1.hosts, hv.1.gr, hv.1.settings⟩, hv.2⟩ r.time b spin true (ignored c)
    unfold whfastEvaluate
    rw [hw]
    rfl
  have ho : ((starFirst r.world.hosts.mostMassive).map fun i => motionOf (r.world.particles i)).length = 1 := by
    simp [starFirst_length]
  have := WHFast.midpoint_defined (dt := half) (spin := spin) (evolution := evolution) keeps total ho hl hr
  obtain ⟨⟨u, final, errors⟩, e⟩ := Option.isSome_iff_exists.1 this
  obtain ⟨q1, q2, q3⟩ := (WHFast.midpoint_guarded (dt := half) (spin := spin) (evolution := evolution) keeps ho hl
    hr).2 _ _ _ e
  refine ⟨{ r with world := withMotions final u, errors := errors }, ?_, ?_, q3⟩
  · unfold whfastForced
    rw [e]
  · exact ⟨⟨q1.1.consider, q1.1.hosts, q1.1.gr, q1.1.settings⟩, q1.2⟩

theorem step_alone (c : WHFast.Coordinates) (g dt half : ℝ) (gravity : WHFast.Sys ℝ → Option (WHFast.Sys ℝ))
    (hg : ∀ v, v.planets = [] → ∃ w, gravity v = some w ∧ w.planets = []) {s : WHFast.Sys ℝ} (hs : s.planets = []) :
    ∃ s', WHFast.step c 1 g dt half gravity s = some s' := by
  have p1 : ∀ a : WHFast.AltSys ℝ, a.planets = [] → ∀ s : WHFast.Sys ℝ, ∀ t,
      ∃ a', WHFast.keplerSteps c 1 t s a = some a' ∧ a'.planets = [] := by
    intro a ha s t
    unfold WHFast.keplerSteps
    rw [ha]
    exact ⟨_, rfl, rfl⟩
  have p2 : ∀ a : WHFast.AltSys ℝ, a.planets = [] → ∀ s : WHFast.Sys ℝ, ∀ t, (WHFast.jumpStep c t s a).planets = [] := by
    intro a ha s t
    cases c <;> simp [WHFast.jumpStep, WHFast.democraticJump, WHFast.whdsJump, ha]
  have p3 : (WHFast.toAlternative c s).planets = [] := by
    cases c <;> simp [WHFast.toAlternative, WHFast.toJacobi, WHFast.toHelio, WHFast.jacobiLoop, hs]
  have p4 : ∀ a : WHFast.AltSys ℝ, a.planets = [] → (WHFast.fromAlternative c a s).planets = [] := by
    intro a ha
    cases c <;> simp [WHFast.fromAlternative, WHFast.fromJacobi, WHFast.fromHelio, ha, hs, WHFast.fromJacobiLoop]
  have p5 : ∀ a : WHFast.AltSys ℝ, a.planets = [] → ∀ s : WHFast.Sys ℝ, s.planets = [] →
      (WHFast.interactionStep c g dt s a).planets = [] := by
    intro a ha s hs
    cases c <;> simp [WHFast.interactionStep, WHFast.jacobiInteraction, WHFast.democraticInteraction,
      WHFast.whdsInteraction, ha, hs, WHFast.jacobiKick]
  unfold WHFast.step WHFast.part1
  obtain ⟨a1, e1, h1⟩ := p1 _ p3 s half
  rw [e1]
  dsimp only
  obtain ⟨w, ew, hw⟩ := hg _ (p4 _ (p2 a1 h1 s half))
  rw [ew]
  dsimp only
  unfold WHFast.part2
  dsimp only
  obtain ⟨a2, e2, h2⟩ := p1 _ (p2 _ (p5 _ (p2 a1 h1 s half) w hw) w half) w half
  rw [e2]
  exact ⟨_, rfl⟩

theorem windStar_whfast (c : WHFast.Coordinates) (dt half : ℝ) :
    ∃ r', whfastIterate k m 0 roche c 1 dt half false ⟨windStar, [⟨0, 0⟩], 0⟩ = some r' := by
  have l0 : Lone windStar := ⟨Alike.refl _, fun _ => rfl⟩
  obtain ⟨r1, h1, l1, n1⟩ := lone_whfastForced k m c half (integrateSpin windStar) true
    (r := ⟨windStar, [⟨0, 0⟩], 0⟩) l0 rfl
  obtain ⟨s, hs⟩ := step_alone c k.g dt half (whfastGravity k roche c r1.world) (by
    intro v hv
    obtain ⟨a, ha⟩ := lone_gravity k (withSystem v r1.world) roche (ignored c)
    unfold whfastGravity universeGravity
    rw [ha]
    exact ⟨_, rfl, by simp [hv]⟩) (s := system r1.world) (by
      have : ∀ h : Fin 1, ((List.finRange 1).filter fun i => decide (i ≠ h)) = [] := by
        intro h
        simp
        exact Subsingleton.elim (0 : Fin 1) h
      simp only [system, this, List.map_nil])
  obtain ⟨r2, h2, -, -⟩ := lone_whfastForced k m c half (integrateSpin windStar) false
    (r := { r1 with world := withSystem s r1.world }) ⟨⟨l1.1.consider, l1.1.hosts, l1.1.gr, l1.1.settings⟩, l1.2⟩ n1
  refine ⟨{ r2 with time := 0 + dt }, ?_⟩
  unfold whfastIterate
  simp only [Bool.false_eq_true, if_false]
  rw [h1]
  dsimp only
  rw [hs]
  dsimp only
  rw [h2]

/-- The same star with the three integrators: LeapFrog slows it down from 3 to 1.92 in one step of 0.1, IAS15 and
WHFast go on in time and leave it as it is. -/
theorem C99_violated [Ias15.FNormal ℝ] (hn : Ias15.isNormal (0 : ℝ) = false) (hk : k.rSun = 1)
    (c : WHFast.Coordinates) :
    (∃ u', leapfrogStep k m 0 roche 0.1 (0.1 / 2) 0 windStar = some u'
        ∧ (u'.particles 0).angularMomentum = ⟨0, 0, 1.92⟩)
      ∧ (∃ r' : Ias15Run ℝ 1, Ias15Step k m 0 roche ⟨windStar, fun _ => ⟨.rest 0, .rest 0, .rest 0⟩, 0, 0.1, 0⟩ r'
        ∧ r'.time = 0.1 ∧ (r'.world.particles 0).angularMomentum = ⟨0, 0, 3⟩)
      ∧ ∃ r', WHFastStep k m 0 roche c 0.1 (0.1 / 2) ⟨windStar, [⟨0, 0⟩], 0⟩ r'
        ∧ r'.time = 0.1 ∧ (r'.world.particles 0).angularMomentum = ⟨0, 0, 3⟩ := by
  refine ⟨?_, ?_, ?_⟩
  · obtain ⟨u', hu⟩ := windStar_leapfrog k m roche 0.1
    refine ⟨u', hu, ?_⟩
    have e := C99_leapfrog_partial windStar_quiet rfl rfl rfl rfl rfl hu 0 rfl (saturation := 2) (kFactor := 1)
      (by norm_num) rfl rfl (by simp [windStar, Wind.new])
    dsimp only at e
    rw [e]
    have x1 : windRate k 1 2 (windStar.particles 0).radius (windStar.particles 0).mass
        (windStar.particles 0).momentOfInertia (windStar.particles 0).angularMomentum = 4 := by
      simp only [windStar, windRate, hk]
      norm_num [Axes.norm2, Axes.dot]
    rw [x1]
    have x2 : ((1 - 0.1 / 2 * 4 : ℝ) • (windStar.particles 0).angularMomentum) = ⟨0, 0, 2.4⟩ := by
      simp only [windStar]
      ext <;> simp
      norm_num
    rw [x2]
    have x3 : windRate k 1 2 (windStar.particles 0).radius (windStar.particles 0).mass
        (windStar.particles 0).momentOfInertia ⟨0, 0, 2.4⟩ = 4 := by
      simp only [windStar, windRate, hk]
      norm_num [Axes.norm2, Axes.dot]
    rw [x3]
    ext <;> simp
    norm_num
  · have l0 : Lone windStar := ⟨Alike.refl _, fun _ => rfl⟩
    obtain ⟨s, hs, -, ts⟩ := Ias15.iterate_free (T := Ias15.tables) hn (windStar_free k m roche)
      (u := { particles := List.ofFn fun i => loaded (windStar.particles i) ⟨.rest 0, .rest 0, .rest 0⟩,
              hidden := windStar, time := 0, dt := 0.1, last := 0 }) l0 (by simp) (by norm_num) (by
        intro p hp
        obtain ⟨i, rfl⟩ := List.mem_ofFn.1 hp
        simp [loaded, Ias15.Comp.rest])
    have st : Ias15Step k m 0 roche ⟨windStar, fun _ => ⟨.rest 0, .rest 0, .rest 0⟩, 0, 0.1, 0⟩
        { world := placeAll (Ias15.places s.particles) s.hidden,
          arrays := fun i => s.particles[i.val]?.getD ⟨.rest 0, .rest 0, .rest 0⟩, time := s.time, dt := s.dt,
          last := s.last } := by
      refine ⟨1, false, ?_⟩
      unfold ias15Iterate
      simp only [Bool.false_eq_true, if_false]
      have off : integrateSpin windStar = false := rfl
      rw [off, hs]
    refine ⟨_, st, ?_, ?_⟩
    · rw [ts]
      norm_num
    · exact C99_violated_ias15 rfl rfl rfl (Or.inl rfl) (.single st) 0
  · obtain ⟨r', h⟩ := windStar_whfast k m roche c 0.1 (0.1 / 2)
    have st : WHFastStep k m 0 roche c 0.1 (0.1 / 2) ⟨windStar, [⟨0, 0⟩], 0⟩ r' := ⟨1, false, h⟩
    refine ⟨r', st, ?_, C99_violated_whfast rfl rfl rfl rfl (Or.inl rfl) (.single st) 0⟩
    obtain ⟨u, r1, s, r2, hu, h1, h2, h3, rfl⟩ := whfastStep_parts h
    norm_num

theorem windStar_closed : Closed windStar := by
  constructor <;> simp [windStar]
  all_goals constructor <;> simp

/-- The momentum of the star in an iteration of WHFast. -/
example (c : WHFast.Coordinates) : ∃ r', WHFastStep k m 0 roche c 0.1 (0.1 / 2) ⟨windStar, [⟨0, 0⟩], 0⟩ r'
    ∧ massSum r'.world Particle.inertialVelocity = ⟨1, 0, 0⟩ := by
  obtain ⟨r', h⟩ := windStar_whfast k m roche c 0.1 (0.1 / 2)
  have st : WHFastStep k m 0 roche c 0.1 (0.1 / 2) ⟨windStar, [⟨0, 0⟩], 0⟩ r' := ⟨1, false, h⟩
  refine ⟨r', st, ?_⟩
  have ap : ∀ u : Universe ℝ 1, Apart u := fun u i j hij => absurd (Subsingleton.elim i j) hij
  rw [(C98_momentum (dt := 0.1) (half := 0.1 / 2) (by norm_num) windStar_closed (fun i => by simp [windStar])
    (by simp [Centred, windStar, blank]) rfl (by simp) (ap _) (.single ⟨st, ap _⟩)).1]
  simp [massSum, windStar]

end
end Posidonius.Univ
