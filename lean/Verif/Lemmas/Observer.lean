import Verif.Spec.Observer
import Verif.Lemmas.Settings

/-! How the parts of an evaluation look to another observer. -/

namespace Posidonius.Univ
open Gravity (Ignore)
open Evolution (Evolver)

/-! ### Rotations -/

namespace Turn
variable (r : Turn)

theorem on_add (v w : Axes ℝ) : r.on v + r.on w = r.on (v + w) := by
  unfold on; rw [Axes.add_x, Axes.add_y, Axes.add_z]; module

theorem on_sub (v w : Axes ℝ) : r.on v - r.on w = r.on (v - w) := by
  unfold on; rw [Axes.sub_x, Axes.sub_y, Axes.sub_z]; module

theorem on_smul (c : ℝ) (v : Axes ℝ) : c • r.on v = r.on (c • v) := by
  unfold on; rw [Axes.smul_x, Axes.smul_y, Axes.smul_z]; module

theorem on_neg (v : Axes ℝ) : -r.on v = r.on (-v) := by
  unfold on; rw [Axes.neg_x, Axes.neg_y, Axes.neg_z]; module

theorem on_zero : r.on 0 = 0 := by
  unfold on; rw [Axes.zero_x, Axes.zero_y, Axes.zero_z]; module

theorem on_zero' : r.on Axes.zero = Axes.zero := r.on_zero

theorem on_sdiv (v : Axes ℝ) (c : ℝ) : (r.on v).sdiv c = r.on (v.sdiv c) := by
  rw [Axes.sdiv_eq_smul, Axes.sdiv_eq_smul, on_smul]

theorem on_smulRight (v : Axes ℝ) (c : ℝ) : smulRight (r.on v) c = r.on (smulRight v c) := by
  have e : ∀ v : Axes ℝ, smulRight v c = c • v := fun v => by ext <;> simp [smulRight, mul_comm]
  rw [e, e, on_smul]

theorem bc : r.b.cross (r.a.cross r.b) = r.a := by
  have h1 := r.unit_b
  have h2 := r.orthogonal
  simp only [Axes.dot] at h1 h2
  ext <;> simp
  · linear_combination r.a.x * h1 - r.b.x * h2
  · linear_combination r.a.y * h1 - r.b.y * h2
  · linear_combination r.a.z * h1 - r.b.z * h2

theorem ca : (r.a.cross r.b).cross r.a = r.b := by
  have h1 := r.unit_a
  have h2 := r.orthogonal
  simp only [Axes.dot] at h1 h2
  ext <;> simp
  · linear_combination r.b.x * h1 - r.a.x * h2
  · linear_combination r.b.y * h1 - r.a.y * h2
  · linear_combination r.b.z * h1 - r.a.z * h2

theorem unit_c : (r.a.cross r.b).dot (r.a.cross r.b) = 1 := by
  have h1 := r.unit_a
  have h2 := r.unit_b
  have h3 := r.orthogonal
  simp only [Axes.dot] at h1 h2 h3
  simp only [Axes.dot, Axes.cross_x, Axes.cross_y, Axes.cross_z]
  have e : (r.a.x * r.a.x + r.a.y * r.a.y + r.a.z * r.a.z) * (r.b.x * r.b.x + r.b.y * r.b.y + r.b.z * r.b.z)
      - (r.a.x * r.b.x + r.a.y * r.b.y + r.a.z * r.b.z) ^ 2 = 1 := by rw [h1, h2, h3]; norm_num
  linear_combination e

theorem on_dot (v w : Axes ℝ) : (r.on v).dot (r.on w) = v.dot w := by
  have h1 := r.unit_a
  have h2 := r.unit_b
  have h3 := r.orthogonal
  have h4 : r.b.dot r.a = 0 := by rw [Axes.dot_comm]; exact h3
  have h5 := r.unit_c
  have h6 := Axes.dot_cross_self_left r.a r.b
  have h7 := Axes.dot_cross_self_right r.a r.b
  have h8 : (r.a.cross r.b).dot r.a = 0 := by rw [Axes.dot_comm]; exact h6
  have h9 : (r.a.cross r.b).dot r.b = 0 := by rw [Axes.dot_comm]; exact h7
  unfold on
  simp only [Axes.dot_add, Axes.add_dot, Axes.dot_smul, Axes.smul_dot, h1, h2, h3, h4, h5, h6, h7, h8, h9]
  simp only [Axes.dot]
  ring

theorem on_norm2 (v : Axes ℝ) : (r.on v).norm2 = v.norm2 := r.on_dot v v

theorem on_cross (v w : Axes ℝ) : (r.on v).cross (r.on w) = r.on (v.cross w) := by
  have h1 := r.bc
  have h2 := r.ca
  have h3 : (r.a.cross r.b).cross r.b = -r.a := by rw [Axes.cross_comm, h1]
  have h4 : r.a.cross (r.a.cross r.b) = -r.b := by rw [Axes.cross_comm, h2]
  have h5 : r.b.cross r.a = -r.a.cross r.b := Axes.cross_comm _ _
  unfold on
  simp only [Axes.cross_add, Axes.add_cross, Axes.cross_smul, Axes.smul_cross, Axes.cross_self, h1, h2, h3, h4, h5,
    Axes.cross_x, Axes.cross_y, Axes.cross_z]
  module

theorem on_sum {ι : Type} (l : List ι) (f : ι → Axes ℝ) (a : Axes ℝ) :
    l.foldl (fun acc i => acc + r.on (f i)) (r.on a) = r.on (l.foldl (fun acc i => acc + f i) a) := by
  induction l generalizing a with
  | nil => rfl
  | cons i l ih => rw [List.foldl_cons, List.foldl_cons, on_add, ih]

end Turn

/-! ### Combinators -/

section
variable {n : Nat} {P : Type} {T : P → P}

theorem mapOthers_seen (h : Fin n) {f : P → P → P} {p : Fin n → P}
    (hf : ∀ i, i ≠ h → f (T (p h)) (T (p i)) = T (f (p h) (p i))) :
    mapOthers h f (fun i => T (p i)) = fun i => T (mapOthers h f p i) := by
  funext i
  unfold mapOthers
  split
  · rfl
  · rename_i hi; exact hf i hi

theorem mapHost_seen (h : Fin n) {f g : P → P} {p : Fin n → P} (hf : f (T (p h)) = T (g (p h))) :
    mapHost h f (fun i => T (p i)) = fun i => T (mapHost h g p i) := by
  funext i
  unfold mapHost
  split
  · rename_i hi; subst hi; exact hf
  · rfl

theorem sumOthers_seen (r : Turn) (h : Fin n) {f g : P → Axes ℝ} {p : Fin n → P}
    (hf : ∀ i, i ≠ h → f (T (p i)) = r.on (g (p i))) :
    sumOthers h f (fun i => T (p i)) = r.on (sumOthers h g p) := by
  unfold sumOthers
  rw [← r.on_sum, r.on_zero']
  have key : ∀ (l : List (Fin n)) (a : Axes ℝ), (∀ i ∈ l, i ≠ h) →
      l.foldl (fun acc i => acc + f (T (p i))) a = l.foldl (fun acc i => acc + r.on (g (p i))) a := by
    intro l
    induction l with
    | nil => intro a _; rfl
    | cons i l ih =>
      intro a hl
      rw [List.foldl_cons, List.foldl_cons, hf i (hl i (by simp)), ih _ fun j hj => hl j (by simp [hj])]
  exact key _ _ fun i hi => by simpa [others] using hi

theorem sumOthers_seen' (r : Turn) (h : Fin n) {f : P → Axes ℝ} {g : P → Axes ℝ} {p : Fin n → P}
    (hf : ∀ i, i ≠ h → f (T (p i)) = r.on (g (p i))) :
    sumOthers h f (fun i => T (p i)) = r.on (sumOthers h g p) := sumOthers_seen r h hf

end

/-! ### Tides -/

section
variable {n : Nat} (o : Observer)

/-- Rules for an observer. -/
macro "turn_simp" : tactic => `(tactic|
  simp only [Observer.sees, Turn.on_add, Turn.on_sub, Turn.on_smul, Turn.on_neg, Turn.on_zero, Turn.on_zero',
    Turn.on_sdiv, Turn.on_smulRight, Turn.on_dot, Turn.on_norm2, Turn.on_cross, add_sub_add_right_eq_sub, if_true, Bool.false_eq_true, if_false])

theorem perihelion_seen (gm : ℝ) (x v : Axes ℝ) :
    Tools.perihelionDistanceAndEccentricity gm (o.turn.on x) (o.turn.on v)
      = Tools.perihelionDistanceAndEccentricity gm x v := by
  have e : ∀ x v : Axes ℝ, Tools.perihelionDistanceAndEccentricity gm x v =
      (let s := (x.cross v).norm2 / gm
       let temp := lit 1 + s * (v.norm2 / gm - lit 2 / FOps.sqrt x.norm2)
       let e := if leb temp (lit 0) then lit 0 else FOps.sqrt temp
       (s / (lit 1 + e), e)) := fun x v => rfl
  rw [e, e, o.turn.on_cross, o.turn.on_norm2, o.turn.on_norm2, o.turn.on_norm2]

theorem meanMotion_seen (host p : Particle ℝ) : meanMotion (o.sees host) (o.sees p) = meanMotion host p := by
  unfold meanMotion
  simp only [Observer.sees, perihelion_seen]

theorem pairFactors_seen (k : Consts ℝ) (h : Fin n) (p : Fin n → Particle ℝ) (t : Table ℝ) :
    pairFactors k h (fun i => o.sees (p i)) t = pairFactors k h p t := by
  have e1 : ∀ host q t, planetDependentStep k (o.sees host) (o.sees q) t = planetDependentStep k host q t := by
    intro host q t
    unfold planetDependentStep
    rw [meanMotion_seen]
    rfl
  have e2 : ∀ host q t, hostDependentStep k (o.sees host) (o.sees q) t = hostDependentStep k host q t := by
    intro host q t
    unfold hostDependentStep
    rw [meanMotion_seen]
    rfl
  unfold pairFactors planetDependent hostDependent
  simp only [e1, e2]
  rfl

theorem orthogonalComponent_seen (t : Table ℝ) (h : Fin n) (p : Fin n → Particle ℝ) :
    orthogonalComponent t h (fun i => o.sees (p i)) = fun i => o.sees (orthogonalComponent t h p i) := by
  have e1 : ∀ host q, orthogonalStellarStep t (o.sees host) (o.sees q) = o.sees (orthogonalStellarStep t host q) := by
    intro host q
    unfold orthogonalStellarStep
    have e : (o.sees q).tides.effect.orbitingCtl = q.tides.effect.orbitingCtl := rfl
    rw [e]
    split <;> rfl
  have e2 : ∀ host q, orthogonalPlanetaryStep t (o.sees host) (o.sees q) = o.sees (orthogonalPlanetaryStep t host q) := by
    intro host q
    unfold orthogonalPlanetaryStep
    have e : (o.sees q).tides.effect.orbitingCtl = q.tides.effect.orbitingCtl := rfl
    rw [e]
    split <;> rfl
  unfold orthogonalComponent
  rw [mapOthers_seen h fun i _ => e1 _ _, mapOthers_seen h fun i _ => e2 _ _]

theorem radialComponent_seen (k : Consts ℝ) (t : Table ℝ) (h : Fin n) (p : Fin n → Particle ℝ) :
    radialComponent k t h (fun i => o.sees (p i)) = fun i => o.sees (radialComponent k t h p i) := by
  have e1 : ∀ host q, radialStep k t (o.sees host) (o.sees q) = o.sees (radialStep k t host q) := by
    intro host q
    unfold radialStep
    have e : (o.sees q).tides.effect.orbitingCtl = q.tides.effect.orbitingCtl := rfl
    rw [e]
    split <;> rfl
  unfold radialComponent
  rw [mapOthers_seen h fun i _ => e1 _ _]

theorem tidesInitialize_seen (h : Fin n) (p : Fin n → Particle ℝ) :
    tidesInitialize h (fun i => o.sees (p i)) = fun i => o.sees (tidesInitialize h p i) := by
  unfold tidesInitialize
  show (if (p h).tides.effect.isCentral then _ else _) = _
  split
  · rw [mapHost_seen h (T := o.sees) (g := fun host : Particle ℝ => { host with tides := { host.tides with
          rDotStellarSpin := lit 0, rDotPlanetarySpin := lit 0,
          acceleration := Axes.zero, dAngularMomentumDt := Axes.zero } }) (by turn_simp), mapOthers_seen]
    intro i hi
    show (if (mapHost h _ p i).tides.effect.isOrbiting then _ else _) = _
    split <;> [skip; rfl]
    turn_simp
  · rfl

theorem tidesInertialToHeliocentric_seen (h : Fin n) (p : Fin n → Particle ℝ) :
    tidesInertialToHeliocentric h (fun i => o.sees (p i)) = fun i => o.sees (tidesInertialToHeliocentric h p i) := by
  unfold tidesInertialToHeliocentric
  show (if (p h).tides.effect.isCentral then _ else _) = _
  split
  · rw [mapHost_seen h (T := o.sees) (g := fun host : Particle ℝ => { host with tides := { host.tides with
          position := Axes.zero, velocity := Axes.zero, distance := lit 0, radialVelocity := lit 0 } }) (by turn_simp),
      mapOthers_seen]
    intro i hi
    show (if (mapHost h _ p i).tides.effect.isOrbiting then _ else _) = _
    split <;> [skip; rfl]
    turn_simp
  · rfl

theorem tidesCopyHeliocentric_seen (h : Fin n) (p : Fin n → Particle ℝ) :
    tidesCopyHeliocentric h (fun i => o.sees (p i)) = fun i => o.sees (tidesCopyHeliocentric h p i) := by
  unfold tidesCopyHeliocentric
  show (if (p h).tides.effect.isCentral then _ else _) = _
  split
  · rw [mapHost_seen h (T := o.sees) (g := fun q : Particle ℝ => { q with tides := { q.tides with
    position := q.heliocentricPosition, velocity := q.heliocentricVelocity,
    distance := q.heliocentricDistance, radialVelocity := q.heliocentricRadialVelocity } }) rfl, mapOthers_seen]
    intro i hi
    show (if (mapHost h _ p i).tides.effect.isOrbiting then _ else _) = _
    split <;> rfl
  · rfl

theorem settings_effect {p q : Particle ℝ} (h : settings q = settings p) : q.tides.effect = p.tides.effect := by
  have := congrArg (fun x : Particle ℝ => x.tides.effect) h
  exact this

theorem settings_flattening {p q : Particle ℝ} (h : settings q = settings p) :
    q.flattening.effect = p.flattening.effect := by
  have := congrArg (fun x : Particle ℝ => x.flattening.effect) h
  exact this

/-- A tidal model whose forces, torques and deformations are the same for the observer. -/
structure TidalFits (m : Models ℝ) (model : TidalModel ℝ) : Prop where
  torque : ∀ host q b, tidalTorque m.tides model (o.sees host) (o.sees q) b = o.turn.on (tidalTorque m.tides model host q b)
  force : ∀ host q, tidalForce m.tides model (o.sees host) (o.sees q) = o.turn.on (tidalForce m.tides model host q)
  host : model = .kaula → ∀ host q, m.tides.kaulaForce (o.sees host) (o.sees q) true
    = o.turn.on (m.tides.kaulaForce host q true)
  shape : ∀ v, model = .creepCoplanar v → ∀ host q, m.tideShape (o.sees host) (o.sees q) = m.tideShape host q

/-- The same for all models in use. -/
def TidesFit (m : Models ℝ) (p : Fin n → Particle ℝ) : Prop :=
  ∀ i model, ((p i).tides.effect = .central model ∨ (p i).tides.effect = .orbiting model) → TidalFits o m model

theorem TidesFit.same {m : Models ℝ} {p q : Fin n → Particle ℝ} (h : TidesFit o m p) (hs : Same settings q p) :
    TidesFit o m q := fun i model hi => h i model (by
  have e : (q i).tides.effect = (p i).tides.effect := settings_effect (hs i)
  rwa [e] at hi)

theorem ctlTorque_seen (host q : Particle ℝ) (b : Bool) :
    ctlTorque (o.sees host) (o.sees q) b = o.turn.on (ctlTorque host q b) := by
  unfold ctlTorque
  cases b <;> turn_simp

theorem ctlForce_seen (host q : Particle ℝ) :
    ctlForce (o.sees host) (o.sees q) = o.turn.on (ctlForce host q) := by
  unfold ctlForce
  turn_simp

/-- The constant time lag model is the same for all observers. -/
theorem ctl_fits (m : Models ℝ) (a b c : ℝ) : TidalFits o m (.constantTimeLag a b c) :=
  ⟨ctlTorque_seen o, ctlForce_seen o, (fun h => by cases h), (fun v h => by cases h)⟩

theorem tidesShapes_seen {m : Models ℝ} {h : Fin n} {p : Fin n → Particle ℝ} (hm : TidesFit o m p) :
    tidesShapes m h (fun i => o.sees (p i)) = fun i => o.sees (tidesShapes m h p i) := by
  unfold tidesShapes
  refine mapOthers_seen h fun i _ => ?_
  show (if eqb (p i).tides.effect.viscosity (lit 0) then _ else _) = _
  split
  · rfl
  · rename_i hv
    have hc : ∃ v, (p i).tides.effect = .central (.creepCoplanar v) ∨ (p i).tides.effect = .orbiting (.creepCoplanar v) := by
      unfold TidesEffect.viscosity at hv
      split at hv
      · exact ⟨_, .inl (by assumption)⟩
      · exact ⟨_, .inr (by assumption)⟩
      · exact absurd (by simp) hv
    obtain ⟨v, hc⟩ := hc
    rw [(hm i _ hc).shape v rfl]
    rfl

theorem companionTidalDL_seen {m : Models ℝ} {p : Fin n → Particle ℝ} (hm : TidesFit o m p) (host : Particle ℝ) (i : Fin n) :
    companionTidalDL m.tides (o.sees host) (o.sees (p i)) = o.sees (companionTidalDL m.tides host (p i)) := by
  unfold companionTidalDL
  have e : (o.sees (p i)).tides.effect = (p i).tides.effect := rfl
  rw [e]
  split
  · rename_i model hi
    rw [(hm i model (.inr hi)).torque]
    turn_simp
  · rfl

theorem hostTidalDLTerm_seen {m : Models ℝ} {p : Fin n → Particle ℝ} (hm : TidesFit o m p) (h : Fin n) (q : Particle ℝ) :
    hostTidalDLTerm m.tides (o.sees (p h)) (o.sees q) = o.turn.on (hostTidalDLTerm m.tides (p h) q) := by
  unfold hostTidalDLTerm
  have e : (o.sees (p h)).tides.effect = (p h).tides.effect := rfl
  rw [e]
  split
  · rename_i model hi
    rw [(hm h model (.inl hi)).torque]
    turn_simp
  · turn_simp

theorem tidalDL_seen {m : Models ℝ} {h : Fin n} {p : Fin n → Particle ℝ} (hm : TidesFit o m p) :
    tidalDL m.tides h (fun i => o.sees (p i)) = fun i => o.sees (tidalDL m.tides h p i) := by
  unfold tidalDL
  dsimp only
  have s1 : Same settings (mapOthers h (companionTidalDL m.tides) p) p :=
    mapOthers_frame _ (fun a b => by unfold companionTidalDL; split <;> rfl) (Same.refl _)
  have hm1 := TidesFit.same o hm s1
  rw [mapOthers_seen h (T := o.sees) (p := p) fun i _ => companionTidalDL_seen o hm _ i]
  refine mapHost_seen h ?_
  dsimp only
  rw [sumOthers_seen o.turn h (T := o.sees) (g := hostTidalDLTerm m.tides (mapOthers h (companionTidalDL m.tides) p h))
    fun i _ => hostTidalDLTerm_seen o hm1 h _]
  rfl

theorem companionTidalForce_seen {m : Models ℝ} {p : Fin n → Particle ℝ} (hm : TidesFit o m p) (host : Particle ℝ) (i : Fin n) :
    companionTidalForce m.tides (o.sees host) (o.sees (p i)) = o.turn.on (companionTidalForce m.tides host (p i)) := by
  unfold companionTidalForce
  have e : (o.sees (p i)).tides.effect = (p i).tides.effect := rfl
  rw [e]
  split
  · rename_i model hi
    rw [(hm i model (.inr hi)).force]
  · turn_simp

theorem companionTidalAcceleration_seen {m : Models ℝ} {p : Fin n → Particle ℝ} (hm : TidesFit o m p)
    (host : Particle ℝ) (i : Fin n) : companionTidalAcceleration m.tides (o.sees host) (o.sees (p i))
      = o.sees (companionTidalAcceleration m.tides host (p i)) := by
  unfold companionTidalAcceleration
  have e : (o.sees (p i)).tides.effect = (p i).tides.effect := rfl
  rw [e]
  split
  · rename_i model hi
    rw [(hm i model (.inr hi)).force]
    turn_simp
  · rfl

theorem kaulaHostStep_seen {m : Models ℝ} (hm : TidalFits o m .kaula) (host q : Particle ℝ) :
    kaulaHostStep m.tides (o.sees host) (o.sees q)
      = (o.sees (kaulaHostStep m.tides host q).1, o.sees (kaulaHostStep m.tides host q).2) := by
  unfold kaulaHostStep
  rw [hm.host rfl]
  turn_simp

theorem tidalAcceleration_seen {m : Models ℝ} {h : Fin n} {p : Fin n → Particle ℝ} (hm : TidesFit o m p) :
    tidalAcceleration m.tides h (fun i => o.sees (p i)) = fun i => o.sees (tidalAcceleration m.tides h p i) := by
  unfold tidalAcceleration
  dsimp only
  have e : (o.sees (p h)).tides.effect = (p h).tides.effect := rfl
  rw [e, mapOthers_seen h (T := o.sees) (p := p) fun i _ => companionTidalAcceleration_seen o hm _ i,
    sumOthers_seen' o.turn h (T := o.sees) (p := p) (g := companionTidalForce m.tides (p h))
      fun i _ => companionTidalForce_seen o hm _ i]
  rw [mapHost_seen h (T := o.sees) (g := fun host : Particle ℝ => { host with tides := { host.tides with
    acceleration := (lit (-1) * (lit 1 / host.mass)) • sumOthers h (companionTidalForce m.tides (p h)) p } })
    (by turn_simp)]
  split
  · rename_i hk
    have key : ∀ (l : List (Fin n)) (q : Fin n → Particle ℝ),
        l.foldl (fun q i =>
          let r := kaulaHostStep m.tides (q h) (q i)
          fun j => if j = h then r.1 else if j = i then r.2 else q j) (fun i => o.sees (q i))
        = fun i => o.sees (l.foldl (fun q i =>
          let r := kaulaHostStep m.tides (q h) (q i)
          fun j => if j = h then r.1 else if j = i then r.2 else q j) q i) := by
      intro l
      induction l with
      | nil => intro q; rfl
      | cons i l ih =>
        intro q
        rw [List.foldl_cons, List.foldl_cons, ← ih]
        congr 1
        funext j
        dsimp only
        rw [kaulaHostStep_seen o (hm h _ (.inl hk))]
        split
        · rfl
        · split <;> rfl
    refine (key (others h) _).trans ?_
    simp only [hk]
  · rfl

/-! ### Flattening -/

theorem flatteningOrthogonal_seen (h : Fin n) (p : Fin n → Particle ℝ) :
    flatteningOrthogonal h (fun i => o.sees (p i)) = fun i => o.sees (flatteningOrthogonal h p i) := by
  have e1 : ∀ host q, oblateStarStep (o.sees host) (o.sees q) = o.sees (oblateStarStep host q) := by
    intro host q
    unfold oblateStarStep
    have e : (o.sees q).flattening.effect = q.flattening.effect := rfl
    rw [e]
    split <;> rfl
  have e2 : ∀ host q, oblatePlanetStep (o.sees host) (o.sees q) = o.sees (oblatePlanetStep host q) := by
    intro host q
    unfold oblatePlanetStep
    have e : (o.sees q).flattening.effect = q.flattening.effect := rfl
    rw [e]
    split <;> rfl
  unfold flatteningOrthogonal
  rw [mapOthers_seen h fun i _ => e1 _ _, mapOthers_seen h fun i _ => e2 _ _]

theorem flatteningRadial_seen (h : Fin n) (p : Fin n → Particle ℝ) :
    flatteningRadial h (fun i => o.sees (p i)) = fun i => o.sees (flatteningRadial h p i) := by
  unfold flatteningRadial
  refine mapOthers_seen h fun i _ => ?_
  unfold flatteningRadialStep
  have e : (o.sees (p i)).flattening.effect = (p i).flattening.effect := rfl
  rw [e]
  split <;> rfl

theorem flatteningInitialize_seen (h : Fin n) (p : Fin n → Particle ℝ) :
    flatteningInitialize h (fun i => o.sees (p i)) = fun i => o.sees (flatteningInitialize h p i) := by
  unfold flatteningInitialize
  show (if (p h).flattening.effect.isCentral then _ else _) = _
  split
  · rw [mapHost_seen h (T := o.sees) (g := fun host : Particle ℝ => { host with flattening := { host.flattening with
          rDotStellarSpin := lit 0, rDotPlanetarySpin := lit 0,
          acceleration := Axes.zero, dAngularMomentumDt := Axes.zero } }) (by turn_simp), mapOthers_seen]
    intro i hi
    show (if (mapHost h _ p i).flattening.effect.isOrbiting then _ else _) = _
    split <;> [skip; rfl]
    turn_simp
  · rfl

theorem flatteningInertialToHeliocentric_seen (h : Fin n) (p : Fin n → Particle ℝ) :
    flatteningInertialToHeliocentric h (fun i => o.sees (p i))
      = fun i => o.sees (flatteningInertialToHeliocentric h p i) := by
  unfold flatteningInertialToHeliocentric
  show (if (p h).flattening.effect.isCentral then _ else _) = _
  split
  · rw [mapHost_seen h (T := o.sees) (g := fun host : Particle ℝ => { host with flattening := { host.flattening with
          position := Axes.zero, velocity := Axes.zero, distance := lit 0 } }) (by turn_simp), mapOthers_seen]
    intro i hi
    show (if (mapHost h _ p i).flattening.effect.isOrbiting then _ else _) = _
    split <;> [skip; rfl]
    turn_simp
  · rfl

theorem flatteningCopyHeliocentric_seen (h : Fin n) (p : Fin n → Particle ℝ) :
    flatteningCopyHeliocentric h (fun i => o.sees (p i)) = fun i => o.sees (flatteningCopyHeliocentric h p i) := by
  unfold flatteningCopyHeliocentric
  show (if (p h).flattening.effect.isCentral then _ else _) = _
  split
  · rw [mapHost_seen h (T := o.sees) (g := fun q : Particle ℝ => { q with flattening := { q.flattening with
    position := q.heliocentricPosition, velocity := q.heliocentricVelocity,
    distance := q.heliocentricDistance } }) rfl, mapOthers_seen]
    intro i hi
    show (if (mapHost h _ p i).flattening.effect.isOrbiting then _ else _) = _
    split <;> rfl
  · rfl

/-- A model of the flattening that is the same for the observer. -/
structure FlatteningFits (m : Models ℝ) (model : FlatteningModel ℝ) : Prop where
  torque : ∀ host q b, flatteningTorque m.flattening model (o.sees host) (o.sees q) b
    = o.turn.on (flatteningTorque m.flattening model host q b)
  force : ∀ host q, flatteningForce m.flattening model (o.sees host) (o.sees q)
    = o.turn.on (flatteningForce m.flattening model host q)
  shape : ∀ v, model = .creepCoplanar v → ∀ host q, m.flatteningShape (o.sees host) (o.sees q) = m.flatteningShape host q

/-- The same for all models in use. -/
def FlatteningFit (m : Models ℝ) (p : Fin n → Particle ℝ) : Prop :=
  ∀ i model, ((p i).flattening.effect = .central model ∨ (p i).flattening.effect = .orbiting model) →
    FlatteningFits o m model

theorem FlatteningFit.same {m : Models ℝ} {p q : Fin n → Particle ℝ} (h : FlatteningFit o m p) (hs : Same settings q p) :
    FlatteningFit o m q := fun i model hi => h i model (by
  have e : (q i).flattening.effect = (p i).flattening.effect := settings_flattening (hs i)
  rwa [e] at hi)

/-- The oblate spheroid is the same for all observers. -/
theorem oblate_fits (m : Models ℝ) (a : ℝ) : FlatteningFits o m (.oblateSpheroid a) := by
  refine ⟨fun host q b => ?_, fun host q => ?_, fun v h => by cases h⟩
  · show oblateTorque _ _ b = o.turn.on (oblateTorque _ _ b)
    unfold oblateTorque
    cases b <;> turn_simp
  · show oblateForce _ _ = o.turn.on (oblateForce _ _)
    unfold oblateForce
    turn_simp

theorem flatteningShapes_seen {m : Models ℝ} {h : Fin n} {p : Fin n → Particle ℝ} (hm : FlatteningFit o m p) :
    flatteningShapes m h (fun i => o.sees (p i)) = fun i => o.sees (flatteningShapes m h p i) := by
  unfold flatteningShapes
  refine mapOthers_seen h fun i _ => ?_
  show (if eqb (p i).flattening.effect.viscosity (lit 0) then _ else _) = _
  split
  · rfl
  · rename_i hv
    have hc : ∃ v, (p i).flattening.effect = .central (.creepCoplanar v)
        ∨ (p i).flattening.effect = .orbiting (.creepCoplanar v) := by
      unfold FlatteningEffect.viscosity at hv
      split at hv
      · exact ⟨_, .inl (by assumption)⟩
      · exact ⟨_, .inr (by assumption)⟩
      · exact absurd (by simp) hv
    obtain ⟨v, hc⟩ := hc
    rw [(hm i _ hc).shape v rfl]
    rfl

theorem flatteningDL_seen {m : Models ℝ} {h : Fin n} {p : Fin n → Particle ℝ} (hm : FlatteningFit o m p) :
    flatteningDL m.flattening h (fun i => o.sees (p i)) = fun i => o.sees (flatteningDL m.flattening h p i) := by
  have e1 : ∀ i, companionFlatteningDL m.flattening (o.sees (p h)) (o.sees (p i))
      = o.sees (companionFlatteningDL m.flattening (p h) (p i)) := by
    intro i
    unfold companionFlatteningDL
    have e : (o.sees (p i)).flattening.effect = (p i).flattening.effect := rfl
    rw [e]
    split
    · rename_i model hi
      rw [(hm i model (.inr hi)).torque]
      turn_simp
    · rfl
  have e2 : ∀ (p : Fin n → Particle ℝ) (q : Particle ℝ), FlatteningFit o m p →
      hostFlatteningDLTerm m.flattening (o.sees (p h)) (o.sees q)
      = o.turn.on (hostFlatteningDLTerm m.flattening (p h) q) := by
    intro p q hm
    unfold hostFlatteningDLTerm
    have e : (o.sees (p h)).flattening.effect = (p h).flattening.effect := rfl
    rw [e]
    split
    · rename_i model hi
      rw [(hm h model (.inl hi)).torque]
      turn_simp
    · turn_simp
  have s1 : Same settings (mapOthers h (companionFlatteningDL m.flattening) p) p :=
    mapOthers_frame _ (fun a b => by unfold companionFlatteningDL; split <;> rfl) (Same.refl _)
  have hm1 := FlatteningFit.same o hm s1
  unfold flatteningDL
  dsimp only
  rw [mapOthers_seen h (T := o.sees) (p := p) fun i _ => e1 i]
  refine mapHost_seen h ?_
  dsimp only
  rw [sumOthers_seen o.turn h (T := o.sees)
    (g := hostFlatteningDLTerm m.flattening (mapOthers h (companionFlatteningDL m.flattening) p h))
    fun i _ => e2 _ _ hm1]
  rfl

theorem flatteningAcceleration_seen {m : Models ℝ} {h : Fin n} {p : Fin n → Particle ℝ} (hm : FlatteningFit o m p) :
    flatteningAcceleration m.flattening h (fun i => o.sees (p i))
      = fun i => o.sees (flatteningAcceleration m.flattening h p i) := by
  have e1 : ∀ i, companionFlatteningAcceleration m.flattening (o.sees (p h)) (o.sees (p i))
      = o.sees (companionFlatteningAcceleration m.flattening (p h) (p i)) := by
    intro i
    unfold companionFlatteningAcceleration
    have e : (o.sees (p i)).flattening.effect = (p i).flattening.effect := rfl
    rw [e]
    split
    · rename_i model hi
      rw [(hm i model (.inr hi)).force]
      turn_simp
    · rfl
  have e2 : ∀ i, companionFlatteningForce m.flattening (o.sees (p h)) (o.sees (p i))
      = o.turn.on (companionFlatteningForce m.flattening (p h) (p i)) := by
    intro i
    unfold companionFlatteningForce
    have e : (o.sees (p i)).flattening.effect = (p i).flattening.effect := rfl
    rw [e]
    split
    · rename_i model hi
      rw [(hm i model (.inr hi)).force]
    · turn_simp
  unfold flatteningAcceleration
  dsimp only
  rw [mapOthers_seen h (T := o.sees) (p := p) fun i _ => e1 i,
    sumOthers_seen' o.turn h (T := o.sees) (p := p) (g := companionFlatteningForce m.flattening (p h)) fun i _ => e2 i]
  refine mapHost_seen h ?_
  turn_simp

/-! ### Wind -/

theorem windInitialize_seen (q : Particle ℝ) : windInitialize (o.sees q) = o.sees (windInitialize q) := by
  unfold windInitialize
  have e : (o.sees q).wind.interaction = q.wind.interaction := rfl
  rw [e]
  split
  · turn_simp
  · rfl

theorem windFactor_seen (k : Consts ℝ) (q : Particle ℝ) : windFactor k (o.sees q) = o.sees (windFactor k q) := by
  have key : ∀ (c : Prop) [Decidable c] (a b d : ℝ) (f s r : ℝ) (w : Axes ℝ),
      (⟨if c then a * f * w.x * s * r else b * f * w.x * d * r, if c then a * f * w.y * s * r else b * f * w.y * d * r,
        if c then a * f * w.z * s * r else b * f * w.z * d * r⟩ : Axes ℝ)
      = (if c then a * f * s * r else b * f * d * r) • w := by
    intro c _ a b d f s r w
    split <;> ext <;> simp only [Axes.smul_x, Axes.smul_y, Axes.smul_z] <;> ring
  unfold windFactor
  have e : (o.sees q).wind.interaction = q.wind.interaction := rfl
  rw [e]
  split
  · dsimp only
    rw [key, key]
    turn_simp
    rfl
  · rfl

end
end Posidonius.Univ
