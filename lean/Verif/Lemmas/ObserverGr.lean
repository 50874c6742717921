import Verif.Lemmas.Observer

/-! How relativity, the disk and a whole evaluation look to another observer. -/

namespace Posidonius.Univ
open Gravity (Ignore)
open Evolution (Evolver)

section
variable {n : Nat} (o : Observer)

/-! ### Relativity -/

theorem grInitialize_seen (h : Fin n) (p : Fin n → Particle ℝ) :
    grInitialize h (fun i => o.sees (p i)) = fun i => o.sees (grInitialize h p i) := by
  have e : (o.sees (p h)).gr.effect = (p h).gr.effect := rfl
  have key : mapOthers h (fun host q : Particle ℝ =>
        if q.gr.effect.isOrbiting then
          { q with gr := { q.gr with
              factor := host.massG * q.massG / ipow (host.massG + q.massG) 2,
              acceleration := Axes.zero, dAngularMomentumDt := Axes.zero } }
        else q)
      (mapHost h (fun host : Particle ℝ => { host with gr := { host.gr with
          factor := lit 0, acceleration := Axes.zero, dAngularMomentumDt := Axes.zero } }) (fun i => o.sees (p i)))
      = fun i => o.sees (mapOthers h (fun host q : Particle ℝ =>
        if q.gr.effect.isOrbiting then
          { q with gr := { q.gr with
              factor := host.massG * q.massG / ipow (host.massG + q.massG) 2,
              acceleration := Axes.zero, dAngularMomentumDt := Axes.zero } }
        else q)
      (mapHost h (fun host : Particle ℝ => { host with gr := { host.gr with
          factor := lit 0, acceleration := Axes.zero, dAngularMomentumDt := Axes.zero } }) p) i) := by
    rw [mapHost_seen h (T := o.sees) (g := fun host : Particle ℝ => { host with gr := { host.gr with
          factor := lit 0, acceleration := Axes.zero, dAngularMomentumDt := Axes.zero } }) (by turn_simp), mapOthers_seen]
    intro i hi
    show (if (mapHost h _ p i).gr.effect.isOrbiting then _ else _) = _
    split <;> [skip; rfl]
    turn_simp
  unfold grInitialize
  rw [e]
  generalize (p h).gr.effect.implementation? = x
  rcases x with _ | x
  · rfl
  · cases x <;> first | exact key | rfl

theorem grInertialToHeliocentric_seen (h : Fin n) (p : Fin n → Particle ℝ) :
    grInertialToHeliocentric h (fun i => o.sees (p i)) = fun i => o.sees (grInertialToHeliocentric h p i) := by
  have e : (o.sees (p h)).gr.effect = (p h).gr.effect := rfl
  unfold grInertialToHeliocentric
  rw [e]
  have key : mapOthers h (fun host q : Particle ℝ =>
        if q.gr.effect.isOrbiting then
          let position := q.inertialPosition - host.inertialPosition
          let velocity := q.inertialVelocity - host.inertialVelocity
          let distance := FOps.sqrt position.norm2
          let v2 := (velocity - host.gr.velocity).norm2
          { q with gr := { q.gr with
              position := position, velocity := velocity, distance := distance,
              radialVelocity := position.dot velocity / distance,
              normVelocity2 := v2, normVelocity := FOps.sqrt v2 } }
        else q)
      (mapHost h (fun host : Particle ℝ => { host with gr := { host.gr with
          position := Axes.zero, velocity := Axes.zero, distance := lit 0, radialVelocity := lit 0,
          normVelocity := lit 0, normVelocity2 := lit 0 } }) fun i => o.sees (p i))
      = fun i => o.sees (mapOthers h (fun host q : Particle ℝ =>
        if q.gr.effect.isOrbiting then
          let position := q.inertialPosition - host.inertialPosition
          let velocity := q.inertialVelocity - host.inertialVelocity
          let distance := FOps.sqrt position.norm2
          let v2 := (velocity - host.gr.velocity).norm2
          { q with gr := { q.gr with
              position := position, velocity := velocity, distance := distance,
              radialVelocity := position.dot velocity / distance,
              normVelocity2 := v2, normVelocity := FOps.sqrt v2 } }
        else q)
      (mapHost h (fun host : Particle ℝ => { host with gr := { host.gr with
          position := Axes.zero, velocity := Axes.zero, distance := lit 0, radialVelocity := lit 0,
          normVelocity := lit 0, normVelocity2 := lit 0 } }) p) i) := by
    rw [mapHost_seen h (T := o.sees) (g := fun host : Particle ℝ => { host with gr := { host.gr with
          position := Axes.zero, velocity := Axes.zero, distance := lit 0, radialVelocity := lit 0,
          normVelocity := lit 0, normVelocity2 := lit 0 } }) (by turn_simp), mapOthers_seen]
    intro i hi
    show (if (mapHost h _ p i).gr.effect.isOrbiting then _ else _) = _
    split <;> [skip; rfl]
    turn_simp
  generalize (p h).gr.effect.implementation? = x
  rcases x with _ | x
  · rfl
  · cases x <;> first | exact key | rfl

theorem grCopyHeliocentric_seen (h : Fin n) (p : Fin n → Particle ℝ) :
    grCopyHeliocentric h (fun i => o.sees (p i)) = fun i => o.sees (grCopyHeliocentric h p i) := by
  have e : (o.sees (p h)).gr.effect = (p h).gr.effect := rfl
  unfold grCopyHeliocentric
  dsimp only
  rw [e]
  have key : mapOthers h (fun _ q : Particle ℝ => if q.gr.effect.isOrbiting then
        { q with gr := { q.gr with
    position := q.heliocentricPosition, velocity := q.heliocentricVelocity,
    distance := q.heliocentricDistance, radialVelocity := q.heliocentricRadialVelocity,
    normVelocity := q.heliocentricNormVelocity, normVelocity2 := q.heliocentricNormVelocity2 } } else q)
      (mapHost h (fun q : Particle ℝ => { q with gr := { q.gr with
    position := q.heliocentricPosition, velocity := q.heliocentricVelocity,
    distance := q.heliocentricDistance, radialVelocity := q.heliocentricRadialVelocity,
    normVelocity := q.heliocentricNormVelocity, normVelocity2 := q.heliocentricNormVelocity2 } }) fun i => o.sees (p i))
      = fun i => o.sees (mapOthers h (fun _ q : Particle ℝ => if q.gr.effect.isOrbiting then
        { q with gr := { q.gr with
    position := q.heliocentricPosition, velocity := q.heliocentricVelocity,
    distance := q.heliocentricDistance, radialVelocity := q.heliocentricRadialVelocity,
    normVelocity := q.heliocentricNormVelocity, normVelocity2 := q.heliocentricNormVelocity2 } } else q)
      (mapHost h (fun q : Particle ℝ => { q with gr := { q.gr with
    position := q.heliocentricPosition, velocity := q.heliocentricVelocity,
    distance := q.heliocentricDistance, radialVelocity := q.heliocentricRadialVelocity,
    normVelocity := q.heliocentricNormVelocity, normVelocity2 := q.heliocentricNormVelocity2 } }) p) i) := by
    rw [mapHost_seen h (T := o.sees) (g := fun q : Particle ℝ => { q with gr := { q.gr with
    position := q.heliocentricPosition, velocity := q.heliocentricVelocity,
    distance := q.heliocentricDistance, radialVelocity := q.heliocentricRadialVelocity,
    normVelocity := q.heliocentricNormVelocity, normVelocity2 := q.heliocentricNormVelocity2 } }) rfl, mapOthers_seen]
    intro i hi
    show (if (mapHost h _ p i).gr.effect.isOrbiting then _ else _) = _
    split <;> rfl
  generalize (p h).gr.effect.implementation? = x
  rcases x with _ | x
  · rfl
  · cases x <;> first | exact key | rfl

theorem rotationalMomentum_seen (q : Particle ℝ) :
    rotationalMomentum (o.sees q) = o.turn.on (rotationalMomentum q) := by
  unfold rotationalMomentum
  turn_simp

theorem kidderFirstOrder_seen (k : Consts ℝ) (host q : Particle ℝ) :
    kidderFirstOrder k (o.sees host) (o.sees q) = o.turn.on (kidderFirstOrder k host q) := by
  unfold kidderFirstOrder
  turn_simp

theorem kidderSecondOrder_seen (k : Consts ℝ) (host q : Particle ℝ) :
    kidderSecondOrder k (o.sees host) (o.sees q) = o.turn.on (kidderSecondOrder k host q) := by
  unfold kidderSecondOrder
  turn_simp

theorem newtonianOrbitalMomentum_seen (host q : Particle ℝ) :
    newtonianOrbitalMomentum (o.sees host) (o.sees q) = o.turn.on (newtonianOrbitalMomentum host q) := by
  unfold newtonianOrbitalMomentum
  turn_simp

theorem kidderHostTorque_seen (k : Consts ℝ) (host q : Particle ℝ) :
    kidderHostTorque k (o.sees host) (o.sees q) = o.turn.on (kidderHostTorque k host q) := by
  unfold kidderHostTorque
  rw [rotationalMomentum_seen, rotationalMomentum_seen, newtonianOrbitalMomentum_seen]
  turn_simp

theorem kidderCompanionTorque_seen (k : Consts ℝ) (host q : Particle ℝ) :
    kidderCompanionTorque k (o.sees host) (o.sees q) = o.turn.on (kidderCompanionTorque k host q) := by
  unfold kidderCompanionTorque
  rw [rotationalMomentum_seen, rotationalMomentum_seen, newtonianOrbitalMomentum_seen]
  turn_simp

/-- Componentwise products are the same for the observer. -/
def Turn.Componentwise (r : Turn) : Prop := ∀ v w, hadamard (r.on v) (r.on w) = r.on (hadamard v w)

theorem kidderSpinOrbit_seen (hh : o.turn.Componentwise) (k : Consts ℝ) (host q : Particle ℝ) :
    kidderSpinOrbit k (o.sees host) (o.sees q) = o.turn.on (kidderSpinOrbit k host q) := by
  unfold kidderSpinOrbit
  rw [rotationalMomentum_seen, rotationalMomentum_seen]
  turn_simp
  rw [hh, hh]
  turn_simp

theorem recoilTerm_seen {a : Particle ℝ → Particle ℝ → Axes ℝ} (ha : ∀ host q, a (o.sees host) (o.sees q) = o.turn.on (a host q))
    (host q : Particle ℝ) : recoilTerm a (o.sees host) (o.sees q) = o.turn.on (recoilTerm a host q) := by
  unfold recoilTerm
  rw [ha]
  have e : (o.sees q).gr.effect = q.gr.effect := rfl
  rw [e]
  split <;> turn_simp

theorem kidderFirst_seen (k : Consts ℝ) (h : Fin n) (p : Fin n → Particle ℝ) :
    kidderFirst k h (fun i => o.sees (p i)) = fun i => o.sees (kidderFirst k h p i) := by
  unfold kidderFirst
  dsimp only
  rw [sumOthers_seen' o.turn h (T := o.sees) (g := recoilTerm (kidderFirstOrder k) (p h))
    fun i _ => recoilTerm_seen o (kidderFirstOrder_seen o k) _ _]
  rw [mapOthers_seen h (T := o.sees) (p := p)]
  · refine mapHost_seen h ?_
    turn_simp
  · intro i _
    rw [kidderFirstOrder_seen]
    show (if (p i).gr.effect.isOrbiting then _ else _) = _
    split <;> rfl

theorem kidderSecond_seen (k : Consts ℝ) (h : Fin n) (p : Fin n → Particle ℝ) :
    kidderSecond k h (fun i => o.sees (p i)) = fun i => o.sees (kidderSecond k h p i) := by
  unfold kidderSecond
  dsimp only
  rw [sumOthers_seen' o.turn h (T := o.sees) (g := recoilTerm (kidderSecondOrder k) (p h))
    fun i _ => recoilTerm_seen o (kidderSecondOrder_seen o k) _ _]
  rw [mapOthers_seen h (T := o.sees) (p := p)]
  · refine mapHost_seen h ?_
    turn_simp
  · intro i _
    rw [kidderSecondOrder_seen]
    show (if (p i).gr.effect.isOrbiting then _ else _) = _
    split
    · turn_simp
    · rfl

theorem kidderThird_seen (hh : o.turn.Componentwise) (k : Consts ℝ) (h : Fin n) (p : Fin n → Particle ℝ) :
    kidderThird k h (fun i => o.sees (p i)) = fun i => o.sees (kidderThird k h p i) := by
  have e2 : ∀ q, hostTorqueTerm k (o.sees (p h)) (o.sees q) = o.turn.on (hostTorqueTerm k (p h) q) := by
    intro q
    unfold hostTorqueTerm
    rw [kidderHostTorque_seen]
    have e : (o.sees q).gr.effect = q.gr.effect := rfl
    rw [e]
    split <;> turn_simp
  unfold kidderThird
  dsimp only
  rw [sumOthers_seen' o.turn h (T := o.sees) (g := recoilTerm (kidderSpinOrbit k) (p h))
    fun i _ => recoilTerm_seen o (kidderSpinOrbit_seen o hh k) _ _,
    sumOthers_seen' o.turn h (T := o.sees) (g := hostTorqueTerm k (p h)) fun i _ => e2 _]
  rw [mapOthers_seen h (T := o.sees) (p := p)]
  · refine mapHost_seen h ?_
    turn_simp
  · intro i _
    rw [kidderSpinOrbit_seen o hh, kidderCompanionTorque_seen]
    show (if (p i).gr.effect.isOrbiting then _ else _) = _
    split
    · turn_simp
    · rfl

theorem kidder_seen (hh : o.turn.Componentwise) (k : Consts ℝ) (h : Fin n) (p : Fin n → Particle ℝ) :
    kidder k h (fun i => o.sees (p i)) = fun i => o.sees (kidder k h p i) := by
  unfold kidder
  rw [kidderFirst_seen, kidderSecond_seen, kidderThird_seen o hh]

/-- The terms for WHFast contain the place of the host. -/
theorem newtonianAccelerations_seen (k : Consts ℝ) {ignore : Ignore} (hp : ignore = .none ∨ o.place = 0) (h : Fin n)
    (p : Fin n → Particle ℝ) : newtonianAccelerations k ignore h (fun i => o.sees (p i))
      = fun i => o.turn.on (newtonianAccelerations k ignore h p i) := by
  rcases hp with rfl | hp
  · rfl
  · have key : ∀ (l : List (Fin n)) (a : Fin n → Axes ℝ),
        l.foldl (fun a i =>
          let d := (o.sees (p h)).inertialPosition - (o.sees (p i)).gr.position
          let r2 := d.norm2
          let r := FOps.sqrt r2
          let prefac := k.g / (r2 * r)
          fun j => if j = h then a j - (prefac * (o.sees (p i)).mass) • d
            else if j = i then a j + (prefac * (o.sees (p h)).mass) • d else a j) (fun j => o.turn.on (a j))
        = fun j => o.turn.on (l.foldl (fun a i =>
          let d := (p h).inertialPosition - (p i).gr.position
          let r2 := d.norm2
          let r := FOps.sqrt r2
          let prefac := k.g / (r2 * r)
          fun j => if j = h then a j - (prefac * (p i).mass) • d
            else if j = i then a j + (prefac * (p h).mass) • d else a j) a j) := by
      intro l
      induction l with
      | nil => intro a; rfl
      | cons i l ih =>
        intro a
        rw [List.foldl_cons, List.foldl_cons, ← ih]
        congr 1
        funext j
        dsimp only
        simp only [Observer.sees, hp, add_zero]
        split
        · turn_simp
        · split <;> turn_simp
    unfold newtonianAccelerations
    exact key _ _

theorem toJacobi_seen (h : Fin n) {p : Fin n → Particle ℝ} (hm : ∀ i, 0 < (p i).mass) (a : Fin n → Axes ℝ) :
    (toJacobi h (fun i => o.sees (p i)) (fun i => o.turn.on (a i))).eta = (toJacobi h p a).eta
      ∧ (∀ i, (toJacobi h (fun i => o.sees (p i)) (fun i => o.turn.on (a i))).position i
        = o.turn.on ((toJacobi h p a).position i))
      ∧ (∀ i, (toJacobi h (fun i => o.sees (p i)) (fun i => o.turn.on (a i))).velocity i
        = o.turn.on ((toJacobi h p a).velocity i))
      ∧ (∀ i, (toJacobi h (fun i => o.sees (p i)) (fun i => o.turn.on (a i))).acceleration i
        = o.turn.on ((toJacobi h p a).acceleration i)) := by
  have cancel : ∀ (r s c : Axes ℝ) (e : ℝ), 0 < e →
      r + c - smulRight (s + e • c) (lit 1 / e) = r - smulRight s (lit 1 / e) := by
    intro r s c e he
    ext <;> simp [smulRight] <;> field_simp <;> ring
  have grow : ∀ (s c x : Axes ℝ) (e m : ℝ), 0 < e →
      smulRight (s + e • c) ((e + m) * (lit 1 / e)) + m • x = (smulRight s ((e + m) * (lit 1 / e)) + m • x) + (e + m) • c := by
    intro s c x e m he
    ext <;> simp [smulRight] <;> field_simp <;> ring
  have key : ∀ (l : List (Fin n)) (s' s : Jacobi ℝ n), s'.eta = s.eta → 0 < s.eta →
      s'.sx = o.turn.on s.sx + s.eta • o.place → s'.sv = o.turn.on s.sv + s.eta • o.speed → s'.sa = o.turn.on s.sa →
      (∀ i, s'.position i = o.turn.on (s.position i)) → (∀ i, s'.velocity i = o.turn.on (s.velocity i)) →
      (∀ i, s'.acceleration i = o.turn.on (s.acceleration i)) →
      let f := l.foldl (fun (s : Jacobi ℝ n) i =>
        if (o.sees (p i)).gr.effect.isOrbiting then
          let ei := lit 1 / s.eta
          let eta := s.eta + (o.sees (p i)).mass
          let pme := eta * ei
          let x := (o.sees (p i)).inertialPosition - smulRight s.sx ei
          let v := (o.sees (p i)).inertialVelocity - smulRight s.sv ei
          let a := o.turn.on (a i) - smulRight s.sa ei
          { eta := eta,
            sx := smulRight s.sx pme + (o.sees (p i)).mass • x,
            sv := smulRight s.sv pme + (o.sees (p i)).mass • v,
            sa := smulRight s.sa pme + (o.sees (p i)).mass • a,
            position := fun j => if j = i then x else s.position j,
            velocity := fun j => if j = i then v else s.velocity j,
            acceleration := fun j => if j = i then a else s.acceleration j }
        else s) s'
      let g := l.foldl (fun (s : Jacobi ℝ n) i =>
        if (p i).gr.effect.isOrbiting then
          let ei := lit 1 / s.eta
          let eta := s.eta + (p i).mass
          let pme := eta * ei
          let x := (p i).inertialPosition - smulRight s.sx ei
          let v := (p i).inertialVelocity - smulRight s.sv ei
          let a := a i - smulRight s.sa ei
          { eta := eta,
            sx := smulRight s.sx pme + (p i).mass • x,
            sv := smulRight s.sv pme + (p i).mass • v,
            sa := smulRight s.sa pme + (p i).mass • a,
            position := fun j => if j = i then x else s.position j,
            velocity := fun j => if j = i then v else s.velocity j,
            acceleration := fun j => if j = i then a else s.acceleration j }
        else s) s
      f.eta = g.eta ∧ (∀ i, f.position i = o.turn.on (g.position i)) ∧ (∀ i, f.velocity i = o.turn.on (g.velocity i))
        ∧ (∀ i, f.acceleration i = o.turn.on (g.acceleration i)) := by
    intro l
    induction l with
    | nil => intro s' s h1 _ _ _ _ h5 h6 h7; exact ⟨h1, h5, h6, h7⟩
    | cons i l ih =>
      intro s' s h1 h2 h3 h4 h4' h5 h6 h7
      dsimp only [List.foldl_cons]
      refine ih _ _ ?_ ?_ ?_ ?_ ?_ ?_ ?_ ?_
      all_goals
        have e : (o.sees (p i)).gr.effect.isOrbiting = (p i).gr.effect.isOrbiting := rfl
        have x1 : (o.sees (p i)).inertialPosition - smulRight (o.turn.on s.sx + s.eta • o.place) (lit 1 / s.eta)
            = o.turn.on ((p i).inertialPosition - smulRight s.sx (lit 1 / s.eta)) := by
          show o.turn.on _ + o.place - _ = _
          rw [cancel _ _ _ _ h2]
          turn_simp
        have x2 : (o.sees (p i)).inertialVelocity - smulRight (o.turn.on s.sv + s.eta • o.speed) (lit 1 / s.eta)
            = o.turn.on ((p i).inertialVelocity - smulRight s.sv (lit 1 / s.eta)) := by
          show o.turn.on _ + o.speed - _ = _
          rw [cancel _ _ _ _ h2]
          turn_simp
        have em : (o.sees (p i)).mass = (p i).mass := rfl
        try rw [e]
        by_cases hi : (p i).gr.effect.isOrbiting = true
      all_goals simp only [hi, if_true, Bool.false_eq_true, if_false, h1, h3, h4, h4', x1, x2, em]
      · exact add_pos h2 (hm i)
      · exact h2
      · rw [grow _ _ _ _ _ h2]; turn_simp
      · rw [grow _ _ _ _ _ h2]; turn_simp
      · turn_simp
      · intro j; split
        · rfl
        · exact h5 j
      · exact h5
      · intro j; split
        · rfl
        · exact h6 j
      · exact h6
      · intro j; split
        · turn_simp
        · exact h7 j
      · exact h7
  refine key _ _ _ rfl (hm h) ?_ ?_ ?_ ?_ ?_ ?_
  · show (p h).mass • (o.turn.on _ + o.place) = _
    rw [smul_add]; turn_simp
  · show (p h).mass • (o.turn.on _ + o.speed) = _
    rw [smul_add]; turn_simp
  · show (p h).mass • o.turn.on _ = _
    turn_simp
  all_goals exact fun i => o.turn.on_zero'.symm

theorem andersonLoop_seen (r : Turn) (k : Consts ℝ) (eps2 mu ri : ℝ) (v : Axes ℝ) (fuel : Nat) (vi : Axes ℝ) (vi2 f : ℝ) :
    andersonLoop k eps2 mu ri (r.on v) fuel (r.on vi) vi2 f
      = (r.on (andersonLoop k eps2 mu ri v fuel vi vi2 f).1, (andersonLoop k eps2 mu ri v fuel vi vi2 f).2) := by
  induction fuel generalizing vi vi2 f with
  | zero => rfl
  | succ m ih =>
    unfold andersonLoop
    turn_simp
    split
    · rfl
    · exact ih _ _ _

theorem andersonCorrection_seen (r : Turn) (k : Consts ℝ) (eps2 mu : ℝ) (x v a : Axes ℝ) :
    andersonCorrection k eps2 mu (r.on x) (r.on v) (r.on a) = r.on (andersonCorrection k eps2 mu x v a) := by
  unfold andersonCorrection
  turn_simp
  rw [andersonLoop_seen]
  turn_simp

theorem fromJacobi_seen (h : Fin n) (p : Fin n → Particle ℝ) (m : ℝ) (s : Axes ℝ) (a : Fin n → Axes ℝ) (i : Fin n) :
    fromJacobi h (fun i => o.sees (p i)) m (o.turn.on s) (fun i => o.turn.on (a i)) i = o.turn.on (fromJacobi h p m s a i) := by
  have key : ∀ (l : List (Fin n)) (s' s : ℝ × Axes ℝ × (Fin n → Axes ℝ)), s'.1 = s.1 → s'.2.1 = o.turn.on s.2.1 →
      (∀ i, s'.2.2 i = o.turn.on (s.2.2 i)) →
      let f := l.foldl (fun (s : ℝ × Axes ℝ × (Fin n → Axes ℝ)) i =>
        if (o.sees (p i)).gr.effect.isOrbiting then
          let ei := lit 1 / s.1
          let sa := smulRight (s.2.1 - (o.sees (p i)).mass • o.turn.on (a i)) ei
          let eta := s.1 - (o.sees (p i)).mass
          (eta, smulRight sa eta, fun j => if j = i then o.turn.on (a i) + sa else s.2.2 j)
        else s) s'
      let g := l.foldl (fun (s : ℝ × Axes ℝ × (Fin n → Axes ℝ)) i =>
        if (p i).gr.effect.isOrbiting then
          let ei := lit 1 / s.1
          let sa := smulRight (s.2.1 - (p i).mass • a i) ei
          let eta := s.1 - (p i).mass
          (eta, smulRight sa eta, fun j => if j = i then a i + sa else s.2.2 j)
        else s) s
      f.1 = g.1 ∧ f.2.1 = o.turn.on g.2.1 ∧ ∀ i, f.2.2 i = o.turn.on (g.2.2 i) := by
    intro l
    induction l with
    | nil => intro s' s h1 h2 h3; exact ⟨h1, h2, h3⟩
    | cons i l ih =>
      intro s' s h1 h2 h3
      dsimp only [List.foldl_cons]
      have e : (o.sees (p i)).gr.effect.isOrbiting = (p i).gr.effect.isOrbiting := rfl
      have em : (o.sees (p i)).mass = (p i).mass := rfl
      refine ih _ _ ?_ ?_ ?_
      all_goals
        try rw [e]
        by_cases hi : (p i).gr.effect.isOrbiting = true
      all_goals simp only [hi, if_true, Bool.false_eq_true, if_false, h1, h2, em]
      · turn_simp
      · intro j; split
        · turn_simp
        · exact h3 j
      · exact h3
  obtain ⟨a1, a2, a3⟩ := key (others h).reverse (m, m • o.turn.on s, fun _ => Axes.zero) (m, m • s, fun _ => Axes.zero)
    rfl (by turn_simp) (fun i => o.turn.on_zero'.symm)
  unfold fromJacobi
  dsimp only
  split
  · refine Eq.trans ?_ (o.turn.on_smulRight _ _)
    rw [← a2, ← a1]
  · exact a3 i

theorem anderson_seen (k : Consts ℝ) (eps2 : ℝ) {ignore : Ignore} (hp : ignore = .none ∨ o.place = 0) (h : Fin n)
    {p : Fin n → Particle ℝ} (hm : ∀ i, 0 < (p i).mass) :
    anderson k eps2 ignore h (fun i => o.sees (p i)) = fun i => o.sees (anderson k eps2 ignore h p i) := by
  obtain ⟨j1, j2, j3, j4⟩ := toJacobi_seen o h hm (newtonianAccelerations k ignore h p)
  have ec : (fun i => if (o.sees (p i)).gr.effect.isOrbiting then
      andersonCorrection k eps2 (o.sees (p h)).massG
        ((toJacobi h (fun i => o.sees (p i)) (fun i => o.turn.on (newtonianAccelerations k ignore h p i))).position i)
        ((toJacobi h (fun i => o.sees (p i)) (fun i => o.turn.on (newtonianAccelerations k ignore h p i))).velocity i)
        ((toJacobi h (fun i => o.sees (p i)) (fun i => o.turn.on (newtonianAccelerations k ignore h p i))).acceleration i)
      else (toJacobi h (fun i => o.sees (p i)) (fun i => o.turn.on (newtonianAccelerations k ignore h p i))).acceleration i)
      = fun i => o.turn.on (if (p i).gr.effect.isOrbiting then
        andersonCorrection k eps2 (p h).massG ((toJacobi h p (newtonianAccelerations k ignore h p)).position i)
          ((toJacobi h p (newtonianAccelerations k ignore h p)).velocity i)
          ((toJacobi h p (newtonianAccelerations k ignore h p)).acceleration i)
        else (toJacobi h p (newtonianAccelerations k ignore h p)).acceleration i) := by
    funext i
    rw [j2, j3, j4]
    show (if (p i).gr.effect.isOrbiting then _ else _) = _
    split
    · exact andersonCorrection_seen _ _ _ _ _ _ _
    · rfl
  unfold anderson
  dsimp only
  rw [newtonianAccelerations_seen o k hp, ec, j1]
  have ef := fromJacobi_seen o h p (toJacobi h p (newtonianAccelerations k ignore h p)).eta Axes.zero (fun i =>
    if (p i).gr.effect.isOrbiting then
        andersonCorrection k eps2 (p h).massG ((toJacobi h p (newtonianAccelerations k ignore h p)).position i)
          ((toJacobi h p (newtonianAccelerations k ignore h p)).velocity i)
          ((toJacobi h p (newtonianAccelerations k ignore h p)).acceleration i)
        else (toJacobi h p (newtonianAccelerations k ignore h p)).acceleration i)
  rw [o.turn.on_zero'] at ef
  funext i
  unfold mapHost
  dsimp only
  rw [ef, ef]
  split
  · rename_i hi
    subst hi
    rfl
  · show (if (p i).gr.effect.isOrbiting then _ else _) = _
    split <;> rfl

theorem newhall_seen (hi : ∀ v, o.turn.on v = v) (hs : o.speed = 0) (k : Consts ℝ) {ignore : Ignore}
    (hp : ignore = .none ∨ o.place = 0) (h : Fin n) (p : Fin n → Particle ℝ) :
    newhall k ignore h (fun i => o.sees (p i)) = fun i => o.sees (newhall k ignore h p i) := by
  have ed : ∀ i j, newhallDr (fun i => o.sees (p i)) i j = newhallDr p i j := by
    intro i j
    unfold newhallDr
    show (if j ≠ i ∧ grPair (p i) (p j) then o.turn.on _ + o.place - (o.turn.on _ + o.place) else _) = _
    rw [add_sub_add_right_eq_sub, hi, hi]
  have er : ∀ i j, newhallR (fun i => o.sees (p i)) i j = newhallR p i j := by
    intro i j
    unfold newhallR
    rw [ed]
    rfl
  have e1 : ∀ i, newhallA1 k h (fun i => o.sees (p i)) i = newhallA1 k h p i := by
    intro i
    unfold newhallA1
    simp only [er]
    rfl
  have e2 : ∀ i, newhallA2 k h (fun i => o.sees (p i)) i = newhallA2 k h p i := by
    intro i
    unfold newhallA2
    simp only [er]
    rfl
  have ev : ∀ i, (o.sees (p i)).inertialVelocity = (p i).inertialVelocity := by
    intro i
    show o.turn.on _ + o.speed = _
    rw [hi, hs, add_zero]
  have e3 : ∀ i, newhallConst k h (fun i => o.sees (p i)) i = newhallConst k h p i := by
    intro i
    unfold newhallConst newhallConstPair
    simp only [e1, e2, ed, er, ev]
    rfl
  have e4 : ∀ (a b : Fin n → Axes ℝ) i, newhallSweep k h (fun i => o.sees (p i)) a b i = newhallSweep k h p a b i := by
    intro a b i
    unfold newhallSweep
    simp only [e3, ed, er]
    rfl
  have e5 : ∀ (a : Fin n → Axes ℝ) (fuel : Nat) (b : Fin n → Axes ℝ),
      newhallLoop k h (fun i => o.sees (p i)) a fuel b = newhallLoop k h p a fuel b := by
    intro a fuel
    induction fuel with
    | zero => intro b; rfl
    | succ m ih =>
      intro b
      unfold newhallLoop
      have : newhallSweep k h (fun i => o.sees (p i)) a b = newhallSweep k h p a b := funext (e4 a b)
      simp only [this, ih]
      rfl
  unfold newhall
  rw [newtonianAccelerations_seen o k hp]
  simp only [hi, e5]
  funext i
  unfold mapHost
  split
  · rename_i hj
    subst hj
    simp only [Observer.sees, hi, if_true]
  · rename_i hj
    dsimp only
    rw [if_neg hj, if_neg hj]
    show (if (p i).gr.effect.isOrbiting then _ else _) = _
    split
    · simp only [Observer.sees, hi]
    · rfl

/-- The implementation of relativity is the same for the observer.  Kidder: componentwise products; Anderson: the places
in the terms for WHFast; Newhall: velocities and the comparison of components. -/
def GrFits (ignore : Ignore) (p : Fin n → Particle ℝ) (h : Fin n) : Prop :=
  ((p h).gr.effect = .central .kidder1995 → o.turn.Componentwise)
    ∧ ((p h).gr.effect = .central .anderson1975 → (ignore = .none ∨ o.place = 0) ∧ ∀ i, 0 < (p i).mass)
    ∧ ((p h).gr.effect = .central .newhall1983 →
      (∀ v, o.turn.on v = v) ∧ o.speed = 0 ∧ (ignore = .none ∨ o.place = 0))

theorem settings_gr {p q : Particle ℝ} (h : settings q = settings p) : q.gr.effect = p.gr.effect := by
  have := congrArg (fun x : Particle ℝ => x.gr.effect) h
  exact this

theorem settings_mass {p q : Particle ℝ} (h : settings q = settings p) : q.mass = p.mass := by
  have := congrArg (fun x : Particle ℝ => x.mass) h
  exact this

theorem GrFits.same {ignore : Ignore} {p q : Fin n → Particle ℝ} {h : Fin n} (hg : GrFits o ignore p h)
    (hs : Same settings q p) : GrFits o ignore q h := by
  unfold GrFits at hg ⊢
  rw [settings_gr (hs h)]
  simp only [settings_mass (hs _)]
  exact hg

theorem generalRelativity_seen (k : Consts ℝ) (eps2 : ℝ) {ignore : Ignore} {h : Fin n} {p : Fin n → Particle ℝ}
    (hg : GrFits o ignore p h) :
    generalRelativity k eps2 ignore h (fun i => o.sees (p i)) = fun i => o.sees (generalRelativity k eps2 ignore h p i) := by
  obtain ⟨g1, g2, g3⟩ := hg
  unfold generalRelativity
  have e : (o.sees (p h)).gr.effect = (p h).gr.effect := rfl
  dsimp only
  rw [e]
  rcases hx : (p h).gr.effect with x | _ | _
  · cases x
    · exact kidder_seen o (g1 hx) k h p
    · exact anderson_seen o k eps2 (g2 hx).1 h (g2 hx).2
    · exact newhall_seen o (g3 hx).1 (g3 hx).2.1 k (g3 hx).2.2 h p
    · rfl
  · rfl
  · rfl

/-! ### Disk -/

theorem diskInitialize_seen (h : Fin n) (p : Fin n → Particle ℝ) :
    diskInitialize h (fun i => o.sees (p i)) = fun i => o.sees (diskInitialize h p i) := by
  have key : mapOthers h (fun _ q : Particle ℝ =>
        if q.disk.effect.isOrbiting then { q with disk := { q.disk with acceleration := Axes.zero } } else q)
      (mapHost h (fun host : Particle ℝ => { host with disk := { host.disk with acceleration := Axes.zero } })
        fun i => o.sees (p i))
      = fun i => o.sees (mapOthers h (fun _ q : Particle ℝ =>
        if q.disk.effect.isOrbiting then { q with disk := { q.disk with acceleration := Axes.zero } } else q)
      (mapHost h (fun host : Particle ℝ => { host with disk := { host.disk with acceleration := Axes.zero } }) p) i) := by
    rw [mapHost_seen h (T := o.sees)
      (g := fun host : Particle ℝ => { host with disk := { host.disk with acceleration := Axes.zero } })
      (by turn_simp), mapOthers_seen]
    intro i hi
    show (if (mapHost h _ p i).disk.effect.isOrbiting then _ else _) = _
    split <;> [skip; rfl]
    turn_simp
  unfold diskInitialize
  have e : (o.sees (p h)).disk.effect = (p h).disk.effect := rfl
  dsimp only
  rw [e]
  generalize (p h).disk.effect.central? = x
  rcases x with _ | x
  · rfl
  · exact key

theorem diskInertialToHeliocentric_seen (h : Fin n) (p : Fin n → Particle ℝ) :
    diskInertialToHeliocentric h (fun i => o.sees (p i)) = fun i => o.sees (diskInertialToHeliocentric h p i) := by
  have key : mapOthers h (fun host q : Particle ℝ =>
        if q.disk.effect.isOrbiting then
          let position := q.inertialPosition - host.inertialPosition
          let velocity := q.inertialVelocity - host.inertialVelocity
          let v2 := (velocity - host.disk.velocity).norm2
          { q with disk := { q.disk with
              position := position, velocity := velocity, distance := FOps.sqrt position.norm2,
              normVelocity2 := v2, normVelocity := FOps.sqrt v2 } }
        else q)
      (mapHost h (fun host : Particle ℝ => { host with disk := { host.disk with
          position := Axes.zero, velocity := Axes.zero, distance := lit 0,
          normVelocity := lit 0, normVelocity2 := lit 0 } }) fun i => o.sees (p i))
      = fun i => o.sees (mapOthers h (fun host q : Particle ℝ =>
        if q.disk.effect.isOrbiting then
          let position := q.inertialPosition - host.inertialPosition
          let velocity := q.inertialVelocity - host.inertialVelocity
          let v2 := (velocity - host.disk.velocity).norm2
          { q with disk := { q.disk with
              position := position, velocity := velocity, distance := FOps.sqrt position.norm2,
              normVelocity2 := v2, normVelocity := FOps.sqrt v2 } }
        else q)
      (mapHost h (fun host : Particle ℝ => { host with disk := { host.disk with
          position := Axes.zero, velocity := Axes.zero, distance := lit 0,
          normVelocity := lit 0, normVelocity2 := lit 0 } }) p) i) := by
    rw [mapHost_seen h (T := o.sees)
      (g := fun host : Particle ℝ => { host with disk := { host.disk with
          position := Axes.zero, velocity := Axes.zero, distance := lit 0,
          normVelocity := lit 0, normVelocity2 := lit 0 } })
      (by turn_simp), mapOthers_seen]
    intro i hi
    show (if (mapHost h _ p i).disk.effect.isOrbiting then _ else _) = _
    split <;> [skip; rfl]
    turn_simp
  unfold diskInertialToHeliocentric
  have e : (o.sees (p h)).disk.effect = (p h).disk.effect := rfl
  dsimp only
  rw [e]
  generalize (p h).disk.effect.central? = x
  rcases x with _ | x
  · rfl
  · exact key

theorem diskCopyHeliocentric_seen (h : Fin n) (p : Fin n → Particle ℝ) :
    diskCopyHeliocentric h (fun i => o.sees (p i)) = fun i => o.sees (diskCopyHeliocentric h p i) := by
  have key : mapOthers h (fun _ q : Particle ℝ => if q.disk.effect.isOrbiting then { q with disk := { q.disk with
    position := q.heliocentricPosition, velocity := q.heliocentricVelocity,
    distance := q.heliocentricDistance, normVelocity := q.heliocentricNormVelocity,
    normVelocity2 := q.heliocentricNormVelocity2 } } else q)
      (mapHost h (fun q : Particle ℝ => { q with disk := { q.disk with
    position := q.heliocentricPosition, velocity := q.heliocentricVelocity,
    distance := q.heliocentricDistance, normVelocity := q.heliocentricNormVelocity,
    normVelocity2 := q.heliocentricNormVelocity2 } }) fun i => o.sees (p i))
      = fun i => o.sees (mapOthers h (fun _ q : Particle ℝ => if q.disk.effect.isOrbiting then
        { q with disk := { q.disk with
    position := q.heliocentricPosition, velocity := q.heliocentricVelocity,
    distance := q.heliocentricDistance, normVelocity := q.heliocentricNormVelocity,
    normVelocity2 := q.heliocentricNormVelocity2 } } else q)
      (mapHost h (fun q : Particle ℝ => { q with disk := { q.disk with
    position := q.heliocentricPosition, velocity := q.heliocentricVelocity,
    distance := q.heliocentricDistance, normVelocity := q.heliocentricNormVelocity,
    normVelocity2 := q.heliocentricNormVelocity2 } }) p) i) := by
    rw [mapHost_seen h (T := o.sees)
      (g := fun q : Particle ℝ => { q with disk := { q.disk with
    position := q.heliocentricPosition, velocity := q.heliocentricVelocity,
    distance := q.heliocentricDistance, normVelocity := q.heliocentricNormVelocity,
    normVelocity2 := q.heliocentricNormVelocity2 } })
      rfl, mapOthers_seen]
    intro i hi
    show (if (mapHost h _ p i).disk.effect.isOrbiting then _ else _) = _
    split <;> rfl
  unfold diskCopyHeliocentric
  have e : (o.sees (p h)).disk.effect = (p h).disk.effect := rfl
  dsimp only
  rw [e]
  generalize (p h).disk.effect.central? = x
  rcases x with _ | x
  · rfl
  · exact key

/-- The rotation is about the third axis. -/
def Turn.Upright (r : Turn) : Prop := (∀ v, (r.on v).z = v.z) ∧ ∀ c, r.on ⟨0, 0, c⟩ = ⟨0, 0, c⟩

theorem diskForce_seen (hz : o.turn.Upright) (q : Particle ℝ) (tau : ℝ) :
    diskForce (o.sees q) tau = o.turn.on (diskForce q tau) := by
  have e : ∀ c : ℝ, (⟨lit 0, lit 0, c⟩ : Axes ℝ) = o.turn.on ⟨lit 0, lit 0, c⟩ := by
    intro c
    have := hz.2 c
    simp only [lit_real, Rat.cast_zero]
    exact this.symm
  unfold diskForce
  simp only [Observer.sees, hz.1]
  conv_lhs => rw [e]
  turn_simp

theorem diskAcceleration_seen (hz : o.turn.Upright) (k : Consts ℝ) (time : ℝ) (h : Fin n) (p : Fin n → Particle ℝ) :
    diskAcceleration k time h (fun i => o.sees (p i)) = fun i => o.sees (diskAcceleration k time h p i) := by
  have e1 : ∀ d host q, diskStep k time d (o.sees host) (o.sees q) = o.sees (diskStep k time d host q) := by
    intro d host q
    unfold diskStep
    show (if q.disk.effect.isOrbiting then _ else _) = _
    split
    · dsimp only
      rw [diskForce_seen o hz]
      turn_simp
      rfl
    · rfl
  have e2 : ∀ d host q, diskForceTerm k time d (o.sees host) (o.sees q) = o.turn.on (diskForceTerm k time d host q) := by
    intro d host q
    unfold diskForceTerm
    rw [diskForce_seen o hz]
    show (if q.disk.effect.isOrbiting then _ else _) = _
    split
    · rfl
    · exact o.turn.on_zero'.symm
  unfold diskAcceleration
  have e : (o.sees (p h)).disk.effect = (p h).disk.effect := rfl
  dsimp only
  rw [e]
  generalize (p h).disk.effect.central? = x
  rcases x with _ | d
  · rfl
  · dsimp only
    rw [mapOthers_seen h (T := o.sees) (p := p) fun i _ => e1 d _ _]
    rw [sumOthers_seen' o.turn h (T := o.sees) (g := diskForceTerm k time d (p h)) fun i _ => e2 d _ _]
    by_cases ho : (others h).isEmpty = true
    · rw [if_pos ho, if_pos ho]
    · rw [if_neg ho, if_neg ho]
      refine mapHost_seen h ?_
      turn_simp

end
end Posidonius.Univ
