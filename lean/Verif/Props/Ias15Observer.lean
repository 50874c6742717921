import Verif.Props.Ias15
import Verif.Props.Ias15Order

/-! # C143: IAS15 seen by an observer at another place and in uniform motion -/

namespace Posidonius.Ias15

/-- A component for another observer: `X` is added to the position, `D` to that at the beginning of the step, `w` to the velocities. -/
def Comp.seen (X D w : ℝ) (c : Comp ℝ) : Comp ℝ :=
  { c with x := c.x + X, x0 := c.x0 + D, v := c.v + w, v0 := c.v0 + w }

/-- A particle for another observer. -/
def seen (X D w : Axes ℝ) (p : Particle ℝ) : Particle ℝ := ⟨p.x.seen X.x D.x w.x, p.y.seen X.y D.y w.y, p.z.seen X.z D.z w.z⟩

/-- Where the other observer's origin appears at the time `t`. -/
def offset (d w : Axes ℝ) (t : ℝ) : Axes ℝ := ⟨d.x + w.x * t, d.y + w.y * t, d.z + w.z * t⟩

/-- What the evaluation reads, for another observer. -/
def Place.seen (D w : Axes ℝ) (q : Place ℝ) : Place ℝ :=
  ⟨⟨q.position.x + D.x, q.position.y + D.y, q.position.z + D.z⟩, ⟨q.velocity.x + w.x, q.velocity.y + w.y, q.velocity.z + w.z⟩, q.angular⟩

section
variable (T : Tables ℝ) (spin : Bool) (X D w : ℝ) (c : Comp ℝ)

theorem seen_start : (c.seen D X w).start T spin = (c.start T spin).seen D D w := rfl

theorem seen_predict (dt h : ℝ) :
    (c.seen X D w).predict spin dt h = (c.predict spin dt h).seen (D + w * (dt * h)) D w := by
  have e1 : (c.seen X D w).predictPosition dt h = c.predictPosition dt h + (D + w * (dt * h)) := by
    simp only [Comp.predictPosition, Comp.seen]
    ring
  have e2 : predictVelocity dt h c.csv (c.v0 + w) c.acc = predictVelocity dt h c.csv c.v0 c.acc + w := by
    simp only [predictVelocity]
    ring
  unfold Comp.predict
  rw [e1]
  simp only [Comp.seen, e2]

theorem seen_correct (n : ℕ) (a dl : ℝ) : (c.seen X D w).correct T spin n a dl = (c.correct T spin n a dl).seen X D w := rfl

theorem seen_finish (dt : ℝ) : (c.seen X D w).finish spin dt = (c.finish spin dt).seen (D + w * dt) (D + w * dt) w := by
  have e1 : finishPosition dt (c.seen X D w) = ((finishPosition dt c).1 + (D + w * dt), (finishPosition dt c).2) := by
    simp only [finishPosition, C50_add_exact, Comp.seen, Prod.mk.injEq, and_true]
    ring
  have e2 : finishVelocity dt (c.v0 + w) c.csv c.acc = ((finishVelocity dt c.v0 c.csv c.acc).1 + w,
      (finishVelocity dt c.v0 c.csv c.acc).2) := by
    simp only [finishVelocity, C50_add_exact, Prod.mk.injEq, and_true]
    ring
  unfold Comp.finish
  rw [e1]
  simp only [Comp.seen, e2]

theorem seen_restore : (c.seen X D w).restore spin = (c.restore spin).seen D D w := rfl
theorem seen_remember : (c.seen X D w).remember = c.remember.seen X D w := rfl
theorem seen_next (q : ℝ) : (c.seen X D w).next spin q = (c.next spin q).seen X D w := rfl

end

theorem map_seen {f g : Comp ℝ → Comp ℝ} {X D X' D' w : Axes ℝ}
    (hx : ∀ c : Comp ℝ, f (c.seen X.x D.x w.x) = (g c).seen X'.x D'.x w.x)
    (hy : ∀ c : Comp ℝ, f (c.seen X.y D.y w.y) = (g c).seen X'.y D'.y w.y)
    (hz : ∀ c : Comp ℝ, f (c.seen X.z D.z w.z) = (g c).seen X'.z D'.z w.z) (l : List (Particle ℝ)) :
    (l.map (seen X D w)).map (Axes.map f) = (l.map (Axes.map g)).map (seen X' D' w) := by
  rw [List.map_map, List.map_map]
  refine List.map_congr_left fun p _ => ?_
  simp only [Function.comp_apply, seen, Axes.map, hx, hy, hz]

theorem sweepError_seen [FNormal ℝ] (spin : Bool) (X Y D w : Axes ℝ) (a b : List (Particle ℝ)) :
    sweepError spin ((components (a.map (seen X D w))).map fun c => (c.acc.g.c6, c.tor.g.c6)) (components (b.map (seen Y D w)))
      = sweepError spin ((components a).map fun c => (c.acc.g.c6, c.tor.g.c6)) (components b) := by
  have e1 : ∀ {γ : Type} (f : Comp ℝ → γ) (X : Axes ℝ) (l : List (Particle ℝ)), (∀ (c : Comp ℝ) X D w, f (c.seen X D w) = f c) →
      (components (l.map (seen X D w))).map f = (components l).map f := by
    intro γ f X l hf
    induction l with
    | nil => rfl
    | cons p l ih =>
      simp only [components, List.map_cons, List.flatMap_cons, List.map_append] at ih ⊢
      rw [ih]
      simp only [Axes.toList, seen, List.map_cons, List.map_nil, hf]
  have z : ∀ (f : ℝ × ℝ → ℝ × ℝ → ℝ) (g : Comp ℝ → ℝ × ℝ) (o : List (ℝ × ℝ)) (l : List (Comp ℝ)),
      List.zipWith (fun o c => f o (g c)) o l = List.zipWith f o (l.map g) := by
    intro f g o l
    rw [List.zipWith_map_right]
  unfold sweepError
  dsimp only
  rw [e1 _ _ _ (fun _ _ _ _ => rfl), e1 _ _ _ (fun _ _ _ _ => rfl), e1 _ _ _ (fun _ _ _ _ => rfl)]
  simp only [z (fun o q => FOps.abs (q.1 - o.1)) (fun c => (c.acc.g.c6, c.tor.g.c6)),
    z (fun o q => FOps.abs (q.2 - o.2)) (fun c => (c.acc.g.c6, c.tor.g.c6)), e1 (fun c => (c.acc.g.c6, c.tor.g.c6)) _ _ (fun _ _ _ _ => rfl)]

section
variable {S S' : Type} {R : S → S' → Prop} {eval : Evaluate S ℝ} {eval' : Evaluate S' ℝ} {d w : Axes ℝ}

/-- Two evaluations of the same forces for two observers. -/
def Agree (R : S → S' → Prop) (d w : Axes ℝ) (eval : Evaluate S ℝ) (eval' : Evaluate S' ℝ) : Prop :=
  ∀ s s' t l, R s s' → Option.Rel (fun a b => R a.1 b.1 ∧ b.2 = a.2) (eval s t l) (eval' s' t (l.map (Place.seen (offset d w t) w)))

theorem substep_seen (he : Agree R d w eval eval') (T : Tables ℝ) (spin : Bool) (t dt : ℝ) (k : ℕ) (X : Axes ℝ)
    {s : S} {s' : S'} {l : List (Particle ℝ)} (hs : R s s') :
    Option.Rel (fun a b => R a.1 b.1 ∧ b.2 = a.2.map (seen (offset d w (t + dt * T.h k)) (offset d w t) w))
      (substep T spin eval t dt k s l) (substep T spin eval' t dt k s' (l.map (seen X (offset d w t) w))) := by
  unfold substep evaluateAt
  dsimp only
  have off : ∀ a b : ℝ, a + b * t + b * (dt * T.h k) = a + b * (t + dt * T.h k) := fun a b => by ring
  rw [map_seen (X' := offset d w (t + dt * T.h k)) (D' := offset d w t) (g := Comp.predict spin dt (T.h k))
    (fun c => by rw [seen_predict]; simp only [offset, off]) (fun c => by rw [seen_predict]; simp only [offset, off])
    (fun c => by rw [seen_predict]; simp only [offset, off])]
  generalize l.map (Axes.map (Comp.predict spin dt (T.h k))) = m
  have h := he s s' (t + dt * T.h k) (places m) hs
  rw [show places (m.map (seen (offset d w (t + dt * T.h k)) (offset d w t) w))
    = (places m).map (Place.seen (offset d w (t + dt * T.h k)) w) by
      unfold places
      rw [List.map_map, List.map_map]
      rfl]
  revert h
  generalize eval s (t + dt * T.h k) (places m) = x
  generalize eval' s' (t + dt * T.h k) _ = y
  intro h
  cases h with
  | none => exact .none
  | @some a b h =>
    obtain ⟨h1, h2⟩ := h
    refine .some ⟨h1, ?_⟩
    dsimp only
    rw [h2]
    unfold correctAll
    rw [List.zipWith_map_right, List.map_zipWith]
    rfl

theorem substeps_seen (he : Agree R d w eval eval') (T : Tables ℝ) (spin : Bool) (t dt : ℝ) (ks : List ℕ) (X : Axes ℝ)
    {s : S} {s' : S'} {l : List (Particle ℝ)} (hs : R s s') :
    Option.Rel (fun a b => R a.1 b.1 ∧ ∃ X, b.2 = a.2.map (seen X (offset d w t) w))
      (substeps T spin eval t dt ks s l) (substeps T spin eval' t dt ks s' (l.map (seen X (offset d w t) w))) := by
  induction ks generalizing s s' l X with
  | nil => exact .some ⟨hs, X, rfl⟩
  | cons k ks ih =>
    have h := substep_seen he T spin t dt k X (l := l) hs
    unfold substeps
    revert h
    generalize substep T spin eval t dt k s l = x
    generalize substep T spin eval' t dt k s' _ = y
    intro h
    cases h with
    | none => exact .none
    | @some a b h =>
      obtain ⟨a1, a2⟩ := a
      obtain ⟨b1, b2⟩ := b
      obtain ⟨h1, rfl⟩ := h
      exact ih _ h1

variable [FNormal ℝ]

theorem sweep_seen (he : Agree R d w eval eval') (T : Tables ℝ) (spin : Bool) (t dt : ℝ) (X : Axes ℝ) {s : S} {s' : S'}
    {l : List (Particle ℝ)} (hs : R s s') :
    Option.Rel (fun a b => R a.1 b.1 ∧ b.2.1 = a.2.1.map (seen (offset d w (t + dt * T.h 7)) (offset d w t) w) ∧ a.2.2 = b.2.2)
      (sweep T spin eval t dt s l) (sweep T spin eval' t dt s' (l.map (seen X (offset d w t) w))) := by
  have h := substeps_seen he T spin t dt [1, 2, 3, 4, 5, 6] X (l := l) hs
  unfold sweep
  revert h
  generalize substeps T spin eval t dt [1, 2, 3, 4, 5, 6] s l = x
  generalize substeps T spin eval' t dt [1, 2, 3, 4, 5, 6] s' _ = y
  intro h
  cases h with
  | none => exact .none
  | @some a b h =>
    obtain ⟨a1, a2⟩ := a
    obtain ⟨b1, b2⟩ := b
    obtain ⟨h1, Y, rfl⟩ := h
    dsimp only at h1 ⊢
    have h := substep_seen he T spin t dt 7 Y (l := a2) h1
    revert h
    generalize substep T spin eval t dt 7 a1 a2 = x
    generalize substep T spin eval' t dt 7 b1 _ = y
    intro h
    cases h with
    | none => exact .none
    | @some c e h =>
      obtain ⟨c1, c2⟩ := c
      obtain ⟨e1, e2⟩ := e
      obtain ⟨g1, rfl⟩ := h
      exact .some ⟨g1, rfl, (sweepError_seen spin _ _ _ _ a2 c2).symm⟩

theorem sweeps_seen (he : Agree R d w eval eval') (T : Tables ℝ) (spin : Bool) (t dt : ℝ) (left done : ℕ) (err last : ℝ) {s : S}
    {s' : S'} {l : List (Particle ℝ)} (hs : R s s') :
    Option.Rel (fun a b => R a.1 b.1 ∧ b.2 = a.2.map (seen (offset d w (t + dt * T.h 7)) (offset d w t) w))
      (sweeps T spin eval t dt left done err last s l)
      (sweeps T spin eval' t dt left done err last s' (l.map (seen (offset d w (t + dt * T.h 7)) (offset d w t) w))) := by
  induction left generalizing done err last s s' l with
  | zero => exact .some ⟨hs, rfl⟩
  | succ left ih =>
    unfold sweeps
    split
    · exact .some ⟨hs, rfl⟩
    · have h := sweep_seen he T spin t dt (offset d w (t + dt * T.h 7)) (l := l) hs
      revert h
      generalize sweep T spin eval t dt s l = x
      generalize sweep T spin eval' t dt s' _ = y
      intro h
      cases h with
      | none => exact .none
      | @some a b h =>
        obtain ⟨a1, a2, a3⟩ := a
        obtain ⟨b1, b2, b3⟩ := b
        obtain ⟨h1, h3, h4⟩ := h
        dsimp only at h1 h3 h4 ⊢
        subst h3 h4
        exact ih _ _ _ h1

/-- **C143, sweeps**: both observers repeat the corrections equally often and find the same coefficients; at the end the positions
differ by the offset at the last node. -/
theorem C143_sweeps (he : Agree R d w eval eval') (T : Tables ℝ) (spin : Bool) (t dt : ℝ) (X : Axes ℝ) {s : S} {s' : S'}
    {l : List (Particle ℝ)} (hs : R s s') :
    Option.Rel (fun a b => R a.1 b.1 ∧ b.2 = a.2.map (seen (offset d w (t + dt * T.h 7)) (offset d w t) w))
      (sweeps T spin eval t dt 12 0 (lit 1e300) (lit 2) s l)
      (sweeps T spin eval' t dt 12 0 (lit 1e300) (lit 2) s' (l.map (seen X (offset d w t) w))) := by
  have c : (ltb (lit 1e300 : ℝ) (lit 1e-16) || (decide (2 < 0) && leb (lit 2 : ℝ) (lit 1e300))) = false := by
    have : ltb (lit 1e300 : ℝ) (lit 1e-16) = false := by
      rw [ltb_real_false, lit_real, lit_real]
      norm_num
    simp only [this, Bool.false_or, show decide (2 < 0) = false from rfl, Bool.false_and]
  unfold sweeps
  simp only [c, Bool.false_eq_true, if_false]
  have h := sweep_seen he T spin t dt X (l := l) hs
  revert h
  generalize sweep T spin eval t dt s l = x
  generalize sweep T spin eval' t dt s' _ = y
  intro h
  cases h with
  | none => exact .none
  | @some a b h =>
    obtain ⟨a1, a2, a3⟩ := a
    obtain ⟨b1, b2, b3⟩ := b
    obtain ⟨h1, h3, h4⟩ := h
    dsimp only at h1 h3 h4 ⊢
    subst h3 h4
    exact sweeps_seen he T spin t dt _ _ _ _ h1

theorem integratorError_seen (spin : Bool) (dt : ℝ) (X D w : Axes ℝ) (l : List (Particle ℝ))
    (h : ∀ p ∈ l, slow spin dt (seen X D w p) = slow spin dt p) :
    integratorError spin dt (l.map (seen X D w)) = integratorError spin dt l := by
  have fold : ∀ m : Maxima ℝ,
      (l.map (seen X D w)).foldl (fun m p => if slow spin dt p then m else (Axes.toList p).foldl (Maxima.see spin) m) m
      = l.foldl (fun m p => if slow spin dt p then m else (Axes.toList p).foldl (Maxima.see spin) m) m := by
    induction l with
    | nil => intro m; rfl
    | cons p l ih =>
      intro m
      rw [List.map_cons, List.foldl_cons, List.foldl_cons, ih (fun q hq => h q (by simp [hq])), h p (by simp)]
      rfl
  unfold integratorError
  dsimp only
  rw [fold]

/-- The same state for two observers. -/
structure Seen (d w : Axes ℝ) (R : S → S' → Prop) (u : State S ℝ) (v : State S' ℝ) : Prop where
  hidden : R u.hidden v.hidden
  particles : ∃ D, v.particles = u.particles.map (seen (offset d w u.time) D w)
  time : v.time = u.time
  dt : v.dt = u.dt
  last : v.last = u.last

/-- **C143, one attempt**: if the same particles count as slow, both observers accept or reject together, with the same next step, and
find the same particles. -/
theorem C143_attempt_partial (he : Agree R d w eval eval') (T : Tables ℝ) (spin : Bool) {u : State S ℝ} {v : State S' ℝ}
    (h : Seen d w R u v)
    (hslow : ∀ s l, sweeps T spin eval u.time u.dt 12 0 (lit 1e300) (lit 2) u.hidden (u.particles.map (Axes.map (Comp.start T spin)))
        = some (s, l) → ∀ p ∈ l,
      slow spin u.dt (seen (offset d w (u.time + u.dt * T.h 7)) (offset d w u.time) w p) = slow spin u.dt p) :
    Option.Rel (fun a b => a.1 = b.1 ∧ Seen d w R a.2 b.2) (attempt T spin eval u) (attempt T spin eval' v) := by
  obtain ⟨D, hD⟩ := h.particles
  have hs := C143_sweeps he T spin u.time u.dt (offset d w u.time) (l := u.particles.map (Axes.map (Comp.start T spin))) h.hidden
  unfold attempt
  dsimp only
  rw [h.time, h.dt, h.last, hD, map_seen (g := Comp.start T spin) (X' := offset d w u.time) (D' := offset d w u.time)
    (fun c => seen_start ..) (fun c => seen_start ..) (fun c => seen_start ..)]
  revert hs hslow
  generalize sweeps T spin eval u.time u.dt 12 0 (lit 1e300) (lit 2) u.hidden _ = x
  generalize sweeps T spin eval' u.time u.dt 12 0 (lit 1e300) (lit 2) v.hidden _ = y
  intro hslow hs
  cases hs with
  | none => exact .none
  | @some a b hs =>
    obtain ⟨a1, a2⟩ := a
    obtain ⟨b1, b2⟩ := b
    obtain ⟨h1, rfl⟩ := hs
    dsimp only at h1 ⊢
    rw [integratorError_seen spin u.dt _ _ _ a2 (hslow a1 a2 rfl)]
    split
    · refine .some ⟨rfl, h1, ⟨offset d w u.time, ?_⟩, rfl, rfl, rfl⟩
      dsimp only
      rw [map_seen (g := Comp.restore spin) (X' := offset d w u.time) (D' := offset d w u.time)
        (fun c => seen_restore ..) (fun c => seen_restore ..) (fun c => seen_restore ..)]
      split
      · rfl
      · exact map_seen (fun c => seen_next ..) (fun c => seen_next ..) (fun c => seen_next ..) _
    · refine .some ⟨rfl, h1, ⟨offset d w (u.time + u.dt), ?_⟩, rfl, rfl, rfl⟩
      dsimp only
      have off : ∀ a b : ℝ, a + b * u.time + b * u.dt = a + b * (u.time + u.dt) := fun a b => by ring
      rw [map_seen (g := Comp.finish spin u.dt) (X' := offset d w (u.time + u.dt)) (D' := offset d w (u.time + u.dt))
        (fun c => by rw [seen_finish]; simp only [offset, off]) (fun c => by rw [seen_finish]; simp only [offset, off])
        (fun c => by rw [seen_finish]; simp only [offset, off])]
      exact map_seen (fun c => (seen_next spin _ _ _ c.remember _ :)) (fun c => (seen_next spin _ _ _ c.remember _ :))
        (fun c => (seen_next spin _ _ _ c.remember _ :)) _

end

/-- **C143 is violated** as a whole: a body with the velocity 1 has the error 1 at the distance 1, and none, 0/0, if its distance from
the observer is 10⁹, because it counts as slow there. -/
theorem C143_violated :
    integratorError false (.fin 1) [⟨.pushed (.fin 1) (.fin 1) (.fin 0) (.fin 1), .rest (.fin 0), .rest (.fin 0)⟩] = XQ.fin 1
    ∧ integratorError false (.fin 1) [⟨{ Comp.pushed (.fin 1) (.fin 1) (.fin 0) (.fin 1) with x := .fin 1000000001 }, .rest (.fin 0),
        .rest (.fin 0)⟩] = XQ.nan := by
  constructor <;> decide +kernel

/-- A body in uniform gravity, seen by an observer who moves with the velocity 3 along x. -/
example : Agree (fun _ _ => True) ⟨0, 0, 0⟩ ⟨-3, 0, 0⟩
    (fun (_ : Unit) _ l => some ((), l.map fun _ => (⟨0, 0, -10⟩, ⟨0, 0, 0⟩)))
    (fun (_ : Unit) _ l => some ((), l.map fun _ => (⟨0, 0, -10⟩, ⟨0, 0, 0⟩))) := by
  intro s s' t l _
  refine .some ⟨trivial, ?_⟩
  dsimp only
  rw [List.map_map]
  rfl

end Posidonius.Ias15
