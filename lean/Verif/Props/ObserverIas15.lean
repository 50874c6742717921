import Verif.Props.Observer
import Verif.Props.Ias15Observer
import Verif.Model.Integrators

/-! # C143 for the universe: an attempt of IAS15 with all effects, seen by an observer in uniform motion -/

namespace Posidonius.Ias15

section
variable {S : Type} {n : ℕ}

/-- The evaluation for `n` particles only. -/
def only (n : ℕ) (eval : Evaluate S ℝ) : Evaluate S ℝ := fun s t l => if l.length = n then eval s t l else none

theorem only_sweeps [FNormal ℝ] {eval : Evaluate S ℝ} (he : ∀ s t l a, l.length = n → eval s t l = some a → a.2.length = n)
    (T : Tables ℝ) (spin : Bool) (t dt : ℝ) (left done : ℕ) (err last : ℝ) (s : S) {l : List (Particle ℝ)} (hl : l.length = n) :
    sweeps T spin (only n eval) t dt left done err last s l = sweeps T spin eval t dt left done err last s l := by
  have id : ∀ {A : Type} {l : List A}, l.length = n → relist (List.range n) l = l := by
    rintro A l rfl
    exact relist_range l
  have h := C141_sweeps (R := Eq) (p := List.range n) (n := n) (eval := eval) (eval' := only n eval) (List.Perm.refl _)
    (fun s s' t l hs hl => by
      subst hs
      rw [id hl]
      unfold only
      rw [if_pos hl]
      cases e : eval s t l with
      | none => exact .none
      | some a =>
        have := he s t l a hl e
        exact .some ⟨rfl, this, (id this).symm⟩) T spin t dt left done err last (s := s) (s' := s) rfl hl
  rw [id hl] at h
  revert h
  generalize sweeps T spin eval t dt left done err last s l = x
  generalize sweeps T spin (only n eval) t dt left done err last s l = y
  intro h
  cases h with
  | none => rfl
  | @some a b h =>
    obtain ⟨h1, h2, h3⟩ := h
    rw [id h2] at h3
    exact congrArg some (Prod.ext h1.symm h3)

theorem only_attempt [FNormal ℝ] {eval : Evaluate S ℝ} (he : ∀ s t l a, l.length = n → eval s t l = some a → a.2.length = n)
    (T : Tables ℝ) (spin : Bool) {u : State S ℝ} (hl : u.particles.length = n) :
    attempt T spin (only n eval) u = attempt T spin eval u := by
  unfold attempt
  dsimp only
  rw [only_sweeps he T spin _ _ _ _ _ _ _ (by simpa using hl)]

end

end Posidonius.Ias15

namespace Posidonius.Univ

section
variable {n : Nat} {k : Consts ℝ} {m : Models ℝ} {eps2 : ℝ} {roche : Fin n → Fin n → ℝ} {w : Axes ℝ}

/-- The same universe but for the places and velocities of the particles, with positive masses and without Newhall's
relativity if the observers move. -/
structure Elsewhere (w : Axes ℝ) (u v : Universe ℝ n) : Prop where
  same : ∃ x y : Fin n → Axes ℝ, v = { u with particles := fun i =>
    { u.particles i with inertialPosition := x i, inertialVelocity := y i } }
  mass : ∀ i, 0 < (u.particles i).mass
  newhall : u.consider.gr = true → (∃ i, (u.particles i).gr.effect = .central .newhall1983) → w = 0

theorem describes_moving (y s : Axes ℝ) (u : Universe ℝ n) : (Observer.moving y s).describes u
    = { u with particles := fun i => { u.particles i with
        inertialPosition := (u.particles i).inertialPosition + y, inertialVelocity := (u.particles i).inertialVelocity + s } } := by
  unfold Observer.describes
  simp only [moving_sees]

theorem placeAll_seen (D : Axes ℝ) {l : List (Ias15.Place ℝ)} (hl : l.length = n) {u v : Universe ℝ n} (h : Elsewhere w u v) :
    placeAll (l.map (Ias15.Place.seen D w)) v = (Observer.moving D w).describes (placeAll l u) := by
  obtain ⟨x, y, rfl⟩ := h.same
  rw [describes_moving]
  unfold placeAll
  congr 1
  funext i
  have e : l[i.val]? = some l[i.val] := List.getElem?_eq_getElem (by omega)
  simp only [List.getElem?_map, e, Option.map_some, Option.getD_some]
  rfl

theorem Elsewhere.kept {u v a : Universe ℝ n} (h : Elsewhere w u v) (ka : Kept u a) (D : Axes ℝ) :
    Elsewhere w a ((Observer.moving D w).describes a) where
  same := ⟨_, _, describes_moving D w a⟩
  mass i := by
    have := congrArg Particle.mass (ka.particles i)
    exact this ▸ h.mass i
  newhall := by
    rintro hc ⟨i, hi⟩
    have := congrArg (fun p : Particle ℝ => p.gr.effect) (ka.particles i)
    exact h.newhall (ka.consider ▸ hc) ⟨i, this.symm.trans hi⟩

theorem evaluate_length {u : Universe ℝ n} {t : ℝ} {l : List (Ias15.Place ℝ)} {a : Universe ℝ n × List (Axes ℝ × Axes ℝ)}
    (h : ias15Evaluate k m eps2 roche u t l = some a) : a.2.length = n := by
  unfold ias15Evaluate at h
  split at h
  · cases h
  split at h
  · cases h
  cases h
  simp

/-- What IAS15 evaluates is the same for both observers. -/
theorem evaluate_agree (hm : ReadsNoPlace m) (d : Axes ℝ) :
    Ias15.Agree (Elsewhere (n := n) w) d w (Ias15.only n (ias15Evaluate k m eps2 roche))
      (Ias15.only n (ias15Evaluate k m eps2 roche)) := by
  intro u v t l h
  unfold Ias15.only
  rw [List.length_map]
  split
  · rename_i hl
    generalize Ias15.offset d w t = D
    have ku : Kept u (placeAll l u) := ⟨fun _ => rfl, rfl, rfl⟩
    unfold ias15Evaluate
    rw [placeAll_seen D hl h, gravity_seen]
    cases e1 : universeGravity k roche .none (placeAll l u) with
    | none => exact .none
    | some u1 =>
      have k1 := ku.trans (kept_gravity e1)
      have h1 := h.kept k1 D
      simp only [Option.map_some]
      rw [C103_evaluation D w hm h1.mass h1.newhall]
      cases e2 : calculateAdditionalEffects k m eps2 t true true true .none (inertialToHeliocentric u1) with
      | none => exact .none
      | some u2 =>
        have k2 := k1.trans ((kept_heliocentric u1).trans (kept_evaluation e2))
        simp only [Option.map_some]
        have e3 : { (Observer.moving D w).describes u2 with
              particles := fun i => applyAccelerations (((Observer.moving D w).describes u2).particles i) }
            = (Observer.moving D w).describes { u2 with particles := fun i => applyAccelerations (u2.particles i) } := by
          rw [describes_moving, describes_moving]
          rfl
        rw [e3]
        have k3 : Kept u { u2 with particles := fun i => applyAccelerations (u2.particles i) } := k2.trans ⟨fun _ => rfl, rfl, rfl⟩
        refine .some ⟨h.kept k3 D, ?_⟩
        dsimp only
        rw [describes_moving]
        rfl
  · exact .none

/-- **C143 for the universe**: an attempt of IAS15 with gravity and all effects, with or without spins.  If the same
particles count as slow, both observers accept or reject together, with the same next step, and find the same particles. -/
theorem C143_universe_partial [Ias15.FNormal ℝ] (hm : ReadsNoPlace m) (d : Axes ℝ) (T : Ias15.Tables ℝ) (spin : Bool)
    {s s' : Ias15.State (Universe ℝ n) ℝ} (hl : s.particles.length = n) (h : Ias15.Seen d w (Elsewhere w) s s')
    (hslow : ∀ u l, Ias15.sweeps T spin (ias15Evaluate k m eps2 roche) s.time s.dt 12 0 (lit 1e300) (lit 2) s.hidden
        (s.particles.map (Ias15.Axes.map (Ias15.Comp.start T spin))) = some (u, l) → ∀ p ∈ l,
      Ias15.slow spin s.dt (Ias15.seen (Ias15.offset d w (s.time + s.dt * T.h 7)) (Ias15.offset d w s.time) w p)
        = Ias15.slow spin s.dt p) :
    Option.Rel (fun a b => a.1 = b.1 ∧ Ias15.Seen d w (Elsewhere w) a.2 b.2)
      (Ias15.attempt T spin (ias15Evaluate k m eps2 roche) s) (Ias15.attempt T spin (ias15Evaluate k m eps2 roche) s') := by
  have he : ∀ (u : Universe ℝ n) t l a, l.length = n → ias15Evaluate k m eps2 roche u t l = some a → a.2.length = n :=
    fun _ _ _ _ _ e => evaluate_length e
  have hl' : s'.particles.length = n := by
    obtain ⟨D, hD⟩ := h.particles
    rw [hD, List.length_map, hl]
  rw [← Ias15.only_attempt he T spin hl, ← Ias15.only_attempt he T spin hl']
  refine Ias15.C143_attempt_partial (evaluate_agree hm d) T spin h fun u l e => hslow u l ?_
  rw [← e]
  exact (Ias15.only_sweeps he T spin _ _ _ _ _ _ _ (by simpa using hl)).symm

/-- A star and a planet, and the same seen from another place in motion. -/
example : Elsewhere ⟨4, 5, 6⟩ (relativisticUniverse .kidder1995 ⟨1, 0, 1⟩ ⟨0, 0, 1⟩)
    ((Observer.moving ⟨1, 2, 3⟩ ⟨4, 5, 6⟩).describes (relativisticUniverse .kidder1995 ⟨1, 0, 1⟩ ⟨0, 0, 1⟩)) :=
  ⟨⟨_, _, describes_moving ..⟩, fun i => by rw [relativisticUniverse_mass]; norm_num, fun _ ⟨i, hi⟩ => by
    by_cases h : i = 0 <;> simp [relativisticUniverse, h] at hi⟩

end

end Posidonius.Univ
