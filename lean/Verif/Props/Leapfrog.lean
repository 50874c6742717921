import Verif.Model.Leapfrog
import Verif.Props.Gravity

/-! # C21, C22: the LeapFrog integrator conserves momenta and is reversible -/

namespace Posidonius.Leapfrog
open Posidonius.Gravity Axes

variable {n : Nat} (G dt half : ℝ) (roche : Fin n → Fin n → ℝ) (mm : Nat) (e : Effects ℝ n)

/-- Masses, positions and velocities. -/
def Dyn.mass (s : Dyn ℝ n) (i : Fin n) : ℝ := (s.parts i).body.mass
def Dyn.position (s : Dyn ℝ n) (i : Fin n) : Axes ℝ := (s.parts i).body.position
def Dyn.velocity (s : Dyn ℝ n) (i : Fin n) : Axes ℝ := (s.parts i).body.velocity
def Dyn.spin (s : Dyn ℝ n) (i : Fin n) : Axes ℝ := (s.parts i).angularMomentum

/-- The additional accelerations exert no total force and no total torque. -/
structure Balanced (e : Effects ℝ n) : Prop where
  force : ∀ s : Dyn ℝ n, ∑ i, s.mass i • e.accelerations s i = 0
  torque : ∀ s : Dyn ℝ n, ∑ i, s.mass i • (s.position i).cross (e.accelerations s i) = 0

theorem noEffects_balanced : Balanced (noEffects : Effects ℝ n) where
  force s := by simp [noEffects]
  torque s := by simp [noEffects, cross_zero]

/-- What a step does to the bodies. -/
theorem step_ok {s s' : Dyn ℝ n} (h : step G dt half roche mm e s = .ok s') :
    ∃ a : Fin n → Axes ℝ,
      (∀ i, s'.mass i = s.mass i) ∧
      (∀ i, s'.velocity i = s.velocity i + dt • a i) ∧
      (∀ i, s'.position i = s.position i + half • s.velocity i + half • s'.velocity i) ∧
      (Balanced e → ∑ i, s.mass i • a i = 0) ∧
      (Balanced e → ∑ i, s.mass i • (s.position i + half • s.velocity i).cross (a i) = 0) := by
  unfold step at h
  dsimp only at h
  split at h
  · simp at h
  · rename_i a ha
    simp only [Except.ok.injEq] at h
    subst h
    set s1 := part1 half (setRates (e.firstRates s) s) with hs1
    refine ⟨fun i => a i + e.accelerations s1 i, fun i => rfl, fun i => rfl, fun i => ?_, fun hb => ?_,
      fun hb => ?_⟩
    · simp [Dyn.position, Dyn.velocity, part2, setRates, hs1, part1]
    · have h1 := C19_forces_balance G _ roche .none mm a ha
      have h2 := hb.force s1
      simp only [smul_add, Finset.sum_add_distrib]
      have h2' : ∑ i, s.mass i • e.accelerations s1 i = 0 := h2
      have h1' : ∑ i, s.mass i • a i = 0 := h1
      rw [h1', h2', add_zero]
    · have h1 := C19_torques_balance G _ roche .none mm a ha
      have h2 := hb.torque s1
      simp only [cross_add, smul_add, Finset.sum_add_distrib]
      have h2' : ∑ i, s.mass i • (s.position i + half • s.velocity i).cross (e.accelerations s1 i) = 0 := h2
      have h1' : ∑ i, s.mass i • (s.position i + half • s.velocity i).cross (a i) = 0 := h1
      rw [h1', h2', add_zero]

theorem steps_succ (k : Nat) (s s' : Dyn ℝ n) (h : steps G dt half roche mm e (k + 1) s = .ok s') :
    ∃ s1, step G dt half roche mm e s = .ok s1 ∧ steps G dt half roche mm e k s1 = .ok s' := by
  unfold steps at h
  split at h
  · simp at h
  · rename_i s1 hs1
    exact ⟨s1, hs1, h⟩

/-- **C22, the rule**: one step is the midpoint rule of second order.  The velocity changes by `dt` times the
acceleration (Newton's law plus the additional effects) at the midpoint `x + dt/2 v`, the position by `dt` times
the mean of old and new velocity, the spin by `dt` times the mean of the two torques, the clock by `dt`. -/
theorem C22_midpoint_rule (s s' : Dyn ℝ n) (h : step G dt (dt / 2) roche mm e s = .ok s') :
    let mid := fun i => s.position i + (dt / 2) • s.velocity i
    let halfway := part1 (dt / 2) (setRates (e.firstRates s) s)
    (∀ i, halfway.position i = mid i) ∧
    s'.time = s.time + dt ∧
    (∀ i, s'.mass i = s.mass i) ∧
    (∀ i, s'.velocity i = s.velocity i + dt •
      ((∑ j, if j = i then 0 else newton G (s.mass j) (mid i) (mid j)) + e.accelerations halfway i)) ∧
    (∀ i, s'.position i = s.position i + dt • ((1 / 2 : ℝ) • (s.velocity i + s'.velocity i))) ∧
    (∀ i, s'.spin i = s.spin i + dt • ((1 / 2 : ℝ) • (e.firstRates s i + e.secondRates halfway i))) := by
  intro mid halfway
  unfold step at h
  dsimp only at h
  split at h
  · simp at h
  · rename_i a ha
    simp only [Except.ok.injEq] at h
    have hn := fun i => C19_newtons_law G _ roche mm a ha i
    subst h
    refine ⟨fun i => rfl, ?_, fun i => rfl, fun i => ?_, fun i => ?_, fun i => ?_⟩
    · simp [part2, part1, setRates]; ring
    · simp only [Dyn.velocity, part2, setRates, part1]
      rw [hn i]
      rfl
    · ext <;> simp [Dyn.position, Dyn.velocity, part2, setRates, part1] <;> ring
    · ext <;> simp [Dyn.spin, part2, setRates, part1, kickSpin, halfway] <;> ring

/-- **C21, linear momentum and centre of mass**: over any number `k` of steps of size `dt`, the total
linear momentum is constant and the mass-weighted mean position moves along a straight line with
constant speed; with gravity alone or with any additional accelerations that are balanced. -/
theorem C21_linear_momentum (hb : Balanced e) (k : Nat) (s s' : Dyn ℝ n)
    (h : steps G dt (dt / 2) roche mm e k s = .ok s') :
    momentum s'.mass s'.velocity = momentum s.mass s.velocity ∧
    ∑ i, s'.mass i • s'.position i =
      ∑ i, s.mass i • s.position i + (k * dt) • momentum s.mass s.velocity := by
  induction k generalizing s with
  | zero =>
    simp only [steps, Except.ok.injEq] at h
    subst h
    simp
  | succ k ih =>
    obtain ⟨s1, h1, h2⟩ := steps_succ G dt (dt / 2) roche mm e k s s' h
    obtain ⟨a, hm, hv, hr, hf, _⟩ := step_ok G dt (dt / 2) roche mm e h1
    have hf := hf hb
    obtain ⟨i1, i2⟩ := ih s1 h2
    have hp : momentum s1.mass s1.velocity = momentum s.mass s.velocity := by
      unfold momentum
      simp only [hm, hv, smul_add, Finset.sum_add_distrib]
      have : ∑ i, s.mass i • dt • a i = dt • ∑ i, s.mass i • a i := by
        rw [Finset.smul_sum]
        exact Finset.sum_congr rfl fun i _ => smul_comm _ _ _
      rw [this, hf, smul_zero, add_zero]
    refine ⟨i1.trans hp, ?_⟩
    rw [i2, hp]
    have : ∑ i, s1.mass i • s1.position i =
        ∑ i, s.mass i • s.position i + dt • momentum s.mass s.velocity := by
      have e1 : ∑ i, s.mass i • s.velocity i = momentum s.mass s.velocity := rfl
      have e2 : ∑ i, s.mass i • s1.velocity i = momentum s.mass s.velocity := by
        rw [← hp]; unfold momentum; simp only [hm]
      have e3 : ∀ v : Fin n → Axes ℝ, ∑ i, s.mass i • (dt / 2) • v i = (dt / 2) • ∑ i, s.mass i • v i := by
        intro v
        rw [Finset.smul_sum]
        exact Finset.sum_congr rfl fun i _ => smul_comm _ _ _
      simp only [hm, hr, smul_add, Finset.sum_add_distrib, e3, e1, e2]
      module
    rw [this]
    push_cast
    module

/-- **C21, angular momentum**: over any number of steps the total orbital angular momentum is
constant. -/
theorem C21_angular_momentum (hb : Balanced e) (k : Nat) (s s' : Dyn ℝ n)
    (h : steps G dt half roche mm e k s = .ok s') :
    angularMomentum s'.mass s'.position s'.velocity = angularMomentum s.mass s.position s.velocity := by
  induction k generalizing s with
  | zero =>
    simp only [steps, Except.ok.injEq] at h
    subst h
    rfl
  | succ k ih =>
    obtain ⟨s1, h1, h2⟩ := steps_succ G dt half roche mm e k s s' h
    obtain ⟨a, hm, hv, hr, _, ht⟩ := step_ok G dt half roche mm e h1
    have ht := ht hb
    rw [ih s1 h2]
    unfold angularMomentum
    have key : ∀ i, s1.mass i • (s1.position i).cross (s1.velocity i) =
        s.mass i • (s.position i).cross (s.velocity i) +
        dt • (s.mass i • (s.position i + half • s.velocity i).cross (a i)) := by
      intro i
      rw [hm, hr, hv]
      ext <;> simp <;> ring
    simp only [key, Finset.sum_add_distrib]
    rw [← Finset.smul_sum, ht, smul_zero, add_zero]

/-- **C21, spins**: without effects, and with the rates initially zero, spins do not change. -/
theorem C21_spin (k : Nat) (s s' : Dyn ℝ n) (h0 : ∀ i, (s.parts i).dAngularMomentumDt = 0)
    (h : steps G dt half roche mm noEffects k s = .ok s') :
    (∀ i, s'.spin i = s.spin i) ∧ ∀ i, (s'.parts i).dAngularMomentumDt = 0 := by
  induction k generalizing s with
  | zero =>
    simp only [steps, Except.ok.injEq] at h
    subst h
    exact ⟨fun _ => rfl, h0⟩
  | succ k ih =>
    obtain ⟨s1, h1, h2⟩ := steps_succ G dt half roche mm _ k s s' h
    unfold step at h1
    dsimp only at h1
    split at h1
    · simp at h1
    · simp only [Except.ok.injEq] at h1
      have hs : ∀ i, s1.spin i = s.spin i := by
        intro i
        rw [← h1]
        ext <;> simp [Dyn.spin, part2, part1, setRates, kickSpin, noEffects, h0]
      have hd : ∀ i, (s1.parts i).dAngularMomentumDt = 0 := by
        intro i
        rw [← h1]
        simp [part2, part1, setRates, noEffects, h0]
      obtain ⟨i1, i2⟩ := ih s1 hd h2
      exact ⟨fun i => (i1 i).trans (hs i), i2⟩

/-- Reverse all velocities. -/
def reverse (s : Dyn ℝ n) : Dyn ℝ n :=
  { s with parts := fun i => { s.parts i with
      body := { (s.parts i).body with velocity := -(s.parts i).body.velocity } } }

/-- The same bodies (masses, radii, positions, velocities); clocks and spins may differ. -/
def SameBodies (s t : Dyn ℝ n) : Prop := ∀ i, (s.parts i).body = (t.parts i).body

theorem accelerations_congr (p q : Fin n → Body ℝ) (h1 : ∀ i, (p i).mass = (q i).mass)
    (h2 : ∀ i, (p i).radius = (q i).radius) (h3 : ∀ i, (p i).position = (q i).position) :
    gravity G p roche .none mm = gravity G q roche .none mm := by
  have a1 : firstStop p roche mm = firstStop q roche mm :=
    (check_congr q roche mm (fun i j => by simp [distance2, h3]) h2)
  have a2 : acceleration G p .none mm = acceleration G q .none mm := by
    funext i
    simp only [acceleration, pairAcceleration, h1, h3]
  unfold gravity
  rw [a1, a2]

/-- One step, then reversal, then one step. -/
theorem step_reverse {s s' t : Dyn ℝ n} (h : step G dt half roche mm noEffects s = .ok s')
    (ht : SameBodies t (reverse s')) :
    ∃ t', step G dt half roche mm noEffects t = .ok t' ∧ SameBodies t' (reverse s) := by
  unfold step at h
  dsimp only at h
  split at h
  · simp at h
  · rename_i a ha
    simp only [Except.ok.injEq] at h
    have hg : gravity G (fun i => ((part1 half (setRates (noEffects.firstRates t) t)).parts i).body)
        roche .none mm = .ok a := by
      rw [← ha]
      refine accelerations_congr G roche mm _ _ (fun i => ?_) (fun i => ?_) (fun i => ?_)
      · simp only [part1, setRates, ht i]; simp only [reverse, ← h]; rfl
      · simp only [part1, setRates, ht i]; simp only [reverse, ← h]; rfl
      · simp only [part1, setRates, ht i]
        simp only [reverse, ← h, part2, part1, setRates]
        module
    unfold step
    dsimp only
    rw [hg]
    refine ⟨_, rfl, fun i => ?_⟩
    simp only [part2, part1, setRates, ht i]
    simp only [reverse, ← h, part2, part1, setRates, noEffects, Axes.zero_def]
    generalize (s.parts i).body = b
    cases b with
    | mk m r x v =>
      simp only [Body.mk.injEq, true_and]
      constructor
      · module
      · module

theorem steps_snoc (k : Nat) (s s1 s' : Dyn ℝ n) (h1 : steps G dt half roche mm e k s = .ok s1)
    (h2 : step G dt half roche mm e s1 = .ok s') : steps G dt half roche mm e (k + 1) s = .ok s' := by
  induction k generalizing s with
  | zero =>
    simp only [steps, Except.ok.injEq] at h1
    subst h1
    simp [steps, h2]
  | succ k ih =>
    obtain ⟨s2, h3, h4⟩ := steps_succ G dt half roche mm e k s s1 h1
    have := ih s2 h4
    rw [steps, h3]
    exact this

/-- **C22, reversibility**: `k` steps, reversal of all velocities and `k` more steps bring every body back
to its initial position with reversed velocity (and the second run does not stop early). -/
theorem C22_time_reversible (k : Nat) (s s' : Dyn ℝ n)
    (h : steps G dt half roche mm noEffects k s = .ok s') :
    ∃ s'', steps G dt half roche mm noEffects k (reverse s') = .ok s'' ∧
      SameBodies s'' (reverse s) := by
  induction k generalizing s with
  | zero =>
    simp only [steps, Except.ok.injEq] at h
    subst h
    exact ⟨reverse s, rfl, fun _ => rfl⟩
  | succ k ih =>
    obtain ⟨s1, h1, h2⟩ := steps_succ G dt half roche mm _ k s s' h
    obtain ⟨u, hu, hsame⟩ := ih s1 h2
    obtain ⟨u', hu', hsame'⟩ := step_reverse G dt half roche mm h1 hsame
    exact ⟨u', steps_snoc G dt half roche mm _ k _ _ _ hu hu', hsame'⟩

/-! ## A concrete case -/

/-- Two equal bodies on a line, moving towards each other. -/
noncomputable def demo : Dyn ℝ 2 where
  time := 0
  parts := ![⟨⟨1, 0, ⟨1, 0, 0⟩, ⟨0, 1, 0⟩⟩, 0, 0⟩, ⟨⟨2, 0, ⟨-1, 0, 0⟩, ⟨0, 0, 0⟩⟩, 0, 0⟩]

theorem demo_step : ∃ s', steps 1 1 (1 / 2) (fun _ _ => 0) 0 noEffects 1 demo = .ok s' := by
  have h : ∃ a, gravity 1 (fun i => ((part1 (1 / 2) (setRates (noEffects.firstRates demo) demo)).parts i).body)
      (fun _ _ => 0) .none 0 = .ok a := by
    rw [C45_partial_goes_on_iff _ _ _ _ _ maxDistance2_pos]
    intro i j hij
    fin_cases i <;> fin_cases j <;> simp at hij
    simp [InsideRoche, Overlap, Far, maxDistance2, distance2, part1, setRates, noEffects, demo, norm2,
      dot]
    norm_num
  obtain ⟨a, ha⟩ := h
  simp only [steps, step, ha]
  exact ⟨_, rfl⟩

/-- C21 and C22 apply; the total momentum is not zero. -/
example : ∃ s', steps 1 1 (1 / 2) (fun _ _ => 0) 0 noEffects 1 demo = .ok s' ∧
    momentum s'.mass s'.velocity = ⟨0, 1, 0⟩ ∧
    angularMomentum s'.mass s'.position s'.velocity = ⟨0, 0, 1⟩ ∧
    ∃ s'', steps 1 1 (1 / 2) (fun _ _ => 0) 0 noEffects 1 (reverse s') = .ok s'' ∧
      SameBodies s'' (reverse demo) := by
  obtain ⟨s', h⟩ := demo_step
  refine ⟨s', h, ?_, ?_, C22_time_reversible _ _ _ _ _ _ _ _ h⟩
  · rw [(C21_linear_momentum 1 1 (fun _ _ => 0) 0 noEffects noEffects_balanced 1 demo s'
      (by simpa using h)).1]
    simp only [momentum, Fin.sum_univ_two]
    ext <;> simp [Dyn.mass, Dyn.velocity, demo]
  · rw [C21_angular_momentum _ _ _ _ _ _ noEffects_balanced 1 demo s' h]
    simp only [angularMomentum, Fin.sum_univ_two]
    ext <;> simp [Dyn.mass, Dyn.velocity, Dyn.position, demo]

end Posidonius.Leapfrog
