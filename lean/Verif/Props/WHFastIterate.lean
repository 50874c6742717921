import Verif.Model.WHFastIterate
import Verif.Props.Midpoint
import Verif.Props.WHFast

/-! # C75: momentum in a whole iteration of WHFast -/

namespace Posidonius.WHFast
open Posidonius

/-- Forces that balance: mass times additional acceleration sums to zero over the bodies, in every state. -/
def Balanced {S : Type} (eval : Sys ℝ → ℝ → Evaluate S ℝ) : Prop :=
  ∀ u t s b l s' r, eval u t s b l = some (s', r) → r.length = u.bodies.length
    ∧ weightedSum (u.bodies.map Body.mass) (r.map Rate.acceleration) = 0

/-- Every particle has an angular momentum and a compensation, and the compensations of velocity are zero. -/
def Run.Clean {S : Type} (r : Run S ℝ) : Prop :=
  r.angular.length = r.sys.bodies.length ∧ r.errors.length = r.sys.bodies.length ∧ ∀ e ∈ r.errors, e.velocity = 0

theorem Sys.weighted_eq (u : Sys ℝ) (f : Body ℝ → Axes ℝ) :
    u.weighted f = weightedSum (u.bodies.map Body.mass) (u.bodies.map f) := by
  simp only [Sys.weighted, weightedSum, Sys.bodies, List.map_cons, List.zipWith_cons_cons, List.sum_cons]
  rw [List.zipWith_map, List.zipWith_self]

theorem withVelocities_spec (u : Sys ℝ) (l : List (Motion ℝ)) (h : l.length = u.bodies.length) :
    Like (u.withVelocities l) u ∧ (u.withVelocities l).bodies.map Body.velocity = l.map Motion.velocity
    ∧ (u.withVelocities l).bodies.map Body.position = u.bodies.map Body.position
    ∧ (u.withVelocities l).bodies.map Body.mass = u.bodies.map Body.mass := by
  match l, h with
  | m :: ms, h =>
    simp only [Sys.bodies, List.length_cons, Nat.add_right_cancel_iff] at h
    have key : ∀ (ps : List (Body ℝ)) (ms : List (Motion ℝ)), ms.length = ps.length →
        List.Forall₂ (fun p q : Body ℝ => p.mass = q.mass ∧ p.massG = q.massG)
          (List.zipWith (fun (p : Body ℝ) (n : Motion ℝ) => { p with velocity := n.velocity }) ps ms) ps
        ∧ (List.zipWith (fun (p : Body ℝ) (n : Motion ℝ) => { p with velocity := n.velocity }) ps ms).map Body.velocity
            = ms.map Motion.velocity
        ∧ (List.zipWith (fun (p : Body ℝ) (n : Motion ℝ) => { p with velocity := n.velocity }) ps ms).map Body.position
            = ps.map Body.position
        ∧ (List.zipWith (fun (p : Body ℝ) (n : Motion ℝ) => { p with velocity := n.velocity }) ps ms).map Body.mass
            = ps.map Body.mass := by
      intro ps
      induction ps with
      | nil => intro ms h; simp at h; simp [h]
      | cons p ps ih =>
        intro ms h
        match ms, h with
        | m :: ms, h =>
          obtain ⟨h1, h2, h3, h4⟩ := ih ms (by simpa using h)
          simp only [List.zipWith_cons_cons, List.map_cons, h2, h3, h4, List.forall₂_cons, h1, and_self]
    obtain ⟨h1, h2, h3, h4⟩ := key u.planets ms h
    exact ⟨⟨rfl, rfl, h1⟩, by simp [Sys.withVelocities, Sys.bodies, h2], by simp [Sys.withVelocities, Sys.bodies, h3],
      by simp [Sys.withVelocities, Sys.bodies, h4]⟩

theorem weightedSum_zero (ms : List ℝ) (l : List (Axes ℝ)) (h : ∀ v ∈ l, v = 0) : weightedSum ms l = 0 := by
  induction ms generalizing l with
  | nil => simp [weightedSum]
  | cons m ms ih =>
    cases l with
    | nil => simp [weightedSum]
    | cons v l =>
      have := ih l fun v hv => h v (by simp [hv])
      simp only [weightedSum] at this
      simp [weightedSum, this, h v (by simp)]

/-- The part of the velocity dependent forces: momentum, centre of mass and the zero compensations stay. -/
theorem C75_forced {S : Type} (eval : Sys ℝ → ℝ → Evaluate S ℝ) (hf : Balanced eval) (half : ℝ) (spin evolution : Bool)
    (r r' : Run S ℝ) (hr : r.Clean) (h : r.forced eval half spin evolution = some r') :
    r'.Clean ∧ Like r'.sys r.sys ∧ r'.time = r.time ∧ r'.sys.weighted Body.velocity = r.sys.weighted Body.velocity
    ∧ r'.sys.weighted Body.position = r.sys.weighted Body.position := by
  unfold Run.forced at h
  split at h
  · cases h
  · next s final errors e =>
    cases h
    obtain ⟨h1, h2, h3⟩ := hr
    have hm : r.motions.length = (r.sys.bodies.map Body.mass).length := by simp [Run.motions, h1]
    obtain ⟨l1, l2, l3⟩ := C75_momentum (eval r.sys r.time) (r.sys.bodies.map Body.mass)
      (fun s b l s' r' hr => by
        obtain ⟨a, b⟩ := hf r.sys r.time s b l s' r' hr
        exact ⟨by simpa using a, b⟩) half spin evolution r.hidden s r.motions r.errors final errors hm (by simpa using h2) e
    obtain ⟨w1, w2, w3, w4⟩ := withVelocities_spec r.sys final (by simpa using l1)
    have hz := C50_midpoint_exact (eval r.sys r.time) half spin evolution r.hidden s r.motions r.errors final errors e
    have hl : (r.sys.withVelocities final).bodies.length = r.sys.bodies.length := by
      have := congrArg List.length w4
      simpa using this
    have hv : r.motions.map Motion.velocity = r.sys.bodies.map Body.velocity := by
      have : ∀ (a : List (Body ℝ)) (b : List (Axes ℝ)), b.length = a.length →
          (List.zipWith (fun p l => (⟨p.velocity, l⟩ : Motion ℝ)) a b).map Motion.velocity = a.map Body.velocity := by
        intro a
        induction a with
        | nil => intro b _; simp
        | cons x a ih =>
          intro b hb
          match b, hb with
          | y :: b, hb => simp [ih b (by simpa using hb)]
      exact this _ _ h1
    refine ⟨⟨?_, ?_, fun e he => (hz e he).1⟩, w1, rfl, ?_, ?_⟩
    · simpa [hl] using l1
    · simpa [hl] using l2
    · rw [Sys.weighted_eq, Sys.weighted_eq]
      dsimp only
      rw [w2, w4, l3, hv, weightedSum_zero _ (r.errors.map Motion.velocity), sub_zero]
      intro v hv
      obtain ⟨e, he, rfl⟩ := List.mem_map.1 hv
      exact h3 e he
    · rw [Sys.weighted_eq, Sys.weighted_eq]
      dsimp only
      rw [w3, w4]

theorem Like.length {w v : Sys ℝ} (h : Like w v) : w.bodies.length = v.bodies.length := by
  simp [Sys.bodies, h.2.2.length_eq]

/-- **C75, a whole iteration**: with balanced additional forces (tides, rotational flattening, disk and so on; see C19,
C38, C40) total momentum is conserved and the centre of mass moves uniformly, over any number of iterations. -/
theorem C75_iteration {S : Type} (c : Coordinates) (fuel : ℕ) (g dt half : ℝ) (spin : Bool)
    (eval : Sys ℝ → ℝ → Evaluate S ℝ) (hf : Balanced eval) (gravity : Sys ℝ → Option (Sys ℝ))
    (hg : ∀ v w, gravity v = some w → Like w v) (hh : half + half = dt) (r r' : Run S ℝ) (hr : r.Clean)
    (hm : Massive r.sys) (h : r.iterate c fuel g dt half spin eval gravity = some r') :
    r'.Clean ∧ Like r'.sys r.sys ∧ r'.time = r.time + dt
    ∧ r'.sys.weighted Body.velocity = r.sys.weighted Body.velocity
    ∧ r'.sys.weighted Body.position = r.sys.weighted Body.position + dt • r.sys.weighted Body.velocity := by
  unfold Run.iterate at h
  split at h
  · cases h
  · next r1 e1 =>
    obtain ⟨c1, k1, t1, v1, x1⟩ := C75_forced eval hf half spin true r r1 hr e1
    split at h
    · cases h
    · next u e2 =>
      obtain ⟨k2, v2, x2⟩ := C70_step c fuel g dt half gravity hg (k1.massive hm) hh e2
      split at h
      · cases h
      · next r2 e3 =>
        cases h
        have c2 : Run.Clean { r1 with sys := u } := by
          refine ⟨?_, ?_, c1.2.2⟩
          · rw [c1.1]; exact k2.length.symm
          · rw [c1.2.1]; exact k2.length.symm
        obtain ⟨c3, k3, t3, v3, x3⟩ := C75_forced eval hf half spin false _ r2 c2 e3
        refine ⟨c3, k3.trans (k2.trans k1), by dsimp only; rw [t3]; dsimp only; rw [t1], ?_, ?_⟩
        · rw [v3, v2, v1]
        · rw [x3, x2, x1, v1]

/-- Iterations from the start: momentum is constant and the centre of mass on a straight line. -/
theorem C75_iterations {S : Type} (c : Coordinates) (fuel : ℕ) (g dt half : ℝ) (spin : Bool)
    (eval : Sys ℝ → ℝ → Evaluate S ℝ) (hf : Balanced eval) (gravity : Sys ℝ → Option (Sys ℝ))
    (hg : ∀ v w, gravity v = some w → Like w v) (hh : half + half = dt) (r : ℕ → Run S ℝ) (hr : (r 0).Clean)
    (hm : Massive (r 0).sys) (h : ∀ n, (r n).iterate c fuel g dt half spin eval gravity = some (r (n + 1))) (n : ℕ) :
    (r n).time = (r 0).time + n * dt ∧ (r n).sys.weighted Body.velocity = (r 0).sys.weighted Body.velocity
    ∧ (r n).sys.weighted Body.position
      = (r 0).sys.weighted Body.position + (n * dt) • (r 0).sys.weighted Body.velocity := by
  have : (r n).Clean ∧ Massive (r n).sys ∧ (r n).time = (r 0).time + n * dt
      ∧ (r n).sys.weighted Body.velocity = (r 0).sys.weighted Body.velocity
      ∧ (r n).sys.weighted Body.position
        = (r 0).sys.weighted Body.position + (n * dt) • (r 0).sys.weighted Body.velocity := by
    induction n with
    | zero => exact ⟨hr, hm, by simp, rfl, by simp⟩
    | succ n ih =>
      obtain ⟨i1, i2, i3, i4, i5⟩ := ih
      obtain ⟨j1, j2, j3, j4, j5⟩ := C75_iteration c fuel g dt half spin eval hf gravity hg hh _ _ i1 i2 (h n)
      refine ⟨j1, j2.massive i2, by rw [j3, i3]; push_cast; ring, by rw [j4, i4], ?_⟩
      rw [j5, i5, i4]
      push_cast
      module
  exact this.2.2

/-- Balanced forces that are not zero: star and first planet drag each other. -/
noncomputable def drag : Sys ℝ → ℝ → Evaluate Unit ℝ := fun u _ _ _ l =>
  some ((), match u.planets, l with
    | p :: ps, a :: b :: _ => ⟨p.mass • (b.velocity - a.velocity), 0⟩ :: ⟨u.star.mass • (a.velocity - b.velocity), 0⟩
        :: ps.map fun _ => ⟨0, 0⟩
    | ps, _ => ⟨0, 0⟩ :: ps.map fun _ => ⟨0, 0⟩)

theorem drag_balanced : Balanced drag := by
  have hz : ∀ (ms : List ℝ) (ps : List (Body ℝ)),
      (List.zipWith (fun (m : ℝ) (x : Axes ℝ) => m • x) ms (ps.map fun _ => (0 : Axes ℝ))).sum = 0 := fun ms ps =>
    weightedSum_zero ms _ (by simp)
  intro u t s b l s' r h
  simp only [drag, Option.some.injEq, Prod.mk.injEq] at h
  rw [← h.2]
  split
  · next p ps a b l e1 =>
    refine ⟨by simp [Sys.bodies, e1], ?_⟩
    simp only [weightedSum, Sys.bodies, e1, List.map_cons, List.zipWith_cons_cons, List.sum_cons, List.map_map,
      Function.comp_def, hz]
    module
  · refine ⟨by simp [Sys.bodies], ?_⟩
    simp only [weightedSum, Sys.bodies, List.map_cons, List.zipWith_cons_cons, List.sum_cons, List.map_map,
      Function.comp_def, hz]
    simp

/-- A run of three bodies for the theorems, under these forces. -/
example : Run.Clean (⟨exampleSys, [0, 0, 0], [⟨0, 0⟩, ⟨0, 0⟩, ⟨0, 0⟩], (), 0⟩ : Run Unit ℝ) := by
  simp [Run.Clean, exampleSys, Sys.bodies]

end Posidonius.WHFast
