import Verif.Props.WHFast
import Verif.Spec.WHFastSplit

/-! # C146: a step of WHFast for an observer in uniform motion -/

namespace Posidonius.WHFast

/-- A body for an observer elsewhere and in motion. -/
noncomputable def Body.shift (d w : Axes ℝ) (p : Body ℝ) : Body ℝ := p.moved (p.position + d) (p.velocity + w)

/-- All bodies. -/
noncomputable def Sys.shift (d w : Axes ℝ) (u : Sys ℝ) : Sys ℝ := ⟨u.star.shift d w, u.planets.map (Body.shift d w)⟩

/-- Alternative coordinates: only the centre of mass moves. -/
noncomputable def AltSys.shift (d w : Axes ℝ) (a : AltSys ℝ) : AltSys ℝ :=
  ⟨⟨a.star.mass, a.star.position + d, a.star.velocity + w⟩, a.planets⟩

section
variable (d w : Axes ℝ)

theorem jacobiLoop_shift (l : List (Body ℝ)) (eta : ℝ) (s sv : Axes ℝ) (he : 0 < eta) (hp : ∀ p ∈ l, 0 < p.mass) :
    jacobiLoop eta (s + eta • d) (sv + eta • w) (l.map (Body.shift d w))
      = ((jacobiLoop eta s sv l).1, (jacobiLoop eta s sv l).2.1,
          (jacobiLoop eta s sv l).2.2.1 + (jacobiLoop eta s sv l).2.1 • d,
          (jacobiLoop eta s sv l).2.2.2 + (jacobiLoop eta s sv l).2.1 • w)
      ∧ 0 < (jacobiLoop eta s sv l).2.1 := by
  induction l generalizing eta s sv with
  | nil => exact ⟨rfl, he⟩
  | cons p l ih =>
    have hp0 := hp p (by simp)
    have k1 : ∀ x y z : Axes ℝ, x + z - scaled (y + eta • z) (lit 1 / eta) = x - scaled y (lit 1 / eta) := by
      intro x y z
      ext <;> simp <;> field_simp <;> ring
    have k2 : ∀ y z : Axes ℝ, scaled (y + eta • z) ((eta + p.mass) * (lit 1 / eta))
        = scaled y ((eta + p.mass) * (lit 1 / eta)) + (eta + p.mass) • z := by
      intro y z
      ext <;> simp <;> field_simp
    have ih' := fun s sv => ih (eta + p.mass) s sv (by linarith) (fun q hq => hp q (by simp [hq]))
    simp only [jacobiLoop, List.map_cons, Body.shift, Body.moved] at ih' ⊢
    rw [k1, k1, k2, k2, add_right_comm, add_right_comm (scaled sv _)]
    rw [(ih' _ _).1]
    exact ⟨rfl, (ih' _ _).2⟩

theorem toJacobi_shift {u : Sys ℝ} (hu : Massive u) : toJacobi (u.shift d w) = (toJacobi u).shift d w := by
  obtain ⟨h1, h2⟩ := jacobiLoop_shift d w u.planets u.star.mass (u.star.mass • u.star.position) (u.star.mass • u.star.velocity) hu.1 hu.2
  rw [← smul_add, ← smul_add] at h1
  unfold toJacobi
  simp only [Sys.shift, Body.shift, Body.moved] at h1 ⊢
  rw [h1]
  generalize jacobiLoop u.star.mass (u.star.mass • u.star.position) (u.star.mass • u.star.velocity) u.planets = r at *
  simp only [AltSys.shift]
  congr 2
  · ext <;> simp <;> field_simp
  · ext <;> simp <;> field_simp

theorem weighted_shift (u : Sys ℝ) : (u.shift d w).weighted Body.position = u.weighted Body.position + u.mass • d
    ∧ (u.shift d w).weighted Body.velocity = u.weighted Body.velocity + u.mass • w := by
  have key : ∀ (f g : Body ℝ → Axes ℝ) (z : Axes ℝ), (∀ p, g p = f p + z) → ∀ l : List (Body ℝ),
      (l.map fun p => p.mass • g p).sum = (l.map fun p => p.mass • f p).sum + totalMass l • z := by
    intro f g z h l
    induction l with
    | nil => simp [totalMass]
    | cons p l ih =>
      simp only [List.map_cons, List.sum_cons, totalMass] at ih ⊢
      rw [ih, h]
      module
  unfold Sys.weighted Sys.shift Sys.mass
  simp only [List.map_map]
  constructor
  · have := key Body.position (fun p => (p.shift d w).position) d (fun _ => rfl) u.planets
    simp only [Function.comp_def]
    rw [show (fun p : Body ℝ => (p.shift d w).mass • (p.shift d w).position) = fun p => p.mass • (p.shift d w).position from rfl, this]
    simp only [Body.shift, Body.moved]
    module
  · have := key Body.velocity (fun p => (p.shift d w).velocity) w (fun _ => rfl) u.planets
    simp only [Function.comp_def]
    rw [show (fun p : Body ℝ => (p.shift d w).mass • (p.shift d w).velocity) = fun p => p.mass • (p.shift d w).velocity from rfl, this]
    simp only [Body.shift, Body.moved]
    module

theorem mass_shift (u : Sys ℝ) : (u.shift d w).mass = u.mass := by
  unfold Sys.mass Sys.shift totalMass
  simp only [List.map_map]
  rfl

theorem toHelio_shift (b : Bool) {u : Sys ℝ} (hu : Massive u) : toHelio b (u.shift d w) = (toHelio b u).shift d w := by
  have hm := hu.mass_pos.ne'
  have e : centre (u.shift d w) = ⟨(centre u).mass, (centre u).position + d, (centre u).velocity + w⟩ := by
    rw [centre_eq, centre_eq, mass_shift, (weighted_shift d w u).1, (weighted_shift d w u).2]
    simp only [smul_add, smul_smul, inv_mul_cancel₀ hm, one_smul]
  unfold toHelio AltSys.shift
  simp only [e]
  unfold Sys.shift
  simp only [List.map_map]
  congr 1
  refine List.map_congr_left fun p _ => ?_
  simp only [Function.comp, Body.shift, Body.moved, add_sub_add_right_eq_sub]

theorem toAlternative_shift (c : Coordinates) {u : Sys ℝ} (hu : Massive u) :
    toAlternative c (u.shift d w) = (toAlternative c u).shift d w := by
  cases c
  exacts [toJacobi_shift d w hu, toHelio_shift d w _ hu, toHelio_shift d w _ hu]

theorem fromJacobiLoop_shift (d' w' : Axes ℝ) (l : List (Alt ℝ × Body ℝ)) (eta : ℝ) (s sv : Axes ℝ)
    (he : (l.map fun x => x.2.mass).sum < eta) (hp : ∀ x ∈ l, 0 < x.2.mass) :
    fromJacobiLoop eta (s + eta • d) (sv + eta • w) (l.map (Prod.map id (Body.shift d' w')))
      = ((fromJacobiLoop eta s sv l).1.map (Body.shift d w), (fromJacobiLoop eta s sv l).2.1,
          (fromJacobiLoop eta s sv l).2.2.1 + (fromJacobiLoop eta s sv l).2.1 • d,
          (fromJacobiLoop eta s sv l).2.2.2 + (fromJacobiLoop eta s sv l).2.1 • w)
      ∧ 0 < (fromJacobiLoop eta s sv l).2.1 := by
  induction l generalizing eta s sv with
  | nil =>
    have : 0 < eta := by simpa using he
    exact ⟨rfl, this⟩
  | cons x l ih =>
    obtain ⟨a, p⟩ := x
    simp only [List.map_cons, List.sum_cons] at he
    have hp0 : 0 < p.mass := hp (a, p) (by simp)
    have h0 : 0 ≤ (l.map fun x => x.2.mass).sum := by
      apply List.sum_nonneg
      intro y hy
      obtain ⟨z, hz, rfl⟩ := List.mem_map.1 hy
      exact (hp z (by simp [hz])).le
    have he1 : eta ≠ 0 := by linarith
    have ih' := fun s sv => ih (eta - p.mass) s sv (by linarith) (fun x hx => hp x (by simp [hx]))
    have k1 : ∀ y q z : Axes ℝ, scaled (y + eta • z - p.mass • q) (lit 1 / eta) = scaled (y - p.mass • q) (lit 1 / eta) + z := by
      intro y q z
      ext <;> simp <;> field_simp <;> ring
    have k2 : ∀ y z : Axes ℝ, scaled (y + z) (eta - p.mass) = scaled y (eta - p.mass) + (eta - p.mass) • z := by
      intro y z
      ext <;> simp <;> ring
    simp only [fromJacobiLoop, List.map_cons, Prod.map, id, Body.shift, Body.moved] at ih' ⊢
    rw [k1, k1, k2, k2, (ih' _ _).1]
    exact ⟨by simp only [add_assoc], (ih' _ _).2⟩

theorem fromAlternative_shift (d' w' : Axes ℝ) (c : Coordinates) {a : AltSys ℝ} {u : Sys ℝ} (h : Matches a u) (hu : Massive u) :
    fromAlternative c (a.shift d w) (u.shift d' w') = (fromAlternative c a u).shift d w := by
  have z : (a.planets.zip (u.planets.map (Body.shift d' w'))) = (a.planets.zip u.planets).map (Prod.map id (Body.shift d' w')) := by
    rw [← List.zip_map, List.map_id]
  have helio : ∀ b, fromHelio b (a.shift d w) (u.shift d' w') = (fromHelio b a u).shift d w := by
    intro b
    have fold : ∀ (f g : Axes ℝ → Alt ℝ × Body ℝ → Axes ℝ) (y : Axes ℝ)
        (_ : ∀ s x, g (s + y) (Prod.map id (Body.shift d' w') x) = f s x + y) (l : List (Alt ℝ × Body ℝ)) (s : Axes ℝ),
        (l.map (Prod.map id (Body.shift d' w'))).foldl g (s + y) = l.foldl f s + y := by
      intro f g y h l
      induction l with
      | nil => exact fun s => rfl
      | cons x l ih =>
        intro s
        rw [List.map_cons, List.foldl_cons, List.foldl_cons, h, ih]
    have e1 : starPosition (a.shift d w) (u.shift d' w') = starPosition a u + d := by
      unfold starPosition AltSys.shift Sys.shift
      dsimp only
      rw [z]
      exact fold _ _ d (fun s x => by
        simp only [Prod.map, id, Body.shift, Body.moved]
        abel) _ _
    have e2 : starVelocity b (a.shift d w) (u.shift d' w') = starVelocity b a u + w := by
      unfold starVelocity AltSys.shift Sys.shift
      dsimp only
      rw [z]
      exact fold _ _ w (fun s x => by
        simp only [Prod.map, id, Body.shift, Body.moved]
        abel) _ _
    unfold fromHelio
    rw [e1, e2]
    unfold AltSys.shift Sys.shift
    dsimp only
    rw [z, List.map_map, List.map_map]
    congr 1
    refine List.map_congr_left fun x _ => ?_
    simp only [Function.comp, Prod.map, id, Body.shift, Body.moved, add_assoc]
  cases c
  · have hlt : ((a.planets.zip u.planets).reverse.map fun x => x.2.mass).sum < a.star.mass := by
      rw [List.map_reverse, List.sum_reverse, sum_snd h.1 (fun p => p.mass), h.2]
      have := hu.1
      unfold Sys.mass totalMass
      linarith
    obtain ⟨h1, h2⟩ := fromJacobiLoop_shift d w d' w' (a.planets.zip u.planets).reverse a.star.mass
      (a.star.mass • a.star.position) (a.star.mass • a.star.velocity) hlt (fun x hx => hu.2 _ (by
        rw [List.mem_reverse] at hx
        exact (List.of_mem_zip hx).2))
    rw [← smul_add, ← smul_add] at h1
    unfold fromAlternative fromJacobi
    simp only [Sys.shift, AltSys.shift]
    rw [z, ← List.map_reverse, h1]
    generalize fromJacobiLoop a.star.mass (a.star.mass • a.star.position) (a.star.mass • a.star.velocity)
      (a.planets.zip u.planets).reverse = r at *
    have k : ∀ y z : Axes ℝ, scaled (y + r.2.1 • z) (lit 1 / r.2.1) = scaled y (lit 1 / r.2.1) + z := by
      intro y z
      ext <;> simp <;> field_simp
    simp only [k, Body.shift, Body.moved, List.map_reverse]
  · exact helio false
  · exact helio true

theorem jumpStep_shift (d' w' : Axes ℝ) (c : Coordinates) (dt : ℝ) (u : Sys ℝ) (a : AltSys ℝ) :
    jumpStep c dt (u.shift d' w') (a.shift d w) = (jumpStep c dt u a).shift d w := by
  have z : (a.planets.zip (u.planets.map (Body.shift d' w'))) = (a.planets.zip u.planets).map (Prod.map id (Body.shift d' w')) := by
    rw [← List.zip_map, List.map_id]
  cases c
  · rfl
  · unfold jumpStep democraticJump AltSys.shift Sys.shift
    dsimp only
    rw [z, List.foldl_map]
    rfl
  · unfold jumpStep whdsJump AltSys.shift Sys.shift
    dsimp only
    rw [z, List.foldl_map, List.map_map]
    rfl

theorem accelerations_shift (u : Sys ℝ) : jacobiAccelerations (u.shift d w) = jacobiAccelerations u := by
  have key : ∀ (l : List (Body ℝ)) (eta : ℝ) (s : Axes ℝ),
      jacobiAccelerationLoop eta s (l.map (Body.shift d w)) = jacobiAccelerationLoop eta s l := by
    intro l
    induction l with
    | nil => exact fun _ _ => rfl
    | cons p l ih =>
      intro eta s
      simp only [jacobiAccelerationLoop, List.map_cons, Body.shift, Body.moved] at ih ⊢
      rw [ih]
  exact key _ _ _

theorem interactionStep_shift (d' w' : Axes ℝ) (c : Coordinates) (g dt : ℝ) (u : Sys ℝ) (a : AltSys ℝ) :
    interactionStep c g dt (u.shift d' w') (a.shift d w) = (interactionStep c g dt u a).shift d w := by
  have z : (a.planets.zip (u.planets.map (Body.shift d' w'))) = (a.planets.zip u.planets).map (Prod.map id (Body.shift d' w')) := by
    rw [← List.zip_map, List.map_id]
  cases c
  · unfold interactionStep jacobiInteraction
    dsimp only
    rw [accelerations_shift]
    rfl
  · unfold interactionStep democraticInteraction AltSys.shift Sys.shift
    dsimp only
    rw [z, List.map_map]
    rfl
  · unfold interactionStep whdsInteraction AltSys.shift Sys.shift
    dsimp only
    rw [z, List.map_map]
    rfl

theorem keplerSteps_shift (d' w' : Axes ℝ) (c : Coordinates) (fuel : ℕ) (dt : ℝ) (u : Sys ℝ) (a : AltSys ℝ) :
    keplerSteps c fuel dt (u.shift d' w') (a.shift d w) = (keplerSteps c fuel dt u a).map (AltSys.shift (d + dt • w) w) := by
  unfold keplerSteps
  have e : (u.shift d' w').star.massG = u.star.massG := rfl
  rw [e]
  unfold AltSys.shift
  dsimp only
  cases keplerPlanets c fuel dt u.star.massG a.planets with
  | none => rfl
  | some l =>
    simp only [Option.map_some]
    rw [smul_add, add_add_add_comm]

/-- **C146**: for an observer at another place and in uniform motion a step of WHFast is the same, as seen by them, if the
accelerations are. -/
theorem C146_step (c : Coordinates) (fuel : ℕ) (g dt half : ℝ) (hh : half + half = dt) {gravity gravity' : Sys ℝ → Option (Sys ℝ)}
    (hl : ∀ v x, gravity v = some x → Like x v) (hg : ∀ d u, gravity' (u.shift d w) = (gravity u).map (Sys.shift d w))
    {u : Sys ℝ} (hu : Massive u) :
    step c fuel g dt half gravity' (u.shift d w) = (step c fuel g dt half gravity u).map (Sys.shift (d + dt • w) w) := by
  have m0 := toAlternative_matches c hu
  unfold step part1
  rw [toAlternative_shift d w c hu, keplerSteps_shift]
  cases eb : keplerSteps c fuel half u (toAlternative c u) with
  | none => rfl
  | some a =>
    have m1 := keplerSteps_matches m0 eb
    have m2 := jumpStep_matches c half m1
    simp only [Option.map_some]
    rw [jumpStep_shift, fromAlternative_shift _ _ _ _ c m2 hu, hg]
    cases e2 : gravity (fromAlternative c (jumpStep c half u a) u) with
    | none => rfl
    | some v =>
      have l2 := (hl _ _ e2).trans (fromAlternative_like c m2)
      have m5 := jumpStep_matches c half (interactionStep_matches c g dt (m2.like l2))
      simp only [Option.map_some]
      unfold part2
      dsimp only
      rw [interactionStep_shift, jumpStep_shift, keplerSteps_shift]
      cases ed : keplerSteps c fuel half v (jumpStep c half v (interactionStep c g dt v (jumpStep c half u a))) with
      | none => rfl
      | some b =>
        simp only [Option.map_some]
        rw [fromAlternative_shift _ _ _ _ c (keplerSteps_matches m5 ed) (l2.massive hu), add_assoc, ← add_smul, hh]

theorem kicked_shift (c : Coordinates) (G : ℝ) (u : Sys ℝ) : kicked c G (u.shift d w) = (kicked c G u).shift d w := by
  have e : ∀ (l : List (Body ℝ)) (x : Axes ℝ), pull G (l.map (Body.shift d w)) (x + d) = pull G l x := by
    intro l x
    unfold pull
    rw [List.map_map]
    congr 1
    refine List.map_congr_left fun p _ => ?_
    simp only [Function.comp, Body.shift, Body.moved, Gravity.newton, add_sub_add_right_eq_sub]
  have e1 : ∀ (l : List (Body ℝ)) (p : Body ℝ), (p.shift d w).accelerated (pull G (l.map (Body.shift d w)) (p.shift d w).position)
      = (p.accelerated (pull G l p.position)).shift d w := by
    intro l p
    rw [show (p.shift d w).position = p.position + d from rfl, e]
    rfl
  obtain ⟨s, l⟩ := u
  cases c
  · cases l with
    | nil => rfl
    | cons p l =>
      have e3 := e1 (p :: l)
      have e4 := e1 (s :: p :: l)
      simp only [List.map_cons] at e3 e4
      simp only [kicked, Sys.shift, List.map_cons, List.map_map, e1, e3]
      congr 2
      exact List.map_congr_left fun q _ => e4 q
  all_goals
    simp only [kicked, Sys.shift, List.map_map]
    congr 1
    exact List.map_congr_left fun q _ => e1 l q

theorem kicked_like (c : Coordinates) (G : ℝ) (u : Sys ℝ) : Like (kicked c G u) u := by
  obtain ⟨s, l⟩ := u
  have key : ∀ (f : Body ℝ → Axes ℝ) (l : List (Body ℝ)), List.Forall₂ (fun p q : Body ℝ => p.mass = q.mass ∧ p.massG = q.massG)
      (l.map fun q => q.accelerated (f q)) l := by
    intro f l
    rw [List.forall₂_map_left_iff]
    exact List.forall₂_same.2 fun _ _ => ⟨rfl, rfl⟩
  cases c
  · cases l with
    | nil => exact ⟨rfl, rfl, .nil⟩
    | cons p l => exact ⟨rfl, rfl, .cons ⟨rfl, rfl⟩ (key _ l)⟩
  all_goals exact ⟨rfl, rfl, key _ l⟩

/-- **C146, with gravity**: the step with Newton's gravity. -/
theorem C146_gravity (c : Coordinates) (fuel : ℕ) (G dt half : ℝ) (hh : half + half = dt) {u : Sys ℝ} (hu : Massive u) :
    step c fuel G dt half (fun v => some (kicked c G v)) (u.shift d w)
      = (step c fuel G dt half (fun v => some (kicked c G v)) u).map (Sys.shift (d + dt • w) w) :=
  C146_step d w c fuel G dt half hh (fun v x h => by cases h; exact kicked_like c G v)
    (fun d u => by rw [kicked_shift]; rfl) hu

/-- **C146, runs**: after any number of steps the two descriptions differ by the motion of the observer. -/
theorem C146_run (c : Coordinates) (fuel : ℕ) (G dt half : ℝ) (hh : half + half = dt) (N : ℕ) {u : Sys ℝ} (hu : Massive u) :
    (fun o : Option (Sys ℝ) => o.bind (step c fuel G dt half fun v => some (kicked c G v)))^[N] (some (u.shift d w))
      = ((fun o : Option (Sys ℝ) => o.bind (step c fuel G dt half fun v => some (kicked c G v)))^[N] (some u)).map
          (Sys.shift (d + (N * dt) • w) w) := by
  have none_stays : ∀ N, (fun o : Option (Sys ℝ) => o.bind (step c fuel G dt half fun v => some (kicked c G v)))^[N] none = none := by
    intro N
    induction N with
    | zero => rfl
    | succ N ih => rw [Function.iterate_succ_apply]; exact ih
  induction N generalizing u d with
  | zero => simp
  | succ N ih =>
    rw [Function.iterate_succ_apply, Function.iterate_succ_apply]
    simp only [Option.bind_some]
    rw [C146_gravity d w c fuel G dt half hh hu]
    cases e : step c fuel G dt half (fun v => some (kicked c G v)) u with
    | none => rw [Option.map_none, none_stays]; rfl
    | some v =>
      have hv : Massive v :=
        (C70_step c fuel G dt half _ (fun v x h => by cases h; exact kicked_like c G v) hu hh e).1.massive hu
      rw [Option.map_some, ih _ hv]
      congr 2
      push_cast
      module

/-- The example of C23 for an observer elsewhere and in motion. -/
example (c : Coordinates) (fuel : ℕ) : step c fuel 1 (1 / 2) (1 / 4) (fun v => some (kicked c 1 v)) (exampleSys.shift ⟨1, 2, 3⟩ ⟨4, 5, 6⟩)
    = (step c fuel 1 (1 / 2) (1 / 4) (fun v => some (kicked c 1 v)) exampleSys).map
        (Sys.shift (⟨1, 2, 3⟩ + (1 / 2 : ℝ) • ⟨4, 5, 6⟩) ⟨4, 5, 6⟩) :=
  C146_gravity _ _ c fuel 1 _ _ (by norm_num) exampleSys_massive

end
end Posidonius.WHFast
