import Verif.Props.WHFastForceless
import Verif.Props.WHFastUnits
import Verif.Props.WHFastObserver

/-! # C145, C146 for iterations of a universe without other effects -/

namespace Posidonius.WHFast

theorem motions_shift (d w : Axes ℝ) (u : Sys ℝ) :
    (u.shift d w).motions = u.motions.map fun x => (x.1, x.2.1, x.2.2.1 + d, x.2.2.2 + w) := by
  simp only [Sys.motions, Sys.bodies, Sys.shift, List.map_cons, List.map_map, List.map_map]
  rfl

theorem motions_conv (t : Univ.Turn) (L τ : ℝ) (u : Sys ℝ) :
    (u.conv t L τ).motions = u.motions.map fun x => (x.1, L ^ 3 / τ ^ 2 * x.2.1, conv t L x.2.2.1, conv t (L / τ) x.2.2.2) := by
  simp only [Sys.motions, Sys.bodies, Sys.conv, List.map_cons, List.map_map, List.map_map]
  rfl

end Posidonius.WHFast

namespace Posidonius.Univ

variable {n : ℕ} {k k' : Consts ℝ} {m m' : Models ℝ} {eps2 eps2' : ℝ} {roche roche' : Fin n → Fin n → ℝ} {c : WHFast.Coordinates}

/-- A universe at the beginning of an iteration without other effects. -/
structure Plain (k : Consts ℝ) (r : WHFastRun ℝ n) : Prop where
  forceless : Forceless r.world
  massive : ∀ i, 0 < (r.world.particles i).mass
  constant : ∀ i, (r.world.particles i).massG = k.g * (r.world.particles i).mass
  length : r.errors.length = n
  exact : ∀ e ∈ r.errors, e.velocity = 0 ∧ e.angular = 0

/-- An iteration depends on the motions only. -/
theorem plain_step {fuel : ℕ} {record : Bool} {dt half : ℝ} {q q' : WHFastRun ℝ n} (hq : Plain k q)
    (hs : whfastIterate k m eps2 roche c fuel dt half record q = some q') {u : WHFast.Sys ℝ} (hu : u.motions = (system q.world).motions) :
    ∃ s, WHFast.step c fuel k.g dt half (fun v => some (WHFast.kicked c k.g v)) u = some s ∧ (system q'.world).motions = s.motions := by
  obtain ⟨⟨s, h1, h2⟩, -, -⟩ := C137_step hq.forceless hq.massive hq.constant hq.length hq.exact hs
  obtain ⟨s', t1, t2⟩ := WHFast.stepBy_congr (WHFast.C115_kicked c k.g _) (system_massive hq.massive) hu
    ((WHFast.C115_step c fuel k.g dt half _ _ _).1 h1)
  exact ⟨s', (WHFast.C115_step c fuel k.g dt half _ _ _).2 t1, h2.trans t2.symm⟩

/-- **C146, iterations**: two universes without other effects that are the same for two observers are the same for them after an
iteration of WHFast, with records or without. -/
theorem C146_universe (d w : Axes ℝ) {fuel : ℕ} {record record' : Bool} {dt half : ℝ} (hh : half + half = dt) {r r' q q' : WHFastRun ℝ n}
    (hr : Plain k r) (hq : Plain k q) (h : (system q.world).motions = ((system r.world).shift d w).motions)
    (hs : whfastIterate k m eps2 roche c fuel dt half record r = some r')
    (hs' : whfastIterate k m' eps2' roche' c fuel dt half record' q = some q') :
    (system q'.world).motions = ((system r'.world).shift (d + dt • w) w).motions := by
  obtain ⟨s, h1, h2⟩ := plain_step hr hs rfl
  obtain ⟨s', h3, h4⟩ := plain_step hq hs' h.symm
  rw [WHFast.C146_gravity d w c fuel k.g dt half hh (system_massive hr.massive), h1] at h3
  cases h3
  rw [h4, WHFast.motions_shift, WHFast.motions_shift, h2]

/-- **C145, iterations**: the same for other units and axes; Jacobi coordinates with the same unit of length. -/
theorem C145_universe_partial (t : Turn) {L τ : ℝ} (hL : 0 < L) (hτ : 0 < τ) (hc : c = .jacobi → L = 1) {fuel : ℕ} {record record' : Bool}
    {dt half : ℝ} (hk : k'.g = L ^ 3 / τ ^ 2 * k.g) {r r' q q' : WHFastRun ℝ n} (hr : Plain k r) (hq : Plain k' q)
    (h : (system q.world).motions = ((system r.world).conv t L τ).motions)
    (hs : whfastIterate k m eps2 roche c fuel dt half record r = some r')
    (hs' : whfastIterate k' m' eps2' roche' c fuel (τ * dt) (τ * half) record' q = some q') :
    (system q'.world).motions = ((system r'.world).conv t L τ).motions := by
  obtain ⟨s, h1, h2⟩ := plain_step hr hs rfl
  obtain ⟨s', h3, h4⟩ := plain_step hq hs' h.symm
  rw [hk, WHFast.C145_gravity_partial t hL hτ c hc fuel k.g dt half, h1] at h3
  cases h3
  rw [h4, WHFast.motions_conv, WHFast.motions_conv, h2]

/-- Also the next iteration begins like this. -/
theorem Plain.next {fuel : ℕ} {record : Bool} {dt half : ℝ} {r r' : WHFastRun ℝ n} (h : Plain k r)
    (hs : whfastIterate k m eps2 roche c fuel dt half record r = some r') : Plain k r' := by
  obtain ⟨-, -, z⟩ := C137_step h.forceless h.massive h.constant h.length h.exact hs
  obtain ⟨a, l⟩ := whfastStep_alike h.length ⟨fuel, record, hs⟩
  have ms : ∀ i, (r'.world.particles i).mass = (r.world.particles i).mass := fun i => a.field _ (fun _ => rfl) i
  have gs : ∀ i, (r'.world.particles i).massG = (r.world.particles i).massG := fun i => a.field _ (fun _ => rfl) i
  exact ⟨by unfold Forceless; rw [a.consider]; exact h.forceless, fun i => by rw [ms]; exact h.massive i,
    fun i => by rw [gs, ms]; exact h.constant i, l, z⟩

/-- **C146, runs of a universe**: any number of iterations. -/
theorem C146_universe_run (d w : Axes ℝ) {fuel : ℕ} {dt half : ℝ} (hh : half + half = dt) {N : ℕ} {r q : ℕ → WHFastRun ℝ n}
    (hr : Plain k (r 0)) (hq : Plain k (q 0)) (h : (system (q 0).world).motions = ((system (r 0).world).shift d w).motions)
    (hs : ∀ j < N, ∃ record, whfastIterate k m eps2 roche c fuel dt half record (r j) = some (r (j + 1)))
    (hs' : ∀ j < N, ∃ record, whfastIterate k m' eps2' roche' c fuel dt half record (q j) = some (q (j + 1))) :
    (system (q N).world).motions = ((system (r N).world).shift (d + (N * dt) • w) w).motions := by
  suffices key : ∀ j ≤ N, Plain k (r j) ∧ Plain k (q j)
      ∧ (system (q j).world).motions = ((system (r j).world).shift (d + (j * dt) • w) w).motions from (key N le_rfl).2.2
  intro j
  induction j with
  | zero => exact fun _ => ⟨hr, hq, by simpa using h⟩
  | succ j ih =>
    intro hj
    obtain ⟨pr, pq, e⟩ := ih (by omega)
    obtain ⟨b, hb⟩ := hs j (by omega)
    obtain ⟨b', hb'⟩ := hs' j (by omega)
    refine ⟨pr.next hb, pq.next hb', ?_⟩
    rw [C146_universe _ w hh pr pq e hb hb']
    congr 2
    push_cast
    module

/-- **C145, runs of a universe**: any number of iterations. -/
theorem C145_universe_run_partial (t : Turn) {L τ : ℝ} (hL : 0 < L) (hτ : 0 < τ) (hc : c = .jacobi → L = 1) {fuel : ℕ}
    {dt half : ℝ} (hk : k'.g = L ^ 3 / τ ^ 2 * k.g) {N : ℕ} {r q : ℕ → WHFastRun ℝ n} (hr : Plain k (r 0)) (hq : Plain k' (q 0))
    (h : (system (q 0).world).motions = ((system (r 0).world).conv t L τ).motions)
    (hs : ∀ j < N, ∃ record, whfastIterate k m eps2 roche c fuel dt half record (r j) = some (r (j + 1)))
    (hs' : ∀ j < N, ∃ record, whfastIterate k' m' eps2' roche' c fuel (τ * dt) (τ * half) record (q j) = some (q (j + 1))) :
    (system (q N).world).motions = ((system (r N).world).conv t L τ).motions := by
  suffices key : ∀ j ≤ N, Plain k (r j) ∧ Plain k' (q j)
      ∧ (system (q j).world).motions = ((system (r j).world).conv t L τ).motions from (key N le_rfl).2.2
  intro j
  induction j with
  | zero => exact fun _ => ⟨hr, hq, h⟩
  | succ j ih =>
    intro hj
    obtain ⟨pr, pq, e⟩ := ih (by omega)
    obtain ⟨b, hb⟩ := hs j (by omega)
    obtain ⟨b', hb'⟩ := hs' j (by omega)
    exact ⟨pr.next hb, pq.next hb', C145_universe_partial t hL hτ hc hk pr pq e hb hb'⟩

/-- A universe of two bodies at the beginning of an iteration. -/
example (k : Consts ℝ) (hk : k.g = 1 / 2) : Plain k ⟨twinUniverse, [⟨0, 0⟩, ⟨0, 0⟩], 0⟩ :=
  ⟨⟨rfl, rfl, rfl, rfl⟩, fun i => by simp [twinUniverse], fun i => by simp [twinUniverse, hk], rfl, by simp⟩

end Posidonius.Univ
