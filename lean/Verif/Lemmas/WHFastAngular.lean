import Verif.Lemmas.WHFastSteps
import Verif.Spec.WHFastAngular

/-! Angular momentum in alternative coordinates, and what jump and kick do to it. -/

namespace Posidonius.WHFast
open Posidonius

/-! ### Jacobi coordinates -/

theorem jacobi_merge {eta m : ℝ} (h : eta ≠ 0) (h' : eta + m ≠ 0) (s sv x v : Axes ℝ) :
    eta⁻¹ • s.cross sv + m • x.cross v = (eta + m)⁻¹ • (s + m • x).cross (sv + m • v)
      + (eta * m / (eta + m)) • (x - eta⁻¹ • s).cross (v - eta⁻¹ • sv) := by
  ext <;> simp <;> field_simp <;> ring

theorem jacobiLoop_orbital (ps : List (Body ℝ)) (eta : ℝ) (s sv : Axes ℝ) (he : 0 < eta) (hp : ∀ p ∈ ps, 0 < p.mass) :
    eta⁻¹ • s.cross sv + (ps.map fun p => p.mass • p.position.cross p.velocity).sum
    = (eta + totalMass ps)⁻¹ • (s + (ps.map fun p => p.mass • p.position).sum).cross
        (sv + (ps.map fun p => p.mass • p.velocity).sum)
      + orbital .jacobi eta (jacobiLoop eta s sv ps).1 := by
  induction ps generalizing eta s sv with
  | nil => simp [jacobiLoop, orbital, totalMass]
  | cons p ps ih =>
    have hp0 : 0 < p.mass := hp p (by simp)
    have := ih (eta + p.mass) (s + p.mass • p.position) (sv + p.mass • p.velocity) (by positivity)
      (fun q hq => hp q (by simp [hq]))
    rw [jacobiLoop_cons he.ne']
    have hm := jacobi_merge he.ne' (by positivity : eta + p.mass ≠ 0) s sv p.position p.velocity
    simp only [List.map_cons, List.sum_cons, orbital, reducedMass, nextMass]
    have e1 : totalMass (p :: ps) = p.mass + totalMass ps := by simp [totalMass]
    rw [← add_assoc, hm, e1, ← add_assoc, ← add_assoc s, ← add_assoc sv, add_right_comm, this]
    abel

theorem toJacobi_angular {u : Sys ℝ} (hu : Massive u) :
    u.moment Body.position Body.velocity = (toJacobi u).angular .jacobi u.star.mass := by
  have h := jacobiLoop_orbital u.planets u.star.mass (u.star.mass • u.star.position) (u.star.mass • u.star.velocity)
    hu.1 hu.2
  have hm := hu.mass_pos.ne'
  have h0 := hu.1.ne'
  have e : u.star.mass⁻¹ • (u.star.mass • u.star.position).cross (u.star.mass • u.star.velocity)
      = u.star.mass • u.star.position.cross u.star.velocity := by
    ext <;> simp <;> field_simp
  rw [e] at h
  unfold Sys.moment AltSys.angular
  rw [h, toJacobi_star hu]
  congr 1
  have : ∀ x y : Axes ℝ, u.mass⁻¹ • x.cross y = u.mass • (u.mass⁻¹ • x).cross (u.mass⁻¹ • y) := by
    intro x y
    ext <;> simp <;> field_simp
  exact this _ _

/-- The bodies with accelerations in the place of velocities. -/
def accelerating (u : Sys ℝ) : Sys ℝ :=
  { star := u.star.moved u.star.position u.star.acceleration,
    planets := u.planets.map fun p => p.moved p.position p.acceleration }

theorem accelerating_massive {u : Sys ℝ} (hu : Massive u) : Massive (accelerating u) :=
  ⟨hu.1, by simpa [accelerating, Body.moved] using hu.2⟩

theorem accelerating_mass (u : Sys ℝ) : (accelerating u).mass = u.mass := by
  simp [accelerating, Sys.mass, totalMass, Body.moved, Function.comp_def]

theorem accelerating_position (u : Sys ℝ) :
    (accelerating u).weighted Body.position = u.weighted Body.position := by
  simp [accelerating, Sys.weighted, Body.moved, Function.comp_def]

theorem accelerating_velocity (u : Sys ℝ) :
    (accelerating u).weighted Body.velocity = u.weighted Body.acceleration := by
  simp [accelerating, Sys.weighted, Body.moved, Function.comp_def]

theorem accelerating_moment (u : Sys ℝ) :
    (accelerating u).moment Body.position Body.velocity = u.moment Body.position Body.acceleration := by
  simp [accelerating, Sys.moment, Body.moved, Function.comp_def]

/-- Jacobi accelerations are the Jacobi velocities with accelerations in the place of velocities. -/
theorem jacobiAccelerationLoop_eq (ps : List (Body ℝ)) (eta : ℝ) (s s' t : Axes ℝ) :
    jacobiAccelerationLoop eta t ps
      = (jacobiLoop eta s t (ps.map fun p => p.moved p.position p.acceleration)).1.map Alt.velocity
    ∧ (jacobiLoop eta s s' ps).1.map (fun a => (a.mass, a.position))
      = (jacobiLoop eta s t (ps.map fun p => p.moved p.position p.acceleration)).1.map
          (fun a => (a.mass, a.position)) := by
  induction ps generalizing eta s s' t with
  | nil => exact ⟨rfl, rfl⟩
  | cons p ps ih =>
    simp only [List.map_cons, jacobiLoop, jacobiAccelerationLoop]
    refine ⟨?_, ?_⟩
    · congr 1
      exact (ih _ _ s' _).1
    · congr 1
      exact (ih _ _ _ _).2

/-- The same planets with other velocities. -/
def withVelocities (a : List (Alt ℝ)) (v : List (Axes ℝ)) : List (Alt ℝ) :=
  List.zipWith (fun a v => { a with velocity := v }) a v

theorem jacobiKick_orbital (g dt : ℝ) (a : List (Alt ℝ)) (acc : List (Axes ℝ)) (h : a.length = acc.length)
    (first : Bool) (eta : ℝ) :
    orbital .jacobi eta (jacobiKick g dt first eta (a.zip acc))
      = orbital .jacobi eta a + dt • orbital .jacobi eta (withVelocities a acc) := by
  induction a generalizing acc first eta with
  | nil => simp [jacobiKick, orbital, withVelocities]
  | cons x l ih =>
    cases acc with
    | nil => simp at h
    | cons b acc =>
      have := ih acc (by simpa using h) false (eta + x.mass)
      rw [List.zip_cons_cons, jacobiKick]
      simp only [orbital, nextMass, withVelocities, List.zipWith_cons_cons] at this ⊢
      rw [this]
      have e : ∀ k : ℝ, x.position.cross (if first then x.velocity + dt • b
            else x.velocity + dt • b + k • x.position)
          = x.position.cross x.velocity + dt • x.position.cross b := by
        intro k
        cases first <;> ext <;> simp <;> ring
      rw [e]
      module

theorem orbital_congr {c : Coordinates} {a b : List (Alt ℝ)}
    (h : a.map (fun a => (a.mass, a.position, a.velocity)) = b.map (fun a => (a.mass, a.position, a.velocity)))
    (eta : ℝ) : orbital c eta a = orbital c eta b := by
  induction a generalizing b eta with
  | nil => cases b with
    | nil => rfl
    | cons y b => simp at h
  | cons x a ih =>
    cases b with
    | nil => simp at h
    | cons y b =>
      simp only [List.map_cons, List.cons.injEq, Prod.mk.injEq] at h
      simp only [orbital, h.1.1, h.1.2.1, h.1.2.2, ih h.2]

theorem withVelocities_self (a b : List (Alt ℝ))
    (h : a.map (fun a => (a.mass, a.position)) = b.map (fun a => (a.mass, a.position))) :
    (withVelocities a (b.map Alt.velocity)).map (fun a => (a.mass, a.position, a.velocity))
      = b.map (fun a => (a.mass, a.position, a.velocity)) := by
  induction a generalizing b with
  | nil => cases b with
    | nil => rfl
    | cons y b => simp at h
  | cons x a ih =>
    cases b with
    | nil => simp at h
    | cons y b =>
      simp only [List.map_cons, List.cons.injEq, Prod.mk.injEq] at h
      have := ih b h.2
      simp only [withVelocities] at this
      simp [withVelocities, this, h.1.1, h.1.2]

theorem cross_zero' (x : Axes ℝ) : x.cross 0 = 0 := by ext <;> simp

theorem moment_pivot (u : Sys ℝ) (c : Axes ℝ) (f : Body ℝ → Axes ℝ) :
    u.moment (fun p => p.position - c) f = u.moment Body.position f - c.cross (u.weighted f) := by
  unfold Sys.moment Sys.weighted
  have : ∀ l : List (Body ℝ), (l.map fun p => p.mass • (p.position - c).cross (f p)).sum
      = (l.map fun p => p.mass • p.position.cross (f p)).sum - c.cross (l.map fun p => p.mass • f p).sum := by
    intro l
    induction l with
    | nil => simp [cross_zero']
    | cons p l ih =>
      simp only [List.map_cons, List.sum_cons, ih]
      ext <;> simp <;> ring
  rw [this]
  ext <;> simp <;> ring

theorem jacobi_kick_angular (g dt : ℝ) {u : Sys ℝ} (hu : Massive u) :
    (jacobiInteraction g dt u (toJacobi u)).angular .jacobi u.star.mass
      = u.moment Body.position Body.velocity
        + dt • u.moment (fun p => p.position - pivot .jacobi u) Body.acceleration := by
  have hl : (toJacobi u).planets.length = (jacobiAccelerations u).length := by
    rw [jacobiAccelerations, jacobiAccelerationLoop_length]
    exact (jacobiLoop_sameMasses u.planets _ _ _).length_eq
  have hk := jacobiKick_orbital g dt (toJacobi u).planets (jacobiAccelerations u) hl true u.star.mass
  have hj := jacobiAccelerationLoop_eq u.planets u.star.mass (u.star.mass • u.star.position)
    (u.star.mass • u.star.velocity) (u.star.mass • u.star.acceleration)
  have ha := toJacobi_angular (accelerating_massive hu)
  rw [accelerating_moment] at ha
  have e : orbital .jacobi u.star.mass (withVelocities (toJacobi u).planets (jacobiAccelerations u))
      = orbital .jacobi u.star.mass (toJacobi (accelerating u)).planets := by
    refine orbital_congr ?_ _
    rw [jacobiAccelerations, hj.1]
    exact withVelocities_self _ _ hj.2
  have hs := toJacobi_star (accelerating_massive hu)
  rw [accelerating_mass, accelerating_position, accelerating_velocity] at hs
  have hm := hu.mass_pos.ne'
  unfold AltSys.angular at ha ⊢
  rw [hs] at ha
  rw [toJacobi_angular hu]
  unfold AltSys.angular
  rw [jacobiInteraction]
  dsimp only
  rw [hk, e]
  rw [moment_pivot, ha]
  unfold pivot
  dsimp only
  have e2 : (accelerating u).star.mass = u.star.mass := rfl
  have e3 : ∀ x y : Axes ℝ, u.mass • (u.mass⁻¹ • x).cross (u.mass⁻¹ • y) = (u.mass⁻¹ • x).cross y := by
    intro x y
    ext <;> simp <;> field_simp
  rw [e2, e3]
  module

/-! ### Heliocentric coordinates -/

theorem orbital_eq_sum {c : Coordinates} (hc : c ≠ .jacobi) (eta : ℝ) (a : List (Alt ℝ)) :
    orbital c eta a = (a.map fun x => reducedMass c eta x.mass • x.position.cross x.velocity).sum := by
  induction a with
  | nil => rfl
  | cons x a ih =>
    have : nextMass c eta x.mass = eta := by cases c <;> simp_all [nextMass]
    simp [orbital, this, ih]

/-- The coordinates other than Jacobi's. -/
def helioOfBool (whds : Bool) : Coordinates := if whds then .whds else .democraticHeliocentric

theorem helioOfBool_ne (whds : Bool) : helioOfBool whds ≠ .jacobi := by cases whds <;> simp [helioOfBool]

theorem helio_term (whds : Bool) {u : Sys ℝ} (hu : Massive u) {p : Body ℝ} (hp : p ∈ u.planets) :
    reducedMass (helioOfBool whds) u.star.mass (helioOf whds u p).mass
        • (helioOf whds u p).position.cross (helioOf whds u p).velocity
      = p.mass • (p.position - u.star.position).cross (p.velocity - (centre u).velocity) := by
  have h0 := hu.1
  have h1 := hu.2 p hp
  cases whds
  · simp [helioOfBool, reducedMass, helioOf]
  · simp only [helioOfBool, reducedMass, helioOf, if_true, scaled_eq]
    have : u.star.mass + p.mass ≠ 0 := by positivity
    have h0' := h0.ne'
    generalize p.position - u.star.position = q
    generalize p.velocity - (centre u).velocity = w
    ext <;> simp <;> field_simp

theorem toHelio_planets (whds : Bool) (u : Sys ℝ) : (toHelio whds u).planets = u.planets.map (helioOf whds u) := rfl

theorem relative_moment (l : List (Body ℝ)) (x v : Axes ℝ) :
    (l.map fun p => p.mass • (p.position - x).cross (p.velocity - v)).sum
      = (l.map fun p => p.mass • p.position.cross p.velocity).sum
        - x.cross (l.map fun p => p.mass • p.velocity).sum
        - Axes.cross (l.map fun p => p.mass • p.position).sum v + totalMass l • x.cross v := by
  induction l with
  | nil => ext <;> simp [totalMass]
  | cons p l ih =>
    simp only [List.map_cons, List.sum_cons, ih]
    have e1 : totalMass (p :: l) = p.mass + totalMass l := by simp [totalMass]
    rw [e1]
    ext <;> simp <;> ring

theorem toHelio_angular (whds : Bool) {u : Sys ℝ} (hu : Massive u) :
    u.moment Body.position Body.velocity = (toHelio whds u).angular (helioOfBool whds) u.star.mass := by
  have hm := hu.mass_pos.ne'
  unfold AltSys.angular
  rw [orbital_eq_sum (helioOfBool_ne whds), toHelio_planets, List.map_map,
    show u.planets.map ((fun x => reducedMass (helioOfBool whds) u.star.mass x.mass • x.position.cross x.velocity)
      ∘ helioOf whds u) = u.planets.map fun p => p.mass • (p.position - u.star.position).cross
      (p.velocity - (centre u).velocity) from List.map_congr_left fun p hp => helio_term whds hu hp, relative_moment]
  rw [show (toHelio whds u).star = centre u from rfl, centre_eq]
  dsimp only
  have e1 : (u.planets.map fun p => p.mass • p.position).sum
      = u.weighted Body.position - u.star.mass • u.star.position := by unfold Sys.weighted; abel
  have e2 : (u.planets.map fun p => p.mass • p.velocity).sum
      = u.weighted Body.velocity - u.star.mass • u.star.velocity := by unfold Sys.weighted; abel
  have e3 : totalMass u.planets = u.mass - u.star.mass := by unfold Sys.mass; ring
  rw [e1, e2, e3, Sys.moment]
  generalize u.weighted Body.position = X
  generalize u.weighted Body.velocity = V
  generalize (u.planets.map fun p => p.mass • p.position.cross p.velocity).sum = S
  generalize u.mass = M at *
  ext <;> simp <;> field_simp <;> ring

theorem toAlternative_angular (c : Coordinates) {u : Sys ℝ} (hu : Massive u) :
    u.moment Body.position Body.velocity = (toAlternative c u).angular c u.star.mass := by
  cases c
  · exact toJacobi_angular hu
  · exact toHelio_angular false hu
  · exact toHelio_angular true hu

theorem fromAlternative_angular (c : Coordinates) {a : AltSys ℝ} {u : Sys ℝ} (h : Matches a u) (hu : Massive u) :
    (fromAlternative c a u).moment Body.position Body.velocity = a.angular c u.star.mass := by
  have hl := fromAlternative_like c h
  rw [toAlternative_angular c (hl.massive hu), toAlternative_fromAlternative c h hu, hl.1]

/-! ### Jump -/

theorem sum_cross_const {ι : Type} (f : ι → Axes ℝ) (w : Axes ℝ) (l : List ι) :
    (l.map fun x => w.cross (f x)).sum = w.cross (l.map f).sum := by
  induction l with
  | nil => simp [cross_zero']
  | cons x l ih =>
    simp only [List.map_cons, List.sum_cons, ih]
    ext <;> simp <;> ring

theorem sum_zip {M : Type} [AddCommMonoid M] {a : List (Alt ℝ)} {p : List (Body ℝ)} (h : SameMasses a p)
    (f : Alt ℝ → ℝ → M) : ((a.zip p).map fun x => f x.1 x.2.mass).sum = (a.map fun x => f x x.mass).sum := by
  induction h with
  | nil => rfl
  | @cons x y l m h1 _ ih => simp only [List.zip_cons_cons, List.map_cons, List.sum_cons, ih, h1.1]

theorem foldl_add_list {ι : Type} (f : ι → Axes ℝ) (l : List ι) (a : Axes ℝ) :
    l.foldl (fun s x => s + f x) a = a + (l.map f).sum := by
  induction l generalizing a with
  | nil => simp
  | cons x l ih => simp only [List.foldl_cons, ih, List.map_cons, List.sum_cons, add_assoc]

theorem jump_angular (c : Coordinates) (dt : ℝ) {a : AltSys ℝ} {u : Sys ℝ} (h : Matches a u) (hu : Massive u) :
    (jumpStep c dt u a).angular c u.star.mass = a.angular c u.star.mass := by
  have h0 := hu.1.ne'
  unfold AltSys.angular
  rw [jumpStep_star]
  congr 1
  cases c
  · rfl
  · have hc : Coordinates.democraticHeliocentric ≠ .jacobi := by decide
    rw [orbital_eq_sum hc, orbital_eq_sum hc]
    simp only [jumpStep, democraticJump, List.map_map, reducedMass, Function.comp_def]
    rw [foldl_add_list, sum_zip h.1 (fun x m => m • x.velocity)]
    have : ∀ x : Alt ℝ, x.mass • (x.position + (dt • (Axes.zero + (a.planets.map fun x : Alt ℝ => x.mass • x.velocity).sum)).sdiv
        u.star.mass).cross x.velocity = x.mass • x.position.cross x.velocity
          + ((dt / u.star.mass) • (a.planets.map fun x : Alt ℝ => x.mass • x.velocity).sum).cross (x.mass • x.velocity) := by
      intro x
      rw [Axes.sdiv_eq_smul]
      generalize (a.planets.map fun x : Alt ℝ => x.mass • x.velocity).sum = P
      ext <;> simp [Axes.zero] <;> field_simp <;> ring
    simp only [this]
    rw [sum_add_list, sum_cross_const]
    generalize (a.planets.map fun x : Alt ℝ => x.mass • x.velocity).sum = P
    have e : ((dt / u.star.mass) • P).cross P = 0 := by ext <;> simp <;> ring
    rw [e, add_zero]
  · have hc : Coordinates.whds ≠ .jacobi := by decide
    rw [orbital_eq_sum hc, orbital_eq_sum hc]
    simp only [jumpStep, whdsJump, List.map_map, reducedMass, Function.comp_def]
    rw [foldl_add_list, sum_zip h.1 (fun x m => (m • x.velocity).sdiv (u.star.mass + m))]
    refine (sum_zip h.1 (fun x m => (u.star.mass * x.mass / (u.star.mass + x.mass)) • (x.position + dt • (Axes.zero
        + (a.planets.map fun x : Alt ℝ => (x.mass • x.velocity).sdiv (u.star.mass + x.mass)).sum
          - (m • x.velocity).sdiv (u.star.mass + m))).cross x.velocity)).trans ?_
    have hpos : ∀ x ∈ a.planets, u.star.mass + x.mass ≠ 0 := by
      intro x hx
      have : 0 < x.mass := by
        have hh := h.1
        clear h
        have h2 := hu.2
        generalize a.planets = l at *
        generalize u.planets = m at *
        induction hh with
        | nil => simp at hx
        | @cons y z l m h1 _ ih =>
          rcases List.mem_cons.1 hx with rfl | hx
          · rw [h1.1]; exact h2 z (by simp)
          · exact ih hx (fun p hp => h2 p (by simp [hp]))
      have := hu.1
      positivity
    have : ∀ x ∈ a.planets, (u.star.mass * x.mass / (u.star.mass + x.mass)) • (x.position + dt • (Axes.zero
        + (a.planets.map fun x : Alt ℝ => (x.mass • x.velocity).sdiv (u.star.mass + x.mass)).sum
          - (x.mass • x.velocity).sdiv (u.star.mass + x.mass))).cross x.velocity
        = (u.star.mass * x.mass / (u.star.mass + x.mass)) • x.position.cross x.velocity
          + ((dt * u.star.mass) • (a.planets.map fun x : Alt ℝ => (x.mass • x.velocity).sdiv (u.star.mass + x.mass)).sum).cross
            ((x.mass • x.velocity).sdiv (u.star.mass + x.mass)) := by
      intro x hx
      have := hpos x hx
      generalize (a.planets.map fun x : Alt ℝ => (x.mass • x.velocity).sdiv (u.star.mass + x.mass)).sum = P
      rw [Axes.sdiv_eq_smul]
      ext <;> simp [Axes.zero] <;> field_simp <;> ring
    rw [List.map_congr_left this, sum_add_list, sum_cross_const]
    generalize (a.planets.map fun x : Alt ℝ => (x.mass • x.velocity).sdiv (u.star.mass + x.mass)).sum = P
    have e : ((dt * u.star.mass) • P).cross P = 0 := by ext <;> simp <;> ring
    rw [e, add_zero]

/-! ### Kick -/

theorem kick_angular (c : Coordinates) (g dt : ℝ) {u : Sys ℝ} (hu : Massive u) :
    (interactionStep c g dt u (toAlternative c u)).angular c u.star.mass
      = u.moment Body.position Body.velocity
        + dt • u.moment (fun p => p.position - pivot c u) Body.acceleration := by
  have h0 := hu.1.ne'
  cases c
  · exact jacobi_kick_angular g dt hu
  · rw [toAlternative_angular .democraticHeliocentric hu]
    unfold AltSys.angular
    rw [interactionStep_star, add_assoc]
    congr 1
    have hc : Coordinates.democraticHeliocentric ≠ .jacobi := by decide
    rw [orbital_eq_sum hc, orbital_eq_sum hc]
    simp only [interactionStep, democraticInteraction, toAlternative, toHelio_planets, zip_map_self, List.map_map,
      Function.comp_def, reducedMass]
    have : ∀ p : Body ℝ, (helioOf false u p).mass • (helioOf false u p).position.cross
        ((helioOf false u p).velocity + dt • p.acceleration)
        = (helioOf false u p).mass • (helioOf false u p).position.cross (helioOf false u p).velocity
          + dt • p.mass • (p.position - u.star.position).cross p.acceleration := by
      intro p
      have e1 : (helioOf false u p).mass = p.mass := rfl
      have e2 : (helioOf false u p).position = p.position - u.star.position := rfl
      rw [e1, e2]
      ext <;> simp <;> ring
    simp only [this]
    rw [sum_add_list, sum_smul_list]
    unfold Sys.moment pivot
    have e : (u.star.position - u.star.position).cross u.star.acceleration = 0 := by ext <;> simp
    dsimp only
    rw [e, smul_zero, zero_add]
  · rw [toAlternative_angular .whds hu]
    unfold AltSys.angular
    rw [interactionStep_star, add_assoc]
    congr 1
    have hc : Coordinates.whds ≠ .jacobi := by decide
    rw [orbital_eq_sum hc, orbital_eq_sum hc]
    simp only [interactionStep, whdsInteraction, toAlternative, toHelio_planets, zip_map_self, List.map_map,
      Function.comp_def, reducedMass]
    have : ∀ p ∈ u.planets, (u.star.mass * (helioOf true u p).mass / (u.star.mass + (helioOf true u p).mass))
          • (helioOf true u p).position.cross
        ((helioOf true u p).velocity + ((dt * (u.star.mass + p.mass)) • p.acceleration).sdiv u.star.mass)
        = (u.star.mass * (helioOf true u p).mass / (u.star.mass + (helioOf true u p).mass))
          • (helioOf true u p).position.cross (helioOf true u p).velocity
          + dt • p.mass • (p.position - u.star.position).cross p.acceleration := by
      intro p hp
      have e1 : (helioOf true u p).mass = p.mass := rfl
      have e2 : (helioOf true u p).position = p.position - u.star.position := rfl
      have h1 := hu.2 p hp
      have h2 := hu.1
      have h3 : u.star.mass + p.mass ≠ 0 := by positivity
      rw [e1, e2, Axes.sdiv_eq_smul]
      generalize (helioOf true u p).velocity = w
      generalize p.position - u.star.position = q
      ext <;> simp <;> field_simp <;> ring
    rw [List.map_congr_left this, sum_add_list, sum_smul_list]
    unfold Sys.moment pivot
    have e : (u.star.position - u.star.position).cross u.star.acceleration = 0 := by ext <;> simp
    dsimp only
    rw [e, smul_zero, zero_add]

end Posidonius.WHFast
