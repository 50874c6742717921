import Verif.Lemmas.WHFast
import Verif.Model.RealTrig

/-! Round trips of the coordinates and what the steps of WHFast leave unchanged. -/

namespace Posidonius.WHFast
open Posidonius

theorem jacobiLoop_sums (ps : List (Body ℝ)) (eta : ℝ) (s sv : Axes ℝ) (he : 0 < eta) (hp : ∀ p ∈ ps, 0 < p.mass) :
    (jacobiLoop eta s sv ps).2.1 = eta + totalMass ps
    ∧ (jacobiLoop eta s sv ps).2.2.1 = s + (ps.map fun p => p.mass • p.position).sum
    ∧ (jacobiLoop eta s sv ps).2.2.2 = sv + (ps.map fun p => p.mass • p.velocity).sum := by
  induction ps generalizing eta s sv with
  | nil => simp [jacobiLoop, totalMass]
  | cons p ps ih =>
    have hp0 : 0 < p.mass := hp p (by simp)
    rw [jacobiLoop_cons he.ne']
    obtain ⟨h1, h2, h3⟩ := ih (eta + p.mass) (s + p.mass • p.position) (sv + p.mass • p.velocity) (by positivity)
      (fun q hq => hp q (by simp [hq]))
    dsimp only
    refine ⟨?_, ?_, ?_⟩
    · rw [h1]; simp [totalMass]; ring
    · rw [h2]; simp only [List.map_cons, List.sum_cons]; module
    · rw [h3]; simp only [List.map_cons, List.sum_cons]; module

theorem jacobiLoop_sameMasses (ps : List (Body ℝ)) (eta : ℝ) (s sv : Axes ℝ) :
    SameMasses (jacobiLoop eta s sv ps).1 ps := by
  induction ps generalizing eta s sv with
  | nil => exact List.Forall₂.nil
  | cons p ps ih => exact List.Forall₂.cons ⟨rfl, rfl⟩ (ih _ _ _)

/-- The centre of mass in Jacobi coordinates. -/
theorem toJacobi_star {u : Sys ℝ} (hu : Massive u) : (toJacobi u).star
    = { mass := u.mass, position := u.mass⁻¹ • u.weighted Body.position,
        velocity := u.mass⁻¹ • u.weighted Body.velocity } := by
  obtain ⟨h1, h2, h3⟩ := jacobiLoop_sums u.planets u.star.mass (u.star.mass • u.star.position)
    (u.star.mass • u.star.velocity) hu.1 hu.2
  have l1 : (lit 1 : ℝ) = 1 := by simp
  unfold toJacobi
  simp only [scaled_eq, l1, one_div, h1, h2, h3]
  rfl

/-- The star of the alternative coordinates is the centre of mass. -/
theorem toAlternative_star (c : Coordinates) {u : Sys ℝ} (hu : Massive u) : (toAlternative c u).star
    = { mass := u.mass, position := u.mass⁻¹ • u.weighted Body.position,
        velocity := u.mass⁻¹ • u.weighted Body.velocity } := by
  cases c
  · exact toJacobi_star hu
  · exact centre_eq u
  · exact centre_eq u

theorem toHelio_sameMasses (whds : Bool) (u : Sys ℝ) : SameMasses (toHelio whds u).planets u.planets := by
  unfold SameMasses toHelio
  dsimp only
  rw [List.forall₂_map_left_iff, List.forall₂_same]
  exact fun _ _ => ⟨rfl, rfl⟩

theorem toAlternative_matches (c : Coordinates) {u : Sys ℝ} (hu : Massive u) : Matches (toAlternative c u) u := by
  refine ⟨?_, by rw [toAlternative_star c hu]⟩
  cases c
  · exact jacobiLoop_sameMasses _ _ _ _
  · exact toHelio_sameMasses _ _
  · exact toHelio_sameMasses _ _

theorem fromAlternative_like (c : Coordinates) {a : AltSys ℝ} {u : Sys ℝ} (h : Matches a u) :
    Like (fromAlternative c a u) u := by
  cases c
  · exact fromJacobi_like h
  · exact fromHelio_like _ h
  · exact fromHelio_like _ h

theorem fromAlternative_sums (c : Coordinates) {a : AltSys ℝ} {u : Sys ℝ} (h : Matches a u) (hu : Massive u) :
    (fromAlternative c a u).weighted Body.position = u.mass • a.star.position
    ∧ (fromAlternative c a u).weighted Body.velocity = u.mass • a.star.velocity := by
  cases c
  · exact fromJacobi_sums h hu
  · exact ⟨fromHelio_position _ h hu, fromHelio_momentum _ h hu⟩
  · exact ⟨fromHelio_position _ h hu, fromHelio_momentum _ h hu⟩

/-! ### Round trips -/

theorem fromJacobi_toJacobi {u : Sys ℝ} (hu : Massive u) : fromJacobi (toJacobi u) u = u := by
  obtain ⟨h1, h2, h3⟩ := jacobiLoop_sums u.planets u.star.mass (u.star.mass • u.star.position)
    (u.star.mass • u.star.velocity) hu.1 hu.2
  have hm := hu.mass_pos.ne'
  have e : (toJacobi u).star.mass • (toJacobi u).star.position = (jacobiLoop u.star.mass
      (u.star.mass • u.star.position) (u.star.mass • u.star.velocity) u.planets).2.2.1 := by
    rw [toJacobi_star hu, smul_smul, mul_inv_cancel₀ hm, one_smul, h2]
    rfl
  have e' : (toJacobi u).star.mass • (toJacobi u).star.velocity = (jacobiLoop u.star.mass
      (u.star.mass • u.star.position) (u.star.mass • u.star.velocity) u.planets).2.2.2 := by
    rw [toJacobi_star hu, smul_smul, mul_inv_cancel₀ hm, one_smul, h3]
    rfl
  have r := fromJacobiLoop_jacobiLoop u.planets u.star.mass (u.star.mass • u.star.position)
    (u.star.mass • u.star.velocity) hu.1 hu.2
  have l1 : (lit 1 : ℝ) = 1 := by simp
  unfold fromJacobi
  dsimp only
  rw [e, e', show (toJacobi u).star.mass = (jacobiLoop u.star.mass
      (u.star.mass • u.star.position) (u.star.mass • u.star.velocity) u.planets).2.1 from rfl,
    show (toJacobi u).planets = (jacobiLoop u.star.mass
      (u.star.mass • u.star.position) (u.star.mass • u.star.velocity) u.planets).1 from rfl, r]
  simp only [scaled_eq, l1, one_div, smul_smul, inv_mul_cancel₀ hu.1.ne', one_smul, List.reverse_reverse]
  rfl

theorem toJacobi_fromJacobi {a : AltSys ℝ} {u : Sys ℝ} (h : Matches a u) (hu : Massive u) :
    toJacobi (fromJacobi a u) = a := by
  have hlt : totalMass u.planets < a.star.mass := by
    rw [h.2]
    unfold Sys.mass
    have := hu.1
    linarith
  have r := jacobiLoop_fromJacobiLoop a.planets u.planets h.1 a.star.mass (a.star.mass • a.star.position)
    (a.star.mass • a.star.velocity) hlt hu.2
  have hm : a.star.mass ≠ 0 := by rw [h.2]; exact hu.mass_pos.ne'
  have e3 := fromJacobiLoop_mass (a.planets.zip u.planets).reverse a.star.mass
    (a.star.mass • a.star.position) (a.star.mass • a.star.velocity)
  have hsum : ((a.planets.zip u.planets).reverse.map fun x => x.2.mass).sum = totalMass u.planets := by
    rw [List.map_reverse, List.sum_reverse, sum_snd h.1 (fun p => p.mass)]
    rfl
  have e4 : a.star.mass - totalMass u.planets = u.star.mass := by rw [h.2]; unfold Sys.mass; ring
  rw [hsum, e4] at e3
  rw [e3] at r
  have l1 : (lit 1 : ℝ) = 1 := by simp
  unfold toJacobi fromJacobi
  dsimp only [Body.moved]
  simp only [scaled_eq, l1, one_div, e3, smul_smul, mul_inv_cancel₀ hu.1.ne', one_smul, r,
    inv_mul_cancel₀ hm]

/-- A planet in heliocentric coordinates. -/
noncomputable def helioOf (whds : Bool) (u : Sys ℝ) (p : Body ℝ) : Alt ℝ :=
  { mass := p.mass, massG := p.massG, position := p.position - u.star.position,
    velocity := if whds then scaled (p.velocity - (centre u).velocity) ((u.star.mass + p.mass) / u.star.mass)
      else p.velocity - (centre u).velocity }

theorem fromHelio_toHelio (whds : Bool) {u : Sys ℝ} (hu : Massive u) : fromHelio whds (toHelio whds u) u = u := by
  have hm := hu.mass_pos.ne'
  have h := toAlternative_matches .democraticHeliocentric hu
  have hM : Matches (toHelio whds u) u := ⟨toHelio_sameMasses whds u, h.2⟩
  have hz : (toHelio whds u).planets.zip u.planets = u.planets.map fun p =>
      (helioOf whds u p, p) := by
    unfold toHelio
    dsimp only
    rw [zip_map_self]
    rfl
  have hpos : starPosition (toHelio whds u) u = u.star.position := by
    rw [starPosition_eq, hz, List.map_map]
    have : ((fun x : Alt ℝ × Body ℝ => x.2.mass • x.1.position) ∘ fun p : Body ℝ =>
      (helioOf whds u p, p))
        = fun p => p.mass • p.position - p.mass • u.star.position := by
      funext p
      simp only [Function.comp_apply, helioOf]
      module
    rw [this, sum_sub_list, sum_const_smul, show (toHelio whds u).star = centre u from rfl, centre_eq]
    dsimp only
    have e : u.weighted Body.position - ((u.planets.map fun p => p.mass • p.position).sum
        - (u.planets.map fun p => p.mass).sum • u.star.position) = u.mass • u.star.position := by
      unfold Sys.weighted Sys.mass totalMass
      module
    rw [← smul_sub, e, smul_smul, inv_mul_cancel₀ hm, one_smul]
  have hvel : ∀ p ∈ u.planets, (if whds then
      (helioOf whds u p).velocity.sdiv ((u.star.mass + p.mass) / u.star.mass)
      else (helioOf whds u p).velocity) + (centre u).velocity = p.velocity := by
    intro p hp
    have h0 := hu.1
    have h1 := hu.2 p hp
    have : (u.star.mass + p.mass) / u.star.mass ≠ 0 := by positivity
    cases whds
    · simp [helioOf]
    · simp only [helioOf, if_true, scaled_eq, Axes.sdiv_eq_smul, smul_smul, inv_mul_cancel₀ this, one_smul]
      module
  have hplanets : (fromHelio whds (toHelio whds u) u).planets = u.planets := by
    unfold fromHelio
    dsimp only
    rw [hz, hpos, List.map_map]
    conv_rhs => rw [← List.map_id u.planets]
    apply List.map_congr_left
    intro p hp
    have := hvel p hp
    simp only [Function.comp_apply, Body.moved, id_eq]
    rw [show (toHelio whds u).star = centre u from rfl, this, show (helioOf whds u p).position
      = p.position - u.star.position from rfl, sub_add_cancel]
  have hstar : (fromHelio whds (toHelio whds u) u).star.velocity = u.star.velocity := by
    have e := fromHelio_momentum whds hM hu
    rw [show (toHelio whds u).star = centre u from rfl, centre_eq, smul_smul, mul_inv_cancel₀ hm, one_smul] at e
    unfold Sys.weighted at e
    rw [hplanets] at e
    have e2 := add_right_cancel e
    have e3 : u.star.mass • (fromHelio whds (toHelio whds u) u).star.velocity
        = u.star.mass • u.star.velocity := e2
    have := congrArg (fun x => u.star.mass⁻¹ • x) e3
    simpa only [smul_smul, inv_mul_cancel₀ hu.1.ne', one_smul] using this
  have : fromHelio whds (toHelio whds u) u
      = ⟨u.star.moved u.star.position u.star.velocity, u.planets⟩ := by
    rw [← hplanets]
    conv_rhs => rw [← hstar]
    rw [hplanets]
    conv_rhs => rw [← hpos, ← hplanets]
    rfl
  exact this

theorem toHelio_fromHelio (whds : Bool) {a : AltSys ℝ} {u : Sys ℝ} (h : Matches a u) (hu : Massive u) :
    toHelio whds (fromHelio whds a u) = a := by
  have hm := hu.mass_pos.ne'
  have hl := fromHelio_like whds h
  have hc : centre (fromHelio whds a u) = a.star := by
    rw [centre_eq, fromHelio_position whds h hu, fromHelio_momentum whds h hu, hl.mass, smul_smul, smul_smul,
      inv_mul_cancel₀ hm, one_smul, one_smul, ← h.2]
  have hp : (toHelio whds (fromHelio whds a u)).planets = a.planets := by
    conv_rhs => rw [← h.1.fst]
    unfold toHelio
    dsimp only
    rw [hc]
    unfold fromHelio
    dsimp only
    rw [List.map_map]
    apply List.map_congr_left
    intro x hx
    obtain ⟨h1, h2⟩ := h.1.zip x hx
    have h3 := hu.2 _ (List.of_mem_zip hx).2
    have h4 := hu.1
    have h5 : (u.star.mass + x.2.mass) / u.star.mass ≠ 0 := by positivity
    simp only [Function.comp_apply, Body.moved, add_sub_cancel_right]
    rw [← h1, ← h2]
    rw [← h1] at h5
    cases whds
    · simp
    · simp only [if_true, scaled_eq, Axes.sdiv_eq_smul, smul_smul, mul_inv_cancel₀ h5, one_smul]
  have hs : (toHelio whds (fromHelio whds a u)).star = a.star := hc
  calc toHelio whds (fromHelio whds a u)
      = ⟨(toHelio whds (fromHelio whds a u)).star, (toHelio whds (fromHelio whds a u)).planets⟩ := rfl
    _ = a := by rw [hs, hp]

theorem fromAlternative_toAlternative (c : Coordinates) {u : Sys ℝ} (hu : Massive u) :
    fromAlternative c (toAlternative c u) u = u := by
  cases c
  · exact fromJacobi_toJacobi hu
  · exact fromHelio_toHelio _ hu
  · exact fromHelio_toHelio _ hu

theorem toAlternative_fromAlternative (c : Coordinates) {a : AltSys ℝ} {u : Sys ℝ} (h : Matches a u)
    (hu : Massive u) : toAlternative c (fromAlternative c a u) = a := by
  cases c
  · exact toJacobi_fromJacobi h hu
  · exact toHelio_fromHelio _ h hu
  · exact toHelio_fromHelio _ h hu

/-! ### The steps -/

theorem SameMasses.map_zip {a : List (Alt ℝ)} {p : List (Body ℝ)} (h : SameMasses a p)
    (f : Alt ℝ × Body ℝ → Alt ℝ) (hf : ∀ x, (f x).mass = x.1.mass ∧ (f x).massG = x.1.massG) :
    SameMasses ((a.zip p).map f) p := by
  induction h with
  | nil => exact List.Forall₂.nil
  | @cons x y l m h1 _ ih =>
    rw [List.zip_cons_cons, List.map_cons]
    exact List.Forall₂.cons ⟨(hf (x, y)).1.trans h1.1, (hf (x, y)).2.trans h1.2⟩ ih

theorem SameMasses.map {a : List (Alt ℝ)} {p : List (Body ℝ)} (h : SameMasses a p)
    (f : Alt ℝ → Alt ℝ) (hf : ∀ x, (f x).mass = x.mass ∧ (f x).massG = x.massG) :
    SameMasses (a.map f) p := by
  induction h with
  | nil => exact List.Forall₂.nil
  | @cons x y l m h1 _ ih =>
    rw [List.map_cons]
    exact List.Forall₂.cons ⟨(hf x).1.trans h1.1, (hf x).2.trans h1.2⟩ ih

theorem jumpStep_star (c : Coordinates) (dt : ℝ) (u : Sys ℝ) (a : AltSys ℝ) : (jumpStep c dt u a).star = a.star := by
  cases c <;> rfl

theorem jumpStep_matches (c : Coordinates) (dt : ℝ) {u : Sys ℝ} {a : AltSys ℝ} (h : Matches a u) :
    Matches (jumpStep c dt u a) u := by
  refine ⟨?_, by rw [jumpStep_star]; exact h.2⟩
  cases c
  · exact h.1
  · exact h.1.map _ fun _ => ⟨rfl, rfl⟩
  · exact h.1.map_zip _ fun _ => ⟨rfl, rfl⟩

theorem jacobiAccelerationLoop_length (l : List (Body ℝ)) (eta : ℝ) (s : Axes ℝ) :
    (jacobiAccelerationLoop eta s l).length = l.length := by
  induction l generalizing eta s with
  | nil => rfl
  | cons p l ih => simp [jacobiAccelerationLoop, ih]

theorem jacobiKick_sameMasses (g dt : ℝ) {a : List (Alt ℝ)} {p : List (Body ℝ)} (h : SameMasses a p)
    (acc : List (Axes ℝ)) (hl : acc.length = p.length) (first : Bool) (eta : ℝ) :
    SameMasses (jacobiKick g dt first eta (a.zip acc)) p := by
  induction h generalizing acc first eta with
  | nil => exact List.Forall₂.nil
  | @cons x y l m h1 _ ih =>
    cases acc with
    | nil => simp at hl
    | cons b acc =>
      rw [List.zip_cons_cons, jacobiKick]
      exact List.Forall₂.cons h1 (ih acc (by simpa using hl) false _)

theorem interactionStep_star (c : Coordinates) (g dt : ℝ) (u : Sys ℝ) (a : AltSys ℝ) :
    (interactionStep c g dt u a).star = a.star := by
  cases c <;> rfl

theorem interactionStep_matches (c : Coordinates) (g dt : ℝ) {u : Sys ℝ} {a : AltSys ℝ} (h : Matches a u) :
    Matches (interactionStep c g dt u a) u := by
  refine ⟨?_, by rw [interactionStep_star]; exact h.2⟩
  cases c
  · exact jacobiKick_sameMasses g dt h.1 _ (jacobiAccelerationLoop_length _ _ _) _ _
  · exact h.1.map_zip _ fun _ => ⟨rfl, rfl⟩
  · exact h.1.map_zip _ fun _ => ⟨rfl, rfl⟩

theorem Alt.kepler_masses {fuel : ℕ} {massG dt : ℝ} {a b : Alt ℝ} (h : a.kepler fuel massG dt = some b) :
    b.mass = a.mass ∧ b.massG = a.massG := by
  unfold Alt.kepler at h
  split at h
  · cases h
  · cases h; exact ⟨rfl, rfl⟩

theorem keplerPlanets_sameMasses (c : Coordinates) (fuel : ℕ) (dt : ℝ) {a : List (Alt ℝ)} {p : List (Body ℝ)}
    (h : SameMasses a p) (running : ℝ) (b : List (Alt ℝ)) (hb : keplerPlanets c fuel dt running a = some b) :
    SameMasses b p := by
  induction h generalizing running b with
  | nil => cases hb; exact List.Forall₂.nil
  | @cons x y l m h1 _ ih =>
    unfold keplerPlanets at hb
    dsimp only at hb
    split at hb
    · next b' s e1 e2 =>
      cases hb
      have := Alt.kepler_masses e1
      exact List.Forall₂.cons ⟨this.1.trans h1.1, this.2.trans h1.2⟩ (ih _ _ e2)
    · cases hb

theorem keplerSteps_star {c : Coordinates} {fuel : ℕ} {dt : ℝ} {u : Sys ℝ} {a b : AltSys ℝ}
    (hb : keplerSteps c fuel dt u a = some b) :
    b.star = { a.star with position := a.star.position + dt • a.star.velocity } := by
  unfold keplerSteps at hb
  split at hb
  · cases hb
  · cases hb; rfl

theorem keplerSteps_matches {c : Coordinates} {fuel : ℕ} {dt : ℝ} {u : Sys ℝ} {a b : AltSys ℝ}
    (h : Matches a u) (hb : keplerSteps c fuel dt u a = some b) : Matches b u := by
  refine ⟨?_, by rw [keplerSteps_star hb]; exact h.2⟩
  unfold keplerSteps at hb
  split at hb
  · cases hb
  · next e => cases hb; exact keplerPlanets_sameMasses c fuel dt h.1 _ _ e

/-- A whole step (without velocity dependent forces): masses, momentum and centre of mass. -/
theorem step_sums (c : Coordinates) (fuel : ℕ) (g dt half : ℝ) (gravity : Sys ℝ → Option (Sys ℝ))
    (hg : ∀ v w, gravity v = some w → Like w v) {u u' : Sys ℝ} (hu : Massive u)
    (h : step c fuel g dt half gravity u = some u') :
    Like u' u ∧ u'.weighted Body.velocity = u.weighted Body.velocity
    ∧ u'.weighted Body.position = u.weighted Body.position + (half + half) • u.weighted Body.velocity := by
  unfold step at h
  split at h
  · cases h
  · next a u1 e1 =>
    split at h
    · cases h
    · next u2 e2 =>
      unfold part1 at e1
      split at e1
      · cases e1
      · next b eb =>
        cases e1
        unfold part2 at h
        dsimp only at h
        split at h
        · cases h
        · next d ed =>
          cases h
          have m0 := toAlternative_matches c hu
          have m1 := keplerSteps_matches m0 eb
          have m2 := jumpStep_matches c half m1
          have l1 := fromAlternative_like c m2
          have l2 := (hg _ _ e2).trans l1
          have m3 := m2.like l2
          have m4 := interactionStep_matches c g dt m3
          have m5 := jumpStep_matches c half m4
          have m6 := keplerSteps_matches m5 ed
          have l3 := fromAlternative_like c m6
          have s := fromAlternative_sums c m6 (l2.massive hu)
          have k1 := keplerSteps_star eb
          have k2 := keplerSteps_star ed
          rw [jumpStep_star, interactionStep_star, jumpStep_star, k1, toAlternative_star c hu] at k2
          have hm := hu.mass_pos.ne'
          refine ⟨l3.trans l2, ?_, ?_⟩
          · rw [s.2, k2, l2.mass]
            dsimp only
            rw [smul_smul, mul_inv_cancel₀ hm, one_smul]
          · rw [s.1, k2, l2.mass]
            dsimp only
            have : u.mass • (u.mass⁻¹ • u.weighted Body.position + half • u.mass⁻¹ • u.weighted Body.velocity
                + half • u.mass⁻¹ • u.weighted Body.velocity)
                = (u.mass * u.mass⁻¹) • (u.weighted Body.position + (half + half) • u.weighted Body.velocity) := by
              module
            rw [this, mul_inv_cancel₀ hm, one_smul]

end Posidonius.WHFast
