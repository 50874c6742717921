import Verif.Lemmas.KeplerRoot
import Verif.Props.Kepler

/-! # C108: what the solver of Kepler's equation finds

`G` are the exact functions of Stiefel and Scheifele; how close those of the code are to them is C73, that the solver
ends is C74. -/

namespace Posidonius.WHFast
open Posidonius

variable {massG dt : ℝ} {r v : Axes ℝ}

/-- **C108**: whatever way the solver ends, it returns the functions and the inverse distance of one anomaly `y`,
and Kepler's equation has one solution, which is `y`, or is within 2e-15 of it, or lies among the points of a cycle
of Newton's or Laguerre's method to which `y` belongs.  The last can only happen for bound orbits. -/
theorem C108_returns (hm : 0 < massG) (hL : r.cross v ≠ 0) (hdt : 0 < dt) {r0 eta0 zeta0 beta : ℝ} {G : ℝ → Gs ℝ}
    (hr0 : r0 = √(r.dot r)) (heta : eta0 = r.dot v) (hbeta : beta = 2 * massG / √(r.dot r) - v.dot v)
    (hzeta : zeta0 = massG - beta * r0) (hG : G = gFunctions beta) {fuel : ℕ} {gs : Gs ℝ} {ri : ℝ}
    (h : keplerSolve (fun x => some (G x)) (orbitOf massG r v) dt fuel = some (gs, ri)) :
    ∃ root, 0 < root ∧ (∀ x, universalTime r0 eta0 zeta0 G x = dt ↔ x = root)
      ∧ ∃ y, gs = G y ∧ ri = 1 / universalDistance r0 eta0 zeta0 G y
        ∧ (y = root ∨ |y - root| ≤ 2e-15 * root
          ∨ 0 < beta ∧ (CycleAround (newtonStep r0 eta0 zeta0 G dt) 2 y root
            ∨ ∃ n, 0 < n ∧ CycleAround (laguerreStep r0 eta0 zeta0 G dt) n y root)) := by
  have hr : r ≠ 0 := by rintro rfl; exact hL (Axes.zero_cross v)
  have ob : (orbitOf massG r v).beta = beta := by
    rw [hbeta, orbitOf_eq]
    try ring
  have or0 : (orbitOf massG r v).r0 = r0 := by rw [hr0, orbitOf_eq]
  have oe : (orbitOf massG r v).eta0 = eta0 := by rw [heta, orbitOf_eq]
  have oz : (orbitOf massG r v).zeta0 = zeta0 := by rw [hzeta, orbit_zeta, ob, or0]; rfl
  have hGf : GFunctions (orbitOf massG r v).beta G := by rw [ob, hG]; exact gFunctions_spec beta
  have hmono := time_strictMono hGf hL
  have hpos := distance_pos hGf hL
  obtain ⟨root, hroot, -⟩ := (time_bijective hGf hm.le hL).existsUnique dt
  have hroot : (orbitOf massG r v).time G root = dt := hroot
  have h0 : 0 < root := by rw [← hmono.lt_iff_lt, time_zero hGf, hroot]; exact hdt
  have hbr : ((orbitOf massG r v).bracket dt).1 ≤ root ∧ root ≤ ((orbitOf massG r v).bracket dt).2 := by
    by_cases hb : 0 < (orbitOf massG r v).beta
    · exact bracket_elliptic hm hL hb (by rw [ob, ← hG]; exact hroot)
    · exact bracket_hyperbolic hm hL (not_lt.1 hb) hdt hGf hroot
  have hri : ∀ y, (orbitOf massG r v).ri (G y) = 1 / (orbitOf massG r v).distance G y := fun y => by
    rw [Orbit.ri_eq, one_div]
  have hnoc : (orbitOf massG r v).beta ≤ 0 → ∀ a b, newtonStep (orbitOf massG r v).r0 (orbitOf massG r v).eta0
      (orbitOf massG r v).zeta0 G dt a = b → newtonStep (orbitOf massG r v).r0 (orbitOf massG r v).eta0
      (orbitOf massG r v).zeta0 G dt b = a → a = b := fun hb a b e1 e2 => by
    rcases lt_trichotomy a b with hab | hab | hab
    · exact (newton_no_cycle hGf hm hL hb hab e1 e2).elim
    · exact hab
    · exact (newton_no_cycle hGf hm hL hb hab e2 e1).elim
  have ntow := newton_towards (dt := dt) (orbitOf massG r v) hpos
  have qtow := quartic_towards (dt := dt) (orbitOf massG r v) hpos
  have fixed : ∀ y, newtonStep (orbitOf massG r v).r0 (orbitOf massG r v).eta0 (orbitOf massG r v).zeta0 G dt y = y →
      y = root := fun y hy => by
    obtain ⟨-, ⟨i, hi, h1⟩, j, hj, h2⟩ := cycleAround hmono hroot ntow Nat.one_pos (y := y) hy
    obtain rfl : i = 0 := by omega
    obtain rfl : j = 0 := by omega
    exact le_antisymm h1 h2
  have hnewt : (fun z => (orbitOf massG r v).newton dt (G z) z) = newtonStep (orbitOf massG r v).r0
      (orbitOf massG r v).eta0 (orbitOf massG r v).zeta0 G dt := by
    funext z; exact newton_eq _ z (hpos z)
  have hquar : (fun z => (orbitOf massG r v).quartic dt (G z) z) = laguerreStep (orbitOf massG r v).r0
      (orbitOf massG r v).eta0 (orbitOf massG r v).zeta0 G dt := by
    funext z; exact quartic_eq _ z (hpos z)
  rw [← ob, ← or0, ← oe, ← oz]
  refine ⟨root, h0, fun x => ⟨fun e => hmono.injective (e.trans hroot.symm), fun e => by rw [e]; exact hroot⟩, ?_⟩
  have bis : ∀ gs ri, bisect (fun y => some (G y)) (orbitOf massG r v) dt fuel = some (gs, ri) →
      ∃ y, gs = G y ∧ ri = 1 / (orbitOf massG r v).distance G y ∧ |y - root| ≤ 2e-15 * root := fun gs ri e => by
    obtain ⟨y, h1, h2, h3⟩ := bisect_root _ hmono hroot h0 hbr e
    exact ⟨y, h1, h2.trans (hri y), h3⟩
  unfold keplerSolve at h
  dsimp only at h
  split at h
  · rename_i hc
    have hb : 0 < (orbitOf massG r v).beta := by
      have := (Bool.and_eq_true_iff.1 hc).1
      simpa using this
    split at h
    · exact absurd h (by simp)
    · rename_i gs' e
      simp only [Option.some.injEq, Prod.mk.injEq] at h
      obtain ⟨y, h1, n, h2, h3⟩ := quarticLoop_cycle _ _ _ [] (fun y hy => absurd hy (by simp)) _ _ e
      rw [hquar] at h3
      refine ⟨y, by rw [← h1, h.1], by rw [← h.2, h1]; exact hri y, Or.inr (Or.inr ⟨hb, Or.inr ⟨n, h2, ?_⟩⟩)⟩
      exact cycleAround hmono hroot qtow h2 h3
    · obtain ⟨y, h1, h2, h3⟩ := bis _ _ h
      exact ⟨y, h1, h2, Or.inr (Or.inl h3)⟩
  · split at h
    · exact absurd h (by simp)
    · rename_i gs' ri' e
      simp only [Option.some.injEq, Prod.mk.injEq] at h
      obtain ⟨y, h1, h2, n, hn, h3⟩ := newtonLoop_cycle _ _ _ _ rfl _ _ _ _ e
      rw [hnewt] at h3
      refine ⟨y, by rw [← h1, h.1], by rw [← h.2, h2]; exact hri y, ?_⟩
      rcases hn with rfl | rfl
      · exact Or.inl (fixed y h3)
      · by_cases hb : 0 < (orbitOf massG r v).beta
        · exact Or.inr (Or.inr ⟨hb, Or.inl (cycleAround hmono hroot ntow Nat.two_pos h3)⟩)
        · refine Or.inl (fixed y ?_)
          exact (hnoc (not_lt.1 hb) y _ rfl h3).symm
    · obtain ⟨y, h1, h2, h3⟩ := bis _ _ h
      exact ⟨y, h1, h2, Or.inr (Or.inl h3)⟩

/-- **C108, the error of the step**: with the functions of any anomaly `y` the step gives the velocity of the exact
two-body motion (`p`, `w`) at the time that belongs to `y`, and its position plus the velocity at the start times the
missing time. -/
theorem C108_step (hm : 0 ≤ massG) (hL : r.cross v ≠ 0) {G : ℝ → Gs ℝ} (h : GFunctions (orbitOf massG r v).beta G) :
    ∃ p w : ℝ → Axes ℝ, p 0 = r ∧ w 0 = v
      ∧ (∀ t, VecDeriv p (w t) t ∧ VecDeriv w ((-massG / √((p t).dot (p t)) ^ 3) • p t) t)
      ∧ ∀ dt y t, t = universalTime (orbitOf massG r v).r0 (orbitOf massG r v).eta0 (orbitOf massG r v).zeta0 G y →
        keplerFinish (orbitOf massG r v) dt (G y) ((orbitOf massG r v).ri (G y)) r v = (p t + (dt - t) • v, w t) := by
  obtain ⟨x, hx, p, w, h1, h2, h3, h4⟩ := C24_two_body h hm hL
  refine ⟨p, w, h2, h3, h4, fun dt y t ht => ?_⟩
  have e : x t = y := (time_bijective h hm hL).1 ((hx t).trans ht)
  have e1 := h1 t
  rw [e, keplerFinish_eq] at e1
  rw [keplerFinish_eq]
  rw [Prod.mk.injEq] at e1
  rw [e1.1, e1.2, Prod.mk.injEq]
  refine ⟨?_, rfl⟩
  ext <;> simp <;> ring

/-- **C108, angular momentum**: the error in the angular momentum is proportional to the error in Kepler's equation. -/
theorem C108_angular_momentum (hL : r.cross v ≠ 0) {G : ℝ → Gs ℝ} (h : GFunctions (orbitOf massG r v).beta G)
    (y : ℝ) {dt t d r0 : ℝ} {r' v' : Axes ℝ} (hr0 : r0 = √(r.dot r))
    (ht : t = universalTime (orbitOf massG r v).r0 (orbitOf massG r v).eta0 (orbitOf massG r v).zeta0 G y)
    (hd : d = universalDistance (orbitOf massG r v).r0 (orbitOf massG r v).eta0 (orbitOf massG r v).zeta0 G y)
    (he : (r', v') = keplerFinish (orbitOf massG r v) dt (G y) ((orbitOf massG r v).ri (G y)) r v) :
    r'.cross v' = (1 + (dt - t) * massG * (G y).g1 / (r0 * d)) • r.cross v := by
  have hr : r ≠ 0 := by rintro rfl; exact hL (Axes.zero_cross v)
  have hp := orbit_r0_pos massG v hr
  have hdn : d ≠ 0 := by rw [hd]; exact distance_ne_zero h hL y
  have det := h.determinant (eta0 := (orbitOf massG r v).eta0) (orbit_zeta massG r v) hp.ne' y (distance_ne_zero h hL y)
  have hmG : (orbitOf massG r v).massG = massG := rfl
  rw [← ht, ← hd, hmG] at det
  have hri : (orbitOf massG r v).ri (G y) = d⁻¹ := by rw [Orbit.ri_eq, hd]; rfl
  rw [keplerFinish_eq, hri, Prod.mk.injEq] at he
  rw [he.1, he.2, combination_cross]
  congr 1
  rw [hr0, hmG, show √(r.dot r) = (orbitOf massG r v).r0 by rw [orbitOf_eq], div_eq_mul_inv _ (_ * d), mul_inv]
  linear_combination det

/-- A circular orbit: Newton's method ends at once, with the anomaly 1 / 20 for the time step 1 / 20. -/
example : keplerSolve (fun x => some (gFunctions 1 x)) (orbitOf 1 (⟨1, 0, 0⟩ : Axes ℝ) ⟨0, 1, 0⟩) (1 / 20) 1
      = some (gFunctions 1 (1 / 20), 1)
    ∧ (2 * 1 / √((⟨1, 0, 0⟩ : Axes ℝ).dot ⟨1, 0, 0⟩) - (⟨0, 1, 0⟩ : Axes ℝ).dot ⟨0, 1, 0⟩ : ℝ) = 1 := by
  have hb : orbitOf 1 (⟨1, 0, 0⟩ : Axes ℝ) ⟨0, 1, 0⟩ = ⟨1, 1, 1, 1, 0, 0⟩ := by
    rw [orbitOf_eq]; norm_num [Axes.dot]
  refine ⟨?_, by norm_num [Axes.dot]⟩
  have hn : ∀ gs : Gs ℝ, ∀ x, (⟨1, 1, 1, 1, 0, 0⟩ : Orbit ℝ).newton 20⁻¹ gs x = 20⁻¹ := fun gs x => by
    simp [Orbit.newton, Orbit.ri]
  have hg : (⟨1, 1, 1, 1, 0, 0⟩ : Orbit ℝ).guess (20⁻¹ : ℝ) = 20⁻¹ := by simp [Orbit.guess]
  have hp : ¬ (0.01 : ℝ) * (⟨1, 1, 1, 1, 0, 0⟩ : Orbit ℝ).xPerPeriod < 0 := by
    have := Real.pi_pos
    simp [Orbit.xPerPeriod]
    positivity
  rw [hb]
  simp [keplerSolve, hn, hg, newtonLoop, hp, Orbit.ri]

end Posidonius.WHFast
