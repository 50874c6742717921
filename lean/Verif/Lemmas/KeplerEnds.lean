import Verif.Lemmas.Stumpff

/-! The solver of Kepler's equation ends. -/

namespace Posidonius.WHFast
open Posidonius

theorem newtonLoop_ends (beta : ℝ) (o : Orbit ℝ) (dt : ℝ) (k : ℕ) (x oldX : ℝ) (gs : Gs ℝ) (ri : ℝ) :
    ∃ res N, ∀ fuel, N ≤ fuel → newtonLoop (stiefel fuel beta) o dt k x oldX gs ri = some res := by
  induction k generalizing x oldX gs ri with
  | zero => exact ⟨_, 0, fun _ _ => rfl⟩
  | succ k ih =>
    obtain ⟨g, N, hg⟩ := stiefel_ends beta x
    by_cases hx : (eqb (o.newton dt g x) x || eqb (o.newton dt g x) oldX) = true
    · refine ⟨(true, g, o.ri g), N, fun fuel hf => ?_⟩
      rw [newtonLoop, hg fuel hf]
      dsimp only
      rw [if_pos hx]
    · obtain ⟨res, N', hr⟩ := ih (o.newton dt g x) x g (o.ri g)
      refine ⟨res, max N N', fun fuel hf => ?_⟩
      rw [newtonLoop, hg fuel (le_trans (le_max_left _ _) hf)]
      dsimp only
      rw [if_neg hx]
      exact hr fuel (le_trans (le_max_right _ _) hf)

/-- The next iterate of the quartic solver. -/
noncomputable def quarticNext (o : Orbit ℝ) (dt : ℝ) (gs : Gs ℝ) (x : ℝ) : ℝ :=
  let f := o.r0 * x + o.eta0 * gs.g2 + o.zeta0 * gs.g3 - dt
  let fp := o.r0 + o.eta0 * gs.g1 + o.zeta0 * gs.g2
  let fpp := o.eta0 * gs.g0 + o.zeta0 * gs.g1
  let denom := fp + FOps.sqrt (FOps.abs (lit 16 * fp * fp - lit 20 * f * fpp))
  (x * denom - lit 5 * f) / denom

theorem quarticLoop_ends (beta : ℝ) (o : Orbit ℝ) (dt : ℝ) (k : ℕ) (x : ℝ) (prev : List ℝ) (gs : Gs ℝ) :
    ∃ res N, ∀ fuel, N ≤ fuel → quarticLoop (stiefel fuel beta) o dt k x prev gs = some res := by
  induction k generalizing x prev gs with
  | zero => exact ⟨_, 0, fun _ _ => rfl⟩
  | succ k ih =>
    obtain ⟨g, N, hg⟩ := stiefel_ends beta x
    have step : ∀ fuel, N ≤ fuel → quarticLoop (stiefel fuel beta) o dt (k + 1) x prev gs
        = if prev.any (fun y => eqb (quarticNext o dt g x) y) then some (true, g)
          else quarticLoop (stiefel fuel beta) o dt k (quarticNext o dt g x) (quarticNext o dt g x :: prev) g := by
      intro fuel hf
      rw [quarticLoop, hg fuel hf]
      rfl
    by_cases hx : prev.any (fun y => eqb (quarticNext o dt g x) y) = true
    · refine ⟨(true, g), N, fun fuel hf => ?_⟩
      rw [step fuel hf, if_pos hx]
    · obtain ⟨res, N', hr⟩ := ih (quarticNext o dt g x) (quarticNext o dt g x :: prev) g
      refine ⟨res, max N N', fun fuel hf => ?_⟩
      rw [step fuel (le_trans (le_max_left _ _) hf), if_neg hx]
      exact hr fuel (le_trans (le_max_right _ _) hf)

/-- One round of the bisection: the new bounds. -/
noncomputable def bisectNext (o : Orbit ℝ) (dt : ℝ) (gs : Gs ℝ) (x xMin xMax : ℝ) : ℝ × ℝ :=
  if 0 ≤ o.r0 * x + o.eta0 * gs.g2 + o.zeta0 * gs.g3 - dt then (xMin, x) else (x, xMax)

theorem bisectLoop_step {beta : ℝ} (o : Orbit ℝ) (dt : ℝ) {x xMin xMax : ℝ} {g : Gs ℝ} {fuel : ℕ}
    (hg : stiefel fuel beta x = some g) (fuel2 : ℕ) :
    bisectLoop (stiefel fuel beta) o dt (fuel2 + 1) x xMin xMax
      = if |(bisectNext o dt g x xMin xMax).2 - (bisectNext o dt g x xMin xMax).1|
          / (bisectNext o dt g x xMin xMax).2 ≤ 1e-15 then some g
        else bisectLoop (stiefel fuel beta) o dt fuel2
          (((bisectNext o dt g x xMin xMax).2 + (bisectNext o dt g x xMin xMax).1) / 2)
          (bisectNext o dt g x xMin xMax).1 (bisectNext o dt g x xMin xMax).2 := by
  rw [bisectLoop, hg]
  dsimp only
  have l0 : (lit 0 : ℝ) = 0 := by simp
  have l2 : (lit 2 : ℝ) = 2 := by simp
  have l15 : (lit 1e-15 : ℝ) = 1e-15 := by simp only [lit_real]; norm_num
  simp only [l0, l2, l15, leb_real, abs_real]
  unfold bisectNext
  by_cases hs : 0 ≤ o.r0 * x + o.eta0 * g.g2 + o.zeta0 * g.g3 - dt
  · simp only [hs, if_true]
  · simp only [hs, if_false]

theorem bisectLoop_ends_positive (beta : ℝ) (o : Orbit ℝ) (dt m : ℝ) (hm : 0 < m) (k : ℕ) (xMin xMax : ℝ)
    (h1 : m ≤ xMin) (h2 : m ≤ xMax) (hk : |xMax - xMin| ≤ 1e-15 * m * 2 ^ (k + 1)) :
    ∃ g N, ∀ fuel, N ≤ fuel → ∀ fuel2, k + 1 ≤ fuel2 →
      bisectLoop (stiefel fuel beta) o dt fuel2 ((xMax + xMin) / 2) xMin xMax = some g := by
  induction k generalizing xMin xMax with
  | zero =>
    obtain ⟨g, N, hg⟩ := stiefel_ends beta ((xMax + xMin) / 2)
    refine ⟨g, N, fun fuel hf fuel2 hf2 => ?_⟩
    obtain ⟨j, rfl⟩ := Nat.exists_eq_add_of_le' hf2
    rw [bisectLoop_step o dt (hg fuel hf), if_pos]
    have hmid : m ≤ (xMax + xMin) / 2 := by linarith
    have key : ∀ a b : ℝ, m ≤ b → |b - a| ≤ 1e-15 * m → |b - a| / b ≤ 1e-15 := by
      intro a b hb hab
      rw [div_le_iff₀ (by linarith)]
      nlinarith
    unfold bisectNext
    have half : ∀ y, |y| ≤ 1e-15 * m * 2 ^ (0 + 1) → |y / 2| ≤ 1e-15 * m := by
      intro y hy
      rw [abs_div, abs_two]
      linarith
    split
    · apply key _ _ hmid
      rw [show (xMax + xMin) / 2 - xMin = (xMax - xMin) / 2 by ring]
      exact half _ hk
    · apply key _ _ h2
      rw [show xMax - (xMax + xMin) / 2 = (xMax - xMin) / 2 by ring]
      exact half _ hk
  | succ k ih =>
    obtain ⟨g, N, hg⟩ := stiefel_ends beta ((xMax + xMin) / 2)
    set b := bisectNext o dt g ((xMax + xMin) / 2) xMin xMax with hb
    have hb1 : m ≤ b.1 ∧ m ≤ b.2 ∧ |b.2 - b.1| ≤ 1e-15 * m * 2 ^ (k + 1) := by
      have half : |(xMax - xMin) / 2| ≤ 1e-15 * m * 2 ^ (k + 1) := by
        rw [abs_div, abs_two]
        rw [pow_succ] at hk
        linarith
      rw [hb]
      unfold bisectNext
      split
      · refine ⟨h1, by dsimp only; linarith, ?_⟩
        dsimp only
        rw [show (xMax + xMin) / 2 - xMin = (xMax - xMin) / 2 by ring]
        exact half
      · refine ⟨by dsimp only; linarith, h2, ?_⟩
        dsimp only
        rw [show xMax - (xMax + xMin) / 2 = (xMax - xMin) / 2 by ring]
        exact half
    by_cases hstop : |b.2 - b.1| / b.2 ≤ 1e-15
    · refine ⟨g, N, fun fuel hf fuel2 hf2 => ?_⟩
      obtain ⟨j, rfl⟩ := Nat.exists_eq_add_of_le' (le_trans (by omega : 1 ≤ k + 1 + 1) hf2)
      rw [bisectLoop_step o dt (hg fuel hf), ← hb, if_pos hstop]
    · obtain ⟨g', N', hg'⟩ := ih b.1 b.2 hb1.1 hb1.2.1 hb1.2.2
      refine ⟨g', max N N', fun fuel hf fuel2 hf2 => ?_⟩
      obtain ⟨j, rfl⟩ := Nat.exists_eq_add_of_le' (le_trans (by omega : 1 ≤ k + 1 + 1) hf2)
      rw [bisectLoop_step o dt (hg fuel (le_trans (le_max_left _ _) hf)), ← hb, if_neg hstop]
      exact hg' fuel (le_trans (le_max_right _ _) hf) j (by omega)

theorem bisectLoop_ends_of_pos (beta : ℝ) (o : Orbit ℝ) (dt : ℝ) (xMin xMax : ℝ) (h1 : 0 < xMin) (h2 : 0 < xMax) :
    ∃ g N K, ∀ fuel, N ≤ fuel → ∀ fuel2, K ≤ fuel2 →
      bisectLoop (stiefel fuel beta) o dt fuel2 ((xMax + xMin) / 2) xMin xMax = some g := by
  have hm : 0 < min xMin xMax := lt_min h1 h2
  obtain ⟨k, hk⟩ := pow_unbounded_of_one_lt (|xMax - xMin| / (1e-15 * min xMin xMax)) (by norm_num : (1 : ℝ) < 2)
  obtain ⟨g, N, h⟩ := bisectLoop_ends_positive beta o dt _ hm k xMin xMax (min_le_left _ _) (min_le_right _ _) (by
    rw [div_lt_iff₀ (by positivity)] at hk
    have : (2 : ℝ) ^ k ≤ 2 ^ (k + 1) := pow_le_pow_right₀ (by norm_num) (by omega)
    calc |xMax - xMin| ≤ 2 ^ k * (1e-15 * min xMin xMax) := hk.le
      _ ≤ 2 ^ (k + 1) * (1e-15 * min xMin xMax) := by gcongr
      _ = _ := by ring)
  exact ⟨g, N, k + 1, h⟩

/-- Close to zero the left side of Kepler's equation is smaller than the time step. -/
theorem small_anomaly (beta : ℝ) (o : Orbit ℝ) (dt : ℝ) (hdt : 0 < dt) : ∃ δ, 0 < δ ∧ ∀ x, 0 < x → x ≤ δ →
    ∀ fuel g, stiefel (fuel + 1) beta x = some g → o.r0 * x + o.eta0 * g.g2 + o.zeta0 * g.g3 - dt < 0 := by
  have hc : Continuous fun x : ℝ => o.r0 * x + o.eta0 * (scaleGs x (stumpffSeries (beta * (x * x)))).g2
      + o.zeta0 * (scaleGs x (stumpffSeries (beta * (x * x)))).g3 - dt := by
    simp only [scaleGs, stumpffSeries, invFactorial, List.foldl, lit_real]
    fun_prop
  have hz : Continuous fun x : ℝ => |beta * (x * x)| := by fun_prop
  have h1 := hc.continuousAt (x := 0) |>.eventually_lt (continuousAt_const (y := (0 : ℝ))) (by
    simp [scaleGs]; exact hdt)
  have h2 := hz.continuousAt (x := 0) |>.eventually_lt (continuousAt_const (y := (1 / 10 : ℝ))) (by
    simp)
  obtain ⟨δ, hδ, hb⟩ := Metric.eventually_nhds_iff.1 (h1.and h2)
  refine ⟨δ / 2, by linarith, fun x hx hx2 fuel g hg => ?_⟩
  have hd : dist x 0 < δ := by rw [Real.dist_eq, sub_zero, abs_of_pos hx]; linarith
  obtain ⟨b1, b2⟩ := hb hd
  rw [stiefel_small b2.le] at hg
  cases hg
  exact b1

theorem bisectLoop_ends_of_zero (beta : ℝ) (o : Orbit ℝ) (dt : ℝ) (hdt : 0 < dt) (xMax : ℝ) (h2 : 0 < xMax) :
    ∃ g N K, ∀ fuel, N ≤ fuel → ∀ fuel2, K ≤ fuel2 →
      bisectLoop (stiefel fuel beta) o dt fuel2 ((xMax + 0) / 2) 0 xMax = some g := by
  obtain ⟨δ, hδ, hs⟩ := small_anomaly beta o dt hdt
  obtain ⟨k, hk⟩ := pow_unbounded_of_one_lt (xMax / δ) (by norm_num : (1 : ℝ) < 2)
  rw [div_lt_iff₀ hδ] at hk
  induction k generalizing xMax with
  | zero =>
    obtain ⟨g, N, hg⟩ := stiefel_ends beta ((xMax + 0) / 2)
    have hx : (0 : ℝ) < (xMax + 0) / 2 := by linarith
    have hneg : ¬ 0 ≤ o.r0 * ((xMax + 0) / 2) + o.eta0 * g.g2 + o.zeta0 * g.g3 - dt := by
      rw [not_le]
      exact hs _ hx (by simp at hk; linarith) N g (hg (N + 1) (by omega))
    have hb : bisectNext o dt g ((xMax + 0) / 2) 0 xMax = ((xMax + 0) / 2, xMax) := by
      unfold bisectNext; rw [if_neg hneg]
    obtain ⟨g', N', K, h'⟩ := bisectLoop_ends_of_pos beta o dt ((xMax + 0) / 2) xMax hx h2
    by_cases hstop : |xMax - (xMax + 0) / 2| / xMax ≤ 1e-15
    · refine ⟨g, N, 1, fun fuel hf fuel2 hf2 => ?_⟩
      obtain ⟨j, rfl⟩ := Nat.exists_eq_add_of_le' hf2
      rw [bisectLoop_step o dt (hg fuel hf), hb, if_pos hstop]
    · refine ⟨g', max N N', K + 1, fun fuel hf fuel2 hf2 => ?_⟩
      obtain ⟨j, rfl⟩ := Nat.exists_eq_add_of_le' (le_trans (Nat.le_add_left 1 K) hf2)
      rw [bisectLoop_step o dt (hg fuel (le_trans (le_max_left _ _) hf)), hb, if_neg hstop]
      exact h' fuel (le_trans (le_max_right _ _) hf) j (by omega)
  | succ k ih =>
    obtain ⟨g, N, hg⟩ := stiefel_ends beta ((xMax + 0) / 2)
    have hx : (0 : ℝ) < (xMax + 0) / 2 := by linarith
    by_cases hpos : 0 ≤ o.r0 * ((xMax + 0) / 2) + o.eta0 * g.g2 + o.zeta0 * g.g3 - dt
    · have hb : bisectNext o dt g ((xMax + 0) / 2) 0 xMax = (0, (xMax + 0) / 2) := by
        unfold bisectNext; rw [if_pos hpos]
      obtain ⟨g', N', K, h'⟩ := ih ((xMax + 0) / 2) hx (by rw [pow_succ] at hk; linarith)
      refine ⟨g', max N N', K + 1, fun fuel hf fuel2 hf2 => ?_⟩
      obtain ⟨j, rfl⟩ := Nat.exists_eq_add_of_le' (le_trans (Nat.le_add_left 1 K) hf2)
      rw [bisectLoop_step o dt (hg fuel (le_trans (le_max_left _ _) hf)), hb, if_neg]
      · exact h' fuel (le_trans (le_max_right _ _) hf) j (by omega)
      · dsimp only
        rw [sub_zero, abs_of_pos hx, div_self hx.ne']
        norm_num
    · have hb : bisectNext o dt g ((xMax + 0) / 2) 0 xMax = ((xMax + 0) / 2, xMax) := by
        unfold bisectNext; rw [if_neg hpos]
      obtain ⟨g', N', K, h'⟩ := bisectLoop_ends_of_pos beta o dt ((xMax + 0) / 2) xMax hx h2
      by_cases hstop : |xMax - (xMax + 0) / 2| / xMax ≤ 1e-15
      · refine ⟨g, N, 1, fun fuel hf fuel2 hf2 => ?_⟩
        obtain ⟨j, rfl⟩ := Nat.exists_eq_add_of_le' hf2
        rw [bisectLoop_step o dt (hg fuel hf), hb, if_pos hstop]
      · refine ⟨g', max N N', K + 1, fun fuel hf fuel2 hf2 => ?_⟩
        obtain ⟨j, rfl⟩ := Nat.exists_eq_add_of_le' (le_trans (Nat.le_add_left 1 K) hf2)
        rw [bisectLoop_step o dt (hg fuel (le_trans (le_max_left _ _) hf)), hb, if_neg hstop]
        exact h' fuel (le_trans (le_max_right _ _) hf) j (by omega)

/-- The bracket of the bisection is positive. -/
theorem bracket_positive {massG dt : ℝ} {r v : Axes ℝ} (hm : 0 < massG) (hL : r.cross v ≠ 0) (hdt : 0 < dt) :
    0 ≤ ((orbitOf massG r v).bracket dt).1 ∧ 0 < ((orbitOf massG r v).bracket dt).2
    := by
  have hr : r ≠ 0 := by rintro rfl; exact hL (Axes.zero_cross v)
  have hr0 := orbit_r0_pos massG v hr
  have hL2 : 0 < (r.cross v).dot (r.cross v) :=
    lt_of_le_of_ne (Axes.dot_self_nonneg _) fun e => hL (Axes.dot_self_eq_zero e.symm)
  have hh : (orbitOf massG r v).r0 * (orbitOf massG r v).r0 * (orbitOf massG r v).v2
      - (orbitOf massG r v).eta0 * (orbitOf massG r v).eta0 = (r.cross v).dot (r.cross v) := by
    rw [lagrange_identity, ← orbit_r0_sq massG r v, ← orbit_eta massG r v, orbitOf_eq]
    ring
  have hmG : (orbitOf massG r v).massG = massG := rfl
  have l1 : (lit 1 : ℝ) = 1 := by simp
  have l0 : (lit 0 : ℝ) = 0 := by simp
  have l2 : (lit 2 : ℝ) = 2 := by simp
  unfold Orbit.bracket
  by_cases hb : 0 < (orbitOf massG r v).beta
  · have hb' : ltb (lit 0) (orbitOf massG r v).beta = true := by simpa using hb
    rw [if_pos hb']
    have hs := Real.sqrt_pos.2 hb
    have hpi := Real.pi_pos
    have hx : 0 < (orbitOf massG r v).xPerPeriod := by
      unfold Orbit.xPerPeriod
      rw [l2, pi_real, sqrt_real]
      positivity
    have hp : 0 < (orbitOf massG r v).invPeriod := by
      unfold Orbit.invPeriod
      rw [l2, pi_real, sqrt_real, hmG]
      positivity
    have hf : (0 : ℝ) ≤ FOps.floor (dt * (orbitOf massG r v).invPeriod) := by
      rw [floor_real]
      exact_mod_cast Int.floor_nonneg.2 (by positivity)
    dsimp only
    constructor
    · positivity
    · positivity
  · have hb' : ¬ ltb (lit 0) (orbitOf massG r v).beta = true := by simpa using hb
    rw [if_neg hb']
    dsimp only
    rw [hh, hmG, l1, sqrt_real, sqrt_real]
    have hs := Real.sqrt_nonneg (1 - (r.cross v).dot (r.cross v) * (orbitOf massG r v).beta / (massG * massG))
    constructor <;> positivity

theorem bracket_cases {massG dt : ℝ} {r v : Axes ℝ} (hm : 0 < massG) (hL : r.cross v ≠ 0) (hdt : 0 < dt) :
    ((orbitOf massG r v).bracket dt).1 = 0 ∨ 0 < ((orbitOf massG r v).bracket dt).1 :=
  (bracket_positive hm hL hdt).1.eq_or_lt.imp Eq.symm id

theorem bisect_ends {massG dt : ℝ} {r v : Axes ℝ} (beta : ℝ) (hm : 0 < massG) (hL : r.cross v ≠ 0) (hdt : 0 < dt) :
    ∃ res N, ∀ fuel, N ≤ fuel → bisect (stiefel fuel beta) (orbitOf massG r v) dt fuel = some res := by
  obtain ⟨b1, b2⟩ := bracket_positive hm hL hdt
  have l2 : (lit 2 : ℝ) = 2 := by simp
  have : ∃ g N K, ∀ fuel, N ≤ fuel → ∀ fuel2, K ≤ fuel2 →
      bisectLoop (stiefel fuel beta) (orbitOf massG r v) dt fuel2
        ((((orbitOf massG r v).bracket dt).2 + ((orbitOf massG r v).bracket dt).1) / 2)
        ((orbitOf massG r v).bracket dt).1 ((orbitOf massG r v).bracket dt).2 = some g := by
    rcases bracket_cases hm hL hdt with h0 | h0
    · rw [h0]; exact bisectLoop_ends_of_zero beta _ dt hdt _ b2
    · exact bisectLoop_ends_of_pos beta _ dt _ _ h0 b2
  obtain ⟨g, N, K, h⟩ := this
  refine ⟨(g, (orbitOf massG r v).ri g), max N K, fun fuel hf => ?_⟩
  unfold bisect
  dsimp only
  rw [l2, h fuel (le_trans (le_max_left _ _) hf) fuel (le_trans (le_max_right _ _) hf)]

/-- The Kepler step ends. -/
theorem keplerStep_ends {massG dt : ℝ} {r v : Axes ℝ} (hm : 0 < massG) (hL : r.cross v ≠ 0) (hdt : 0 < dt) :
    ∃ res N, ∀ fuel, N ≤ fuel → keplerStep fuel massG dt r v = some res := by
  set o := orbitOf massG r v with ho
  have hsolve : ∃ res N, ∀ fuel, N ≤ fuel → keplerSolve (stiefel fuel o.beta) o dt fuel = some res := by
    obtain ⟨g0, N0, hg0⟩ := stiefel_ends o.beta (o.guess dt)
    obtain ⟨b, Nb, hb⟩ := bisect_ends (r := r) (v := v) (dt := dt) o.beta hm hL hdt
    rw [← ho] at hb
    by_cases hq : (ltb (lit 0) o.beta && ltb (lit 0.01 * o.xPerPeriod)
        (FOps.abs (o.newton dt g0 (o.guess dt) - o.guess dt))) = true
    · obtain ⟨⟨ok, g⟩, N1, h1⟩ := quarticLoop_ends o.beta o dt 63 (o.beta * dt / o.massG) [] g0
      cases ok
      · refine ⟨b, max N0 (max N1 Nb), fun fuel hf => ?_⟩
        unfold keplerSolve
        dsimp only
        rw [hg0 fuel (by omega)]
        dsimp only
        rw [if_pos hq, h1 fuel (by omega)]
        exact hb fuel (by omega)
      · refine ⟨(g, o.ri g), max N0 (max N1 Nb), fun fuel hf => ?_⟩
        unfold keplerSolve
        dsimp only
        rw [hg0 fuel (by omega)]
        dsimp only
        rw [if_pos hq, h1 fuel (by omega)]
    · obtain ⟨⟨ok, g, ri⟩, N1, h1⟩ := newtonLoop_ends o.beta o dt 31 (o.newton dt g0 (o.guess dt)) (o.guess dt) g0
        (o.ri g0)
      cases ok
      · refine ⟨b, max N0 (max N1 Nb), fun fuel hf => ?_⟩
        unfold keplerSolve
        dsimp only
        rw [hg0 fuel (by omega)]
        dsimp only
        rw [if_neg hq, h1 fuel (by omega)]
        exact hb fuel (by omega)
      · refine ⟨(g, ri), max N0 (max N1 Nb), fun fuel hf => ?_⟩
        unfold keplerSolve
        dsimp only
        rw [hg0 fuel (by omega)]
        dsimp only
        rw [if_neg hq, h1 fuel (by omega)]
  obtain ⟨⟨g, ri⟩, N, h⟩ := hsolve
  refine ⟨keplerFinish o dt g ri r v, N, fun fuel hf => ?_⟩
  unfold keplerStep
  dsimp only
  rw [← ho, h fuel hf]

end Posidonius.WHFast
