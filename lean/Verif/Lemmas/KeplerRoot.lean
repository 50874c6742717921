import Verif.Lemmas.Kepler
import Mathlib.Analysis.SpecialFunctions.Trigonometric.Basic

/-! What the solver of Kepler's equation finds, with exact universal functions. -/

namespace Posidonius.WHFast
open Posidonius

variable {massG dt : ℝ} {r v : Axes ℝ} {G : ℝ → Gs ℝ}

/-! ### Iterations that go towards the root -/

/-- A map whose points move towards larger values where `f` is negative and towards smaller ones where it is
positive: if a point comes back, `f` is not positive at some point of the cycle and not negative at some point. -/
theorem cycle_changes_sign {f step : ℝ → ℝ} (hn : ∀ x, f x < 0 → x < step x) (hp : ∀ x, 0 < f x → step x < x) {n : ℕ}
    (hpos : 0 < n) {x : ℝ} (hx : step^[n] x = x) :
    (∃ i < n, f (step^[i] x) ≤ 0) ∧ ∃ j < n, 0 ≤ f (step^[j] x) := by
  constructor
  · by_contra hc
    push Not at hc
    have key : ∀ i, i ≤ n → step^[i] x ≤ x ∧ (0 < i → step^[i] x < x) := by
      intro i
      induction i with
      | zero => exact fun _ => ⟨le_rfl, fun h => absurd h (lt_irrefl 0)⟩
      | succ i ih =>
        intro hi
        have h1 := ih (by omega)
        have h2 := hp _ (hc i (by omega))
        rw [Function.iterate_succ_apply']
        exact ⟨(h2.trans_le h1.1).le, fun _ => h2.trans_le h1.1⟩
    exact absurd hx ((key n le_rfl).2 hpos).ne
  · by_contra hc
    push Not at hc
    have key : ∀ i, i ≤ n → x ≤ step^[i] x ∧ (0 < i → x < step^[i] x) := by
      intro i
      induction i with
      | zero => exact fun _ => ⟨le_rfl, fun h => absurd h (lt_irrefl 0)⟩
      | succ i ih =>
        intro hi
        have h1 := ih (by omega)
        have h2 := hn _ (hc i (by omega))
        rw [Function.iterate_succ_apply']
        exact ⟨(h1.1.trans_lt h2).le, fun _ => h1.1.trans_lt h2⟩
    exact absurd hx ((key n le_rfl).2 hpos).ne'

/-- The step of the quartic solver. -/
noncomputable def Orbit.quartic (o : Orbit ℝ) (dt : ℝ) (gs : Gs ℝ) (x : ℝ) : ℝ :=
  let f := o.r0 * x + o.eta0 * gs.g2 + o.zeta0 * gs.g3 - dt
  let fp := o.r0 + o.eta0 * gs.g1 + o.zeta0 * gs.g2
  let fpp := o.eta0 * gs.g0 + o.zeta0 * gs.g1
  let denom := fp + FOps.sqrt (FOps.abs (lit 16 * fp * fp - lit 20 * f * fpp))
  (x * denom - lit 5 * f) / denom

theorem newton_eq (o : Orbit ℝ) (x : ℝ) (hd : 0 < o.distance G x) :
    o.newton dt (G x) x = newtonStep o.r0 o.eta0 o.zeta0 G dt x := by
  have e : universalDistance o.r0 o.eta0 o.zeta0 G x = o.r0 + (o.eta0 * (G x).g1 + o.zeta0 * (G x).g2) := by
    unfold universalDistance; ring
  have hd : 0 < universalDistance o.r0 o.eta0 o.zeta0 G x := hd
  unfold Orbit.newton newtonStep
  rw [Orbit.ri_eq]
  unfold Orbit.distance
  rw [e] at hd ⊢
  unfold universalTime
  field_simp
  ring

theorem quartic_eq (o : Orbit ℝ) (x : ℝ) (hd : 0 < o.distance G x) :
    o.quartic dt (G x) x = laguerreStep o.r0 o.eta0 o.zeta0 G dt x := by
  have hd : 0 < universalDistance o.r0 o.eta0 o.zeta0 G x := hd
  have e : universalDistance o.r0 o.eta0 o.zeta0 G x = o.r0 + o.eta0 * (G x).g1 + o.zeta0 * (G x).g2 := rfl
  have et : universalTime o.r0 o.eta0 o.zeta0 G x = o.r0 * x + o.eta0 * (G x).g2 + o.zeta0 * (G x).g3 := rfl
  unfold Orbit.quartic laguerreStep
  rw [← e, ← et]
  dsimp only
  have five : (lit 5 : ℝ) = 5 := by simp
  have c16 : (lit 16 : ℝ) = 16 := by simp
  have c20 : (lit 20 : ℝ) = 20 := by simp
  rw [five, c16, c20, sqrt_real, abs_real, mul_assoc 16, ← pow_two]
  have hp := add_pos_of_pos_of_nonneg hd (Real.sqrt_nonneg |16 * universalDistance o.r0 o.eta0 o.zeta0 G x ^ 2
          - 20 * (universalTime o.r0 o.eta0 o.zeta0 G x - dt) * (o.eta0 * (G x).g0 + o.zeta0 * (G x).g1)|)
  rw [sub_div, mul_div_cancel_right₀ _ hp.ne']

/-- Both solvers move towards the root. -/
theorem newton_towards (o : Orbit ℝ) (hd : ∀ x, 0 < o.distance G x) :
    (∀ x, o.time G x - dt < 0 → x < newtonStep o.r0 o.eta0 o.zeta0 G dt x)
      ∧ ∀ x, 0 < o.time G x - dt → newtonStep o.r0 o.eta0 o.zeta0 G dt x < x := by
  refine ⟨fun x hx => ?_, fun x hx => ?_⟩ <;> unfold newtonStep
  · have : (universalTime o.r0 o.eta0 o.zeta0 G x - dt) / universalDistance o.r0 o.eta0 o.zeta0 G x < 0 :=
      div_neg_of_neg_of_pos hx (hd x)
    linarith
  · have : 0 < (universalTime o.r0 o.eta0 o.zeta0 G x - dt) / universalDistance o.r0 o.eta0 o.zeta0 G x :=
      div_pos hx (hd x)
    linarith

theorem quartic_towards (o : Orbit ℝ) (hd : ∀ x, 0 < o.distance G x) :
    (∀ x, o.time G x - dt < 0 → x < laguerreStep o.r0 o.eta0 o.zeta0 G dt x)
      ∧ ∀ x, 0 < o.time G x - dt → laguerreStep o.r0 o.eta0 o.zeta0 G dt x < x := by
  refine ⟨fun x hx => ?_, fun x hx => ?_⟩ <;> unfold laguerreStep <;>
    have hx' := hx <;> have hp : 0 < universalDistance o.r0 o.eta0 o.zeta0 G x := hd x <;>
    unfold Orbit.time at hx'
  · have := div_neg_of_neg_of_pos (mul_neg_of_pos_of_neg (by norm_num : (0 : ℝ) < 5) hx')
      (add_pos_of_pos_of_nonneg hp (Real.sqrt_nonneg |16 * universalDistance o.r0 o.eta0 o.zeta0 G x ^ 2
          - 20 * (universalTime o.r0 o.eta0 o.zeta0 G x - dt) * (o.eta0 * (G x).g0 + o.zeta0 * (G x).g1)|))
    linarith
  · have := div_pos (mul_pos (by norm_num : (0 : ℝ) < 5) hx')
      (add_pos_of_pos_of_nonneg hp (Real.sqrt_nonneg |16 * universalDistance o.r0 o.eta0 o.zeta0 G x ^ 2
          - 20 * (universalTime o.r0 o.eta0 o.zeta0 G x - dt) * (o.eta0 * (G x).g0 + o.zeta0 * (G x).g1)|))
    linarith

/-- A cycle lies around the root. -/
theorem cycleAround {o : Orbit ℝ} {step : ℝ → ℝ} (hm : StrictMono (o.time G)) {root : ℝ} (hroot : o.time G root = dt)
    (h : (∀ x, o.time G x - dt < 0 → x < step x) ∧ ∀ x, 0 < o.time G x - dt → step x < x) {n : ℕ}
    (hpos : 0 < n) {y : ℝ} (hy : step^[n] y = y) : CycleAround step n y root := by
  obtain ⟨⟨i, hi, h1⟩, j, hj, h2⟩ := cycle_changes_sign (f := fun x => o.time G x - dt) h.1 h.2 hpos hy
  refine ⟨hy, ⟨i, hi, ?_⟩, j, hj, ?_⟩ <;> rw [← hm.le_iff_le, hroot] <;> linarith

/-- A Newton iteration that ends in time comes back to the anomaly of the result after one or two steps. -/
theorem newtonLoop_cycle (o : Orbit ℝ) (k : ℕ) (x oldX : ℝ) (hx : o.newton dt (G oldX) oldX = x) (gs gs' : Gs ℝ)
    (ri ri' : ℝ) (h : newtonLoop (fun y => some (G y)) o dt k x oldX gs ri = some (true, gs', ri')) :
    ∃ y, gs' = G y ∧ ri' = o.ri (G y)
      ∧ ∃ n, (n = 1 ∨ n = 2) ∧ (fun z => o.newton dt (G z) z)^[n] y = y := by
  induction k generalizing x oldX gs ri with
  | zero => simp [newtonLoop] at h
  | succ k ih =>
    rw [newtonLoop] at h
    dsimp only at h
    split at h
    · rename_i hc
      simp only [Option.some.injEq, Prod.mk.injEq, true_and] at h
      refine ⟨x, h.1.symm, h.2.symm, ?_⟩
      rcases Bool.or_eq_true_iff.1 hc with e | e <;> rw [eqb_real] at e
      · exact ⟨1, Or.inl rfl, e⟩
      · exact ⟨2, Or.inr rfl, by
          show o.newton dt (G (o.newton dt (G x) x)) (o.newton dt (G x) x) = x
          rw [e, hx]⟩
    · exact ih _ _ rfl _ _ h

theorem quarticLoop_cycle (o : Orbit ℝ) (k : ℕ) (x : ℝ) (prev : List ℝ)
    (hp : ∀ y ∈ prev, ∃ n, (fun z => o.quartic dt (G z) z)^[n] y = x) (gs gs' : Gs ℝ)
    (h : quarticLoop (fun y => some (G y)) o dt k x prev gs = some (true, gs')) :
    ∃ y, gs' = G y ∧ ∃ n, 0 < n ∧ (fun z => o.quartic dt (G z) z)^[n] y = y := by
  induction k generalizing x prev gs with
  | zero => simp [quarticLoop] at h
  | succ k ih =>
    rw [quarticLoop] at h
    dsimp only at h
    split at h
    · rename_i hc
      simp only [Option.some.injEq, Prod.mk.injEq, true_and] at h
      obtain ⟨y, hy, e⟩ := List.any_eq_true.1 hc
      rw [eqb_real] at e
      obtain ⟨n, hn⟩ := hp y hy
      refine ⟨x, h.symm, n + 1, Nat.succ_pos n, ?_⟩
      rw [Function.iterate_succ_apply]
      have e' : o.quartic dt (G x) x = y := e
      simp only [e']
      exact hn
    · refine ih _ _ (fun y hy => ?_) _ h
      rcases List.mem_cons.1 hy with rfl | hy
      · exact ⟨0, rfl⟩
      · obtain ⟨n, hn⟩ := hp y hy
        refine ⟨n + 1, ?_⟩
        rw [Function.iterate_succ_apply', hn]
        rfl

/-! ### Bisection -/

theorem bisectLoop_root (o : Orbit ℝ) (hm : StrictMono (o.time G)) {root : ℝ} (hroot : o.time G root = dt) (h0 : 0 < root)
    (fuel : ℕ) (x xMin xMax : ℝ) (h1 : xMin ≤ root) (h2 : root ≤ xMax) (gs : Gs ℝ)
    (h : bisectLoop (fun y => some (G y)) o dt fuel x xMin xMax = some gs) :
    ∃ y, gs = G y ∧ |y - root| ≤ 2e-15 * root := by
  induction fuel generalizing x xMin xMax with
  | zero => simp [bisectLoop] at h
  | succ fuel ih =>
    rw [bisectLoop] at h
    dsimp only at h
    have hs : o.r0 * x + o.eta0 * (G x).g2 + o.zeta0 * (G x).g3 - dt = o.time G x - o.time G root := by
      rw [hroot]; rfl
    rw [hs] at h
    by_cases hx : root ≤ x
    · have hle : leb (lit 0) (o.time G x - o.time G root) = true := by
        rw [leb_real, lit_real]
        have := hm.monotone hx
        push_cast
        linarith
      rw [hle] at h
      simp only [if_true] at h
      split at h
      · rename_i hc
        rw [Option.some.injEq] at h
        refine ⟨x, h.symm, ?_⟩
        have hx0 : 0 < x := h0.trans_le hx
        rw [leb_real, abs_real, abs_of_nonneg (by linarith), div_le_iff₀ hx0, lit_real] at hc
        push_cast at hc
        rw [abs_of_nonneg (by linarith)]
        linarith
      · exact ih _ _ _ h1 hx h
    · have hx := not_le.1 hx
      have hle : leb (lit 0) (o.time G x - o.time G root) = false := by
        rw [leb_real_false, lit_real]
        have := hm hx
        push_cast
        linarith
      rw [hle] at h
      simp only [Bool.false_eq_true, if_false] at h
      split at h
      · rename_i hc
        rw [Option.some.injEq] at h
        refine ⟨x, h.symm, ?_⟩
        have hx0 : 0 < xMax := h0.trans_le h2
        rw [leb_real, abs_real, abs_of_nonneg (by linarith), div_le_iff₀ hx0, lit_real] at hc
        push_cast at hc
        rw [abs_of_nonpos (by linarith)]
        linarith
      · exact ih _ _ _ hx.le h2 h

/-! ### The bracket -/

/-- The radial momentum `eta` is given by the distance. -/
theorem eta_square (h : GFunctions (orbitOf massG r v).beta G) (hr : r ≠ 0) (x : ℝ) :
    ((orbitOf massG r v).eta0 * (G x).g0 + (orbitOf massG r v).zeta0 * (G x).g1) ^ 2
      = 2 * massG * (orbitOf massG r v).distance G x
        - (orbitOf massG r v).beta * (orbitOf massG r v).distance G x ^ 2
        - (r.cross v).dot (r.cross v) := by
  set o := orbitOf massG r v with ho
  have hz : o.zeta0 = massG - o.beta * o.r0 := orbit_zeta massG r v
  have hr0 : 0 < o.r0 := orbit_r0_pos massG v hr
  have e := eq_zero_of_deriv (f := fun y => (o.eta0 * (G y).g0 + o.zeta0 * (G y).g1) ^ 2
      - 2 * massG * o.distance G y + o.beta * o.distance G y ^ 2 + (r.cross v).dot (r.cross v)) (fun y => by
    have d1 := h.distance_deriv o.r0 o.eta0 o.zeta0 y
    have d2 := ((h.d0 y).const_mul o.eta0).add ((h.d1 y).const_mul o.zeta0)
    refine (((d2.pow 2).sub (d1.const_mul (2 * massG))).add ((d1.pow 2).const_mul o.beta)).add_const
      ((r.cross v).dot (r.cross v)) |>.congr_deriv ?_
    have r0 := h.r0 y
    unfold universalDistance
    simp only [Pi.add_apply]
    rw [r0, hz]
    push_cast
    ring) (by
    have hl := lagrange_identity r v
    rw [← orbit_r0_sq massG r v, ← orbit_eta massG r v] at hl
    have hb := orbit_beta massG r v
    rw [← ho] at hl hb
    have hv : v.dot v = 2 * o.massG * o.r0⁻¹ - o.beta := by linarith
    rw [hl, distance_zero h, h.zero, hv]
    have hmG : o.massG = massG := rfl
    rw [hmG]
    field_simp
    ring) x
  linarith

theorem time_strictMono (h : GFunctions (orbitOf massG r v).beta G) (hL : r.cross v ≠ 0) :
    StrictMono ((orbitOf massG r v).time G) :=
  strictMono_of_deriv_pos fun x => by
    rw [show deriv ((orbitOf massG r v).time G) x = _ from HasDerivAt.deriv (h.time_deriv _ _ _ x)]
    exact distance_pos h hL x

theorem time_zero (h : GFunctions (orbitOf massG r v).beta G) : (orbitOf massG r v).time G 0 = 0 := by
  simp [Orbit.time, universalTime, h.zero]

/-- The root of Kepler's equation lies in the bracket, elliptic orbit. -/
theorem bracket_elliptic (hm : 0 < massG) (hL : r.cross v ≠ 0) (hb : 0 < (orbitOf massG r v).beta) {root : ℝ}
    (hroot : (orbitOf massG r v).time (gFunctions (orbitOf massG r v).beta) root = dt) :
    ((orbitOf massG r v).bracket dt).1 ≤ root ∧ root ≤ ((orbitOf massG r v).bracket dt).2 := by
  have hmono := time_strictMono (gFunctions_spec (orbitOf massG r v).beta) hL
  have hz : (orbitOf massG r v).zeta0 = massG - (orbitOf massG r v).beta * (orbitOf massG r v).r0 := orbit_zeta massG r v
  have hmG : (orbitOf massG r v).massG = massG := rfl
  set o := orbitOf massG r v with ho
  have hsq : 0 < √o.beta := Real.sqrt_pos.2 hb
  have hX : 0 < o.xPerPeriod := by
    unfold Orbit.xPerPeriod
    simp only [lit_real, sqrt_real, pi_real]
    have := Real.pi_pos
    push_cast
    positivity
  have key : ∀ n : ℤ, o.time (gFunctions o.beta) (o.xPerPeriod * n) = n * (1 / o.invPeriod) := by
    intro n
    have e1 : √o.beta * (o.xPerPeriod * n) = n * (2 * Real.pi) := by
      unfold Orbit.xPerPeriod
      simp only [lit_real, sqrt_real, pi_real]
      push_cast
      field_simp
    have e2 : gFunctions o.beta (o.xPerPeriod * n) = ⟨1, 0, 0, o.xPerPeriod * n / o.beta⟩ := by
      unfold gFunctions
      rw [if_pos hb, e1, Real.cos_int_mul_two_pi, show (n : ℝ) * (2 * Real.pi) = (2 * n : ℤ) * Real.pi by push_cast; ring,
        Real.sin_int_mul_pi]
      simp
    unfold Orbit.time universalTime
    rw [e2, hz]
    unfold Orbit.xPerPeriod Orbit.invPeriod
    simp only [lit_real, sqrt_real, pi_real, hmG]
    have := Real.pi_pos
    push_cast
    field_simp
    ring
  have hP : 0 < o.invPeriod := by
    unfold Orbit.invPeriod
    simp only [lit_real, sqrt_real, pi_real, hmG]
    have := Real.pi_pos
    push_cast
    positivity
  unfold Orbit.bracket
  rw [if_pos ((ltb_real _ _).2 (by simpa using hb))]
  dsimp only
  simp only [floor_real]
  constructor
  · rw [← hmono.le_iff_le, key, hroot]
    have := Int.floor_le (dt * o.invPeriod)
    rw [mul_one_div, div_le_iff₀ hP]
    exact this
  · rw [← hmono.le_iff_le, show o.xPerPeriod * (⌊dt * o.invPeriod⌋ : ℝ) + o.xPerPeriod
      = o.xPerPeriod * ((⌊dt * o.invPeriod⌋ + 1 : ℤ) : ℝ) by push_cast; ring, key, hroot]
    have := (Int.lt_floor_add_one (dt * o.invPeriod)).le
    rw [mul_one_div, le_div_iff₀ hP]
    push_cast
    exact this

/-- The pericentre of an unbound orbit. -/
theorem pericentre_bound (h : GFunctions (orbitOf massG r v).beta G) (hm : 0 < massG) (hL : r.cross v ≠ 0)
    (hb : (orbitOf massG r v).beta ≤ 0) {q h2 : ℝ} (hh : h2 = (r.cross v).dot (r.cross v)) (hq : 0 < q)
    (eq : 2 * massG * q - (orbitOf massG r v).beta * q ^ 2 = h2) (x : ℝ) :
    q ≤ (orbitOf massG r v).distance G x
      ∧ |(orbitOf massG r v).eta0 * (G x).g0 + (orbitOf massG r v).zeta0 * (G x).g1|
        ≤ √h2 / q * (orbitOf massG r v).distance G x := by
  have hr : r ≠ 0 := by rintro rfl; exact hL (Axes.zero_cross v)
  have e := eta_square h hr x
  have hp := distance_pos h hL x
  rw [← hh, ← eq] at e
  set o := orbitOf massG r v
  set d := o.distance G x
  have hqd : q ≤ d := by
    by_contra hc
    have hc := not_le.1 hc
    have s := sq_nonneg (o.eta0 * (G x).g0 + o.zeta0 * (G x).g1)
    rw [e] at s
    have : 0 < (q - d) * (2 * massG - o.beta * (q + d)) := by
      apply mul_pos (by linarith)
      nlinarith
    nlinarith
  refine ⟨hqd, ?_⟩
  have hh2 : 0 ≤ h2 := by rw [hh]; exact Axes.dot_self_nonneg _
  apply abs_le_of_sq_le_sq
  · rw [e, mul_pow, div_pow, Real.sq_sqrt hh2, ← eq]
    have k : (2 * massG * q - o.beta * q ^ 2) / q ^ 2 = 2 * massG / q - o.beta := by field_simp
    rw [k]
    have k2 : 2 * massG * d ≤ 2 * massG / q * d ^ 2 := by
      rw [div_mul_eq_mul_div, le_div_iff₀ hq]
      have := mul_le_mul_of_nonneg_left hqd (by positivity : 0 ≤ 2 * massG * d)
      nlinarith
    have k3 : 0 ≤ 2 * massG * q - o.beta * q ^ 2 := by rw [eq]; exact hh2
    nlinarith
  · have := Real.sqrt_nonneg h2
    positivity

/-- The root of Kepler's equation lies in the bracket, hyperbolic or parabolic orbit. -/
theorem bracket_hyperbolic (hm : 0 < massG) (hL : r.cross v ≠ 0) (hb : (orbitOf massG r v).beta ≤ 0) (hdt : 0 < dt) {root : ℝ}
    (h : GFunctions (orbitOf massG r v).beta G) (hroot : (orbitOf massG r v).time G root = dt) :
    ((orbitOf massG r v).bracket dt).1 ≤ root ∧ root ≤ ((orbitOf massG r v).bracket dt).2 := by
  have hr : r ≠ 0 := by rintro rfl; exact hL (Axes.zero_cross v)
  have hmono := time_strictMono h hL
  have t0 := time_zero h
  have hr0 : 0 < (orbitOf massG r v).r0 := orbit_r0_pos massG v hr
  have hroot0 : 0 < root := by
    rw [← hmono.lt_iff_lt, t0, hroot]; exact hdt
  have hmG : (orbitOf massG r v).massG = massG := rfl
  set h2 := (r.cross v).dot (r.cross v) with hh
  have hh2 : 0 < h2 := lt_of_le_of_ne (Axes.dot_self_nonneg _) fun e => hL (Axes.dot_self_eq_zero e.symm)
  have e2 : (orbitOf massG r v).r0 * (orbitOf massG r v).r0 * (orbitOf massG r v).v2
      - (orbitOf massG r v).eta0 * (orbitOf massG r v).eta0 = h2 := by
    rw [hh, lagrange_identity, ← orbit_r0_sq massG r v, ← orbit_eta massG r v]
    rw [show (orbitOf massG r v).v2 = v.dot v from by rw [orbitOf_eq]]
    ring
  unfold Orbit.bracket
  rw [if_neg (by rw [ltb_real, lit_real]; push_cast; exact not_lt.2 hb)]
  dsimp only
  rw [e2, hmG]
  set s := FOps.sqrt (lit 1 - h2 * (orbitOf massG r v).beta / (massG * massG)) with hs
  have arg : 0 ≤ 1 - h2 * (orbitOf massG r v).beta / (massG * massG) := by
    have : h2 * (orbitOf massG r v).beta / (massG * massG) ≤ 0 :=
      div_nonpos_of_nonpos_of_nonneg (mul_nonpos_of_nonneg_of_nonpos hh2.le hb) (by positivity)
    linarith
  have s2 : s ^ 2 = 1 - h2 * (orbitOf massG r v).beta / (massG * massG) := by
    rw [hs, sqrt_real, lit_real]
    push_cast
    exact Real.sq_sqrt arg
  have s0 : 0 ≤ s := Real.sqrt_nonneg _
  have one : (lit 1 : ℝ) = 1 := by simp
  rw [one, sqrt_real]
  have hq : 0 < h2 / massG / (1 + s) := by positivity
  have eqq : 2 * massG * (h2 / massG / (1 + s)) - (orbitOf massG r v).beta * (h2 / massG / (1 + s)) ^ 2 = h2 := by
    have s2' : (orbitOf massG r v).beta * h2 = massG ^ 2 * (1 - s ^ 2) := by
      rw [s2]; field_simp; ring
    have : (orbitOf massG r v).beta * (h2 / massG / (1 + s)) ^ 2
        = (orbitOf massG r v).beta * h2 * h2 / massG ^ 2 / (1 + s) ^ 2 := by field_simp
    rw [this, s2']
    field_simp
    ring
  generalize h2 / massG / (1 + s) = q at hq eqq
  have bound := pericentre_bound h hm hL hb hh hq eqq
  set o := orbitOf massG r v
  set vq := √h2 / q with hvq
  have hvq0 : 0 < vq := div_pos (Real.sqrt_pos.2 hh2) hq
  have dT : ∀ x, HasDerivAt (o.time G) (o.distance G x) x := fun x => h.time_deriv _ _ _ x
  constructor
  · -- distance <= r0 + vq * time
    have mono1 : ∀ x, 0 ≤ x → o.distance G x - vq * o.time G x ≤ o.r0 := by
      have : Antitone fun x => o.distance G x - vq * o.time G x := by
        have hd : ∀ x, HasDerivAt (fun x => o.distance G x - vq * o.time G x)
            ((o.eta0 * (G x).g0 + o.zeta0 * (G x).g1) - vq * o.distance G x) x := fun x =>
          (h.distance_deriv o.r0 o.eta0 o.zeta0 x).sub ((dT x).const_mul vq)
        refine antitone_of_deriv_nonpos (fun x => (hd x).differentiableAt) fun x => ?_
        rw [(hd x).deriv]
        have := (abs_le.1 (bound x).2).2
        linarith
      intro x hx
      have h1 := this hx
      dsimp only at h1
      rw [distance_zero h, t0] at h1
      linarith
    have pos : ∀ x, 0 ≤ x → 0 ≤ o.time G x := fun x hx => by
      rw [← t0]; exact hmono.monotone hx
    have mono2 : MonotoneOn (fun x => x - o.time G x / (o.r0 + vq * o.time G x)) (Set.Ici 0) := by
      have hd : ∀ x, 0 ≤ x → HasDerivAt (fun x => x - o.time G x / (o.r0 + vq * o.time G x))
          (1 - (o.distance G x * (o.r0 + vq * o.time G x) - o.time G x * (vq * o.distance G x))
            / (o.r0 + vq * o.time G x) ^ 2) x := fun x hx =>
        (hasDerivAt_id x).sub ((dT x).div (((dT x).const_mul vq).const_add o.r0) (by
          have := mul_nonneg hvq0.le (pos x hx); linarith))
      refine monotoneOn_of_deriv_nonneg (convex_Ici 0) (fun x hx => (hd x hx).continuousAt.continuousWithinAt)
        (fun x hx => ((hd x (interior_subset hx)).differentiableAt).differentiableWithinAt) fun x hx => ?_
      have hx : 0 ≤ x := interior_subset hx
      rw [(hd x hx).deriv]
      have w : 0 < o.r0 + vq * o.time G x := by
        have := mul_nonneg hvq0.le (pos x hx); linarith
      rw [sub_nonneg, div_le_one (by positivity)]
      have m := mono1 x hx
      have : o.distance G x * (o.r0 + vq * o.time G x) - o.time G x * (vq * o.distance G x) = o.distance G x * o.r0 := by
        ring
      rw [this]
      have n1 : o.distance G x ≤ o.r0 + vq * o.time G x := by linarith
      have n2 : o.r0 ≤ o.r0 + vq * o.time G x := by
        have := mul_nonneg hvq0.le (pos x hx); linarith
      nlinarith [(distance_pos h hL x).le]
    have := mono2 (Set.mem_Ici.2 le_rfl) (Set.mem_Ici.2 hroot0.le) hroot0.le
    dsimp only at this
    rw [t0, hroot] at this
    have e : 1 / (vq + o.r0 / dt) = dt / (o.r0 + vq * dt) := by
      field_simp
      rw [add_comm]
    rw [e]
    simpa using this
  · have mono3 : Monotone fun x => o.time G x - q * x := by
      have hd : ∀ x, HasDerivAt (fun x => o.time G x - q * x) (o.distance G x - q) x := fun x => by
        refine ((dT x).sub ((hasDerivAt_id x).const_mul q)).congr_deriv ?_
        ring
      refine monotone_of_deriv_nonneg (fun x => (hd x).differentiableAt) fun x => ?_
      rw [(hd x).deriv]
      linarith [(bound x).1]
    have := mono3 hroot0.le
    dsimp only at this
    rw [t0, hroot] at this
    rw [le_div_iff₀ hq]
    linarith

/-! ### Newton's method for unbound orbits -/

/-- Newton's method has no cycles of two points if the orbit is not bound. -/
theorem newton_no_cycle (h : GFunctions (orbitOf massG r v).beta G) (hm : 0 < massG) (hL : r.cross v ≠ 0)
    (hb : (orbitOf massG r v).beta ≤ 0) {a b : ℝ} (hab : a < b)
    (e1 : newtonStep (orbitOf massG r v).r0 (orbitOf massG r v).eta0 (orbitOf massG r v).zeta0 G dt a = b)
    (e2 : newtonStep (orbitOf massG r v).r0 (orbitOf massG r v).eta0 (orbitOf massG r v).zeta0 G dt b = a) : False := by
  have hpos := distance_pos h hL
  have hz : (orbitOf massG r v).zeta0 = massG - (orbitOf massG r v).beta * (orbitOf massG r v).r0 := orbit_zeta massG r v
  set o := orbitOf massG r v
  have dT : ∀ x, HasDerivAt (o.time G) (o.distance G x) x := fun x => h.time_deriv _ _ _ x
  have dD : ∀ x, HasDerivAt (o.distance G) (o.eta0 * (G x).g0 + o.zeta0 * (G x).g1) x :=
    fun x => h.distance_deriv o.r0 o.eta0 o.zeta0 x
  have dE : ∀ x, HasDerivAt (fun x => o.eta0 * (G x).g0 + o.zeta0 * (G x).g1) (massG - o.beta * o.distance G x) x := by
    intro x
    refine (((h.d0 x).const_mul o.eta0).add ((h.d1 x).const_mul o.zeta0)).congr_deriv ?_
    unfold Orbit.distance universalDistance
    rw [h.r0 x, hz]
    ring
  -- the tangent lies below
  have tangent : MonotoneOn (fun x => (o.eta0 * (G x).g0 + o.zeta0 * (G x).g1) * (x - a) + o.distance G a - o.distance G x)
      (Set.Ici a) := by
    have hd : ∀ x, HasDerivAt
        (fun x => (o.eta0 * (G x).g0 + o.zeta0 * (G x).g1) * (x - a) + o.distance G a - o.distance G x)
        ((massG - o.beta * o.distance G x) * (x - a)) x := fun x => by
      refine ((((dE x).mul ((hasDerivAt_id x).sub_const a)).add_const (o.distance G a)).sub (dD x)).congr_deriv ?_
      simp
    refine monotoneOn_of_deriv_nonneg (convex_Ici a) (fun x _ => (hd x).continuousAt.continuousWithinAt)
      (fun x _ => (hd x).differentiableAt.differentiableWithinAt) fun x hx => ?_
    have hx : a ≤ x := interior_subset hx
    rw [(hd x).deriv]
    have := mul_nonpos_of_nonpos_of_nonneg hb (hpos x).le
    exact mul_nonneg (by linarith) (by linarith)
  have area : StrictMonoOn (fun x => (o.distance G a + o.distance G x) * (x - a) - o.time G x) (Set.Ici a) := by
    have hd : ∀ x, HasDerivAt (fun x => (o.distance G a + o.distance G x) * (x - a) - o.time G x)
        ((o.eta0 * (G x).g0 + o.zeta0 * (G x).g1) * (x - a) + o.distance G a) x := fun x => by
      refine ((((dD x).const_add (o.distance G a)).mul ((hasDerivAt_id x).sub_const a)).sub (dT x)).congr_deriv ?_
      simp only [id_eq]
      ring
    refine strictMonoOn_of_deriv_pos (convex_Ici a) (fun x _ => (hd x).continuousAt.continuousWithinAt) fun x hx => ?_
    have hx : a ≤ x := interior_subset hx
    rw [(hd x).deriv]
    have t := tangent (Set.mem_Ici.2 le_rfl) (Set.mem_Ici.2 hx) hx
    dsimp only at t
    have := hpos x
    linarith
  have key := area (Set.mem_Ici.2 le_rfl) (Set.mem_Ici.2 hab.le) hab
  dsimp only at key
  unfold newtonStep at e1 e2
  have q1 : (o.time G a - dt) / o.distance G a = a - b := by
    unfold Orbit.time Orbit.distance; linarith
  have q2 : (o.time G b - dt) / o.distance G b = b - a := by
    unfold Orbit.time Orbit.distance; linarith
  rw [div_eq_iff (hpos _).ne'] at q1 q2
  linarith

/-! ### Together -/

theorem bisect_root (o : Orbit ℝ) (hm : StrictMono (o.time G)) {root : ℝ} (hroot : o.time G root = dt) (h0 : 0 < root)
    (hb : (o.bracket dt).1 ≤ root ∧ root ≤ (o.bracket dt).2) {fuel : ℕ} {gs : Gs ℝ} {ri : ℝ}
    (h : bisect (fun y => some (G y)) o dt fuel = some (gs, ri)) :
    ∃ y, gs = G y ∧ ri = o.ri (G y) ∧ |y - root| ≤ 2e-15 * root := by
  unfold bisect at h
  generalize o.bracket dt = b at *
  obtain ⟨lo, hi⟩ := b
  dsimp only at *
  split at h
  · exact absurd h (by simp)
  · rename_i gs' e
    simp only [Option.some.injEq, Prod.mk.injEq] at h
    obtain ⟨y, h1, h2⟩ := bisectLoop_root o hm hroot h0 fuel _ _ _ hb.1 hb.2 _ e
    exact ⟨y, by rw [← h1, h.1], by rw [← h1, h.2], h2⟩

end Posidonius.WHFast
