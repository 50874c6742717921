import Verif.Props.Symplectic
import Verif.Props.Record
import Verif.Spec.Observer
import Verif.Lemmas.LeapfrogOrder
import Mathlib.Analysis.Calculus.ContDiff.Operations
import Mathlib.Analysis.Calculus.ContDiff.Deriv
import Mathlib.Analysis.Calculus.Deriv.Prod
import Mathlib.Analysis.InnerProductSpace.Calculus
import Mathlib.Analysis.Normed.Module.FiniteDimension
import Mathlib.Topology.MetricSpace.Thickening

/-! # C111: LeapFrog converges to the solution of Newton's equations -/

namespace Posidonius.Univ
open Gravity (newton)
open WHFast (VecDeriv)
open Set Filter Topology

variable {n : ℕ} {k : Consts ℝ} {m : Models ℝ} {eps2 dt time : ℝ} {roche : Fin n → Fin n → ℝ}

/-! ### Coordinates -/

/-- The coordinates of a vector. -/
def coords (a : Axes ℝ) : Fin 3 → ℝ := ![a.x, a.y, a.z]

/-- The vector with the given coordinates. -/
def ofCoords (c : Fin 3 → ℝ) : Axes ℝ := ⟨c 0, c 1, c 2⟩

theorem ofCoords_coords (a : Axes ℝ) : ofCoords (coords a) = a := rfl

theorem coords_ofCoords (c : Fin 3 → ℝ) : coords (ofCoords c) = c := by
  funext i; fin_cases i <;> rfl

theorem coords_add (a b : Axes ℝ) : coords (a + b) = coords a + coords b := by
  funext i; fin_cases i <;> rfl

theorem coords_smul (c : ℝ) (a : Axes ℝ) : coords (c • a) = c • coords a := by
  funext i; fin_cases i <;> rfl

theorem coords_sub (a b : Axes ℝ) : coords (a - b) = coords a - coords b := by
  funext i; fin_cases i <;> rfl

theorem hasDerivAt_coords {p : ℝ → Axes ℝ} {d : Axes ℝ} {t : ℝ} (h : VecDeriv p d t) :
    HasDerivAt (fun s => coords (p s)) (coords d) t := by
  rw [hasDerivAt_pi]
  intro i
  fin_cases i
  · exact h.1
  · exact h.2.1
  · exact h.2.2

/-- Squared distance of two bodies in coordinates. -/
def dist2 (x : Fin n → Fin 3 → ℝ) (i j : Fin n) : ℝ :=
  (x i 0 - x j 0) * (x i 0 - x j 0) + (x i 1 - x j 1) * (x i 1 - x j 1) + (x i 2 - x j 2) * (x i 2 - x j 2)

theorem dist2_eq (x : Fin n → Axes ℝ) (i j : Fin n) : dist2 (fun i => coords (x i)) i j = (x i - x j).dot (x i - x j) := rfl

theorem dist2_contDiff (i j : Fin n) : ContDiff ℝ 3 (fun x : Fin n → Fin 3 → ℝ => dist2 x i j) := by
  unfold dist2
  have c : ∀ (i : Fin n) (a : Fin 3), ContDiff ℝ 3 (fun x : Fin n → Fin 3 → ℝ => x i a) := fun i a =>
    contDiff_apply_apply ℝ ℝ i a
  have d : ∀ a : Fin 3, ContDiff ℝ 3 (fun x : Fin n → Fin 3 → ℝ => x i a - x j a) := fun a => (c i a).sub (c j a)
  exact (((d 0).mul (d 0)).add ((d 1).mul (d 1))).add ((d 2).mul (d 2))

/-- Newton's accelerations in coordinates. -/
noncomputable def newtonField (G : ℝ) (mass : Fin n → ℝ) (x : Fin n → Fin 3 → ℝ) (i : Fin n) : Fin 3 → ℝ :=
  coords (∑ j, if j = i then 0 else newton G (mass j) (ofCoords (x i)) (ofCoords (x j)))

theorem newtonField_apply (G : ℝ) (mass : Fin n → ℝ) (x : Fin n → Fin 3 → ℝ) (i : Fin n) (a : Fin 3) :
    newtonField G mass x i a = ∑ j, if j = i then 0 else G * mass j / √(dist2 x j i) ^ 3 * (x j a - x i a) := by
  unfold newtonField
  have : ∀ (l : Finset (Fin n)) (f : Fin n → Axes ℝ), coords (∑ j ∈ l, f j) a = ∑ j ∈ l, coords (f j) a := by
    intro l f
    fin_cases a
    · exact Axes.sum_x l f
    · exact Axes.sum_y l f
    · exact Axes.sum_z l f
  rw [this]
  refine Finset.sum_congr rfl fun j _ => ?_
  split
  · fin_cases a
    · exact Axes.zero_x
    · exact Axes.zero_y
    · exact Axes.zero_z
  · unfold newton
    rw [coords_smul, coords_sub, coords_ofCoords, coords_ofCoords]
    rfl

/-- Places without collisions. -/
def Free (x : Fin n → Fin 3 → ℝ) : Prop := ∀ i j, i ≠ j → 0 < dist2 x i j

theorem newtonField_contDiffAt (G : ℝ) (mass : Fin n → ℝ) {x : Fin n → Fin 3 → ℝ} (hx : Free x) :
    ContDiffAt ℝ 3 (newtonField G mass) x := by
  rw [contDiffAt_pi]
  intro i
  rw [contDiffAt_pi]
  intro a
  simp only [newtonField_apply]
  refine ContDiffAt.sum fun j _ => ?_
  by_cases hj : j = i
  · simp only [if_pos hj]; exact contDiffAt_const
  · simp only [if_neg hj]
    have pos := hx j i hj
    have d := (dist2_contDiff j i).contDiffAt (x := x)
    have s := (d.sqrt pos.ne').pow 3
    exact (contDiffAt_const.div s (pow_ne_zero 3 (Real.sqrt_pos.2 pos).ne')).mul
      ((contDiff_apply_apply ℝ ℝ j a).contDiffAt.sub (contDiff_apply_apply ℝ ℝ i a).contDiffAt)

/-- `Clear` with room to move. -/
def StrictlyClear (roche : Fin n → Fin n → ℝ) (radius : Fin n → ℝ) (host : Fin n) (x : Fin n → Fin 3 → ℝ) : Prop :=
  ∀ i j, i < j → roche i j ^ 2 < dist2 x i j ∧ (radius i + radius j) ^ 2 < dist2 x i j ∧ (i = host → dist2 x i j < 10000)

theorem StrictlyClear.free {radius : Fin n → ℝ} {host : Fin n} {x : Fin n → Fin 3 → ℝ}
    (h : StrictlyClear roche radius host x) : Free x := by
  have symm : ∀ i j, dist2 x i j = dist2 x j i := fun i j => by unfold dist2; ring
  intro i j hij
  rcases lt_or_gt_of_ne hij with c | c
  · exact lt_of_le_of_lt (sq_nonneg _) (h i j c).1
  · rw [symm]
    exact lt_of_le_of_lt (sq_nonneg _) (h j i c).1

theorem strictlyClear_open (roche : Fin n → Fin n → ℝ) (radius : Fin n → ℝ) (host : Fin n) :
    IsOpen {x | StrictlyClear roche radius host x} := by
  unfold StrictlyClear
  simp only [ofPred_forall]
  refine isOpen_iInter_of_finite fun i => isOpen_iInter_of_finite fun j => isOpen_iInter_of_finite fun hij => ?_
  have c := (dist2_contDiff i j).continuous
  refine (isOpen_lt continuous_const c).inter ((isOpen_lt continuous_const c).inter ?_)
  by_cases hi : i = host
  · have e : {x : Fin n → Fin 3 → ℝ | i = host → dist2 x i j < 10000} = {x | dist2 x i j < 10000} := by
      ext x; simp [hi]
    exact cast (congrArg IsOpen e.symm) (isOpen_lt c continuous_const)
  · have e : {x : Fin n → Fin 3 → ℝ | i = host → dist2 x i j < 10000} = univ := by
      ext x; simp [hi]
    exact cast (congrArg IsOpen e.symm) isOpen_univ

theorem StrictlyClear.clear {radius : Fin n → ℝ} {host : Fin n} {x : Fin n → Axes ℝ}
    (h : StrictlyClear roche radius host fun i => coords (x i)) : Clear roche radius host x := fun i j hij => by
  obtain ⟨h1, h2, h3⟩ := h i j hij
  exact ⟨h1, h2, fun e => (h3 e).le⟩

/-! ### Smoothness of the solution -/

theorem contDiffOn_of_deriv {E : Type} [NormedAddCommGroup E] [NormedSpace ℝ E] {f g : ℝ → E} {s : Set ℝ} (hs : IsOpen s)
    {r : ℕ} (hf : ∀ t ∈ s, HasDerivAt f (g t) t) (hg : ContDiffOn ℝ r g s) : ContDiffOn ℝ (r + 1) f s := by
  rw [contDiffOn_succ_iff_deriv_of_isOpen hs]
  refine ⟨fun t ht => (hf t ht).differentiableAt.differentiableWithinAt, by simp, ?_⟩
  exact hg.congr fun t ht => (hf t ht).deriv

/-- Near a solution without collisions the conditions for convergence hold. -/
theorem solution {X V : ℝ → Fin n → Fin 3 → ℝ} {T a b : ℝ} (ha : a < 0) (hb : T < b)
    {G : ℝ} {mass : Fin n → ℝ} {radius : Fin n → ℝ} {host : Fin n}
    (hX : ∀ t ∈ Ioo a b, HasDerivAt X (V t) t) (hV : ∀ t ∈ Ioo a b, HasDerivAt V (newtonField G mass (X t)) t)
    (hc : ∀ t ∈ Icc 0 T, StrictlyClear roche radius host (X t)) :
    ∃ M L ρ Y J S, 0 < ρ ∧ Order.Solution (newtonField G mass) T M L ρ X V Y J S
      ∧ ∀ t ∈ Icc 0 T, ∀ y, ‖y - X t‖ ≤ ρ → StrictlyClear roche radius host y := by
  set Ω := {x | StrictlyClear roche radius host x} with hΩ
  have openΩ : IsOpen Ω := strictlyClear_open roche radius host
  have sub : Icc 0 T ⊆ Ioo a b := fun t ht => ⟨ha.trans_le ht.1, ht.2.trans_lt hb⟩
  have contX : ContinuousOn X (Ioo a b) := fun t ht => (hX t ht).continuousAt.continuousWithinAt
  set I := Ioo a b ∩ X ⁻¹' Ω with hI
  have openI : IsOpen I := contX.isOpen_inter_preimage isOpen_Ioo openΩ
  have subI : Icc 0 T ⊆ I := fun t ht => ⟨sub ht, hc t ht⟩
  have smooth : ContDiffOn ℝ 3 (newtonField G mass) Ω := fun x hx =>
    (newtonField_contDiffAt G mass (StrictlyClear.free hx)).contDiffWithinAt
  have maps : MapsTo X I Ω := fun t ht => ht.2
  have dX : ∀ t ∈ I, HasDerivAt X (V t) t := fun t ht => hX t ht.1
  have dV : ∀ t ∈ I, HasDerivAt V (newtonField G mass (X t)) t := fun t ht => hV t ht.1
  have V0 : ContDiffOn ℝ (0 : ℕ) V I := by
    rw [Nat.cast_zero, contDiffOn_zero]
    exact fun t ht => (dV t ht).continuousAt.continuousWithinAt
  have X1 : ContDiffOn ℝ ((0 : ℕ) + 1) X I := contDiffOn_of_deriv openI dX V0
  have Y1 : ContDiffOn ℝ ((1 : ℕ)) (fun t => newtonField G mass (X t)) I :=
    (smooth.of_le (by norm_num)).comp (by simpa using X1) maps
  have V2 : ContDiffOn ℝ ((1 : ℕ) + 1) V I := contDiffOn_of_deriv openI dV Y1
  have X3 : ContDiffOn ℝ ((2 : ℕ) + 1) X I := contDiffOn_of_deriv openI dX (by
    have : ((1 : ℕ) + 1 : WithTop ℕ∞) = ((2 : ℕ) : WithTop ℕ∞) := by norm_num
    rw [← this]; exact V2)
  set Y : ℝ → Fin n → Fin 3 → ℝ := fun t => newtonField G mass (X t) with hY
  have Y2 : ContDiffOn ℝ ((1 : WithTop ℕ∞) + 1) Y I := by
    have X2 : ContDiffOn ℝ 2 X I := X3.of_le (by norm_num)
    have := (smooth.of_le (m := 2) (by norm_num)).comp X2 maps
    rw [one_add_one_eq_two]; exact this
  rw [contDiffOn_succ_iff_deriv_of_isOpen openI] at Y2
  obtain ⟨y1, -, y2⟩ := Y2
  rw [← zero_add (1 : WithTop ℕ∞), contDiffOn_succ_iff_deriv_of_isOpen openI] at y2
  obtain ⟨y3, -, y4⟩ := y2
  have dY : ∀ t ∈ I, HasDerivAt Y (deriv Y t) t := fun t ht => (y1.differentiableAt (openI.mem_nhds ht)).hasDerivAt
  have dJ : ∀ t ∈ I, HasDerivAt (deriv Y) (deriv (deriv Y) t) t := fun t ht =>
    (y3.differentiableAt (openI.mem_nhds ht)).hasDerivAt
  have bounded : ∀ f : ℝ → Fin n → Fin 3 → ℝ, ContinuousOn f I → ∃ C, ∀ t ∈ Icc 0 T, ‖f t‖ ≤ C := fun f hf =>
    isCompact_Icc.exists_bound_of_continuousOn (hf.mono subI)
  obtain ⟨M1, hM1⟩ := bounded Y fun t ht => (dY t ht).continuousAt.continuousWithinAt
  obtain ⟨M2, hM2⟩ := bounded (deriv Y) fun t ht => (dJ t ht).continuousAt.continuousWithinAt
  obtain ⟨M3, hM3⟩ := bounded (deriv (deriv Y)) y4.continuousOn
  have K : IsCompact (X '' Icc 0 T) := isCompact_Icc.image_of_continuousOn (contX.mono sub)
  obtain ⟨ρ, hρ, thick⟩ := K.exists_cthickening_subset_open openΩ (by rintro _ ⟨t, ht, rfl⟩; exact hc t ht)
  have KT : IsCompact (Metric.cthickening ρ (X '' Icc 0 T)) := K.cthickening
  have dA : ContinuousOn (fderiv ℝ (newtonField G mass)) Ω := smooth.continuousOn_fderiv_of_isOpen openΩ (by norm_num)
  obtain ⟨L, hL⟩ := KT.exists_bound_of_continuousOn (dA.mono thick)
  have ball : ∀ t ∈ Icc 0 T, ∀ y, ‖y - X t‖ ≤ ρ → y ∈ Metric.closedBall (X t) ρ := fun t _ y hy => by
    rwa [mem_closedBall_iff_norm]
  have inside : ∀ t ∈ Icc 0 T, Metric.closedBall (X t) ρ ⊆ Metric.cthickening ρ (X '' Icc 0 T) := fun t ht =>
    Metric.closedBall_subset_cthickening (mem_image_of_mem X ht) ρ
  refine ⟨max (max M1 M2) (max M3 0), max L 0, ρ, Y, deriv Y, deriv (deriv Y), hρ, ?_, fun t ht y hy =>
    thick (inside t ht (ball t ht y hy))⟩
  exact
    { x := fun t ht => dX t (subI ht)
      v := fun t ht => dV t (subI ht)
      y := fun t ht => dY t (subI ht)
      j := fun t ht => dJ t (subI ht)
      acceleration := fun t _ => rfl
      yM := fun t ht => (hM1 t ht).trans ((le_max_left _ _).trans (le_max_left _ _))
      jM := fun t ht => (hM2 t ht).trans ((le_max_right _ _).trans (le_max_left _ _))
      sM := fun t ht => (hM3 t ht).trans ((le_max_left _ _).trans (le_max_right _ _))
      L0 := le_max_right _ _
      M0 := (le_max_right _ _).trans (le_max_right _ _)
      lipschitz := fun t ht y hy => by
        refine (Convex.norm_image_sub_le_of_norm_fderiv_le (𝕜 := ℝ) (s := Metric.closedBall (X t) ρ) (C := L) ?_ ?_
          (convex_closedBall _ _) (Metric.mem_closedBall_self hρ.le) (ball t ht y hy)).trans
          (mul_le_mul_of_nonneg_right (le_max_left _ _) (norm_nonneg _))
        · intro z hz
          exact (newtonField_contDiffAt G mass (StrictlyClear.free (thick (inside t ht hz)))).differentiableAt (by norm_num)
        · exact fun z hz => hL z (inside t ht hz) }

/-! ### Runs -/

/-- An iteration goes through if the checks do not fire halfway, with or without a record before it. -/
theorem leapfrogIterate_goes_on {u : Universe ℝ n} (hi : Inert u) (time : ℝ) (record : Bool)
    (hc : Clear roche (fun i => (u.particles i).radius) u.hosts.mostMassive
      fun i => (u.particles i).inertialPosition + (dt / 2) • (u.particles i).inertialVelocity) :
    ∃ u', leapfrogIterate k m eps2 roche dt (dt / 2) time record u = some u' ∧ Inert u' ∧ u'.hosts = u.hosts
      ∧ ∀ i, (u'.particles i).radius = (u.particles i).radius := by
  cases record
  · exact leapfrogIterate_defined hi time hc
  · obtain ⟨e, h0⟩ := observe_quiet k time u (fun i => by rw [eqb_real_false]; simpa using hi.inertia i) hi.evolution hi.forceless.1
    set u0 := setSpin e (inertialToHeliocentric u) with hu0
    have f : ∀ {A : Type} (g : Particle ℝ → A), (∀ s q, g (spun s q) = g q) → (∀ q, g (zeroHeliocentric q) = g q) →
        (∀ p q, g (toHeliocentric p q) = g q) → ∀ i, g (u0.particles i) = g (u.particles i) := fun g x y z i =>
      (x _ _).trans (helio_field g y z u i)
    have R := f Particle.radius (fun _ _ => rfl) (fun _ => rfl) (fun _ _ => rfl)
    have P := f Particle.inertialPosition (fun _ _ => rfl) (fun _ => rfl) (fun _ _ => rfl)
    have W := f Particle.inertialVelocity (fun _ _ => rfl) (fun _ => rfl) (fun _ _ => rfl)
    have I := f Particle.momentOfInertia (fun _ _ => rfl) (fun _ => rfl) (fun _ _ => rfl)
    obtain ⟨u', h', i', t', r'⟩ := leapfrogIterate_defined (k := k) (m := m) (eps2 := eps2) (dt := dt) (roche := roche) (u := u0)
      ⟨hi.forceless, hi.evolution, fun i => by rw [I]; exact hi.inertia i⟩ time (by
        simp only [R, P, W]; exact hc)
    refine ⟨u', ?_, i', t', fun i => (r' i).trans (R i)⟩
    rw [← h']
    unfold leapfrogIterate
    simp only [if_true, h0, Bool.false_eq_true, if_false]

/-- Bodies of a universe in coordinates. -/
def places (u : Universe ℝ n) : Fin n → Fin 3 → ℝ := fun i => coords (u.particles i).inertialPosition

def motions (u : Universe ℝ n) : Fin n → Fin 3 → ℝ := fun i => coords (u.particles i).inertialVelocity

theorem norm_coords_le {e : ℝ} {x y : Fin n → Axes ℝ} (h : ‖(fun i => coords (x i)) - (fun i => coords (y i))‖ ≤ e) (i : Fin n) :
    √((x i - y i).dot (x i - y i)) ≤ 2 * e := by
  have e0 : 0 ≤ e := (norm_nonneg _).trans h
  have c : ∀ a, |coords (x i - y i) a| ≤ e := fun a => by
    rw [coords_sub]
    calc |(coords (x i) - coords (y i)) a| ≤ ‖coords (x i) - coords (y i)‖ := norm_le_pi_norm (coords (x i) - coords (y i)) a
      _ ≤ _ := norm_le_pi_norm ((fun i => coords (x i)) - (fun i => coords (y i))) i
      _ ≤ e := h
  have sq : ∀ a, coords (x i - y i) a * coords (x i - y i) a ≤ e * e := fun a => by
    have := c a
    rw [← abs_mul_abs_self (coords (x i - y i) a)]
    exact mul_self_le_mul_self (abs_nonneg _) this
  refine Real.sqrt_le_iff.2 ⟨by linarith, ?_⟩
  have d : (x i - y i).dot (x i - y i) = coords (x i - y i) 0 * coords (x i - y i) 0
      + coords (x i - y i) 1 * coords (x i - y i) 1 + coords (x i - y i) 2 * coords (x i - y i) 2 := rfl
  rw [d]
  nlinarith [sq 0, sq 1, sq 2]

/-- **C111** Let the bodies of a system without other forces move along a solution of Newton's equations on an open interval
around `[0, T]`, without touching a Roche radius, overlapping or leaving the limit of distance on `[0, T]`.  Then LeapFrog,
started at the same place, goes through every number of steps within `T` if the steps are short enough, and the error of all
positions and velocities is at most a constant times the square of the length of the steps. -/
theorem C111_second_order {X V : Fin n → ℝ → Axes ℝ} {T a b : ℝ} (ha : a < 0) (hb : T < b)
    {u : Universe ℝ n} (hi : Inert u)
    (hX : ∀ i, ∀ t ∈ Ioo a b, VecDeriv (X i) (V i t) t)
    (hV : ∀ i, ∀ t ∈ Ioo a b,
      VecDeriv (V i) (∑ j, if j = i then 0 else newton k.g (u.particles j).mass (X i t) (X j t)) t)
    (hc : ∀ t ∈ Icc 0 T, ∀ i j, i < j →
      roche i j ^ 2 < (X i t - X j t).dot (X i t - X j t)
      ∧ ((u.particles i).radius + (u.particles j).radius) ^ 2 < (X i t - X j t).dot (X i t - X j t)
      ∧ (i = u.hosts.mostMassive → (X i t - X j t).dot (X i t - X j t) < 10000))
    (hx : ∀ i, (u.particles i).inertialPosition = X i 0) (hv : ∀ i, (u.particles i).inertialVelocity = V i 0) :
    ∃ C δ, 0 < δ ∧ ∀ h, 0 < h → h < δ → ∀ l : List (ℝ × Bool), l.length * h ≤ T →
      ∃ u', leapfrogRun k m eps2 roche h (h / 2) l u = some u' ∧ ∀ i,
        √(((u'.particles i).inertialPosition - X i (l.length * h)).dot
          ((u'.particles i).inertialPosition - X i (l.length * h))) ≤ C * h ^ 2
        ∧ √(((u'.particles i).inertialVelocity - V i (l.length * h)).dot
          ((u'.particles i).inertialVelocity - V i (l.length * h))) ≤ C * h ^ 2 := by
  set X' : ℝ → Fin n → Fin 3 → ℝ := fun t i => coords (X i t) with hX'
  set V' : ℝ → Fin n → Fin 3 → ℝ := fun t i => coords (V i t) with hV'
  set mass := fun j => (u.particles j).mass with hmass
  set radius := fun j => (u.particles j).radius with hradius
  obtain ⟨M, L, ρ, Y, J, S, ρ0, sol, near⟩ := solution (roche := roche) (X := X') (V := V') (G := k.g) (mass := mass)
    (radius := radius) (host := u.hosts.mostMassive) ha hb
    (fun t ht => hasDerivAt_pi.2 fun i => hasDerivAt_coords (hX i t ht))
    (fun t ht => hasDerivAt_pi.2 fun i => hasDerivAt_coords (hV i t ht)) hc
  have M0 := sol.M0
  have L0 := sol.L0
  set K := 1 + 2 * L with hK
  have K0 : 0 < K := by positivity
  set B := M * (2 * L + 6) / K * Real.exp (K * T) with hB
  have B0 : 0 ≤ B := by positivity
  obtain ⟨δ, δ0, hδ1, hδ⟩ : ∃ δ : ℝ, 0 < δ ∧ δ ≤ 1 ∧ ∀ h, 0 < h → h < δ → (B + M) * h ^ 2 ≤ ρ := by
    refine ⟨min 1 (ρ / (B + M + 1)), lt_min one_pos (by positivity), min_le_left _ _, fun h h0 hh => ?_⟩
    have h1 : h ≤ 1 := (hh.trans_le (min_le_left _ _)).le
    have h2 : h < ρ / (B + M + 1) := hh.trans_le (min_le_right _ _)
    rw [lt_div_iff₀ (by positivity)] at h2
    calc (B + M) * h ^ 2 ≤ (B + M) * h := mul_le_mul_of_nonneg_left (by nlinarith) (by positivity)
      _ ≤ h * (B + M + 1) := by linarith
      _ ≤ ρ := h2.le
  refine ⟨2 * B, δ, δ0, fun h h0 hh => ?_⟩
  have h1 : h ≤ 1 := hh.le.trans hδ1
  have room := hδ h h0 hh
  -- the steps from any moment
  suffices key : ∀ (l : List (ℝ × Bool)) (j : ℕ) (w : Universe ℝ n), ((j + l.length : ℕ) : ℝ) * h ≤ T → Inert w →
      w.hosts = u.hosts → (∀ i, (w.particles i).radius = radius i) → (∀ i, (w.particles i).mass = mass i) →
      ‖places w - X' (j * h)‖ + ‖motions w - V' (j * h)‖ ≤ M * (2 * L + 6) * h ^ 2 / K * ((1 + K * h) ^ j - 1) →
      ∃ w', leapfrogRun k m eps2 roche h (h / 2) l w = some w'
        ∧ ‖places w' - X' ((j + l.length : ℕ) * h)‖ + ‖motions w' - V' ((j + l.length : ℕ) * h)‖ ≤ B * h ^ 2 by
    intro l hl
    obtain ⟨w', e1, e2⟩ := key l 0 u (by simpa using hl) hi rfl (fun _ => rfl) (fun _ => rfl) (by
      have p0 : places u = X' 0 := by funext i; simp [places, hX', hx]
      have p1 : motions u = V' 0 := by funext i; simp [motions, hV', hv]
      simp [p0, p1])
    rw [zero_add] at e2
    refine ⟨w', e1, fun i => ?_⟩
    have n1 := norm_nonneg (places w' - X' (l.length * h))
    have n2 := norm_nonneg (motions w' - V' (l.length * h))
    rw [mul_assoc]
    exact ⟨norm_coords_le (x := fun i => (w'.particles i).inertialPosition) (y := fun i => X i (l.length * h))
        (show ‖places w' - X' (l.length * h)‖ ≤ _ by linarith) i,
      norm_coords_le (x := fun i => (w'.particles i).inertialVelocity) (y := fun i => V i (l.length * h))
        (show ‖motions w' - V' (l.length * h)‖ ≤ _ by linarith) i⟩
  intro l
  induction l with
  | nil =>
    intro j w hj hw ht hr hm he
    refine ⟨w, rfl, he.trans ?_⟩
    exact Order.growth_bound K0 (by positivity) h0.le j (by simpa using hj)
  | cons s l ih =>
    intro j w hj hw ht hr hm he
    obtain ⟨time, record⟩ := s
    have cast1 : (((j + 1 : ℕ) : ℝ)) * h = j * h + h := by push_cast; ring
    have hj1 : (j : ℝ) * h + h ≤ T := by
      refine le_trans ?_ hj
      rw [← cast1]
      refine mul_le_mul_of_nonneg_right ?_ h0.le
      have : j + 1 ≤ j + ((time, record) :: l).length := by simp
      exact_mod_cast this
    have jh : 0 ≤ (j : ℝ) * h := by positivity
    have eB := he.trans (Order.growth_bound K0 (by positivity) h0.le j (by linarith : (j : ℝ) * h ≤ T))
    have hq : ‖places w - X' (j * h)‖ + ‖motions w - V' (j * h)‖ + M * h ^ 2 ≤ ρ := by nlinarith
    obtain ⟨s1, s2⟩ := sol.step jh h0.le h1 hj1 hq
    have mid : places w + (h / 2) • motions w
        = fun i => coords ((w.particles i).inertialPosition + (h / 2) • (w.particles i).inertialVelocity) := by
      funext i
      rw [coords_add, coords_smul]
      rfl
    have clear := near (j * h + h / 2) ⟨by linarith, by linarith⟩ _ (s1.trans hq)
    rw [mid] at clear
    obtain ⟨w1, e1, i1, t1, r1⟩ := leapfrogIterate_goes_on (k := k) (m := m) (eps2 := eps2) (dt := h) (roche := roche) hw time record
      (by rw [ht]; simp only [hr]; exact clear.clear)
    obtain ⟨-, -, g⟩ := leapfrogIterate_gravity hw.forceless e1
    have v1 : motions w1 = motions w + h • newtonField k.g mass (places w + (h / 2) • motions w) := by
      funext i
      have := (g i).2.1
      show coords (w1.particles i).inertialVelocity = _
      rw [this, coords_add, coords_smul, mid]
      simp only [hm]
      rfl
    have x1 : places w1 = places w + (h / 2) • motions w + (h / 2) • motions w1 := by
      funext i
      have := (g i).2.2
      show coords (w1.particles i).inertialPosition = _
      rw [this, coords_add, coords_smul, mid]
      rfl
    have grow := Order.growth K0 h0.le j he (s2 _ _ v1 x1)
    rw [← cast1] at grow
    obtain ⟨w', e2, e3⟩ := ih (j + 1) w1 (by
        have : j + 1 + l.length = j + ((time, record) :: l).length := by simp; omega
        rw [this]; exact hj) i1 (t1.trans ht) (fun i => (r1 i).trans (hr i)) (fun i => (g i).1.trans (hm i)) grow
    refine ⟨w', ?_, ?_⟩
    · unfold leapfrogRun
      rw [e1]
      exact e2
    · have : j + ((time, record) :: l).length = j + 1 + l.length := by simp; omega
      rw [this]; exact e3

/-- Two equal bodies on a circle. -/
noncomputable def circling : Universe ℝ 2 :=
  { relativisticUniverse .kidder1995 0 0 with
    consider := ⟨false, false, false, false, false, false⟩,
    particles := fun i => { blank ℝ with
      mass := 4
      momentOfInertia := 1
      radius := 1 / 10
      inertialPosition := if i = 0 then ⟨1, 0, 0⟩ else ⟨-1, 0, 0⟩
      inertialVelocity := if i = 0 then ⟨0, 1, 0⟩ else ⟨0, -1, 0⟩ } }

/-- They satisfy the conditions for every stretch of time. -/
example (T : ℝ) (hg : k.g = 1) : ∃ C δ, 0 < δ ∧ ∀ h, 0 < h → h < δ → ∀ l : List (ℝ × Bool), l.length * h ≤ T →
    ∃ u', leapfrogRun k m eps2 (fun _ _ => 1) h (h / 2) l circling = some u' ∧ ∀ i,
      √(((u'.particles i).inertialPosition - (if i = 0 then 1 else -1 : ℝ) • ⟨Real.cos (l.length * h), Real.sin (l.length * h), 0⟩).dot
        ((u'.particles i).inertialPosition - (if i = 0 then 1 else -1 : ℝ) • ⟨Real.cos (l.length * h), Real.sin (l.length * h), 0⟩)) ≤ C * h ^ 2 := by
  have one : ∀ t, Real.cos t * Real.cos t + Real.sin t * Real.sin t = 1 := fun t => by
    have := Real.sin_sq_add_cos_sq t; linarith
  have four : √(4 : ℝ) = 2 := by rw [show (4 : ℝ) = 2 ^ 2 by norm_num]; exact Real.sqrt_sq (by norm_num)
  obtain ⟨C, δ, δ0, H⟩ := C111_second_order (k := k) (m := m) (eps2 := eps2) (roche := fun _ _ => 1) (u := circling)
    (X := fun i t => (if i = 0 then 1 else -1 : ℝ) • ⟨Real.cos t, Real.sin t, 0⟩)
    (V := fun i t => (if i = 0 then 1 else -1 : ℝ) • ⟨-Real.sin t, Real.cos t, 0⟩) (T := T) (a := -1) (b := T + 1)
    (by norm_num) (by linarith) ⟨⟨rfl, rfl, rfl, rfl⟩, rfl, fun i => one_ne_zero⟩
    (fun i t _ => VecDeriv.const_smul' _ ⟨Real.hasDerivAt_cos t, Real.hasDerivAt_sin t, hasDerivAt_const _ _⟩)
    (fun i t _ => by
      have base : VecDeriv (fun t => (if i = 0 then 1 else -1 : ℝ) • (⟨-Real.sin t, Real.cos t, 0⟩ : Axes ℝ))
          ((if i = 0 then 1 else -1 : ℝ) • ⟨-Real.cos t, -Real.sin t, 0⟩) t :=
        VecDeriv.const_smul' _ ⟨(Real.hasDerivAt_sin t).neg, Real.hasDerivAt_cos t, hasDerivAt_const _ _⟩
      refine Eq.subst (motive := fun e => VecDeriv _ e t) ?_ base
      have d4 : (Real.cos t + Real.cos t) * (Real.cos t + Real.cos t) + (Real.sin t + Real.sin t) * (Real.sin t + Real.sin t)
          = 4 := by linarith [one t]
      have d5 : (-Real.cos t - Real.cos t) * (-Real.cos t - Real.cos t) + (-Real.sin t - Real.sin t) * (-Real.sin t - Real.sin t)
          = 4 := by linarith [one t]
      fin_cases i
      · ext <;> simp [Fin.sum_univ_two, newton, hg, circling, Axes.dot, d5, four] <;> ring
      · ext <;> simp [Fin.sum_univ_two, newton, hg, circling, Axes.dot, d4, four] <;> ring)
    (fun t _ i j hij => by
      obtain ⟨rfl, rfl⟩ : i = 0 ∧ j = 1 := by omega
      have d4 : (Real.cos t + Real.cos t) * (Real.cos t + Real.cos t) + (Real.sin t + Real.sin t) * (Real.sin t + Real.sin t)
          = 4 := by linarith [one t]
      simp [Axes.dot, d4, circling]
      norm_num)
    (fun i => by fin_cases i <;> ext <;> simp [circling]) (fun i => by fin_cases i <;> ext <;> simp [circling])
  exact ⟨C, δ, δ0, fun h h0 hh l hl => by
    obtain ⟨u', e, q⟩ := H h h0 hh l hl
    exact ⟨u', e, fun i => (q i).1⟩⟩

end Posidonius.Univ
