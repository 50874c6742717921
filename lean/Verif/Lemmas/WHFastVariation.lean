import Verif.Lemmas.WHFastForm
import Verif.Props.Symplectic
import Verif.Spec.WHFastSymplectic

/-! What the steps of WHFast do to families of systems. -/

namespace Posidonius.WHFast
open Posidonius Gravity Filter Topology
open Posidonius.Univ (tidalMap newton_deriv kickMap kickMap_symm dot_sum' VecDeriv.add' VecDeriv.sub' VecDeriv.const_smul'
  VecDeriv.sum' VecDeriv.zero' VecDeriv.congr')

variable {n : ℕ} {b : Bool} {G m0 : ℝ} {m : Fin n → ℝ}

/-- The symplectic form in heliocentric coordinates. -/
noncomputable def helioForm (b : Bool) (m0 : ℝ) (m : Fin n → ℝ) (x v y z : Fin n → Axes ℝ) : ℝ :=
  ∑ i, m0 * share b m0 (m i) * ((x i).dot (z i) - (y i).dot (v i))

theorem share_stretch (h0 : 0 < m0) {mi : ℝ} (hi : 0 < mi) : m0 * share b m0 mi * stretch b m0 mi = mi := by
  have : m0 + mi ≠ 0 := by positivity
  cases b
  · simp only [share, stretch, Bool.false_eq_true, if_false]; field_simp
  · simp only [share, stretch, if_true]; field_simp

theorem stretch_pos (h0 : 0 < m0) {mi : ℝ} (hi : 0 < mi) : 0 < stretch b m0 mi := by
  unfold stretch
  split <;> positivity

theorem jumping_symm (v z : Fin n → Axes ℝ) :
    ∑ i, m0 * share b m0 (m i) * (jumping b m0 m v i).dot (z i) = ∑ i, m0 * share b m0 (m i) * (jumping b m0 m z i).dot (v i) := by
  have e : ∀ v z : Fin n → Axes ℝ, ∑ i, m0 * share b m0 (m i) * (jumping b m0 m v i).dot (z i)
      = ∑ i, ∑ j, m0 * share b m0 (m i) * share b m0 (m j) * (v j).dot (z i)
        - ∑ i, m0 * share b m0 (m i) * own b m0 (m i) * (v i).dot (z i) := by
    intro v z
    rw [← Finset.sum_sub_distrib]
    refine Finset.sum_congr rfl fun i _ => ?_
    rw [jumping, Axes.sub_dot, Axes.smul_dot, Axes.dot_comm, dot_sum', mul_sub, Finset.mul_sum]
    congr 1
    · refine Finset.sum_congr rfl fun j _ => ?_
      rw [Axes.dot_smul, Axes.dot_comm (v j)]
      ring
    · ring
  rw [e, e, Finset.sum_comm]
  congr 1
  · refine Finset.sum_congr rfl fun i _ => Finset.sum_congr rfl fun j _ => ?_
    rw [Axes.dot_comm]; ring
  · refine Finset.sum_congr rfl fun i _ => ?_
    rw [Axes.dot_comm]

theorem helioForm_jump (t : ℝ) (x v y z : Fin n → Axes ℝ) :
    helioForm b m0 m (fun i => x i + t • jumping b m0 m v i) v (fun i => y i + t • jumping b m0 m z i) z
      = helioForm b m0 m x v y z := by
  rw [← sub_eq_zero, helioForm, helioForm, ← Finset.sum_sub_distrib]
  have k := jumping_symm (b := b) (m0 := m0) (m := m) v z
  rw [← sub_eq_zero, ← Finset.sum_sub_distrib] at k
  rw [← mul_zero t, ← k, Finset.mul_sum]
  refine Finset.sum_congr rfl fun i _ => ?_
  simp only [Axes.add_dot, Axes.smul_dot]
  ring

theorem helioForm_kick (h0 : 0 < m0) (hm : ∀ i, 0 < m i) (t : ℝ) (mid x v y z : Fin n → Axes ℝ) :
    helioForm b m0 m x (fun i => v i + t • stretch b m0 (m i) • kickMap G m mid x i) y
        (fun i => z i + t • stretch b m0 (m i) • kickMap G m mid y i)
      = helioForm b m0 m x v y z := by
  rw [← sub_eq_zero, helioForm, helioForm, ← Finset.sum_sub_distrib]
  have k := kickMap_symm G m mid x y
  rw [← sub_eq_zero, ← Finset.sum_sub_distrib] at k
  rw [← mul_zero t, ← k, Finset.mul_sum]
  refine Finset.sum_congr rfl fun i _ => ?_
  simp only [Axes.dot_add, Axes.dot_smul]
  have e := share_stretch (b := b) h0 (hm i)
  linear_combination (t * ((x i).dot (kickMap G m mid y i) - (y i).dot (kickMap G m mid x i))) * e

/-- Coordinates on the way through a step. -/
structure Stages (n : ℕ) where
  (q1 v1 q2 v2 q3 q4 v4 : Fin n → Axes ℝ)

/-- The equations of a step. -/
structure Stages.Of (S : Stages n) (K : Solver) (b : Bool) (G m0 : ℝ) (m : Fin n → ℝ) (h : ℝ) (q v : Fin n → Axes ℝ) : Prop where
  first : ∀ i, K (G * pulling b m0 (m i)) (h / 2) (q i) (v i) = some (S.q1 i, S.v1 i)
  jump : ∀ i, S.q2 i = S.q1 i + (h / 2) • jumping b m0 m S.v1 i
  kick : ∀ i, S.v2 i = S.v1 i + h • stretch b m0 (m i) • among G m S.q2 i
  jump' : ∀ i, S.q3 i = S.q2 i + (h / 2) • jumping b m0 m S.v2 i
  last : ∀ i, K (G * pulling b m0 (m i)) (h / 2) (S.q3 i) (S.v2 i) = some (S.q4 i, S.v4 i)
  apart : Function.Injective S.q2

theorem Stages.Of.unique {S R : Stages n} {K : Solver} {h : ℝ} {q v : Fin n → Axes ℝ} (hS : S.Of K b G m0 m h q v)
    (hR : R.Of K b G m0 m h q v) : S = R := by
  obtain ⟨q1, v1, q2, v2, q3, q4, v4⟩ := S
  obtain ⟨p1, w1, p2, w2, p3, p4, w4⟩ := R
  obtain ⟨a1, a2, a3, a4, a5, -⟩ := hS
  obtain ⟨b1, b2, b3, b4, b5, -⟩ := hR
  dsimp only at *
  have e1 : ∀ i, q1 i = p1 i ∧ v1 i = w1 i := fun i => by
    have := b1 i
    rw [a1 i, Option.some.injEq, Prod.mk.injEq] at this
    exact this
  obtain rfl : q1 = p1 := funext fun i => (e1 i).1
  obtain rfl : v1 = w1 := funext fun i => (e1 i).2
  obtain rfl : q2 = p2 := funext fun i => by rw [a2, b2]
  obtain rfl : v2 = w2 := funext fun i => by rw [a3, b3]
  obtain rfl : q3 = p3 := funext fun i => by rw [a4, b4]
  have e5 : ∀ i, q4 i = p4 i ∧ v4 i = w4 i := fun i => by
    have := b5 i
    rw [a5 i, Option.some.injEq, Prod.mk.injEq] at this
    exact this
  obtain rfl : q4 = p4 := funext fun i => (e5 i).1
  obtain rfl : v4 = w4 := funext fun i => (e5 i).2
  rfl

/-- The derivatives of a family of vectors. -/
def Rates (q : ℝ → Fin n → Axes ℝ) (x : Fin n → Axes ℝ) : Prop := ∀ i, VecDeriv (fun e => q e i) (x i) 0

theorem Rates.jumping {v : ℝ → Fin n → Axes ℝ} {x : Fin n → Axes ℝ} (h : Rates v x) :
    Rates (fun e => jumping b m0 m (v e)) (jumping b m0 m x) := fun i =>
  VecDeriv.sub' (VecDeriv.sum' _ fun j _ => VecDeriv.const_smul' _ (h j)) (VecDeriv.const_smul' _ (h i))

theorem among_eq (q : Fin n → Axes ℝ) (i : Fin n) :
    among G m q i = ∑ j, if j = i then 0 else newton G (m j) (q i) (q j) := by
  refine Finset.sum_congr rfl fun j _ => ?_
  split
  · next h => subst h; simp [newton]
  · rfl

theorem Rates.among {q : ℝ → Fin n → Axes ℝ} {x : Fin n → Axes ℝ} (h : Rates q x) (apart : Function.Injective (q 0)) :
    Rates (fun e => among G m (q e)) (kickMap G m (q 0) x) := by
  intro i
  simp only [among_eq]
  refine VecDeriv.sum' _ fun j _ => ?_
  by_cases hj : j = i
  · simp only [if_pos hj]; exact VecDeriv.zero' 0
  · simp only [if_neg hj]
    exact newton_deriv _ _ (h i) (h j) fun e => hj (apart e.symm)

theorem stages_symplectic {K : Solver} (hK : K.Symplectic) (h0 : 0 < m0) (hm : ∀ i, 0 < m i) {h : ℝ} (hh : 0 ≤ h)
    {q v p w : ℝ → Fin n → Axes ℝ} {S R : ℝ → Stages n} (hS : ∀ᶠ e in 𝓝 0, (S e).Of K b G m0 m h (q e) (v e))
    (hR : ∀ᶠ e in 𝓝 0, (R e).Of K b G m0 m h (p e) (w e)) (e1 : q 0 = p 0) (e2 : v 0 = w 0) {x a y c : Fin n → Axes ℝ}
    (dx : Rates q x) (da : Rates v a) (dy : Rates p y) (dc : Rates w c) :
    ∃ x' a' y' c', Rates (fun e => (S e).q4) x' ∧ Rates (fun e => (S e).v4) a' ∧ Rates (fun e => (R e).q4) y'
      ∧ Rates (fun e => (R e).v4) c' ∧ S 0 = R 0 ∧ helioForm b m0 m x' a' y' c' = helioForm b m0 m x a y c := by
  have hS0 := hS.self_of_nhds
  have hR0 := hR.self_of_nhds
  have SR : S 0 = R 0 := hS0.unique (by rw [e1, e2]; exact hR0)
  have t0 : 0 ≤ h / 2 := by linarith
  have k1 := fun i => hK _ _ _ _ _ _ _ _ _ _ _ _ _ _ t0 (hS.mono fun e he => he.first i) (hR.mono fun e he => he.first i)
    (congrFun e1 i) (congrFun e2 i) (dx i) (da i) (dy i) (dc i)
  choose x1 a1 y1 c1 dx1 da1 dy1 dc1 f1 using k1
  have dx2 : Rates (fun e => (S e).q2) fun i => x1 i + (h / 2) • jumping b m0 m a1 i := fun i =>
    VecDeriv.congr' (VecDeriv.add' (dx1 i) (VecDeriv.const_smul' _ (Rates.jumping da1 i))) (hS.mono fun e he => he.jump i)
  have dy2 : Rates (fun e => (R e).q2) fun i => y1 i + (h / 2) • jumping b m0 m c1 i := fun i =>
    VecDeriv.congr' (VecDeriv.add' (dy1 i) (VecDeriv.const_smul' _ (Rates.jumping dc1 i))) (hR.mono fun e he => he.jump i)
  have f2 := helioForm_jump (b := b) (m0 := m0) (m := m) (h / 2) x1 a1 y1 c1
  set x2 := fun i => x1 i + (h / 2) • jumping b m0 m a1 i
  set y2 := fun i => y1 i + (h / 2) • jumping b m0 m c1 i
  have da2 : Rates (fun e => (S e).v2) fun i => a1 i + h • stretch b m0 (m i) • kickMap G m (S 0).q2 x2 i := fun i =>
    VecDeriv.congr' (VecDeriv.add' (da1 i) (VecDeriv.const_smul' _ (VecDeriv.const_smul' _ (Rates.among dx2 hS0.apart i))))
      (hS.mono fun e he => he.kick i)
  have dc2 : Rates (fun e => (R e).v2) fun i => c1 i + h • stretch b m0 (m i) • kickMap G m (S 0).q2 y2 i := fun i => by
    rw [SR]
    exact VecDeriv.congr' (VecDeriv.add' (dc1 i) (VecDeriv.const_smul' _ (VecDeriv.const_smul' _ (Rates.among dy2 hR0.apart i))))
      (hR.mono fun e he => he.kick i)
  have f3 := helioForm_kick (b := b) (G := G) h0 hm h (S 0).q2 x2 a1 y2 c1
  set a2 := fun i => a1 i + h • stretch b m0 (m i) • kickMap G m (S 0).q2 x2 i
  set c2 := fun i => c1 i + h • stretch b m0 (m i) • kickMap G m (S 0).q2 y2 i
  have dx3 : Rates (fun e => (S e).q3) fun i => x2 i + (h / 2) • jumping b m0 m a2 i := fun i =>
    VecDeriv.congr' (VecDeriv.add' (dx2 i) (VecDeriv.const_smul' _ (Rates.jumping da2 i))) (hS.mono fun e he => he.jump' i)
  have dy3 : Rates (fun e => (R e).q3) fun i => y2 i + (h / 2) • jumping b m0 m c2 i := fun i =>
    VecDeriv.congr' (VecDeriv.add' (dy2 i) (VecDeriv.const_smul' _ (Rates.jumping dc2 i))) (hR.mono fun e he => he.jump' i)
  have f4 := helioForm_jump (b := b) (m0 := m0) (m := m) (h / 2) x2 a2 y2 c2
  set x3 := fun i => x2 i + (h / 2) • jumping b m0 m a2 i
  set y3 := fun i => y2 i + (h / 2) • jumping b m0 m c2 i
  have k5 := fun i => hK _ _ _ _ _ _ _ _ _ _ _ _ _ _ t0 (hS.mono fun e he => he.last i) (hR.mono fun e he => he.last i)
    (by rw [SR]) (by rw [SR]) (dx3 i) (da2 i) (dy3 i) (dc2 i)
  choose x5 a5 y5 c5 dx5 da5 dy5 dc5 f5 using k5
  refine ⟨x5, a5, y5, c5, dx5, da5, dy5, dc5, SR, ?_⟩
  have g1 : helioForm b m0 m x1 a1 y1 c1 = helioForm b m0 m x a y c := by simp only [helioForm, f1]
  have g5 : helioForm b m0 m x5 a5 y5 c5 = helioForm b m0 m x3 a2 y3 c2 := by simp only [helioForm, f5]
  rw [g5, f4, f3, f2, g1]

/-! ### Coordinates -/

noncomputable def planetPlace (u : Sys ℝ) (i : Fin n) : Axes ℝ := u.placeAt (i + 1) - u.placeAt 0

noncomputable def planetMotion (b : Bool) (m0 : ℝ) (m : Fin n → ℝ) (u : Sys ℝ) (i : Fin n) : Axes ℝ :=
  stretch b m0 (m i) • (u.motionAt (i + 1) - (centre u).velocity)

theorem at_star (u : Sys ℝ) : u.placeAt 0 = u.star.position ∧ u.motionAt 0 = u.star.velocity ∧ u.massAt 0 = u.star.mass :=
  ⟨rfl, rfl, rfl⟩

theorem at_planet {u : Sys ℝ} {x v a : Fin n → Axes ℝ} (hp : u.planets = bodyList G m x v a) (i : Fin n) :
    u.placeAt (i + 1) = x i ∧ u.motionAt (i + 1) = v i ∧ u.massAt (i + 1) = m i := by
  simp [Sys.placeAt, Sys.motionAt, Sys.massAt, Sys.bodies, hp, bodyList]

theorem at_end {u : Sys ℝ} (hu : Fits G m0 m u) {i : ℕ} (hi : n < i) : u.placeAt i = 0 ∧ u.motionAt i = 0 := by
  obtain ⟨x, v, a, hp⟩ := hu.planets
  obtain ⟨i, rfl⟩ : ∃ k, i = k + 1 := ⟨i - 1, by omega⟩
  have : ¬ i < n := by omega
  simp [Sys.placeAt, Sys.motionAt, Sys.bodies, hp, bodyList, this]

theorem Fits.length {u : Sys ℝ} (hu : Fits G m0 m u) : u.bodies.length = n + 1 := by
  obtain ⟨x, v, a, hp⟩ := hu.planets
  simp [Sys.bodies, hp, bodyList]

theorem Fits.to_planets {u : Sys ℝ} (hu : Fits G m0 m u) :
    toAlternative (helioOfBool b) u = ⟨centre u, altList G m (planetPlace u) (planetMotion b m0 m u)⟩ := by
  obtain ⟨x, v, a, hp⟩ := hu.planets
  rw [to_form hu hp]
  congr 2
  · funext i
    rw [planetPlace, (at_planet hp i).1, (at_star u).1]
  · funext i
    rw [planetMotion, (at_planet hp i).2.1]

theorem Fits.centre_at {u : Sys ℝ} (hu : Fits G m0 m u) :
    (centre u).position = (m0 + ∑ i, m i)⁻¹ • (m0 • u.placeAt 0 + ∑ i : Fin n, m i • u.placeAt (i + 1))
    ∧ (centre u).velocity = (m0 + ∑ i, m i)⁻¹ • (m0 • u.motionAt 0 + ∑ i : Fin n, m i • u.motionAt (i + 1))
    ∧ (centre u).mass = m0 + ∑ i, m i := by
  have t := hu.total
  obtain ⟨x, v, a, hp⟩ := hu.planets
  rw [centre_eq, t]
  refine ⟨?_, ?_, rfl⟩
  · simp only [at_planet hp, (at_star u).1]
    rw [Sys.weighted, hu.mass, hp, bodyList, List.map_ofFn, List.sum_ofFn]
    rfl
  · simp only [at_planet hp, (at_star u).2.1]
    rw [Sys.weighted, hu.mass, hp, bodyList, List.map_ofFn, List.sum_ofFn]
    rfl

theorem altList_injective {q v p w : Fin n → Axes ℝ} (h : altList G m q v = altList G m p w) : q = p ∧ v = w := by
  have := List.ofFn_injective h
  exact ⟨funext fun i => congrArg Alt.position (congrFun this i), funext fun i => congrArg Alt.velocity (congrFun this i)⟩

/-- Places and velocities from the coordinates. -/
theorem Fits.back {u : Sys ℝ} (hu : Fits G m0 m u) (h0 : 0 < m0) (hm : ∀ i, 0 < m i) :
    u.placeAt 0 = (centre u).position - (m0 + ∑ i, m i)⁻¹ • ∑ i, m i • planetPlace u i
    ∧ (∀ i : Fin n, u.placeAt (i + 1) = planetPlace u i + u.placeAt 0)
    ∧ (∀ i : Fin n, u.motionAt (i + 1) = (stretch b m0 (m i))⁻¹ • planetMotion b m0 m u i + (centre u).velocity)
    ∧ u.motionAt 0 = m0⁻¹ • ((m0 + ∑ i, m i) • (centre u).velocity - ∑ i : Fin n, m i • u.motionAt (i + 1)) := by
  have M0 : 0 < m0 + ∑ i, m i := add_pos_of_pos_of_nonneg h0 (Finset.sum_nonneg fun i _ => (hm i).le)
  obtain ⟨c1, c2, -⟩ := hu.centre_at
  refine ⟨?_, fun i => ?_, fun i => ?_, ?_⟩
  · have e : ∑ i, m i • planetPlace u i = ∑ i : Fin n, m i • u.placeAt (i + 1) - (∑ i, m i) • u.placeAt 0 := by
      simp only [planetPlace, smul_sub, Finset.sum_sub_distrib, Finset.sum_smul]
    rw [c1, e]
    generalize ∑ i : Fin n, m i • u.placeAt (i + 1) = A
    generalize ∑ i, m i = s at *
    have M1 : (m0 + s) ≠ 0 := M0.ne'
    have : (m0 + s)⁻¹ • (m0 • u.placeAt 0 + A) - (m0 + s)⁻¹ • (A - s • u.placeAt 0) = ((m0 + s)⁻¹ * (m0 + s)) • u.placeAt 0 := by
      module
    rw [this, inv_mul_cancel₀ M1, one_smul]
  · rw [planetPlace]; abel
  · rw [planetMotion, smul_smul, inv_mul_cancel₀ (stretch_pos h0 (hm i)).ne', one_smul]; abel
  · rw [c2, smul_smul, mul_inv_cancel₀ M0.ne', one_smul, add_sub_cancel_right, smul_smul, inv_mul_cancel₀ h0.ne', one_smul]

/-- The symplectic form from the coordinates. -/
theorem form_identity (h0 : 0 < m0) (hm : ∀ i, 0 < m i) {M : ℝ} (hM : m0 + ∑ i, m i = M) (x0 z0 : Axes ℝ) (x z : Fin n → Axes ℝ)
    {X Z : Axes ℝ} (hX : X = M⁻¹ • (m0 • x0 + ∑ i, m i • x i)) (hZ : Z = M⁻¹ • (m0 • z0 + ∑ i, m i • z i)) :
    m0 * x0.dot z0 + ∑ i, m i * (x i).dot (z i)
      = M * X.dot Z + ∑ i, m0 * share b m0 (m i) * (x i - x0).dot (stretch b m0 (m i) • (z i - Z)) := by
  have M0 : M ≠ 0 := by
    rw [← hM]; exact (add_pos_of_pos_of_nonneg h0 (Finset.sum_nonneg fun i _ => (hm i).le)).ne'
  have kx : ∑ i, m i • x i = M • X - m0 • x0 := by rw [hX, smul_smul, mul_inv_cancel₀ M0, one_smul]; abel
  have kz : ∑ i, m i • z i = M • Z - m0 • z0 := by rw [hZ, smul_smul, mul_inv_cancel₀ M0, one_smul]; abel
  have e : ∑ i, m0 * share b m0 (m i) * (x i - x0).dot (stretch b m0 (m i) • (z i - Z))
      = ∑ i, m i * (x i).dot (z i) - x0.dot (∑ i, m i • z i) - Z.dot (∑ i, m i • x i) + (∑ i, m i) * x0.dot Z := by
    rw [dot_sum', dot_sum', Finset.sum_mul, ← Finset.sum_sub_distrib, ← Finset.sum_sub_distrib, ← Finset.sum_add_distrib]
    refine Finset.sum_congr rfl fun i _ => ?_
    have k := share_stretch (b := b) h0 (hm i)
    simp only [Axes.dot_smul, Axes.dot_sub, Axes.sub_dot, Axes.dot_comm Z (x i)]
    linear_combination ((x i).dot (z i) - x0.dot (z i) - (x i).dot Z + x0.dot Z) * k
  rw [e, kx, kz]
  simp only [Axes.dot_smul, Axes.dot_sub, Axes.dot_comm Z X, Axes.dot_comm Z x0]
  linear_combination x0.dot Z * -hM

end Posidonius.WHFast
