import Verif.Lemmas.JacobiForm

/-! What the steps of WHFast in Jacobi coordinates do to families of systems. -/

namespace Posidonius.WHFast
open Posidonius Gravity Filter Topology
open Posidonius.Univ (tidalMap tidalMap_symm tidalMap_neg newton_deriv dot_sum' VecDeriv.add' VecDeriv.sub' VecDeriv.const_smul'
  VecDeriv.sum' VecDeriv.zero' VecDeriv.congr')

variable {n : ℕ} {G m0 : ℝ} {m : Fin n → ℝ}

/-- Pairs that are not in the kick: a body with itself, star and first planet. -/
def Skipped (i j : Fin (n + 1)) : Prop := i = j ∨ i.1 ≤ 1 ∧ j.1 ≤ 1

instance (i j : Fin (n + 1)) : Decidable (Skipped i j) := inferInstanceAs (Decidable (_ ∨ _))

theorem Skipped.comm {i j : Fin (n + 1)} : Skipped i j ↔ Skipped j i := by
  unfold Skipped
  constructor
  · rintro (h | h)
    · exact .inl h.symm
    · exact .inr h.symm
  · rintro (h | h)
    · exact .inl h.symm
    · exact .inr h.symm

/-- All masses. -/
def allMasses (m0 : ℝ) (m : Fin n → ℝ) : Fin (n + 1) → ℝ := Fin.cons m0 m

/-- The accelerations of the kick. -/
noncomputable def pulls (G m0 : ℝ) (m : Fin n → ℝ) (x : Fin (n + 1) → Axes ℝ) (i : Fin (n + 1)) : Axes ℝ :=
  ∑ j, if Skipped i j then 0 else newton G (allMasses m0 m j) (x i) (x j)

/-- Their derivative. -/
noncomputable def pullMap (G m0 : ℝ) (m : Fin n → ℝ) (mid x : Fin (n + 1) → Axes ℝ) (i : Fin (n + 1)) : Axes ℝ :=
  ∑ j, if Skipped i j then 0 else (G * allMasses m0 m j) • tidalMap (mid j - mid i) (x j - x i)

theorem Rates.pulls {x : ℝ → Fin (n + 1) → Axes ℝ} {d : Fin (n + 1) → Axes ℝ} (h : Rates x d) (apart : Function.Injective (x 0)) :
    Rates (fun e => pulls G m0 m (x e)) (pullMap G m0 m (x 0) d) := by
  intro i
  refine VecDeriv.sum' _ fun j _ => ?_
  by_cases hj : Skipped i j
  · simp only [if_pos hj]; exact VecDeriv.zero' 0
  · simp only [if_neg hj]
    exact newton_deriv _ _ (h i) (h j) fun e => hj (.inl (apart e))

theorem pullMap_symm (mid x y : Fin (n + 1) → Axes ℝ) :
    ∑ i, allMasses m0 m i * (x i).dot (pullMap G m0 m mid y i) = ∑ i, allMasses m0 m i * (y i).dot (pullMap G m0 m mid x i) := by
  rw [← sub_eq_zero, ← Finset.sum_sub_distrib]
  have e : ∀ i, allMasses m0 m i * (x i).dot (pullMap G m0 m mid y i) - allMasses m0 m i * (y i).dot (pullMap G m0 m mid x i)
      = ∑ j, if Skipped i j then 0 else G * allMasses m0 m i * allMasses m0 m j
        * ((x i).dot (tidalMap (mid j - mid i) (y j - y i)) - (y i).dot (tidalMap (mid j - mid i) (x j - x i))) := by
    intro i
    unfold pullMap
    rw [dot_sum', dot_sum', Finset.mul_sum, Finset.mul_sum, ← Finset.sum_sub_distrib]
    refine Finset.sum_congr rfl fun j _ => ?_
    split
    · simp [Axes.dot_zero]
    · rw [Axes.dot_smul, Axes.dot_smul]; ring
  simp only [e]
  refine sum_antisymm (M := ℝ) _ _ fun i j => ?_
  by_cases hij : Skipped i j
  · rw [if_pos hij, if_pos (Skipped.comm.1 hij), neg_zero]
  · rw [if_neg hij, if_neg (fun k => hij (Skipped.comm.1 k))]
    have c1 : tidalMap (mid i - mid j) (y i - y j) = -tidalMap (mid j - mid i) (y j - y i) := by
      rw [← tidalMap_neg, neg_sub, neg_sub]
    have c2 : tidalMap (mid i - mid j) (x i - x j) = -tidalMap (mid j - mid i) (x j - x i) := by
      rw [← tidalMap_neg, neg_sub, neg_sub]
    rw [c1, c2]
    have s := tidalMap_symm (mid j - mid i) (x j - x i) (y j - y i)
    rw [Axes.sub_dot, Axes.sub_dot] at s
    rw [Axes.dot_neg, Axes.dot_neg]
    linear_combination (G * allMasses m0 m i * allMasses m0 m j) * (-s)

theorem pullMap_total (mid y : Fin (n + 1) → Axes ℝ) (c : Axes ℝ) :
    c.dot (∑ i, allMasses m0 m i • pullMap G m0 m mid y i) = 0 := by
  have k := pullMap_symm (G := G) (m0 := m0) (m := m) mid (fun _ => c) y
  have z : ∀ i, pullMap G m0 m mid (fun _ => c) i = 0 := by
    intro i
    refine Finset.sum_eq_zero fun j _ => ?_
    split
    · rfl
    · rw [sub_self]
      simp [tidalMap, Axes.dot_zero]
  simp only [z, Axes.dot_zero, mul_zero, Finset.sum_const_zero] at k
  rw [dot_sum', ← k]
  exact Finset.sum_congr rfl fun i _ => Axes.dot_smul _ _ _

/-- Jacobi coordinates of the vectors of all bodies. -/
noncomputable def jacAll (m0 : ℝ) (m : Fin n → ℝ) (x : Fin (n + 1) → Axes ℝ) : Fin n → Axes ℝ :=
  jac m m0 (m0 • x 0) fun i => x i.succ

theorem Rates.jacAll {x : ℝ → Fin (n + 1) → Axes ℝ} {d : Fin (n + 1) → Axes ℝ} (h : Rates x d) :
    Rates (fun e => jacAll m0 m (x e)) (jacAll m0 m d) :=
  Rates.jac (VecDeriv.const_smul' _ (h 0)) fun i => h i.succ

theorem jacAll_dot (h0 : 0 < m0) (hm : ∀ i, 0 < m i) (x z : Fin (n + 1) → Axes ℝ) :
    ∑ i, allMasses m0 m i * (x i).dot (z i)
      = (m0 + ∑ i, m i)⁻¹ * (∑ i, allMasses m0 m i • x i).dot (∑ i, allMasses m0 m i • z i)
        + ∑ i, jacMass m m0 i * (jacAll m0 m x i).dot (jacAll m0 m z i) := by
  have := jac_dot hm h0 (m0 • x 0) (m0 • z 0) (fun i => x i.succ) fun i => z i.succ
  rw [Fin.sum_univ_succ, Fin.sum_univ_succ, Fin.sum_univ_succ]
  simp only [allMasses, Fin.cons_zero, Fin.cons_succ]
  unfold jacAll
  rw [← this, Axes.smul_dot, Axes.dot_smul]
  field_simp

/-- The symplectic form in Jacobi coordinates. -/
noncomputable def jacForm (m0 : ℝ) (m : Fin n → ℝ) (x v y z : Fin n → Axes ℝ) : ℝ :=
  ∑ i, jacMass m m0 i * ((x i).dot (z i) - (y i).dot (v i))

theorem jacForm_kick (h0 : 0 < m0) (hm : ∀ i, 0 < m i) (t g : ℝ) (mid X Y : Fin (n + 1) → Axes ℝ) (q v z : Fin n → Axes ℝ) :
    jacForm m0 m (jacAll m0 m X)
        (fun i => v i + t • (jacAll m0 m (pullMap G m0 m mid X) i + softMaps g true m m0 q (jacAll m0 m X) i)) (jacAll m0 m Y)
        (fun i => z i + t • (jacAll m0 m (pullMap G m0 m mid Y) i + softMaps g true m m0 q (jacAll m0 m Y) i))
      = jacForm m0 m (jacAll m0 m X) v (jacAll m0 m Y) z := by
  have d1 := jacAll_dot h0 hm X (pullMap G m0 m mid Y)
  have d2 := jacAll_dot h0 hm Y (pullMap G m0 m mid X)
  rw [pullMap_total, mul_zero, zero_add] at d1 d2
  have s := pullMap_symm (G := G) (m0 := m0) (m := m) mid X Y
  rw [d1, d2, ← sub_eq_zero, ← Finset.sum_sub_distrib] at s
  rw [← sub_eq_zero, jacForm, jacForm, ← Finset.sum_sub_distrib, ← mul_zero t, ← s, Finset.mul_sum]
  refine Finset.sum_congr rfl fun i _ => ?_
  have k := softMaps_symm g true m m0 q (jacAll m0 m X) (jacAll m0 m Y) i
  simp only [Axes.dot_add, Axes.dot_smul]
  linear_combination (jacMass m m0 i * t) * k

/-- Coordinates on the way through a step. -/
structure JStages (n : ℕ) where
  (q1 v1 v2 q4 v4 : Fin n → Axes ℝ)
  mid : Fin (n + 1) → Axes ℝ

/-- The equations of a step, `c` being the centre of mass halfway. -/
structure JStages.Of (S : JStages n) (K : Solver) (G m0 : ℝ) (m : Fin n → ℝ) (h : ℝ) (q v : Fin n → Axes ℝ) (c : Axes ℝ) : Prop where
  first : ∀ i, K (G * jacTotal m m0 i) (h / 2) (q i) (v i) = some (S.q1 i, S.v1 i)
  places : jacAll m0 m S.mid = S.q1
  middle : m0 • S.mid 0 + ∑ i : Fin n, m i • S.mid i.succ = (m0 + ∑ i, m i) • c
  kick : ∀ i, S.v2 i = S.v1 i + h • (jacAll m0 m (pulls G m0 m S.mid) i + softs G true m m0 S.q1 i)
  last : ∀ i, K (G * jacTotal m m0 i) (h / 2) (S.q1 i) (S.v2 i) = some (S.q4 i, S.v4 i)
  apart : Function.Injective S.mid

theorem mid_unique (h0 : 0 < m0) (hm : ∀ i, 0 < m i) {x y : Fin (n + 1) → Axes ℝ} (h1 : jacAll m0 m x = jacAll m0 m y)
    (h2 : m0 • x 0 + ∑ i : Fin n, m i • x i.succ = m0 • y 0 + ∑ i : Fin n, m i • y i.succ) : x = y := by
  obtain ⟨a, b⟩ := jac_injective hm h0 h1 h2
  exact funext fun i => Fin.cases (smul_right_injective _ h0.ne' a) (fun i => congrFun b i) i

theorem JStages.Of.unique (h0 : 0 < m0) (hm : ∀ i, 0 < m i) {S R : JStages n} {K : Solver} {h : ℝ} {q v : Fin n → Axes ℝ}
    {c : Axes ℝ} (hS : S.Of K G m0 m h q v c) (hR : R.Of K G m0 m h q v c) : S = R := by
  obtain ⟨q1, v1, v2, q4, v4, x⟩ := S
  obtain ⟨p1, w1, w2, p4, w4, y⟩ := R
  obtain ⟨a1, a2, a3, a4, a5, -⟩ := hS
  obtain ⟨b1, b2, b3, b4, b5, -⟩ := hR
  dsimp only at *
  have e1 : ∀ i, q1 i = p1 i ∧ v1 i = w1 i := fun i => by
    have := b1 i
    rw [a1 i, Option.some.injEq, Prod.mk.injEq] at this
    exact this
  obtain rfl : q1 = p1 := funext fun i => (e1 i).1
  obtain rfl : v1 = w1 := funext fun i => (e1 i).2
  obtain rfl : x = y := mid_unique h0 hm (a2.trans b2.symm) (a3.trans b3.symm)
  obtain rfl : v2 = w2 := funext fun i => by rw [a4, b4]
  have e5 : ∀ i, q4 i = p4 i ∧ v4 i = w4 i := fun i => by
    have := b5 i
    rw [a5 i, Option.some.injEq, Prod.mk.injEq] at this
    exact this
  obtain rfl : q4 = p4 := funext fun i => (e5 i).1
  obtain rfl : v4 = w4 := funext fun i => (e5 i).2
  rfl

theorem jacAll_rates (h0 : 0 < m0) (hm : ∀ i, 0 < m i) {x : ℝ → Fin (n + 1) → Axes ℝ} {q : Fin n → Axes ℝ} {d : Axes ℝ}
    (hq : Rates (fun e => jacAll m0 m (x e)) q)
    (hd : VecDeriv (fun e => m0 • x e 0 + ∑ i : Fin n, m i • x e i.succ) d 0) : ∃ dx, Rates x dx := by
  obtain ⟨ds, dx, k1, k2⟩ := jac_rates hm h0 (s := fun e => m0 • x e 0) (x := fun e i => x e i.succ) hq hd
  have k3 := VecDeriv.congr' (VecDeriv.const_smul' m0⁻¹ k1) (q := fun e => x e 0)
    (Eventually.of_forall fun e => by rw [smul_smul, inv_mul_cancel₀ h0.ne', one_smul])
  exact ⟨Fin.cons _ dx, fun i => Fin.cases k3 (fun i => k2 i) i⟩

theorem VecDeriv.same {p : ℝ → Axes ℝ} {x y : Axes ℝ} {t : ℝ} (h : VecDeriv p x t) (k : VecDeriv p y t) : x = y :=
  Axes.ext (h.1.unique k.1) (h.2.1.unique k.2.1) (h.2.2.unique k.2.2)

theorem Rates.same {q : ℝ → Fin n → Axes ℝ} {x y : Fin n → Axes ℝ} (h : Rates q x) (k : Rates q y) : x = y :=
  funext fun i => (h i).same (k i)

theorem Rates.congr {q p : ℝ → Fin n → Axes ℝ} {x : Fin n → Axes ℝ} (h : Rates q x) (k : ∀ᶠ e in 𝓝 0, p e = q e) : Rates p x :=
  fun i => VecDeriv.congr' (h i) (k.mono fun e he => by rw [he])

theorem jstages_symplectic {K : Solver} (hK : K.Symplectic) (h0 : 0 < m0) (hm : ∀ i, 0 < m i) {h : ℝ} (hh : 0 ≤ h)
    {q v p w : ℝ → Fin n → Axes ℝ} {c d : ℝ → Axes ℝ} {S R : ℝ → JStages n}
    (hS : ∀ᶠ e in 𝓝 0, (S e).Of K G m0 m h (q e) (v e) (c e))
    (hR : ∀ᶠ e in 𝓝 0, (R e).Of K G m0 m h (p e) (w e) (d e)) (e1 : q 0 = p 0) (e2 : v 0 = w 0) (e3 : c 0 = d 0)
    {x a y b : Fin n → Axes ℝ} {C D : Axes ℝ}
    (dx : Rates q x) (da : Rates v a) (dy : Rates p y) (db : Rates w b) (dC : VecDeriv c C 0) (dD : VecDeriv d D 0) :
    ∃ x' a' y' b', Rates (fun e => (S e).q4) x' ∧ Rates (fun e => (S e).v4) a' ∧ Rates (fun e => (R e).q4) y'
      ∧ Rates (fun e => (R e).v4) b' ∧ S 0 = R 0 ∧ jacForm m0 m x' a' y' b' = jacForm m0 m x a y b := by
  have hS0 := hS.self_of_nhds
  have hR0 := hR.self_of_nhds
  have SR : S 0 = R 0 := hS0.unique h0 hm (by rw [e1, e2, e3]; exact hR0)
  have t0 : 0 ≤ h / 2 := by linarith
  have k1 := fun i => hK _ _ _ _ _ _ _ _ _ _ _ _ _ _ t0 (hS.mono fun e he => he.first i) (hR.mono fun e he => he.first i)
    (congrFun e1 i) (congrFun e2 i) (dx i) (da i) (dy i) (db i)
  choose x1 a1 y1 b1 dx1 da1 dy1 db1 f1 using k1
  have qx : Rates (fun e => jacAll m0 m (S e).mid) x1 := Rates.congr dx1 (hS.mono fun e he => he.places)
  have qy : Rates (fun e => jacAll m0 m (R e).mid) y1 := Rates.congr dy1 (hR.mono fun e he => he.places)
  obtain ⟨X, dX⟩ := jacAll_rates h0 hm qx (VecDeriv.congr' (VecDeriv.const_smul' _ dC) (hS.mono fun e he => he.middle))
  obtain ⟨Y, dY⟩ := jacAll_rates h0 hm qy (VecDeriv.congr' (VecDeriv.const_smul' _ dD) (hR.mono fun e he => he.middle))
  obtain rfl := Rates.same (Rates.jacAll (m0 := m0) (m := m) dX) qx
  obtain rfl := Rates.same (Rates.jacAll (m0 := m0) (m := m) dY) qy
  have da2 : Rates (fun e => (S e).v2) fun i => a1 i
      + h • (jacAll m0 m (pullMap G m0 m (S 0).mid X) i + softMaps G true m m0 (S 0).q1 (jacAll m0 m X) i) := fun i =>
    VecDeriv.congr' (VecDeriv.add' (da1 i) (VecDeriv.const_smul' _ (VecDeriv.add' (Rates.jacAll (Rates.pulls dX hS0.apart) i)
      (Rates.softs dx1 i)))) (hS.mono fun e he => he.kick i)
  have db2 : Rates (fun e => (R e).v2) fun i => b1 i
      + h • (jacAll m0 m (pullMap G m0 m (S 0).mid Y) i + softMaps G true m m0 (S 0).q1 (jacAll m0 m Y) i) := fun i => by
    rw [SR]
    exact VecDeriv.congr' (VecDeriv.add' (db1 i) (VecDeriv.const_smul' _ (VecDeriv.add' (Rates.jacAll (Rates.pulls dY hR0.apart) i)
      (Rates.softs dy1 i)))) (hR.mono fun e he => he.kick i)
  have f3 := jacForm_kick (G := G) h0 hm h G (S 0).mid X Y (S 0).q1 a1 b1
  have k5 := fun i => hK _ _ _ _ _ _ _ _ _ _ _ _ _ _ t0 (hS.mono fun e he => he.last i) (hR.mono fun e he => he.last i)
    (by rw [SR]) (by rw [SR]) (dx1 i) (da2 i) (dy1 i) (db2 i)
  choose x5 a5 y5 b5 dx5 da5 dy5 db5 f5 using k5
  refine ⟨x5, a5, y5, b5, dx5, da5, dy5, db5, SR, ?_⟩
  have g1 : jacForm m0 m (jacAll m0 m X) a1 (jacAll m0 m Y) b1 = jacForm m0 m x a y b := by simp only [jacForm, f1]
  rw [← g1, ← f3]
  simp only [jacForm, f5]

/-! ### Coordinates -/

/-- Positions and velocities of all bodies. -/
noncomputable def allPlaces (u : Sys ℝ) (i : Fin (n + 1)) : Axes ℝ := u.placeAt i
noncomputable def allMotions (u : Sys ℝ) (i : Fin (n + 1)) : Axes ℝ := u.motionAt i

theorem Fits.to_jacobi {u : Sys ℝ} (hu : Fits G m0 m u) (h0 : 0 < m0) (hm : ∀ i, 0 < m i) :
    toJacobi u = ⟨centre u, altList G m (jacAll m0 m (allPlaces u)) (jacAll m0 m (allMotions u))⟩ := by
  have c := hu.centre_at
  obtain ⟨x, v, a, hp⟩ := hu.planets
  obtain ⟨c1, c2, c3⟩ := c
  have l1 : (lit 1 : ℝ) = 1 := by simp
  unfold toJacobi
  rw [hp, hu.mass]
  dsimp only
  rw [jacobiLoop_form hm h0]
  have ex : (fun i : Fin n => (allPlaces u i.succ : Axes ℝ)) = x := funext fun i => (at_planet hp i).1
  have ev : (fun i : Fin n => (allMotions u i.succ : Axes ℝ)) = v := funext fun i => (at_planet hp i).2.1
  unfold jacAll
  rw [ex, ev]
  simp only [at_planet hp, (at_star u).1, (at_star u).2.1] at c1 c2
  simp only [scaled_eq, l1, one_div]
  rw [AltSys.mk.injEq]
  refine ⟨?_, rfl⟩
  cases hc : centre u
  rw [hc] at c1 c2 c3
  dsimp only at c1 c2 c3
  rw [c1, c2, c3]

theorem Fits.like {u w : Sys ℝ} (hu : Fits G m0 m u) (h : Like w u) : Fits G m0 m w := by
  obtain ⟨h1, h2, h3⟩ := h
  obtain ⟨x, v, a, hp⟩ := hu.planets
  rw [hp] at h3
  have len : w.planets.length = n := by rw [h3.length_eq]; simp [bodyList]
  refine ⟨h1.trans hu.mass, h2.trans hu.massG, fun i => (w.planets[i.1]'(by rw [len]; exact i.2)).position,
    fun i => (w.planets[i.1]'(by rw [len]; exact i.2)).velocity, fun i => (w.planets[i.1]'(by rw [len]; exact i.2)).acceleration, ?_⟩
  apply List.ext_getElem
  · simp [bodyList, len]
  · intro i k1 k2
    have := (List.forall₂_iff_get.1 h3).2 i k1 (by simpa [bodyList] using len ▸ k1)
    simp only [List.get_eq_getElem, bodyList, List.getElem_ofFn] at this
    simp only [bodyList, List.getElem_ofFn]
    obtain ⟨k3, k4⟩ := this
    cases hw : w.planets[i]
    rw [hw] at k3 k4
    dsimp only at k3 k4 ⊢
    rw [k3, k4]

theorem jacobi_kicked_form {u : Sys ℝ} (hu : Fits G m0 m u) {x v a : Fin n → Axes ℝ} (hp : u.planets = bodyList G m x v a) :
    (kicked .jacobi G u).star.acceleration = pulls G m0 m (allPlaces u) 0
      ∧ (kicked .jacobi G u).planets = bodyList G m x v (fun i => pulls G m0 m (allPlaces u) i.succ)
      ∧ Fits G m0 m (kicked .jacobi G u) := by
  have ex : ∀ i : Fin n, (allPlaces u i.succ : Axes ℝ) = x i := fun i => (at_planet hp i).1
  have e0 : (allPlaces u (0 : Fin (n + 1)) : Axes ℝ) = u.star.position := rfl
  have self : ∀ (M : ℝ) (p : Axes ℝ), newton G M p p = 0 := by intro M p; simp [newton]
  suffices (kicked .jacobi G u).star.acceleration = pulls G m0 m (allPlaces u) 0
      ∧ (kicked .jacobi G u).planets = bodyList G m x v (fun i => pulls G m0 m (allPlaces u) i.succ)
      ∧ (kicked .jacobi G u).star.mass = u.star.mass ∧ (kicked .jacobi G u).star.massG = u.star.massG from
    ⟨this.1, this.2.1, this.2.2.1.trans hu.mass, this.2.2.2.trans hu.massG, _, _, _, this.2.1⟩
  cases n with
  | zero =>
    have hp' : u.planets = [] := by simpa [bodyList] using hp
    unfold kicked
    rw [hp']
    refine ⟨?_, by simp [bodyList], rfl, rfl⟩
    show (0 : Axes ℝ) = _
    simp [pulls, Skipped]
  | succ n =>
    have hp' : u.planets = ⟨m 0, G * m 0, x 0, v 0, a 0⟩
        :: List.ofFn fun i : Fin n => (⟨m i.succ, G * m i.succ, x i.succ, v i.succ, a i.succ⟩ : Body ℝ) := by
      rw [hp, bodyList, List.ofFn_succ]
    unfold kicked
    rw [hp']
    refine ⟨?_, ?_, rfl, rfl⟩
    · show pull G _ _ = _
      rw [pull, List.map_ofFn, List.sum_ofFn, pulls, Fin.sum_univ_succ, Fin.sum_univ_succ, if_pos (.inl rfl),
        if_pos (.inr ⟨by simp, by simp⟩), zero_add, zero_add]
      refine Finset.sum_congr rfl fun i _ => ?_
      rw [if_neg (by simp [Skipped, Fin.ext_iff]), ex]
      rfl
    · rw [bodyList, List.ofFn_succ]
      dsimp only
      refine List.cons_eq_cons.2 ⟨?_, ?_⟩
      · have k : pull G (⟨m 0, G * m 0, x 0, v 0, a 0⟩
            :: List.ofFn fun i : Fin n => (⟨m i.succ, G * m i.succ, x i.succ, v i.succ, a i.succ⟩ : Body ℝ)) (x 0)
            = pulls G m0 m (allPlaces u) (Fin.succ 0) := ?_
        · rw [← k]; rfl
        rw [pull, List.map_cons, List.sum_cons, self, zero_add, List.map_ofFn, List.sum_ofFn, pulls, Fin.sum_univ_succ,
          Fin.sum_univ_succ, if_pos (.inr ⟨by simp, by simp⟩), if_pos (.inl rfl), zero_add, zero_add]
        refine Finset.sum_congr rfl fun i _ => ?_
        rw [if_neg (by simp [Skipped, Fin.ext_iff]), ex, ex]
        rfl
      · rw [List.map_ofFn]
        congr 1
        funext i
        simp only [Function.comp, Body.accelerated, Body.mk.injEq, true_and]
        rw [pull, List.map_cons, List.sum_cons, List.map_cons, List.sum_cons, List.map_ofFn, List.sum_ofFn, pulls, Fin.sum_univ_succ,
          Fin.sum_univ_succ, if_neg (by simp [Skipped, Fin.ext_iff]), if_neg (by simp [Skipped, Fin.ext_iff]), ex, ex, e0]
        congr 1
        · show newton G u.star.mass _ _ = _
          rw [hu.mass]; rfl
        · congr 1
          refine Finset.sum_congr rfl fun j _ => ?_
          rw [ex]
          split
          · next k =>
            have : i = j := by simpa [Skipped, Fin.ext_iff] using k
            subst this
            exact self _ _
          · rfl

end Posidonius.WHFast
