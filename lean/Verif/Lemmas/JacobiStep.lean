import Verif.Lemmas.JacobiVariation

/-! Steps of WHFast in Jacobi coordinates, and the symplectic form. -/

namespace Posidonius.WHFast
open Posidonius Gravity Filter Topology
open Posidonius.Univ (VecDeriv.add' VecDeriv.sub' VecDeriv.const_smul' VecDeriv.sum' VecDeriv.zero' VecDeriv.congr')

variable {n : ℕ} {G m0 : ℝ} {m : Fin n → ℝ}

theorem Fits.masses {u w : Sys ℝ} (hu : Fits G m0 m u) (hw : Fits G m0 m w) :
    u.bodies.map (fun p => (p.mass, p.massG)) = w.bodies.map fun p => (p.mass, p.massG) := by
  obtain ⟨x, v, a, hp⟩ := hu.planets
  obtain ⟨y, z, c, hq⟩ := hw.planets
  simp only [Sys.bodies, List.map_cons, hp, hq, hu.mass, hu.massG, hw.mass, hw.massG, bodyList, List.map_ofFn]
  rfl

/-- Mass weighted sum of the vectors of all bodies. -/
noncomputable def weigh (m0 : ℝ) (m : Fin n → ℝ) (x : Fin (n + 1) → Axes ℝ) : Axes ℝ := ∑ i, allMasses m0 m i • x i

theorem weigh_eq (x : Fin (n + 1) → Axes ℝ) : weigh m0 m x = m0 • x 0 + ∑ i : Fin n, m i • x i.succ := by
  rw [weigh, Fin.sum_univ_succ]
  rfl

theorem Rates.weigh {x : ℝ → Fin (n + 1) → Axes ℝ} {d : Fin (n + 1) → Axes ℝ} (h : Rates x d) :
    VecDeriv (fun e => weigh m0 m (x e)) (weigh m0 m d) 0 :=
  VecDeriv.sum' _ fun i _ => VecDeriv.const_smul' _ (h i)

theorem allMass_pos (h0 : 0 < m0) (hm : ∀ i, 0 < m i) : 0 < m0 + ∑ i, m i :=
  add_pos_of_pos_of_nonneg h0 (Finset.sum_nonneg fun i _ => (hm i).le)

theorem Fits.weigh {u : Sys ℝ} (hu : Fits G m0 m u) (h0 : 0 < m0) (hm : ∀ i, 0 < m i) :
    WHFast.weigh m0 m (allPlaces u) = (m0 + ∑ i, m i) • (centre u).position
    ∧ WHFast.weigh m0 m (allMotions u) = (m0 + ∑ i, m i) • (centre u).velocity := by
  have M0 := (allMass_pos h0 hm).ne'
  rw [hu.centre_at.1, hu.centre_at.2.1, smul_smul, smul_smul, mul_inv_cancel₀ M0, one_smul, one_smul, weigh_eq, weigh_eq]
  exact ⟨rfl, rfl⟩

/-- The coordinates after the way back. -/
theorem Fits.back_jacobi {u : Sys ℝ} (hu : Fits G m0 m u) (h0 : 0 < m0) (hm : ∀ i, 0 < m i) {s : Centre ℝ}
    (hs : s.mass = m0 + ∑ i, m i) (q v : Fin n → Axes ℝ) :
    Fits G m0 m (fromJacobi ⟨s, altList G m q v⟩ u) ∧ centre (fromJacobi ⟨s, altList G m q v⟩ u) = s
      ∧ jacAll m0 m (allPlaces (fromJacobi ⟨s, altList G m q v⟩ u)) = q
      ∧ jacAll m0 m (allMotions (fromJacobi ⟨s, altList G m q v⟩ u)) = v := by
  have mt := form_matches hu hs q v
  have f := hu.like (fromJacobi_like mt)
  have e := toJacobi_fromJacobi mt (hu.massive h0 hm)
  rw [f.to_jacobi h0 hm, AltSys.mk.injEq] at e
  obtain ⟨g1, g2⟩ := altList_injective e.2
  exact ⟨f, e.1, g1, g2⟩

theorem allPlaces_list {u : Sys ℝ} (hu : Fits G m0 m u) :
    u.bodies.map Body.position = List.ofFn (allPlaces u : Fin (n + 1) → Axes ℝ) := by
  obtain ⟨x, v, a, hp⟩ := hu.planets
  rw [List.ofFn_succ, Sys.bodies, List.map_cons, hp, bodyList, List.map_ofFn]
  congr 1
  congr 1
  funext i
  exact (at_planet hp i).1.symm

theorem allPlaces_injective {u : Sys ℝ} (hu : Fits G m0 m u) (h : (u.bodies.map Body.position).Nodup) :
    Function.Injective (allPlaces u : Fin (n + 1) → Axes ℝ) := by
  rw [allPlaces_list hu] at h
  exact List.nodup_ofFn.1 h

theorem apartKick_jacobi {v w : Sys ℝ} (h : apartKick .jacobi G v = some w) :
    (v.bodies.map Body.position).Nodup ∧ kicked .jacobi G v = w := by
  unfold apartKick at h
  dsimp only at h
  by_cases k : (v.bodies.map Body.position).Nodup
  · rw [if_pos k] at h; exact ⟨k, Option.some.inj h⟩
  · rw [if_neg k] at h; cases h

theorem apartKick_helio {b : Bool} {v w : Sys ℝ} (h : apartKick (helioOfBool b) G v = some w) :
    (v.planets.map Body.position).Nodup ∧ kicked (helioOfBool b) G v = w := by
  unfold apartKick at h
  by_cases k : (v.planets.map Body.position).Nodup
  · cases b <;> exact ⟨k, Option.some.inj ((if_pos k).symm.trans h)⟩
  · cases b <;> exact absurd ((if_neg k).symm.trans h) (by simp)

theorem jstages_of_step (h0 : 0 < m0) (hm : ∀ i, 0 < m i) {K : Solver} {h : ℝ} {u u' : Sys ℝ} (hu : Fits G m0 m u)
    (hs : StepBy K .jacobi G h (h / 2) (apartKick .jacobi G) u u') :
    ∃ S : JStages n, S.Of K G m0 m h (jacAll m0 m (allPlaces u)) (jacAll m0 m (allMotions u))
        ((centre u).position + (h / 2) • (centre u).velocity) ∧ Fits G m0 m u'
      ∧ jacAll m0 m (allPlaces u') = S.q4 ∧ jacAll m0 m (allMotions u') = S.v4
      ∧ (centre u').position = (centre u).position + h • (centre u).velocity ∧ (centre u').velocity = (centre u).velocity := by
  obtain ⟨a1, a5, u2, ⟨k1, k2, k3, k4⟩, h2, ⟨l1, l2, l3, l4⟩, rfl⟩ := hs
  have ha : toAlternative .jacobi u = _ := hu.to_jacobi h0 hm
  have cm := hu.centre_at.2.2
  rw [ha] at k1 k2 k3 k4
  rw [hu.massG] at k4
  obtain ⟨q1, v1, e1, f1⟩ := jacobiMove_form k4
  obtain ⟨⟨am, ap, av⟩, al⟩ := a1
  dsimp only at k1 k2 k3 e1
  subst k1 k2 k3 e1
  obtain ⟨g1, g2, g3, g4⟩ := hu.back_jacobi h0 hm
    (s := ⟨(centre u).mass, (centre u).position + (h / 2) • (centre u).velocity, (centre u).velocity⟩) cm q1 v1
  change apartKick .jacobi G (fromJacobi ⟨⟨(centre u).mass, (centre u).position + (h / 2) • (centre u).velocity,
    (centre u).velocity⟩, altList G m q1 v1⟩ u) = some u2 at h2
  have w1 := (g1.weigh h0 hm).1
  rw [g2] at w1
  generalize fromJacobi ⟨⟨(centre u).mass, (centre u).position + (h / 2) • (centre u).velocity, (centre u).velocity⟩,
    altList G m q1 v1⟩ u = w at h2 g1 g2 g3 g4 w1
  obtain ⟨apart, rfl⟩ : Function.Injective (allPlaces w : Fin (n + 1) → Axes ℝ) ∧ kicked .jacobi G w = u2 := by
    obtain ⟨k, e⟩ := apartKick_jacobi h2
    exact ⟨allPlaces_injective g1 k, e⟩
  obtain ⟨x, v, a, hp⟩ := g1.planets
  obtain ⟨p0, p1, p2⟩ := jacobi_kicked_form g1 hp
  have acc : jacobiAccelerations (kicked .jacobi G w) = List.ofFn (jacAll m0 m (pulls G m0 m (allPlaces w))) := by
    unfold jacobiAccelerations
    rw [p0, p1, p2.mass, jacobiAcceleration_form hm h0]
    rfl
  have inter : interactionStep .jacobi G h (kicked .jacobi G w)
      ⟨⟨(centre u).mass, (centre u).position + (h / 2) • (centre u).velocity, (centre u).velocity⟩, altList G m q1 v1⟩
      = ⟨⟨(centre u).mass, (centre u).position + (h / 2) • (centre u).velocity, (centre u).velocity⟩, altList G m q1
        fun i => v1 i + h • (jacAll m0 m (pulls G m0 m (allPlaces w)) i + softs G true m m0 q1 i)⟩ := by
    show jacobiInteraction G h _ _ = _
    unfold jacobiInteraction
    rw [acc, p2.mass, jacobiKick_form]
  have jump : ∀ t (y : Sys ℝ) a, jumpStep .jacobi t y a = a := fun _ _ _ => rfl
  rw [jump, jump, inter] at l1 l2 l3 l4
  rw [p2.massG] at l4
  obtain ⟨q4, v4, e5, f5⟩ := jacobiMove_form l4
  obtain ⟨⟨bm, bp, bv⟩, bl⟩ := a5
  dsimp only at l1 l2 l3 e5
  subst l1 l2 l3 e5
  obtain ⟨r1, r2, r3, r4⟩ := p2.back_jacobi h0 hm
    (s := ⟨(centre u).mass, (centre u).position + (h / 2) • (centre u).velocity + (h / 2) • (centre u).velocity,
      (centre u).velocity⟩) cm q4 v4
  refine ⟨⟨q1, v1, _, q4, v4, allPlaces w⟩, ⟨f1, g3, ?_, fun i => rfl, f5, apart⟩, r1, r3, r4, ?_, ?_⟩
  · rw [← weigh_eq, w1]
  · show (centre (fromJacobi _ _)).position = _
    rw [r2]
    dsimp only
    module
  · show (centre (fromJacobi _ _)).velocity = _
    rw [r2]

/-- A family of systems. -/
structure BodyRates (G m0 : ℝ) (m : Fin n → ℝ) (u : ℝ → Sys ℝ) (x v : Fin (n + 1) → Axes ℝ) : Prop where
  fits : ∀ᶠ e in 𝓝 0, Fits G m0 m (u e)
  place : Rates (fun e => allPlaces (u e)) x
  motion : Rates (fun e => allMotions (u e)) v

/-- The symplectic form. -/
noncomputable def systemForm (m0 : ℝ) (m : Fin n → ℝ) (x v y z : Fin (n + 1) → Axes ℝ) : ℝ :=
  ∑ i, allMasses m0 m i * ((x i).dot (z i) - (y i).dot (v i))

theorem systemForm_eq (h0 : 0 < m0) (hm : ∀ i, 0 < m i) (x v y z : Fin (n + 1) → Axes ℝ) :
    systemForm m0 m x v y z = (m0 + ∑ i, m i)⁻¹ * ((weigh m0 m x).dot (weigh m0 m z) - (weigh m0 m y).dot (weigh m0 m v))
      + jacForm m0 m (jacAll m0 m x) (jacAll m0 m v) (jacAll m0 m y) (jacAll m0 m z) := by
  have e1 := jacAll_dot h0 hm x z
  have e2 := jacAll_dot h0 hm y v
  unfold systemForm jacForm
  simp only [mul_sub, Finset.sum_sub_distrib]
  rw [e1, e2]
  unfold weigh
  ring

/-- The same positions and velocities. -/
def SameBodies (n : ℕ) (u w : Sys ℝ) : Prop :=
  (allPlaces u : Fin (n + 1) → Axes ℝ) = allPlaces w ∧ (allMotions u : Fin (n + 1) → Axes ℝ) = allMotions w

theorem BodyRates.step {K : Solver} (hK : K.Symplectic) (h0 : 0 < m0) (hm : ∀ i, 0 < m i) {h : ℝ} (hh : 0 ≤ h)
    {u u' w w' : ℝ → Sys ℝ} {x v y z : Fin (n + 1) → Axes ℝ} (hu : BodyRates G m0 m u x v)
    (hw : BodyRates G m0 m w y z) (same : SameBodies n (u 0) (w 0))
    (su : ∀ᶠ e in 𝓝 0, StepBy K .jacobi G h (h / 2) (apartKick .jacobi G) (u e) (u' e))
    (sw : ∀ᶠ e in 𝓝 0, StepBy K .jacobi G h (h / 2) (apartKick .jacobi G) (w e) (w' e)) :
    ∃ x' v' y' z', BodyRates G m0 m u' x' v' ∧ BodyRates G m0 m w' y' z'
      ∧ SameBodies n (u' 0) (w' 0) ∧ systemForm m0 m x' v' y' z' = systemForm m0 m x v y z := by
  have M0 := (allMass_pos h0 hm).ne'
  have ru := (hu.fits.and su).mono fun e he => jstages_of_step h0 hm he.1 he.2
  have rw' := (hw.fits.and sw).mono fun e he => jstages_of_step h0 hm he.1 he.2
  obtain ⟨S, hS⟩ := ru.choice
  obtain ⟨R, hR⟩ := rw'.choice
  have mid : ∀ {u : Sys ℝ}, Fits G m0 m u → (centre u).position = (m0 + ∑ i, m i)⁻¹ • weigh m0 m (allPlaces u)
      ∧ (centre u).velocity = (m0 + ∑ i, m i)⁻¹ • weigh m0 m (allMotions u) := by
    intro u hu
    rw [(hu.weigh h0 hm).1, (hu.weigh h0 hm).2, smul_smul, smul_smul, inv_mul_cancel₀ M0, one_smul, one_smul]
    exact ⟨rfl, rfl⟩
  have cen : ∀ {u : ℝ → Sys ℝ} {x v : Fin (n + 1) → Axes ℝ}, BodyRates G m0 m u x v → ∀ t : ℝ,
      VecDeriv (fun e => (centre (u e)).position + t • (centre (u e)).velocity)
        ((m0 + ∑ i, m i)⁻¹ • weigh m0 m x + t • (m0 + ∑ i, m i)⁻¹ • weigh m0 m v) 0 := by
    intro u x v hu t
    exact VecDeriv.congr' (VecDeriv.add' (VecDeriv.const_smul' _ (Rates.weigh hu.place))
      (VecDeriv.const_smul' t (VecDeriv.const_smul' _ (Rates.weigh hu.motion))))
      (hu.fits.mono fun e he => by rw [(mid he).1, (mid he).2])
  have cv : ∀ {u : ℝ → Sys ℝ} {x v : Fin (n + 1) → Axes ℝ}, BodyRates G m0 m u x v →
      VecDeriv (fun e => (centre (u e)).velocity) ((m0 + ∑ i, m i)⁻¹ • weigh m0 m v) 0 := by
    intro u x v hu
    exact VecDeriv.congr' (VecDeriv.const_smul' _ (Rates.weigh hu.motion)) (hu.fits.mono fun e he => (mid he).2)
  have fu0 := hu.fits.self_of_nhds
  have fw0 := hw.fits.self_of_nhds
  have c1 : (centre (u 0)).position = (centre (w 0)).position := by rw [(mid fu0).1, (mid fw0).1, same.1]
  have c2 : (centre (u 0)).velocity = (centre (w 0)).velocity := by rw [(mid fu0).2, (mid fw0).2, same.2]
  obtain ⟨x', a', y', b', k1, k2, k3, k4, k5, k6⟩ := jstages_symplectic hK h0 hm hh (hS.mono fun e he => he.1)
    (hR.mono fun e he => he.1) (by rw [same.1]) (by rw [same.2]) (by rw [c1, c2]) (Rates.jacAll hu.place)
    (Rates.jacAll hu.motion) (Rates.jacAll hw.place) (Rates.jacAll hw.motion) (cen hu _) (cen hw _)
  have build : ∀ {u u' : ℝ → Sys ℝ} {x v : Fin (n + 1) → Axes ℝ} {S : ℝ → JStages n} {q c : Fin n → Axes ℝ},
      BodyRates G m0 m u x v → Rates (fun e => (S e).q4) q → Rates (fun e => (S e).v4) c →
      (∀ᶠ e in 𝓝 0, Fits G m0 m (u' e) ∧ jacAll m0 m (allPlaces (u' e)) = (S e).q4
        ∧ jacAll m0 m (allMotions (u' e)) = (S e).v4
        ∧ (centre (u' e)).position = (centre (u e)).position + h • (centre (u e)).velocity
        ∧ (centre (u' e)).velocity = (centre (u e)).velocity) →
      ∃ X V, BodyRates G m0 m u' X V ∧ jacAll m0 m X = q ∧ jacAll m0 m V = c ∧ weigh m0 m X = weigh m0 m x + h • weigh m0 m v
        ∧ weigh m0 m V = weigh m0 m v := by
    intro u u' x v S q c hu hq hc hs
    have d1 : Rates (fun e => jacAll m0 m (allPlaces (u' e))) q := Rates.congr hq (hs.mono fun e he => he.2.1)
    have d2 : Rates (fun e => jacAll m0 m (allMotions (u' e))) c := Rates.congr hc (hs.mono fun e he => he.2.2.1)
    have d3 : VecDeriv (fun e => weigh m0 m (allPlaces (u' e))) (weigh m0 m x + h • weigh m0 m v) 0 := by
      have := VecDeriv.congr' (VecDeriv.const_smul' (m0 + ∑ i, m i) (cen hu h)) (q := fun e => weigh m0 m (allPlaces (u' e)))
        (hs.mono fun e he => by rw [(he.1.weigh h0 hm).1, he.2.2.2.1])
      rwa [smul_add, smul_comm _ h, smul_smul, smul_smul _ _ (weigh m0 m v), mul_inv_cancel₀ M0, one_smul, one_smul] at this
    have d4 : VecDeriv (fun e => weigh m0 m (allMotions (u' e))) (weigh m0 m v) 0 := by
      have := VecDeriv.congr' (VecDeriv.const_smul' (m0 + ∑ i, m i) (cv hu)) (q := fun e => weigh m0 m (allMotions (u' e)))
        (hs.mono fun e he => by rw [(he.1.weigh h0 hm).2, he.2.2.2.2])
      rwa [smul_smul, mul_inv_cancel₀ M0, one_smul] at this
    obtain ⟨X, dX⟩ := jacAll_rates h0 hm d1 (by simp only [weigh_eq] at d3 ⊢; exact d3)
    obtain ⟨V, dV⟩ := jacAll_rates h0 hm d2 (by simp only [weigh_eq] at d4 ⊢; exact d4)
    exact ⟨X, V, ⟨hs.mono fun e he => he.1, dX, dV⟩, Rates.same (Rates.jacAll dX) d1, Rates.same (Rates.jacAll dV) d2,
      (Rates.weigh dX).same d3, (Rates.weigh dV).same d4⟩
  obtain ⟨X, V, r1, r2, r3, r4, r5⟩ := build hu k1 k2 (hS.mono fun e he => he.2)
  obtain ⟨Y, Z, t1, t2, t3, t4, t5⟩ := build hw k3 k4 (hR.mono fun e he => he.2)
  have S0 := hS.self_of_nhds
  have R0 := hR.self_of_nhds
  refine ⟨X, V, Y, Z, r1, t1, ⟨mid_unique h0 hm ?_ ?_, mid_unique h0 hm ?_ ?_⟩, ?_⟩
  · rw [S0.2.2.1, R0.2.2.1, k5]
  · rw [← weigh_eq, ← weigh_eq, (S0.2.1.weigh h0 hm).1, (R0.2.1.weigh h0 hm).1, S0.2.2.2.2.1, R0.2.2.2.2.1, c1, c2]
  · rw [S0.2.2.2.1, R0.2.2.2.1, k5]
  · rw [← weigh_eq, ← weigh_eq, (S0.2.1.weigh h0 hm).2, (R0.2.1.weigh h0 hm).2, S0.2.2.2.2.2, R0.2.2.2.2.2, c2]
  · rw [systemForm_eq h0 hm, systemForm_eq h0 hm, r2, r3, r4, r5, t2, t3, t4, t5, k6]
    simp only [Axes.add_dot, Axes.smul_dot, Axes.dot_comm (weigh m0 m z)]
    ring

theorem SameBodies.motions {u w : Sys ℝ} (h : SameBodies n u w) (hu : Fits G m0 m u) (hw : Fits G m0 m w) :
    u.motions = w.motions := by
  obtain ⟨s1, s2⟩ := h
  obtain ⟨x, v, a, hp⟩ := hu.planets
  obtain ⟨y, z, c, hq⟩ := hw.planets
  obtain rfl : x = y := funext fun i => by
    rw [← (at_planet hp i).1, ← (at_planet hq i).1]; exact congrFun s1 i.succ
  obtain rfl : v = z := funext fun i => by
    rw [← (at_planet hp i).2.1, ← (at_planet hq i).2.1]; exact congrFun s2 i.succ
  have p0 : u.star.position = w.star.position := congrFun s1 0
  have v0 : u.star.velocity = w.star.velocity := congrFun s2 0
  simp only [Sys.motions, Sys.bodies, List.map_cons, hp, hq, hu.mass, hu.massG, hw.mass, hw.massG, bodyList, List.map_ofFn, p0, v0]
  rfl

theorem Fits.same_bodies {u w : Sys ℝ} (h : u.motions = w.motions) : SameBodies n u w := by
  refine ⟨funext fun i => ?_, funext fun i => ?_⟩
  · have := congrArg (fun l => (l[i.1]?.map fun x => x.2.2.1).getD 0) h
    simpa [Sys.motions, allPlaces, Sys.placeAt, Function.comp_def] using this
  · have := congrArg (fun l => (l[i.1]?.map fun x => x.2.2.2).getD 0) h
    simpa [Sys.motions, allMotions, Sys.motionAt, Function.comp_def] using this

theorem Varies.bodies {u : ℝ → Sys ℝ} {x v : ℕ → Axes ℝ} (h : Varies u x v) (fits : ∀ᶠ e in 𝓝 0, Fits G m0 m (u e)) :
    BodyRates G m0 m u (fun i => x i) fun i => v i := ⟨fits, fun i => h.position i, fun i => h.velocity i⟩

/-- Rates of the bodies there are. -/
noncomputable def padded (x : Fin (n + 1) → Axes ℝ) (i : ℕ) : Axes ℝ := if h : i < n + 1 then x ⟨i, h⟩ else 0

theorem padded_at (x : Fin (n + 1) → Axes ℝ) (i : Fin (n + 1)) : padded x i = x i := by rw [padded, dif_pos i.2]

theorem BodyRates.varies {u : ℝ → Sys ℝ} {x v : Fin (n + 1) → Axes ℝ} (h : BodyRates G m0 m u x v) :
    Varies u (padded x) (padded v) := by
  have f0 := h.fits.self_of_nhds
  refine ⟨h.fits.mono fun e he => he.masses f0, fun i => ?_, fun i => ?_⟩
  · by_cases hi : i < n + 1
    · rw [padded, dif_pos hi]; exact h.place ⟨i, hi⟩
    · rw [padded, dif_neg hi]
      exact VecDeriv.congr' (VecDeriv.zero' 0) (h.fits.mono fun e he => (at_end he (by omega)).1)
  · by_cases hi : i < n + 1
    · rw [padded, dif_pos hi]; exact h.motion ⟨i, hi⟩
    · rw [padded, dif_neg hi]
      exact VecDeriv.congr' (VecDeriv.zero' 0) (h.fits.mono fun e he => (at_end he (by omega)).2)

theorem Fits.form {u : Sys ℝ} (hu : Fits G m0 m u) (x v y z : ℕ → Axes ℝ) :
    u.symplectic x v y z = systemForm m0 m (fun i => x i) (fun i => v i) (fun i => y i) fun i => z i := by
  obtain ⟨p, w, a, hp⟩ := hu.planets
  rw [Sys.symplectic, hu.length, Finset.sum_range, systemForm, Fin.sum_univ_succ, Fin.sum_univ_succ]
  congr 1
  · show u.massAt 0 * _ = _
    rw [(at_star u).2.2, hu.mass]
    rfl
  · refine Finset.sum_congr rfl fun i _ => ?_
    show u.massAt (i + 1) * _ = _
    rw [(at_planet hp i).2.2]
    rfl

theorem jacobi_family {K : Solver} (hK : K.Symplectic) (h0 : 0 < m0) (hm : ∀ i, 0 < m i) {h : ℝ} (hh : 0 ≤ h) {N : ℕ}
    {u w : ℕ → ℝ → Sys ℝ}
    (su : ∀ j < N, ∀ᶠ e in 𝓝 0, StepBy K .jacobi G h (h / 2) (apartKick .jacobi G) (u j e) (u (j + 1) e))
    (sw : ∀ j < N, ∀ᶠ e in 𝓝 0, StepBy K .jacobi G h (h / 2) (apartKick .jacobi G) (w j e) (w (j + 1) e))
    {x v y z : Fin (n + 1) → Axes ℝ} (hu : BodyRates G m0 m (u 0) x v)
    (hw : BodyRates G m0 m (w 0) y z) (same : SameBodies n (u 0 0) (w 0 0)) :
    ∃ x' v' y' z', BodyRates G m0 m (u N) x' v' ∧ BodyRates G m0 m (w N) y' z'
      ∧ SameBodies n (u N 0) (w N 0) ∧ systemForm m0 m x' v' y' z' = systemForm m0 m x v y z := by
  induction N with
  | zero => exact ⟨x, v, y, z, hu, hw, same, rfl⟩
  | succ N ih =>
    obtain ⟨x1, a1, y1, c1, k1, k2, k3, k4⟩ := ih (fun j hj => su j (by omega)) fun j hj => sw j (by omega)
    obtain ⟨x2, a2, y2, c2, l1, l2, l3, l4⟩ := k1.step hK h0 hm hh k2 k3 (su N (by omega)) (sw N (by omega))
    exact ⟨x2, a2, y2, c2, l1, l2, l3, l4.trans k4⟩

theorem jacobi_symplectic {K : Solver} (hK : K.Symplectic) (h0 : 0 < m0) (hm : ∀ i, 0 < m i) {h : ℝ} (hh : 0 ≤ h) {N : ℕ}
    {u w : ℕ → ℝ → Sys ℝ}
    (hu : ∀ j < N, ∀ᶠ e in 𝓝 0, StepBy K .jacobi G h (h / 2) (apartKick .jacobi G) (u j e) (u (j + 1) e))
    (hw : ∀ j < N, ∀ᶠ e in 𝓝 0, StepBy K .jacobi G h (h / 2) (apartKick .jacobi G) (w j e) (w (j + 1) e))
    (fu : ∀ᶠ e in 𝓝 0, Fits G m0 m (u 0 e)) (fw : ∀ᶠ e in 𝓝 0, Fits G m0 m (w 0 e)) (same : (u 0 0).motions = (w 0 0).motions)
    {x v y z : ℕ → Axes ℝ} (hx : Varies (u 0) x v) (hy : Varies (w 0) y z) :
    ∃ x' v' y' z', Varies (u N) x' v' ∧ Varies (w N) y' z' ∧ (u N 0).motions = (w N 0).motions
      ∧ (u N 0).symplectic x' v' y' z' = (u 0 0).symplectic x v y z := by
  obtain ⟨x', v', y', z', k1, k2, k3, k4⟩ := jacobi_family hK h0 hm hh hu hw (hx.bodies fu) (hy.bodies fw)
    (Fits.same_bodies same)
  refine ⟨_, _, _, _, k1.varies, k2.varies, k3.motions k1.fits.self_of_nhds k2.fits.self_of_nhds, ?_⟩
  rw [k1.fits.self_of_nhds.form, fu.self_of_nhds.form, ← k4]
  simp only [padded_at]

end Posidonius.WHFast
