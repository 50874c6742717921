import Verif.Lemmas.KeplerSymplectic
import Verif.Lemmas.JacobiStep
import Verif.Props.WHFastConvergence

/-! C122: steps of WHFast are symplectic if the Kepler motion is solved exactly. -/

namespace Posidonius.WHFast
open Posidonius Gravity Filter Topology
open Posidonius.Univ (VecDeriv.add' VecDeriv.sub' VecDeriv.const_smul' VecDeriv.sum' VecDeriv.zero' VecDeriv.congr')

variable {n : ℕ} {b : Bool} {G m0 : ℝ} {m : Fin n → ℝ}

/-- A family of systems in heliocentric coordinates. -/
structure HelioRates (b : Bool) (G m0 : ℝ) (m : Fin n → ℝ) (u : ℝ → Sys ℝ) (X V : Axes ℝ) (x a : Fin n → Axes ℝ) : Prop where
  fits : ∀ᶠ e in 𝓝 0, Fits G m0 m (u e)
  middle : VecDeriv (fun e => (centre (u e)).position) X 0
  drift : VecDeriv (fun e => (centre (u e)).velocity) V 0
  place : Rates (fun e => planetPlace (u e)) x
  motion : Rates (fun e => planetMotion b m0 m (u e)) a

/-- Rate of the centre. -/
noncomputable def meanRate (m0 : ℝ) (m : Fin n → ℝ) (x : ℕ → Axes ℝ) : Axes ℝ :=
  (m0 + ∑ i, m i)⁻¹ • (m0 • x 0 + ∑ i : Fin n, m i • x (i + 1))

theorem Varies.helio {u : ℝ → Sys ℝ} {x v : ℕ → Axes ℝ} (h : Varies u x v) (fits : ∀ᶠ e in 𝓝 0, Fits G m0 m (u e)) :
    HelioRates b G m0 m u (meanRate m0 m x) (meanRate m0 m v) (fun i => x (i + 1) - x 0)
      fun i => stretch b m0 (m i) • (v (i + 1) - meanRate m0 m v) := by
  have c2 : VecDeriv (fun e => (centre (u e)).velocity) (meanRate m0 m v) 0 :=
    VecDeriv.congr' (VecDeriv.const_smul' _ (VecDeriv.add' (VecDeriv.const_smul' _ (h.velocity 0))
      (VecDeriv.sum' _ fun i _ => VecDeriv.const_smul' _ (h.velocity (i + 1))))) (fits.mono fun e he => he.centre_at.2.1)
  exact ⟨fits, VecDeriv.congr' (VecDeriv.const_smul' _ (VecDeriv.add' (VecDeriv.const_smul' _ (h.position 0))
      (VecDeriv.sum' _ fun i _ => VecDeriv.const_smul' _ (h.position (i + 1))))) (fits.mono fun e he => he.centre_at.1), c2,
    fun i => VecDeriv.sub' (h.position _) (h.position 0), fun i => VecDeriv.const_smul' _ (VecDeriv.sub' (h.velocity _) c2)⟩

theorem HelioRates.varies {u : ℝ → Sys ℝ} {X V : Axes ℝ} {x a : Fin n → Axes ℝ} (h : HelioRates b G m0 m u X V x a)
    (h0 : 0 < m0) (hm : ∀ i, 0 < m i) : ∃ y v, Varies u y v := by
  have f0 := h.fits.self_of_nhds
  have p0 : VecDeriv (fun e => (u e).placeAt 0) (X - (m0 + ∑ i, m i)⁻¹ • ∑ i, m i • x i) 0 :=
    VecDeriv.congr' (VecDeriv.sub' h.middle (VecDeriv.const_smul' _ (VecDeriv.sum' _ fun i _ => VecDeriv.const_smul' _ (h.place i))))
      (h.fits.mono fun e he => (he.back (b := b) h0 hm).1)
  have v1 : ∀ i : Fin n, VecDeriv (fun e => (u e).motionAt (i + 1)) ((stretch b m0 (m i))⁻¹ • a i + V) 0 := fun i =>
    VecDeriv.congr' (VecDeriv.add' (VecDeriv.const_smul' _ (h.motion i)) h.drift)
      (h.fits.mono fun e he => (he.back (b := b) h0 hm).2.2.1 i)
  have place : ∀ i, ∃ y, VecDeriv (fun e => (u e).placeAt i) y 0 := by
    intro i
    by_cases hi : n < i
    · exact ⟨0, VecDeriv.congr' (VecDeriv.zero' 0) (h.fits.mono fun e he => (at_end he hi).1)⟩
    · match i, hi with
      | 0, _ => exact ⟨_, p0⟩
      | i + 1, hi =>
        exact ⟨_, VecDeriv.congr' (VecDeriv.add' (h.place ⟨i, by omega⟩) p0)
          (h.fits.mono fun e he => (he.back (b := b) h0 hm).2.1 ⟨i, by omega⟩)⟩
  have motion : ∀ i, ∃ y, VecDeriv (fun e => (u e).motionAt i) y 0 := by
    intro i
    by_cases hi : n < i
    · exact ⟨0, VecDeriv.congr' (VecDeriv.zero' 0) (h.fits.mono fun e he => (at_end he hi).2)⟩
    · match i, hi with
      | 0, _ =>
        exact ⟨_, VecDeriv.congr' (VecDeriv.const_smul' _ (VecDeriv.sub' (VecDeriv.const_smul' _ h.drift)
          (VecDeriv.sum' _ fun i _ => VecDeriv.const_smul' _ (v1 i)))) (h.fits.mono fun e he => (he.back (b := b) h0 hm).2.2.2)⟩
      | i + 1, hi => exact ⟨_, v1 ⟨i, by omega⟩⟩
  choose y hy using place
  choose v hv using motion
  exact ⟨y, v, h.fits.mono fun e he => he.masses f0, hy, hv⟩

theorem Fits.symplectic {u : Sys ℝ} (hu : Fits G m0 m u) (h0 : 0 < m0) (hm : ∀ i, 0 < m i) (x v y z : ℕ → Axes ℝ) :
    u.symplectic x v y z
      = (m0 + ∑ i, m i) * ((meanRate m0 m x).dot (meanRate m0 m z) - (meanRate m0 m y).dot (meanRate m0 m v))
        + helioForm b m0 m (fun i => x (i + 1) - x 0) (fun i => stretch b m0 (m i) • (v (i + 1) - meanRate m0 m v))
          (fun i => y (i + 1) - y 0) fun i => stretch b m0 (m i) • (z (i + 1) - meanRate m0 m z) := by
  have e1 := form_identity (b := b) h0 hm rfl (x 0) (z 0) (fun i => x (i + 1)) (fun i => z (i + 1)) (X := meanRate m0 m x)
    (Z := meanRate m0 m z) rfl rfl
  have e2 := form_identity (b := b) h0 hm rfl (y 0) (v 0) (fun i => y (i + 1)) (fun i => v (i + 1)) (X := meanRate m0 m y)
    (Z := meanRate m0 m v) rfl rfl
  obtain ⟨p, w, a, hp⟩ := hu.planets
  have e3 : u.symplectic x v y z = (m0 * (x 0).dot (z 0) + ∑ i : Fin n, m i * (x (i + 1)).dot (z (i + 1)))
      - (m0 * (y 0).dot (v 0) + ∑ i : Fin n, m i * (y (i + 1)).dot (v (i + 1))) := by
    rw [Sys.symplectic, hu.length, Finset.sum_range_succ', Finset.sum_range, (at_star u).2.2, hu.mass]
    simp only [at_planet hp, mul_sub, Finset.sum_sub_distrib]
    ring
  rw [e3, e1, e2, helioForm]
  simp only [mul_sub, Finset.sum_sub_distrib]
  ring

/-- The same coordinates. -/
def SameHelio (b : Bool) (m0 : ℝ) (m : Fin n → ℝ) (u w : Sys ℝ) : Prop :=
  (centre u).position = (centre w).position ∧ (centre u).velocity = (centre w).velocity
    ∧ (planetPlace u : Fin n → Axes ℝ) = planetPlace w ∧ planetMotion b m0 m u = planetMotion b m0 m w

theorem Fits.same {u w : Sys ℝ} (hu : Fits G m0 m u) (hw : Fits G m0 m w) (h : u.motions = w.motions) : SameHelio b m0 m u w := by
  have p : ∀ i, u.placeAt i = w.placeAt i := by
    intro i
    have := congrArg (fun l => (l[i]?.map fun x => x.2.2.1).getD 0) h
    simpa [Sys.motions, Sys.placeAt, Function.comp_def] using this
  have v : ∀ i, u.motionAt i = w.motionAt i := by
    intro i
    have := congrArg (fun l => (l[i]?.map fun x => x.2.2.2).getD 0) h
    simpa [Sys.motions, Sys.motionAt, Function.comp_def] using this
  have c : (centre u).velocity = (centre w).velocity := by rw [hu.centre_at.2.1, hw.centre_at.2.1]; simp only [v]
  refine ⟨by rw [hu.centre_at.1, hw.centre_at.1]; simp only [p], c, ?_, ?_⟩
  · funext i; simp only [planetPlace, p]
  · funext i; simp only [planetMotion, v, c]

theorem SameHelio.motions {u w : Sys ℝ} (h : SameHelio b m0 m u w) (hu : Fits G m0 m u) (hw : Fits G m0 m w)
    (h0 : 0 < m0) (hm : ∀ i, 0 < m i) : u.motions = w.motions := by
  obtain ⟨s1, s2, s3, s4⟩ := h
  obtain ⟨a1, a2, a3, a4⟩ := hu.back (b := b) h0 hm
  obtain ⟨b1, b2, b3, b4⟩ := hw.back (b := b) h0 hm
  have p0 : u.placeAt 0 = w.placeAt 0 := by rw [a1, b1, s1, s3]
  have v1 : ∀ i : Fin n, u.motionAt (i + 1) = w.motionAt (i + 1) := fun i => by rw [a3, b3, s2, s4]
  have v0 : u.motionAt 0 = w.motionAt 0 := by rw [a4, b4, s2]; simp only [v1]
  have p1 : ∀ i : Fin n, u.placeAt (i + 1) = w.placeAt (i + 1) := fun i => by rw [a2, b2, s3, p0]
  obtain ⟨x, v, a, hp⟩ := hu.planets
  obtain ⟨y, z, c, hq⟩ := hw.planets
  obtain rfl : x = y := funext fun i => by rw [← (at_planet hp i).1, ← (at_planet hq i).1, p1]
  obtain rfl : v = z := funext fun i => by rw [← (at_planet hp i).2.1, ← (at_planet hq i).2.1, v1]
  rw [(at_star u).1, (at_star w).1] at p0
  rw [(at_star u).2.1, (at_star w).2.1] at v0
  simp only [Sys.motions, Sys.bodies, List.map_cons, hp, hq, hu.mass, hu.massG, hw.mass, hw.massG, bodyList, List.map_ofFn, p0, v0]
  rfl

theorem fits_of_masses {u w : Sys ℝ} (h : u.bodies.map (fun p => (p.mass, p.massG)) = w.bodies.map fun p => (p.mass, p.massG))
    (hG : ∀ p ∈ w.bodies, p.massG = G * p.mass) : Fits G w.star.mass (fun i : Fin w.planets.length => w.planets[i].mass) u := by
  simp only [Sys.bodies, List.map_cons, List.cons.injEq, Prod.mk.injEq] at h
  obtain ⟨⟨h1, h2⟩, h3⟩ := h
  have len : u.planets.length = w.planets.length := by simpa using congrArg List.length h3
  refine ⟨h1, by rw [h2]; exact hG _ (by simp [Sys.bodies]), fun i => (u.planets[i.1]'(by rw [len]; exact i.2)).position,
    fun i => (u.planets[i.1]'(by rw [len]; exact i.2)).velocity, fun i => (u.planets[i.1]'(by rw [len]; exact i.2)).acceleration, ?_⟩
  apply List.ext_getElem
  · simp [bodyList, len]
  · intro i k1 k2
    have k3 : i < w.planets.length := len ▸ k1
    have e : (u.planets[i].mass, u.planets[i].massG) = (w.planets[i].mass, w.planets[i].massG) := by
      have := congrArg (fun l => l[i]?) h3
      simpa [k1, k3] using this
    rw [Prod.mk.injEq] at e
    have g : w.planets[i].massG = G * w.planets[i].mass := hG _ (by simp [Sys.bodies])
    simp only [bodyList, List.getElem_ofFn, Fin.getElem_fin]
    rw [← g, ← e.1, ← e.2]

theorem stages_of_step (h0 : 0 < m0) (hm : ∀ i, 0 < m i) {K : Solver} {h : ℝ} {u u' : Sys ℝ} (hu : Fits G m0 m u)
    (hs : StepBy K (helioOfBool b) G h (h / 2) (apartKick (helioOfBool b) G) u u') :
    ∃ S : Stages n, S.Of K b G m0 m h (planetPlace u) (planetMotion b m0 m u) ∧ Fits G m0 m u'
      ∧ planetPlace u' = S.q4 ∧ planetMotion b m0 m u' = S.v4
      ∧ (centre u').position = (centre u).position + h • (centre u).velocity ∧ (centre u').velocity = (centre u).velocity := by
  obtain ⟨q1, v1, q2, v2, q3, q4, v4, e1, e2, e3, e4, e5, e6, e7, w, x, y, a, e8, e9⟩ :=
    step_form_of h0 hm hu hu.centre_at.2.2 hu.to_planets (fun v w h => (apartKick_helio h).2) hs
  have inj : Function.Injective q2 := by
    obtain ⟨z, hz⟩ := Option.ne_none_iff_exists'.1 e8
    have k := (apartKick_helio hz).1
    rw [e9, bodyList, List.map_ofFn] at k
    have := List.nodup_ofFn.1 k
    intro i j hij
    exact this (by simp [Function.comp, hij])
  rw [e6.to_planets, AltSys.mk.injEq] at e7
  obtain ⟨f1, f2⟩ := e7
  obtain ⟨g1, g2⟩ := altList_injective f2
  exact ⟨⟨q1, v1, q2, v2, q3, q4, v4⟩, ⟨e1, e2, e3, e4, e5, inj⟩, e6, g1, g2, by rw [f1], by rw [f1]⟩

theorem HelioRates.step {K : Solver} (hK : K.Symplectic) (h0 : 0 < m0) (hm : ∀ i, 0 < m i) {h : ℝ} (hh : 0 ≤ h)
    {u u' w w' : ℝ → Sys ℝ} {X V Y W : Axes ℝ} {x a y c : Fin n → Axes ℝ} (hu : HelioRates b G m0 m u X V x a)
    (hw : HelioRates b G m0 m w Y W y c) (same : SameHelio b m0 m (u 0) (w 0))
    (su : ∀ᶠ e in 𝓝 0, StepBy K (helioOfBool b) G h (h / 2) (apartKick (helioOfBool b) G) (u e) (u' e))
    (sw : ∀ᶠ e in 𝓝 0, StepBy K (helioOfBool b) G h (h / 2) (apartKick (helioOfBool b) G) (w e) (w' e)) :
    ∃ x' a' y' c', HelioRates b G m0 m u' (X + h • V) V x' a' ∧ HelioRates b G m0 m w' (Y + h • W) W y' c'
      ∧ SameHelio b m0 m (u' 0) (w' 0) ∧ helioForm b m0 m x' a' y' c' = helioForm b m0 m x a y c := by
  have ru := (hu.fits.and su).mono fun e he => stages_of_step h0 hm he.1 he.2
  have rw' := (hw.fits.and sw).mono fun e he => stages_of_step h0 hm he.1 he.2
  obtain ⟨S, hS⟩ := ru.choice
  obtain ⟨R, hR⟩ := rw'.choice
  obtain ⟨x', a', y', c', k1, k2, k3, k4, k5, k6⟩ := stages_symplectic hK h0 hm hh (hS.mono fun e he => he.1)
    (hR.mono fun e he => he.1) same.2.2.1 same.2.2.2 hu.place hu.motion hw.place hw.motion
  have S0 := hS.self_of_nhds
  have R0 := hR.self_of_nhds
  refine ⟨x', a', y', c', ⟨hS.mono fun e he => he.2.1, ?_, ?_, fun i => ?_, fun i => ?_⟩,
    ⟨hR.mono fun e he => he.2.1, ?_, ?_, fun i => ?_, fun i => ?_⟩, ⟨?_, ?_, ?_, ?_⟩, k6⟩
  · exact VecDeriv.congr' (VecDeriv.add' hu.middle (VecDeriv.const_smul' h hu.drift)) (hS.mono fun e he => he.2.2.2.2.1)
  · exact VecDeriv.congr' hu.drift (hS.mono fun e he => he.2.2.2.2.2)
  · exact VecDeriv.congr' (k1 i) (hS.mono fun e he => congrFun he.2.2.1 i)
  · exact VecDeriv.congr' (k2 i) (hS.mono fun e he => congrFun he.2.2.2.1 i)
  · exact VecDeriv.congr' (VecDeriv.add' hw.middle (VecDeriv.const_smul' h hw.drift)) (hR.mono fun e he => he.2.2.2.2.1)
  · exact VecDeriv.congr' hw.drift (hR.mono fun e he => he.2.2.2.2.2)
  · exact VecDeriv.congr' (k3 i) (hR.mono fun e he => congrFun he.2.2.1 i)
  · exact VecDeriv.congr' (k4 i) (hR.mono fun e he => congrFun he.2.2.2.1 i)
  · rw [S0.2.2.2.2.1, R0.2.2.2.2.1, same.1, same.2.1]
  · rw [S0.2.2.2.2.2, R0.2.2.2.2.2, same.2.1]
  · rw [S0.2.2.1, R0.2.2.1, k5]
  · rw [S0.2.2.2.1, R0.2.2.2.1, k5]

theorem helio_symplectic {K : Solver} (hK : K.Symplectic) (h0 : 0 < m0) (hm : ∀ i, 0 < m i) {h : ℝ} (hh : 0 ≤ h) {N : ℕ}
    {u w : ℕ → ℝ → Sys ℝ}
    (su : ∀ j < N, ∀ᶠ e in 𝓝 0, StepBy K (helioOfBool b) G h (h / 2) (apartKick (helioOfBool b) G) (u j e) (u (j + 1) e))
    (sw : ∀ j < N, ∀ᶠ e in 𝓝 0, StepBy K (helioOfBool b) G h (h / 2) (apartKick (helioOfBool b) G) (w j e) (w (j + 1) e))
    {X V Y W : Axes ℝ} {x a y c : Fin n → Axes ℝ} (hu : HelioRates b G m0 m (u 0) X V x a)
    (hw : HelioRates b G m0 m (w 0) Y W y c) (same : SameHelio b m0 m (u 0 0) (w 0 0)) :
    ∃ x' a' y' c', HelioRates b G m0 m (u N) (X + (N * h) • V) V x' a' ∧ HelioRates b G m0 m (w N) (Y + (N * h) • W) W y' c'
      ∧ SameHelio b m0 m (u N 0) (w N 0) ∧ helioForm b m0 m x' a' y' c' = helioForm b m0 m x a y c := by
  induction N with
  | zero => exact ⟨x, a, y, c, by simpa using hu, by simpa using hw, same, rfl⟩
  | succ N ih =>
    obtain ⟨x1, a1, y1, c1, k1, k2, k3, k4⟩ := ih (fun j hj => su j (by omega)) fun j hj => sw j (by omega)
    obtain ⟨x2, a2, y2, c2, l1, l2, l3, l4⟩ := k1.step hK h0 hm hh k2 k3 (su N (by omega)) (sw N (by omega))
    have e : ∀ A B : Axes ℝ, A + (N * h) • B + h • B = A + ((N + 1 : ℕ) * h) • B := by
      intro A B
      push_cast
      module
    rw [e] at l1 l2
    exact ⟨x2, a2, y2, c2, l1, l2, l3, l4.trans k4⟩

theorem family_symplectic {K : Solver} (hK : K.Symplectic) (h0 : 0 < m0) (hm : ∀ i, 0 < m i) {h : ℝ} (hh : 0 ≤ h) {N : ℕ}
    {u w : ℕ → ℝ → Sys ℝ}
    (hu : ∀ j < N, ∀ᶠ e in 𝓝 0, StepBy K (helioOfBool b) G h (h / 2) (apartKick (helioOfBool b) G) (u j e) (u (j + 1) e))
    (hw : ∀ j < N, ∀ᶠ e in 𝓝 0, StepBy K (helioOfBool b) G h (h / 2) (apartKick (helioOfBool b) G) (w j e) (w (j + 1) e))
    (fu : ∀ᶠ e in 𝓝 0, Fits G m0 m (u 0 e)) (fw : ∀ᶠ e in 𝓝 0, Fits G m0 m (w 0 e)) (same : (u 0 0).motions = (w 0 0).motions)
    {x v y z : ℕ → Axes ℝ} (hx : Varies (u 0) x v) (hy : Varies (w 0) y z) :
    ∃ x' v' y' z', Varies (u N) x' v' ∧ Varies (w N) y' z' ∧ (u N 0).motions = (w N 0).motions
      ∧ (u N 0).symplectic x' v' y' z' = (u 0 0).symplectic x v y z := by
  obtain ⟨x', a', y', c', k1, k2, k3, k4⟩ := helio_symplectic hK h0 hm hh hu hw (hx.helio (b := b) fu) (hy.helio (b := b) fw)
    (fu.self_of_nhds.same fw.self_of_nhds same)
  obtain ⟨x1, v1, d1⟩ := k1.varies h0 hm
  obtain ⟨y1, z1, d2⟩ := k2.varies h0 hm
  refine ⟨x1, v1, y1, z1, d1, d2, k3.motions k1.fits.self_of_nhds k2.fits.self_of_nhds h0 hm, ?_⟩
  have g1 := d1.helio (b := b) k1.fits
  have g2 := d2.helio (b := b) k2.fits
  rw [k1.fits.self_of_nhds.symplectic (b := b) h0 hm, fu.self_of_nhds.symplectic (b := b) h0 hm, ← k4,
    VecDeriv.same g1.middle k1.middle, VecDeriv.same g1.drift k1.drift, VecDeriv.same g2.middle k2.middle,
    VecDeriv.same g2.drift k2.drift]
  have r1 : (fun i : Fin n => x1 (i + 1) - x1 0) = x' := funext fun i => VecDeriv.same (g1.place i) (k1.place i)
  have r2 : (fun i : Fin n => y1 (i + 1) - y1 0) = y' := funext fun i => VecDeriv.same (g2.place i) (k2.place i)
  have r3 := funext fun i => VecDeriv.same (g1.motion i) (k1.motion i)
  have r4 := funext fun i => VecDeriv.same (g2.motion i) (k2.motion i)
  rw [VecDeriv.same g1.drift k1.drift] at r3
  rw [VecDeriv.same g2.drift k2.drift] at r4
  rw [r1, r2, r3, r4]
  congr 1
  simp only [Axes.add_dot, Axes.smul_dot, Axes.dot_comm (meanRate m0 m z)]
  ring

/-- **C122**: take two families of systems through the same system and apply any number of steps of WHFast, in any of the
coordinates, with a symplectic solver for Kepler motion.  The results are families with derivatives again, and the
symplectic form of the two derivatives has not changed. -/
theorem C122_symplectic {K : Solver} (hK : K.Symplectic) {c : Coordinates} {h : ℝ} (hh : 0 ≤ h) {N : ℕ}
    {u w : ℕ → ℝ → Sys ℝ} (hu : ∀ j < N, ∀ᶠ e in 𝓝 0, StepBy K c G h (h / 2) (apartKick c G) (u j e) (u (j + 1) e))
    (hw : ∀ j < N, ∀ᶠ e in 𝓝 0, StepBy K c G h (h / 2) (apartKick c G) (w j e) (w (j + 1) e))
    (massive : Massive (u 0 0)) (hG : ∀ p ∈ (u 0 0).bodies, p.massG = G * p.mass) (same : (u 0 0).motions = (w 0 0).motions)
    {x v y z : ℕ → Axes ℝ} (hx : Varies (u 0) x v) (hy : Varies (w 0) y z) :
    ∃ x' v' y' z', Varies (u N) x' v' ∧ Varies (w N) y' z' ∧ (u N 0).motions = (w N 0).motions
      ∧ (u N 0).symplectic x' v' y' z' = (u 0 0).symplectic x v y z := by
  have h0 := massive.1
  have hm : ∀ i : Fin (u 0 0).planets.length, 0 < (u 0 0).planets[i].mass := fun i => massive.2 _ (by simp)
  have mw : (w 0 0).bodies.map (fun p => (p.mass, p.massG)) = (u 0 0).bodies.map fun p => (p.mass, p.massG) := by
    have := congrArg (List.map fun x : ℝ × ℝ × Axes ℝ × Axes ℝ => (x.1, x.2.1)) same.symm
    simpa [Sys.motions, Function.comp_def] using this
  have fu : ∀ᶠ e in 𝓝 0, Fits G (u 0 0).star.mass (fun i : Fin (u 0 0).planets.length => (u 0 0).planets[i].mass) (u 0 e) :=
    hx.masses.mono fun e he => fits_of_masses he hG
  have fw : ∀ᶠ e in 𝓝 0, Fits G (u 0 0).star.mass (fun i : Fin (u 0 0).planets.length => (u 0 0).planets[i].mass) (w 0 e) :=
    hy.masses.mono fun e he => fits_of_masses (he.trans mw) hG
  cases c with
  | jacobi => exact jacobi_symplectic hK h0 hm hh hu hw fu fw same hx hy
  | democraticHeliocentric => exact family_symplectic (b := false) hK h0 hm hh hu hw fu fw same hx hy
  | whds => exact family_symplectic (b := true) hK h0 hm hh hu hw fu fw same hx hy

theorem exactSolver_exact : exactSolver.Exact := by
  intro m t r v r' v' _ h
  obtain ⟨hm, hL, -⟩ := exactSolver_some h
  obtain ⟨p, w, e, p0, w0, d⟩ := C115_exact hm hL
  rw [e t, Option.some.injEq, Prod.mk.injEq] at h
  refine ⟨p, w, p0, w0, h.1, h.2, fun s _ => ⟨?_, d s⟩⟩
  obtain ⟨r1, v1, k, L⟩ := exactSolver_exists hm hL s
  rw [e s, Option.some.injEq, Prod.mk.injEq] at k
  intro z
  rw [← k.1, z, Axes.zero_cross] at L
  exact L rfl

theorem exactly_exact (K : Solver) : K.exactly.Exact := by
  intro m t r v r' v' _ h
  unfold Solver.exactly at h
  split at h
  · cases h
  · split at h
    · next k => cases h; exact k
    · cases h

theorem exactly_some {K : Solver} {m t : ℝ} {r v : Axes ℝ} {y : Axes ℝ × Axes ℝ} (h : K.exactly m t r v = some y) :
    K m t r v = some y := by
  unfold Solver.exactly at h
  split at h
  · cases h
  · next e =>
    split at h
    · rw [e]; exact h
    · cases h

/-- **C122, Kepler motion**: solving Kepler motion exactly is symplectic. -/
theorem C122_exact : exactSolver.Symplectic := exactSolver_exact.symplectic

/-- **C122, the code**: steps of the code in which the Kepler solver gave the exact answers are symplectic. -/
theorem C122_code {c : Coordinates} {fuel : ℕ} {h : ℝ} (hh : 0 ≤ h) {N : ℕ} {u w : ℕ → ℝ → Sys ℝ}
    (hu : ∀ j < N, ∀ᶠ e in 𝓝 0,
      StepBy (Solver.exactly (keplerStep fuel)) c G h (h / 2) (apartKick c G) (u j e) (u (j + 1) e))
    (hw : ∀ j < N, ∀ᶠ e in 𝓝 0,
      StepBy (Solver.exactly (keplerStep fuel)) c G h (h / 2) (apartKick c G) (w j e) (w (j + 1) e))
    (massive : Massive (u 0 0)) (hG : ∀ p ∈ (u 0 0).bodies, p.massG = G * p.mass) (same : (u 0 0).motions = (w 0 0).motions)
    {x v y z : ℕ → Axes ℝ} (hx : Varies (u 0) x v) (hy : Varies (w 0) y z) :
    (∀ j < N, ∀ᶠ e in 𝓝 0, step c fuel G h (h / 2) (apartKick c G) (u j e) = some (u (j + 1) e)
      ∧ step c fuel G h (h / 2) (apartKick c G) (w j e) = some (w (j + 1) e))
    ∧ ∃ x' v' y' z', Varies (u N) x' v' ∧ Varies (w N) y' z' ∧ (u N 0).motions = (w N 0).motions
      ∧ (u N 0).symplectic x' v' y' z' = (u 0 0).symplectic x v y z := by
  refine ⟨fun j hj => ?_, C122_symplectic (exactly_exact _).symplectic hh hu hw massive hG same hx hy⟩
  filter_upwards [hu j hj, hw j hj] with e h1 h2
  exact ⟨(C115_step _ _ _ _ _ _ _ _).2 (h1.mono fun _ _ _ _ _ => exactly_some),
    (C115_step _ _ _ _ _ _ _ _).2 (h2.mono fun _ _ _ _ _ => exactly_some)⟩

/-! ### Two planets on opposite sides of a star -/

theorem exactSolver_neg {m t : ℝ} {r v r' v' : Axes ℝ} (h : exactSolver m t r v = some (r', v')) :
    exactSolver m t (-r) (-v) = some (-r', -v') := by
  obtain ⟨hm, hL, x, hx, he⟩ := exactSolver_some h
  have o : orbitOf m (-r) (-v) = orbitOf m r v := by
    simp [orbitOf, Axes.norm2, Axes.neg_dot, Axes.dot_neg]
  have c : (-r).cross (-v) = r.cross v := by
    simp [Axes.cross]
  rw [exactSolver_of (x := x) hm (by rw [c]; exact hL) (by unfold Anomaly; rw [o]; exact hx), o]
  unfold keplerFinish at he ⊢
  rw [Prod.mk.injEq] at he
  rw [he.1, he.2, Option.some.injEq, Prod.mk.injEq]
  constructor <;> module

/-- A star and two planets with mass one at `q` and `-q` with velocities `v` and `-v`. -/
noncomputable def opposite (q v : Axes ℝ) : Sys ℝ :=
  { star := ⟨1, 1, 0, 0, 0⟩, planets := [⟨1, 1, q, v, 0⟩, ⟨1, 1, -q, -v, 0⟩] }

noncomputable def pair (x : Axes ℝ) : Fin 2 → Axes ℝ := ![x, -x]

theorem opposite_fits (q v : Axes ℝ) : Fits (n := 2) 1 1 (fun _ => 1) (opposite q v) :=
  ⟨rfl, by simp [opposite], pair q, pair v, fun _ => 0, by simp [opposite, bodyList, pair]⟩

/-- Systems that go on with the exact solver. -/
structure Going (u : Sys ℝ) : Prop where
  fits : Fits (n := 2) 1 1 (fun _ => 1) u
  at_pair : ∃ q v, planetPlace u = pair q ∧ planetMotion true 1 (fun _ => 1) u = pair v ∧ q.cross v ≠ 0

theorem going_next (h : ℝ) {u : Sys ℝ} (hu : Going u) :
    ∃ u', Going u' ∧ StepBy exactSolver .whds 1 h (h / 2) (apartKick .whds 1) u u' := by
  obtain ⟨fit, q, v, hq, hv, hL⟩ := hu
  have mu : (0 : ℝ) ≤ 1 * pulling true 1 1 := by norm_num [pulling]
  obtain ⟨r1, w1, k1, L1⟩ := exactSolver_exists mu hL (h / 2)
  have n1 := exactSolver_neg k1
  have jump : ∀ w : Axes ℝ, jumping true 1 (fun _ => 1) (pair w) = pair (-(1 / 2 : ℝ) • w) := by
    intro w
    funext i
    fin_cases i <;> simp [jumping, share, own, pair] <;> norm_num
  have kick : ∀ r : Axes ℝ, ∃ k : ℝ, among 1 (fun _ => 1) (pair r) = pair (k • r) := by
    intro r
    refine ⟨-(2 / √((-r - r).dot (-r - r)) ^ 3), ?_⟩
    have e : (r - -r).dot (r - -r) = (-r - r).dot (-r - r) := by
      rw [show -r - r = -(r - -r) by abel, Axes.neg_dot, Axes.dot_neg, neg_neg]
    funext i
    fin_cases i
    · rw [among, Fin.sum_univ_two]
      simp only [newton, pair, Fin.zero_eta, Matrix.cons_val_zero, Matrix.cons_val_one]
      rw [sub_self, smul_zero, zero_add]
      module
    · rw [among, Fin.sum_univ_two]
      simp only [newton, pair, Fin.mk_one, Matrix.cons_val_zero, Matrix.cons_val_one]
      rw [sub_self, smul_zero, add_zero, e]
      module
  set r2 := r1 + (h / 2) • (-(1 / 2 : ℝ)) • w1 with hr2
  obtain ⟨k, hk⟩ := kick r2
  set w2 := w1 + h • (2 : ℝ) • k • r2 with hw2
  set r3 := r2 + (h / 2) • (-(1 / 2 : ℝ)) • w2 with hr3
  have L2 : r2.cross w1 ≠ 0 := by
    have : r2.cross w1 = r1.cross w1 := by
      rw [hr2, Axes.add_cross, Axes.smul_cross, Axes.smul_cross, Axes.cross_self, smul_zero, smul_zero, add_zero]
    rwa [this]
  have L3 : r2.cross w2 ≠ 0 := by
    have : r2.cross w2 = r2.cross w1 := by
      rw [hw2, Axes.cross_add, Axes.cross_smul, Axes.cross_smul, Axes.cross_smul, Axes.cross_self, smul_zero, smul_zero,
        smul_zero, add_zero]
    rwa [this]
  have L4 : r3.cross w2 ≠ 0 := by
    have : r3.cross w2 = r2.cross w2 := by
      rw [hr3, Axes.add_cross, Axes.smul_cross, Axes.smul_cross, Axes.cross_self, smul_zero, smul_zero, add_zero]
    rwa [this]
  obtain ⟨r4, w4, k4, L5⟩ := exactSolver_exists mu L4 (h / 2)
  have n4 := exactSolver_neg k4
  have r0 : r2 ≠ 0 := by rintro z; rw [z, Axes.zero_cross] at L2; exact L2 rfl
  obtain ⟨u', st, f', e'⟩ := step_of_form (b := true) (n := 2) (K := exactSolver) (h := h) one_pos (fun _ => one_pos) fit
    fit.centre_at.2.2 fit.to_planets (q1 := pair r1) (v1 := pair w1) (q2 := pair r2) (v2 := pair w2) (q3 := pair r3)
    (q4 := pair r4) (v4 := pair w4)
    (fun i => by rw [hq, hv]; fin_cases i; exacts [k1, n1])
    (fun i => by rw [jump]; fin_cases i <;> simp [pair, hr2]; module)
    (fun i => by rw [hk]; fin_cases i <;> simp [pair, hw2, stretch] <;> norm_num; module)
    (fun i => by rw [jump]; fin_cases i <;> simp [pair, hr3]; module)
    (fun i => by fin_cases i; exacts [k4, n4]) (gravity := apartKick .whds 1)
    (by
      intro w x y a hw
      unfold apartKick
      rw [if_pos]
      · rfl
      · rw [hw]
        have ne : ¬ r2 = -r2 := fun e => r0 (by
          have : r2 = (1 / 2 : ℝ) • (r2 + r2) := by module
          rw [this]
          nth_rw 2 [e]
          rw [add_neg_cancel, smul_zero])
        simpa [bodyList, pair] using ne)
  rw [f'.to_planets, AltSys.mk.injEq] at e'
  obtain ⟨g1, g2⟩ := altList_injective e'.2
  exact ⟨u', ⟨f', r4, w4, g1, g2, L5⟩, st⟩

theorem opposite_going {q v : Axes ℝ} (hL : q.cross v ≠ 0) : Going (opposite q v) := by
  have fit := opposite_fits q v
  have cv : (centre (opposite q v)).velocity = 0 := by
    rw [fit.centre_at.2.1, Fin.sum_univ_two]
    simp [opposite, Sys.motionAt, Sys.bodies]
  refine ⟨fit, q, (2 : ℝ) • v, ?_, ?_, ?_⟩
  · funext i
    fin_cases i <;> simp [planetPlace, pair, opposite, Sys.placeAt, Sys.bodies]
  · funext i
    rw [planetMotion, cv]
    fin_cases i <;> simp [pair, opposite, Sys.motionAt, Sys.bodies, stretch] <;> norm_num
  · rw [Axes.cross_smul]
    exact smul_ne_zero two_ne_zero hL

/-- Rates of change of the positions or the velocities along the first axis. -/
noncomputable def opening : ℕ → Axes ℝ
  | 1 => ⟨1, 0, 0⟩
  | 2 => -⟨1, 0, 0⟩
  | _ => 0

theorem opening_rate (a d : Axes ℝ) (hd : d = ⟨1, 0, 0⟩) : ∀ i,
    VecDeriv (fun e : ℝ => ((([0, a + e • d, -(a + e • d)] : List (Axes ℝ))[i]?).getD 0)) (opening i) 0 := by
  subst hd
  intro i
  match i with
  | 0 => exact VecDeriv.zero' 0
  | 1 => exact vecDeriv_line a _ 0
  | 2 =>
    have := VecDeriv.const_smul' (-1) (vecDeriv_line a ⟨1, 0, 0⟩ 0)
    simp only [neg_smul, one_smul] at this
    exact this
  | i + 3 => exact VecDeriv.zero' 0

theorem still_rate (l : List (Axes ℝ)) (i : ℕ) : VecDeriv (fun _ => (l[i]?).getD 0) 0 0 := vecDeriv_const _ 0

theorem opposite_opens : Varies (fun e => opposite (⟨1, 0, 0⟩ + e • ⟨1, 0, 0⟩) ⟨0, 1, 0⟩) opening fun _ => 0 := by
  refine ⟨Eventually.of_forall fun e => rfl, fun i => ?_, fun i => ?_⟩
  · have := opening_rate ⟨1, 0, 0⟩ _ rfl i
    simpa only [Sys.placeAt, opposite, Sys.bodies, ← List.getElem?_map, List.map_cons, List.map_nil] using this
  · simpa only [Sys.motionAt, opposite, Sys.bodies, ← List.getElem?_map, List.map_cons, List.map_nil] using still_rate _ i

theorem opposite_parts : Varies (fun e => opposite ⟨1, 0, 0⟩ (⟨0, 1, 0⟩ + e • ⟨1, 0, 0⟩)) (fun _ => 0) opening := by
  refine ⟨Eventually.of_forall fun e => rfl, fun i => ?_, fun i => ?_⟩
  · simpa only [Sys.placeAt, opposite, Sys.bodies, ← List.getElem?_map, List.map_cons, List.map_nil] using still_rate _ i
  · have := opening_rate ⟨0, 1, 0⟩ _ rfl i
    simpa only [Sys.motionAt, opposite, Sys.bodies, ← List.getElem?_map, List.map_cons, List.map_nil] using this

theorem going_runs (h : ℝ) {s : ℝ → Sys ℝ} (hs : ∀ᶠ e in 𝓝 0, Going (s e)) : ∃ u : ℕ → ℝ → Sys ℝ, u 0 = s
    ∧ ∀ k, ∀ᶠ e in 𝓝 0, StepBy exactSolver .whds 1 h (h / 2) (apartKick .whds 1) (u k e) (u (k + 1) e) := by
  have next : ∀ u : Sys ℝ, ∃ u', Going u → Going u' ∧ StepBy exactSolver .whds 1 h (h / 2) (apartKick .whds 1) u u' := by
    intro u
    by_cases g : Going u
    · obtain ⟨u', k1, k2⟩ := going_next h g
      exact ⟨u', fun _ => ⟨k1, k2⟩⟩
    · exact ⟨u, fun k => absurd k g⟩
  choose f hf using next
  refine ⟨fun k e => f^[k] (s e), rfl, fun k => ?_⟩
  have g : ∀ k : ℕ, ∀ᶠ e in 𝓝 0, Going (f^[k] (s e)) := by
    intro k
    induction k with
    | zero => exact hs
    | succ k ih =>
      filter_upwards [ih] with e he
      rw [Function.iterate_succ_apply']
      exact (hf _ he).1
  filter_upwards [g k] with e he
  rw [Function.iterate_succ_apply']
  exact (hf _ he).2

theorem opens_going : ∀ᶠ e : ℝ in 𝓝 0, Going (opposite (⟨1, 0, 0⟩ + e • ⟨1, 0, 0⟩) ⟨0, 1, 0⟩) := by
  filter_upwards [eventually_gt_nhds (show (-1 : ℝ) < 0 by norm_num)] with e he
  refine opposite_going fun k => ?_
  have := congrArg Axes.z k
  simp [Axes.cross] at this
  linarith

theorem parts_going : ∀ᶠ e : ℝ in 𝓝 0, Going (opposite ⟨1, 0, 0⟩ (⟨0, 1, 0⟩ + e • ⟨1, 0, 0⟩)) := by
  refine Eventually.of_forall fun e => opposite_going fun k => ?_
  have := congrArg Axes.z k
  simp [Axes.cross] at this

theorem opposite_form : (opposite (⟨1, 0, 0⟩ + (0 : ℝ) • ⟨1, 0, 0⟩) ⟨0, 1, 0⟩).symplectic opening (fun _ => 0) (fun _ => 0) opening = 2 := by
  simp [Sys.symplectic, opposite, Sys.bodies, Sys.massAt, Finset.sum_range_succ, opening, Axes.dot]
  norm_num

/-- Two planets on opposite sides of a star; one family changes their distance, the other their velocity along the line.  The
symplectic form is 2 after any number of steps of any length. -/
example (h : ℝ) (hh : 0 ≤ h) (N : ℕ) : ∃ u w : ℕ → ℝ → Sys ℝ, (∀ e, u 0 e = opposite (⟨1, 0, 0⟩ + e • ⟨1, 0, 0⟩) ⟨0, 1, 0⟩)
    ∧ (∀ e, w 0 e = opposite ⟨1, 0, 0⟩ (⟨0, 1, 0⟩ + e • ⟨1, 0, 0⟩))
    ∧ (∀ k, ∀ᶠ e in 𝓝 0, StepBy exactSolver .whds 1 h (h / 2) (apartKick .whds 1) (u k e) (u (k + 1) e))
    ∧ (∀ k, ∀ᶠ e in 𝓝 0, StepBy exactSolver .whds 1 h (h / 2) (apartKick .whds 1) (w k e) (w (k + 1) e))
    ∧ ∃ x v y z, Varies (u N) x v ∧ Varies (w N) y z ∧ (u N 0).symplectic x v y z = 2 := by
  obtain ⟨u, u0, hu⟩ := going_runs h opens_going
  obtain ⟨w, w0, hw⟩ := going_runs h parts_going
  refine ⟨u, w, fun e => by rw [u0], fun e => by rw [w0], hu, hw, ?_⟩
  obtain ⟨x', v', y', z', k1, k2, -, k3⟩ := C122_symplectic (G := 1) C122_exact (c := .whds) hh (N := N)
    (fun j _ => hu j) (fun j _ => hw j) (by rw [u0]; exact (opposite_fits _ _).massive one_pos fun _ => one_pos)
    (by rw [u0]; intro p hp; simp [opposite, Sys.bodies] at hp; rcases hp with rfl | rfl | rfl <;> norm_num)
    (by rw [u0, w0]; simp) (by rw [u0]; exact opposite_opens) (by rw [w0]; exact opposite_parts)
  refine ⟨x', v', y', z', k1, k2, k3.trans ?_⟩
  rw [u0]
  exact opposite_form

/-! ### Jacobi coordinates, with a solver that lets bodies drift -/

/-- The Kepler motion about a centre without mass. -/
noncomputable def drifting : Solver := fun _ t r v => some (r + t • v, v)

theorem drifting_symplectic : drifting.Symplectic := by
  intro m t r v y z r' v' y' z' a b c d _ h1 h2 e1 e2 ha hb hc hd
  have f1 : ∀ᶠ e in 𝓝 0, r' e = r e + t • v e ∧ v' e = v e := h1.mono fun e he => by
    simp only [drifting, Option.some.injEq, Prod.mk.injEq] at he
    exact ⟨he.1.symm, he.2.symm⟩
  have f2 : ∀ᶠ e in 𝓝 0, y' e = y e + t • z e ∧ z' e = z e := h2.mono fun e he => by
    simp only [drifting, Option.some.injEq, Prod.mk.injEq] at he
    exact ⟨he.1.symm, he.2.symm⟩
  refine ⟨_, _, _, _, VecDeriv.congr' (VecDeriv.add' ha (VecDeriv.const_smul' t hb)) (f1.mono fun e he => he.1),
    VecDeriv.congr' hb (f1.mono fun e he => he.2),
    VecDeriv.congr' (VecDeriv.add' hc (VecDeriv.const_smul' t hd)) (f2.mono fun e he => he.1),
    VecDeriv.congr' hd (f2.mono fun e he => he.2), ?_⟩
  simp only [Axes.add_dot, Axes.smul_dot, Axes.dot_comm d b]
  ring

theorem jac_line {n : ℕ} (m : Fin n → ℝ) (eta t : ℝ) (s s' : Axes ℝ) (x x' : Fin n → Axes ℝ) (i : Fin n) :
    jac m eta (s + t • s') (fun i => x i + t • x' i) i = jac m eta s x i + t • jac m eta s' x' i := by
  induction n generalizing eta s s' with
  | zero => exact i.elim0
  | succ n ih =>
    refine Fin.cases ?_ (fun i => ?_) i
    · simp only [jac, Fin.cons_zero]
      module
    · have := ih (fun i => m i.succ) (eta + m 0) (s + m 0 • x 0) (s' + m 0 • x' 0) (fun i => x i.succ) (fun i => x' i.succ) i
      simp only [jac, Fin.cons_succ]
      rw [← this]
      congr 1
      module

theorem drifting_moves (c : Coordinates) (t mu : ℝ) (l : List (Alt ℝ)) : ∃ l', PlanetsMove drifting c t mu l l' := by
  induction l generalizing mu with
  | nil => exact ⟨[], .nil⟩
  | cons a l ih =>
    obtain ⟨l', h⟩ := ih (carried c mu a)
    exact ⟨⟨a.mass, a.massG, a.position + t • a.velocity, a.velocity⟩ :: l', .cons rfl rfl rfl h⟩

theorem drifting_step (h0 : 0 < m0) (hm : ∀ i, 0 < m i) {h : ℝ} {u : Sys ℝ} (hu : Fits G m0 m u)
    (apart : Function.Injective fun i : Fin (n + 1) => allPlaces u i + (h / 2) • allMotions u i) :
    ∃ u', StepBy drifting .jacobi G h (h / 2) (apartKick .jacobi G) u u' := by
  have move : ∀ {n : ℕ} {m : Fin n → ℝ} {mu t : ℝ} {q v : Fin n → Axes ℝ},
      PlanetsMove drifting .jacobi t mu (altList G m q v) (altList G m (fun i => q i + t • v i) v) := by
    intro n
    induction n with
    | zero => intro m mu t q v; simp only [altList, List.ofFn_zero]; exact .nil
    | succ n ih =>
      intro m mu t q v
      rw [altList, List.ofFn_succ, altList, List.ofFn_succ]
      exact .cons rfl rfl rfl ih
  have ha : toAlternative .jacobi u = _ := hu.to_jacobi h0 hm
  obtain ⟨g1, g2, g3, g4⟩ := hu.back_jacobi h0 hm
    (s := ⟨(centre u).mass, (centre u).position + (h / 2) • (centre u).velocity, (centre u).velocity⟩) hu.centre_at.2.2
    (fun i => jacAll m0 m (allPlaces u) i + (h / 2) • jacAll m0 m (allMotions u) i) (jacAll m0 m (allMotions u))
  have w1 := (g1.weigh h0 hm).1
  rw [g2] at w1
  obtain ⟨l, hl⟩ := drifting_moves .jacobi (h / 2) (kicked .jacobi G (fromJacobi
    ⟨⟨(centre u).mass, (centre u).position + (h / 2) • (centre u).velocity, (centre u).velocity⟩, altList G m
      (fun i => jacAll m0 m (allPlaces u) i + (h / 2) • jacAll m0 m (allMotions u) i) (jacAll m0 m (allMotions u))⟩ u)).star.massG
    (interactionStep .jacobi G h (kicked .jacobi G (fromJacobi
    ⟨⟨(centre u).mass, (centre u).position + (h / 2) • (centre u).velocity, (centre u).velocity⟩, altList G m
      (fun i => jacAll m0 m (allPlaces u) i + (h / 2) • jacAll m0 m (allMotions u) i) (jacAll m0 m (allMotions u))⟩ u))
      ⟨⟨(centre u).mass, (centre u).position + (h / 2) • (centre u).velocity, (centre u).velocity⟩, altList G m
      (fun i => jacAll m0 m (allPlaces u) i + (h / 2) • jacAll m0 m (allMotions u) i) (jacAll m0 m (allMotions u))⟩).planets
  refine ⟨_, ⟨⟨(centre u).mass, (centre u).position + (h / 2) • (centre u).velocity, (centre u).velocity⟩, altList G m
      (fun i => jacAll m0 m (allPlaces u) i + (h / 2) • jacAll m0 m (allMotions u) i) (jacAll m0 m (allMotions u))⟩,
    ⟨⟨(centre u).mass, (centre u).position + (h / 2) • (centre u).velocity + (h / 2) • (centre u).velocity,
      (centre u).velocity⟩, l⟩, _, ?_, if_pos ?_, ⟨rfl, rfl, rfl, hl⟩, rfl⟩
  · rw [ha]
    exact ⟨rfl, rfl, rfl, move⟩
  · have key : (allPlaces (fromJacobi ⟨⟨(centre u).mass, (centre u).position + (h / 2) • (centre u).velocity,
        (centre u).velocity⟩, altList G m (fun i => jacAll m0 m (allPlaces u) i + (h / 2) • jacAll m0 m (allMotions u) i)
        (jacAll m0 m (allMotions u))⟩ u) : Fin (n + 1) → Axes ℝ) = fun i => allPlaces u i + (h / 2) • allMotions u i := by
      refine mid_unique h0 hm ?_ ?_
      · rw [g3]
        funext i
        unfold jacAll
        rw [smul_add, smul_comm m0 (h / 2), jac_line]
      · rw [← weigh_eq, w1, ← weigh_eq (fun i => allPlaces u i + (h / 2) • allMotions u i), smul_add, ← (hu.weigh h0 hm).1, smul_comm _ (h / 2), ← (hu.weigh h0 hm).2]
        simp only [weigh, smul_add, Finset.sum_add_distrib, Finset.smul_sum, smul_comm (h / 2)]
    obtain ⟨x, v, a, hp⟩ := g1.planets
    have k := List.nodup_ofFn.2 apart
    rw [← key, ← allPlaces_list g1] at k
    exact k

/-- A star and two planets with mass one; the first planet is `x` above its place and has velocity `v`. -/
noncomputable def corner (x v : Axes ℝ) : Sys ℝ :=
  { star := ⟨1, 1, 0, 0, 0⟩, planets := [⟨1, 1, ⟨1, 0, 0⟩ + x, v, 0⟩, ⟨1, 1, ⟨0, 1, 0⟩, 0, 0⟩] }

theorem corner_fits (x v : Axes ℝ) : Fits (n := 2) 1 1 (fun _ => 1) (corner x v) :=
  ⟨rfl, by simp [corner], ![⟨1, 0, 0⟩ + x, ⟨0, 1, 0⟩], ![v, 0], fun _ => 0, by simp [corner, bodyList]⟩

theorem corner_step (h a b : ℝ) : ∃ u', StepBy drifting .jacobi 1 h (h / 2) (apartKick .jacobi 1)
    (corner (a • ⟨0, 0, 1⟩) (b • ⟨0, 0, 1⟩)) u' := by
  refine drifting_step (n := 2) one_pos (fun _ => one_pos) (corner_fits _ _) ?_
  intro i j hij
  have e1 := congrArg Axes.x hij
  have e2 := congrArg Axes.y hij
  fin_cases i <;> fin_cases j <;> simp [allPlaces, allMotions, corner, Sys.placeAt, Sys.motionAt, Sys.bodies] at e1 e2 ⊢

/-- The rate at which the first planet rises. -/
noncomputable def rising : ℕ → Axes ℝ
  | 1 => ⟨0, 0, 1⟩
  | _ => 0

theorem rising_rate (a b : Axes ℝ) : ∀ i,
    VecDeriv (fun e : ℝ => ((([0, a + e • ⟨0, 0, 1⟩, b] : List (Axes ℝ))[i]?).getD 0)) (rising i) 0 := by
  intro i
  match i with
  | 0 => exact VecDeriv.zero' 0
  | 1 => exact vecDeriv_line a _ 0
  | 2 => exact vecDeriv_const _ 0
  | i + 3 => exact VecDeriv.zero' 0

theorem corner_rises : Varies (fun e => corner (e • ⟨0, 0, 1⟩) ((0 : ℝ) • ⟨0, 0, 1⟩)) rising fun _ => 0 := by
  refine ⟨Eventually.of_forall fun e => rfl, fun i => ?_, fun i => ?_⟩
  · simpa only [Sys.placeAt, corner, Sys.bodies, ← List.getElem?_map, List.map_cons, List.map_nil] using rising_rate ⟨1, 0, 0⟩ _ i
  · simpa only [Sys.motionAt, corner, Sys.bodies, ← List.getElem?_map, List.map_cons, List.map_nil] using still_rate _ i

theorem corner_lifts : Varies (fun e => corner ((0 : ℝ) • ⟨0, 0, 1⟩) (e • ⟨0, 0, 1⟩)) (fun _ => 0) rising := by
  refine ⟨Eventually.of_forall fun e => rfl, fun i => ?_, fun i => ?_⟩
  · simpa only [Sys.placeAt, corner, Sys.bodies, ← List.getElem?_map, List.map_cons, List.map_nil] using still_rate _ i
  · have := rising_rate 0 0 i
    simp only [zero_add] at this
    simpa only [Sys.motionAt, corner, Sys.bodies, ← List.getElem?_map, List.map_cons, List.map_nil] using this

/-- A step in Jacobi coordinates, the two planets at right angles: the symplectic form of lifting the first planet and of
giving it a velocity upwards stays 1. -/
example (h : ℝ) (hh : 0 ≤ h) : ∃ u w : ℝ → Sys ℝ,
    (∀ e, StepBy drifting .jacobi 1 h (h / 2) (apartKick .jacobi 1) (corner (e • ⟨0, 0, 1⟩) ((0 : ℝ) • ⟨0, 0, 1⟩)) (u e))
    ∧ (∀ e, StepBy drifting .jacobi 1 h (h / 2) (apartKick .jacobi 1) (corner ((0 : ℝ) • ⟨0, 0, 1⟩) (e • ⟨0, 0, 1⟩)) (w e))
    ∧ ∃ x v y z, Varies u x v ∧ Varies w y z ∧ (u 0).symplectic x v y z = 1 := by
  choose u hu using fun e => corner_step h e 0
  choose w hw using fun e => corner_step h 0 e
  refine ⟨u, w, hu, hw, ?_⟩
  obtain ⟨x, v, y, z, k1, k2, -, k3⟩ := C122_symplectic (G := 1) drifting_symplectic (c := .jacobi) hh (N := 1)
    (u := fun k e => match k with | 0 => corner (e • ⟨0, 0, 1⟩) ((0 : ℝ) • ⟨0, 0, 1⟩) | _ + 1 => u e)
    (w := fun k e => match k with | 0 => corner ((0 : ℝ) • ⟨0, 0, 1⟩) (e • ⟨0, 0, 1⟩) | _ + 1 => w e)
    (fun j hj => by obtain rfl : j = 0 := by omega
                    exact Eventually.of_forall hu)
    (fun j hj => by obtain rfl : j = 0 := by omega
                    exact Eventually.of_forall hw)
    ((corner_fits _ _).massive one_pos fun _ => one_pos)
    (by intro p hp; simp [corner, Sys.bodies] at hp; rcases hp with rfl | rfl | rfl <;> norm_num)
    (by simp) corner_rises corner_lifts
  refine ⟨x, v, y, z, k1, k2, k3.trans ?_⟩
  simp [Sys.symplectic, corner, Sys.bodies, Sys.massAt, Finset.sum_range_succ, rising, Axes.dot]

end Posidonius.WHFast
