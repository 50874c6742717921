import Verif.Lemmas.FlowVariation
import Verif.Lemmas.WHFastOrder
import Verif.Props.Symplectic
import Verif.Spec.WHFastSymplectic

/-! Kepler motion is symplectic. -/

namespace Posidonius.WHFast
open Gravity Set Filter Topology
open Posidonius.Univ (coords ofCoords coords_ofCoords ofCoords_coords coords_add coords_sub coords_smul hasDerivAt_coords tidalMap tidalMap_symm
  tidalMap_neg newton_deriv)

/-- Component of a place. -/
noncomputable def place (k : Fin 3) : State 1 →L[ℝ] ℝ :=
  (ContinuousLinearMap.proj (R := ℝ) (φ := fun _ : Fin 3 => ℝ) k).comp
    ((ContinuousLinearMap.proj (R := ℝ) (φ := fun _ : Fin 1 => Fin 3 → ℝ) 0).comp (ContinuousLinearMap.fst ℝ _ _))

/-- Component of a velocity. -/
noncomputable def motion (k : Fin 3) : State 1 →L[ℝ] ℝ :=
  (ContinuousLinearMap.proj (R := ℝ) (φ := fun _ : Fin 3 => ℝ) k).comp
    ((ContinuousLinearMap.proj (R := ℝ) (φ := fun _ : Fin 1 => Fin 3 → ℝ) 0).comp (ContinuousLinearMap.snd ℝ _ _))

/-- The symplectic form of a body. -/
noncomputable def bodyForm : State 1 →L[ℝ] State 1 →L[ℝ] ℝ :=
  ∑ k, ((ContinuousLinearMap.mul ℝ ℝ).bilinearComp (place k) (motion k)
    - (ContinuousLinearMap.mul ℝ ℝ).bilinearComp (motion k) (place k))

theorem bodyForm_apply (x y : State 1) : bodyForm x y = ∑ k, (x.1 0 k * y.2 0 k - x.2 0 k * y.1 0 k) := by
  simp [bodyForm, ContinuousLinearMap.sum_apply, place, motion]

theorem bodyForm_pack (a b c d : Axes ℝ) :
    bodyForm (pack (fun _ => a) fun _ => b) (pack (fun _ => c) fun _ => d) = a.dot d - c.dot b := by
  rw [bodyForm_apply, Fin.sum_univ_three]
  show (a.x * d.x - b.x * c.x) + (a.y * d.y - b.y * c.y) + (a.z * d.z - b.z * c.z)
    = (a.x * d.x + a.y * d.y + a.z * d.z) - (c.x * b.x + c.y * b.y + c.z * b.z)
  ring

theorem pack_surjective (x : State 1) : ∃ a b, x = pack (fun _ => a) fun _ => b := by
  refine ⟨ofCoords (x.1 0), ofCoords (x.2 0), ?_⟩
  have : ∀ i : Fin 1, i = 0 := fun i => Subsingleton.elim i 0
  refine Prod.ext (funext fun i => ?_) (funext fun i => ?_)
  · rw [this i]; exact (coords_ofCoords _).symm
  · rw [this i]; exact (coords_ofCoords _).symm

/-- Rate of Kepler motion of one body. -/
noncomputable def motionField (m : ℝ) : State 1 → State 1 := keplerField false m 1 fun _ => 0

theorem motionField_pack (m : ℝ) (q v : Axes ℝ) :
    motionField m (pack (fun _ => q) fun _ => v) = pack (fun _ => v) fun _ => newton m 1 q 0 :=
  keplerField_pack _ _

theorem motionField_contDiffAt {m : ℝ} {q v : Axes ℝ} (hq : q ≠ 0) :
    ContDiffAt ℝ 2 (motionField m) (pack (fun _ => q) fun _ => v) :=
  keplerField_contDiffAt fun i => by
    show ofCoords (coords q) ≠ 0
    rwa [ofCoords_coords]

theorem motionField_fderiv {m : ℝ} {q v : Axes ℝ} (hq : q ≠ 0) (a b : Axes ℝ) :
    fderiv ℝ (motionField m) (pack (fun _ => q) fun _ => v) (pack (fun _ => a) fun _ => b)
      = pack (fun _ => b) fun _ => -((m * 1) • tidalMap q a) := by
  have d := ((motionField_contDiffAt (m := m) (v := v) hq).differentiableAt (by norm_num)).hasFDerivAt
  have line : HasDerivAt (fun e => pack (fun _ : Fin 1 => q + e • a) fun _ => v + e • b) (pack (fun _ => a) fun _ => b) (0 : ℝ) :=
    hasDerivAt_pack (q := fun _ e => q + e • a) (v := fun _ e => v + e • b) (fun _ => vecDeriv_line _ _ 0) fun _ => vecDeriv_line _ _ 0
  have z : (pack (fun _ : Fin 1 => q + (0 : ℝ) • a) fun _ => v + (0 : ℝ) • b) = pack (fun _ => q) fun _ => v := by simp
  have c1 := HasFDerivAt.comp_hasDerivAt (x := (0 : ℝ)) (f := fun e : ℝ => pack (fun _ : Fin 1 => q + e • a) fun _ => v + e • b)
    (l := motionField m) (by rw [z]; exact d) line
  have c2 : HasDerivAt (motionField m ∘ fun e : ℝ => pack (fun _ : Fin 1 => q + e • a) fun _ => v + e • b)
      (pack (fun _ => b) fun _ => -((m * 1) • tidalMap q a)) 0 := by
    have e : (motionField m ∘ fun e : ℝ => pack (fun _ : Fin 1 => q + e • a) fun _ => v + e • b)
        = fun e : ℝ => pack (fun _ : Fin 1 => v + e • b) fun _ => newton m 1 (q + e • a) 0 := by
      funext e
      exact motionField_pack _ _ _
    rw [e]
    refine hasDerivAt_pack (q := fun _ e => v + e • b) (v := fun _ e => newton m 1 (q + e • a) 0)
      (fun _ => vecDeriv_line _ _ 0) fun _ => ?_
    have n := newton_deriv m 1 (vecDeriv_line q a 0) (vecDeriv_const 0 0) (by simpa using hq)
    have e2 : (m * 1) • tidalMap (0 - (q + (0 : ℝ) • a)) (0 - a) = -((m * 1) • tidalMap q a) := by
      rw [zero_smul, add_zero, zero_sub, zero_sub, tidalMap_neg, smul_neg]
    rw [e2] at n
    exact n
  exact c1.unique c2

theorem VecDeriv.of_coords {p : ℝ → Axes ℝ} {d : Fin 3 → ℝ} {t : ℝ} (h : HasDerivAt (fun s => coords (p s)) d t) :
    VecDeriv p (ofCoords d) t :=
  ⟨hasDerivAt_pi.1 h 0, hasDerivAt_pi.1 h 1, hasDerivAt_pi.1 h 2⟩

/-- Exact solvers are symplectic. -/
theorem Solver.Exact.symplectic {K : Solver} (hK : K.Exact) : K.Symplectic := by
  intro m t r v y z r' v' y' z' a b c d t0 hr hy e1 e2 da db dc dd
  have orbit : ∀ {r v r' v' : ℝ → Axes ℝ}, (∀ᶠ e in 𝓝 0, K m t (r e) (v e) = some (r' e, v' e)) →
      ∃ p w : ℝ → ℝ → Axes ℝ, ∀ᶠ e in 𝓝 0, p e 0 = r e ∧ w e 0 = v e ∧ p e t = r' e ∧ w e t = v' e
        ∧ ∀ s ∈ Icc 0 t, p e s ≠ 0 ∧ VecDeriv (p e) (w e s) s
          ∧ VecDeriv (w e) ((-m / √((p e s).dot (p e s)) ^ 3) • p e s) s := by
    intro r v r' v' h
    have : ∀ e, ∃ p w : ℝ → Axes ℝ, K m t (r e) (v e) = some (r' e, v' e) → p 0 = r e ∧ w 0 = v e ∧ p t = r' e ∧ w t = v' e
        ∧ ∀ s ∈ Icc 0 t, p s ≠ 0 ∧ VecDeriv p (w s) s ∧ VecDeriv w ((-m / √((p s).dot (p s)) ^ 3) • p s) s := by
      intro e
      by_cases h : K m t (r e) (v e) = some (r' e, v' e)
      · obtain ⟨p, w, k⟩ := hK _ _ _ _ _ _ t0 h
        exact ⟨p, w, fun _ => k⟩
      · exact ⟨fun _ => 0, fun _ => 0, fun k => absurd k h⟩
    choose p w k using this
    exact ⟨p, w, h.mono fun e he => k e he⟩
  have solves : ∀ {p w : ℝ → Axes ℝ}, (∀ s ∈ Icc 0 t, p s ≠ 0 ∧ VecDeriv p (w s) s
      ∧ VecDeriv w ((-m / √((p s).dot (p s)) ^ 3) • p s) s) → ∀ s ∈ Icc 0 t,
      HasDerivAt (fun s => pack (fun _ : Fin 1 => p s) fun _ => w s) (motionField m (pack (fun _ => p s) fun _ => w s)) s := by
    intro p w h s hs
    rw [motionField_pack]
    refine hasDerivAt_pack (q := fun _ => p) (v := fun _ => w) (fun _ => (h s hs).2.1) fun _ => ?_
    have e : newton m 1 (p s) 0 = (-m / √((p s).dot (p s)) ^ 3) • p s := by
      show central m 1 (p s) = _
      rw [central_eq, mul_one, neg_div, neg_smul]
    rw [e]
    exact (h s hs).2.2
  obtain ⟨p, w, hp⟩ := orbit hr
  obtain ⟨p2, w2, hp2⟩ := orbit hy
  set P : ℝ → ℝ → State 1 := fun e s => pack (fun _ => p e s) fun _ => w e s with hP
  set Q : ℝ → ℝ → State 1 := fun e => if e = 0 then P 0 else fun s => pack (fun _ => p2 e s) fun _ => w2 e s with hQ
  have hp0 := hp.self_of_nhds
  have hp20 := hp2.self_of_nhds
  -- the answers at zero are the same
  have end0 : r' 0 = y' 0 ∧ v' 0 = z' 0 := by
    have h1 := hr.self_of_nhds
    have h2 := hy.self_of_nhds
    rw [e1, e2, h2, Option.some.injEq, Prod.mk.injEq] at h1
    exact ⟨h1.1.symm, h1.2.symm⟩
  have solP : ∀ᶠ e in 𝓝 0, ∀ s ∈ Icc 0 t, HasDerivAt (P e) (motionField m (P e s)) s :=
    hp.mono fun e he => solves he.2.2.2.2
  have solQ : ∀ᶠ e in 𝓝 0, ∀ s ∈ Icc 0 t, HasDerivAt (Q e) (motionField m (Q e s)) s :=
    hp2.mono fun e he => by
      by_cases h : e = 0
      · simp only [hQ, h, if_true]; exact solP.self_of_nhds
      · simp only [hQ, h, if_false]; exact solves he.2.2.2.2
  have same : Q 0 = P 0 := by simp [hQ]
  have smooth : ∀ s ∈ Icc 0 t, ContDiffAt ℝ 2 (motionField m) (P 0 s) := fun s hs =>
    motionField_contDiffAt (hp0.2.2.2.2 s hs).1
  have startP : HasDerivAt (fun e => P e 0) (pack (fun _ => a) fun _ => b) 0 := by
    refine (hasDerivAt_pack (n := 1) (q := fun _ => r) (v := fun _ => v) (fun _ => da) fun _ => db).congr_of_eventuallyEq ?_
    filter_upwards [hp] with e he
    simp only [hP, he.1, he.2.1]
  have startQ : HasDerivAt (fun e => Q e 0) (pack (fun _ => c) fun _ => d) 0 := by
    refine (hasDerivAt_pack (n := 1) (q := fun _ => y) (v := fun _ => z) (fun _ => dc) fun _ => dd).congr_of_eventuallyEq ?_
    filter_upwards [hp2] with e he
    by_cases h : e = 0
    · subst h; simp only [same, hP, hp0.1, hp0.2.1, e1, e2]
    · simp only [hQ, h, if_false, he.1, he.2.1]
  obtain ⟨ξ, hξ⟩ := Order.flow_differentiable t0 solP smooth startP
  obtain ⟨η, hη⟩ := Order.flow_differentiable t0 solQ (by rw [same]; exact smooth) startQ
  have form := Order.flow_form t0 solP solQ same smooth bodyForm (fun s hs x y => by
    obtain ⟨x1, x2, rfl⟩ := pack_surjective x
    obtain ⟨y1, y2, rfl⟩ := pack_surjective y
    have ne := (hp0.2.2.2.2 s hs).1
    rw [motionField_fderiv ne, motionField_fderiv ne, bodyForm_pack, bodyForm_pack, Axes.dot_neg, Axes.dot_neg, Axes.dot_smul,
      Axes.dot_smul, tidalMap_symm _ x1 y1, Axes.dot_comm x2 y2]
    ring) startP startQ hξ hη
  obtain ⟨a', b', rfl⟩ := pack_surjective ξ
  obtain ⟨c', d', rfl⟩ := pack_surjective η
  rw [bodyForm_pack, bodyForm_pack] at form
  have parts : ∀ {g : ℝ → State 1} {g1 g2 : ℝ → Axes ℝ} {x1 x2 : Axes ℝ}, HasDerivAt g (pack (fun _ => x1) fun _ => x2) 0 →
      (∀ᶠ e in 𝓝 0, g e = pack (fun _ => g1 e) fun _ => g2 e) → VecDeriv g1 x1 0 ∧ VecDeriv g2 x2 0 := by
    intro g g1 g2 x1 x2 h k
    have h' := h.congr_of_eventuallyEq (f₁ := fun e => pack (fun _ : Fin 1 => g1 e) fun _ => g2 e) (k.mono fun e he => he.symm)
    have h1 := hasDerivAt_pi.1 h'.fst 0
    have h2 := hasDerivAt_pi.1 h'.snd 0
    have k1 := VecDeriv.of_coords (p := g1) h1
    have k2 := VecDeriv.of_coords (p := g2) h2
    rw [show (pack (fun _ => x1) (fun _ => x2) : State 1).1 0 = coords x1 from rfl, ofCoords_coords] at k1
    rw [show (pack (fun _ => x1) (fun _ => x2) : State 1).2 0 = coords x2 from rfl, ofCoords_coords] at k2
    exact ⟨k1, k2⟩
  obtain ⟨A, B⟩ := parts hξ (hp.mono fun e he => by simp only [hP, he.2.2.1, he.2.2.2.1] : ∀ᶠ e in 𝓝 0,
    P e t = pack (fun _ => r' e) fun _ => v' e)
  obtain ⟨A', B'⟩ := parts hη (hp2.mono fun e he => by
    by_cases h : e = 0
    · subst h; simp only [same, hP, hp0.2.2.1, hp0.2.2.2.1, end0]
    · simp only [hQ, h, if_false, he.2.2.1, he.2.2.2.1] : ∀ᶠ e in 𝓝 0, Q e t = pack (fun _ => y' e) fun _ => z' e)
  exact ⟨a', b', c', d', A, B, A', B', form⟩

end Posidonius.WHFast
