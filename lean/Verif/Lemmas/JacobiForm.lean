import Verif.Lemmas.WHFastVariation

/-! Jacobi coordinates with the planets numbered, and families of them. -/

namespace Posidonius.WHFast
open Posidonius Gravity Filter Topology
open Posidonius.Univ (tidalMap tidalMap_symm tidalMap_neg newton_deriv dot_sum' VecDeriv.add' VecDeriv.sub' VecDeriv.const_smul'
  VecDeriv.sum' VecDeriv.zero' VecDeriv.congr' VecDeriv.smul' VecDeriv.dot_self')

variable {G m0 : ℝ}

/-- Jacobi coordinates of vectors, `eta` and `s` being mass and weighted sum of the bodies before. -/
noncomputable def jac : {n : ℕ} → (Fin n → ℝ) → ℝ → Axes ℝ → (Fin n → Axes ℝ) → Fin n → Axes ℝ
  | 0, _, _, _, x => x
  | _ + 1, m, eta, s, x =>
    Fin.cons (x 0 - eta⁻¹ • s) (jac (fun i => m i.succ) (eta + m 0) (s + m 0 • x 0) fun i => x i.succ)

/-- Masses that go with Jacobi coordinates. -/
noncomputable def jacMass : {n : ℕ} → (Fin n → ℝ) → ℝ → Fin n → ℝ
  | 0, m, _ => m
  | _ + 1, m, eta => Fin.cons (m 0 * eta / (eta + m 0)) (jacMass (fun i => m i.succ) (eta + m 0))

/-- Mass of a planet and all bodies before. -/
noncomputable def jacTotal : {n : ℕ} → (Fin n → ℝ) → ℝ → Fin n → ℝ
  | 0, m, _ => m
  | _ + 1, m, eta => Fin.cons (eta + m 0) (jacTotal (fun i => m i.succ) (eta + m 0))

theorem jacobiLoop_form {n : ℕ} {m : Fin n → ℝ} (hm : ∀ i, 0 < m i) {eta : ℝ} (he : 0 < eta) (s sv : Axes ℝ) (x v a : Fin n → Axes ℝ) :
    jacobiLoop eta s sv (bodyList G m x v a)
      = (altList G m (jac m eta s x) (jac m eta sv v), eta + ∑ i, m i, s + ∑ i, m i • x i, sv + ∑ i, m i • v i) := by
  induction n generalizing eta s sv with
  | zero => simp [bodyList, altList, jacobiLoop]
  | succ n ih =>
    rw [bodyList, List.ofFn_succ, jacobiLoop_cons he.ne']
    have := ih (m := fun i => m i.succ) (fun i => hm i.succ) (eta := eta + m 0) (by have := hm 0; positivity)
      (s + m 0 • x 0) (sv + m 0 • v 0) (fun i => x i.succ) (fun i => v i.succ) (fun i => a i.succ)
    rw [bodyList] at this
    rw [this, Fin.sum_univ_succ, Fin.sum_univ_succ, Fin.sum_univ_succ]
    conv_rhs => rw [altList, List.ofFn_succ]
    simp only [add_assoc]
    rfl

theorem jacobiAcceleration_form {n : ℕ} {m : Fin n → ℝ} (hm : ∀ i, 0 < m i) {eta : ℝ} (he : 0 < eta) (s : Axes ℝ)
    (x v a : Fin n → Axes ℝ) : jacobiAccelerationLoop eta s (bodyList G m x v a) = List.ofFn (jac m eta s a) := by
  rw [(jacobiAccelerationLoop_eq (bodyList G m x v a) eta 0 0 s).1]
  have : (bodyList G m x v a).map (fun p => p.moved p.position p.acceleration) = bodyList G m x a a := by
    rw [bodyList, List.map_ofFn, bodyList]; rfl
  rw [this, jacobiLoop_form hm he, altList, List.map_ofFn]
  rfl

theorem Rates.jac {n : ℕ} {m : Fin n → ℝ} {eta : ℝ} {s : ℝ → Axes ℝ} {ds : Axes ℝ} {x : ℝ → Fin n → Axes ℝ} {dx : Fin n → Axes ℝ}
    (hs : VecDeriv s ds 0) (hx : Rates x dx) : Rates (fun e => jac m eta (s e) (x e)) (jac m eta ds dx) := by
  induction n generalizing eta s ds with
  | zero => exact hx
  | succ n ih =>
    intro i
    refine Fin.cases ?_ (fun i => ?_) i
    · exact VecDeriv.sub' (hx 0) (VecDeriv.const_smul' _ hs)
    · exact ih (VecDeriv.add' hs (VecDeriv.const_smul' _ (hx 0))) (fun i => hx i.succ) i

/-- The form in Jacobi coordinates. -/
theorem jac_dot {n : ℕ} {m : Fin n → ℝ} (hm : ∀ i, 0 < m i) {eta : ℝ} (he : 0 < eta) (s t : Axes ℝ) (x z : Fin n → Axes ℝ) :
    eta⁻¹ * s.dot t + ∑ i, m i * (x i).dot (z i)
      = (eta + ∑ i, m i)⁻¹ * (s + ∑ i, m i • x i).dot (t + ∑ i, m i • z i)
        + ∑ i, jacMass m eta i * (jac m eta s x i).dot (jac m eta t z i) := by
  induction n generalizing eta s t with
  | zero => simp
  | succ n ih =>
    have h0 := hm 0
    have := ih (m := fun i => m i.succ) (fun i => hm i.succ) (eta := eta + m 0) (by positivity) (s + m 0 • x 0) (t + m 0 • z 0)
      (fun i => x i.succ) (fun i => z i.succ)
    simp only [Fin.sum_univ_succ, ← add_assoc]
    have e : ∀ A B C D E F H : ℝ, A + B = C + D → F = A + H → E = H → F + B = C + E + D := by intros; linarith
    refine e _ _ _ _ _ _ _ this ?_ rfl
    show _ = _ + m 0 * eta / (eta + m 0) * (x 0 - eta⁻¹ • s).dot (z 0 - eta⁻¹ • t)
    simp only [Axes.dot_sub, Axes.sub_dot, Axes.dot_smul, Axes.smul_dot, Axes.dot_add, Axes.add_dot]
    have h1 : eta + m 0 ≠ 0 := by positivity
    field_simp
    ring

/-- Coordinates with rates come from vectors with rates. -/
theorem jac_rates {n : ℕ} {m : Fin n → ℝ} (hm : ∀ i, 0 < m i) {eta : ℝ} (he : 0 < eta) {s : ℝ → Axes ℝ} {x : ℝ → Fin n → Axes ℝ}
    {q : Fin n → Axes ℝ} {d : Axes ℝ} (hq : Rates (fun e => jac m eta (s e) (x e)) q)
    (hd : VecDeriv (fun e => s e + ∑ i, m i • x e i) d 0) : ∃ ds dx, VecDeriv s ds 0 ∧ Rates x dx := by
  induction n generalizing eta s with
  | zero => exact ⟨d, fun i => i.elim0, by simpa using hd, fun i => i.elim0⟩
  | succ n ih =>
    have h0 := hm 0
    have h1 : eta + m 0 ≠ 0 := by positivity
    obtain ⟨ds, dx, k1, k2⟩ := ih (m := fun i => m i.succ) (fun i => hm i.succ) (eta := eta + m 0) (by positivity)
      (s := fun e => s e + m 0 • x e 0) (x := fun e i => x e i.succ) (q := fun i => q i.succ) (fun i => hq i.succ)
      (by simpa only [Fin.sum_univ_succ, ← add_assoc] using hd)
    have k3 : VecDeriv (fun e => x e 0 - eta⁻¹ • s e) (q 0) 0 := hq 0
    have k4 := VecDeriv.const_smul' (eta / (eta + m 0)) (VecDeriv.sub' k1 (VecDeriv.const_smul' (m 0) k3))
    have e4 : ∀ e, s e = (eta / (eta + m 0)) • (s e + m 0 • x e 0 - m 0 • (x e 0 - eta⁻¹ • s e)) := by
      intro e
      have : (eta / (eta + m 0)) • (s e + m 0 • x e 0 - m 0 • (x e 0 - eta⁻¹ • s e))
          = (eta / (eta + m 0) * (1 + m 0 * eta⁻¹)) • s e := by module
      rw [this, show eta / (eta + m 0) * (1 + m 0 * eta⁻¹) = 1 by field_simp, one_smul]
    have k5 := VecDeriv.congr' k4 (Eventually.of_forall e4)
    have k6 := VecDeriv.congr' (VecDeriv.add' k3 (VecDeriv.const_smul' eta⁻¹ k5)) (q := fun e => x e 0)
      (Eventually.of_forall fun e => by abel)
    exact ⟨_, Fin.cons _ dx, k5, fun i => Fin.cases k6 (fun i => k2 i) i⟩

theorem jac_injective {n : ℕ} {m : Fin n → ℝ} (hm : ∀ i, 0 < m i) {eta : ℝ} (he : 0 < eta) {s t : Axes ℝ} {x y : Fin n → Axes ℝ}
    (hq : jac m eta s x = jac m eta t y) (hd : s + ∑ i, m i • x i = t + ∑ i, m i • y i) : s = t ∧ x = y := by
  induction n generalizing eta s t with
  | zero => exact ⟨by simpa using hd, funext fun i => i.elim0⟩
  | succ n ih =>
    have h0 := hm 0
    have h1 : eta + m 0 ≠ 0 := by positivity
    have h2 := Fin.cons_injective2 hq
    obtain ⟨k1, k2⟩ := ih (m := fun i => m i.succ) (fun i => hm i.succ) (eta := eta + m 0) (by positivity) h2.2
      (by simpa only [Fin.sum_univ_succ, ← add_assoc] using hd)
    have e4 : ∀ (s x : Axes ℝ), s = (eta / (eta + m 0)) • (s + m 0 • x - m 0 • (x - eta⁻¹ • s)) := by
      intro s x
      have : (eta / (eta + m 0)) • (s + m 0 • x - m 0 • (x - eta⁻¹ • s))
          = (eta / (eta + m 0) * (1 + m 0 * eta⁻¹)) • s := by module
      rw [this, show eta / (eta + m 0) * (1 + m 0 * eta⁻¹) = 1 by field_simp, one_smul]
    have es : s = t := by rw [e4 s (x 0), e4 t (y 0), k1, h2.1]
    refine ⟨es, funext fun i => Fin.cases ?_ (fun i => congrFun k2 i) i⟩
    have := h2.1
    rw [es] at this
    exact sub_left_injective this

/-! ### Kepler motion -/

theorem jacobiMove_form {n : ℕ} {m : Fin n → ℝ} {K : Solver} {t eta : ℝ} {q v : Fin n → Axes ℝ} {l : List (Alt ℝ)}
    (h : PlanetsMove K .jacobi t (G * eta) (altList G m q v) l) :
    ∃ q' v', l = altList G m q' v' ∧ ∀ i, K (G * jacTotal m eta i) t (q i) (v i) = some (q' i, v' i) := by
  induction n generalizing l eta with
  | zero =>
    rw [altList, List.ofFn_zero] at h
    cases h
    exact ⟨q, v, by simp [altList], fun i => i.elim0⟩
  | succ n ih =>
    rw [altList, List.ofFn_succ] at h
    cases h with
    | @cons _ _ a _ l' h1 h2 h3 h4 =>
      have c1 : carried .jacobi (G * eta) ⟨m 0, G * m 0, q 0, v 0⟩ = G * (eta + m 0) := by
        show G * eta + G * m 0 = _; ring
      have c2 : attracting .jacobi (G * eta) ⟨m 0, G * m 0, q 0, v 0⟩ = G * (eta + m 0) := by
        show G * eta + G * m 0 = _; ring
      rw [c1] at h4
      rw [c2] at h3
      obtain ⟨q', v', e, k⟩ := ih (m := fun i => m i.succ) (q := fun i => q i.succ) (v := fun i => v i.succ) h4
      refine ⟨Fin.cons a.position q', Fin.cons a.velocity v', ?_, ?_⟩
      · rw [altList, List.ofFn_succ, e, altList]
        obtain ⟨am, ag, ap, av⟩ := a
        dsimp only at h1 h2
        subst h1 h2
        rfl
      · intro i
        exact Fin.cases h3 (fun i => k i) i

/-! ### The kick -/

/-- The softened attraction that is taken out of the kick. -/
noncomputable def soft (c : ℝ) (q : Axes ℝ) : Axes ℝ :=
  (√(1 / (q.dot q + 1e-12)) * (1 / (q.dot q + 1e-12)) * c) • q

/-- Its derivative. -/
noncomputable def softMap (c : ℝ) (q d : Axes ℝ) : Axes ℝ :=
  (deriv (fun y => √(1 / (y + 1e-12)) * (1 / (y + 1e-12)) * c) (q.dot q) * (2 * q.dot d)) • q
    + (√(1 / (q.dot q + 1e-12)) * (1 / (q.dot q + 1e-12)) * c) • d

theorem softMap_symm (c : ℝ) (q d e : Axes ℝ) : d.dot (softMap c q e) = e.dot (softMap c q d) := by
  simp only [softMap, Axes.dot_add, Axes.dot_smul, Axes.dot_comm d q, Axes.dot_comm e q, Axes.dot_comm d e]
  ring

theorem soft_deriv (c : ℝ) {q : ℝ → Axes ℝ} {d : Axes ℝ} (hq : VecDeriv q d 0) :
    VecDeriv (fun e => soft c (q e)) (softMap c (q 0) d) 0 := by
  have pos : 0 ≤ (q 0).dot (q 0) := Axes.dot_self_nonneg _
  have dif : DifferentiableAt ℝ (fun y : ℝ => √(1 / (y + 1e-12)) * (1 / (y + 1e-12)) * c) ((q 0).dot (q 0)) := by
    have ne : (q 0).dot (q 0) + 1e-12 ≠ 0 := by positivity
    have d1 : DifferentiableAt ℝ (fun y : ℝ => 1 / (y + 1e-12)) ((q 0).dot (q 0)) :=
      (differentiableAt_const _).div (differentiableAt_id.add_const _) ne
    exact ((d1.sqrt (by positivity)).mul d1).mul_const _
  have h := dif.hasDerivAt.comp (0 : ℝ) (VecDeriv.dot_self' hq)
  exact VecDeriv.smul' h hq

/-- The softened attractions of all planets but the first. -/
noncomputable def softs (g : ℝ) : {n : ℕ} → Bool → (Fin n → ℝ) → ℝ → (Fin n → Axes ℝ) → Fin n → Axes ℝ
  | 0, _, _, _, q => q
  | _ + 1, first, m, eta, q =>
    Fin.cons (if first then 0 else soft (g * (eta + m 0)) (q 0)) (softs g false (fun i => m i.succ) (eta + m 0) fun i => q i.succ)

noncomputable def softMaps (g : ℝ) : {n : ℕ} → Bool → (Fin n → ℝ) → ℝ → (Fin n → Axes ℝ) → (Fin n → Axes ℝ) → Fin n → Axes ℝ
  | 0, _, _, _, q, _ => q
  | _ + 1, first, m, eta, q, d =>
    Fin.cons (if first then 0 else softMap (g * (eta + m 0)) (q 0) (d 0))
      (softMaps g false (fun i => m i.succ) (eta + m 0) (fun i => q i.succ) fun i => d i.succ)

theorem softMaps_symm (g : ℝ) {n : ℕ} (first : Bool) (m : Fin n → ℝ) (eta : ℝ) (q d e : Fin n → Axes ℝ) (i : Fin n) :
    (d i).dot (softMaps g first m eta q e i) = (e i).dot (softMaps g first m eta q d i) := by
  induction n generalizing first eta with
  | zero => exact i.elim0
  | succ n ih =>
    refine Fin.cases ?_ (fun i => ?_) i
    · simp only [softMaps, Fin.cons_zero]
      cases first
      · exact softMap_symm _ _ _ _
      · simp only [if_true, Axes.dot_zero]
    · exact ih _ _ _ _ (fun i => d i.succ) (fun i => e i.succ) i

theorem Rates.softs {g : ℝ} {n : ℕ} {first : Bool} {m : Fin n → ℝ} {eta : ℝ} {q : ℝ → Fin n → Axes ℝ} {d : Fin n → Axes ℝ}
    (h : Rates q d) : Rates (fun e => softs g first m eta (q e)) (softMaps g first m eta (q 0) d) := by
  induction n generalizing first eta with
  | zero => exact fun i => i.elim0
  | succ n ih =>
    intro i
    refine Fin.cases ?_ (fun i => ?_) i
    · simp only [WHFast.softs, softMaps, Fin.cons_zero]
      cases first
      · exact soft_deriv _ (h 0)
      · exact VecDeriv.zero' 0
    · exact ih (fun i => h i.succ) i

theorem jacobiKick_form {n : ℕ} {m : Fin n → ℝ} {g dt : ℝ} {first : Bool} {eta : ℝ} (q v a : Fin n → Axes ℝ) :
    jacobiKick g dt first eta ((altList G m q v).zip (List.ofFn a))
      = altList G m q fun i => v i + dt • (a i + softs g first m eta q i) := by
  induction n generalizing first eta with
  | zero => simp [altList, jacobiKick]
  | succ n ih =>
    have := ih (m := fun i => m i.succ) (first := false) (eta := eta + m 0) (fun i => q i.succ) (fun i => v i.succ) fun i => a i.succ
    rw [altList] at this
    rw [altList, List.ofFn_succ, List.ofFn_succ, List.zip_cons_cons, jacobiKick, this, altList, altList, List.ofFn_succ]
    simp only [softs, Fin.cons_zero, Fin.cons_succ]
    congr 1
    simp only [Alt.mk.injEq, true_and]
    cases first
    · simp only [soft, Bool.false_eq_true, if_false, smul_add, smul_smul, ← add_assoc]
      congr 2
      have : (q 0).norm2 = (q 0).dot (q 0) := rfl
      rw [this]
      have l1 : (lit 1 : ℝ) = 1 := by simp
      have l2 : (lit 1e-12 : ℝ) = 1e-12 := by simp
      rw [l1, l2]
      simp only [mul_assoc]
      rfl
    · simp

end Posidonius.WHFast
