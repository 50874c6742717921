import Verif.Lemmas.WHFastOrder
import Verif.Props.WHFastReverse

/-! # C121: WHFast converges to the solution of Newton's equations -/

namespace Posidonius.WHFast
open Gravity Set
open Posidonius.Univ (coords ofCoords coords_ofCoords ofCoords_coords coords_add coords_sub coords_smul hasDerivAt_coords newtonField
  newtonField_contDiffAt Free dist2)
open Posidonius.Order (flowStep strang)

variable {n : ℕ} {b : Bool} {G m0 T : ℝ} {m : Fin n → ℝ} {xs vs : ℝ → Axes ℝ} {X V : Fin n → ℝ → Axes ℝ}

/-- The planets of a list in coordinates. -/
noncomputable def unpack (n : ℕ) (l : List (Alt ℝ)) : State n :=
  pack (fun i => ((l[(i : ℕ)]?).map Alt.position).getD 0) fun i => ((l[(i : ℕ)]?).map Alt.velocity).getD 0

theorem unpack_altList (q v : Fin n → Axes ℝ) : unpack n (altList G m q v) = pack q v := by
  unfold unpack altList
  congr 1 <;> funext i <;> simp

theorem pack_injective {q v q' v' : Fin n → Axes ℝ} (h : pack q v = pack q' v') : q = q' ∧ v = v' := by
  have h1 := congrArg Prod.fst h
  have h2 := congrArg Prod.snd h
  exact ⟨funext fun i => congrArg ofCoords (congrFun h1 i), funext fun i => congrArg ofCoords (congrFun h2 i)⟩

theorem norm_weighted_le {c : Fin n → ℝ} (hc : ∀ i, 0 ≤ c i) {d : Fin n → Axes ℝ} {e : ℝ} (h : ∀ i, ‖coords (d i)‖ ≤ e) :
    ‖coords (∑ i, c i • d i)‖ ≤ (∑ i, c i) * e := by
  rw [coords_sum, Finset.sum_mul]
  refine (norm_sum_le _ _).trans (Finset.sum_le_sum fun i _ => ?_)
  rw [coords_smul, norm_smul, Real.norm_of_nonneg (hc i)]
  exact mul_le_mul_of_nonneg_left (h i) (hc i)

theorem helio_order (s : StarMotion G m0 m T xs vs X V) (hT : 0 ≤ T) (h0 : 0 < m0) (hm : ∀ i, 0 < m i) {u : Sys ℝ} (hu : Fits G m0 m u)
    (x0 : u.star.position = xs 0) (v0 : u.star.velocity = vs 0) {a : Fin n → Axes ℝ}
    (hp : u.planets = bodyList G m (fun i => X i 0) (fun i => V i 0) a) :
    ∃ C δ, 0 < δ ∧ ∀ h ε, 0 < h → h < δ → 0 ≤ ε → ε ≤ δ * h → ∀ K : Solver, K.Accurate ε → ∀ (N : ℕ) (run : ℕ → Sys ℝ),
      N * h ≤ T → run 0 = u →
      (∀ k < N, StepBy K (helioOfBool b) G h (h / 2) (fun v => some (kicked (helioOfBool b) G v)) (run k) (run (k + 1))) →
      ∃ x v a, (run N).planets = bodyList G m x v a ∧ (run N).star.mass = m0
        ∧ ‖coords ((run N).star.position - xs (N * h))‖ ≤ C * (h ^ 2 + ε / h)
        ∧ ‖coords ((run N).star.velocity - vs (N * h))‖ ≤ C * (h ^ 2 + ε / h)
        ∧ ∀ i, ‖coords (x i - X i (N * h))‖ ≤ C * (h ^ 2 + ε / h) ∧ ‖coords (v i - V i (N * h))‖ ≤ C * (h ^ 2 + ε / h) := by
  set M := m0 + ∑ i, m i with hM
  have M0 : 0 < M := add_pos_of_pos_of_nonneg h0 (Finset.sum_nonneg fun i _ => (hm i).le)
  set c := M⁻¹ • (m0 • vs 0 + ∑ i, m i • V i 0) with hc
  have hc' : M • c = m0 • vs 0 + ∑ i, m i • V i 0 := by rw [hc, smul_smul, mul_inv_cancel₀ M0.ne', one_smul]
  set Y := path b m0 m c xs X V with hY
  have dY := s.helio (b := b) h0 hm hc'
  obtain ⟨B, δ, δ0, conv⟩ := Order.converges (Φ := strang (keplerField b G m0 m) (jumpField b m0 m) (kickField b G m0 m))
    (f := fun y => keplerField b G m0 m y + jumpField b m0 m y + kickField b G m0 m y) dY fun t ht =>
      Order.strang_expands (f := fun y => keplerField b G m0 m y + jumpField b m0 m y + kickField b G m0 m y)
        (keplerField_contDiffAt (y := path b m0 m c xs X V t) fun i => sub_ne_zero.2 (s.apart i t ht)) jumpField_contDiffAt
        (kickField_contDiffAt fun i j hij => by
          show 0 < ((X i t - xs t) - (X j t - xs t)).dot ((X i t - xs t) - (X j t - xs t))
          rw [sub_sub_sub_cancel_right]
          exact lt_of_le_of_ne (X i t - X j t).dot_self_nonneg fun h =>
            s.among i j hij t ht (sub_eq_zero.1 (Axes.dot_self_eq_zero h.symm))) fun y => rfl
  set S := ∑ i, share b m0 (m i) with hS
  have sh0 : ∀ i, 0 ≤ share b m0 (m i) := fun i => by
    have := hm i
    cases b <;> simp only [share, Bool.false_eq_true, if_false, if_true] <;> positivity
  have S0 : 0 ≤ S := Finset.sum_nonneg fun i _ => sh0 i
  refine ⟨(2 + S) * B, δ, δ0, fun h ε hh0 hh ε0 hε K hK N run hN r0 hrun => ?_⟩
  -- the run in heliocentric coordinates
  have inv : ∀ k ≤ N, Fits G m0 m (run k) ∧ ∃ q v, toAlternative (helioOfBool b) (run k)
      = ⟨⟨M, M⁻¹ • (m0 • xs 0 + ∑ i, m i • X i 0) + (k * h) • c, c⟩, altList G m q v⟩ := by
    intro k
    induction k with
    | zero =>
      intro _
      rw [r0]
      have k : centre u = ⟨M, M⁻¹ • (m0 • xs 0 + ∑ i, m i • X i 0) + (((0 : ℕ) : ℝ) * h) • c, c⟩ := by
        rw [centre_eq, hu.total]
        simp only [Sys.weighted, hp, bodyList, List.map_ofFn, List.sum_ofFn, hu.mass, x0, v0, Centre.mk.injEq]
        refine ⟨hM.symm, ?_, rfl⟩
        simp only [Nat.cast_zero, zero_mul, zero_smul, add_zero]
        rfl
      refine ⟨hu, fun i => X i 0 - u.star.position, fun i => stretch b m0 (m i) • (V i 0 - (centre u).velocity),
        (to_form (b := b) hu hp).trans ?_⟩
      rw [k]
    | succ k ih =>
      intro hk
      obtain ⟨f, q, v, e⟩ := ih (by omega)
      obtain ⟨q1, v1, q2, v2, q3, q4, v4, -, -, -, -, -, f', e'⟩ := step_form h0 hm f hM.symm.symm e (hrun k (by omega))
      refine ⟨f', q4, v4, e'.trans ?_⟩
      congr 2
      push_cast
      module
  have steps : ∀ k < N, strang (keplerField b G m0 m) (jumpField b m0 m) (kickField b G m0 m) h ε
      (unpack n (toAlternative (helioOfBool b) (run k)).planets) (unpack n (toAlternative (helioOfBool b) (run (k + 1))).planets) := by
    intro k hk
    obtain ⟨f, q, v, e⟩ := inv k hk.le
    obtain ⟨q1, v1, q2, v2, q3, q4, v4, e1, e2, e3, e4, e5, f', e'⟩ := step_form h0 hm f hM.symm.symm e (hrun k hk)
    rw [e, e', unpack_altList, unpack_altList]
    obtain rfl := funext e2
    obtain rfl := funext e3
    obtain rfl := funext e4
    exact ⟨_, kepler_flow hK ε0 (by positivity) e1, _, jump_flow ε0 _ _ _, _, kick_flow ε0 _ _ _, _, jump_flow ε0 _ _ _,
      kepler_flow hK ε0 (by positivity) e5⟩
  obtain ⟨fN, q, v, eN⟩ := inv N le_rfl
  have close := conv h ε hh0 hh ε0 hε N (fun k => unpack n (toAlternative (helioOfBool b) (run k)).planets) hN (by
      obtain ⟨f, q, v, e⟩ := inv 0 (Nat.zero_le _)
      rw [e, unpack_altList]
      rw [r0, to_form (b := b) hu hp] at e
      have e2 := congrArg AltSys.star e
      have e1 := congrArg (fun a : AltSys ℝ => unpack n a.planets) e
      dsimp only at e1 e2
      rw [unpack_altList, unpack_altList] at e1
      rw [← e1, e2, x0]
      rfl) steps
  rw [eN, unpack_altList, path, pack_sub] at close
  set t := (N : ℝ) * h with ht
  have t0 : t ∈ Icc 0 T := ⟨by positivity, hN⟩
  set e := B * (h ^ 2 + ε / h) with he
  obtain ⟨cq, cv⟩ := le_norm_pack close
  have e0 : 0 ≤ e := (norm_nonneg _).trans close
  -- back to the bodies
  have back := fromAlternative_toAlternative (helioOfBool b) (fN.massive h0 hm)
  rw [eN] at back
  obtain ⟨g1, g2, ⟨a', g3⟩, -⟩ := from_form (b := b) fN
    ⟨M, M⁻¹ • (m0 • xs 0 + ∑ i, m i • X i 0) + t • c, c⟩ q v
  rw [back] at g1 g2 g3
  have exactX : xs t = M⁻¹ • (m0 • xs 0 + ∑ i, m i • X i 0) + t • c - M⁻¹ • ∑ j, m j • (X j t - xs t) := by
    have k := s.centre t t0
    have k2 : M⁻¹ • (m0 • xs 0 + ∑ i, m i • X i 0) + t • c = M⁻¹ • (m0 • xs t + ∑ i, m i • X i t) := by
      rw [k, hc]
      module
    have k4 : ∑ j, m j • (X j t - xs t) = ∑ i, m i • X i t - (∑ i, m i) • xs t := by
      simp only [smul_sub, Finset.sum_sub_distrib]
      rw [← Finset.sum_smul]
    rw [k2, ← smul_sub, k4]
    have k3 : m0 • xs t + ∑ i, m i • X i t - (∑ i, m i • X i t - (∑ i, m i) • xs t) = M • xs t := by
      rw [hM]; module
    rw [k3, smul_smul, inv_mul_cancel₀ M0.ne', one_smul]
  have hpos : ∀ i, 0 < m0 + m i := fun i => add_pos h0 (hm i)
  have exactV : vs t = c - ∑ j, share b m0 (m j) • stretch b m0 (m j) • (V j t - c) := by
    have mom := s.momentum t t0
    rw [← hc'] at mom
    have sh : ∑ j, share b m0 (m j) • stretch b m0 (m j) • (V j t - c) = m0⁻¹ • ∑ j, m j • (V j t - c) := by
      rw [Finset.smul_sum]
      refine Finset.sum_congr rfl fun j _ => ?_
      rw [smul_smul, smul_smul]
      congr 1
      have := (hpos j).ne'
      have := h0.ne'
      cases b
      · simp only [share, stretch, Bool.false_eq_true, if_false]; field_simp
      · simp only [share, stretch, if_true]; field_simp
    rw [sh]
    simp only [smul_sub, Finset.sum_sub_distrib]
    rw [← Finset.sum_smul, ← smul_sub, eq_sub_iff_add_eq]
    have k : ∑ i, m i • V i t = M • c - m0 • vs t := by rw [← mom]; abel
    rw [k, hM]
    have k2 : (m0 + ∑ i, m i) • c - m0 • vs t - (∑ i, m i) • c = m0 • (c - vs t) := by module
    rw [k2, smul_smul, inv_mul_cancel₀ h0.ne', one_smul]
    abel
  have starX : ‖coords ((run N).star.position - xs t)‖ ≤ e := by
    have k : (run N).star.position - xs t = -(M⁻¹ • ∑ j, m j • (q j - (X j t - xs t))) := by
      rw [g1]
      nth_rewrite 1 [exactX]
      simp only [starPlace, smul_sub m, smul_sub (m _), Finset.sum_sub_distrib]
      module
    have k2 := norm_weighted_le (c := m) (fun i => (hm i).le) cq
    have k3 : coords (-(M⁻¹ • ∑ j, m j • (q j - (X j t - xs t)))) = (-M⁻¹) • coords (∑ j, m j • (q j - (X j t - xs t))) := by
      rw [← neg_smul, coords_smul]
    rw [k, k3, norm_smul, norm_neg, Real.norm_of_nonneg (by positivity)]
    have k4 : (∑ i, m i) ≤ M := by rw [hM]; linarith
    calc M⁻¹ * _ ≤ M⁻¹ * ((∑ i, m i) * e) := mul_le_mul_of_nonneg_left k2 (by positivity)
      _ ≤ M⁻¹ * (M * e) := mul_le_mul_of_nonneg_left (mul_le_mul_of_nonneg_right k4 e0) (by positivity)
      _ = e := by field_simp
  have starV : ‖coords ((run N).star.velocity - vs t)‖ ≤ S * e := by
    have k : (run N).star.velocity - vs t
        = (-1 : ℝ) • ∑ j, share b m0 (m j) • (v j - stretch b m0 (m j) • (V j t - c)) := by
      rw [g2]
      nth_rewrite 1 [exactV]
      simp only [starMotion, smul_sub (share b m0 _), Finset.sum_sub_distrib]
      module
    rw [k, coords_smul, norm_smul, norm_neg, norm_one, one_mul]
    exact norm_weighted_le sh0 cv
  have total : (2 + S) * B * (h ^ 2 + ε / h) = 2 * e + S * e := by rw [he]; ring
  have Se : 0 ≤ S * e := mul_nonneg S0 e0
  rw [total]
  refine ⟨_, _, _, g3, fN.mass, by linarith, by linarith, fun i => ⟨?_, ?_⟩⟩
  · have k : q i + starPlace m ⟨M, M⁻¹ • (m0 • xs 0 + ∑ i, m i • X i 0) + t • c, c⟩ q - X i t
        = (q i - (X i t - xs t)) + ((run N).star.position - xs t) := by rw [g1]; abel
    rw [k, coords_add]
    refine (norm_add_le _ _).trans ?_
    linarith [cq i]
  · have st : 1 ≤ stretch b m0 (m i) := by
      have := hm i
      cases b
      · simp [stretch]
      · simp only [stretch, if_true]
        rw [le_div_iff₀ h0]
        linarith
    have k : (stretch b m0 (m i))⁻¹ • v i + c - V i t = (stretch b m0 (m i))⁻¹ • (v i - stretch b m0 (m i) • (V i t - c)) := by
      rw [smul_sub, smul_smul, inv_mul_cancel₀ (by linarith), one_smul]
      abel
    dsimp only
    rw [k, coords_smul, norm_smul, Real.norm_of_nonneg (by positivity)]
    have := mul_le_mul_of_nonneg_right (inv_le_one_of_one_le₀ st) (norm_nonneg (coords (v i - stretch b m0 (m i) • (V i t - c))))
    linarith [cv i]

/-- **C121**: bodies move under their Newtonian attraction without collisions for the time `T`.  WHFast starts with them, in
democratic heliocentric or in WHDS coordinates, and solves its two-body problems up to `ε`.  Then after every number of steps
within `T` the error of all positions and velocities is at most a constant times `h ^ 2 + ε / h`. -/
theorem C121_second_order {c : Coordinates} (hc : c ≠ .jacobi) {G T : ℝ} (hT : 0 ≤ T) {u : Sys ℝ} (hu : Massive u)
    (hG : ∀ p ∈ u.bodies, p.massG = G * p.mass) {X V : Fin u.bodies.length → ℝ → Axes ℝ}
    (hX : ∀ i, ∀ t ∈ Icc 0 T, VecDeriv (X i) (V i t) t)
    (hV : ∀ i, ∀ t ∈ Icc 0 T, VecDeriv (V i) (∑ j, if j = i then 0 else newton G u.bodies[j].mass (X i t) (X j t)) t)
    (apart : ∀ i j, i ≠ j → ∀ t ∈ Icc 0 T, X i t ≠ X j t)
    (hx : ∀ i, u.bodies[i].position = X i 0) (hv : ∀ i, u.bodies[i].velocity = V i 0) :
    ∃ C δ, 0 < δ ∧ ∀ h ε, 0 < h → h < δ → 0 ≤ ε → ε ≤ δ * h → ∀ K : Solver, K.Accurate ε →
      ∀ (N : ℕ) (run : ℕ → Sys ℝ), N * h ≤ T → run 0 = u →
      (∀ k < N, StepBy K c G h (h / 2) (fun v => some (kicked c G v)) (run k) (run (k + 1))) →
      (run N).bodies.length = u.bodies.length ∧ ∀ i, ∀ p, (run N).bodies[i.val]? = some p →
        p.mass = u.bodies[i].mass
        ∧ √((p.position - X i (N * h)).dot (p.position - X i (N * h))) ≤ C * (h ^ 2 + ε / h)
        ∧ √((p.velocity - V i (N * h)).dot (p.velocity - V i (N * h))) ≤ C * (h ^ 2 + ε / h) := by
  obtain ⟨b, rfl⟩ : ∃ b, c = helioOfBool b := by
    cases c
    · exact absurd rfl hc
    · exact ⟨false, rfl⟩
    · exact ⟨true, rfl⟩
  obtain ⟨star, planets⟩ := u
  revert X V
  intro (X : Fin (planets.length + 1) → ℝ → Axes ℝ) (V : Fin (planets.length + 1) → ℝ → Axes ℝ) hX hV apart hx hv
  have hV' : ∀ i : Fin (planets.length + 1), ∀ t ∈ Icc 0 T, VecDeriv (V i) (∑ j : Fin (planets.length + 1),
      if j = i then 0 else newton G (star :: planets)[j].mass (X i t) (X j t)) t := hV
  have gs := hG star List.mem_cons_self
  have pl : planets = bodyList G (fun i : Fin planets.length => planets[i].mass) (fun i => planets[i].position)
      (fun i => planets[i].velocity) (fun i => planets[i].acceleration) := by
    refine List.ext_getElem (by simp [bodyList]) fun i h1 h2 => ?_
    have := hG planets[i] (List.mem_cons_of_mem _ (List.getElem_mem h1))
    simp only [bodyList, List.getElem_ofFn]
    rw [Fin.getElem_fin]
    dsimp only
    rw [← this]
  have fits : Fits G star.mass (fun i : Fin planets.length => planets[i].mass) ⟨star, planets⟩ :=
    ⟨rfl, gs, _, _, _, pl⟩
  have px : (fun i : Fin planets.length => planets[i].position) = fun i => X i.succ 0 := funext fun i => hx i.succ
  have pv : (fun i : Fin planets.length => planets[i].velocity) = fun i => V i.succ 0 := funext fun i => hv i.succ
  have motion : StarMotion G star.mass (fun i : Fin planets.length => planets[i].mass) T (X 0) (V 0) (fun i => X i.succ)
      fun i => V i.succ := by
    refine ⟨hX (0 : Fin (planets.length + 1)), fun t ht => ?_, fun i => hX (Fin.succ i), fun i t ht => ?_, fun i t ht => apart i.succ (0 : Fin (planets.length + 1)) (Fin.succ_ne_zero i) t ht,
      fun i j hij t ht => apart i.succ j.succ (fun h => hij (Fin.succ_injective planets.length h)) t ht⟩
    · have := hV' 0 t ht
      rw [Fin.sum_univ_succ] at this
      rw [if_pos rfl, zero_add] at this
      simp only [Fin.succ_ne_zero, if_false] at this
      exact this
    · have := hV' i.succ t ht
      rw [Fin.sum_univ_succ] at this
      rw [if_neg (Fin.succ_ne_zero i).symm] at this
      have k : (∑ j : Fin planets.length, if j.succ = i.succ then 0
          else newton G (star :: planets)[j.succ].mass (X i.succ t) (X j.succ t))
            = among G (fun i : Fin planets.length => planets[i].mass) (fun j => X j.succ t) i := by
        unfold WHFast.among
        refine Finset.sum_congr rfl fun j _ => ?_
        by_cases hij : j = i
        · subst hij; simp [newton]
        · rw [if_neg fun h => hij (Fin.succ_injective _ h)]
          rfl
      rw [k] at this
      exact this
  rw [px, pv] at pl
  obtain ⟨C, δ, δ0, main⟩ := helio_order (b := b) motion hT hu.1 (fun i => hu.2 _ (List.getElem_mem _)) fits
    (hx (0 : Fin (planets.length + 1))) (hv (0 : Fin (planets.length + 1))) pl
  refine ⟨2 * C, δ, δ0, fun h ε h0 hh ε0 hε K hK N run hN r0 hrun => ?_⟩
  obtain ⟨x, v, a, e, ms, b1, b2, b3⟩ := main h ε h0 hh ε0 hε K hK N run hN r0 hrun
  have two : 2 * C * (h ^ 2 + ε / h) = 2 * (C * (h ^ 2 + ε / h)) := by ring
  rw [two]
  refine ⟨by simp [Sys.bodies, e, bodyList], ?_⟩
  rintro (i : Fin (planets.length + 1)) p hp
  rw [Sys.bodies, e] at hp
  refine Fin.cases (fun hp => ?_) (fun i hp => ?_) i hp
  · rw [Fin.val_zero, List.getElem?_cons_zero, Option.some.injEq] at hp
    subst hp
    exact ⟨ms, sqrt_le_norm_coords b1, sqrt_le_norm_coords b2⟩
  · rw [Fin.val_succ, List.getElem?_cons_succ, bodyList, List.getElem?_ofFn, dif_pos i.isLt, Option.some.injEq] at hp
    subst hp
    exact ⟨rfl, sqrt_le_norm_coords (b3 i).1, sqrt_le_norm_coords (b3 i).2⟩

theorem exactSolver_accurate : exactSolver.Accurate 0 := by
  intro m t r v r' v' _ h
  obtain ⟨hm, hL, -⟩ := exactSolver_some h
  obtain ⟨p, w, e, p0, w0, d⟩ := C115_exact hm hL
  rw [e t, Option.some.injEq, Prod.mk.injEq] at h
  obtain ⟨rfl, rfl⟩ := h
  exact ⟨p, w, p0, w0, fun s _ => d s, by simp [Axes.dot], by simp [Axes.dot]⟩

theorem within_accurate (K : Solver) (ε : ℝ) : (K.within ε).Accurate ε := by
  intro m t r v r' v' _ h
  unfold Solver.within at h
  split at h
  · cases h
  · split at h
    · next k => cases h; exact k
    · cases h

theorem within_some {K : Solver} {ε m t : ℝ} {r v : Axes ℝ} {y : Axes ℝ × Axes ℝ} (h : K.within ε m t r v = some y) :
    K m t r v = some y := by
  unfold Solver.within at h
  split at h
  · cases h
  · next e =>
    split at h
    · rw [e]; exact h
    · cases h

theorem PlanetsMove.mono {K L : Solver} (hK : ∀ m t r v y, K m t r v = some y → L m t r v = some y) {c : Coordinates} {t x : ℝ}
    {l l' : List (Alt ℝ)} (h : PlanetsMove K c t x l l') : PlanetsMove L c t x l l' := by
  induction h with
  | nil => exact .nil
  | cons h1 h2 h3 _ ih => exact .cons h1 h2 (hK _ _ _ _ _ h3) ih

theorem StepBy.mono {K L : Solver} (hK : ∀ m t r v y, K m t r v = some y → L m t r v = some y) {c : Coordinates} {g dt half : ℝ}
    {gravity : Sys ℝ → Option (Sys ℝ)} {u u' : Sys ℝ} (h : StepBy K c g dt half gravity u u') : StepBy L c g dt half gravity u u' := by
  obtain ⟨a1, a5, u2, ⟨h1, h2, h3, h4⟩, k, ⟨h5, h6, h7, h8⟩, e⟩ := h
  exact ⟨a1, a5, u2, ⟨h1, h2, h3, h4.mono hK⟩, k, ⟨h5, h6, h7, h8.mono hK⟩, e⟩

/-- A step that only takes answers that are accurate enough is a step of the code. -/
theorem C121_steps {c : Coordinates} {fuel : ℕ} {ε g dt half : ℝ} {gravity : Sys ℝ → Option (Sys ℝ)} {u u' : Sys ℝ}
    (h : StepBy (Solver.within (keplerStep fuel) ε) c g dt half gravity u u') : step c fuel g dt half gravity u = some u' :=
  (C115_step c fuel g dt half gravity u u').2 (h.mono fun _ _ _ _ _ => within_some)

/-- **C121, the code**: if the Kepler solver of the code was accurate to `ε` in all its calls, the error of the run is at most a
constant times `h ^ 2 + ε / h`. -/
theorem C121_code {c : Coordinates} (hc : c ≠ .jacobi) {G T : ℝ} (hT : 0 ≤ T) {u : Sys ℝ} (hu : Massive u)
    (hG : ∀ p ∈ u.bodies, p.massG = G * p.mass) {X V : Fin u.bodies.length → ℝ → Axes ℝ}
    (hX : ∀ i, ∀ t ∈ Icc 0 T, VecDeriv (X i) (V i t) t)
    (hV : ∀ i, ∀ t ∈ Icc 0 T, VecDeriv (V i) (∑ j, if j = i then 0 else newton G u.bodies[j].mass (X i t) (X j t)) t)
    (apart : ∀ i j, i ≠ j → ∀ t ∈ Icc 0 T, X i t ≠ X j t)
    (hx : ∀ i, u.bodies[i].position = X i 0) (hv : ∀ i, u.bodies[i].velocity = V i 0) :
    ∃ C δ, 0 < δ ∧ ∀ h ε, 0 < h → h < δ → 0 ≤ ε → ε ≤ δ * h → ∀ (fuel N : ℕ) (run : ℕ → Sys ℝ), N * h ≤ T → run 0 = u →
      (∀ k < N, StepBy (Solver.within (keplerStep fuel) ε) c G h (h / 2) (fun v => some (kicked c G v)) (run k) (run (k + 1))) →
      (∀ k < N, step c fuel G h (h / 2) (fun v => some (kicked c G v)) (run k) = some (run (k + 1)))
      ∧ (run N).bodies.length = u.bodies.length ∧ ∀ i, ∀ p, (run N).bodies[i.val]? = some p →
        p.mass = u.bodies[i].mass
        ∧ √((p.position - X i (N * h)).dot (p.position - X i (N * h))) ≤ C * (h ^ 2 + ε / h)
        ∧ √((p.velocity - V i (N * h)).dot (p.velocity - V i (N * h))) ≤ C * (h ^ 2 + ε / h) := by
  obtain ⟨C, δ, δ0, main⟩ := C121_second_order hc hT hu hG hX hV apart hx hv
  exact ⟨C, δ, δ0, fun h ε h0 hh ε0 hε fuel N run hN r0 hrun =>
    ⟨fun k hk => C121_steps (hrun k hk), main h ε h0 hh ε0 hε _ (within_accurate _ _) N run hN r0 hrun⟩⟩

/-- **C121, exact Kepler motion**: with exact solutions of the two-body problem the error is of second order. -/
theorem C121_exact {c : Coordinates} (hc : c ≠ .jacobi) {G T : ℝ} (hT : 0 ≤ T) {u : Sys ℝ} (hu : Massive u)
    (hG : ∀ p ∈ u.bodies, p.massG = G * p.mass) {X V : Fin u.bodies.length → ℝ → Axes ℝ}
    (hX : ∀ i, ∀ t ∈ Icc 0 T, VecDeriv (X i) (V i t) t)
    (hV : ∀ i, ∀ t ∈ Icc 0 T, VecDeriv (V i) (∑ j, if j = i then 0 else newton G u.bodies[j].mass (X i t) (X j t)) t)
    (apart : ∀ i j, i ≠ j → ∀ t ∈ Icc 0 T, X i t ≠ X j t)
    (hx : ∀ i, u.bodies[i].position = X i 0) (hv : ∀ i, u.bodies[i].velocity = V i 0) :
    ∃ C δ, 0 < δ ∧ ∀ h, 0 < h → h < δ → ∀ (N : ℕ) (run : ℕ → Sys ℝ), N * h ≤ T → run 0 = u →
      (∀ k < N, StepBy exactSolver c G h (h / 2) (fun v => some (kicked c G v)) (run k) (run (k + 1))) →
      (run N).bodies.length = u.bodies.length ∧ ∀ i, ∀ p, (run N).bodies[i.val]? = some p →
        √((p.position - X i (N * h)).dot (p.position - X i (N * h))) ≤ C * h ^ 2
        ∧ √((p.velocity - V i (N * h)).dot (p.velocity - V i (N * h))) ≤ C * h ^ 2 := by
  obtain ⟨C, δ, δ0, main⟩ := C121_second_order hc hT hu hG hX hV apart hx hv
  refine ⟨C, δ, δ0, fun h h0 hh N run hN r0 hrun => ?_⟩
  obtain ⟨l, k⟩ := main h 0 h0 hh le_rfl (by positivity) _ exactSolver_accurate N run hN r0 hrun
  exact ⟨l, fun i p hp => by simpa only [zero_div, add_zero] using (k i p hp).2⟩

/-! ### Examples -/

/-- Two equal bodies on a circle. -/
noncomputable def twins : Sys ℝ :=
  { star := ⟨1, 1 / 2, ⟨1 / 2, 0, 0⟩, ⟨0, 1 / 2, 0⟩, ⟨0, 0, 0⟩⟩, planets := [⟨1, 1 / 2, ⟨-(1 / 2), 0, 0⟩, ⟨0, -(1 / 2), 0⟩, ⟨0, 0, 0⟩⟩] }

theorem twins_massive : Massive twins := by
  refine ⟨by simp [twins], ?_⟩
  intro p hp
  simp only [twins, List.mem_singleton] at hp
  subst hp; norm_num

/-- There are runs of any length. -/
theorem twins_run (h : ℝ) : ∃ run : ℕ → Sys ℝ, run 0 = twins ∧ ∀ k,
    StepBy exactSolver .whds (1 / 2) h (h / 2) (fun v => some (kicked .whds (1 / 2) v)) (run k) (run (k + 1)) := by
  let P : Sys ℝ → Prop := fun u => Fits (n := 1) (1 / 2) 1 (fun _ => 1) u ∧ ∃ (s : Centre ℝ) (q v : Fin 1 → Axes ℝ), s.mass = 1 + ∑ _i : Fin 1, (1 : ℝ)
    ∧ toAlternative (helioOfBool true) u = ⟨s, altList (1 / 2) (fun _ => 1) q v⟩ ∧ (q 0).cross (v 0) ≠ 0
  have next : ∀ u : {u // P u}, ∃ u' : {u // P u},
      StepBy exactSolver .whds (1 / 2) h (h / 2) (fun v => some (kicked .whds (1 / 2) v)) u.1 u'.1 := by
    rintro ⟨u, hu, s, q, v, hs, ha, hL⟩
    have one : ∀ f : Fin 1 → Axes ℝ, f = fun _ => f 0 := fun f => funext fun i => by rw [Subsingleton.elim i 0]
    obtain ⟨r1, w1, k1, L1⟩ := exactSolver_exists (m := 1 / 2 * pulling true 1 1) (by simp [pulling]) hL (h / 2)
    obtain ⟨r2, w2, k2, L2⟩ := exactSolver_exists (m := 1 / 2 * pulling true 1 1) (by simp [pulling]) L1 (h / 2)
    have j0 : ∀ (w : Axes ℝ) (i : Fin 1), jumping true 1 (fun _ => 1) (fun _ => w) i = 0 := by
      intro w i
      simp [jumping, share, own]
    have a0 : ∀ (r : Axes ℝ) (i : Fin 1), among (1 / 2) (fun _ => 1) (fun _ => r) i = 0 := by
      intro r i
      simp [among, newton]
    obtain ⟨u', st, f', e'⟩ := step_of_form (b := true) (n := 1) (K := exactSolver) (h := h) one_pos (fun _ => one_pos) hu hs ha
      (q1 := fun _ => r1) (v1 := fun _ => w1) (q2 := fun _ => r1) (v2 := fun _ => w1) (q3 := fun _ => r1)
      (q4 := fun _ => r2) (v4 := fun _ => w2) (fun i => by rw [one q, one v]; exact k1) (fun i => by rw [j0]; simp)
      (fun i => by rw [a0]; simp) (fun i => by rw [j0]; simp) (fun i => k2) fun _ _ _ _ _ => rfl
    exact ⟨⟨u', f', _, _, _, by exact hs, e', L2⟩, st⟩
  choose f hf using next
  have start : P twins := by
    have fit : Fits (n := 1) (1 / 2) 1 (fun _ => 1) twins :=
      ⟨rfl, by simp [twins], fun _ => ⟨-(1 / 2), 0, 0⟩, fun _ => ⟨0, -(1 / 2), 0⟩, fun _ => ⟨0, 0, 0⟩, by simp [twins, bodyList]⟩
    refine ⟨fit, _, _, _, ?_, to_form (b := true) fit (x := fun _ => ⟨-(1 / 2), 0, 0⟩) (w := fun _ => ⟨0, -(1 / 2), 0⟩)
      (a := fun _ => ⟨0, 0, 0⟩) (by simp [twins, bodyList]), ?_⟩
    · rw [centre_eq, fit.total]
    · rw [centre_eq]
      intro h
      have := congrArg Axes.z h
      simp [Axes.cross, stretch, twins, Sys.weighted] at this
      norm_num at this
  refine ⟨fun k => (f^[k] ⟨twins, start⟩).1, rfl, fun k => ?_⟩
  dsimp only
  rw [Function.iterate_succ_apply']
  exact hf _

/-- Which side of the centre. -/
noncomputable def side : Fin 2 → ℝ := ![1 / 2, -(1 / 2)]

noncomputable def twinsX (i : Fin 2) (t : ℝ) : Axes ℝ := ⟨side i * Real.cos t, side i * Real.sin t, 0⟩

noncomputable def twinsV (i : Fin 2) (t : ℝ) : Axes ℝ := ⟨side i * -Real.sin t, side i * Real.cos t, 0⟩

theorem twins_newton (t c : ℝ) (i j : Fin 2) (h : side j - side i = -c) (hc : c ^ 2 = 1) :
    newton (1 / 2) 1 (twinsX i t) (twinsX j t) = ⟨c / 2 * -Real.cos t, c / 2 * -Real.sin t, 0⟩ := by
  have sc := Real.sin_sq_add_cos_sq t
  have d : twinsX j t - twinsX i t = ⟨c * -Real.cos t, c * -Real.sin t, 0⟩ := by
    show (⟨side j * Real.cos t - side i * Real.cos t, side j * Real.sin t - side i * Real.sin t, 0 - 0⟩ : Axes ℝ) = _
    rw [← sub_mul, ← sub_mul, h]
    congr 1 <;> ring
  have n : (twinsX j t - twinsX i t).dot (twinsX j t - twinsX i t) = 1 := by
    rw [d]
    show c * -Real.cos t * (c * -Real.cos t) + c * -Real.sin t * (c * -Real.sin t) + 0 * 0 = 1
    linear_combination c ^ 2 * sc + hc
  rw [newton, n, d, Real.sqrt_one]
  show (⟨_, _, _⟩ : Axes ℝ) = _
  congr 1 <;> ring

theorem twins_force (i : Fin 2) (t : ℝ) :
    VecDeriv (twinsV i) (∑ j : Fin 2, if j = i then 0 else newton (1 / 2) (twins.bodies[j]'j.isLt).mass (twinsX i t) (twinsX j t)) t := by
  have k : (∑ j : Fin 2, if j = i then 0 else newton (1 / 2) (twins.bodies[j]'j.isLt).mass (twinsX i t) (twinsX j t))
      = ⟨side i * -Real.cos t, side i * -Real.sin t, 0⟩ := by
    rw [Fin.sum_univ_two]
    have h0 : side 0 = 1 / 2 := rfl
    have h1 : side 1 = -(1 / 2) := rfl
    match i with
    | 0 =>
      have := twins_newton t 1 0 1 (by rw [h0, h1]; norm_num) (by norm_num)
      rw [if_pos rfl, if_neg (by decide), zero_add]
      exact this
    | 1 =>
      have := twins_newton t (-1) 1 0 (by rw [h0, h1]; norm_num) (by norm_num)
      rw [if_pos rfl, if_neg (by decide), add_zero, h1]
      refine this.trans ?_
      congr 1 <;> ring
  rw [k]
  exact ⟨(Real.hasDerivAt_sin t).neg.const_mul _, (Real.hasDerivAt_cos t).const_mul _, hasDerivAt_const t 0⟩

theorem twins_apart (i j : Fin 2) (hij : i ≠ j) (t : ℝ) : twinsX i t ≠ twinsX j t := by
  intro h
  have sc := Real.sin_sq_add_cos_sq t
  have hx : side i * Real.cos t = side j * Real.cos t := congrArg Axes.x h
  have hy : side i * Real.sin t = side j * Real.sin t := congrArg Axes.y h
  have k : side i = side j := by linear_combination (side j - side i) * sc + Real.cos t * hx + Real.sin t * hy
  have h0 : side 0 = 1 / 2 := rfl
  have h1 : side 1 = -(1 / 2) := rfl
  match i, j with
  | 0, 0 => exact hij rfl
  | 0, 1 => rw [h0, h1] at k; norm_num at k
  | 1, 0 => rw [h0, h1] at k; norm_num at k
  | 1, 1 => exact hij rfl

theorem twins_start (i : Fin 2) : (twins.bodies[i]'i.isLt).position = twinsX i 0
    ∧ (twins.bodies[i]'i.isLt).velocity = twinsV i 0 := by
  rw [twinsX, twinsV, Real.cos_zero, Real.sin_zero]
  match i with
  | 0 =>
    constructor
    · show (⟨1 / 2, 0, 0⟩ : Axes ℝ) = ⟨1 / 2 * 1, 1 / 2 * 0, 0⟩
      congr 1 <;> ring
    · show (⟨0, 1 / 2, 0⟩ : Axes ℝ) = ⟨1 / 2 * -0, 1 / 2 * 1, 0⟩
      congr 1 <;> ring
  | 1 =>
    constructor
    · show (⟨-(1 / 2), 0, 0⟩ : Axes ℝ) = ⟨-(1 / 2) * 1, -(1 / 2) * 0, 0⟩
      congr 1 <;> ring
    · show (⟨0, -(1 / 2), 0⟩ : Axes ℝ) = ⟨-(1 / 2) * -0, -(1 / 2) * 1, 0⟩
      congr 1 <;> ring

/-- The hypotheses of `C121_exact` can be met: for two equal bodies on a circle there are runs with any step, and they stay
within a constant times the square of the step. -/
example : ∃ C δ, 0 < δ ∧ ∀ h, 0 < h → h < δ → ∃ run : ℕ → Sys ℝ, run 0 = twins
    ∧ (∀ k, StepBy exactSolver .whds (1 / 2) h (h / 2) (fun v => some (kicked .whds (1 / 2) v)) (run k) (run (k + 1)))
    ∧ ∀ N : ℕ, N * h ≤ 100 → ∃ p, (run N).bodies[0]? = some p ∧
      √((p.position - ⟨1 / 2 * Real.cos (N * h), 1 / 2 * Real.sin (N * h), 0⟩).dot
        (p.position - ⟨1 / 2 * Real.cos (N * h), 1 / 2 * Real.sin (N * h), 0⟩)) ≤ C * h ^ 2 := by
  obtain ⟨C, δ, δ0, main⟩ := C121_exact (c := .whds) (by simp) (G := 1 / 2) (T := 100) (by norm_num) twins_massive
    (by
      intro p hp
      simp only [twins, Sys.bodies, List.mem_cons, List.not_mem_nil, or_false] at hp
      rcases hp with rfl | rfl <;> norm_num) (X := twinsX) (V := twinsV)
    (fun i t _ => ⟨(Real.hasDerivAt_cos t).const_mul _, (Real.hasDerivAt_sin t).const_mul _, hasDerivAt_const t 0⟩)
    (fun i t _ => twins_force i t) (fun i j hij t _ => twins_apart i j hij t) (fun i => (twins_start i).1)
    (fun i => (twins_start i).2)
  refine ⟨C, δ, δ0, fun h h0 hh => ?_⟩
  obtain ⟨run, r0, hr⟩ := twins_run h
  refine ⟨run, r0, hr, fun N hN => ?_⟩
  obtain ⟨len, near⟩ := main h h0 hh N run hN r0 fun k _ => hr k
  exact ⟨(run N).star, rfl, (near (0 : Fin 2) _ rfl).1⟩

end Posidonius.WHFast
