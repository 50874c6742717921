import Verif.Props.Convergence
import Verif.Spec.WHFastAccurate
import Verif.Lemmas.WHFastForm
import Verif.Lemmas.Strang
import Verif.Props.WHFastSplit

/-! The parts of a step of WHFast as exact motions of parts of Newton's equations in heliocentric coordinates. -/

namespace Posidonius.WHFast
open Gravity Set
open Posidonius.Univ (coords ofCoords coords_ofCoords ofCoords_coords coords_add coords_sub coords_smul hasDerivAt_coords newtonField
  newtonField_contDiffAt Free dist2)
open Posidonius.Order (flowStep strang)

variable {n : ℕ} {b : Bool} {G m0 : ℝ} {m : Fin n → ℝ}

/-- Positions and velocities of the planets in coordinates. -/
abbrev State (n : ℕ) := (Fin n → Fin 3 → ℝ) × (Fin n → Fin 3 → ℝ)

noncomputable def pack (q v : Fin n → Axes ℝ) : State n := (fun i => coords (q i), fun i => coords (v i))

/-- Rate of the Kepler motion. -/
noncomputable def keplerField (b : Bool) (G m0 : ℝ) (m : Fin n → ℝ) (y : State n) : State n :=
  (y.2, fun i => coords (central G (pulling b m0 (m i)) (ofCoords (y.1 i))))

/-- Rate of the jump. -/
noncomputable def jumpField (b : Bool) (m0 : ℝ) (m : Fin n → ℝ) (y : State n) : State n :=
  (fun i => ∑ j, share b m0 (m j) • y.2 j - own b m0 (m i) • y.2 i, 0)

/-- Rate of the kick. -/
noncomputable def kickField (b : Bool) (G m0 : ℝ) (m : Fin n → ℝ) (y : State n) : State n :=
  (0, fun i => stretch b m0 (m i) • newtonField G m y.1 i)

theorem coords_sum (f : Fin n → Axes ℝ) : coords (∑ j, f j) = ∑ j, coords (f j) := by
  let φ : Axes ℝ →+ (Fin 3 → ℝ) := AddMonoidHom.mk' coords coords_add
  exact map_sum φ f Finset.univ

theorem coords_zero : coords (0 : Axes ℝ) = 0 := by
  have := coords_smul 0 0
  rwa [zero_smul, zero_smul] at this

theorem jumpField_pack (q v : Fin n → Axes ℝ) :
    jumpField b m0 m (pack q v) = pack (jumping b m0 m v) fun _ => 0 := by
  simp only [jumpField, pack, jumping, coords_sub, coords_sum, coords_smul, coords_zero]
  rfl

theorem kickField_pack (q v : Fin n → Axes ℝ) :
    kickField b G m0 m (pack q v) = pack (fun _ => 0) fun i => stretch b m0 (m i) • among G m q i := by
  simp only [kickField, pack, coords_smul, coords_zero]
  refine Prod.ext rfl ?_
  funext i
  dsimp only
  congr 1
  unfold newtonField among
  congr 1
  refine Finset.sum_congr rfl fun j _ => ?_
  rw [ofCoords_coords, ofCoords_coords]
  split
  · next e => rw [e, newton_self]
  · rfl

theorem keplerField_pack (q v : Fin n → Axes ℝ) :
    keplerField b G m0 m (pack q v) = pack v fun i => central G (pulling b m0 (m i)) (q i) := by
  simp only [keplerField, pack, ofCoords_coords]

theorem pack_add (q v q' v' : Fin n → Axes ℝ) :
    pack q v + pack q' v' = pack (fun i => q i + q' i) fun i => v i + v' i := by
  simp only [pack, coords_add]; rfl

theorem pack_sub (q v q' v' : Fin n → Axes ℝ) :
    pack q v - pack q' v' = pack (fun i => q i - q' i) fun i => v i - v' i := by
  simp only [pack, coords_sub]; rfl

theorem hasDerivAt_pack {q v : Fin n → ℝ → Axes ℝ} {dq dv : Fin n → Axes ℝ} {t : ℝ} (hq : ∀ i, VecDeriv (q i) (dq i) t)
    (hv : ∀ i, VecDeriv (v i) (dv i) t) :
    HasDerivAt (fun s => pack (fun i => q i s) fun i => v i s) (pack dq dv) t :=
  HasDerivAt.prodMk (hasDerivAt_pi.2 fun i => hasDerivAt_coords (hq i)) (hasDerivAt_pi.2 fun i => hasDerivAt_coords (hv i))

theorem vecDeriv_line (x d : Axes ℝ) (t : ℝ) : VecDeriv (fun s => x + s • d) d t := by
  have key : ∀ a c : ℝ, HasDerivAt (fun s => a + s * c) c t := fun a c => by
    simpa using ((hasDerivAt_id' t).mul_const c).const_add a
  exact ⟨key _ _, key _ _, key _ _⟩

theorem vecDeriv_const (x : Axes ℝ) (t : ℝ) : VecDeriv (fun _ => x) 0 t := by
  refine ⟨?_, ?_, ?_⟩
  · rw [Axes.zero_x]; exact hasDerivAt_const t x.x
  · rw [Axes.zero_y]; exact hasDerivAt_const t x.y
  · rw [Axes.zero_z]; exact hasDerivAt_const t x.z

/-! ### The parts of a step -/

theorem norm_coords_le_sqrt (d : Axes ℝ) : ‖coords d‖ ≤ √(d.dot d) := by
  have key : ∀ a : Fin 3, coords d a ^ 2 ≤ d.dot d := by
    intro a
    have e : d.dot d = d.x ^ 2 + d.y ^ 2 + d.z ^ 2 := by simp [Axes.dot]; ring
    rw [e]
    fin_cases a
    · show d.x ^ 2 ≤ _; nlinarith [sq_nonneg d.y, sq_nonneg d.z]
    · show d.y ^ 2 ≤ _; nlinarith [sq_nonneg d.x, sq_nonneg d.z]
    · show d.z ^ 2 ≤ _; nlinarith [sq_nonneg d.y, sq_nonneg d.x]
  rw [pi_norm_le_iff_of_nonneg (Real.sqrt_nonneg _)]
  intro a
  exact Real.abs_le_sqrt (key a)

theorem sqrt_le_norm_coords {d : Axes ℝ} {e : ℝ} (h : ‖coords d‖ ≤ e) : √(d.dot d) ≤ 2 * e := by
  have := Univ.norm_coords_le (n := 1) (x := fun _ => d) (y := fun _ => 0) (e := e) (by
    have e1 : ((fun _ => coords d) - (fun _ => coords (0 : Axes ℝ)) : Fin 1 → Fin 3 → ℝ) = fun _ => coords d := by
      funext i; simp [coords_zero]
    rw [e1, pi_norm_le_iff_of_nonneg ((norm_nonneg _).trans h)]
    exact fun _ => h) 0
  simpa using this

theorem norm_pack_le {q v : Fin n → Axes ℝ} {e : ℝ} (e0 : 0 ≤ e) (hq : ∀ i, ‖coords (q i)‖ ≤ e)
    (hv : ∀ i, ‖coords (v i)‖ ≤ e) : ‖pack q v‖ ≤ e := by
  rw [Prod.norm_def]
  exact max_le ((pi_norm_le_iff_of_nonneg e0).2 hq) ((pi_norm_le_iff_of_nonneg e0).2 hv)

theorem le_norm_pack {q v : Fin n → Axes ℝ} {e : ℝ} (h : ‖pack q v‖ ≤ e) :
    (∀ i, ‖coords (q i)‖ ≤ e) ∧ ∀ i, ‖coords (v i)‖ ≤ e := by
  rw [Prod.norm_def] at h
  have e0 : 0 ≤ e := (le_max_of_le_left (norm_nonneg _)).trans h
  exact ⟨(pi_norm_le_iff_of_nonneg e0).1 ((le_max_left _ _).trans h),
    (pi_norm_le_iff_of_nonneg e0).1 ((le_max_right _ _).trans h)⟩

theorem kepler_flow {K : Solver} {ε t : ℝ} (hK : K.Accurate ε) (ε0 : 0 ≤ ε) (ht : 0 < t) {q v q' v' : Fin n → Axes ℝ}
    (h : ∀ i, K (G * pulling b m0 (m i)) t (q i) (v i) = some (q' i, v' i)) :
    flowStep (keplerField b G m0 m) t ε (pack q v) (pack q' v') := by
  choose p w h1 h2 h3 h4 h5 using fun i => hK _ _ _ _ _ _ ht (h i)
  refine ⟨fun s => pack (fun i => p i s) fun i => w i s, ?_, fun s hs => ?_, ?_⟩
  · dsimp only
    rw [funext h1, funext h2]
  · rw [keplerField_pack]
    refine hasDerivAt_pack (fun i => (h3 i s hs).1) fun i => ?_
    have e : central G (pulling b m0 (m i)) (p i s)
        = (-(G * pulling b m0 (m i)) / √((p i s).dot (p i s)) ^ 3) • p i s := by
      rw [central_eq, neg_div, neg_smul]
    rw [e]
    exact (h3 i s hs).2
  · rw [pack_sub]
    exact norm_pack_le ε0 (fun i => (norm_coords_le_sqrt _).trans (h4 i)) fun i => (norm_coords_le_sqrt _).trans (h5 i)

theorem jump_flow {ε : ℝ} (ε0 : 0 ≤ ε) (t : ℝ) (q v : Fin n → Axes ℝ) :
    flowStep (jumpField b m0 m) t ε (pack q v) (pack (fun i => q i + t • jumping b m0 m v i) v) := by
  refine ⟨fun s => pack (fun i => q i + s • jumping b m0 m v i) v, by simp, fun s _ => ?_, by simpa using ε0⟩
  rw [jumpField_pack]
  exact hasDerivAt_pack (q := fun i s => q i + s • jumping b m0 m v i) (v := fun i _ => v i)
    (fun i => vecDeriv_line _ _ s) fun i => vecDeriv_const _ s

theorem kick_flow {ε : ℝ} (ε0 : 0 ≤ ε) (t : ℝ) (q v : Fin n → Axes ℝ) :
    flowStep (kickField b G m0 m) t ε (pack q v) (pack q fun i => v i + t • stretch b m0 (m i) • among G m q i) := by
  refine ⟨fun s => pack q fun i => v i + s • stretch b m0 (m i) • among G m q i, by simp, fun s _ => ?_, by simpa using ε0⟩
  rw [kickField_pack]
  exact hasDerivAt_pack (q := fun i _ => q i) (v := fun i s => v i + s • stretch b m0 (m i) • among G m q i)
    (fun i => vecDeriv_const _ s) fun i => vecDeriv_line _ _ s

/-! ### Smoothness -/

theorem keplerField_contDiffAt {y : State n} (hy : ∀ i, ofCoords (y.1 i) ≠ 0) :
    ContDiffAt ℝ 2 (keplerField b G m0 m) y := by
  unfold keplerField
  refine contDiffAt_snd.prodMk ?_
  rw [contDiffAt_pi]
  intro i
  rw [contDiffAt_pi]
  intro a
  have co : ∀ a : Fin 3, ContDiffAt ℝ 2 (fun y : State n => y.1 i a) y := fun a =>
    (contDiff_apply_apply ℝ ℝ i a).contDiffAt.comp y contDiffAt_fst
  have e : (fun y : State n => coords (central G (pulling b m0 (m i)) (ofCoords (y.1 i))) a)
      = fun y => -(G * pulling b m0 (m i) / √(y.1 i 0 * y.1 i 0 + y.1 i 1 * y.1 i 1 + y.1 i 2 * y.1 i 2) ^ 3 * y.1 i a) := by
    funext y
    rw [central_eq]
    fin_cases a <;> rfl
  rw [e]
  have pos : 0 < y.1 i 0 * y.1 i 0 + y.1 i 1 * y.1 i 1 + y.1 i 2 * y.1 i 2 :=
    lt_of_le_of_ne (ofCoords (y.1 i)).dot_self_nonneg fun h => hy i (Axes.dot_self_eq_zero h.symm)
  have d := (((co 0).mul (co 0)).add ((co 1).mul (co 1))).add ((co 2).mul (co 2))
  exact ((contDiffAt_const.div ((d.sqrt pos.ne').pow 3) (pow_ne_zero 3 (Real.sqrt_pos.2 pos).ne')).mul (co a)).neg

theorem jumpField_contDiffAt {y : State n} : ContDiffAt ℝ 2 (jumpField b m0 m) y := by
  unfold jumpField
  refine ContDiffAt.prodMk ?_ contDiffAt_const
  rw [contDiffAt_pi]
  intro i
  have co : ∀ i : Fin n, ContDiffAt ℝ 2 (fun y : State n => y.2 i) y := fun i =>
    (contDiff_apply ℝ (Fin 3 → ℝ) i).contDiffAt.comp y contDiffAt_snd
  exact (ContDiffAt.sum fun j _ => (co j).const_smul _).sub ((co i).const_smul _)

theorem kickField_contDiffAt {y : State n} (hy : Free y.1) : ContDiffAt ℝ 2 (kickField b G m0 m) y := by
  unfold kickField
  refine ContDiffAt.prodMk contDiffAt_const ?_
  rw [contDiffAt_pi]
  intro i
  have c := ((newtonField_contDiffAt G m hy).of_le (by norm_num : (2 : WithTop ℕ∞) ≤ 3)).comp y contDiffAt_fst
  rw [contDiffAt_pi] at c
  exact (c i).const_smul _

/-! ### Newton's equations in heliocentric coordinates -/

theorem VecDeriv.sum_smul {x : Fin n → ℝ → Axes ℝ} {d : Fin n → Axes ℝ} {t : ℝ} (h : ∀ i, VecDeriv (x i) (d i) t) :
    VecDeriv (fun s => ∑ i, m i • x i s) (∑ i, m i • d i) t := by
  refine ⟨?_, ?_, ?_⟩
  · simp only [Axes.sum_x, Axes.smul_x]
    exact HasDerivAt.fun_sum fun i _ => (h i).1.const_mul (m i)
  · simp only [Axes.sum_y, Axes.smul_y]
    exact HasDerivAt.fun_sum fun i _ => (h i).2.1.const_mul (m i)
  · simp only [Axes.sum_z, Axes.smul_z]
    exact HasDerivAt.fun_sum fun i _ => (h i).2.2.const_mul (m i)

theorem VecDeriv.constant {x : ℝ → Axes ℝ} {T : ℝ} (h : ∀ t ∈ Icc 0 T, VecDeriv x 0 t) : ∀ t ∈ Icc 0 T, x t = x 0 := by
  intro t ht
  have := Order.taylor0 (f := fun s => coords (x s)) (g := fun _ => 0) (M := 0) ht.1
    (fun s hs => by
      have := hasDerivAt_coords (h s ⟨hs.1, hs.2.trans ht.2⟩)
      rwa [coords_zero] at this) (fun _ _ => by simp)
  rw [zero_mul] at this
  have e := sub_eq_zero.1 (norm_le_zero_iff.1 this)
  calc x t = ofCoords (coords (x t)) := rfl
    _ = ofCoords (coords (x 0)) := by rw [e]
    _ = x 0 := rfl

/-- All forces balance. -/
theorem forces_balance (G m0 : ℝ) (m : Fin n → ℝ) (x : Axes ℝ) (y : Fin n → Axes ℝ) :
    m0 • ∑ j, newton G (m j) x (y j) + ∑ i, m i • (newton G m0 (y i) x + among G m y i) = 0 := by
  have e : ∑ i, m i • among G m y i = 0 := by
    have h : ∑ i, m i • among G m y i = -∑ i, m i • among G m y i := by
      simp only [among, Finset.smul_sum]
      conv_lhs => rw [Finset.sum_comm]
      rw [← Finset.sum_neg_distrib]
      refine Finset.sum_congr rfl fun i _ => ?_
      rw [← Finset.sum_neg_distrib]
      refine Finset.sum_congr rfl fun j _ => ?_
      rw [newton_comm]
    have h2 : (2 : ℝ) • ∑ i, m i • among G m y i = 0 := by
      rw [two_smul]; nth_rewrite 1 [h]; abel
    exact (smul_eq_zero.1 h2).resolve_left (by norm_num)
  simp only [smul_add, Finset.sum_add_distrib, e, add_zero, Finset.smul_sum]
  rw [← Finset.sum_add_distrib]
  refine Finset.sum_eq_zero fun j _ => ?_
  rw [newton_comm]
  abel

/-- A solution of Newton's equations of a star and planets, without collisions. -/
structure StarMotion (G m0 : ℝ) (m : Fin n → ℝ) (T : ℝ) (xs vs : ℝ → Axes ℝ) (X V : Fin n → ℝ → Axes ℝ) : Prop where
  star : ∀ t ∈ Icc 0 T, VecDeriv xs (vs t) t
  starForce : ∀ t ∈ Icc 0 T, VecDeriv vs (∑ j, newton G (m j) (xs t) (X j t)) t
  planet : ∀ i, ∀ t ∈ Icc 0 T, VecDeriv (X i) (V i t) t
  planetForce : ∀ i, ∀ t ∈ Icc 0 T, VecDeriv (V i) (newton G m0 (X i t) (xs t) + among G m (fun j => X j t) i) t
  apart : ∀ i, ∀ t ∈ Icc 0 T, X i t ≠ xs t
  among : ∀ i j, i ≠ j → ∀ t ∈ Icc 0 T, X i t ≠ X j t

variable {T : ℝ} {xs vs : ℝ → Axes ℝ} {X V : Fin n → ℝ → Axes ℝ}

theorem VecDeriv.plus {p q : ℝ → Axes ℝ} {d e : Axes ℝ} {t : ℝ} (h : VecDeriv p d t) (k : VecDeriv q e t) :
    VecDeriv (fun s => p s + q s) (d + e) t := ⟨h.1.add k.1, h.2.1.add k.2.1, h.2.2.add k.2.2⟩

theorem VecDeriv.minus {p q : ℝ → Axes ℝ} {d e : Axes ℝ} {t : ℝ} (h : VecDeriv p d t) (k : VecDeriv q e t) :
    VecDeriv (fun s => p s - q s) (d - e) t := ⟨h.1.sub k.1, h.2.1.sub k.2.1, h.2.2.sub k.2.2⟩

theorem VecDeriv.times {p : ℝ → Axes ℝ} {d : Axes ℝ} {t : ℝ} (c : ℝ) (h : VecDeriv p d t) :
    VecDeriv (fun s => c • p s) (c • d) t := ⟨h.1.const_mul c, h.2.1.const_mul c, h.2.2.const_mul c⟩

/-- Momentum stays. -/
theorem StarMotion.momentum (s : StarMotion G m0 m T xs vs X V) : ∀ t ∈ Icc 0 T,
    m0 • vs t + ∑ i, m i • V i t = m0 • vs 0 + ∑ i, m i • V i 0 :=
  VecDeriv.constant (x := fun t => m0 • vs t + ∑ i, m i • V i t) fun t ht => by
    have := ((s.starForce t ht).times m0).plus (VecDeriv.sum_smul (m := m) fun i => s.planetForce i t ht)
    rwa [forces_balance] at this

/-- The centre of mass moves uniformly. -/
theorem StarMotion.centre (s : StarMotion G m0 m T xs vs X V) : ∀ t ∈ Icc 0 T,
    m0 • xs t + ∑ i, m i • X i t = m0 • xs 0 + ∑ i, m i • X i 0 + t • (m0 • vs 0 + ∑ i, m i • V i 0) := by
  have key := VecDeriv.constant (T := T)
    (x := fun t => m0 • xs t + ∑ i, m i • X i t - (0 + t • (m0 • vs 0 + ∑ i, m i • V i 0))) fun t ht => by
      have := (((s.star t ht).times m0).plus (VecDeriv.sum_smul (m := m) fun i => s.planet i t ht)).minus
        (vecDeriv_line 0 (m0 • vs 0 + ∑ i, m i • V i 0) t)
      rwa [s.momentum t ht, sub_self] at this
  intro t ht
  have := key t ht
  rw [sub_eq_iff_eq_add] at this
  rw [this]
  module

/-- The motion in heliocentric coordinates. -/
noncomputable def path (b : Bool) (m0 : ℝ) (m : Fin n → ℝ) (c : Axes ℝ) (xs : ℝ → Axes ℝ) (X V : Fin n → ℝ → Axes ℝ) (t : ℝ) :
    State n := pack (fun i => X i t - xs t) fun i => stretch b m0 (m i) • (V i t - c)

theorem StarMotion.helio (s : StarMotion G m0 m T xs vs X V) (h0 : 0 < m0) (hm : ∀ i, 0 < m i) {c : Axes ℝ}
    (hc : (m0 + ∑ i, m i) • c = m0 • vs 0 + ∑ i, m i • V i 0) : ∀ t ∈ Icc 0 T,
    HasDerivAt (path b m0 m c xs X V) (keplerField b G m0 m (path b m0 m c xs X V t) + jumpField b m0 m (path b m0 m c xs X V t)
      + kickField b G m0 m (path b m0 m c xs X V t)) t := by
  intro t ht
  unfold path
  rw [keplerField_pack, jumpField_pack, kickField_pack, pack_add, pack_add]
  have key := hasDerivAt_pack (q := fun i t => X i t - xs t) (v := fun i t => stretch b m0 (m i) • (V i t - c)) (t := t)
    (fun i => (s.planet i t ht).minus (s.star t ht))
    (fun i => ((s.planetForce i t ht).minus (vecDeriv_const c t)).times (stretch b m0 (m i)))
  refine key.congr_deriv ?_
  have hp : ∀ i, 0 < m0 + m i := fun i => add_pos h0 (hm i)
  have mom : m0 • (c - vs t) = ∑ i, m i • (V i t - c) := by
    have e := s.momentum t ht
    rw [← hc] at e
    simp only [smul_sub, Finset.sum_sub_distrib]
    rw [← Finset.sum_smul, sub_eq_sub_iff_add_eq_add, ← add_smul, add_comm (∑ i, m i • V i t), e]
  have mom' : c - vs t = m0⁻¹ • ∑ i, m i • (V i t - c) := by
    rw [← mom, smul_smul, inv_mul_cancel₀ h0.ne', one_smul]
  congr 1
  · funext i
    have sh : ∑ j, share b m0 (m j) • stretch b m0 (m j) • (V j t - c) = c - vs t := by
      rw [mom', Finset.smul_sum]
      refine Finset.sum_congr rfl fun j _ => ?_
      rw [smul_smul, smul_smul]
      congr 1
      have := (hp j).ne'
      have := h0.ne'
      cases b
      · simp only [share, stretch, Bool.false_eq_true, if_false]; field_simp
      · simp only [share, stretch, if_true]; field_simp
    have ow : own b m0 (m i) • stretch b m0 (m i) • (V i t - c) = stretch b m0 (m i) • (V i t - c) - (V i t - c) := by
      have : own b m0 (m i) * stretch b m0 (m i) = stretch b m0 (m i) - 1 := by
        have := (hp i).ne'
        have := h0.ne'
        cases b
        · simp only [own, stretch, Bool.false_eq_true, if_false]; ring
        · simp only [own, stretch, if_true]; field_simp; ring
      rw [smul_smul, this]
      module
    simp only [jumping]
    rw [sh, ow]
    module
  · funext i
    have e1 : WHFast.among G m (fun j => X j t - xs t) i = WHFast.among G m (fun j => X j t) i := by
      have := among_shift (G := G) (m := m) (fun j => X j t) (-xs t)
      simp only [← sub_eq_add_neg] at this
      rw [this]
    have e2 : central G (pulling b m0 (m i)) (X i t - xs t) = stretch b m0 (m i) • newton G m0 (X i t) (xs t) := by
      rw [newton_central, ← central_scale]
      congr 1
      have := h0.ne'
      cases b
      · simp only [pulling, stretch, Bool.false_eq_true, if_false]; ring
      · simp only [pulling, stretch, if_true]; field_simp
    rw [e1, e2]
    module

end Posidonius.WHFast
