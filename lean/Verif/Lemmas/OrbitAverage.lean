import Verif.Lemmas.TrueAnomaly
import Verif.Lemmas.Vec
import Verif.Spec.Ellipse
import Verif.Props.PseudoSynchronous

/-! # Averages over a Kepler orbit -/

namespace Posidonius.Univ
open WHFast (VecDeriv)
open Order

/-- `g` has an integral that gains `2 pi m` in a turn. -/
def Averages (g : ℝ → ℝ) (m : ℝ) : Prop :=
  ∃ J : ℝ → ℝ, (∀ f, HasDerivAt J (g f) f) ∧ ∀ f, J (f + 2 * Real.pi) = J f + 2 * Real.pi * m

theorem Averages.add {g g' : ℝ → ℝ} {m m' : ℝ} (h : Averages g m) (h' : Averages g' m') :
    Averages (fun f => g f + g' f) (m + m') := by
  obtain ⟨J, d, t⟩ := h
  obtain ⟨J', d', t'⟩ := h'
  exact ⟨fun f => J f + J' f, fun f => (d f).add (d' f), fun f => by dsimp only; rw [t, t']; ring⟩

theorem Averages.const_mul {g : ℝ → ℝ} {m : ℝ} (c : ℝ) (h : Averages g m) : Averages (fun f => c * g f) (c * m) := by
  obtain ⟨J, d, t⟩ := h
  exact ⟨fun f => c * J f, fun f => (d f).const_mul c, fun f => by dsimp only; rw [t]; ring⟩

theorem Averages.congr {g g' : ℝ → ℝ} {m m' : ℝ} (h : Averages g m) (e : ∀ f, g' f = g f) (em : m' = m) : Averages g' m' := by
  rw [show g' = g from funext e, em]
  exact h

theorem averages_const (c : ℝ) : Averages (fun _ => c) c :=
  ⟨fun f => f * c, fun f => by simpa using (hasDerivAt_id f).mul_const c, fun f => by ring⟩

/-- The means of the powers of the cosine. -/
noncomputable def cosMean : Nat → ℝ
  | 0 => 1
  | 1 => 0
  | k + 2 => (k + 1) / (k + 2) * cosMean k

theorem averages_cos_pow : ∀ k : Nat, Averages (fun f => Real.cos f ^ k) (cosMean k)
  | 0 => (averages_const 1).congr (fun _ => pow_zero _) (by simp [cosMean])
  | 1 => ⟨Real.sin, fun f => by simpa using Real.hasDerivAt_sin f, fun f => by
      rw [Real.sin_add_two_pi, cosMean, mul_zero, add_zero]⟩
  | k + 2 => by
    obtain ⟨J, d, t⟩ := averages_cos_pow k
    refine ⟨fun f => Real.sin f * Real.cos f ^ (k + 1) / (k + 2) + (k + 1) / (k + 2) * J f, fun f => ?_, fun f => ?_⟩
    · have h := (((Real.hasDerivAt_sin f).mul ((Real.hasDerivAt_cos f).fun_pow (k + 1))).div_const ((k : ℝ) + 2)).add
        ((d f).const_mul (((k : ℝ) + 1) / (k + 2)))
      refine h.congr_deriv ?_
      have h2 : Real.sin f ^ 2 = 1 - Real.cos f ^ 2 := by linarith [Real.sin_sq_add_cos_sq f]
      have hk : (k : ℝ) + 2 ≠ 0 := by positivity
      field_simp
      push_cast
      linear_combination (-((k : ℝ) + 1) * Real.cos f ^ k) * h2
    · dsimp only
      rw [Real.sin_add_two_pi, Real.cos_add_two_pi, t]
      simp only [cosMean]
      ring

theorem averages_sin_cos_pow (k : Nat) : Averages (fun f => Real.sin f * Real.cos f ^ k) 0 := by
  refine ⟨fun f => -(Real.cos f ^ (k + 1) / (k + 1)), fun f => ?_, fun f => ?_⟩
  · refine ((((Real.hasDerivAt_cos f).fun_pow (k + 1)).div_const ((k : ℝ) + 1)).neg).congr_deriv ?_
    have hk : (k : ℝ) + 1 ≠ 0 := by positivity
    field_simp
    push_cast
    ring
  · dsimp only
    rw [Real.cos_add_two_pi]
    ring

/-- A polynomial given by its coefficients. -/
def horner : List ℝ → ℝ → ℝ
  | [], _ => 0
  | a :: l, x => a + x * horner l x

/-- The mean of `cos^k` times the polynomial of the cosine. -/
noncomputable def hornerMean : Nat → List ℝ → ℝ
  | _, [] => 0
  | k, a :: l => a * cosMean k + hornerMean (k + 1) l

theorem averages_horner : ∀ (l : List ℝ) (k : Nat),
    Averages (fun f => Real.cos f ^ k * horner l (Real.cos f)) (hornerMean k l)
  | [], k => (averages_const 0).congr (fun _ => by simp [horner]) rfl
  | a :: l, k => (((averages_cos_pow k).const_mul a).add (averages_horner l (k + 1))).congr
      (fun f => by simp only [horner]; ring) (by simp [hornerMean])

theorem averages_sin_horner : ∀ (l : List ℝ) (k : Nat),
    Averages (fun f => Real.sin f * (Real.cos f ^ k * horner l (Real.cos f))) 0
  | [], k => (averages_const 0).congr (fun _ => by simp [horner]) rfl
  | a :: l, k => (((averages_sin_cos_pow k).const_mul a).add (averages_sin_horner l (k + 1))).congr
      (fun f => by simp only [horner]; ring) (by simp)

/-- The mean of an even and an odd polynomial. -/
theorem averages_trig (l l' : List ℝ) :
    Averages (fun f => horner l (Real.cos f) + Real.sin f * horner l' (Real.cos f)) (hornerMean 0 l) :=
  ((averages_horner l 0).add (averages_sin_horner l' 0)).congr (fun f => by simp) (by simp)

theorem same_gain {f g d : ℝ → ℝ} (hf : ∀ t, HasDerivAt f (d t) t) (hg : ∀ t, HasDerivAt g (d t) t) (s t : ℝ) :
    f s - f t = g s - g t := by
  have hz : ∀ x, HasDerivAt (fun y => f y - g y) 0 x := fun x => ((hf x).sub (hg x)).congr_deriv (sub_self _)
  have := is_const_of_deriv_eq_zero (fun x => (hz x).differentiableAt) (fun x => (hz x).deriv) s t
  linarith

theorem Gain.of {rate I : ℝ → ℝ} {T g : ℝ} (h : ∀ t, HasDerivAt I (rate t) t) (hg : ∀ t, I (t + T) - I t = g) :
    Gain rate T g := ⟨⟨I, h⟩, fun _ hI t => (same_gain hI h _ _).trans (hg t)⟩

theorem Gain.unique {rate : ℝ → ℝ} {T g g' : ℝ} (h : Gain rate T g) (h' : Gain rate T g') : g = g' := by
  obtain ⟨⟨I, hI⟩, -⟩ := id h
  rw [← h.2 I hI 0, ← h'.2 I hI 0]

theorem orbitRate_pos {mu a : ℝ} (hm : 0 < mu) (ha : 0 < a) : 0 < orbitRate mu a :=
  Real.sqrt_pos.2 (by positivity)

theorem orbitRate_sq {mu a : ℝ} (hm : 0 < mu) (ha : 0 < a) : orbitRate mu a ^ 2 * a ^ 3 = mu := by
  unfold orbitRate
  rw [Real.sq_sqrt (by positivity)]
  field_simp

/-- The angular momentum per mass of an orbit. -/
noncomputable def areaRate (mu a e : ℝ) : ℝ := orbitRate mu a * a ^ 2 * Real.sqrt (1 - e ^ 2)

theorem trueAnomaly_sin {b : ℝ} (hb0 : 0 ≤ b) (hb1 : b < 1) (x : ℝ) :
    Real.sin (trueAnomaly b x) = (1 - b ^ 2) * Real.sin x / (1 - 2 * b * Real.cos x + b ^ 2) := by
  have hD := Order.distance_pos hb0 hb1 x
  have hq := chord_pos hb0 hb1 x
  have hs := Real.sin_sq_add_cos_sq x
  set y := b * Real.sin x / (1 - b * Real.cos x) with hy
  have e1 : 1 + y ^ 2 = (1 - 2 * b * Real.cos x + b ^ 2) / (1 - b * Real.cos x) ^ 2 := by
    rw [hy]
    field_simp
    linear_combination b ^ 2 * hs
  have hp : 0 < 1 + y ^ 2 := by positivity
  have hr : Real.sqrt (1 + y ^ 2) ^ 2 = 1 + y ^ 2 := Real.sq_sqrt hp.le
  have hr0 : 0 < Real.sqrt (1 + y ^ 2) := Real.sqrt_pos.2 hp
  have hc : Real.cos (2 * Real.arctan y)
      = ((1 - b * Real.cos x) ^ 2 - b ^ 2 * Real.sin x ^ 2) / (1 - 2 * b * Real.cos x + b ^ 2) := by
    rw [Real.cos_two_mul, Real.cos_arctan, div_pow, one_pow, hr, e1]
    field_simp
    linear_combination b ^ 2 * hs
  have hsn : Real.sin (2 * Real.arctan y)
      = 2 * b * Real.sin x * (1 - b * Real.cos x) / (1 - 2 * b * Real.cos x + b ^ 2) := by
    rw [Real.sin_two_mul, Real.cos_arctan, Real.sin_arctan,
      show 2 * (y / Real.sqrt (1 + y ^ 2)) * (1 / Real.sqrt (1 + y ^ 2)) = 2 * y / Real.sqrt (1 + y ^ 2) ^ 2 by ring,
      hr, e1, hy]
    field_simp
  unfold trueAnomaly
  rw [Real.sin_add, ← hy, hc, hsn, ← mul_div_assoc, ← mul_div_assoc, ← add_div]
  congr 1
  linear_combination (-b ^ 2 * Real.sin x) * hs

/-- Position and velocity in terms of the true anomaly, and its rate (Kepler's first two laws). -/
theorem Ellipse.anomaly {mu a e : ℝ} {p q : Axes ℝ} {x v : ℝ → Axes ℝ} (o : Ellipse mu a e p q x v) : ∃ f : ℝ → ℝ,
    (∀ t, 0 < 1 + e * Real.cos (f t))
    ∧ (∀ t, HasDerivAt f (areaRate mu a e / (a * (1 - e ^ 2)) ^ 2 * (1 + e * Real.cos (f t)) ^ 2) t)
    ∧ (∀ t, f (t + 2 * Real.pi / orbitRate mu a) = f t + 2 * Real.pi)
    ∧ (∀ t, x t = (a * (1 - e ^ 2) / (1 + e * Real.cos (f t)) * Real.cos (f t)) • p
      + (a * (1 - e ^ 2) / (1 + e * Real.cos (f t)) * Real.sin (f t)) • q)
    ∧ ∀ t, v t = (areaRate mu a e / (a * (1 - e ^ 2)) * -Real.sin (f t)) • p
      + (areaRate mu a e / (a * (1 - e ^ 2)) * (e + Real.cos (f t))) • q := by
  obtain ⟨E, hE, hx⟩ := o.place
  have he0 := o.round
  have he1 := o.closed
  have ha := o.size
  have hn := orbitRate_pos o.attracts ha
  have mv := o.moves
  have hw2 : Real.sqrt (1 - e ^ 2) ^ 2 = 1 - e ^ 2 := Real.sq_sqrt (by nlinarith)
  have hw : 0 < Real.sqrt (1 - e ^ 2) := Real.sqrt_pos.2 (by nlinarith)
  unfold areaRate
  generalize orbitRate mu a = n at *
  generalize Real.sqrt (1 - e ^ 2) = w at *
  rw [← hw2]
  have hb0 : 0 ≤ e / (1 + w) := by positivity
  have hb1 : e / (1 + w) < 1 := by rw [div_lt_one (by linarith)]; linarith
  have hb : 1 + (e / (1 + w)) ^ 2 = 2 / (1 + w) := by
    field_simp
    linear_combination hw2
  have hb' : 1 - (e / (1 + w)) ^ 2 = 2 * w / (1 + w) := by
    field_simp
    linear_combination -hw2
  have hq : ∀ x, 1 - 2 * (e / (1 + w)) * Real.cos x + (e / (1 + w)) ^ 2 = 2 / (1 + w) * (1 - e * Real.cos x) := by
    intro x
    rw [show 1 - 2 * (e / (1 + w)) * Real.cos x + (e / (1 + w)) ^ 2
      = 1 + (e / (1 + w)) ^ 2 - 2 * (e / (1 + w)) * Real.cos x by ring, hb]
    ring
  have hcf : ∀ t, Real.cos (trueAnomaly (e / (1 + w)) (E t)) = (Real.cos (E t) - e) / (1 - e * Real.cos (E t)) := by
    intro t
    have hD := Order.distance_pos he0 he1 (E t)
    rw [trueAnomaly_cos hb0 hb1, hq, hb]
    field_simp
  have hsf : ∀ t, Real.sin (trueAnomaly (e / (1 + w)) (E t)) = w * Real.sin (E t) / (1 - e * Real.cos (E t)) := by
    intro t
    have hD := Order.distance_pos he0 he1 (E t)
    rw [trueAnomaly_sin hb0 hb1, hq, hb']
    field_simp
  have hc : ∀ t, 1 + e * Real.cos (trueAnomaly (e / (1 + w)) (E t)) = w ^ 2 / (1 - e * Real.cos (E t)) := by
    intro t
    have hD := Order.distance_pos he0 he1 (E t)
    rw [hcf]
    field_simp
    linear_combination -hw2
  refine ⟨fun t => trueAnomaly (e / (1 + w)) (E t), fun t => ?_, fun t => ?_, fun t => ?_, fun t => ?_, fun t => ?_⟩
  · have hD := Order.distance_pos he0 he1 (E t)
    dsimp only
    rw [hc]
    positivity
  · have hD := Order.distance_pos he0 he1 (E t)
    refine ((trueAnomaly_deriv hb0 hb1 (E t)).comp t (anomaly_deriv he0 he1 hn.ne' hE t)).congr_deriv ?_
    dsimp only
    rw [hb', hq, hc]
    field_simp
  · dsimp only
    rw [anomaly_period he0 he1 hn.ne' hE, trueAnomaly_turn]
  · have hD := Order.distance_pos he0 he1 (E t)
    have hD' : 1 - Real.cos (E t) * e ≠ 0 := by rw [mul_comm]; exact hD.ne'
    dsimp only
    rw [hx, hc, hcf, hsf]
    congr 2
    · field_simp
    · field_simp
  · have hD := Order.distance_pos he0 he1 (E t)
    have hD' : 1 - Real.cos (E t) * e ≠ 0 := by rw [mul_comm]; exact hD.ne'
    have m1 := mv t
    rw [funext hx] at m1
    have dE := anomaly_deriv he0 he1 hn.ne' hE t
    rw [VecDeriv.unique m1 (WHFast.vecDeriv_combination (a := 0) (b := 0) p q
      ((((Real.hasDerivAt_cos (E t)).comp t dE).sub_const e).const_mul a)
      (((Real.hasDerivAt_sin (E t)).comp t dE).const_mul (a * w)))]
    dsimp only
    rw [hcf, hsf]
    congr 2
    · field_simp
    · field_simp
      linear_combination Real.cos (E t) * hw2

/-- What a rate that is a function of the true anomaly times the rate of that anomaly gains in a revolution. -/
theorem gain_of_averages {T c : ℝ} {f y G rate : ℝ → ℝ} {m : ℝ} (hf : ∀ t, HasDerivAt f (y t) t)
    (ht : ∀ t, f (t + T) = f t + 2 * Real.pi) (hG : Averages G m) (hr : ∀ t, rate t = c * G (f t) * y t) :
    Gain rate T (2 * Real.pi * c * m) := by
  obtain ⟨J, d, tJ⟩ := hG
  refine Gain.of (I := fun t => c * J (f t)) (fun t => ?_) fun t => ?_
  · refine (((d (f t)).comp t (hf t)).const_mul c).congr_deriv ?_
    rw [hr]
    ring
  · rw [ht, tJ]
    ring

end Posidonius.Univ
