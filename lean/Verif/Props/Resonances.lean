import Verif.Model.Resonances
import Verif.Props.FrontEndTools

/-! # C131: resonances -/

namespace Posidonius.Analysis
open Kepler (ellipsePosition ellipseVelocity)
open Tools (SameAngle)
open Tools.Py (Elements)

/-! ## Angles -/

theorem mod360_real (x : ℝ) : mod360 x = x - 360 * ⌊x / 360⌋ := by
  simp [mod360]

theorem mod360_spec (x : ℝ) : 0 ≤ mod360 x ∧ mod360 x < 360 ∧ ∃ k : ℤ, mod360 x = x + k * 360 := by
  rw [mod360_real]
  have h1 := Int.floor_le (x / 360)
  have h2 := Int.lt_floor_add_one (x / 360)
  refine ⟨by linarith, by linarith, -⌊x / 360⌋, by push_cast; ring⟩

theorem mod360_add (x : ℝ) (k : ℤ) : mod360 (x + k * 360) = mod360 x := by
  rw [mod360_real, mod360_real, show (x + k * 360) / 360 = x / 360 + k by ring, Int.floor_add_intCast]
  push_cast
  ring

theorem fold_real (c x : ℝ) : fold c x =
    if mod360 x < c - 180 then mod360 x + 360 else if c + 180 < mod360 x then mod360 x - 360 else mod360 x := by
  simp [fold]

/-- Folded angles are within 180 degrees of the centre, and differ from the given ones by full turns. -/
theorem fold_spec {c : ℝ} (h0 : -180 ≤ c) (h1 : c ≤ 540) (x : ℝ) :
    c - 180 ≤ fold c x ∧ fold c x ≤ c + 180 ∧ ∃ k : ℤ, fold c x = x + k * 360 := by
  obtain ⟨a, b, k, hk⟩ := mod360_spec x
  rw [fold_real]
  split_ifs with h h'
  · exact ⟨by linarith, by linarith, k + 1, by rw [hk]; push_cast; ring⟩
  · exact ⟨by linarith, by linarith, k - 1, by rw [hk]; push_cast; ring⟩
  · exact ⟨not_lt.1 h, not_lt.1 h', k, hk⟩

theorem fold_add (c x : ℝ) (k : ℤ) : fold c (x + k * 360) = fold c x := by
  rw [fold_real, fold_real, mod360_add]

/-- The resonant angle number `i` of two orbits, in degrees: `inner λ' - outer λ - i ϖ - (q - i) ϖ'` with mean longitudes and
longitudes of the perihelia. -/
noncomputable def trueAngle (inner outer i : Nat) (p l p' l' : ℝ) : ℝ :=
  (inner * (l' + p') - outer * (l + p) - i * p - ((inner - outer : ℤ) - i) * p') * (180 / Real.pi)

/-- Full turns of the longitudes do not change the resonant angle. -/
theorem resonantAngle_turns (c : ℝ) {inner outer i : Nat} (hio : outer ≤ inner) (hi : i ≤ inner - outer) (a b : Angles ℝ)
    {p l p' l' : ℝ} (h1 : ∃ k : ℤ, a.g + a.n = p + k * 360) (h2 : ∃ k : ℤ, a.m = l + k * 360)
    (h3 : ∃ k : ℤ, b.g + b.n = p' + k * 360) (h4 : ∃ k : ℤ, b.m = l' + k * 360) :
    resonantAngle c inner outer a b i
      = fold c (inner * (l' + p') - outer * (l + p) - i * p - ((inner - outer : ℤ) - i) * p') := by
  obtain ⟨k1, h1⟩ := h1
  obtain ⟨k2, h2⟩ := h2
  obtain ⟨k3, h3⟩ := h3
  obtain ⟨k4, h4⟩ := h4
  simp only [resonantAngle, lit_real, h1, h2, h3, h4]
  rw [← fold_add c (inner * (l' + p') - outer * (l + p) - i * p - ((inner - outer : ℤ) - i) * p')
    (inner * (k4 + k3) - outer * (k2 + k1) - i * k1 - ((inner - outer) - i) * k3)]
  congr 1
  rw [show ((inner - outer - i : Nat) : ℚ) = (inner : ℚ) - outer - i by rw [Nat.cast_sub hi, Nat.cast_sub hio]]
  push_cast
  ring

theorem resonanceAngles_spec (el : Elements ℝ) {p l : ℝ} (hp : SameAngle el.longitudeOfPerihelion p)
    (hl : SameAngle el.meanAnomaly l) :
    (∃ k : ℤ, (resonanceAngles el).g + (resonanceAngles el).n = p * (180 / Real.pi) + k * 360) ∧
    ∃ k : ℤ, (resonanceAngles el).m = l * (180 / Real.pi) + k * 360 := by
  obtain ⟨-, -, k1, h1⟩ := hp
  obtain ⟨-, -, k2, h2⟩ := hl
  have hpi := Real.pi_pos.ne'
  obtain ⟨-, -, k3, h3⟩ := mod360_spec (el.longitudeOfPerihelion * (180 / Real.pi))
  obtain ⟨-, -, k4, h4⟩ := mod360_spec (el.meanAnomaly * (180 / Real.pi))
  constructor
  · refine ⟨k3 + k1, ?_⟩
    simp only [resonanceAngles, lit_real, pi_real, sub_self]
    rw [show mod360 (0 : ℝ) = 0 by simp [mod360_real], zero_add]
    push_cast
    rw [h3, h1]
    field_simp
    ring
  · refine ⟨k4 + k2, ?_⟩
    simp only [resonanceAngles, lit_real, pi_real]
    push_cast
    rw [h4, h2]
    field_simp
    ring

/-- **C131**: the resonant angles of two planets on ellipses, computed from their positions and velocities, are the resonant
angles of the ellipses, up to full turns, and lie within 180 degrees of the centre. -/
theorem C131_angles (gm a e i g n bigE gm' a' e' i' g' n' bigE' : ℝ) (hgm : 0 < gm) (ha : 0 < a) (he0 : 3 / 100000000 ≤ e)
    (he1 : e < 1) (hi0 : 0 < i) (hi1 : i < Real.pi) (hn0 : 1 / 100000000 ≤ n) (hn1 : n < 2 * Real.pi)
    (hgm' : 0 < gm') (ha' : 0 < a') (he0' : 3 / 100000000 ≤ e')
    (he1' : e' < 1) (hi0' : 0 < i') (hi1' : i' < Real.pi) (hn0' : 1 / 100000000 ≤ n') (hn1' : n' < 2 * Real.pi)
    (el el' : Elements ℝ) (hel : el = Tools.Py.elementsOfOrbit gm (ellipsePosition a e i g n bigE) (ellipseVelocity gm a e i g n bigE))
    (hel' : el' = Tools.Py.elementsOfOrbit gm' (ellipsePosition a' e' i' g' n' bigE') (ellipseVelocity gm' a' e' i' g' n' bigE'))
    (c : ℝ) (hc0 : -180 ≤ c) (hc1 : c ≤ 540) (inner outer j : Nat) (hio : outer ≤ inner) (hj : j ≤ inner - outer) :
    (∃ k : ℤ, resonantAngle c inner outer (resonanceAngles el) (resonanceAngles el') j
      = trueAngle inner outer j (g + n) (bigE - e * Real.sin bigE) (g' + n') (bigE' - e' * Real.sin bigE') + k * 360) ∧
    |resonantAngle c inner outer (resonanceAngles el) (resonanceAngles el') j - c| ≤ 180 := by
  obtain ⟨-, -, -, -, -, h6, h7, -⟩ := Tools.C125_partial gm a e i g n bigE hgm ha he0 he1 hi0 hi1 hn0 hn1 el hel
  obtain ⟨-, -, -, -, -, h6', h7', -⟩ := Tools.C125_partial gm' a' e' i' g' n' bigE' hgm' ha' he0' he1' hi0' hi1' hn0' hn1' el' hel'
  obtain ⟨r1, r2⟩ := resonanceAngles_spec el h6 h7
  obtain ⟨r3, r4⟩ := resonanceAngles_spec el' h6' h7'
  rw [resonantAngle_turns c hio hj _ _ r1 r2 r3 r4]
  obtain ⟨f1, f2, k, f3⟩ := fold_spec hc0 hc1 (inner * ((bigE' - e' * Real.sin bigE') * (180 / Real.pi) + (g' + n') * (180 / Real.pi))
    - outer * ((bigE - e * Real.sin bigE) * (180 / Real.pi) + (g + n) * (180 / Real.pi)) - j * ((g + n) * (180 / Real.pi))
    - ((inner - outer : ℤ) - j) * ((g' + n') * (180 / Real.pi)))
  refine ⟨⟨k, ?_⟩, by rw [abs_le]; constructor <;> linarith⟩
  rw [f3, trueAngle]
  ring

/-- **C131**: whether there is a resonance does not depend on the direction from which longitudes are counted. -/
theorem C131_rotation (c threshold d : ℝ) (inner outer : Nat) (hio : outer ≤ inner) (series : List (Angles ℝ × Angles ℝ)) :
    isResonance c threshold inner outer
      (series.map fun s => ({ s.1 with n := s.1.n + d }, { s.2 with n := s.2.n + d }))
    = isResonance c threshold inner outer series := by
  have h : ∀ i ∈ List.range (inner - outer + 1), ∀ s : Angles ℝ × Angles ℝ,
      resonantAngle c inner outer { s.1 with n := s.1.n + d } { s.2 with n := s.2.n + d } i
        = resonantAngle c inner outer s.1 s.2 i := by
    intro i hi s
    have hi' : i ≤ inner - outer := by rw [List.mem_range] at hi; omega
    simp only [resonantAngle, lit_real]
    congr 1
    rw [show ((inner - outer - i : Nat) : ℚ) = (inner : ℚ) - outer - i by rw [Nat.cast_sub hi', Nat.cast_sub hio]]
    push_cast
    ring
  unfold isResonance
  rw [Bool.eq_iff_iff, List.any_eq_true, List.any_eq_true]
  constructor
  · rintro ⟨i, hi, hs⟩
    refine ⟨i, hi, ?_⟩
    rw [List.map_map] at hs
    simpa only [Function.comp_def, h i hi] using hs
  · rintro ⟨i, hi, hs⟩
    refine ⟨i, hi, ?_⟩
    rw [List.map_map]
    simpa only [Function.comp_def, h i hi] using hs

/-- **C131 is violated** by argument of the perihelion and node: the one is always zero, the other the longitude of the
perihelion. -/
theorem C131_violated_node (gm a e i g n bigE : ℝ) (hgm : 0 < gm) (ha : 0 < a) (he0 : 3 / 100000000 ≤ e)
    (he1 : e < 1) (hi0 : 0 < i) (hi1 : i < Real.pi) (hn0 : 1 / 100000000 ≤ n) (hn1 : n < 2 * Real.pi) (hg : Real.cos g ≠ 1)
    (el : Elements ℝ) (hel : el = Tools.Py.elementsOfOrbit gm (ellipsePosition a e i g n bigE) (ellipseVelocity gm a e i g n bigE)) :
    (∀ k : ℤ, (resonanceAngles el).g ≠ g * (180 / Real.pi) + k * 360) ∧
    (∀ k : ℤ, (resonanceAngles el).n ≠ n * (180 / Real.pi) + k * 360) := by
  obtain ⟨-, -, -, -, -, h6, h7, -⟩ := Tools.C125_partial gm a e i g n bigE hgm ha he0 he1 hi0 hi1 hn0 hn1 el hel
  obtain ⟨⟨m, r1⟩, -⟩ := resonanceAngles_spec el h6 h7
  have hpi := Real.pi_pos
  have hzero : (resonanceAngles el).g = 0 := by
    simp only [resonanceAngles, sub_self]
    simp [mod360_real]
  have hno : ∀ k : ℤ, g ≠ k * (2 * Real.pi) := by
    intro k hk
    apply hg
    rw [hk]
    exact Real.cos_int_mul_two_pi k
  constructor
  · intro k hk
    rw [hzero] at hk
    apply hno (-k)
    push_cast
    field_simp at hk
    linarith
  · intro k hk
    rw [hzero, zero_add, hk] at r1
    apply hno (k - m)
    push_cast
    field_simp at r1
    linarith

/-- **C131**: the distances of perihelion and aphelion are those of the ellipse. -/
theorem C131_apsides (gm a e i g n bigE : ℝ) (hgm : 0 < gm) (ha : 0 < a) (he0 : 3 / 100000000 ≤ e)
    (he1 : e < 1) (hi0 : 0 < i) (hi1 : i < Real.pi) (hn0 : 1 / 100000000 ≤ n) (hn1 : n < 2 * Real.pi) :
    apsides (Tools.Py.elementsOfOrbit gm (ellipsePosition a e i g n bigE) (ellipseVelocity gm a e i g n bigE))
      = (Kepler.len (ellipsePosition a e i g n 0), Kepler.len (ellipsePosition a e i g n Real.pi)) := by
  obtain ⟨h1, -, h3, -⟩ := Tools.C125_partial gm a e i g n bigE hgm ha he0 he1 hi0 hi1 hn0 hn1 _ rfl
  have f0 := (Tools.ellipseFacts i g n 0 hgm ha (by linarith) he1).rr
  have f1 := (Tools.ellipseFacts i g n Real.pi hgm ha (by linarith) he1).rr
  rw [Real.cos_zero, mul_one] at f0
  rw [Real.cos_pi, mul_neg_one, sub_neg_eq_add] at f1
  rw [apsides, h1, h3, Kepler.len, Kepler.len, f0, f1, Real.sqrt_sq (mul_nonneg ha.le (by linarith)),
    Real.sqrt_sq (mul_nonneg ha.le (by linarith))]
  simp

/-! ## Libration -/

theorem total_real (l : List ℝ) : total l = l.sum := by
  have : ∀ (l : List ℝ) (s : ℝ), l.foldl (· + ·) s = s + l.sum := by
    intro l
    induction l with
    | nil => intro s; simp
    | cons x l ih => intro s; rw [List.foldl_cons, ih, List.sum_cons]; ring
  simp [total, this]

theorem std_two (m : Nat) (hm : 0 < m) (a b : ℝ) : std (List.replicate m a ++ List.replicate m b) = |a - b| / 2 := by
  have hm' : (0 : ℝ) < m := by exact_mod_cast hm
  simp only [std, total_real, lit_real, sqrt_real, List.length_append, List.length_replicate, List.map_append, List.map_replicate,
    List.sum_append, List.sum_replicate, nsmul_eq_mul]
  push_cast
  rw [show (m * a + m * b : ℝ) / (m + m) = (a + b) / 2 by field_simp; ring,
    show (m * ((a - (a + b) / 2) * (a - (a + b) / 2)) + m * ((b - (a + b) / 2) * (b - (a + b) / 2)) : ℝ) / (m + m)
      = ((a - b) / 2) ^ 2 by field_simp; ring, Real.sqrt_sq_eq_abs, abs_div, abs_two]

theorem fold_unique {c x y : ℝ} (h0 : -180 ≤ c) (h1 : c ≤ 540) (hy0 : c - 180 < y) (hy1 : y < c + 180) (k : ℤ)
    (hk : y = x + k * 360) : fold c x = y := by
  obtain ⟨a, b, m, hm⟩ := fold_spec h0 h1 x
  have h : fold c x - y = (m - k : ℤ) * 360 := by rw [hm, hk]; push_cast; ring
  have h2 : ((m - k : ℤ) : ℝ) < 1 := by nlinarith
  have h3 : (-1 : ℝ) < ((m - k : ℤ) : ℝ) := by nlinarith
  have h4 : m - k = 0 := by
    have h2' : m - k < 1 := by exact_mod_cast h2
    have h3' : -1 < m - k := by exact_mod_cast h3
    omega
  rw [h4] at h
  simpa [sub_eq_zero] using h

/-- Two planets, with the outer one swinging by `d` degrees so that all resonant angles do so around `c + 180`; `m` times on either
side. -/
noncomputable def swinging (c d : ℝ) (inner m : Nat) : List (Angles ℝ × Angles ℝ) :=
  List.replicate m (⟨0, 0, 0⟩, ⟨0, 0, (c + 180 - d) / inner⟩) ++ List.replicate m (⟨0, 0, 0⟩, ⟨0, 0, (c + 180 + d) / inner⟩)

theorem swinging_angles (c d : ℝ) {inner outer m : Nat} (hi : 0 < inner) (center : ℝ) (i : Nat) :
    (swinging c d inner m).map (fun s => resonantAngle center inner outer s.1 s.2 i)
      = List.replicate m (fold center (c + 180 - d)) ++ List.replicate m (fold center (c + 180 + d)) := by
  have hi' : (inner : ℝ) ≠ 0 := by exact_mod_cast hi.ne'
  simp only [swinging, List.map_append, List.map_replicate, resonantAngle, lit_real, add_zero, mul_zero, sub_zero]
  push_cast
  rw [mul_div_cancel₀ _ hi', mul_div_cancel₀ _ hi']

/-- **C131 is violated** by resonant angles that librate on the other side of the centre: whatever the centre, an angle that
librates by `d` degrees is not recognized there although it would be with another centre. -/
theorem C131_violated_libration (c d threshold : ℝ) (inner outer m : Nat) (hi : 0 < inner) (hm : 0 < m)
    (hc0 : -180 ≤ c) (hc1 : c ≤ 360) (hd : 0 < d) (h1 : d < threshold) (h2 : threshold ≤ 180 - d) :
    isResonance c threshold inner outer (swinging c d inner m) = false ∧
    isResonance (c + 180) threshold inner outer (swinging c d inner m) = true := by
  have f1 : fold c (c + 180 - d) = c + 180 - d :=
    fold_unique hc0 (by linarith) (by linarith) (by linarith) 0 (by simp)
  have f2 : fold c (c + 180 + d) = c - 180 + d :=
    fold_unique hc0 (by linarith) (by linarith) (by linarith) (-1) (by push_cast; ring)
  have f3 : fold (c + 180) (c + 180 - d) = c + 180 - d :=
    fold_unique (by linarith) (by linarith) (by linarith) (by linarith) 0 (by simp)
  have f4 : fold (c + 180) (c + 180 + d) = c + 180 + d :=
    fold_unique (by linarith) (by linarith) (by linarith) (by linarith) 0 (by simp)
  constructor
  · rw [isResonance, List.any_eq_false]
    intro i _
    rw [swinging_angles c d hi, f1, f2, std_two m hm, ltb_real, not_lt,
      show c + 180 - d - (c - 180 + d) = 2 * (180 - d) by ring, abs_of_nonneg (by linarith)]
    linarith
  · rw [isResonance, List.any_eq_true]
    refine ⟨0, by simp, ?_⟩
    rw [swinging_angles c d hi, f3, f4, std_two m hm, ltb_real,
      show c + 180 - d - (c + 180 + d) = -(2 * d) by ring, abs_neg, abs_of_nonneg (by linarith)]
    linarith

/-! ## Candidates -/

/-- What is documented of `Fraction.limit_denominator`: the closest fraction with a denominator up to the limit. -/
def Closest (limit : Nat → ℚ → ℚ) : Prop :=
  ∀ (d : Nat) (x : ℚ), 0 < d → (limit d x).den ≤ d ∧ ∀ f : ℚ, f.den ≤ d → |x - limit d x| ≤ |x - f|

theorem den_div_le (a : ℤ) {b d : Nat} (hb : 0 < b) (hd : b ≤ d) {f : ℚ} (hf : f = a / b) : f.den ≤ d := by
  have h1 := Rat.den_dvd a b
  have h2 : ((a : ℚ) / ((b : ℤ) : ℚ)).den ∣ b := by
    rw [← Rat.divInt_eq_div]
    exact_mod_cast h1
  have := Nat.le_of_dvd hb h2
  push_cast at this
  rw [hf]
  omega

theorem closest_exists : ∃ limit, Closest limit := by
  have h : ∀ (d : Nat) (x : ℚ), ∃ y : ℚ, 0 < d → y.den ≤ d ∧ ∀ f : ℚ, f.den ≤ d → |x - y| ≤ |x - f| := by
    intro d x
    by_cases hd : 0 < d
    · obtain ⟨b, hb, hmin⟩ := Finset.exists_min_image (Finset.Icc 1 d) (fun b => |x - round (x * b) / b|) ⟨1, by simp; omega⟩
      rw [Finset.mem_Icc] at hb
      refine ⟨round (x * b) / b, fun _ => ⟨?_, fun f hf => ?_⟩⟩
      · exact den_div_le (round (x * b)) (by omega) hb.2 rfl
      · refine (hmin f.den (Finset.mem_Icc.2 ⟨f.den_pos, hf⟩)).trans ?_
        have hb0 : (0 : ℚ) < f.den := by exact_mod_cast f.den_pos
        have h3 := round_le (x * f.den) f.num
        have e1 : x - round (x * f.den) / f.den = (x * f.den - round (x * f.den)) / f.den := by field_simp
        have e2 : x - f = (x * f.den - f.num) / f.den := by
          have := Rat.num_div_den f
          field_simp
          rw [sub_mul, Rat.mul_den_eq_num]
        rw [e1, e2, abs_div, abs_div]
        gcongr
    · exact ⟨0, fun h => absurd h hd⟩
  choose limit hl using h
  exact ⟨limit, fun d x hd => hl d x hd⟩

theorem mem_possibleResonances (limit : Nat → ℚ → ℚ) (ratio u : ℚ) (dl nl sampling : Nat) (f : ℚ) :
    f ∈ possibleResonances limit ratio u dl nl sampling ↔
      f.num < nl ∧ ∃ x ∈ testedPeriods ratio u sampling, limit dl x = f := by
  simp only [possibleResonances, List.mem_filter, List.mem_mergeSort, List.mem_dedup, List.mem_map, decide_eq_true_eq]
  exact and_comm

theorem testedPeriods_range {ratio u x : ℚ} {sampling : Nat} (hr : 1 ≤ ratio) (hu : 0 < u)
    (hx : x ∈ testedPeriods ratio u sampling) :
    1 ≤ x ∧ ratio * (1 - u) ≤ x ∧ x < ratio * (1 + u) := by
  simp only [testedPeriods, List.mem_map, List.mem_range] at hx
  obtain ⟨i, hi, rfl⟩ := hx
  set mn := if ratio * (1 - u) < 1 then 1 else ratio * (1 - u) with hmn
  have h1 : 1 ≤ mn := by rw [hmn]; split_ifs with h <;> linarith
  have h2 : ratio * (1 - u) ≤ mn := by rw [hmn]; split_ifs with h <;> linarith
  have h3 : mn < ratio * (1 + u) := by rw [hmn]; split_ifs with h <;> nlinarith
  have hs : (0 : ℚ) < sampling := by exact_mod_cast (by omega : 0 < sampling)
  have hi' : (i : ℚ) < sampling := by exact_mod_cast hi
  have h4 : 0 ≤ (ratio * (1 + u) - mn) / sampling * i := by
    apply mul_nonneg (div_nonneg (by linarith) hs.le); positivity
  have h5 : (ratio * (1 + u) - mn) / sampling * i < ratio * (1 + u) - mn := by
    rw [div_mul_eq_mul_div, div_lt_iff₀ hs]
    exact mul_lt_mul_of_pos_left hi' (by linarith)
  exact ⟨by linarith, by linarith, by linarith⟩

/-- **C131**: every resonance that is proposed has a numerator below and a denominator up to the limit, is at least 1:1, and is
the closest fraction to a ratio within the uncertainty. -/
theorem C131_proposed {limit : Nat → ℚ → ℚ} (hl : Closest limit) {ratio u : ℚ} {dl nl sampling : Nat} (hr : 1 ≤ ratio) (hu : 0 < u)
    (hd : 0 < dl) {f : ℚ} (hf : f ∈ possibleResonances limit ratio u dl nl sampling) :
    f.num < nl ∧ f.den ≤ dl ∧ 1 ≤ f ∧ ∃ x, ratio * (1 - u) ≤ x ∧ x < ratio * (1 + u) ∧ ∀ g : ℚ, g.den ≤ dl → |x - f| ≤ |x - g| := by
  obtain ⟨h1, x, hx, rfl⟩ := (mem_possibleResonances ..).1 hf
  obtain ⟨h2, h3⟩ := hl dl x hd
  obtain ⟨r1, r2, r3⟩ := testedPeriods_range hr hu hx
  refine ⟨h1, h2, ?_, x, r2, r3, h3⟩
  have h4 := h3 1 (by simpa using Nat.succ_le_of_lt hd)
  rw [abs_of_nonneg (by linarith : 0 ≤ x - 1)] at h4
  have := (abs_le.1 h4).2
  linarith

/-- **C131**: the closest fraction to the ratio itself is proposed, if its numerator is below the limit. -/
theorem C131_nominal (limit : Nat → ℚ → ℚ) {ratio u : ℚ} {dl nl half : Nat} (hs : 0 < half)
    (hr : 1 ≤ ratio * (1 - u)) (hn : (limit dl ratio).num < nl) :
    limit dl ratio ∈ possibleResonances limit ratio u dl nl (2 * half) := by
  rw [mem_possibleResonances]
  refine ⟨hn, ratio, ?_, rfl⟩
  simp only [testedPeriods, List.mem_map, List.mem_range]
  refine ⟨half, by omega, ?_⟩
  rw [if_neg (not_lt.2 hr)]
  have : (half : ℚ) ≠ 0 := by exact_mod_cast hs.ne'
  push_cast
  field_simp
  ring

/-- **C131 is violated**: numerators equal to the limit are said to be possible, but are never proposed. -/
theorem C131_violated_numerator (limit : Nat → ℚ → ℚ) (ratio u : ℚ) (dl nl sampling : Nat) {f : ℚ} (hf : f.num = nl) :
    f ∉ possibleResonances limit ratio u dl nl sampling := by
  rw [mem_possibleResonances, hf]
  simp

/-- **C131 is violated**: with the default settings, the resonance 14:9 is not proposed for the ratio 1.55, which is within 0.4 per
cent of it. -/
theorem C131_violated_missed {limit : Nat → ℚ → ℚ} (hl : Closest limit) :
    (14 / 9 : ℚ) ∉ possibleResonances limit (155 / 100) (5 / 100) 12 20 10 := by
  rw [mem_possibleResonances]
  rintro ⟨-, x, hx, hf⟩
  obtain ⟨-, h⟩ := hl 12 x (by norm_num)
  rw [hf] at h
  have h1 := h (17 / 11) (den_div_le 17 (b := 11) (by norm_num) (by norm_num) (by norm_num))
  have h2 := h (11 / 7) (den_div_le 11 (b := 7) (by norm_num) (by norm_num) (by norm_num))
  simp only [testedPeriods, List.mem_map, List.mem_range] at hx
  obtain ⟨i, hi, rfl⟩ := hx
  clear hf h
  interval_cases i <;> first
    | (norm_num [abs_le, abs_of_nonneg, abs_of_neg] at h1; done)
    | (norm_num [abs_le, abs_of_nonneg, abs_of_neg] at h2; done)

/-! ## Plots -/

theorem subplotLoop_spec (plots : Nat) (fuel x y : Nat) (hx : 0 < x) (hxy : x = y ∨ x + 1 = y)
    (hmin : (x = y → x * (y - 1) < plots ∨ x = 1) ∧ (x + 1 = y → x * x < plots)) (r : Nat × Nat)
    (h : subplotLoop plots fuel x y = some r) :
    plots ≤ r.1 * r.2 ∧ (r.1 = r.2 ∨ r.1 + 1 = r.2) ∧ (r.1 * (r.2 - 1) < plots ∨ r = (1, 1)) := by
  induction fuel generalizing x y with
  | zero =>
    unfold subplotLoop at h
    split at h
    · simp at h
    · rename_i h0
      obtain rfl : (x, y) = r := by simpa using h
      refine ⟨not_lt.1 h0, hxy, ?_⟩
      rcases hxy with rfl | rfl
      · rcases hmin.1 rfl with h | h
        · exact Or.inl h
        · right; simp [h]
      · exact Or.inl (by simpa using hmin.2 rfl)
  | succ fuel ih =>
    unfold subplotLoop at h
    split at h
    · rename_i h0
      dsimp only at h
      split at h
      · rename_i hxy'
        subst hxy'
        exact ih x (x + 1) hx (Or.inr rfl) ⟨fun h => by omega, fun _ => h0⟩ h
      · rename_i hxy'
        obtain rfl : x + 1 = y := by omega
        refine ih (x + 1) (x + 1) (by omega) (Or.inl rfl) ⟨fun _ => Or.inl ?_, fun h => by omega⟩ h
        simp only [Nat.add_sub_cancel]
        rw [Nat.mul_comm]; exact h0
    · rename_i h0
      obtain rfl : (x, y) = r := by simpa using h
      refine ⟨not_lt.1 h0, hxy, ?_⟩
      rcases hxy with rfl | rfl
      · rcases hmin.1 rfl with h | h
        · exact Or.inl h
        · right; simp [h]
      · exact Or.inl (by simpa using hmin.2 rfl)

theorem subplotLoop_total (plots : Nat) (fuel x y : Nat) (hx : 0 < x) (hy : 0 < y) (h : plots ≤ x + y + fuel - 1) :
    ∃ r, subplotLoop plots fuel x y = some r := by
  induction fuel generalizing x y with
  | zero =>
    unfold subplotLoop
    rw [if_neg]
    · exact ⟨_, rfl⟩
    · rw [not_lt]
      obtain ⟨x, rfl⟩ := Nat.exists_eq_succ_of_ne_zero hx.ne'
      obtain ⟨y, rfl⟩ := Nat.exists_eq_succ_of_ne_zero hy.ne'
      refine le_trans h ?_
      simp only [Nat.succ_eq_add_one]
      nlinarith [Nat.zero_le (x * y), show x + 1 + (y + 1) + 0 - 1 = x + y + 1 by omega]
  | succ fuel ih =>
    unfold subplotLoop
    split
    · dsimp only
      split
      · exact ih x (y + 1) hx (by omega) (by omega)
      · exact ih (x + 1) y (by omega) hy (by omega)
    · exact ⟨_, rfl⟩

/-- **C131**: the loop ends; the grid has room for all plots, is a square or has one more row than columns, and no smaller such grid has
room. -/
theorem C131_shape (plots : Nat) : ∃ x y, (∃ fuel, subplotShape plots fuel = some (x, y)) ∧ plots ≤ x * y ∧ (x = y ∨ x + 1 = y) ∧
    (x * (y - 1) < plots ∨ (x, y) = (1, 1)) := by
  obtain ⟨⟨x, y⟩, h⟩ := subplotLoop_total plots plots 1 1 one_pos one_pos (by omega)
  have := subplotLoop_spec plots plots 1 1 one_pos (Or.inl rfl) ⟨fun _ => Or.inr rfl, fun h => by omega⟩ (x, y) h
  exact ⟨x, y, ⟨plots, h⟩, this⟩

/-! ## Examples -/

/-- Two planets near the resonance 3:2. -/
example : |resonantAngle 90 3 2 (resonanceAngles (Tools.Py.elementsOfOrbit (1 : ℝ) (ellipsePosition 1 (1 / 2) 1 1 2 4)
      (ellipseVelocity 1 1 (1 / 2) 1 1 2 4))) (resonanceAngles (Tools.Py.elementsOfOrbit (1 : ℝ)
      (ellipsePosition (13 / 10) (1 / 10) 1 1 3 4) (ellipseVelocity 1 (13 / 10) (1 / 10) 1 1 3 4))) 1 - 90| ≤ 180 := by
  have hpi := Real.pi_gt_d2
  exact (C131_angles 1 1 (1 / 2) 1 1 2 4 1 (13 / 10) (1 / 10) 1 1 3 4 (by norm_num) (by norm_num) (by norm_num) (by norm_num)
    (by norm_num) (by linarith) (by norm_num) (by linarith) (by norm_num) (by norm_num) (by norm_num) (by norm_num)
    (by norm_num) (by linarith) (by norm_num) (by linarith) _ _ rfl rfl 90 (by norm_num) (by norm_num) 3 2 1 (by norm_num)
    (by norm_num)).2

/-- The settings of `explore_timed_resonances.py`: centre 90, threshold 70; an angle that librates by 30 degrees around 270. -/
example : isResonance (90 : ℝ) 70 3 2 (swinging 90 30 3 25) = false :=
  (C131_violated_libration 90 30 70 3 2 25 (by norm_num) (by norm_num) (by norm_num) (by norm_num) (by norm_num) (by norm_num)
    (by norm_num)).1

example : ∃ limit, Closest limit ∧ (14 / 9 : ℚ) ∉ possibleResonances limit (155 / 100) (5 / 100) 12 20 10 := by
  obtain ⟨limit, hl⟩ := closest_exists
  exact ⟨limit, hl, C131_violated_missed hl⟩

/-- Three halves are proposed for the ratio 3/2. -/
example : ∃ limit, Closest limit ∧ (3 / 2 : ℚ) ∈ possibleResonances limit (3 / 2) (5 / 100) 12 20 10 := by
  obtain ⟨limit, hl⟩ := closest_exists
  have h := (hl 12 (3 / 2) (by norm_num)).2 (3 / 2)
    (den_div_le 3 (b := 2) (by norm_num) (by norm_num) (by norm_num))
  have e : limit 12 (3 / 2) = 3 / 2 := by
    simp only [sub_self, abs_zero, abs_nonpos_iff, sub_eq_zero] at h
    exact h.symm
  refine ⟨limit, hl, ?_⟩
  have := C131_nominal limit (ratio := 3 / 2) (u := 5 / 100) (dl := 12) (nl := 20) (half := 5) (by norm_num) (by norm_num)
    (by
      have h2 := Rat.num_div_eq_of_coprime (a := 3) (b := 2) (by norm_num) (by decide)
      push_cast at h2
      rw [e, h2]; norm_num)
  rwa [e] at this

example : subplotShape 5 5 = some (2, 3) := by rfl

end Posidonius.Analysis
