import Verif.Model.SingleResonance
import Verif.Props.Resonances

/-! # C139: one resonance of two planets -/

namespace Posidonius.Analysis

/-- Longitude of the perihelion and mean longitude. -/
noncomputable def Sample.peri (s : Sample ℝ) : ℝ := s.angles.g + s.angles.n
noncomputable def Sample.mean (s : Sample ℝ) : ℝ := s.angles.m + s.angles.g + s.angles.n

theorem foldAngle_eq (x : ℝ) : foldAngle x = fold 90 x := by
  rw [fold_real]
  simp only [foldAngle, ltb_real, lit_real]
  norm_num

theorem foldAngle_spec (x : ℝ) : -90 < foldAngle x ∧ foldAngle x ≤ 270 ∧ ∃ k : ℤ, foldAngle x = x + k * 360 := by
  obtain ⟨a, b, k, hk⟩ := mod360_spec x
  rw [foldAngle_eq, fold_real]
  split_ifs with h h'
  · linarith
  · exact ⟨by linarith, by linarith, k - 1, by rw [hk]; push_cast; ring⟩
  · exact ⟨by linarith, by linarith, k, hk⟩

theorem pyIndex_nat {A : Type} (l : List A) (i : Nat) : pyIndex l i = l[i]? := by simp [pyIndex]

/-- **C139**: for two planets of the history, numbered from one, and periods `p ≥ q` the figure shows the resonant angles
`p λ' - q λ - i ϖ - (p - q - i) ϖ'`, the difference of the perihelia, both in degrees from -90 (exclusively) to 270, and the ratio
of the periods by Kepler's third law, at all times; the figure has room for all. -/
theorem C139_figure {inner outer p q : Nat} (planets : List (List (Sample ℝ))) (h1 : 1 ≤ inner) (h2 : inner < outer)
    (h3 : outer ≤ planets.length) (hq : q ≤ p) :
    ∃ (f : Figure ℝ) (a b : List (Sample ℝ)), singleResonance inner outer p q planets = some f
      ∧ planets[inner - 1]? = some a ∧ planets[outer - 1]? = some b
      ∧ f.phi.length = p - q + 1
      ∧ (∀ (i : Nat) (l : List ℝ), f.phi[i]? = some l → l.length = min a.length b.length ∧ ∀ (t : Nat) (v : ℝ), l[t]? = some v →
        ∃ s s', a[t]? = some s ∧ b[t]? = some s' ∧ -90 < v ∧ v ≤ 270
          ∧ ∃ k : ℤ, v = p * s'.mean - q * s.mean - i * s.peri - (p - q - i) * s'.peri + k * 360)
      ∧ (f.delta.length = min a.length b.length ∧ ∀ (t : Nat) (v : ℝ), f.delta[t]? = some v →
        ∃ s s', a[t]? = some s ∧ b[t]? = some s' ∧ -90 < v ∧ v ≤ 270 ∧ ∃ k : ℤ, v = s'.peri - s.peri + k * 360)
      ∧ (f.ratio.length = min a.length b.length ∧ ∀ (t : Nat) (v : ℝ), f.ratio[t]? = some v →
        ∃ s s', a[t]? = some s ∧ b[t]? = some s' ∧ (0 < s.a → 0 < s'.a → 0 < v ∧ v ^ 2 = (s'.a / s.a) ^ 3))
      ∧ ∃ x y, f.shape = some (x, y) ∧ f.phi.length + 2 ≤ x * y := by
  obtain ⟨a, ha⟩ : ∃ a, planets[inner - 1]? = some a := ⟨_, List.getElem?_eq_getElem (by omega)⟩
  obtain ⟨b, hb⟩ : ∃ b, planets[outer - 1]? = some b := ⟨_, List.getElem?_eq_getElem (by omega)⟩
  obtain ⟨c, hc⟩ : ∃ c, planets[inner]? = some c := ⟨_, List.getElem?_eq_getElem (by omega)⟩
  have e : ((p : ℤ) - q) = ((p - q : ℕ) : ℤ) := by omega
  have pair : ∀ {A : Type} (g : Sample ℝ × Sample ℝ → A) (t : Nat) (v : A), ((a.zip b).map g)[t]? = some v →
      ∃ s s', a[t]? = some s ∧ b[t]? = some s' ∧ v = g (s, s') := by
    intro A g t v h
    rw [List.getElem?_map, Option.map_eq_some_iff] at h
    obtain ⟨⟨s, s'⟩, h, rfl⟩ := h
    rw [List.getElem?_zip_eq_some] at h
    exact ⟨s, s', h.1, h.2, rfl⟩
  refine ⟨figure p q a b, a, b, ?_, ha, hb, ?_, ?_, ?_, ?_, ?_⟩
  · unfold singleResonance
    rw [if_neg (by omega), if_neg (by omega), pyIndex_nat, hc, show (inner : ℤ) - 1 = ((inner - 1 : ℕ) : ℤ) by omega, pyIndex_nat,
      ha, show (outer : ℤ) - 1 = ((outer - 1 : ℕ) : ℤ) by omega, pyIndex_nat, hb]
  · simp only [figure, List.length_map, List.length_range]
    omega
  · intro i l h
    simp only [figure] at h
    rw [List.getElem?_map, Option.map_eq_some_iff] at h
    obtain ⟨j, hj, rfl⟩ := h
    rw [List.getElem?_eq_some_iff] at hj
    obtain ⟨hi, hj⟩ := hj
    rw [List.getElem_range] at hj
    subst hj
    refine ⟨by simp, fun t v hv => ?_⟩
    obtain ⟨s, s', hs, hs', rfl⟩ := pair _ t v hv
    obtain ⟨h1, h2, k, hk⟩ := foldAngle_spec (lit (p : ℤ) * (s'.angles.m + (s'.angles.g + s'.angles.n))
      - lit (q : ℤ) * (s.angles.m + (s.angles.g + s.angles.n)) - lit i * (s.angles.g + s.angles.n)
      - lit (((p : ℤ) - q - i : ℤ) : ℚ) * (s'.angles.g + s'.angles.n))
    refine ⟨s, s', hs, hs', h1, h2, k, hk.trans ?_⟩
    simp only [lit_real, Sample.mean, Sample.peri]
    push_cast
    ring
  · refine ⟨by simp [figure], fun t v hv => ?_⟩
    obtain ⟨s, s', hs, hs', rfl⟩ := pair _ t v hv
    obtain ⟨h1, h2, k, hk⟩ := foldAngle_spec (s'.angles.g + s'.angles.n - (s.angles.g + s.angles.n))
    exact ⟨s, s', hs, hs', h1, h2, k, hk⟩
  · refine ⟨by simp [figure], fun t v hv => ?_⟩
    obtain ⟨s, s', hs, hs', rfl⟩ := pair _ t v hv
    refine ⟨s, s', hs, hs', fun p1 p2 => ?_⟩
    have h0 : 0 < s'.a / s.a := div_pos p2 p1
    change 0 < (s'.a / s.a) ^ (lit 1.5 : ℝ) ∧ ((s'.a / s.a) ^ (lit 1.5 : ℝ)) ^ 2 = _
    refine ⟨Real.rpow_pos_of_pos h0 _, ?_⟩
    rw [← Real.rpow_natCast, ← Real.rpow_mul h0.le, ← Real.rpow_natCast]
    congr 1
    simp only [lit_real]
    norm_num
  · obtain ⟨⟨x, y⟩, h⟩ := subplotLoop_total (p - q + 3) (p - q + 3) 1 1 one_pos one_pos (by omega)
    have := subplotLoop_spec _ _ 1 1 one_pos (Or.inl rfl) ⟨fun _ => Or.inr rfl, fun h => by omega⟩ (x, y) h
    refine ⟨x, y, ?_, ?_⟩
    · simp only [figure]
      rw [show ((p : ℤ) - q + 3).toNat = p - q + 3 by omega]
      exact h
    · simp only [figure, List.length_map, List.length_range]
      refine le_trans ?_ this.1
      omega

/-- **C139**: the angles of the figure are those by which the resonance is tested (with the centre 90 that
`explore_timed_resonances.py` uses). -/
theorem C139_tested (p q i : Nat) (hq : q ≤ p) (a b : List (Sample ℝ)) (l : List ℝ) (h : (figure p q a b).phi[i]? = some l) :
    l = (a.zip b).map fun s => resonantAngle 90 p q s.1.angles s.2.angles i := by
  simp only [figure] at h
  rw [List.getElem?_map, Option.map_eq_some_iff] at h
  obtain ⟨j, hj, rfl⟩ := h
  rw [List.getElem?_eq_some_iff] at hj
  obtain ⟨hi, hj⟩ := hj
  rw [List.getElem_range] at hj
  subst hj
  refine List.map_congr_left fun s _ => ?_
  rw [foldAngle_eq, resonantAngle]
  have hi' : i ≤ p - q := by simp only [List.length_range] at hi; omega
  have e : ((p : ℤ) - q - i : ℤ) = ((p - q - i : ℕ) : ℤ) := by omega
  rw [e]
  simp only [Int.cast_natCast]

/-- **C139**: planets in the wrong order, resonances that are turned round and planets that the history does not have are refused. -/
theorem C139_rejects (inner outer p q : ℤ) (planets : List (List (Sample ℝ)))
    (h : outer < inner ∨ p < q ∨ planets.length < outer) : singleResonance inner outer p q planets = none := by
  unfold singleResonance
  split_ifs with h1 h2
  · rfl
  · rfl
  · have h3 : (planets.length : ℤ) < outer := by omega
    have : pyIndex planets (outer - 1) = none := by
      unfold pyIndex
      rw [if_pos (by omega), List.getElem?_eq_none_iff]
      omega
    rw [this]
    split <;> simp_all

/-- **C139 is violated**: the number zero, which no planet has, is taken for the last planet; the figure is that of the last
planet as the inner one. -/
theorem C139_violated_zero (outer p q : ℕ) (planets : List (List (Sample ℝ))) (h1 : 1 ≤ outer) (h3 : outer ≤ planets.length)
    (hq : q ≤ p) : ∃ a b, planets.getLast? = some a ∧ planets[outer - 1]? = some b
      ∧ singleResonance 0 outer p q planets = some (figure p q a b) := by
  obtain ⟨a, ha⟩ : ∃ a, planets[planets.length - 1]? = some a := ⟨_, List.getElem?_eq_getElem (by omega)⟩
  obtain ⟨b, hb⟩ : ∃ b, planets[outer - 1]? = some b := ⟨_, List.getElem?_eq_getElem (by omega)⟩
  obtain ⟨c, hc⟩ : ∃ c, planets[0]? = some c := ⟨_, List.getElem?_eq_getElem (by omega)⟩
  refine ⟨a, b, by rw [List.getLast?_eq_getElem?, ha], hb, ?_⟩
  have e0 : pyIndex planets 0 = some c := by rw [← hc]; exact pyIndex_nat planets 0
  have e1 : pyIndex planets (0 - 1) = some a := by
    unfold pyIndex
    rw [if_neg (by omega), if_pos (by omega), ← ha]
    congr 1
    omega
  have e2 : pyIndex planets ((outer : ℤ) - 1) = some b := by
    rw [show (outer : ℤ) - 1 = ((outer - 1 : ℕ) : ℤ) by omega, pyIndex_nat, hb]
  unfold singleResonance
  rw [if_neg (by omega), if_neg (by omega), e0, e1, e2]

/-- **C139 is violated**: a planet is accepted as its own partner, although the inner number "should be always smaller", unless it
is the last planet. -/
theorem C139_violated_same (i p q : ℕ) (planets : List (List (Sample ℝ))) (h1 : 1 ≤ i) (h3 : i ≤ planets.length) (hq : q ≤ p) :
    (singleResonance i i p q planets).isSome ↔ i < planets.length := by
  obtain ⟨a, ha⟩ : ∃ a, planets[i - 1]? = some a := ⟨_, List.getElem?_eq_getElem (by omega)⟩
  have e1 : pyIndex planets ((i : ℤ) - 1) = some a := by
    rw [show (i : ℤ) - 1 = ((i - 1 : ℕ) : ℤ) by omega, pyIndex_nat, ha]
  unfold singleResonance
  rw [if_neg (by omega), if_neg (by omega), pyIndex_nat, e1]
  rcases lt_or_ge i planets.length with h | h
  · rw [List.getElem?_eq_getElem h]
    simp [h]
  · rw [List.getElem?_eq_none_iff.2 h]
    simp [h]

/-- Two planets and one time: the resonance 3:2 has two angles. -/
example : ∃ f, singleResonance 1 2 3 2 [[⟨(1 : ℝ), ⟨10, 20, 30⟩⟩], [⟨4, ⟨50, 60, 70⟩⟩]] = some f ∧ f.phi.length = 2
    ∧ f.delta = [80] := by
  obtain ⟨f, a, b, h, ha, hb, hp, -, ⟨hl, hd⟩, -⟩ := C139_figure (inner := 1) (outer := 2) (p := 3) (q := 2)
    [[⟨(1 : ℝ), ⟨10, 20, 30⟩⟩], [⟨4, ⟨50, 60, 70⟩⟩]] (by norm_num) (by norm_num) (by simp) (by norm_num)
  obtain rfl : [⟨(1 : ℝ), ⟨10, 20, 30⟩⟩] = a := by simpa using ha
  obtain rfl : [⟨(4 : ℝ), ⟨50, 60, 70⟩⟩] = b := by simpa using hb
  refine ⟨f, h, hp, ?_⟩
  obtain ⟨v, hv⟩ := List.length_eq_one_iff.1 hl
  obtain ⟨s, s', hs, hs', h1, h2, k, hk⟩ := hd 0 v (by simp [hv])
  obtain rfl : (⟨1, ⟨10, 20, 30⟩⟩ : Sample ℝ) = s := by simpa using hs
  obtain rfl : (⟨4, ⟨50, 60, 70⟩⟩ : Sample ℝ) = s' := by simpa using hs'
  simp only [Sample.peri] at hk
  have k1 : (k : ℝ) < 1 := by linarith
  have k2 : (-1 : ℝ) < k := by linarith
  have k0 : k = 0 := by
    have : k < 1 := by exact_mod_cast k1
    have : -1 < k := by exact_mod_cast k2
    omega
  rw [hv, hk, k0]
  norm_num

/-- Planet 0 of a system of two planets. -/
example : ∃ f, singleResonance 0 1 3 2 [[⟨(1 : ℝ), ⟨10, 20, 30⟩⟩], [⟨4, ⟨50, 60, 70⟩⟩]] = some f :=
  have ⟨_, _, _, _, h⟩ := C139_violated_zero 1 3 2 [[⟨(1 : ℝ), ⟨10, 20, 30⟩⟩], [⟨4, ⟨50, 60, 70⟩⟩]] (by norm_num) (by simp)
    (by norm_num)
  ⟨_, h⟩

end Posidonius.Analysis
