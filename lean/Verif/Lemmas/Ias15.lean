import Verif.Spec.Ias15Tables

/-! # The corrector of IAS15 in exact arithmetic -/

namespace Posidonius.Ias15
open Posidonius

theorem addCs_real' (p i : ℝ) : addCs p (lit 0) i = (p + i, (lit 0 : ℝ)) := by
  simp [addCs]

theorem difference_real (s : Series ℝ) : s.difference = s.now - s.a0 := by
  simp [Series.difference, addCs, sub_eq_add_neg]

/-- No compensations. -/
def Series.Clean (s : Series ℝ) : Prop := s.cs = Seven.zero

/-- Coefficients `b` and `g` describe the same polynomial. -/
def Series.Linked (h : ℕ → ℝ) (s : Series ℝ) : Prop := ∀ a0 τ, poly a0 s.b τ = a0 + newtonForm h s.g τ

theorem newtonBasis_root (h : ℕ → ℝ) {n j : ℕ} (hn : 0 < n) (hj : n ≤ j) : newtonBasis h j (h n) = 0 := by
  unfold newtonBasis
  rw [mul_eq_zero]
  right
  rw [List.prod_eq_zero_iff, List.mem_map]
  exact ⟨n - 1, List.mem_range.2 (by omega), by rw [Nat.sub_add_cancel hn, sub_self]⟩

section
variable {T : Tables ℝ}

theorem start_linked (hT : Exact T) (s : Series ℝ) : (s.start T).Linked T.h := by
  intro a0 τ
  have e1 := hT.d 1 (by norm_num) τ
  have e2 := hT.d 2 (by norm_num) τ
  have e3 := hT.d 3 (by norm_num) τ
  have e4 := hT.d 4 (by norm_num) τ
  have e5 := hT.d 5 (by norm_num) τ
  have e6 := hT.d 6 (by norm_num) τ
  simp only [List.range_succ, List.range_zero, List.nil_append, List.cons_append, List.map_cons, List.map_nil, List.sum_cons,
    List.sum_nil, zero_add, add_zero, pow_one, Nat.reduceMul, Nat.reduceSub, Nat.reduceDiv, Nat.reduceAdd, mul_zero,
    Nat.zero_div, one_mul, Nat.add_zero, Nat.zero_add] at e1 e2 e3 e4 e5 e6
  have e0 : newtonBasis T.h 0 τ = τ := by simp [newtonBasis]
  simp only [poly, Series.start, newtonForm, e1, e2, e3, e4, e5, e6]
  rw [e0]
  ring

/-- Correction at spacing 1: no compensations, the polynomial changes by a multiple of the basis polynomial and
takes the value `now` at the spacing. -/
theorem correct1_spec (hT : Exact T) (s : Series ℝ) (hc : s.Clean) (hl : s.Linked T.h) :
    (s.correct1 T).Clean ∧ (s.correct1 T).Linked T.h ∧ (s.correct1 T).a0 = s.a0
    ∧ poly s.a0 (s.correct1 T).b (T.h 1) = s.now
    ∧ ∀ τ, poly s.a0 (s.correct1 T).b τ = poly s.a0 s.b τ + ((s.correct1 T).g.c0 - s.g.c0) * newtonBasis T.h 0 τ := by
  obtain ⟨a0, now, ⟨b0, b1, b2, b3, b4, b5, b6⟩, ⟨g0, g1, g2, g3, g4, g5, g6⟩, cs, e, br, er⟩ := s
  simp only [Series.Clean] at hc
  subst hc
  have ec : ∀ τ : ℝ, newtonBasis T.h 0 τ = τ := fun τ => by simp [newtonBasis]
  have r0 : T.r 0 = T.h 1 - T.h 0 := hT.r 1 (by norm_num) 0 (by norm_num)
  have n0 : T.h 1 - T.h 0 ≠ 0 := sub_ne_zero.2 (hT.distinct 1 (by norm_num) 0 (by norm_num))
  rw [hT.first] at r0 n0
  rw [sub_zero] at r0 n0
  have key : ∀ a τ, poly a (Series.correct1 T ⟨a0, now, ⟨b0, b1, b2, b3, b4, b5, b6⟩, ⟨g0, g1, g2, g3, g4, g5, g6⟩, Seven.zero, e, br, er⟩).b τ
      = poly a ⟨b0, b1, b2, b3, b4, b5, b6⟩ τ + ((Series.correct1 T ⟨a0, now, ⟨b0, b1, b2, b3, b4, b5, b6⟩, ⟨g0, g1, g2, g3, g4, g5, g6⟩, Seven.zero, e, br, er⟩).g.c0 - g0) * newtonBasis T.h 0 τ := by
    intro a τ
    simp only [Series.correct1, Series.add0, Seven.zero, addCs_real', ec]
    generalize (Series.difference _ : ℝ) = D
    simp only [poly]
    ring
  refine ⟨?_, ?_, rfl, ?_, fun τ => key a0 τ⟩
  · simp only [Series.Clean, Series.correct1, Series.add0, Seven.zero, addCs_real']
  · intro a τ
    rw [key, hl a τ]
    simp only [Series.correct1, Series.add0, Seven.zero, addCs_real', newtonForm]
    ring
  · rw [key, hl a0 (T.h 1)]
    simp only [newtonForm, newtonBasis_root T.h (n := 1) (j := 1) (by norm_num) (by norm_num), newtonBasis_root T.h (n := 1) (j := 2) (by norm_num) (by norm_num), newtonBasis_root T.h (n := 1) (j := 3) (by norm_num) (by norm_num), newtonBasis_root T.h (n := 1) (j := 4) (by norm_num) (by norm_num), newtonBasis_root T.h (n := 1) (j := 5) (by norm_num) (by norm_num), newtonBasis_root T.h (n := 1) (j := 6) (by norm_num) (by norm_num), Series.correct1, Series.add0, Seven.zero, addCs_real', difference_real, r0]
    have v0 : newtonBasis T.h 0 (T.h 1) = (T.h 1) := by
      simp [newtonBasis, List.range_succ]
    rw [v0]
    generalize T.h 1 = x0 at *
    field_simp
    ring

/-- Correction at spacing 2: no compensations, the polynomial changes by a multiple of the basis polynomial and
takes the value `now` at the spacing. -/
theorem correct2_spec (hT : Exact T) (s : Series ℝ) (hc : s.Clean) (hl : s.Linked T.h) :
    (s.correct2 T).Clean ∧ (s.correct2 T).Linked T.h ∧ (s.correct2 T).a0 = s.a0
    ∧ poly s.a0 (s.correct2 T).b (T.h 2) = s.now
    ∧ ∀ τ, poly s.a0 (s.correct2 T).b τ = poly s.a0 s.b τ + ((s.correct2 T).g.c1 - s.g.c1) * newtonBasis T.h 1 τ := by
  obtain ⟨a0, now, ⟨b0, b1, b2, b3, b4, b5, b6⟩, ⟨g0, g1, g2, g3, g4, g5, g6⟩, cs, e, br, er⟩ := s
  simp only [Series.Clean] at hc
  subst hc
  have ec := hT.c 1 (by norm_num)
  simp only [List.range_succ, List.range_zero, List.nil_append, List.cons_append, List.map_cons, List.map_nil, List.sum_cons,
    List.sum_nil, zero_add, add_zero, pow_one, Nat.reduceMul, Nat.reduceSub, Nat.reduceDiv, Nat.reduceAdd, mul_zero,
    Nat.zero_div, one_mul, Nat.add_zero, Nat.zero_add] at ec
  have r0 : T.r 1 = T.h 2 - T.h 0 := hT.r 2 (by norm_num) 0 (by norm_num)
  have n0 : T.h 2 - T.h 0 ≠ 0 := sub_ne_zero.2 (hT.distinct 2 (by norm_num) 0 (by norm_num))
  have r1 : T.r 2 = T.h 2 - T.h 1 := hT.r 2 (by norm_num) 1 (by norm_num)
  have n1 : T.h 2 - T.h 1 ≠ 0 := sub_ne_zero.2 (hT.distinct 2 (by norm_num) 1 (by norm_num))
  rw [hT.first] at r0 n0
  rw [sub_zero] at r0 n0
  have key : ∀ a τ, poly a (Series.correct2 T ⟨a0, now, ⟨b0, b1, b2, b3, b4, b5, b6⟩, ⟨g0, g1, g2, g3, g4, g5, g6⟩, Seven.zero, e, br, er⟩).b τ
      = poly a ⟨b0, b1, b2, b3, b4, b5, b6⟩ τ + ((Series.correct2 T ⟨a0, now, ⟨b0, b1, b2, b3, b4, b5, b6⟩, ⟨g0, g1, g2, g3, g4, g5, g6⟩, Seven.zero, e, br, er⟩).g.c1 - g1) * newtonBasis T.h 1 τ := by
    intro a τ
    simp only [Series.correct2, Series.add0, Series.add1, Seven.zero, addCs_real', ec]
    generalize (Series.difference _ : ℝ) = D
    simp only [poly]
    ring
  refine ⟨?_, ?_, rfl, ?_, fun τ => key a0 τ⟩
  · simp only [Series.Clean, Series.correct2, Series.add0, Series.add1, Seven.zero, addCs_real']
  · intro a τ
    rw [key, hl a τ]
    simp only [Series.correct2, Series.add0, Series.add1, Seven.zero, addCs_real', newtonForm]
    ring
  · rw [key, hl a0 (T.h 2)]
    simp only [newtonForm, newtonBasis_root T.h (n := 2) (j := 2) (by norm_num) (by norm_num), newtonBasis_root T.h (n := 2) (j := 3) (by norm_num) (by norm_num), newtonBasis_root T.h (n := 2) (j := 4) (by norm_num) (by norm_num), newtonBasis_root T.h (n := 2) (j := 5) (by norm_num) (by norm_num), newtonBasis_root T.h (n := 2) (j := 6) (by norm_num) (by norm_num), Series.correct2, Series.add0, Series.add1, Seven.zero, addCs_real', difference_real, r0, r1]
    have v0 : newtonBasis T.h 0 (T.h 2) = (T.h 2) := by
      simp [newtonBasis, List.range_succ]
    have v1 : newtonBasis T.h 1 (T.h 2) = (T.h 2) * (T.h 2 - T.h 1) := by
      simp [newtonBasis, List.range_succ]
    rw [v0, v1]
    generalize T.h 2 - T.h 1 = x1 at *
    generalize T.h 2 = x0 at *
    field_simp
    ring

/-- Correction at spacing 3: no compensations, the polynomial changes by a multiple of the basis polynomial and
takes the value `now` at the spacing. -/
theorem correct3_spec (hT : Exact T) (s : Series ℝ) (hc : s.Clean) (hl : s.Linked T.h) :
    (s.correct3 T).Clean ∧ (s.correct3 T).Linked T.h ∧ (s.correct3 T).a0 = s.a0
    ∧ poly s.a0 (s.correct3 T).b (T.h 3) = s.now
    ∧ ∀ τ, poly s.a0 (s.correct3 T).b τ = poly s.a0 s.b τ + ((s.correct3 T).g.c2 - s.g.c2) * newtonBasis T.h 2 τ := by
  obtain ⟨a0, now, ⟨b0, b1, b2, b3, b4, b5, b6⟩, ⟨g0, g1, g2, g3, g4, g5, g6⟩, cs, e, br, er⟩ := s
  simp only [Series.Clean] at hc
  subst hc
  have ec := hT.c 2 (by norm_num)
  simp only [List.range_succ, List.range_zero, List.nil_append, List.cons_append, List.map_cons, List.map_nil, List.sum_cons,
    List.sum_nil, zero_add, add_zero, pow_one, Nat.reduceMul, Nat.reduceSub, Nat.reduceDiv, Nat.reduceAdd, mul_zero,
    Nat.zero_div, one_mul, Nat.add_zero, Nat.zero_add] at ec
  have r0 : T.r 3 = T.h 3 - T.h 0 := hT.r 3 (by norm_num) 0 (by norm_num)
  have n0 : T.h 3 - T.h 0 ≠ 0 := sub_ne_zero.2 (hT.distinct 3 (by norm_num) 0 (by norm_num))
  have r1 : T.r 4 = T.h 3 - T.h 1 := hT.r 3 (by norm_num) 1 (by norm_num)
  have n1 : T.h 3 - T.h 1 ≠ 0 := sub_ne_zero.2 (hT.distinct 3 (by norm_num) 1 (by norm_num))
  have r2 : T.r 5 = T.h 3 - T.h 2 := hT.r 3 (by norm_num) 2 (by norm_num)
  have n2 : T.h 3 - T.h 2 ≠ 0 := sub_ne_zero.2 (hT.distinct 3 (by norm_num) 2 (by norm_num))
  rw [hT.first] at r0 n0
  rw [sub_zero] at r0 n0
  have key : ∀ a τ, poly a (Series.correct3 T ⟨a0, now, ⟨b0, b1, b2, b3, b4, b5, b6⟩, ⟨g0, g1, g2, g3, g4, g5, g6⟩, Seven.zero, e, br, er⟩).b τ
      = poly a ⟨b0, b1, b2, b3, b4, b5, b6⟩ τ + ((Series.correct3 T ⟨a0, now, ⟨b0, b1, b2, b3, b4, b5, b6⟩, ⟨g0, g1, g2, g3, g4, g5, g6⟩, Seven.zero, e, br, er⟩).g.c2 - g2) * newtonBasis T.h 2 τ := by
    intro a τ
    simp only [Series.correct3, Series.add0, Series.add1, Series.add2, Seven.zero, addCs_real', ec]
    generalize (Series.difference _ : ℝ) = D
    simp only [poly]
    ring
  refine ⟨?_, ?_, rfl, ?_, fun τ => key a0 τ⟩
  · simp only [Series.Clean, Series.correct3, Series.add0, Series.add1, Series.add2, Seven.zero, addCs_real']
  · intro a τ
    rw [key, hl a τ]
    simp only [Series.correct3, Series.add0, Series.add1, Series.add2, Seven.zero, addCs_real', newtonForm]
    ring
  · rw [key, hl a0 (T.h 3)]
    simp only [newtonForm, newtonBasis_root T.h (n := 3) (j := 3) (by norm_num) (by norm_num), newtonBasis_root T.h (n := 3) (j := 4) (by norm_num) (by norm_num), newtonBasis_root T.h (n := 3) (j := 5) (by norm_num) (by norm_num), newtonBasis_root T.h (n := 3) (j := 6) (by norm_num) (by norm_num), Series.correct3, Series.add0, Series.add1, Series.add2, Seven.zero, addCs_real', difference_real, r0, r1, r2]
    have v0 : newtonBasis T.h 0 (T.h 3) = (T.h 3) := by
      simp [newtonBasis, List.range_succ]
    have v1 : newtonBasis T.h 1 (T.h 3) = (T.h 3) * (T.h 3 - T.h 1) := by
      simp [newtonBasis, List.range_succ]
    have v2 : newtonBasis T.h 2 (T.h 3) = (T.h 3) * (T.h 3 - T.h 1) * (T.h 3 - T.h 2) := by
      simp [newtonBasis, List.range_succ]
      ring
    rw [v0, v1, v2]
    generalize T.h 3 - T.h 1 = x1 at *
    generalize T.h 3 - T.h 2 = x2 at *
    generalize T.h 3 = x0 at *
    field_simp
    ring

/-- Correction at spacing 4: no compensations, the polynomial changes by a multiple of the basis polynomial and
takes the value `now` at the spacing. -/
theorem correct4_spec (hT : Exact T) (s : Series ℝ) (hc : s.Clean) (hl : s.Linked T.h) :
    (s.correct4 T).Clean ∧ (s.correct4 T).Linked T.h ∧ (s.correct4 T).a0 = s.a0
    ∧ poly s.a0 (s.correct4 T).b (T.h 4) = s.now
    ∧ ∀ τ, poly s.a0 (s.correct4 T).b τ = poly s.a0 s.b τ + ((s.correct4 T).g.c3 - s.g.c3) * newtonBasis T.h 3 τ := by
  obtain ⟨a0, now, ⟨b0, b1, b2, b3, b4, b5, b6⟩, ⟨g0, g1, g2, g3, g4, g5, g6⟩, cs, e, br, er⟩ := s
  simp only [Series.Clean] at hc
  subst hc
  have ec := hT.c 3 (by norm_num)
  simp only [List.range_succ, List.range_zero, List.nil_append, List.cons_append, List.map_cons, List.map_nil, List.sum_cons,
    List.sum_nil, zero_add, add_zero, pow_one, Nat.reduceMul, Nat.reduceSub, Nat.reduceDiv, Nat.reduceAdd, mul_zero,
    Nat.zero_div, one_mul, Nat.add_zero, Nat.zero_add] at ec
  have r0 : T.r 6 = T.h 4 - T.h 0 := hT.r 4 (by norm_num) 0 (by norm_num)
  have n0 : T.h 4 - T.h 0 ≠ 0 := sub_ne_zero.2 (hT.distinct 4 (by norm_num) 0 (by norm_num))
  have r1 : T.r 7 = T.h 4 - T.h 1 := hT.r 4 (by norm_num) 1 (by norm_num)
  have n1 : T.h 4 - T.h 1 ≠ 0 := sub_ne_zero.2 (hT.distinct 4 (by norm_num) 1 (by norm_num))
  have r2 : T.r 8 = T.h 4 - T.h 2 := hT.r 4 (by norm_num) 2 (by norm_num)
  have n2 : T.h 4 - T.h 2 ≠ 0 := sub_ne_zero.2 (hT.distinct 4 (by norm_num) 2 (by norm_num))
  have r3 : T.r 9 = T.h 4 - T.h 3 := hT.r 4 (by norm_num) 3 (by norm_num)
  have n3 : T.h 4 - T.h 3 ≠ 0 := sub_ne_zero.2 (hT.distinct 4 (by norm_num) 3 (by norm_num))
  rw [hT.first] at r0 n0
  rw [sub_zero] at r0 n0
  have key : ∀ a τ, poly a (Series.correct4 T ⟨a0, now, ⟨b0, b1, b2, b3, b4, b5, b6⟩, ⟨g0, g1, g2, g3, g4, g5, g6⟩, Seven.zero, e, br, er⟩).b τ
      = poly a ⟨b0, b1, b2, b3, b4, b5, b6⟩ τ + ((Series.correct4 T ⟨a0, now, ⟨b0, b1, b2, b3, b4, b5, b6⟩, ⟨g0, g1, g2, g3, g4, g5, g6⟩, Seven.zero, e, br, er⟩).g.c3 - g3) * newtonBasis T.h 3 τ := by
    intro a τ
    simp only [Series.correct4, Series.add0, Series.add1, Series.add2, Series.add3, Seven.zero, addCs_real', ec]
    generalize (Series.difference _ : ℝ) = D
    simp only [poly]
    ring
  refine ⟨?_, ?_, rfl, ?_, fun τ => key a0 τ⟩
  · simp only [Series.Clean, Series.correct4, Series.add0, Series.add1, Series.add2, Series.add3, Seven.zero, addCs_real']
  · intro a τ
    rw [key, hl a τ]
    simp only [Series.correct4, Series.add0, Series.add1, Series.add2, Series.add3, Seven.zero, addCs_real', newtonForm]
    ring
  · rw [key, hl a0 (T.h 4)]
    simp only [newtonForm, newtonBasis_root T.h (n := 4) (j := 4) (by norm_num) (by norm_num), newtonBasis_root T.h (n := 4) (j := 5) (by norm_num) (by norm_num), newtonBasis_root T.h (n := 4) (j := 6) (by norm_num) (by norm_num), Series.correct4, Series.add0, Series.add1, Series.add2, Series.add3, Seven.zero, addCs_real', difference_real, r0, r1, r2, r3]
    have v0 : newtonBasis T.h 0 (T.h 4) = (T.h 4) := by
      simp [newtonBasis, List.range_succ]
    have v1 : newtonBasis T.h 1 (T.h 4) = (T.h 4) * (T.h 4 - T.h 1) := by
      simp [newtonBasis, List.range_succ]
    have v2 : newtonBasis T.h 2 (T.h 4) = (T.h 4) * (T.h 4 - T.h 1) * (T.h 4 - T.h 2) := by
      simp [newtonBasis, List.range_succ]
      ring
    have v3 : newtonBasis T.h 3 (T.h 4) = (T.h 4) * (T.h 4 - T.h 1) * (T.h 4 - T.h 2) * (T.h 4 - T.h 3) := by
      simp [newtonBasis, List.range_succ]
      ring
    rw [v0, v1, v2, v3]
    generalize T.h 4 - T.h 1 = x1 at *
    generalize T.h 4 - T.h 2 = x2 at *
    generalize T.h 4 - T.h 3 = x3 at *
    generalize T.h 4 = x0 at *
    field_simp
    ring

/-- Correction at spacing 5: no compensations, the polynomial changes by a multiple of the basis polynomial and
takes the value `now` at the spacing. -/
theorem correct5_spec (hT : Exact T) (s : Series ℝ) (hc : s.Clean) (hl : s.Linked T.h) :
    (s.correct5 T).Clean ∧ (s.correct5 T).Linked T.h ∧ (s.correct5 T).a0 = s.a0
    ∧ poly s.a0 (s.correct5 T).b (T.h 5) = s.now
    ∧ ∀ τ, poly s.a0 (s.correct5 T).b τ = poly s.a0 s.b τ + ((s.correct5 T).g.c4 - s.g.c4) * newtonBasis T.h 4 τ := by
  obtain ⟨a0, now, ⟨b0, b1, b2, b3, b4, b5, b6⟩, ⟨g0, g1, g2, g3, g4, g5, g6⟩, cs, e, br, er⟩ := s
  simp only [Series.Clean] at hc
  subst hc
  have ec := hT.c 4 (by norm_num)
  simp only [List.range_succ, List.range_zero, List.nil_append, List.cons_append, List.map_cons, List.map_nil, List.sum_cons,
    List.sum_nil, zero_add, add_zero, pow_one, Nat.reduceMul, Nat.reduceSub, Nat.reduceDiv, Nat.reduceAdd, mul_zero,
    Nat.zero_div, one_mul, Nat.add_zero, Nat.zero_add] at ec
  have r0 : T.r 10 = T.h 5 - T.h 0 := hT.r 5 (by norm_num) 0 (by norm_num)
  have n0 : T.h 5 - T.h 0 ≠ 0 := sub_ne_zero.2 (hT.distinct 5 (by norm_num) 0 (by norm_num))
  have r1 : T.r 11 = T.h 5 - T.h 1 := hT.r 5 (by norm_num) 1 (by norm_num)
  have n1 : T.h 5 - T.h 1 ≠ 0 := sub_ne_zero.2 (hT.distinct 5 (by norm_num) 1 (by norm_num))
  have r2 : T.r 12 = T.h 5 - T.h 2 := hT.r 5 (by norm_num) 2 (by norm_num)
  have n2 : T.h 5 - T.h 2 ≠ 0 := sub_ne_zero.2 (hT.distinct 5 (by norm_num) 2 (by norm_num))
  have r3 : T.r 13 = T.h 5 - T.h 3 := hT.r 5 (by norm_num) 3 (by norm_num)
  have n3 : T.h 5 - T.h 3 ≠ 0 := sub_ne_zero.2 (hT.distinct 5 (by norm_num) 3 (by norm_num))
  have r4 : T.r 14 = T.h 5 - T.h 4 := hT.r 5 (by norm_num) 4 (by norm_num)
  have n4 : T.h 5 - T.h 4 ≠ 0 := sub_ne_zero.2 (hT.distinct 5 (by norm_num) 4 (by norm_num))
  rw [hT.first] at r0 n0
  rw [sub_zero] at r0 n0
  have key : ∀ a τ, poly a (Series.correct5 T ⟨a0, now, ⟨b0, b1, b2, b3, b4, b5, b6⟩, ⟨g0, g1, g2, g3, g4, g5, g6⟩, Seven.zero, e, br, er⟩).b τ
      = poly a ⟨b0, b1, b2, b3, b4, b5, b6⟩ τ + ((Series.correct5 T ⟨a0, now, ⟨b0, b1, b2, b3, b4, b5, b6⟩, ⟨g0, g1, g2, g3, g4, g5, g6⟩, Seven.zero, e, br, er⟩).g.c4 - g4) * newtonBasis T.h 4 τ := by
    intro a τ
    simp only [Series.correct5, Series.add0, Series.add1, Series.add2, Series.add3, Series.add4, Seven.zero, addCs_real', ec]
    generalize (Series.difference _ : ℝ) = D
    simp only [poly]
    ring
  refine ⟨?_, ?_, rfl, ?_, fun τ => key a0 τ⟩
  · simp only [Series.Clean, Series.correct5, Series.add0, Series.add1, Series.add2, Series.add3, Series.add4, Seven.zero, addCs_real']
  · intro a τ
    rw [key, hl a τ]
    simp only [Series.correct5, Series.add0, Series.add1, Series.add2, Series.add3, Series.add4, Seven.zero, addCs_real', newtonForm]
    ring
  · rw [key, hl a0 (T.h 5)]
    simp only [newtonForm, newtonBasis_root T.h (n := 5) (j := 5) (by norm_num) (by norm_num), newtonBasis_root T.h (n := 5) (j := 6) (by norm_num) (by norm_num), Series.correct5, Series.add0, Series.add1, Series.add2, Series.add3, Series.add4, Seven.zero, addCs_real', difference_real, r0, r1, r2, r3, r4]
    have v0 : newtonBasis T.h 0 (T.h 5) = (T.h 5) := by
      simp [newtonBasis, List.range_succ]
    have v1 : newtonBasis T.h 1 (T.h 5) = (T.h 5) * (T.h 5 - T.h 1) := by
      simp [newtonBasis, List.range_succ]
    have v2 : newtonBasis T.h 2 (T.h 5) = (T.h 5) * (T.h 5 - T.h 1) * (T.h 5 - T.h 2) := by
      simp [newtonBasis, List.range_succ]
      ring
    have v3 : newtonBasis T.h 3 (T.h 5) = (T.h 5) * (T.h 5 - T.h 1) * (T.h 5 - T.h 2) * (T.h 5 - T.h 3) := by
      simp [newtonBasis, List.range_succ]
      ring
    have v4 : newtonBasis T.h 4 (T.h 5) = (T.h 5) * (T.h 5 - T.h 1) * (T.h 5 - T.h 2) * (T.h 5 - T.h 3) * (T.h 5 - T.h 4) := by
      simp [newtonBasis, List.range_succ]
      ring
    rw [v0, v1, v2, v3, v4]
    generalize T.h 5 - T.h 1 = x1 at *
    generalize T.h 5 - T.h 2 = x2 at *
    generalize T.h 5 - T.h 3 = x3 at *
    generalize T.h 5 - T.h 4 = x4 at *
    generalize T.h 5 = x0 at *
    field_simp
    ring

/-- Correction at spacing 6: no compensations, the polynomial changes by a multiple of the basis polynomial and
takes the value `now` at the spacing. -/
theorem correct6_spec (hT : Exact T) (s : Series ℝ) (hc : s.Clean) (hl : s.Linked T.h) :
    (s.correct6 T).Clean ∧ (s.correct6 T).Linked T.h ∧ (s.correct6 T).a0 = s.a0
    ∧ poly s.a0 (s.correct6 T).b (T.h 6) = s.now
    ∧ ∀ τ, poly s.a0 (s.correct6 T).b τ = poly s.a0 s.b τ + ((s.correct6 T).g.c5 - s.g.c5) * newtonBasis T.h 5 τ := by
  obtain ⟨a0, now, ⟨b0, b1, b2, b3, b4, b5, b6⟩, ⟨g0, g1, g2, g3, g4, g5, g6⟩, cs, e, br, er⟩ := s
  simp only [Series.Clean] at hc
  subst hc
  have ec := hT.c 5 (by norm_num)
  simp only [List.range_succ, List.range_zero, List.nil_append, List.cons_append, List.map_cons, List.map_nil, List.sum_cons,
    List.sum_nil, zero_add, add_zero, pow_one, Nat.reduceMul, Nat.reduceSub, Nat.reduceDiv, Nat.reduceAdd, mul_zero,
    Nat.zero_div, one_mul, Nat.add_zero, Nat.zero_add] at ec
  have r0 : T.r 15 = T.h 6 - T.h 0 := hT.r 6 (by norm_num) 0 (by norm_num)
  have n0 : T.h 6 - T.h 0 ≠ 0 := sub_ne_zero.2 (hT.distinct 6 (by norm_num) 0 (by norm_num))
  have r1 : T.r 16 = T.h 6 - T.h 1 := hT.r 6 (by norm_num) 1 (by norm_num)
  have n1 : T.h 6 - T.h 1 ≠ 0 := sub_ne_zero.2 (hT.distinct 6 (by norm_num) 1 (by norm_num))
  have r2 : T.r 17 = T.h 6 - T.h 2 := hT.r 6 (by norm_num) 2 (by norm_num)
  have n2 : T.h 6 - T.h 2 ≠ 0 := sub_ne_zero.2 (hT.distinct 6 (by norm_num) 2 (by norm_num))
  have r3 : T.r 18 = T.h 6 - T.h 3 := hT.r 6 (by norm_num) 3 (by norm_num)
  have n3 : T.h 6 - T.h 3 ≠ 0 := sub_ne_zero.2 (hT.distinct 6 (by norm_num) 3 (by norm_num))
  have r4 : T.r 19 = T.h 6 - T.h 4 := hT.r 6 (by norm_num) 4 (by norm_num)
  have n4 : T.h 6 - T.h 4 ≠ 0 := sub_ne_zero.2 (hT.distinct 6 (by norm_num) 4 (by norm_num))
  have r5 : T.r 20 = T.h 6 - T.h 5 := hT.r 6 (by norm_num) 5 (by norm_num)
  have n5 : T.h 6 - T.h 5 ≠ 0 := sub_ne_zero.2 (hT.distinct 6 (by norm_num) 5 (by norm_num))
  rw [hT.first] at r0 n0
  rw [sub_zero] at r0 n0
  have key : ∀ a τ, poly a (Series.correct6 T ⟨a0, now, ⟨b0, b1, b2, b3, b4, b5, b6⟩, ⟨g0, g1, g2, g3, g4, g5, g6⟩, Seven.zero, e, br, er⟩).b τ
      = poly a ⟨b0, b1, b2, b3, b4, b5, b6⟩ τ + ((Series.correct6 T ⟨a0, now, ⟨b0, b1, b2, b3, b4, b5, b6⟩, ⟨g0, g1, g2, g3, g4, g5, g6⟩, Seven.zero, e, br, er⟩).g.c5 - g5) * newtonBasis T.h 5 τ := by
    intro a τ
    simp only [Series.correct6, Series.add0, Series.add1, Series.add2, Series.add3, Series.add4, Series.add5, Seven.zero, addCs_real', ec]
    generalize (Series.difference _ : ℝ) = D
    simp only [poly]
    ring
  refine ⟨?_, ?_, rfl, ?_, fun τ => key a0 τ⟩
  · simp only [Series.Clean, Series.correct6, Series.add0, Series.add1, Series.add2, Series.add3, Series.add4, Series.add5, Seven.zero, addCs_real']
  · intro a τ
    rw [key, hl a τ]
    simp only [Series.correct6, Series.add0, Series.add1, Series.add2, Series.add3, Series.add4, Series.add5, Seven.zero, addCs_real', newtonForm]
    ring
  · rw [key, hl a0 (T.h 6)]
    simp only [newtonForm, newtonBasis_root T.h (n := 6) (j := 6) (by norm_num) (by norm_num), Series.correct6, Series.add0, Series.add1, Series.add2, Series.add3, Series.add4, Series.add5, Seven.zero, addCs_real', difference_real, r0, r1, r2, r3, r4, r5]
    have v0 : newtonBasis T.h 0 (T.h 6) = (T.h 6) := by
      simp [newtonBasis, List.range_succ]
    have v1 : newtonBasis T.h 1 (T.h 6) = (T.h 6) * (T.h 6 - T.h 1) := by
      simp [newtonBasis, List.range_succ]
    have v2 : newtonBasis T.h 2 (T.h 6) = (T.h 6) * (T.h 6 - T.h 1) * (T.h 6 - T.h 2) := by
      simp [newtonBasis, List.range_succ]
      ring
    have v3 : newtonBasis T.h 3 (T.h 6) = (T.h 6) * (T.h 6 - T.h 1) * (T.h 6 - T.h 2) * (T.h 6 - T.h 3) := by
      simp [newtonBasis, List.range_succ]
      ring
    have v4 : newtonBasis T.h 4 (T.h 6) = (T.h 6) * (T.h 6 - T.h 1) * (T.h 6 - T.h 2) * (T.h 6 - T.h 3) * (T.h 6 - T.h 4) := by
      simp [newtonBasis, List.range_succ]
      ring
    have v5 : newtonBasis T.h 5 (T.h 6) = (T.h 6) * (T.h 6 - T.h 1) * (T.h 6 - T.h 2) * (T.h 6 - T.h 3) * (T.h 6 - T.h 4) * (T.h 6 - T.h 5) := by
      simp [newtonBasis, List.range_succ]
      ring
    rw [v0, v1, v2, v3, v4, v5]
    generalize T.h 6 - T.h 1 = x1 at *
    generalize T.h 6 - T.h 2 = x2 at *
    generalize T.h 6 - T.h 3 = x3 at *
    generalize T.h 6 - T.h 4 = x4 at *
    generalize T.h 6 - T.h 5 = x5 at *
    generalize T.h 6 = x0 at *
    field_simp
    ring

/-- Correction at spacing 7: no compensations, the polynomial changes by a multiple of the basis polynomial and
takes the value `now` at the spacing. -/
theorem correct7_spec (hT : Exact T) (s : Series ℝ) (hc : s.Clean) (hl : s.Linked T.h) :
    (s.correct7 T).Clean ∧ (s.correct7 T).Linked T.h ∧ (s.correct7 T).a0 = s.a0
    ∧ poly s.a0 (s.correct7 T).b (T.h 7) = s.now
    ∧ ∀ τ, poly s.a0 (s.correct7 T).b τ = poly s.a0 s.b τ + ((s.correct7 T).g.c6 - s.g.c6) * newtonBasis T.h 6 τ := by
  obtain ⟨a0, now, ⟨b0, b1, b2, b3, b4, b5, b6⟩, ⟨g0, g1, g2, g3, g4, g5, g6⟩, cs, e, br, er⟩ := s
  simp only [Series.Clean] at hc
  subst hc
  have ec := hT.c 6 (by norm_num)
  simp only [List.range_succ, List.range_zero, List.nil_append, List.cons_append, List.map_cons, List.map_nil, List.sum_cons,
    List.sum_nil, zero_add, add_zero, pow_one, Nat.reduceMul, Nat.reduceSub, Nat.reduceDiv, Nat.reduceAdd, mul_zero,
    Nat.zero_div, one_mul, Nat.add_zero, Nat.zero_add] at ec
  have r0 : T.r 21 = T.h 7 - T.h 0 := hT.r 7 (by norm_num) 0 (by norm_num)
  have n0 : T.h 7 - T.h 0 ≠ 0 := sub_ne_zero.2 (hT.distinct 7 (by norm_num) 0 (by norm_num))
  have r1 : T.r 22 = T.h 7 - T.h 1 := hT.r 7 (by norm_num) 1 (by norm_num)
  have n1 : T.h 7 - T.h 1 ≠ 0 := sub_ne_zero.2 (hT.distinct 7 (by norm_num) 1 (by norm_num))
  have r2 : T.r 23 = T.h 7 - T.h 2 := hT.r 7 (by norm_num) 2 (by norm_num)
  have n2 : T.h 7 - T.h 2 ≠ 0 := sub_ne_zero.2 (hT.distinct 7 (by norm_num) 2 (by norm_num))
  have r3 : T.r 24 = T.h 7 - T.h 3 := hT.r 7 (by norm_num) 3 (by norm_num)
  have n3 : T.h 7 - T.h 3 ≠ 0 := sub_ne_zero.2 (hT.distinct 7 (by norm_num) 3 (by norm_num))
  have r4 : T.r 25 = T.h 7 - T.h 4 := hT.r 7 (by norm_num) 4 (by norm_num)
  have n4 : T.h 7 - T.h 4 ≠ 0 := sub_ne_zero.2 (hT.distinct 7 (by norm_num) 4 (by norm_num))
  have r5 : T.r 26 = T.h 7 - T.h 5 := hT.r 7 (by norm_num) 5 (by norm_num)
  have n5 : T.h 7 - T.h 5 ≠ 0 := sub_ne_zero.2 (hT.distinct 7 (by norm_num) 5 (by norm_num))
  have r6 : T.r 27 = T.h 7 - T.h 6 := hT.r 7 (by norm_num) 6 (by norm_num)
  have n6 : T.h 7 - T.h 6 ≠ 0 := sub_ne_zero.2 (hT.distinct 7 (by norm_num) 6 (by norm_num))
  rw [hT.first] at r0 n0
  rw [sub_zero] at r0 n0
  have key : ∀ a τ, poly a (Series.correct7 T ⟨a0, now, ⟨b0, b1, b2, b3, b4, b5, b6⟩, ⟨g0, g1, g2, g3, g4, g5, g6⟩, Seven.zero, e, br, er⟩).b τ
      = poly a ⟨b0, b1, b2, b3, b4, b5, b6⟩ τ + ((Series.correct7 T ⟨a0, now, ⟨b0, b1, b2, b3, b4, b5, b6⟩, ⟨g0, g1, g2, g3, g4, g5, g6⟩, Seven.zero, e, br, er⟩).g.c6 - g6) * newtonBasis T.h 6 τ := by
    intro a τ
    simp only [Series.correct7, Series.add0, Series.add1, Series.add2, Series.add3, Series.add4, Series.add5, Series.add6, Seven.zero, addCs_real', ec]
    generalize (Series.difference _ : ℝ) = D
    simp only [poly]
    ring
  refine ⟨?_, ?_, rfl, ?_, fun τ => key a0 τ⟩
  · simp only [Series.Clean, Series.correct7, Series.add0, Series.add1, Series.add2, Series.add3, Series.add4, Series.add5, Series.add6, Seven.zero, addCs_real']
  · intro a τ
    rw [key, hl a τ]
    simp only [Series.correct7, Series.add0, Series.add1, Series.add2, Series.add3, Series.add4, Series.add5, Series.add6, Seven.zero, addCs_real', newtonForm]
    ring
  · rw [key, hl a0 (T.h 7)]
    simp only [newtonForm, Series.correct7, Series.add0, Series.add1, Series.add2, Series.add3, Series.add4, Series.add5, Series.add6, Seven.zero, addCs_real', difference_real, r0, r1, r2, r3, r4, r5, r6]
    have v0 : newtonBasis T.h 0 (T.h 7) = (T.h 7) := by
      simp [newtonBasis, List.range_succ]
    have v1 : newtonBasis T.h 1 (T.h 7) = (T.h 7) * (T.h 7 - T.h 1) := by
      simp [newtonBasis, List.range_succ]
    have v2 : newtonBasis T.h 2 (T.h 7) = (T.h 7) * (T.h 7 - T.h 1) * (T.h 7 - T.h 2) := by
      simp [newtonBasis, List.range_succ]
      ring
    have v3 : newtonBasis T.h 3 (T.h 7) = (T.h 7) * (T.h 7 - T.h 1) * (T.h 7 - T.h 2) * (T.h 7 - T.h 3) := by
      simp [newtonBasis, List.range_succ]
      ring
    have v4 : newtonBasis T.h 4 (T.h 7) = (T.h 7) * (T.h 7 - T.h 1) * (T.h 7 - T.h 2) * (T.h 7 - T.h 3) * (T.h 7 - T.h 4) := by
      simp [newtonBasis, List.range_succ]
      ring
    have v5 : newtonBasis T.h 5 (T.h 7) = (T.h 7) * (T.h 7 - T.h 1) * (T.h 7 - T.h 2) * (T.h 7 - T.h 3) * (T.h 7 - T.h 4) * (T.h 7 - T.h 5) := by
      simp [newtonBasis, List.range_succ]
      ring
    have v6 : newtonBasis T.h 6 (T.h 7) = (T.h 7) * (T.h 7 - T.h 1) * (T.h 7 - T.h 2) * (T.h 7 - T.h 3) * (T.h 7 - T.h 4) * (T.h 7 - T.h 5) * (T.h 7 - T.h 6) := by
      simp [newtonBasis, List.range_succ]
      ring
    rw [v0, v1, v2, v3, v4, v5, v6]
    generalize T.h 7 - T.h 1 = x1 at *
    generalize T.h 7 - T.h 2 = x2 at *
    generalize T.h 7 - T.h 3 = x3 at *
    generalize T.h 7 - T.h 4 = x4 at *
    generalize T.h 7 - T.h 5 = x5 at *
    generalize T.h 7 - T.h 6 = x6 at *
    generalize T.h 7 = x0 at *
    field_simp
    ring

end
end Posidonius.Ias15
