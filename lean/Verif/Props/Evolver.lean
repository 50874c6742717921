import Verif.Lemmas.Evolver
import Verif.Props.Interp

/-! # C28, C29, C30: evolving bodies -/

namespace Posidonius.Evolution
open Posidonius.Interp

/-- A state from which lookups are possible. -/
def Ready {F : Type} (e : Evolver F) : Prop := e.evolution ≠ .nonEvolving → e.idx < e.time.length

section Any
variable {F : Type} [Add F] [Sub F] [Mul F] [Div F] [FOps F]

theorem tabulated_evolving {k : EvolutionType} {q : Quantity} (h : Tabulated k q = true) :
    k ≠ .nonEvolving := by
  rintro rfl
  cases q <;> simp [Tabulated] at h

/-- **C27/C28, no panic**: whatever the tables contain (NaN, unsorted), whatever is asked at whatever
times in whatever order, the lookups never index out of bounds. -/
theorem C28_lookups_never_panic (qs : List (Quantity × F × F)) (e : Evolver F) (hc : Consistent e)
    (hr : Ready e) : ∃ vs e', queries e qs = some (vs, e') ∧ vs.length = qs.length := by
  induction qs generalizing e with
  | nil => exact ⟨[], e, rfl, rfl⟩
  | cons a rest ih =>
    obtain ⟨q, t, current⟩ := a
    by_cases htab : Tabulated e.evolution q = true
    · have hev := tabulated_evolving htab
      obtain ⟨v, l, r, h1, _, _, h4, h5⟩ := lookup_total e t (e.column q) (hr hev) (hc.lengths q htab)
      obtain ⟨vs, e', h6, h7⟩ := ih { e with leftIndex := e.leftIndex + l }
        ⟨hc.nonempty, fun q h => by cases q <;> exact hc.lengths _ h⟩ (fun _ => lt_of_le_of_lt h5 h4)
      refine ⟨v :: vs, e', ?_, by simp [h7]⟩
      rw [queries, query_eq, if_pos htab, h1]
      simp [h6]
    · obtain ⟨vs, e', h6, h7⟩ := ih e hc hr
      refine ⟨current :: vs, e', ?_, by simp [h7]⟩
      rw [queries, query_eq, if_neg htab]
      simp [h6]

end Any

/-- The search starts at a point whose past is the past of `m`, if the body evolves. -/
def PastIfEvolving (e : Evolver ℝ) (m : ℝ) : Prop := e.evolution ≠ .nonEvolving → Past e m

theorem tableValue_leftIndex (e : Evolver ℝ) (n : Nat) (q : Quantity) (t c : ℝ) :
    tableValue ({ e with leftIndex := n } : Evolver ℝ) q t c = tableValue e q t c := by
  cases q <;> rfl

/-- One query: exact, and the invariants are kept. -/
theorem query_step (e : Evolver ℝ) (hc : Consistent e) (hr : Ready e) (m : ℝ) (hm : PastIfEvolving e m)
    (q : Quantity) (t c : ℝ) :
    ∃ v n, query e q t c = some (v, { e with leftIndex := n }) ∧
      Consistent ({ e with leftIndex := n } : Evolver ℝ) ∧
      Ready ({ e with leftIndex := n } : Evolver ℝ) ∧
      PastIfEvolving ({ e with leftIndex := n } : Evolver ℝ) (max m t) ∧
      (PastIfEvolving e t → tableValue e q t c = some v) := by
  by_cases htab : Tabulated e.evolution q = true
  · have hev := tabulated_evolving htab
    obtain ⟨v, l, r, h1, h2, h3, h4, h5⟩ := lookup_total e t (e.column q) (hr hev) (hc.lengths q htab)
    obtain ⟨p1, p2, _⟩ := lookup_past e t m (e.column q) (hr hev) (hc.lengths q htab) (hm hev) v _ h1
    refine ⟨v, e.leftIndex + l, ?_, ⟨hc.nonempty, fun q h => by cases q <;> exact hc.lengths _ h⟩,
      fun _ => p2, fun _ => p1, fun ht => ?_⟩
    · rw [query_eq, if_pos htab, h1]
    · obtain ⟨v', l', g1, g2⟩ := lookup_exact e t (e.column q) (hr hev) (hc.lengths q htab) (ht hev)
      rw [h1] at g1
      simp only [Option.some.injEq, Prod.mk.injEq] at g1
      simp only [tableValue, htab, if_true, g2, g1.1]
  · refine ⟨c, e.leftIndex, ?_, hc, hr, fun hev => ?_, fun _ => ?_⟩
    · rw [query_eq, if_neg htab]
    · rcases hm hev with h | h
      · exact Or.inl h
      · exact Or.inr fun i hi hle => (h i hi hle).trans (le_max_left _ _)
    · simp [tableValue, htab]

/-- **C28**: if times are asked for in non-decreasing order, starting from a new evolver, every lookup
returns exactly the value from the complete table (for every table, sorted or not). -/
theorem C28_cached_equals_full (e : Evolver ℝ) (hc : Consistent e) (h0 : e.leftIndex = 0)
    (qs : List (Quantity × ℝ × ℝ)) (hs : qs.Pairwise fun a b => a.2.1 ≤ b.2.1) :
    ∃ vs e', queries e qs = some (vs, e') ∧
      List.Forall₂ (fun a v => tableValue e a.1 a.2.1 a.2.2 = some v) qs vs := by
  have gen : ∀ (qs : List (Quantity × ℝ × ℝ)) (n : Nat) (m : ℝ),
      Consistent ({ e with leftIndex := n } : Evolver ℝ) → Ready ({ e with leftIndex := n } : Evolver ℝ) →
      PastIfEvolving ({ e with leftIndex := n } : Evolver ℝ) m →
      (∀ a ∈ qs, m ≤ a.2.1) → (qs.Pairwise fun a b => a.2.1 ≤ b.2.1) →
      ∃ vs e', queries ({ e with leftIndex := n } : Evolver ℝ) qs = some (vs, e') ∧
        List.Forall₂ (fun a v => tableValue e a.1 a.2.1 a.2.2 = some v) qs vs := by
    intro qs
    induction qs with
    | nil => intro n m _ _ _ _ _; exact ⟨[], _, rfl, .nil⟩
    | cons a rest ih =>
      intro n m hc hr hm hle hs
      obtain ⟨q, t, c⟩ := a
      obtain ⟨v, n', h1, h2, h3, h4, h5⟩ := query_step _ hc hr m hm q t c
      have hmt : m ≤ t := hle _ (List.mem_cons_self)
      rw [List.pairwise_cons] at hs
      rw [max_eq_right hmt] at h4
      obtain ⟨vs, e', g1, g2⟩ := ih n' t h2 h3 h4 (fun a ha => hs.1 a ha) hs.2
      have hpt : PastIfEvolving ({ e with leftIndex := n } : Evolver ℝ) t := by
        intro hev
        rcases hm hev with h | h
        · exact Or.inl h
        · exact Or.inr fun i hi hle => (h i hi hle).trans hmt
      refine ⟨v :: vs, e', ?_, .cons ?_ g2⟩
      · rw [queries, h1]
        simp only [g1]
      · rw [← tableValue_leftIndex e n]; exact h5 hpt
  cases qs with
  | nil => exact ⟨[], e, rfl, .nil⟩
  | cons a rest =>
    have h1 := gen (a :: rest) 0 a.2.1 (by rw [← h0]; exact hc)
      (fun hev => by
        have := hc.nonempty hev
        rw [idx_of_leftIndex]
        simpa using List.length_pos_iff.mpr this)
      (fun _ => Or.inl (by simp [idx_of_leftIndex]))
      (fun b hb => by
        rcases List.mem_cons.mp hb with rfl | hb
        · exact le_refl _
        · exact (List.pairwise_cons.mp hs).1 b hb) hs
    rw [← h0] at h1
    exact h1

/-- **C29, what holds** (missing: going back past a table sample): after any lookups at all, in any order,
a lookup at time `t` is exact if no table sample lies between `t` and the latest time asked for. -/
theorem C29_partial (e : Evolver ℝ) (hc : Consistent e) (h0 : e.leftIndex = 0)
    (qs : List (Quantity × ℝ × ℝ)) (latest : ℝ) (hl : ∀ a ∈ qs, a.2.1 ≤ latest) (q : Quantity) (t c : ℝ)
    (hgap : ∀ x ∈ e.time, x ≤ latest → x ≤ t) :
    ∃ vs e' v e'', queries e qs = some (vs, e') ∧ query e' q t c = some (v, e'') ∧
      tableValue e q t c = some v := by
  have gen : ∀ (qs : List (Quantity × ℝ × ℝ)) (n : Nat),
      Consistent ({ e with leftIndex := n } : Evolver ℝ) → Ready ({ e with leftIndex := n } : Evolver ℝ) →
      PastIfEvolving ({ e with leftIndex := n } : Evolver ℝ) latest →
      (∀ a ∈ qs, a.2.1 ≤ latest) →
      ∃ vs n', queries ({ e with leftIndex := n } : Evolver ℝ) qs = some (vs, { e with leftIndex := n' }) ∧
        Consistent ({ e with leftIndex := n' } : Evolver ℝ) ∧ Ready ({ e with leftIndex := n' } : Evolver ℝ) ∧
        PastIfEvolving ({ e with leftIndex := n' } : Evolver ℝ) latest := by
    intro qs
    induction qs with
    | nil => intro n h1 h2 h3 _; exact ⟨[], n, rfl, h1, h2, h3⟩
    | cons a rest ih =>
      intro n hc hr hm hle
      obtain ⟨q, t, c⟩ := a
      obtain ⟨v, n', h1, h2, h3, h4, _⟩ := query_step _ hc hr latest hm q t c
      have hmt : t ≤ latest := hle _ (List.mem_cons_self)
      rw [max_eq_left hmt] at h4
      obtain ⟨vs, n'', g1, g2⟩ := ih n' h2 h3 h4 (fun a ha => hle a (List.mem_cons_of_mem _ ha))
      refine ⟨v :: vs, n'', ?_, g2⟩
      rw [queries, h1]
      simp only [g1]
  obtain ⟨vs, n', h1, h2, h3, h4⟩ := gen qs 0 (by rw [← h0]; exact hc)
    (fun hev => by
      have := hc.nonempty hev
      rw [idx_of_leftIndex]
      simpa using List.length_pos_iff.mpr this)
    (fun _ => Or.inl (by simp [idx_of_leftIndex])) hl
  rw [← h0] at h1
  obtain ⟨v, n'', g1, _, _, _, g5⟩ := query_step _ h2 h3 latest h4 q t c
  refine ⟨vs, _, v, _, h1, g1, ?_⟩
  rw [← tableValue_leftIndex e n']
  apply g5
  intro hev
  rcases h4 hev with h | h
  · exact Or.inl h
  · exact Or.inr fun i hi hle => hgap _ (List.getElem_mem hi) (h i hi hle)

theorem findIndices_of_bracket {x : List ℝ} (hx : Increasing x) {k : Nat} (hk : k + 1 < x.length) {t : ℝ}
    (h1 : x[k] ≤ t) (h2 : t < x[k + 1]) : findIndices x t = some (k, k + 1) := by
  have hne : x ≠ [] := by intro h; simp [h] at hk
  rcases findIndices_cases x t hne with ⟨g1, g⟩ | ⟨g2, g3, g⟩ | ⟨i, hi, g3, g4, g⟩
  · have := g1 x[k + 1] (List.getElem_mem _)
    simp only [ltb_real_false] at this
    linarith
  · simp only [ltb_real] at g3
    have := hx.le_of_le (i := 0) (j := k) (by omega) (by omega)
    linarith
  · simp only [ltb_real] at g3
    have : i = k := by
      by_contra hne
      rcases lt_or_gt_of_ne hne with hlt | hgt
      · have := hx.le_of_le (i := i + 1) (j := k) (by omega) (by omega)
        linarith
      · have := g4 (k + 1) (by omega)
        simp only [ltb_real_false] at this
        linarith
    subst this
    exact g

/-- **C29 is violated** by every table with more than 12 samples: after two lookups at a time `t` in the
interval starting at sample `k ≥ 11`, a lookup at a time `t'` in the interval just before returns the
value at sample `k`, not the table's value at `t'`.  Less than one sample back in time is enough. -/
theorem C29_violated (e : Evolver ℝ) (_hc : Consistent e) (h0 : e.leftIndex = 0)
    (hev : Tabulated e.evolution .radius = true) (hx : Increasing e.time) (k : Nat) (hk : 11 ≤ k)
    (hlen : k + 1 < e.time.length) (hl : e.radius.length = e.time.length) (t t' c : ℝ)
    (ht : e.time[k] ≤ t ∧ t < e.time[k + 1]) (ht' : e.time[k - 1] ≤ t' ∧ t' < e.time[k])
    (hy : e.radius[k - 1] ≠ e.radius[k]) :
    ∃ v1 v2 v3 e', queries e [(.radius, t, c), (.radius, t, c), (.radius, t', c)] =
        some ([v1, v2, v3], e') ∧
      v3 = e.radius[k] ∧ tableValue e .radius t' c ≠ some v3 := by
  have hf := findIndices_of_bracket hx hlen ht.1 ht.2
  have hcol : e.column .radius = e.radius := rfl
  have q : ∀ (n : Nat) (s : ℝ), query ({ e with leftIndex := n } : Evolver ℝ) .radius s c =
      ({ e with leftIndex := n } : Evolver ℝ).lookup s e.radius := by
    intro n s
    rw [query_eq, if_pos hev]
    rfl
  -- first lookup
  have i0 : ({ e with leftIndex := 0 } : Evolver ℝ).idx = 0 := by simp [idx_of_leftIndex]
  obtain ⟨v1, l1, r1, a1, _, a3, _, _⟩ := lookup_total ({ e with leftIndex := 0 } : Evolver ℝ) t e.radius
    (by rw [i0]; simp only; omega) hl
  rw [i0] at a3
  simp only [List.drop_zero, hf, Option.some.injEq, Prod.mk.injEq] at a3
  obtain ⟨rfl, -⟩ := a3
  simp only [Nat.zero_add] at a1
  -- second lookup
  have i1 : ({ e with leftIndex := k } : Evolver ℝ).idx = k - 10 := by rw [idx_of_leftIndex]
  obtain ⟨v2, l2, r2, b1, _, b3, _, _⟩ := lookup_total ({ e with leftIndex := k } : Evolver ℝ) t e.radius
    (by rw [i1]; simp only; omega) hl
  have b4 := findIndices_drop e.time (k - 10) (by omega) t
    (Or.inr fun i hi hle => (hx.le_of_le (i := i) (j := k) (by omega) (by omega)).trans ht.1) l2 r2
    (by rw [i1] at b3; exact b3)
  rw [hf] at b4
  simp only [Option.some.injEq, Prod.mk.injEq] at b4
  have hl2 : k + l2 = k + 10 := by omega
  simp only [hl2] at b1
  -- third lookup
  have i2 : ({ e with leftIndex := k + 10 } : Evolver ℝ).idx = k := by rw [idx_of_leftIndex]; simp
  obtain ⟨v3, l3, r3, c1, c2, c3, _, _⟩ := lookup_total ({ e with leftIndex := k + 10 } : Evolver ℝ) t'
    e.radius (by rw [i2]; simp only; omega) hl
  rw [i2] at c2 c3
  simp only at c2 c3
  have hne : e.time.drop k ≠ [] := by
    intro h'
    have := congrArg List.length h'
    simp at this
    omega
  have hv3 : v3 = e.radius[k] := by
    have hfi : findIndices (e.time.drop k) t' = some (0, 0) := by
      rcases findIndices_cases (e.time.drop k) t' hne with ⟨g1, _⟩ | ⟨_, _, g⟩ | ⟨i, hi, g3, g4, _⟩
      · have := g1 ((e.time.drop k)[0]'(by simp; omega)) (List.getElem_mem _)
        simp at this
        linarith [ht'.2]
      · exact g
      · have := g4 0 (by omega)
        simp at this
        linarith [ht'.2]
    have hyk : (e.radius.drop k)[0]? = some e.radius[k] := by
      rw [List.getElem?_drop]
      exact List.getElem?_eq_getElem (by omega)
    simp only [linearInterpolation, hfi, if_true, hyk, Option.some.injEq, Prod.mk.injEq] at c2
    exact c2.1.symm
  refine ⟨v1, v2, v3, { e with leftIndex := k + 10 + l3 }, ?_, hv3, ?_⟩
  · have he : e = { e with leftIndex := 0 } := by rw [← h0]
    rw [he]
    simp only [queries, q, a1, b1, c1]
  · have hne' : e.time ≠ [] := by intro h; simp [h] at hlen
    obtain ⟨r, l, g1, g2⟩ := C26_piecewise_linear t' e.time e.radius hne' hx hl
    have e1 : k - 1 + 1 = k := by omega
    have g3 := g2.between (k - 1) (by omega) ht'.1 (by simp only [e1]; exact ht'.2.le)
    simp only [e1] at g3
    simp only [tableValue, hev, if_true, hcol, g1, Option.map_some, ne_eq, Option.some.injEq]
    rw [hv3, g3]
    have hd : 0 < e.time[k] - e.time[k - 1] := by linarith [ht'.1, ht'.2]
    have hp : (t' - e.time[k - 1]) / (e.time[k] - e.time[k - 1]) < 1 := by
      rw [div_lt_one hd]; linarith [ht'.2]
    generalize (t' - e.time[k - 1]) / (e.time[k] - e.time[k - 1]) = p at hp
    intro h
    apply hy
    have : (e.radius[k] - e.radius[k - 1]) * (p - 1) = 0 := by linarith
    rcases mul_eq_zero.mp this with h1 | h1
    · linarith
    · linarith

/-! ## The update of a particle -/

section AnyUpdate
variable {F : Type} [Add F] [Sub F] [Mul F] [Div F] [FOps F]

theorem nonSpinDependent_tides (t : F) (p p' : Part F) (e e' : Evolver F)
    (h : nonSpinDependent t p e = some (p', e')) : p'.tides = p.tides := by
  unfold nonSpinDependent at h
  split at h
  · simp at h
  · split at h
    · simp at h
    · rename_i newRg2 e2 h2
      generalize hb : (!(eqb _ p.radius) || !(eqb newRg2 p.radiusOfGyration2)) = b at h
      cases b
      · simp only [Bool.false_eq_true, if_false] at h
        split at h
        · simp only [Option.some.injEq, Prod.mk.injEq] at h; rw [← h.1]
        · split at h
          · simp at h
          · simp only [Option.some.injEq, Prod.mk.injEq] at h; rw [← h.1]
      · simp only [if_true] at h
        split at h
        · simp only [Option.some.injEq, Prod.mk.injEq] at h; rw [← h.1]
        · split at h
          · simp at h
          · simp only [Option.some.injEq, Prod.mk.injEq] at h; rw [← h.1]

/-- **C30 is violated** in every case in which the tabulated Love number differs from the one the particle
had: the update leaves the old one in place (any arithmetic, any table, any time). -/
theorem C30_violated (t love tabulated : F) (p p' : Part F) (e e' : Evolver F)
    (hp : p.tides = .constantTimeLag love)
    (_htab : tableValue e .loveNumber t love = some tabulated) (hne : tabulated ≠ love)
    (h : nonSpinDependent t p e = some (p', e')) :
    p'.tides = .constantTimeLag love ∧ p'.tides ≠ .constantTimeLag tabulated := by
  have := nonSpinDependent_tides t p p' e e' h
  rw [this, hp]
  refine ⟨rfl, ?_⟩
  intro h'
  injection h' with h'
  exact hne h'.symm

end AnyUpdate

/-- **C30, what holds** (missing: the Love number): the radius and the radius of gyration do take the
tabulated values, and the moment of inertia stays `m rg² R²`. -/
theorem C30_partial (e : Evolver ℝ) (hc : Consistent e) (hr : Ready e) (t : ℝ)
    (hp : PastIfEvolving e t) (p : Part ℝ)
    (hI : p.momentOfInertia = p.mass * p.radiusOfGyration2 * (p.radius * p.radius)) :
    ∃ p' e', nonSpinDependent t p e = some (p', e') ∧
      tableValue e .radius t p.radius = some p'.radius ∧
      tableValue e .radiusOfGyration2 t p.radiusOfGyration2 = some p'.radiusOfGyration2 ∧
      p'.momentOfInertia = p'.mass * p'.radiusOfGyration2 * (p'.radius * p'.radius) ∧
      p'.mass = p.mass := by
  obtain ⟨v1, n1, a1, a2, a3, a4, a5⟩ := query_step e hc hr t hp .radius t p.radius
  rw [max_self] at a4
  obtain ⟨v2, n2, b1, b2, b3, b4, b5⟩ := query_step _ a2 a3 t a4 .radiusOfGyration2 t p.radiusOfGyration2
  rw [max_self] at b4
  have hlove : ∀ love, ∃ v3 e3, ({ e with leftIndex := n2 } : Evolver ℝ).queryLoveNumber t love =
      some (v3, e3) := by
    intro love
    obtain ⟨v3, n3, c1, _⟩ := query_step _ b2 b3 t b4 .loveNumber t love
    exact ⟨v3, _, c1⟩
  have a1' : e.queryRadius t p.radius = some (v1, { e with leftIndex := n1 }) := a1
  have b1' : ({ e with leftIndex := n1 } : Evolver ℝ).queryRadiusOfGyration2 t p.radiusOfGyration2 =
      some (v2, { e with leftIndex := n2 }) := b1
  have hv1 := a5 hp
  have hv2 := b5 a4
  rw [tableValue_leftIndex] at hv2
  set p1 : Part ℝ :=
    if !(eqb v1 p.radius) || !(eqb v2 p.radiusOfGyration2) then
      { p with radius := v1, radiusOfGyration2 := v2,
               momentOfInertia := p.mass * v2 * (v1 * v1) }
    else p with hp1
  have facts : p1.radius = v1 ∧ p1.radiusOfGyration2 = v2 ∧
      p1.momentOfInertia = p1.mass * p1.radiusOfGyration2 * (p1.radius * p1.radius) ∧
      p1.mass = p.mass := by
    by_cases h1 : v1 = p.radius
    · by_cases h2 : v2 = p.radiusOfGyration2
      · have e1 : eqb v1 p.radius = true := by simpa using h1
        have e2 : eqb v2 p.radiusOfGyration2 = true := by simpa using h2
        rw [hp1, e1, e2]
        simp [h1, h2, hI]
      · have e2 : eqb v2 p.radiusOfGyration2 = false := by simpa using h2
        rw [hp1, e2]
        simp
    · have e1 : eqb v1 p.radius = false := by simpa using h1
      rw [hp1, e1]
      simp
  have hres : ∃ e', nonSpinDependent t p e = some (p1, e') := by
    unfold nonSpinDependent
    simp only [a1', b1']
    rw [← hp1]
    split
    · exact ⟨_, rfl⟩
    · rename_i love _
      obtain ⟨v3, e3, c1⟩ := hlove love
      simp only [c1]
      exact ⟨_, rfl⟩
  obtain ⟨e', he'⟩ := hres
  exact ⟨p1, e', he', by rw [facts.1]; exact hv1, by rw [facts.2.1]; exact hv2, facts.2.2.1,
    facts.2.2.2⟩

/-! ## C60: lag angle -/

/-- **C60**: at a time not before the samples already passed, the lag angle of a body with dynamical tides is
three quarters of the squared ratio of its spin to the Sun's dynamical frequency times the tabulated inverse
quality factor; it is zero for all other bodies; nothing else of the particle changes and nothing panics. -/
theorem C60_lag_angle (e : Evolver ℝ) (hc : Consistent e) (hr : Ready e) (sun t : ℝ) (hp : PastIfEvolving e t)
    (p : Part ℝ) :
    ∃ p' e', spinDependent sun t p e = some (p', e') ∧ p' = { p with lagAngle := p'.lagAngle } ∧
      (Tabulated e.evolution .inverseTidalQFactor = true → ∀ q c,
        tableValue e .inverseTidalQFactor t c = some q →
        p'.lagAngle = 3 / 4 * (p.normSpinVector2 / sun) * q) ∧
      (Tabulated e.evolution .inverseTidalQFactor = false → p'.lagAngle = 0) := by
  obtain ⟨v, n, h1, _, _, _, h5⟩ := query_step e hc hr t hp .inverseTidalQFactor t (lit 0)
  have hv := h5 hp
  simp only [query] at h1
  have main : (e.evolution = .bolmontMathis2016 ∨ e.evolution = .galletBolmont2017 ∨
      e.evolution = .leconteChabrier2013 true) → ∃ p' e', spinDependent sun t p e = some (p', e') ∧
      p' = { p with lagAngle := p'.lagAngle } ∧
      (Tabulated e.evolution .inverseTidalQFactor = true → ∀ q c,
        tableValue e .inverseTidalQFactor t c = some q →
        p'.lagAngle = 3 / 4 * (p.normSpinVector2 / sun) * q) ∧
      (Tabulated e.evolution .inverseTidalQFactor = false → p'.lagAngle = 0) := by
    intro hev
    have htab : Tabulated e.evolution .inverseTidalQFactor = true := by
      rcases hev with h | h | h <;> rw [h] <;> rfl
    refine ⟨{ p with lagAngle := lit 3 * (p.normSpinVector2 / sun) * v / lit 4 }, { e with leftIndex := n }, ?_, rfl, ?_, ?_⟩
    · unfold spinDependent
      rcases hev with h | h | h <;> simp only [h, h1]
    · intro _ q c hq
      simp only [tableValue, htab, if_true] at hq hv
      rw [hv, Option.some.injEq] at hq
      subst hq
      simp
      ring
    · rw [htab]; simp
  cases hev : e.evolution with
  | galletBolmont2017 => rw [hev] at main; exact main (by simp)
  | bolmontMathis2016 => rw [hev] at main; exact main (by simp)
  | leconteChabrier2013 b =>
    cases b with
    | true => rw [hev] at main; exact main (by simp)
    | false =>
      exact ⟨{ p with lagAngle := lit 0 }, e, by simp [spinDependent, hev], rfl, by simp [Tabulated], by simp⟩
  | baraffe2015 =>
    exact ⟨{ p with lagAngle := lit 0 }, e, by simp [spinDependent, hev], rfl, by simp [Tabulated], by simp⟩
  | leconte2011 =>
    exact ⟨{ p with lagAngle := lit 0 }, e, by simp [spinDependent, hev], rfl, by simp [Tabulated], by simp⟩
  | baraffe1998 =>
    exact ⟨{ p with lagAngle := lit 0 }, e, by simp [spinDependent, hev], rfl, by simp [Tabulated], by simp⟩
  | nonEvolving =>
    exact ⟨{ p with lagAngle := lit 0 }, e, by simp [spinDependent, hev], rfl, by simp [Tabulated], by simp⟩

/-- A star with one sample of the quality factor. -/
example : ∃ p' e', spinDependent 4 7 (⟨1, 2, 1 / 4, 1, 16, 0, .other⟩ : Part ℝ)
    (⟨.bolmontMathis2016, [0], [1], [], [], [5], 0⟩ : Evolver ℝ) = some (p', e') ∧ p'.lagAngle = 15 := by
  obtain ⟨p', e', h1, _, h2, _⟩ := C60_lag_angle (⟨.bolmontMathis2016, [0], [1], [], [], [5], 0⟩ : Evolver ℝ)
    ⟨by simp, by intro q; cases q <;> simp [Tabulated, Evolver.column]⟩ (fun _ => by simp [idx_of_leftIndex]) 4 7
    (fun _ => Or.inl (by simp [idx_of_leftIndex])) (⟨1, 2, 1 / 4, 1, 16, 0, .other⟩ : Part ℝ)
  refine ⟨p', e', h1, ?_⟩
  rw [h2 rfl 5 0 ?_]
  · norm_num
  · have : ¬ (7 : ℝ) < 0 := by norm_num
    simp [tableValue, Tabulated, Evolver.column, linearInterpolation, findIndices, List.findIdx?, List.findIdx?.go, this]

/-! ## Concrete cases -/

/-- Times 0..20, radius = 2·time, Love number = time + 1. -/
noncomputable def demo : Evolver ℝ where
  evolution := .leconteChabrier2013 false
  time := (List.range 21).map (fun (i : Nat) => (i : ℝ))
  radius := (List.range 21).map (fun (i : Nat) => 2 * (i : ℝ))
  radiusOfGyration2 := (List.range 21).map (fun (_ : Nat) => (1 / 4 : ℝ))
  loveNumber := (List.range 21).map (fun (i : Nat) => (i : ℝ) + 1)
  inverseTidalQFactor := []
  leftIndex := 0

theorem demo_consistent : Consistent demo where
  nonempty _ := by simp [demo]
  lengths q h := by
    cases q <;> simp [demo, Evolver.column] <;> simp [demo, Tabulated] at h

theorem demo_increasing : Increasing demo.time := by
  intro i j hj hij
  simp [demo]
  exact_mod_cast hij

/-- C28 applies: radius at 3, then Love number at 3, then radius at 15.5. -/
example : ∃ vs e', queries demo [(.radius, 3, 0), (.loveNumber, 3, 0), (.radius, 15.5, 0)] =
    some (vs, e') ∧ List.Forall₂ (fun a v => tableValue demo a.1 a.2.1 a.2.2 = some v)
      [(.radius, 3, 0), (.loveNumber, 3, 0), (.radius, 15.5, 0)] vs :=
  C28_cached_equals_full demo demo_consistent rfl _ (by norm_num)

/-- C29 is violated: after two lookups at 15.5 the lookup at 14.5 gives the value at 15. -/
example : ∃ v1 v2 v3 e', queries demo [(.radius, 15.5, 0), (.radius, 15.5, 0), (.radius, 14.5, 0)] =
      some ([v1, v2, v3], e') ∧ v3 = 30 ∧ tableValue demo .radius 14.5 0 ≠ some v3 := by
  obtain ⟨v1, v2, v3, e', h1, h2, h3⟩ := C29_violated demo demo_consistent rfl rfl demo_increasing 15
    (by norm_num) (by simp [demo]) (by simp [demo]) 15.5 14.5 0
    (by simp [demo]; norm_num) (by simp [demo]; norm_num) (by simp [demo])
  refine ⟨v1, v2, v3, e', h1, ?_, h3⟩
  rw [h2]
  simp [demo]
  norm_num

/-- C30: a particle with Love number 1/2 keeps it, although the table says 4 at time 3. -/
example : ∃ p' e', nonSpinDependent 3 (⟨1, 2, 1 / 4, 1, 0, 0, .constantTimeLag (1 / 2)⟩ : Part ℝ) demo =
      some (p', e') ∧ p'.radius = 6 ∧ p'.tides = .constantTimeLag (1 / 2) ∧
      tableValue demo .loveNumber 3 (1 / 2) = some 4 := by
  have hr : Ready demo := fun _ => by rw [idx_of_leftIndex]; simp [demo]
  obtain ⟨p', e', h1, h2, _⟩ := C30_partial demo demo_consistent hr 3
    (fun _ => Or.inl (by rw [idx_of_leftIndex]; simp [demo]))
    (⟨1, 2, 1 / 4, 1, 0, 0, .constantTimeLag (1 / 2)⟩ : Part ℝ) (by norm_num)
  obtain ⟨l, hn⟩ := C26_exact_at_nodes demo.time demo.radius demo_increasing (by simp [demo]) 3
    (by simp [demo])
  obtain ⟨l', hn'⟩ := C26_exact_at_nodes demo.time demo.loveNumber demo_increasing (by simp [demo]) 3
    (by simp [demo])
  have e3 : demo.time[3]'(by simp [demo]) = 3 := by simp [demo]
  rw [e3] at hn hn'
  have t1 : Tabulated demo.evolution .radius = true := rfl
  have t2 : Tabulated demo.evolution .loveNumber = true := rfl
  have c1 : demo.column .radius = demo.radius := rfl
  have c2 : demo.column .loveNumber = demo.loveNumber := rfl
  refine ⟨p', e', h1, ?_, nonSpinDependent_tides _ _ _ _ _ h1, ?_⟩
  · simp only [tableValue, t1, if_true, c1, hn, Option.map_some, Option.some.injEq] at h2
    rw [← h2]
    simp [demo]; norm_num
  · simp only [tableValue, t2, if_true, c2, hn', Option.map_some, Option.some.injEq]
    simp [demo]; norm_num

end Posidonius.Evolution
