import Verif.Lemmas.WHFastSplit
import Verif.Props.Gravity
import Verif.Props.WHFast

/-! # C72: the parts of the WHFast splitting add up to Newton's equations -/

namespace Posidonius.WHFast
open Posidonius Gravity

/-- **C72, positions**: a first order step of all bodies moves the alternative positions as the Kepler drift
and the jump do together. -/
theorem C72_positions (c : Coordinates) (G dt : ℝ) {u : Sys ℝ} (hu : Massive u) (i : ℕ) (hi : i < u.planets.length) :
    ∃ x e j, (toAlternative c u).planets[i]? = some x ∧ (toAlternative c (u.euler G dt)).planets[i]? = some e
      ∧ (jumpStep c dt u (toAlternative c u)).planets[i]? = some j
      ∧ e.position = x.position + dt • x.velocity + (j.position - x.position) := by
  have hp := List.getElem?_eq_getElem hi
  have fin : ∀ {x e j : Alt ℝ}, e.position = j.position + dt • x.velocity →
      e.position = x.position + dt • x.velocity + (j.position - x.position) := by
    intro x e j h
    rw [h]; abel
  cases c
  · have hs : u.planets = u.planets.take i ++ u.planets[i] :: u.planets.drop (i + 1) := by
      rw [← List.drop_eq_getElem_cons hi, List.take_append_drop]
    have hl : (u.planets.take i).length = i := by simp; omega
    obtain ⟨x, e, k, h1, h2, _, h4, _⟩ := jacobi_split G dt hu hs
    rw [hl] at h1 h2
    refine ⟨x, e, x, h1, h2, h1, ?_⟩
    rw [h4]; abel
  · obtain ⟨x, e, j, h1, h2, h3, h4⟩ := helio_position_split false G dt hu hp
    exact ⟨x, e, j, h1, h2, h3, fin h4⟩
  · obtain ⟨x, e, j, h1, h2, h3, h4⟩ := helio_position_split true G dt hu hp
    exact ⟨x, e, j, h1, h2, h3, fin h4⟩

/-- **C72, velocities, heliocentric coordinates**: a first order step of all bodies under the gravity of all bodies
changes the alternative velocities by the attraction of the Kepler motion and the kick together. -/
theorem C72_velocities {c : Coordinates} (hc : c ≠ .jacobi) (G dt : ℝ) {u : Sys ℝ} (hu : Massive u) (i : ℕ)
    (hi : i < u.planets.length) :
    ∃ x e k, (toAlternative c u).planets[i]? = some x ∧ (toAlternative c (u.euler G dt)).planets[i]? = some e
      ∧ (interactionStep c G dt (kicked c G u) (toAlternative c u)).planets[i]? = some k
      ∧ e.velocity = x.velocity + dt • central G (keplerMass c u i) x.position + (k.velocity - x.velocity) := by
  have hp := List.getElem?_eq_getElem hi
  have fin : ∀ {x e k : Alt ℝ} {a : Axes ℝ}, e.velocity = k.velocity + dt • a →
      e.velocity = x.velocity + dt • a + (k.velocity - x.velocity) := by
    intro x e k a h
    rw [h]; abel
  cases c
  · exact absurd rfl hc
  · obtain ⟨x, e, k, h1, h2, h3, h4⟩ := helio_velocity_split false G G dt hu hp
    exact ⟨x, e, k, h1, h2, h3, fin h4⟩
  · obtain ⟨x, e, k, h1, h2, h3, h4⟩ := helio_velocity_split true G G dt hu hp
    exact ⟨x, e, k, h1, h2, h3, fin h4⟩

/-- **C72, velocities, Jacobi coordinates**: the same for the first planet; for the others the attraction added
back by the kick has a softened distance. -/
theorem C72_jacobi (G dt : ℝ) {u : Sys ℝ} (hu : Massive u) (i : ℕ) (hi : i < u.planets.length) :
    ∃ x e k, (toAlternative .jacobi u).planets[i]? = some x
      ∧ (toAlternative .jacobi (u.euler G dt)).planets[i]? = some e
      ∧ (interactionStep .jacobi G dt (kicked .jacobi G u) (toAlternative .jacobi u)).planets[i]? = some k
      ∧ e.velocity = x.velocity + (dt • if i = 0 then central G (keplerMass .jacobi u i) x.position
          else softened 1e-12 G (keplerMass .jacobi u i) x.position) + (k.velocity - x.velocity) := by
  have hs : u.planets = u.planets.take i ++ u.planets[i] :: u.planets.drop (i + 1) := by
    rw [← List.drop_eq_getElem_cons hi, List.take_append_drop]
  have hl : (u.planets.take i).length = i := by simp; omega
  obtain ⟨x, e, k, h1, h2, h3, _, h5⟩ := jacobi_split G dt hu hs
  rw [hl] at h1 h2 h3 h5
  refine ⟨x, e, k, h1, h2, h3, ?_⟩
  rw [h5]; abel

theorem central_eq (G m : ℝ) (q : Axes ℝ) : central G m q = -((G * m / Real.sqrt (q.dot q) ^ 3) • q) := by
  unfold central newton
  have : (0 - q).dot (0 - q) = q.dot q := by simp [Axes.dot]
  rw [this]
  module

/-- **C72, size of the softening** (partial: the sum is not exact in Jacobi coordinates): the softened attraction
is `s` times the attraction of the Kepler motion, with `1 - s` at most `1.5e-12 / r²` (r in AU). -/
theorem C72_softening_partial (G m : ℝ) {q : Axes ℝ} (hq : q ≠ 0) :
    ∃ s : ℝ, softened 1e-12 G m q = s • central G m q ∧ s < 1 ∧ 1 - 1.5e-12 / q.dot q ≤ s := by
  have hd : 0 < q.dot q := lt_of_le_of_ne q.dot_self_nonneg fun h => hq (Axes.dot_self_eq_zero h.symm)
  rw [central_eq]
  unfold softened
  generalize q.dot q = d at *
  have h1 : 0 < Real.sqrt d := Real.sqrt_pos.2 hd
  have h2 : 0 < Real.sqrt (d + 1e-12) := Real.sqrt_pos.2 (by positivity)
  have hlt : Real.sqrt d < Real.sqrt (d + 1e-12) := Real.sqrt_lt_sqrt hd.le (by norm_num)
  refine ⟨(Real.sqrt d / Real.sqrt (d + 1e-12)) ^ 3, ?_, ?_, ?_⟩
  · rw [smul_neg, smul_smul]
    congr 2
    field_simp
  · have : Real.sqrt d / Real.sqrt (d + 1e-12) < 1 := (div_lt_one h2).2 hlt
    exact pow_lt_one₀ (by positivity) this (by norm_num)
  · -- r / sqrt (r² + e) is at least 1 - e / (2 r²)
    have h3 : 1 - 0.5e-12 / d ≤ Real.sqrt d / Real.sqrt (d + 1e-12) := by
      rw [le_div_iff₀ h2]
      by_cases hneg : 1 - 0.5e-12 / d ≤ 0
      · exact (mul_nonpos_of_nonpos_of_nonneg hneg h2.le).trans h1.le
      · push Not at hneg
        have hsq : ((1 - 0.5e-12 / d) * Real.sqrt (d + 1e-12)) ^ 2 ≤ Real.sqrt d ^ 2 := by
          rw [mul_pow, Real.sq_sqrt hd.le, Real.sq_sqrt (by positivity)]
          have : (1 - 0.5e-12 / d) ^ 2 * (d + 1e-12) = d - 0.75e-24 / d + 0.25e-36 / d ^ 2 := by
            field_simp
            ring
          rw [this]
          have h4 : 0.5e-12 < d := by
            have : 0.5e-12 / d < 1 := by linarith
            rwa [div_lt_one hd] at this
          have : 0.25e-36 / d ^ 2 ≤ 0.75e-24 / d := by
            rw [div_le_div_iff₀ (by positivity) hd]
            nlinarith
          linarith
        exact (abs_le_of_sq_le_sq' hsq h1.le).2
    have h0 : 0 ≤ Real.sqrt d / Real.sqrt (d + 1e-12) := by positivity
    have hb := one_add_mul_le_pow (a := Real.sqrt d / Real.sqrt (d + 1e-12) - 1) (by linarith) 3
    have e : (1 : ℝ) + (Real.sqrt d / Real.sqrt (d + 1e-12) - 1) = Real.sqrt d / Real.sqrt (d + 1e-12) := by ring
    rw [e] at hb
    refine le_trans ?_ hb
    have : (1.5e-12 : ℝ) / d = 3 * (0.5e-12 / d) := by ring
    rw [this]
    push_cast
    linarith

/-- **C72 violated** in Jacobi coordinates: from the second planet on, what the kick adds back is not what the
Kepler motion takes, for every distance. -/
theorem C72_violated_jacobi {G m : ℝ} (hG : 0 < G) (hm : 0 < m) {q : Axes ℝ} (hq : q ≠ 0) :
    softened 1e-12 G m q ≠ central G m q := by
  obtain ⟨s, h1, h2, _⟩ := C72_softening_partial G m hq
  rw [h1]
  intro h
  have hc : central G m q ≠ 0 := by
    rw [central_eq]
    have hd : 0 < q.dot q := lt_of_le_of_ne q.dot_self_nonneg fun h => hq (Axes.dot_self_eq_zero h.symm)
    have : G * m / Real.sqrt (q.dot q) ^ 3 ≠ 0 := by positivity
    simp [this, hq]
  have : (1 - s) • central G m q = 0 := by rw [sub_smul, one_smul, h, sub_self]
  rcases smul_eq_zero.1 this with h' | h'
  · linarith
  · exact hc h'

/-- **C72, masses**: the Kepler motion of planet `i` is computed with the mass named in the other theorems. -/
theorem C72_masses (c : Coordinates) (G : ℝ) (fuel : ℕ) (dt : ℝ) {u : Sys ℝ} {a b : AltSys ℝ} (h : Matches a u)
    (hs : u.star.massG = G * u.star.mass) (hG : ∀ p ∈ u.planets, p.massG = G * p.mass)
    (hb : keplerSteps c fuel dt u a = some b) (i : ℕ) (hi : i < u.planets.length) :
    ∃ x y, a.planets[i]? = some x ∧ b.planets[i]? = some y ∧ x.kepler fuel (G * keplerMass c u i) dt = some y := by
  unfold keplerSteps at hb
  split at hb
  · cases hb
  · next pl e =>
    cases hb
    dsimp only
    have h1 := h.1
    have key : ∀ {as : List (Alt ℝ)} {ps : List (Body ℝ)}, SameMasses as ps → (∀ p ∈ ps, p.massG = G * p.mass) →
        ∀ (m : ℝ) (bs : List (Alt ℝ)), keplerPlanets c fuel dt (G * m) as = some bs → ∀ i, i < ps.length →
        ∃ x y, as[i]? = some x ∧ bs[i]? = some y ∧ x.kepler fuel (G * keplerMass c
          { star := { u.star with mass := m }, planets := ps } i) dt = some y := by
      intro as ps hh
      induction hh with
      | nil => intro _ _ _ _ i hi; simp at hi
      | @cons x p as ps hx _ ih =>
        intro hg m bs hbs i hi
        unfold keplerPlanets at hbs
        dsimp only at hbs
        split at hbs
        · next y s e1 e2 =>
          cases hbs
          have hxg : x.massG = G * p.mass := by rw [hx.2]; exact hg p (by simp)
          cases i with
          | zero =>
            refine ⟨x, y, rfl, rfl, ?_⟩
            rw [← e1]
            cases c <;> simp [keplerMass, totalMass, hxg, mul_add]
          | succ i =>
            have hg' : ∀ p ∈ ps, p.massG = G * p.mass := fun q hq => hg q (by simp [hq])
            have hi' : i < ps.length := by simpa using hi
            cases c
            · rw [hxg, ← mul_add] at e2
              obtain ⟨x', y', h3, h4, h5⟩ := ih hg' _ _ e2 i hi'
              refine ⟨x', y', h3, h4, ?_⟩
              rw [← h5]
              simp only [keplerMass, List.take_succ_cons, totalMass, List.map_cons, List.sum_cons]
              rw [add_assoc]
            · obtain ⟨x', y', h3, h4, h5⟩ := ih hg' _ _ e2 i hi'
              exact ⟨x', y', h3, h4, h5⟩
            · obtain ⟨x', y', h3, h4, h5⟩ := ih hg' _ _ e2 i hi'
              refine ⟨x', y', h3, h4, ?_⟩
              rw [← h5]
              simp only [keplerMass, List.drop_succ_cons]
        · cases hbs
    rw [hs] at e
    exact key h1 hG u.star.mass pl e i hi

/-! ### The accelerations of the kick are those of gravity with its terms left out -/

section
variable {n : ℕ} (G : ℝ) (p : Fin n → Gravity.Body ℝ) (acc : Fin n → Axes ℝ)

/-- The particles as a WHFast system. -/
noncomputable def bodyOf (i : Fin n) : Body ℝ :=
  { mass := (p i).mass, massG := G * (p i).mass, position := (p i).position, velocity := (p i).velocity,
    acceleration := acc i }

def others (mm : Fin n) : List (Fin n) := (List.finRange n).filter fun i => decide (i ≠ mm)

noncomputable def sysOf (mm : Fin n) : Sys ℝ :=
  { star := bodyOf G p acc mm, planets := (others mm).map (bodyOf G p acc) }

theorem sum_filter_list {ι : Type} (q : ι → Bool) (f : ι → Axes ℝ) (l : List ι) :
    ((l.filter q).map f).sum = (l.map fun x => if q x then f x else 0).sum := by
  induction l with
  | nil => rfl
  | cons x l ih =>
    by_cases h : q x = true
    · simp [h, ih]
    · simp [h, ih]

theorem sum_univ_list (f : Fin n → Axes ℝ) : ∑ i, f i = ((List.finRange n).map f).sum := by
  have := foldl_finRange (n := n) f 0
  rw [zero_add] at this
  rw [← this, foldl_add_list, zero_add]

/-- The body next to the star in the order of the array. -/
theorem others_head {n : ℕ} (mm : Fin n) : others mm = [] ∧ n = 1
    ∨ ∃ f l, others mm = f :: l ∧ f.val = (if mm.val = 0 then 1 else 0) := by
  match n, mm with
  | 1, mm =>
    left
    have : mm = 0 := Subsingleton.elim _ _
    subst this
    exact ⟨rfl, rfl⟩
  | n + 2, mm =>
    right
    unfold others
    rw [List.finRange_succ, List.finRange_succ]
    by_cases h : mm = 0
    · subst h
      refine ⟨1, _, by simp; rfl, by simp⟩
    · have h' : (0 : Fin (n + 2)) ≠ mm := fun e => h e.symm
      refine ⟨0, _, by simp [h']; rfl, ?_⟩
      have : mm.val ≠ 0 := fun e => h (Fin.ext e)
      simp [this]

theorem others_mem {mm i : Fin n} : i ∈ others mm ↔ i ≠ mm := by simp [others]

theorem others_nodup (mm : Fin n) : (others mm).Nodup := (List.nodup_finRange n).filter _

theorem sum_others (mm : Fin n) (f : Fin n → Axes ℝ) : ∑ i, f i = f mm + ((others mm).map f).sum := by
  rw [sum_univ_list, others, sum_filter_list, ← sum_univ_list, ← sum_univ_list, Fintype.sum_eq_add_sum_compl mm]
  rw [Fintype.sum_eq_add_sum_compl mm (fun x => if decide (x ≠ mm) = true then f x else 0)]
  simp only [ne_eq, not_true_eq_false, decide_false, Bool.false_eq_true, if_false, zero_add]
  congr 1
  refine Finset.sum_congr rfl fun i hi => ?_
  have : i ≠ mm := by simpa using hi
  simp [this]

theorem pull_others (l : List (Fin n)) (x : Axes ℝ) : pull G (l.map (bodyOf G p acc)) x
    = (l.map fun j => newton G (p j).mass x (p j).position).sum := by
  simp [pull, bodyOf, Function.comp_def]

/-- **C72, gravity**: with the terms that WHFast lets gravity leave out, the accelerations of the particles are
exactly those of the kick in the theorems above. -/
theorem C72_gravity (c : Coordinates) (mm : Fin n) :
    sysOf G p (acceleration G p (if c = .jacobi then .whfastOne else .whfastTwo) mm) mm
      = kicked c G (sysOf G p acc mm) := by
  have acc_body : ∀ (a : Fin n → Axes ℝ) (i : Fin n), bodyOf G p a i = (bodyOf G p acc i).accelerated (a i) :=
    fun _ _ => rfl
  have helio : ∀ c, c ≠ Coordinates.jacobi → sysOf G p (acceleration G p .whfastTwo mm) mm
      = kicked c G (sysOf G p acc mm) := by
    intro c hc
    have e : kicked c G (sysOf G p acc mm) = ⟨(sysOf G p acc mm).star.accelerated 0,
        (sysOf G p acc mm).planets.map fun q => q.accelerated (pull G (sysOf G p acc mm).planets q.position)⟩ := by
      cases c
      · exact absurd rfl hc
      · rfl
      · rfl
    rw [e]
    have hs : acceleration G p .whfastTwo mm mm = 0 := by
      rw [acceleration_eq_sum]
      simp [ignored]
    unfold sysOf
    dsimp only
    rw [acc_body, hs, List.map_map]
    congr 1
    refine List.map_congr_left fun i hi => ?_
    have hi' := others_mem.1 hi
    have hv : i.val ≠ mm.val := fun h => hi' (Fin.ext h)
    rw [Function.comp_apply, acc_body, pull_others, acceleration_eq_sum, sum_others mm]
    congr 1
    have e0 : (if i = mm ∨ ignored .whfastTwo (↑mm) (↑i) (↑mm) = true then (0 : Axes ℝ)
      else newton G (p mm).mass (p i).position (p mm).position) = 0 := by simp [ignored]
    rw [e0, zero_add]
    congr 1
    refine List.map_congr_left fun j hj => ?_
    have hj' := others_mem.1 hj
    have hv' : j.val ≠ mm.val := fun h => hj' (Fin.ext h)
    by_cases hij : i = j
    · subst hij
      simp [bodyOf, newton_self]
    · simp [ignored, hij, hv, hv', bodyOf]
  cases c
  · rw [if_pos rfl]
    rcases others_head mm with ⟨h0, h1⟩ | ⟨f, l, h0, h1⟩
    · subst h1
      have : (sysOf G p acc mm).planets = [] := by unfold sysOf; rw [h0]; rfl
      unfold kicked
      rw [this]
      dsimp only
      unfold sysOf
      rw [h0]
      dsimp only [List.map_nil]
      rw [acc_body]
      congr 2
      rw [acceleration_eq_sum]
      refine Finset.sum_eq_zero fun j _ => ?_
      rw [if_pos (Or.inl (Subsingleton.elim _ _))]
    · have hp : (sysOf G p acc mm).planets = bodyOf G p acc f :: l.map (bodyOf G p acc) := by
        unfold sysOf; rw [h0]; rfl
      have hn : f ∉ l ∧ l.Nodup := by
        have := others_nodup mm
        rw [h0] at this
        exact List.nodup_cons.1 this
      have hfm : f ≠ mm := others_mem.1 (by rw [h0]; simp)
      have hfv : f.val ≠ mm.val := fun h => hfm (Fin.ext h)
      -- which pairs are left out
      have hig : ∀ i j : Fin n, ignored .whfastOne mm i j = true ↔ (i = mm ∧ j = f) ∨ (j = mm ∧ i = f) := by
        intro i j
        have hj : j = f ↔ j.val = if mm.val = 0 then 1 else 0 := by rw [Fin.ext_iff, h1]
        have hi : i = f ↔ i.val = if mm.val = 0 then 1 else 0 := by rw [Fin.ext_iff, h1]
        rw [hj, hi, Fin.ext_iff, Fin.ext_iff]
        by_cases hm : mm.val = 0
        · simp [ignored, hm]
        · have : 0 < mm.val := Nat.pos_of_ne_zero hm
          simp [ignored, hm, this]
      have e : kicked .jacobi G (sysOf G p acc mm) = ⟨(bodyOf G p acc mm).accelerated
          (pull G (l.map (bodyOf G p acc)) (p mm).position),
          (bodyOf G p acc f).accelerated (pull G ((f :: l).map (bodyOf G p acc)) (p f).position)
          :: (l.map (bodyOf G p acc)).map fun q => q.accelerated (pull G ((mm :: f :: l).map (bodyOf G p acc)) q.position)⟩ := by
        unfold kicked
        rw [hp]
        rfl
      rw [e]
      have hl : ∀ i ∈ l, i ≠ f ∧ i ≠ mm := fun i hi =>
        ⟨fun h => hn.1 (h ▸ hi), others_mem.1 (by rw [h0]; simp [hi])⟩
      have s1 : acceleration G p .whfastOne mm mm = pull G (l.map (bodyOf G p acc)) (p mm).position := by
        rw [acceleration_eq_sum, sum_others mm, h0, List.map_cons, List.sum_cons, pull_others]
        have e1 : ignored .whfastOne mm mm f = true := (hig mm f).2 (Or.inl ⟨rfl, rfl⟩)
        rw [if_pos (Or.inl rfl), if_pos (Or.inr e1), zero_add, zero_add]
        congr 1
        refine List.map_congr_left fun j hj => ?_
        rw [if_neg]
        rintro (h | h)
        · exact (hl j hj).2 h.symm
        · rcases (hig _ _).1 h with ⟨_, h⟩ | ⟨h, _⟩
          · exact (hl j hj).1 h
          · exact (hl j hj).2 h
      have s2 : acceleration G p .whfastOne mm f = pull G ((f :: l).map (bodyOf G p acc)) (p f).position := by
        rw [acceleration_eq_sum, sum_others mm, h0, pull_others]
        have e1 : ignored .whfastOne mm f mm = true := (hig f mm).2 (Or.inr ⟨rfl, rfl⟩)
        rw [if_pos (Or.inr e1), zero_add]
        congr 1
        refine List.map_congr_left fun j hj => ?_
        by_cases hjf : f = j
        · subst hjf
          rw [if_pos (Or.inl rfl), newton_self]
        · rw [if_neg]
          rintro (h | h)
          · exact hjf h
          · rcases (hig _ _).1 h with ⟨h, _⟩ | ⟨h, _⟩
            · exact hfm h
            · rcases List.mem_cons.1 hj with h' | h'
              · exact hjf h'.symm
              · exact (hl j h').2 h
      have s3 : ∀ i ∈ l, acceleration G p .whfastOne mm i
          = pull G ((mm :: f :: l).map (bodyOf G p acc)) (p i).position := by
        intro i hi
        rw [acceleration_eq_sum, sum_others mm, h0, pull_others, List.map_cons (a := mm), List.sum_cons]
        have hno : ∀ j : Fin n, ignored .whfastOne mm i j ≠ true := by
          intro j h
          rcases (hig _ _).1 h with ⟨h, _⟩ | ⟨_, h⟩
          · exact (hl i hi).2 h
          · exact (hl i hi).1 h
        congr 1
        · rw [if_neg]
          rintro (h | h)
          · exact (hl i hi).2 h
          · exact hno _ h
        · congr 1
          refine List.map_congr_left fun j _ => ?_
          by_cases hij : i = j
          · subst hij
            rw [if_pos (Or.inl rfl), newton_self]
          · rw [if_neg]
            rintro (h | h)
            · exact hij h
            · exact hno _ h
      unfold sysOf
      rw [h0]
      rw [acc_body, s1, List.map_cons, acc_body _ f, s2, List.map_map]
      congr 2
      refine List.map_congr_left fun i hi => ?_
      rw [Function.comp_apply, acc_body, s3 i hi]
      rfl
  · rw [if_neg (by decide)]
    exact helio _ (by decide)
  · rw [if_neg (by decide)]
    exact helio _ (by decide)

end

/-- The example system: two planets, so that the second one meets the hypotheses with `i = 1`. -/
example : Massive exampleSys ∧ 1 < exampleSys.planets.length := ⟨exampleSys_massive, by simp [exampleSys]⟩

end Posidonius.WHFast
