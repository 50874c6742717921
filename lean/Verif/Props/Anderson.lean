import Verif.Props.Gr
import Verif.Spec.Kepler
import Mathlib.Analysis.SpecialFunctions.Sqrt
import Mathlib.Analysis.Calculus.Deriv.Inv
import Mathlib.Topology.Order.Basic

/-! # C112: what Anderson's corrections are -/

namespace Posidonius.Univ
open Finset Axes
open WHFast (VecDeriv)

variable {n : ℕ}

/-! ### Jacobi coordinates -/

/-- The host and the companions with a smaller index. -/
def earlier (h : Fin n) (orbits : Fin n → Bool) (i : Fin n) : Finset (Fin n) :=
  univ.filter fun j => j = h ∨ j < i ∧ orbits j = true

/-- A vector of body `i` relative to the mean of those of the bodies in `S`. -/
noncomputable def relativeTo (mass : Fin n → ℝ) (S : Finset (Fin n)) (f : Fin n → Axes ℝ) (i : Fin n) : Axes ℝ :=
  f i - (∑ j ∈ S, mass j)⁻¹ • ∑ j ∈ S, mass j • f j

theorem smulRight_eq (a : Axes ℝ) (t : ℝ) : smulRight a t = t • a := by
  ext <;> simp [smulRight, mul_comm]

theorem toJacobi_loop (p : Fin n → Particle ℝ) (newton : Fin n → Axes ℝ) (hm : ∀ i, 0 ≤ (p i).mass) (l : List (Fin n))
    (sorted : l.Pairwise (· < ·)) (S : Finset (Fin n)) (hS : ∀ i ∈ l, i ∉ S) (s : Jacobi ℝ n) (pos : 0 < s.eta)
    (h1 : s.eta = ∑ j ∈ S, (p j).mass) (h2 : s.sx = ∑ j ∈ S, (p j).mass • (p j).inertialPosition)
    (h3 : s.sv = ∑ j ∈ S, (p j).mass • (p j).inertialVelocity) (h4 : s.sa = ∑ j ∈ S, (p j).mass • newton j) :
    let r := l.foldl (fun (s : Jacobi ℝ n) i =>
      if (p i).gr.effect.isOrbiting then
        let ei := lit 1 / s.eta
        let eta := s.eta + (p i).mass
        let pme := eta * ei
        let x := (p i).inertialPosition - smulRight s.sx ei
        let v := (p i).inertialVelocity - smulRight s.sv ei
        let a := newton i - smulRight s.sa ei
        { eta := eta,
          sx := smulRight s.sx pme + (p i).mass • x,
          sv := smulRight s.sv pme + (p i).mass • v,
          sa := smulRight s.sa pme + (p i).mass • a,
          position := fun j => if j = i then x else s.position j,
          velocity := fun j => if j = i then v else s.velocity j,
          acceleration := fun j => if j = i then a else s.acceleration j }
      else s) s
    (∀ i, i ∉ l → r.position i = s.position i ∧ r.velocity i = s.velocity i ∧ r.acceleration i = s.acceleration i)
    ∧ ∀ i ∈ l, (p i).gr.effect.isOrbiting = true →
      let T := S ∪ l.toFinset.filter fun j => j < i ∧ (p j).gr.effect.isOrbiting = true
      r.position i = relativeTo (fun j => (p j).mass) T (fun j => (p j).inertialPosition) i
      ∧ r.velocity i = relativeTo (fun j => (p j).mass) T (fun j => (p j).inertialVelocity) i
      ∧ r.acceleration i = relativeTo (fun j => (p j).mass) T newton i := by
  induction l generalizing S s with
  | nil => simp
  | cons a l ih =>
    obtain ⟨below, sorted'⟩ := List.pairwise_cons.1 sorted
    have aS := hS a (List.mem_cons_self)
    have al : a ∉ l := fun h => lt_irrefl a (below a h)
    simp only [List.foldl_cons, List.mem_cons, not_or]
    by_cases ho : (p a).gr.effect.isOrbiting = true
    · rw [if_pos ho]
      have e : s.eta ≠ 0 := pos.ne'
      have step : ∀ x y : Axes ℝ, smulRight x ((s.eta + (p a).mass) * (lit 1 / s.eta))
          + (p a).mass • (y - smulRight x (lit 1 / s.eta)) = (p a).mass • y + x := by
        intro x y
        rw [smulRight_eq, smulRight_eq]
        ext <;> simp <;> field_simp <;> ring
      obtain ⟨k1, k2⟩ := ih sorted' (insert a S) (fun i hi => by
          rw [mem_insert, not_or]
          exact ⟨fun h => al (h ▸ hi), hS i (List.mem_cons_of_mem a hi)⟩)
        { eta := s.eta + (p a).mass,
          sx := smulRight s.sx ((s.eta + (p a).mass) * (lit 1 / s.eta))
            + (p a).mass • ((p a).inertialPosition - smulRight s.sx (lit 1 / s.eta)),
          sv := smulRight s.sv ((s.eta + (p a).mass) * (lit 1 / s.eta))
            + (p a).mass • ((p a).inertialVelocity - smulRight s.sv (lit 1 / s.eta)),
          sa := smulRight s.sa ((s.eta + (p a).mass) * (lit 1 / s.eta))
            + (p a).mass • (newton a - smulRight s.sa (lit 1 / s.eta)),
          position := fun j => if j = a then (p a).inertialPosition - smulRight s.sx (lit 1 / s.eta) else s.position j,
          velocity := fun j => if j = a then (p a).inertialVelocity - smulRight s.sv (lit 1 / s.eta) else s.velocity j,
          acceleration := fun j => if j = a then newton a - smulRight s.sa (lit 1 / s.eta) else s.acceleration j }
        (by have := hm a; dsimp only; linarith)
        (by dsimp only; rw [sum_insert aS, h1, add_comm])
        (by dsimp only; rw [step, sum_insert aS, h2])
        (by dsimp only; rw [step, sum_insert aS, h3])
        (by dsimp only; rw [step, sum_insert aS, h4])
      refine ⟨fun i hi => ?_, fun i hi hoi => ?_⟩
      · obtain ⟨q1, q2, q3⟩ := k1 i hi.2
        dsimp only at q1 q2 q3
        rw [if_neg hi.1] at q1 q2 q3
        exact ⟨q1, q2, q3⟩
      · rcases hi with rfl | hi
        · obtain ⟨q1, q2, q3⟩ := k1 i al
          dsimp only at q1 q2 q3
          rw [if_pos rfl] at q1 q2 q3
          have T : S ∪ (i :: l).toFinset.filter (fun j => j < i ∧ (p j).gr.effect.isOrbiting = true) = S := by
            rw [union_eq_left]
            intro j hj
            rw [mem_filter, List.mem_toFinset, List.mem_cons] at hj
            obtain ⟨hj1, hj2, -⟩ := hj
            rcases hj1 with rfl | hj1
            · exact absurd hj2 (lt_irrefl _)
            · exact absurd hj2 (not_lt.2 (below j hj1).le)
          rw [T]
          unfold relativeTo
          rw [← h1, ← h2, ← h3, ← h4]
          refine ⟨q1.trans ?_, q2.trans ?_, q3.trans ?_⟩ <;> rw [smulRight_eq, lit_real] <;> simp
        · have q := k2 i hi hoi
          have T : S ∪ (a :: l).toFinset.filter (fun j => j < i ∧ (p j).gr.effect.isOrbiting = true)
              = insert a S ∪ l.toFinset.filter (fun j => j < i ∧ (p j).gr.effect.isOrbiting = true) := by
            ext j
            simp only [mem_union, mem_filter, List.mem_toFinset, List.mem_cons, mem_insert]
            constructor
            · rintro (h | ⟨h | h, h'⟩)
              · exact Or.inl (Or.inr h)
              · exact Or.inl (Or.inl h)
              · exact Or.inr ⟨h, h'⟩
            · rintro ((rfl | h) | ⟨h, h'⟩)
              · exact Or.inr ⟨Or.inl rfl, below i hi, ho⟩
              · exact Or.inl h
              · exact Or.inr ⟨Or.inr h, h'⟩
          rw [T]
          exact q
    · rw [if_neg ho]
      obtain ⟨k1, k2⟩ := ih sorted' S (fun i hi => hS i (List.mem_cons_of_mem a hi)) s pos h1 h2 h3 h4
      refine ⟨fun i hi => k1 i hi.2, fun i hi hoi => ?_⟩
      rcases hi with rfl | hi
      · exact absurd hoi ho
      · have T : S ∪ (a :: l).toFinset.filter (fun j => j < i ∧ (p j).gr.effect.isOrbiting = true)
            = S ∪ l.toFinset.filter (fun j => j < i ∧ (p j).gr.effect.isOrbiting = true) := by
          ext j
          simp only [mem_union, mem_filter, List.mem_toFinset, List.mem_cons]
          constructor
          · rintro (h | ⟨rfl | h, h'⟩)
            · exact Or.inl h
            · exact absurd h'.2 ho
            · exact Or.inr ⟨h, h'⟩
          · rintro (h | ⟨h, h'⟩)
            · exact Or.inl h
            · exact Or.inr ⟨Or.inr h, h'⟩
        rw [T]
        exact k2 i hi hoi

theorem others_sorted (h : Fin n) : (others h).Pairwise (· < ·) :=
  (List.pairwise_lt_finRange n).filter _

theorem earlier_eq (h : Fin n) (orbits : Fin n → Bool) (i : Fin n) :
    earlier h orbits i = {h} ∪ (others h).toFinset.filter fun j => j < i ∧ orbits j = true := by
  ext j
  rw [others_toFinset]
  simp only [earlier, mem_filter, mem_univ, true_and, mem_union, mem_singleton, mem_erase, and_true]
  tauto

/-- Anderson's transformation gives Jacobi coordinates. -/
theorem toJacobi_eq (h : Fin n) (p : Fin n → Particle ℝ) (newton : Fin n → Axes ℝ) (hm : ∀ i, 0 ≤ (p i).mass)
    (pos : 0 < (p h).mass) {i : Fin n} (hi : i ≠ h) (ho : (p i).gr.effect.isOrbiting = true) :
    let T := earlier h (fun j => (p j).gr.effect.isOrbiting) i
    (toJacobi h p newton).position i = relativeTo (fun j => (p j).mass) T (fun j => (p j).inertialPosition) i
      ∧ (toJacobi h p newton).velocity i = relativeTo (fun j => (p j).mass) T (fun j => (p j).inertialVelocity) i
      ∧ (toJacobi h p newton).acceleration i = relativeTo (fun j => (p j).mass) T newton i := by
  dsimp only
  rw [earlier_eq]
  exact (toJacobi_loop p newton hm (others h) (others_sorted h) {h} (fun i hi => by
    rw [mem_singleton]; exact mem_others.1 hi) _ pos (by simp) (by simp) (by simp) (by simp)).2 i (mem_others.2 hi) ho

theorem fromJacobi_relative (p : Fin n → Particle ℝ) (jacobi : Fin n → Axes ℝ) (l : List (Fin n))
    (sorted : l.Pairwise (· > ·)) (eta : ℝ) (s : Axes ℝ) (acc : Fin n → Axes ℝ)
    (pos : 0 < eta - (l.map fun i => if (p i).gr.effect.isOrbiting then (p i).mass else 0).sum)
    (hm : ∀ i, 0 ≤ (p i).mass) :
    let r := l.foldl (fun (s : ℝ × Axes ℝ × (Fin n → Axes ℝ)) i =>
      if (p i).gr.effect.isOrbiting then
        let ei := lit 1 / s.1
        let sa := smulRight (s.2.1 - (p i).mass • jacobi i) ei
        let eta := s.1 - (p i).mass
        (eta, smulRight sa eta, fun j => if j = i then jacobi i + sa else s.2.2 j)
      else s) (eta, s, acc)
    ∀ i ∈ l, (p i).gr.effect.isOrbiting = true →
      let T := l.toFinset.filter fun j => j < i ∧ (p j).gr.effect.isOrbiting = true
      r.2.2 i - (r.1 + ∑ j ∈ T, (p j).mass)⁻¹ • (r.2.1 + ∑ j ∈ T, (p j).mass • r.2.2 j) = jacobi i := by
  induction l generalizing eta s acc with
  | nil => simp
  | cons a l ih =>
    obtain ⟨below, sorted'⟩ := List.pairwise_cons.1 sorted
    have nd : l.Nodup := sorted'.imp fun h => ne_of_gt h
    have al : a ∉ l := fun h => lt_irrefl a (below a h)
    have sums : ∀ {M : Type} [AddCommMonoid M] (f : Fin n → M),
        (l.map fun i => if (p i).gr.effect.isOrbiting then f i else 0).sum
          = ∑ j ∈ l.toFinset.filter (fun j => j < a ∧ (p j).gr.effect.isOrbiting = true), f j := by
      intro M _ f
      rw [sum_filter, ← List.sum_toFinset _ nd]
      refine sum_congr rfl fun j hj => ?_
      have := below j (List.mem_toFinset.1 hj)
      simp [show j < a from this]
    simp only [List.map_cons, List.sum_cons] at pos
    have tail : 0 ≤ (l.map fun i => if (p i).gr.effect.isOrbiting then (p i).mass else 0).sum := by
      refine List.sum_nonneg fun x hx => ?_
      obtain ⟨j, -, rfl⟩ := List.mem_map.1 hx
      split
      · exact hm j
      · exact le_rfl
    have skip : ∀ i ∈ l, (a :: l).toFinset.filter (fun j => j < i ∧ (p j).gr.effect.isOrbiting = true)
        = l.toFinset.filter (fun j => j < i ∧ (p j).gr.effect.isOrbiting = true) := by
      intro i hi
      rw [List.toFinset_cons, filter_insert, if_neg]
      exact fun h => lt_asymm h.1 (below i hi)
    simp only [List.foldl_cons, List.mem_cons]
    by_cases ho : (p a).gr.effect.isOrbiting = true
    · rw [if_pos ho] at pos
      rw [if_pos ho]
      have hma := hm a
      have pos' : 0 < (eta - (p a).mass) - (l.map fun i => if (p i).gr.effect.isOrbiting then (p i).mass else 0).sum := by
        linarith
      have k := ih sorted' (eta - (p a).mass)
        (smulRight (smulRight (s - (p a).mass • jacobi a) (lit 1 / eta)) (eta - (p a).mass))
        (fun j => if j = a then jacobi a + smulRight (s - (p a).mass • jacobi a) (lit 1 / eta) else acc j) pos'
      obtain ⟨x1, x2, x3⟩ := fromJacobi_loop p jacobi l nd (eta - (p a).mass)
        (smulRight (smulRight (s - (p a).mass • jacobi a) (lit 1 / eta)) (eta - (p a).mass))
        (fun j => if j = a then jacobi a + smulRight (s - (p a).mass • jacobi a) (lit 1 / eta) else acc j) pos' hm
      intro i hi hoi
      rcases hi with rfl | hi
      · have T : (i :: l).toFinset.filter (fun j => j < i ∧ (p j).gr.effect.isOrbiting = true)
            = l.toFinset.filter (fun j => j < i ∧ (p j).gr.effect.isOrbiting = true) := by
          rw [List.toFinset_cons, filter_insert, if_neg]
          exact fun h => lt_irrefl _ h.1
        rw [T]
        rw [sums] at x1
        rw [sums] at x2
        rw [x2, x3 i al, if_pos rfl, x1, sub_add_cancel, smulRight_eq _ (eta - (p i).mass), smul_smul,
          inv_mul_cancel₀ (by linarith), one_smul, add_sub_cancel_right]
      · have := k i hi hoi
        dsimp only at this ⊢
        rw [skip i hi]
        exact this
    · rw [if_neg ho] at pos
      rw [if_neg ho]
      have k := ih sorted' eta s acc (by linarith)
      intro i hi hoi
      rcases hi with rfl | hi
      · exact absurd hoi ho
      · have := k i hi hoi
        dsimp only at this ⊢
        rw [skip i hi]
        exact this

/-- **C112** The relativistic acceleration of a companion, relative to the mean of those of the host and the companions before
it, is Anderson's correction for its position, velocity and Newtonian acceleration relative to the same means. -/
theorem C112_jacobi {k : Consts ℝ} {m : Models ℝ} {eps2 time : ℝ} {evolution dL : Bool}
    {u u' : Universe ℝ n} {h : Fin n} (hok : GrHostOk u) (hh : u.hosts.gr = some h)
    (cg : u.consider.gr = true) (hg : (u.particles h).gr.effect = .central .anderson1975)
    (hv : (u.particles u.hosts.mostMassive).heliocentricVelocity = 0) (hm : 0 < (u.particles h).mass)
    (hn : ∀ i, 0 ≤ (u.particles i).mass)
    (hu : calculateAdditionalEffects k m eps2 time evolution dL true .none (inertialToHeliocentric u) = some u')
    {i : Fin n} (hi : i ≠ h) (ho : (u.particles i).gr.effect.isOrbiting = true) :
    let relative := relativeTo (fun j => (u.particles j).mass) (earlier h (fun j => (u.particles j).gr.effect.isOrbiting) i)
    relative (fun j => (u'.particles j).gr.acceleration) i
      = andersonCorrection k eps2 (u.particles h).massG (relative (fun j => (u.particles j).inertialPosition) i)
          (relative (fun j => (u.particles j).inertialVelocity) i)
          (relative (fun j => (u.particles j).inertialAcceleration) i) := by
  intro relative
  obtain ⟨P, a, -, -, d, -⟩ := gr_evaluation hok hh cg (Or.inr (Or.inl hg)) hv hu
  have e0 : generalRelativity k eps2 .none h P = anderson k eps2 .none h P := by
    unfold generalRelativity
    rw [(a h).2.2.2.2.2.1, hg]
  have ef : ∀ i, (P i).gr.effect.isOrbiting = (u.particles i).gr.effect.isOrbiting := fun i => by
    rw [(a i).2.2.2.2.2.1]
  have em : ∀ i, (P i).mass = (u.particles i).mass := fun i => (a i).1
  have jac := toJacobi_eq h P (newtonianAccelerations k .none h P) (fun i => by rw [em]; exact hn i) (by rw [em]; exact hm)
    hi (by rw [ef]; exact ho)
  have eN : newtonianAccelerations k .none h P = fun j => (u.particles j).inertialAcceleration := by
    funext j
    rw [C67_complete_partial, (a j).2.2.2.2.1]
  simp only [em, ef, (a _).2.2.1, (a _).2.2.2.1] at jac
  obtain ⟨j1, j2, j3⟩ := jac
  rw [eN] at j1 j2 j3
  obtain ⟨corr, hcorr, hci⟩ : ∃ corr : Fin n → Axes ℝ, anderson k eps2 .none h P
      = mapHost h (fun host => host.setGr
            (fromJacobi h P (toJacobi h P (newtonianAccelerations k .none h P)).eta Axes.zero corr h))
          (fun i => if i = h then P i else
            if (P i).gr.effect.isOrbiting then
              (P i).setGr (fromJacobi h P (toJacobi h P (newtonianAccelerations k .none h P)).eta Axes.zero corr i)
            else P i)
      ∧ corr i = andersonCorrection k eps2 (u.particles h).massG (relative (fun j => (u.particles j).inertialPosition) i)
          (relative (fun j => (u.particles j).inertialVelocity) i)
          (relative (fun j => (u.particles j).inertialAcceleration) i) := by
    refine ⟨_, rfl, ?_⟩
    rw [if_pos (by rw [ef]; exact ho), eN, j1, j2, j3, (a h).2.1]
  rw [← hci]
  set eta := (toJacobi h P (newtonianAccelerations k .none h P)).eta with heta
  rw [toJacobi_eta] at heta
  have sumrev : ((others h).reverse.map fun i => if (P i).gr.effect.isOrbiting then (P i).mass else 0).sum
      = ((others h).map fun i => if (P i).gr.effect.isOrbiting then (P i).mass else 0).sum := by
    rw [List.map_reverse, List.sum_reverse]
  have pos : 0 < eta - ((others h).reverse.map fun i => if (P i).gr.effect.isOrbiting then (P i).mass else 0).sum := by
    rw [sumrev, heta, em]; simpa using hm
  have nonneg : ∀ i, 0 ≤ (P i).mass := fun i => by rw [em]; exact hn i
  obtain ⟨x1, -, -⟩ := fromJacobi_loop P corr (others h).reverse (List.nodup_reverse.2 (others_nodup h))
    eta (eta • Axes.zero) (fun _ => Axes.zero) pos nonneg
  have x4 := fromJacobi_relative P corr (others h).reverse (List.pairwise_reverse.2 (others_sorted h)) eta (eta • Axes.zero)
    (fun _ => Axes.zero) pos nonneg i (by rw [List.mem_reverse]; exact mem_others.2 hi) (by rw [ef]; exact ho)
  unfold fromJacobi at hcorr
  dsimp only at hcorr x1 x4
  set r := (others h).reverse.foldl _ _ with hr
  rw [sumrev, heta] at x1
  have x1 : r.1 = (P h).mass := by rw [x1]; ring
  have ah : (u'.particles h).gr.acceleration = r.1⁻¹ • r.2.1 := by
    rw [d, e0, hcorr, mapHost_host]
    simp only [if_true]
    rw [smulRight_eq]
    simp [Particle.setGr]
  have ai : ∀ j, j ≠ h → (u.particles j).gr.effect.isOrbiting = true → (u'.particles j).gr.acceleration = r.2.2 j := by
    intro j hj hoj
    rw [d, e0, hcorr, mapHost_other hj, if_neg hj, if_pos (by rw [ef]; exact hoj), if_neg hj]
    rfl
  have T : earlier h (fun j => (u.particles j).gr.effect.isOrbiting) i
      = insert h ((others h).reverse.toFinset.filter fun j => j < i ∧ (P j).gr.effect.isOrbiting = true) := by
    rw [earlier_eq, List.toFinset_reverse]
    simp only [ef]
    rw [singleton_union]
  have nh : h ∉ (others h).reverse.toFinset.filter fun j => j < i ∧ (P j).gr.effect.isOrbiting = true := by
    rw [mem_filter, List.mem_toFinset, List.mem_reverse, mem_others]
    exact fun q => q.1 rfl
  show relativeTo _ _ _ _ = _
  unfold relativeTo
  rw [T, sum_insert nh, sum_insert nh]
  dsimp only
  rw [ai i hi ho, ah, ← x4]
  have mz : (u.particles h).mass ≠ 0 := hm.ne'
  rw [x1, em, smul_smul, mul_inv_cancel₀ mz, one_smul]
  congr 3
  · congr 1
    exact sum_congr rfl fun j _ => (em j).symm
  · refine sum_congr rfl fun j hj => ?_
    rw [mem_filter, List.mem_toFinset, List.mem_reverse, mem_others, ef] at hj
    rw [ai j hj.1 hj.2.2, em]

/-! ### The correction -/

/-- How much slower than its momentum a body is. -/
noncomputable def slowing (c2 mu : ℝ) (x w : Axes ℝ) : ℝ := (w.dot w / 2 + 3 * mu / √(x.dot x)) / c2

/-- The relativistic part of the force on the momentum, divided by the position. -/
noncomputable def relativisticPull (c2 mu : ℝ) (x w : Axes ℝ) : ℝ :=
  (mu / √(x.dot x) - 3 / 2 * w.dot w) * mu / √(x.dot x) ^ 3 / c2

/-- The relativistic Hamiltonian of a test body per unit of its mass, without the Newtonian potential: position `x`,
momentum `w`. -/
noncomputable def relativisticEnergy (c2 mu : ℝ) (x w : Axes ℝ) : ℝ :=
  w.dot w / 2 - (w.dot w ^ 2 / 8 + 3 * mu * w.dot w / (2 * √(x.dot x)) - mu ^ 2 / (2 * x.dot x)) / c2

/-- The difference between the acceleration of a body with position `x`, momentum `w` and velocity `v` and the Newtonian one. -/
noncomputable def momentumCorrection (c2 mu : ℝ) (x w v a : Axes ℝ) : Axes ℝ :=
  (relativisticPull c2 mu x w * (1 - slowing c2 mu x w)) • x - slowing c2 mu x w • a
    - ((w.dot (a + relativisticPull c2 mu x w • x) - 3 * mu / √(x.dot x) ^ 3 * x.dot v) / c2) • w

theorem dot_deriv {p q : ℝ → Axes ℝ} {a b : Axes ℝ} {t : ℝ} (hp : VecDeriv p a t) (hq : VecDeriv q b t) :
    HasDerivAt (fun s => (p s).dot (q s)) (a.dot (q t) + (p t).dot b) t := by
  have := ((hp.1.mul hq.1).add (hp.2.1.mul hq.2.1)).add (hp.2.2.mul hq.2.2)
  refine this.congr_deriv ?_
  simp only [dot]; ring

theorem distance_deriv {x : ℝ → Axes ℝ} {v : Axes ℝ} {t : ℝ} (hx : VecDeriv x v t) (hne : x t ≠ 0) :
    HasDerivAt (fun s => √((x s).dot (x s))) ((x t).dot v / √((x t).dot (x t))) t := by
  have pos : 0 < (x t).dot (x t) := lt_of_le_of_ne (dot_self_nonneg _) fun e => hne (dot_self_eq_zero e.symm)
  have := (dot_deriv hx hx).sqrt pos.ne'
  refine this.congr_deriv ?_
  rw [Axes.dot_comm v (x t)]
  have := (Real.sqrt_pos.2 pos).ne'
  field_simp
  ring

theorem distance_pos {x : Axes ℝ} (hne : x ≠ 0) : 0 < √(x.dot x) :=
  Real.sqrt_pos.2 (lt_of_le_of_ne (dot_self_nonneg _) fun e => hne (dot_self_eq_zero e.symm))

theorem slowing_deriv (c2 mu : ℝ) {x w : ℝ → Axes ℝ} {v f : Axes ℝ} {t : ℝ} (hx : VecDeriv x v t) (hw : VecDeriv w f t)
    (hne : x t ≠ 0) : HasDerivAt (fun s => slowing c2 mu (x s) (w s))
      (((w t).dot f - 3 * mu / √((x t).dot (x t)) ^ 3 * (x t).dot v) / c2) t := by
  have r0 := (distance_pos hne).ne'
  have d := distance_deriv hx hne
  have := (((dot_deriv hw hw).div_const 2).add ((hasDerivAt_const t (3 * mu)).div d r0)).div_const c2
  refine this.congr_deriv ?_
  rw [Axes.dot_comm f (w t)]
  field_simp
  ring

/-- **C112** The velocity and the force are the derivatives of the relativistic Hamiltonian: its change along any curve of
positions and momenta. -/
theorem C112_hamiltonian {c2 mu : ℝ} {x w : ℝ → Axes ℝ} {v f : Axes ℝ} {t : ℝ} (hx : VecDeriv x v t) (hw : VecDeriv w f t)
    (hne : x t ≠ 0) : HasDerivAt (fun s => relativisticEnergy c2 mu (x s) (w s))
      ((1 - slowing c2 mu (x t) (w t)) * (w t).dot f - relativisticPull c2 mu (x t) (w t) * (x t).dot v) t := by
  have pos := distance_pos hne
  have r0 := pos.ne'
  have d := distance_deriv hx hne
  have w2 := dot_deriv hw hw
  have x2 := dot_deriv hx hx
  have sq : √((x t).dot (x t)) ^ 2 = (x t).dot (x t) := Real.sq_sqrt (dot_self_nonneg _)
  have xx : (x t).dot (x t) ≠ 0 := by rw [← sq]; positivity
  have := (w2.div_const 2).sub (((((w2.pow 2).div_const 8).add ((w2.const_mul (3 * mu)).div (d.const_mul 2) (by positivity))).sub
    ((hasDerivAt_const t (mu ^ 2)).div (x2.const_mul 2) (by positivity))).div_const c2)
  refine this.congr_deriv ?_
  rw [Axes.dot_comm f (w t), Axes.dot_comm v (x t)]
  simp only [slowing, relativisticPull]
  generalize (x t).dot v = xv
  generalize (w t).dot f = wf
  generalize (w t).dot (w t) = ww
  rw [← sq] at xx ⊢
  rw [Real.sqrt_sq pos.le]
  generalize √((x t).dot (x t)) = r at *
  by_cases hc : c2 = 0
  · simp [hc]
  · field_simp
    ring

/-- **C112** A body that follows the relativistic Hamiltonian with a Newtonian acceleration `a` has the acceleration `a` plus
the correction. -/
theorem C112_motion {c2 mu : ℝ} {x w : ℝ → Axes ℝ} {a : Axes ℝ} {t : ℝ}
    (hx : VecDeriv x ((1 - slowing c2 mu (x t) (w t)) • w t) t) (hw : VecDeriv w (a + relativisticPull c2 mu (x t) (w t) • x t) t)
    (hne : x t ≠ 0) :
    VecDeriv (fun s => (1 - slowing c2 mu (x s) (w s)) • w s)
      (a + momentumCorrection c2 mu (x t) (w t) ((1 - slowing c2 mu (x t) (w t)) • w t) a) t := by
  have d := (slowing_deriv c2 mu hx hw hne).const_sub 1
  have k : VecDeriv (fun s => (1 - slowing c2 mu (x s) (w s)) • w s)
      (-(((w t).dot (a + relativisticPull c2 mu (x t) (w t) • x t)
        - 3 * mu / √((x t).dot (x t)) ^ 3 * (x t).dot ((1 - slowing c2 mu (x t) (w t)) • w t)) / c2) • w t
        + (1 - slowing c2 mu (x t) (w t)) • (a + relativisticPull c2 mu (x t) (w t) • x t)) t :=
    ⟨d.mul hw.1, d.mul hw.2.1, d.mul hw.2.2⟩
  refine Eq.subst (motive := fun e => VecDeriv _ e t) ?_ k
  unfold momentumCorrection
  module

/-- **C112** The energy is kept if the Newtonian acceleration comes from a potential. -/
theorem C112_energy {c2 mu : ℝ} {x w : ℝ → Axes ℝ} {a : Axes ℝ} {t : ℝ} {U : Axes ℝ → ℝ}
    (hx : VecDeriv x ((1 - slowing c2 mu (x t) (w t)) • w t) t) (hw : VecDeriv w (a + relativisticPull c2 mu (x t) (w t) • x t) t)
    (hU : HasDerivAt (fun s => U (x s)) (-a.dot ((1 - slowing c2 mu (x t) (w t)) • w t)) t)
    (hne : x t ≠ 0) : HasDerivAt (fun s => relativisticEnergy c2 mu (x s) (w s) + U (x s)) 0 t := by
  refine ((C112_hamiltonian hx hw hne).add hU).congr_deriv ?_
  simp only [dot_add, dot_smul, Axes.dot_comm (w t) (x t), Axes.dot_comm (w t) a]
  ring

/-! ### The iteration for the momentum -/

/-- The slowing for a momentum `s v`, with `V = v.v` and `M = 3 mu / r`. -/
noncomputable def slow (c2 V M s : ℝ) : ℝ := (s ^ 2 * V / 2 + M) / c2

theorem slow_bounds {c2 V M s : ℝ} (hc : 0 < c2) (hV : 0 ≤ V) (hM : 0 ≤ M) (weak : 2 * V + M ≤ c2 / 2) (h1 : 1 ≤ s) (h2 : s ≤ 2) :
    0 ≤ slow c2 V M s ∧ slow c2 V M s ≤ 1 / 2 ∧ 1 ≤ 1 / (1 - slow c2 V M s) ∧ 1 / (1 - slow c2 V M s) ≤ 2 := by
  have s2 : s ^ 2 ≤ 4 := by nlinarith
  have a0 : 0 ≤ slow c2 V M s := by unfold slow; positivity
  have a1 : slow c2 V M s ≤ 1 / 2 := by
    unfold slow
    rw [div_le_iff₀ hc]
    nlinarith
  refine ⟨a0, a1, ?_, ?_⟩
  · rw [le_div_iff₀ (by linarith)]; linarith
  · rw [div_le_iff₀ (by linarith)]; linarith

theorem slow_sub {c2 V M s t : ℝ} (hc : 0 < c2) (hV : 0 ≤ V) (h1 : 1 ≤ s) (h2 : s ≤ 2) (h3 : 1 ≤ t) (h4 : t ≤ 2) :
    |slow c2 V M s - slow c2 V M t| ≤ 2 * (V / c2) * |s - t| := by
  have e : slow c2 V M s - slow c2 V M t = (s + t) * V / (2 * c2) * (s - t) := by
    unfold slow; field_simp; ring
  rw [e, abs_mul]
  refine mul_le_mul_of_nonneg_right ?_ (abs_nonneg _)
  rw [abs_of_nonneg (by positivity)]
  calc (s + t) * V / (2 * c2) ≤ 4 * V / (2 * c2) := by gcongr; linarith
    _ = 2 * (V / c2) := by ring

theorem andersonLoop_momentum {k : Consts ℝ} {eps2 mu ri : ℝ} {v : Axes ℝ} (hc : 0 < k.c2) (hM : 0 ≤ 3 * mu / ri)
    (weak : 2 * v.dot v + 3 * mu / ri ≤ k.c2 / 2) (fuel : ℕ) (s δ vi2 : ℝ) (h1 : 1 ≤ s) (h2 : s ≤ 2)
    (hδ : |1 / (1 - slow k.c2 (v.dot v) (3 * mu / ri) s) - s| ≤ δ) :
    ∃ t, 1 ≤ t ∧ t ≤ 2
      ∧ andersonLoop k eps2 mu ri v (fuel + 1) (s • v) vi2 (slow k.c2 (v.dot v) (3 * mu / ri) s)
        = (t • v, (t • v).norm2, slow k.c2 (v.dot v) (3 * mu / ri) t)
      ∧ |1 - (1 - slow k.c2 (v.dot v) (3 * mu / ri) t) * t|
        ≤ 4 * (v.dot v / k.c2) * (2 * √eps2 + (8 * (v.dot v / k.c2)) ^ fuel * δ) := by
  have V0 : 0 ≤ v.dot v := dot_self_nonneg v
  set V := v.dot v with hV
  set M := 3 * mu / ri with hM'
  set A := slow k.c2 V M with hA
  have q0 : 0 ≤ V / k.c2 := by positivity
  have residual : ∀ s t, 1 ≤ s → s ≤ 2 → t = 1 / (1 - A s) → 1 ≤ t → t ≤ 2 →
      |1 - (1 - A t) * t| ≤ 4 * (V / k.c2) * |t - s| := by
    intro s t h1 h2 ht h3 h4
    obtain ⟨-, b2, -, -⟩ := slow_bounds hc V0 hM weak h1 h2
    have ne : 1 - A s ≠ 0 := by have : A s ≤ 1 / 2 := b2; linarith
    have e : 1 - (1 - A t) * t = (A t - A s) * t := by
      have : (1 - A s) * t = 1 := by rw [ht]; field_simp
      linear_combination -this
    rw [e, abs_mul, abs_of_nonneg (by linarith : (0 : ℝ) ≤ t)]
    calc |A t - A s| * t ≤ 2 * (V / k.c2) * |t - s| * 2 := mul_le_mul (slow_sub hc V0 h3 h4 h1 h2) h4 (by linarith) (by positivity)
      _ = _ := by ring
  induction fuel generalizing s δ vi2 with
  | zero =>
    obtain ⟨b1, b2, b3, b4⟩ := slow_bounds hc V0 hM weak h1 h2
    refine ⟨1 / (1 - A s), b3, b4, ?_, ?_⟩
    · have ev : v.sdiv (lit 1 - A s) = (1 / (1 - A s)) • v := by
        ext <;> simp [Axes.sdiv] <;> ring
      have ea : (lit (1/2) * ((1 / (1 - A s)) • v).norm2 + lit 3 * mu / ri) / k.c2 = A (1 / (1 - A s)) := by
        simp only [lit_real, Axes.norm2, Axes.smul_dot, Axes.dot_smul, hA, slow, hM', ← hV]
        push_cast
        ring
      unfold andersonLoop
      dsimp only
      rw [ev, ea]
      split
      · rfl
      · unfold andersonLoop; rfl
    · refine (residual s _ h1 h2 rfl b3 b4).trans ?_
      refine mul_le_mul_of_nonneg_left ?_ (by positivity)
      rw [pow_zero, one_mul]
      have := Real.sqrt_nonneg eps2
      have h : |1 / (1 - A s) - s| ≤ δ := hδ
      linarith
  | succ m ih =>
    obtain ⟨b1, b2, b3, b4⟩ := slow_bounds hc V0 hM weak h1 h2
    set s1 := 1 / (1 - A s) with hs1
    obtain ⟨c1, c2, c3, c4⟩ := slow_bounds hc V0 hM weak b3 b4
    have ev : v.sdiv (lit 1 - A s) = s1 • v := by
      ext <;> simp [Axes.sdiv, hs1] <;> ring
    have ea : (lit (1/2) * (s1 • v).norm2 + lit 3 * mu / ri) / k.c2 = A s1 := by
      simp only [lit_real, Axes.norm2, Axes.smul_dot, Axes.dot_smul, hA, slow, hM', ← hV]
      push_cast
      ring
    have δ0 : 0 ≤ δ := (abs_nonneg _).trans hδ
    rw [show andersonLoop k eps2 mu ri v (m + 1 + 1) (s • v) vi2 (A s)
      = if ltb ((s1 • v - s • v).norm2 / (s1 • v).norm2) eps2 then (s1 • v, (s1 • v).norm2, A s1)
        else andersonLoop k eps2 mu ri v (m + 1) (s1 • v) (s1 • v).norm2 (A s1) by
      conv_lhs => unfold andersonLoop
      dsimp only
      rw [ev, ea]]
    split
    · rename_i hb
      refine ⟨s1, b3, b4, rfl, ?_⟩
      rw [ltb_real] at hb
      by_cases hv : V = 0
      · refine (residual s _ h1 h2 hs1 b3 b4).trans ?_
        simp [hv]
      · have Vp : 0 < V := lt_of_le_of_ne V0 (Ne.symm hv)
        have e : (s1 • v - s • v).norm2 / (s1 • v).norm2 = ((s1 - s) / s1) ^ 2 := by
          rw [← sub_smul]
          simp only [Axes.norm2, Axes.smul_dot, Axes.dot_smul, ← hV]
          have : s1 ≠ 0 := by linarith
          field_simp
        rw [e] at hb
        have h3 : |(s1 - s) / s1| ≤ √eps2 := Real.abs_le_sqrt hb.le
        rw [abs_div, abs_of_nonneg (by linarith : (0 : ℝ) ≤ s1), div_le_iff₀ (by linarith)] at h3
        refine (residual s _ h1 h2 hs1 b3 b4).trans ?_
        refine mul_le_mul_of_nonneg_left ?_ (by positivity)
        have p : 0 ≤ (8 * (V / k.c2)) ^ (m + 1) * δ := by positivity
        have := Real.sqrt_nonneg eps2
        nlinarith
    · obtain ⟨t, t1, t2, t3, t4⟩ := ih s1 (8 * (V / k.c2) * δ) (s1 • v).norm2 b3 b4 (by
        have e : 1 / (1 - A s1) - s1 = (A s1 - A s) * (1 / (1 - A s1)) * s1 := by
          have n1 : 1 - A s ≠ 0 := by have : A s ≤ 1 / 2 := b2; linarith
          have n2 : 1 - A s1 ≠ 0 := by have : A s1 ≤ 1 / 2 := c2; linarith
          have : (1 - A s) * s1 = 1 := by rw [hs1]; field_simp
          have e2 : (1 - A s1) * (1 / (1 - A s1)) = 1 := by field_simp
          linear_combination (-(1 / (1 - A s1))) * this + s1 * e2
        show |1 / (1 - A s1) - s1| ≤ _
        rw [e, abs_mul, abs_mul, abs_of_nonneg (by linarith : (0 : ℝ) ≤ s1), abs_of_nonneg (by
          have : (1 : ℝ) ≤ 1 / (1 - A s1) := c3
          linarith : (0 : ℝ) ≤ 1 / (1 - A s1))]
        calc |A s1 - A s| * (1 / (1 - A s1)) * s1 ≤ (2 * (V / k.c2) * |s1 - s|) * 2 * 2 := by
              refine mul_le_mul (mul_le_mul (slow_sub hc V0 b3 b4 h1 h2) c4 ?_ (by positivity)) b4 (by linarith) (by positivity)
              have : (1 : ℝ) ≤ 1 / (1 - A s1) := c3
              linarith
          _ = 8 * (V / k.c2) * |s1 - s| := by ring
          _ ≤ _ := mul_le_mul_of_nonneg_left hδ (by positivity))
      refine ⟨t, t1, t2, t3, t4.trans (le_of_eq ?_)⟩
      rw [pow_succ]; ring

/-- **C112** In a weak field the correction is that of a momentum `s v` whose velocity by the Hamiltonian is the velocity of
the body, up to a relative error of the square root of the tolerance or of the tenth power of `8 v^2 / c^2`. -/
theorem C112_correction {k : Consts ℝ} {eps2 mu : ℝ} {x v a : Axes ℝ} (hc : 0 < k.c2) (hmu : 0 ≤ mu)
    (weak : 2 * v.dot v + 3 * mu / √(x.dot x) ≤ k.c2 / 2) :
    ∃ s, 1 ≤ s ∧ s ≤ 2 ∧ andersonCorrection k eps2 mu x v a = momentumCorrection k.c2 mu x (s • v) v a
      ∧ |1 - (1 - slowing k.c2 mu x (s • v)) * s|
        ≤ 4 * (v.dot v / k.c2) * (2 * √eps2 + (8 * (v.dot v / k.c2)) ^ 9) := by
  have V0 : 0 ≤ v.dot v := dot_self_nonneg v
  have M0 : 0 ≤ 3 * mu / √(x.dot x) := by positivity
  have sl : ∀ s : ℝ, slowing k.c2 mu x (s • v) = slow k.c2 (v.dot v) (3 * mu / √(x.dot x)) s := by
    intro s
    simp only [slowing, slow, Axes.smul_dot, Axes.dot_smul]
    ring
  obtain ⟨b1, b2, b3, b4⟩ := slow_bounds hc V0 M0 weak (le_refl 1) one_le_two
  obtain ⟨t, t1, t2, t3, t4⟩ := andersonLoop_momentum (eps2 := eps2) hc M0 weak 9 1 1 v.norm2 (le_refl 1) one_le_two (by
    set α := slow k.c2 (v.dot v) (3 * mu / √(x.dot x)) 1
    rw [abs_of_nonneg (by linarith)]
    linarith)
  refine ⟨t, t1, t2, ?_, ?_⟩
  · have start : (lit (1/2) * v.norm2 + lit 3 * mu / FOps.sqrt x.norm2) / k.c2
        = slow k.c2 (v.dot v) (3 * mu / √(x.dot x)) 1 := by
      simp only [lit_real, sqrt_real, slow, Axes.norm2]
      push_cast
      ring
    rw [one_smul] at t3
    unfold andersonCorrection
    dsimp only
    rw [start]
    have t3' : andersonLoop k eps2 mu (FOps.sqrt x.norm2) v 10 v v.norm2 (slow k.c2 (v.dot v) (3 * mu / √(x.dot x)) 1)
        = (t • v, (t • v).norm2, slow k.c2 (v.dot v) (3 * mu / √(x.dot x)) t) := t3
    rw [t3']
    dsimp only
    rw [← sl]
    unfold momentumCorrection relativisticPull
    simp only [lit_real, sqrt_real, Axes.norm2]
    have cube : √(x.dot x) * √(x.dot x) * √(x.dot x) = √(x.dot x) ^ 3 := by ring
    rw [cube]
    push_cast
    rfl
  · rw [sl]
    simpa using t4

/-! ### Weak fields -/

open Filter Topology

/-- Convergence of the components for an ever greater speed of light. -/
structure Approaches (f : ℝ → Axes ℝ) (a : Axes ℝ) : Prop where
  x : Tendsto (fun c => (f c).x) atTop (𝓝 a.x)
  y : Tendsto (fun c => (f c).y) atTop (𝓝 a.y)
  z : Tendsto (fun c => (f c).z) atTop (𝓝 a.z)

theorem Approaches.const (a : Axes ℝ) : Approaches (fun _ => a) a := ⟨tendsto_const_nhds, tendsto_const_nhds, tendsto_const_nhds⟩

theorem Approaches.add {f g : ℝ → Axes ℝ} {a b : Axes ℝ} (hf : Approaches f a) (hg : Approaches g b) :
    Approaches (fun c => f c + g c) (a + b) := ⟨hf.x.add hg.x, hf.y.add hg.y, hf.z.add hg.z⟩

theorem Approaches.sub {f g : ℝ → Axes ℝ} {a b : Axes ℝ} (hf : Approaches f a) (hg : Approaches g b) :
    Approaches (fun c => f c - g c) (a - b) := ⟨hf.x.sub hg.x, hf.y.sub hg.y, hf.z.sub hg.z⟩

theorem Approaches.smul {s : ℝ → ℝ} {t : ℝ} {f : ℝ → Axes ℝ} {a : Axes ℝ} (hs : Tendsto s atTop (𝓝 t)) (hf : Approaches f a) :
    Approaches (fun c => s c • f c) (t • a) := ⟨hs.mul hf.x, hs.mul hf.y, hs.mul hf.z⟩

theorem Approaches.dot {f g : ℝ → Axes ℝ} {a b : Axes ℝ} (hf : Approaches f a) (hg : Approaches g b) :
    Tendsto (fun c => (f c).dot (g c)) atTop (𝓝 (a.dot b)) :=
  ((hf.x.mul hg.x).add (hf.y.mul hg.y)).add (hf.z.mul hg.z)

theorem Approaches.congr {f g : ℝ → Axes ℝ} {a : Axes ℝ} (hf : Approaches f a) (h : ∀ᶠ c in atTop, f c = g c) : Approaches g a :=
  ⟨hf.x.congr' (h.mono fun c e => by dsimp only; rw [e]), hf.y.congr' (h.mono fun c e => by dsimp only; rw [e]),
    hf.z.congr' (h.mono fun c e => by dsimp only; rw [e])⟩

theorem vanishes {f : ℝ → ℝ} {a : ℝ} (hf : Tendsto (fun c => c * f c) atTop (𝓝 a)) : Tendsto f atTop (𝓝 0) := by
  refine (hf.div_atTop tendsto_id).congr' ?_
  filter_upwards [eventually_gt_atTop (0 : ℝ)] with c hc
  have := hc.ne'
  simp only [id]
  field_simp

theorem andersonLoop_limit (k : Consts ℝ) (eps2 mu ri : ℝ) (v : Axes ℝ) (fuel : ℕ) {vi : ℝ → Axes ℝ} {vi2 A : ℝ → ℝ}
    (h1 : Approaches vi v) (h2 : Tendsto vi2 atTop (𝓝 (v.dot v)))
    (h3 : Tendsto (fun c => c * A c) atTop (𝓝 (v.dot v / 2 + 3 * mu / ri))) :
    Approaches (fun c => (andersonLoop { k with c2 := c } eps2 mu ri v fuel (vi c) (vi2 c) (A c)).1) v
    ∧ Tendsto (fun c => (andersonLoop { k with c2 := c } eps2 mu ri v fuel (vi c) (vi2 c) (A c)).2.1) atTop (𝓝 (v.dot v))
    ∧ Tendsto (fun c => c * (andersonLoop { k with c2 := c } eps2 mu ri v fuel (vi c) (vi2 c) (A c)).2.2) atTop
        (𝓝 (v.dot v / 2 + 3 * mu / ri)) := by
  induction fuel generalizing vi vi2 A with
  | zero => exact ⟨h1, h2, h3⟩
  | succ m ih =>
    have A0 := vanishes h3
    have n1 : Approaches (fun c => v.sdiv (lit 1 - A c)) v := by
      have d : Tendsto (fun c => (lit 1 : ℝ) - A c) atTop (𝓝 1) := by simpa using A0.const_sub 1
      refine ⟨?_, ?_, ?_⟩
      · have q := Tendsto.div (tendsto_const_nhds (x := v.x) (f := atTop)) d one_ne_zero
        rw [div_one] at q
        exact q
      · have q := Tendsto.div (tendsto_const_nhds (x := v.y) (f := atTop)) d one_ne_zero
        rw [div_one] at q
        exact q
      · have q := Tendsto.div (tendsto_const_nhds (x := v.z) (f := atTop)) d one_ne_zero
        rw [div_one] at q
        exact q
    have n2 : Tendsto (fun c => (v.sdiv (lit 1 - A c)).norm2) atTop (𝓝 (v.dot v)) := n1.dot n1
    have n3 : Tendsto (fun c => c * ((lit (1/2) * (v.sdiv (lit 1 - A c)).norm2 + lit 3 * mu / ri) / c)) atTop
        (𝓝 (v.dot v / 2 + 3 * mu / ri)) := by
      have : Tendsto (fun c => (lit (1/2) : ℝ) * (v.sdiv (lit 1 - A c)).norm2 + lit 3 * mu / ri) atTop
          (𝓝 (v.dot v / 2 + 3 * mu / ri)) := by
        have := (n2.const_mul (lit (1/2) : ℝ)).add_const (lit 3 * mu / ri)
        refine this.trans (le_of_eq ?_)
        congr 1
        simp only [lit_real]
        push_cast
        ring
      refine this.congr' ?_
      filter_upwards [eventually_gt_atTop (0 : ℝ)] with c hc
      have := hc.ne'
      field_simp
    obtain ⟨i1, i2, i3⟩ := ih n1 n2 n3
    have e : ∀ c, andersonLoop { k with c2 := c } eps2 mu ri v (m + 1) (vi c) (vi2 c) (A c)
        = if ltb ((v.sdiv (lit 1 - A c) - vi c).norm2 / (v.sdiv (lit 1 - A c)).norm2) eps2 then
            (v.sdiv (lit 1 - A c), (v.sdiv (lit 1 - A c)).norm2, (lit (1/2) * (v.sdiv (lit 1 - A c)).norm2 + lit 3 * mu / ri) / c)
          else andersonLoop { k with c2 := c } eps2 mu ri v m (v.sdiv (lit 1 - A c)) (v.sdiv (lit 1 - A c)).norm2
            ((lit (1/2) * (v.sdiv (lit 1 - A c)).norm2 + lit 3 * mu / ri) / c) := fun c => rfl
    simp only [e]
    refine ⟨⟨?_, ?_, ?_⟩, ?_, ?_⟩
    · simp only [apply_ite Prod.fst, apply_ite Axes.x]; exact n1.x.if' i1.x
    · simp only [apply_ite Prod.fst, apply_ite Axes.y]; exact n1.y.if' i1.y
    · simp only [apply_ite Prod.fst, apply_ite Axes.z]; exact n1.z.if' i1.z
    · simp only [apply_ite Prod.snd, apply_ite Prod.fst]; exact n2.if' i2
    · simp only [apply_ite Prod.snd, mul_ite]; exact n3.if' i3

/-- **C112** The correction to the first order in `1 / c^2`, for any Newtonian acceleration. -/
theorem C112_first_order (k : Consts ℝ) (eps2 mu : ℝ) (x v a : Axes ℝ) :
    Approaches (fun c => c • andersonCorrection { k with c2 := c } eps2 mu x v a)
      (((mu / √(x.dot x) - 3 / 2 * v.dot v) * mu / √(x.dot x) ^ 3) • x - (v.dot v / 2 + 3 * mu / √(x.dot x)) • a
        - (v.dot a - 3 * mu / √(x.dot x) ^ 3 * x.dot v) • v) := by
  have st : Tendsto (fun c : ℝ => c * ((lit (1/2) * v.norm2 + lit 3 * mu / FOps.sqrt x.norm2) / c)) atTop
      (𝓝 (v.dot v / 2 + 3 * mu / FOps.sqrt x.norm2)) := by
    refine tendsto_const_nhds.congr' ?_
    filter_upwards [eventually_gt_atTop (0 : ℝ)] with c hc
    have := hc.ne'
    simp only [lit_real, Axes.norm2]
    push_cast
    field_simp
  obtain ⟨l1, l2, l3⟩ := andersonLoop_limit k eps2 mu (FOps.sqrt x.norm2) v 10 (Approaches.const v)
    (tendsto_const_nhds (x := v.dot v)) st
  set L := fun c : ℝ => andersonLoop { k with c2 := c } eps2 mu (FOps.sqrt x.norm2) v 10 v (v.dot v)
    ((lit (1/2) * v.norm2 + lit 3 * mu / FOps.sqrt x.norm2) / c) with hL
  set r := √(x.dot x) with hr
  have hs : FOps.sqrt x.norm2 = r := sqrt_real _
  have b : Tendsto (fun c => (mu / r - 3 / 2 * (L c).2.1) * mu / r ^ 3) atTop (𝓝 ((mu / r - 3 / 2 * v.dot v) * mu / r ^ 3)) :=
    (((l2.const_mul (3 / 2)).const_sub (mu / r)).mul_const mu).div_const _
  have B0 : Tendsto (fun c => (mu / r - 3 / 2 * (L c).2.1) * mu / r ^ 3 / c) atTop (𝓝 0) := b.div_atTop tendsto_id
  have A0 := vanishes l3
  have D := (l1.dot ((Approaches.const a).add (Approaches.smul B0 (Approaches.const x)))).sub_const (3 * mu / r ^ 3 * x.dot v)
  have A1 : Tendsto (fun c => 1 - (L c).2.2) atTop (𝓝 1) := (A0.const_sub 1).trans (by rw [sub_zero])
  have key := ((Approaches.smul (b.mul A1) (Approaches.const x)).sub (Approaches.smul l3 (Approaches.const a))).sub
    (Approaches.smul D l1)
  have lim : ((mu / r - 3 / 2 * v.dot v) * mu / r ^ 3 * 1) • x - (v.dot v / 2 + 3 * mu / FOps.sqrt x.norm2) • a
        - (v.dot (a + (0 : ℝ) • x) - 3 * mu / r ^ 3 * x.dot v) • v
      = ((mu / r - 3 / 2 * v.dot v) * mu / r ^ 3) • x - (v.dot v / 2 + 3 * mu / r) • a
        - (v.dot a - 3 * mu / r ^ 3 * x.dot v) • v := by
    rw [hs, zero_smul, add_zero, mul_one]
  rw [lim] at key
  refine key.congr ?_
  filter_upwards [eventually_gt_atTop (0 : ℝ)] with c hc
  have c0 := hc.ne'
  have e : andersonCorrection { k with c2 := c } eps2 mu x v a
      = (((mu / r - 3 / 2 * (L c).2.1) * mu / r ^ 3 / c) * (1 - (L c).2.2)) • x - (L c).2.2 • a
        - (((L c).1.dot (a + ((mu / r - 3 / 2 * (L c).2.1) * mu / r ^ 3 / c) • x) - 3 * mu / r ^ 3 * x.dot v) / c) • (L c).1 := by
    unfold andersonCorrection
    dsimp only
    have cube : r * r * r = r ^ 3 := by ring
    have hL' : andersonLoop { k with c2 := c } eps2 mu (FOps.sqrt x.norm2) v 10 v v.norm2
      ((lit (1/2) * v.norm2 + lit 3 * mu / FOps.sqrt x.norm2) / c) = L c := rfl
    rw [hL', hs, cube]
    simp only [lit_real]
    push_cast
    rfl
  rw [e]
  generalize (L c).1 = w
  generalize (L c).2.1 = w2
  generalize (L c).2.2 = A
  simp only [smul_sub, smul_smul]
  congr 3
  · field_simp
  · field_simp

/-- **C112** For a test body around the host this is the first post-Newtonian acceleration of Schwarzschild's metric in harmonic
coordinates. -/
theorem C112_schwarzschild (k : Consts ℝ) (eps2 mu : ℝ) (x v : Axes ℝ) :
    Approaches (fun c => c • andersonCorrection { k with c2 := c } eps2 mu x v (-(mu / √(x.dot x) ^ 3) • x))
      ((mu / √(x.dot x) ^ 3) • ((4 * mu / √(x.dot x) - v.dot v) • x + (4 * x.dot v) • v)) := by
  have h := C112_first_order k eps2 mu x v (-(mu / √(x.dot x) ^ 3) • x)
  refine Eq.subst (motive := Approaches _) ?_ h
  rw [dot_smul, Axes.dot_comm v x]
  module

/-! ### Examples -/

/-- Two bodies: the relative acceleration is the correction for the relative motion. -/
example (k : Consts ℝ) (m : Models ℝ) : ∃ u',
    calculateAdditionalEffects k m 0 0 false true true .none
      (inertialToHeliocentric (relativisticUniverse .anderson1975 ⟨1, 0, 1⟩ ⟨0, 0, 1⟩)) = some u'
    ∧ (u'.particles 1).gr.acceleration - (u'.particles 0).gr.acceleration
      = andersonCorrection k 0 1 ⟨1, 0, 0⟩ ⟨0, 1, 0⟩ 0 := by
  obtain ⟨u', hu⟩ := relativisticUniverse_defined .anderson1975 ⟨1, 0, 1⟩ ⟨0, 0, 1⟩ k m 0 .none
  refine ⟨u', hu, ?_⟩
  have key := C112_jacobi (relativisticUniverse_ok _ _ _) rfl rfl rfl (relativisticUniverse_velocity _ _ _)
    (by rw [relativisticUniverse_mass]; norm_num) (fun i => by rw [relativisticUniverse_mass]; norm_num) hu
    (i := 1) (by decide) (by simp [relativisticUniverse, GrEffect.isOrbiting])
  have S : earlier (0 : Fin 2) (fun j => ((relativisticUniverse .anderson1975 ⟨1, 0, 1⟩ ⟨0, 0, 1⟩).particles j).gr.effect.isOrbiting) 1
      = {0} := by
    ext j
    match j with
    | 0 => simp [earlier]
    | 1 => simp [earlier]
  have one : ∀ f : Fin 2 → Axes ℝ, relativeTo (fun j => ((relativisticUniverse .anderson1975 ⟨1, 0, 1⟩ ⟨0, 0, 1⟩).particles j).mass)
      {0} f 1 = f 1 - f 0 := by
    intro f
    simp [relativeTo, relativisticUniverse_mass]
  dsimp only at key
  rw [S, one, one, one, one] at key
  rw [key]
  congr 1 <;> ext <;> simp [relativisticUniverse, blank]

/-- A weak field. -/
example (eps2 : ℝ) (a : Axes ℝ) : ∃ s : ℝ, 1 ≤ s ∧ s ≤ 2
    ∧ andersonCorrection ⟨1, 10000, 1, 1, 1, 1, 1⟩ eps2 1 ⟨1, 0, 0⟩ ⟨0, 1, 0⟩ a
      = momentumCorrection 10000 1 ⟨1, 0, 0⟩ (s • ⟨0, 1, 0⟩) ⟨0, 1, 0⟩ a := by
  obtain ⟨s, h1, h2, h3, -⟩ := C112_correction (k := ⟨1, 10000, 1, 1, 1, 1, 1⟩) (eps2 := eps2) (mu := 1) (x := ⟨1, 0, 0⟩)
    (v := ⟨0, 1, 0⟩) (a := a) (by norm_num) (by norm_num) (by simp [Axes.dot]; norm_num)
  exact ⟨s, h1, h2, h3⟩

/-- A circular motion of the relativistic Hamiltonian. -/
example (t : ℝ) :
    let x := fun s : ℝ => (⟨Real.cos (3 / 5 * s), Real.sin (3 / 5 * s), 0⟩ : Axes ℝ)
    let w := fun s : ℝ => (⟨-Real.sin (3 / 5 * s), Real.cos (3 / 5 * s), 0⟩ : Axes ℝ)
    VecDeriv x ((1 - slowing 5 (1 / 2) (x t) (w t)) • w t) t
      ∧ VecDeriv w (-(1 / 2 : ℝ) • x t + relativisticPull 5 (1 / 2) (x t) (w t) • x t) t ∧ x t ≠ 0
      ∧ HasDerivAt (fun s => -(1 / 2) / √((x s).dot (x s))) (-(-(1 / 2 : ℝ) • x t).dot ((1 - slowing 5 (1 / 2) (x t) (w t)) • w t)) t := by
  intro x w
  have one : ∀ s, (x s).dot (x s) = 1 := fun s => by
    have := Real.sin_sq_add_cos_sq (3 / 5 * s)
    simp only [x, Axes.dot]
    linarith
  have onew : (w t).dot (w t) = 1 := by
    have := Real.sin_sq_add_cos_sq (3 / 5 * t)
    simp only [w, Axes.dot]
    linarith
  have a : slowing 5 (1 / 2) (x t) (w t) = 2 / 5 := by
    unfold slowing; rw [one, onew]; norm_num
  have b : relativisticPull 5 (1 / 2) (x t) (w t) = -1 / 10 := by
    unfold relativisticPull; rw [one, onew]; norm_num
  have d : HasDerivAt (fun s : ℝ => 3 / 5 * s) (3 / 5) t := by simpa using (hasDerivAt_id' t).const_mul (3 / 5 : ℝ)
  have dc := d.cos
  have ds := d.sin
  refine ⟨?_, ?_, ?_, ?_⟩
  · rw [a]
    refine ⟨dc.congr_deriv ?_, ds.congr_deriv ?_, (hasDerivAt_const t (0 : ℝ)).congr_deriv ?_⟩ <;> simp [w] <;> ring
  · rw [b]
    refine ⟨ds.neg.congr_deriv ?_, dc.congr_deriv ?_, (hasDerivAt_const t (0 : ℝ)).congr_deriv ?_⟩ <;> simp [x] <;> ring
  · intro e
    have := one t
    rw [e] at this
    simp [Axes.dot] at this
  · have orth : (x t).dot (w t) = 0 := by simp only [x, w, Axes.dot]; ring
    simp only [one]
    refine (hasDerivAt_const t _).congr_deriv ?_
    rw [smul_dot, dot_smul, orth]
    simp

end Posidonius.Univ
