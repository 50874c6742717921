import Verif.Spec.WHFast

/-! Coordinate transformations of WHFast in exact arithmetic. -/

namespace Posidonius.WHFast
open Posidonius

@[simp] theorem scaled_eq (a : Axes ℝ) (k : ℝ) : scaled a k = k • a := by
  ext <;> simp [scaled, mul_comm]

/-! ### Jacobi coordinates -/

theorem jacobiLoop_cons {eta : ℝ} (he : eta ≠ 0) (s sv : Axes ℝ) (p : Body ℝ) (ps : List (Body ℝ)) :
    jacobiLoop eta s sv (p :: ps)
      = (⟨p.mass, p.massG, p.position - eta⁻¹ • s, p.velocity - eta⁻¹ • sv⟩
          :: (jacobiLoop (eta + p.mass) (s + p.mass • p.position) (sv + p.mass • p.velocity) ps).1,
        (jacobiLoop (eta + p.mass) (s + p.mass • p.position) (sv + p.mass • p.velocity) ps).2) := by
  have key : ∀ w y : Axes ℝ, ((eta + p.mass) * eta⁻¹) • w + p.mass • (y - eta⁻¹ • w)
      = w + p.mass • y := by
    intro w y
    have h : eta * eta⁻¹ = 1 := mul_inv_cancel₀ he
    ext <;> simp <;> field_simp <;> ring
  have l1 : (lit 1 : ℝ) = 1 := by simp
  simp only [jacobiLoop, scaled_eq, l1, one_div, key]

theorem fromJacobiLoop_cons (eta : ℝ) (s sv : Axes ℝ) (a : Alt ℝ) (p : Body ℝ) (l : List (Alt ℝ × Body ℝ)) :
    fromJacobiLoop eta s sv ((a, p) :: l)
      = (p.moved (a.position + eta⁻¹ • (s - p.mass • a.position)) (a.velocity + eta⁻¹ • (sv - p.mass • a.velocity))
          :: (fromJacobiLoop (eta - p.mass) ((eta - p.mass) • eta⁻¹ • (s - p.mass • a.position))
              ((eta - p.mass) • eta⁻¹ • (sv - p.mass • a.velocity)) l).1,
        (fromJacobiLoop (eta - p.mass) ((eta - p.mass) • eta⁻¹ • (s - p.mass • a.position))
              ((eta - p.mass) • eta⁻¹ • (sv - p.mass • a.velocity)) l).2) := by
  have l1 : (lit 1 : ℝ) = 1 := by simp
  simp only [fromJacobiLoop, scaled_eq, l1, one_div]

theorem fromJacobiLoop_append (l m : List (Alt ℝ × Body ℝ)) (eta : ℝ) (s sv : Axes ℝ) :
    fromJacobiLoop eta s sv (l ++ m)
      = ((fromJacobiLoop eta s sv l).1
          ++ (fromJacobiLoop (fromJacobiLoop eta s sv l).2.1 (fromJacobiLoop eta s sv l).2.2.1
                (fromJacobiLoop eta s sv l).2.2.2 m).1,
        (fromJacobiLoop (fromJacobiLoop eta s sv l).2.1 (fromJacobiLoop eta s sv l).2.2.1
                (fromJacobiLoop eta s sv l).2.2.2 m).2) := by
  induction l generalizing eta s sv with
  | nil => simp [fromJacobiLoop]
  | cons x l ih =>
    obtain ⟨a, p⟩ := x
    rw [List.cons_append, fromJacobiLoop_cons, fromJacobiLoop_cons, ih]
    rfl

theorem jacobiLoop_append (l m : List (Body ℝ)) (eta : ℝ) (s sv : Axes ℝ) :
    jacobiLoop eta s sv (l ++ m)
      = ((jacobiLoop eta s sv l).1
          ++ (jacobiLoop (jacobiLoop eta s sv l).2.1 (jacobiLoop eta s sv l).2.2.1
                (jacobiLoop eta s sv l).2.2.2 m).1,
        (jacobiLoop (jacobiLoop eta s sv l).2.1 (jacobiLoop eta s sv l).2.2.1
                (jacobiLoop eta s sv l).2.2.2 m).2) := by
  induction l generalizing eta s sv with
  | nil => simp [jacobiLoop]
  | cons x l ih =>
    simp only [List.cons_append, jacobiLoop, ih]

/-- Back from Jacobi coordinates. -/
theorem fromJacobiLoop_jacobiLoop (ps : List (Body ℝ)) (eta : ℝ) (s sv : Axes ℝ) (he : 0 < eta)
    (hp : ∀ p ∈ ps, 0 < p.mass) :
    fromJacobiLoop (jacobiLoop eta s sv ps).2.1 (jacobiLoop eta s sv ps).2.2.1 (jacobiLoop eta s sv ps).2.2.2
        ((jacobiLoop eta s sv ps).1.zip ps).reverse
      = (ps.reverse, eta, s, sv) := by
  induction ps generalizing eta s sv with
  | nil => simp [jacobiLoop, fromJacobiLoop]
  | cons p ps ih =>
    have hp0 : 0 < p.mass := hp p (by simp)
    have he' : 0 < eta + p.mass := by positivity
    rw [jacobiLoop_cons he.ne']
    dsimp only
    rw [List.zip_cons_cons, List.reverse_cons, fromJacobiLoop_append,
      ih (eta + p.mass) _ _ he' (fun q hq => hp q (by simp [hq]))]
    dsimp only
    rw [fromJacobiLoop_cons, fromJacobiLoop]
    dsimp only
    have k1 : ∀ w y : Axes ℝ, y - eta⁻¹ • w
        + (eta + p.mass)⁻¹ • (w + p.mass • y - p.mass • (y - eta⁻¹ • w)) = y := by
      intro w y
      ext <;> simp <;> field_simp <;> ring
    have k2 : ∀ w y : Axes ℝ, (eta + p.mass - p.mass) • (eta + p.mass)⁻¹ •
        (w + p.mass • y - p.mass • (y - eta⁻¹ • w)) = w := by
      intro w y
      ext <;> simp <;> field_simp <;> ring
    simp only [k1, k2]
    simp [Body.moved]

theorem SameMasses.append_iff {a : List (Alt ℝ)} {x : Alt ℝ} {p : List (Body ℝ)}
    (h : SameMasses (a ++ [x]) p) : ∃ q y, p = q ++ [y] ∧ SameMasses a q ∧ x.mass = y.mass ∧ x.massG = y.massG := by
  induction a generalizing p with
  | nil =>
    cases h with
    | cons h3 h4 => cases h4; exact ⟨[], _, rfl, List.Forall₂.nil, h3⟩
  | cons b a ih =>
    cases h with
    | cons h3 h4 =>
      obtain ⟨q, y, rfl, h5, h6⟩ := ih h4
      exact ⟨_ :: q, y, rfl, List.Forall₂.cons h3 h5, h6⟩

/-- The result of the backward loop: masses as before, the running mass is reduced by the masses. -/
theorem fromJacobiLoop_mass (l : List (Alt ℝ × Body ℝ)) (eta : ℝ) (s sv : Axes ℝ) :
    (fromJacobiLoop eta s sv l).2.1 = eta - (l.map fun x => x.2.mass).sum := by
  induction l generalizing eta s sv with
  | nil => simp [fromJacobiLoop]
  | cons x l ih =>
    obtain ⟨a, p⟩ := x
    rw [fromJacobiLoop_cons]
    dsimp only
    rw [ih]
    simp only [List.map_cons, List.sum_cons]
    ring

/-- To Jacobi coordinates and back, starting from Jacobi coordinates. -/
theorem jacobiLoop_fromJacobiLoop (as : List (Alt ℝ)) (ps : List (Body ℝ)) (h : SameMasses as ps)
    (eta : ℝ) (s sv : Axes ℝ) (he : totalMass ps < eta) (hp : ∀ p ∈ ps, 0 < p.mass) :
    jacobiLoop (fromJacobiLoop eta s sv (as.zip ps).reverse).2.1
        (fromJacobiLoop eta s sv (as.zip ps).reverse).2.2.1 (fromJacobiLoop eta s sv (as.zip ps).reverse).2.2.2
        (fromJacobiLoop eta s sv (as.zip ps).reverse).1.reverse
      = (as, eta, s, sv) := by
  induction as using List.reverseRecOn generalizing ps eta s sv with
  | nil => cases h; simp [jacobiLoop, fromJacobiLoop]
  | append_singleton as a ih =>
    obtain ⟨qs, p, rfl, h1, h2, h3⟩ := h.append_iff
    have hl : as.length = qs.length := h1.length_eq
    have hp0 : 0 < p.mass := hp p (by simp)
    have hq : ∀ q ∈ qs, 0 < q.mass := fun q hq => hp q (by simp [hq])
    have ht : totalMass (qs ++ [p]) = totalMass qs + p.mass := by simp [totalMass]
    have hq0 : 0 ≤ totalMass qs := by
      apply List.sum_nonneg
      intro x hx
      obtain ⟨q, hq', rfl⟩ := List.mem_map.1 hx
      exact (hq q hq').le
    rw [ht] at he
    have he0 : 0 < eta - p.mass := by linarith
    have he1 : eta ≠ 0 := by linarith
    rw [List.zip_append hl, List.reverse_append]
    simp only [List.zip_cons_cons, List.zip_nil_right, List.reverse_cons, List.reverse_nil, List.nil_append,
      List.singleton_append]
    rw [fromJacobiLoop_cons]
    dsimp only
    rw [List.reverse_cons, jacobiLoop_append, ih qs h1 _ _ _ (by linarith) hq]
    dsimp only
    rw [jacobiLoop_cons he0.ne', jacobiLoop]
    have k1 : ∀ w y : Axes ℝ, y + eta⁻¹ • (w - p.mass • y)
        - (eta - p.mass)⁻¹ • (eta - p.mass) • eta⁻¹ • (w - p.mass • y) = y := by
      intro w y
      rw [smul_smul, inv_mul_cancel₀ he0.ne', one_smul]
      module
    have k2 : ∀ w y : Axes ℝ, (eta - p.mass) • eta⁻¹ • (w - p.mass • y)
        + p.mass • (y + eta⁻¹ • (w - p.mass • y)) = w := by
      intro w y
      have : (eta - p.mass) • eta⁻¹ • (w - p.mass • y) + p.mass • (y + eta⁻¹ • (w - p.mass • y))
          = (eta * eta⁻¹) • (w - p.mass • y) + p.mass • y := by module
      rw [this, mul_inv_cancel₀ he1]
      module
    simp only [Body.moved, k1, k2, sub_add_cancel]
    rw [← h2, ← h3]

/-! ### Democratic heliocentric coordinates and WHDS -/

theorem zip_map_self {α β : Type} (f : α → β) (l : List α) : (l.map f).zip l = l.map fun x => (f x, x) := by
  induction l with
  | nil => rfl
  | cons x l ih => simp [ih]

theorem foldl_sub_eq_sum {ι : Type} (f : ι → Axes ℝ) (l : List ι) (a : Axes ℝ) :
    l.foldl (fun acc j => acc - f j) a = a - (l.map f).sum := by
  induction l generalizing a with
  | nil => simp
  | cons b l ih => simp only [List.foldl_cons, ih, List.map_cons, List.sum_cons]; module

theorem sum_smul_list {ι : Type} (k : ℝ) (f : ι → Axes ℝ) (l : List ι) :
    (l.map fun i => k • f i).sum = k • (l.map f).sum := by
  induction l with
  | nil => simp
  | cons b l ih => simp only [List.map_cons, List.sum_cons, ih]; module

theorem sum_add_list {M : Type} [AddCommMonoid M] {ι : Type} (f g : ι → M) (l : List ι) :
    (l.map fun i => f i + g i).sum = (l.map f).sum + (l.map g).sum := by
  induction l with
  | nil => simp
  | cons b l ih => simp only [List.map_cons, List.sum_cons, ih]; abel

theorem sum_sub_list {M : Type} [AddCommGroup M] {ι : Type} (f g : ι → M) (l : List ι) :
    (l.map fun i => f i - g i).sum = (l.map f).sum - (l.map g).sum := by
  induction l with
  | nil => simp
  | cons b l ih => simp only [List.map_cons, List.sum_cons, ih]; abel

theorem sum_const_smul {ι : Type} (f : ι → ℝ) (w : Axes ℝ) (l : List ι) :
    (l.map fun i => f i • w).sum = (l.map f).sum • w := by
  induction l with
  | nil => simp
  | cons b l ih => simp only [List.map_cons, List.sum_cons, ih]; module

theorem totalMass_nonneg {l : List (Body ℝ)} (h : ∀ p ∈ l, 0 < p.mass) : 0 ≤ totalMass l := by
  apply List.sum_nonneg
  intro x hx
  obtain ⟨q, hq', rfl⟩ := List.mem_map.1 hx
  exact (h q hq').le

theorem Massive.mass_pos {u : Sys ℝ} (h : Massive u) : 0 < u.mass := by
  have := totalMass_nonneg h.2
  have := h.1
  unfold Sys.mass
  linarith

theorem centre_eq (u : Sys ℝ) : centre u
    = { mass := u.mass, position := u.mass⁻¹ • u.weighted Body.position,
        velocity := u.mass⁻¹ • u.weighted Body.velocity } := by
  have l0 : (lit 0 : ℝ) = 0 := by simp
  have hm : (u.star :: u.planets).foldl (fun s p => s + p.mass) (0 : ℝ) = u.mass := by
    rw [foldl_add_eq_sum (fun p : Body ℝ => p.mass)]
    simp [Sys.mass, totalMass]
  have hw : ∀ f : Body ℝ → Axes ℝ, (u.star :: u.planets).foldl (fun s p => s + p.mass • f p) (0 : Axes ℝ)
      = u.weighted f := by
    intro f
    rw [foldl_add_eq_sum (fun p : Body ℝ => p.mass • f p)]
    simp [Sys.weighted]
  unfold centre
  simp only [scaled_eq, Axes.zero_def, l0, hm, hw, Axes.sdiv_eq_smul]

theorem SameMasses.length_eq {a : List (Alt ℝ)} {p : List (Body ℝ)} (h : SameMasses a p) : a.length = p.length :=
  List.Forall₂.length_eq h

theorem SameMasses.snd {a : List (Alt ℝ)} {p : List (Body ℝ)} (h : SameMasses a p) :
    (a.zip p).map Prod.snd = p := List.map_snd_zip h.length_eq.ge

theorem SameMasses.fst {a : List (Alt ℝ)} {p : List (Body ℝ)} (h : SameMasses a p) :
    (a.zip p).map Prod.fst = a := List.map_fst_zip h.length_eq.le

theorem SameMasses.zip {a : List (Alt ℝ)} {p : List (Body ℝ)} (h : SameMasses a p) :
    ∀ x ∈ a.zip p, x.1.mass = x.2.mass ∧ x.1.massG = x.2.massG := by
  induction h with
  | nil => simp
  | cons h1 h2 ih =>
    intro x hx
    rw [List.zip_cons_cons, List.mem_cons] at hx
    rcases hx with rfl | hx
    · exact h1
    · exact ih x hx

theorem sum_snd {M : Type} [AddCommMonoid M] {a : List (Alt ℝ)} {p : List (Body ℝ)} (h : SameMasses a p)
    (f : Body ℝ → M) : ((a.zip p).map fun x => f x.2).sum = (p.map f).sum := by
  conv_rhs => rw [← h.snd]
  rw [List.map_map]
  rfl

theorem Like.totalMass {w v : Sys ℝ} (h : Like w v) : totalMass w.planets = totalMass v.planets := by
  have := h.2.2
  generalize w.planets = a at this
  generalize v.planets = b at this
  unfold WHFast.totalMass
  induction this with
  | nil => rfl
  | cons h1 _ ih => simp [h1.1, ih]

theorem Like.mass {w v : Sys ℝ} (h : Like w v) : w.mass = v.mass := by
  unfold Sys.mass
  rw [h.1, h.totalMass]

theorem Like.massive {w v : Sys ℝ} (h : Like w v) (hv : Massive v) : Massive w := by
  refine ⟨h.1 ▸ hv.1, ?_⟩
  have h1 := h.2.2
  have h2 := hv.2
  generalize w.planets = a at h1
  generalize v.planets = b at h1 h2
  induction h1 with
  | nil => simp
  | cons h3 _ ih =>
    intro p hp
    rw [List.mem_cons] at hp
    rcases hp with rfl | hp
    · rw [h3.1]; exact h2 _ (by simp)
    · exact ih (fun q hq => h2 q (by simp [hq])) p hp

theorem Like.trans {w v u : Sys ℝ} (h : Like w v) (h' : Like v u) : Like w u := by
  refine ⟨h.1.trans h'.1, h.2.1.trans h'.2.1, ?_⟩
  have h1 := h.2.2
  have h2 := h'.2.2
  generalize w.planets = a at h1
  generalize v.planets = b at h1 h2
  generalize u.planets = c at h2
  induction h1 generalizing c with
  | nil => cases h2; exact List.Forall₂.nil
  | cons h3 _ ih =>
    cases h2 with
    | cons h4 h5 => exact List.Forall₂.cons ⟨h3.1.trans h4.1, h3.2.trans h4.2⟩ (ih _ h5)

theorem Matches.like {a : AltSys ℝ} {u v : Sys ℝ} (h : Matches a u) (l : Like v u) : Matches a v := by
  refine ⟨?_, h.2.trans l.mass.symm⟩
  have h1 := h.1
  have h2 := l.2.2
  unfold SameMasses at *
  generalize a.planets = a' at *
  generalize u.planets = b at *
  generalize v.planets = c at *
  clear h l
  induction h1 generalizing c with
  | nil => cases h2; exact List.Forall₂.nil
  | cons h3 _ ih =>
    cases h2 with
    | cons h4 h5 => exact List.Forall₂.cons ⟨h3.1.trans h4.1.symm, h3.2.trans h4.2.symm⟩ (ih _ h5)

/-! ### Back to inertial coordinates: masses, centre of mass and momentum -/

theorem fromHelio_like {a : AltSys ℝ} {u : Sys ℝ} (whds : Bool) (h : Matches a u) : Like (fromHelio whds a u) u := by
  refine ⟨rfl, rfl, ?_⟩
  have e := h.1.snd
  unfold fromHelio
  dsimp only
  conv_rhs => rw [← e]
  rw [List.forall₂_map_left_iff, List.forall₂_map_right_iff, List.forall₂_same]
  exact fun _ _ => ⟨rfl, rfl⟩

theorem starPosition_eq (a : AltSys ℝ) (u : Sys ℝ) : starPosition a u
    = a.star.position - a.star.mass⁻¹ • ((a.planets.zip u.planets).map fun x => x.2.mass • x.1.position).sum := by
  unfold starPosition
  simp only [scaled_eq, Axes.sdiv_eq_smul]
  rw [foldl_sub_eq_sum (fun x : Alt ℝ × Body ℝ => a.star.mass⁻¹ • x.2.mass • x.1.position), sum_smul_list]

theorem fromHelio_position {a : AltSys ℝ} {u : Sys ℝ} (whds : Bool) (h : Matches a u) (hu : Massive u) :
    (fromHelio whds a u).weighted Body.position = u.mass • a.star.position := by
  have h1 : ((a.planets.zip u.planets).map fun x => x.2.mass • (x.1.position + starPosition a u)).sum
      = ((a.planets.zip u.planets).map fun x => x.2.mass • x.1.position).sum
        + totalMass u.planets • starPosition a u := by
    have : (fun x : Alt ℝ × Body ℝ => x.2.mass • (x.1.position + starPosition a u))
        = fun x => x.2.mass • x.1.position + x.2.mass • starPosition a u := by
      funext x; module
    rw [this, sum_add_list, sum_const_smul, sum_snd h.1 (fun p => p.mass)]
    rfl
  have h2 : (fromHelio whds a u).weighted Body.position
      = u.mass • starPosition a u + ((a.planets.zip u.planets).map fun x => x.2.mass • x.1.position).sum := by
    unfold Sys.weighted fromHelio Sys.mass
    simp only [Body.moved, List.map_map, Function.comp_def]
    rw [h1]
    module
  rw [h2, starPosition_eq, h.2, smul_sub, smul_smul, mul_inv_cancel₀ hu.mass_pos.ne']
  module

theorem fromHelio_momentum {a : AltSys ℝ} {u : Sys ℝ} (whds : Bool) (h : Matches a u) (hu : Massive u) :
    (fromHelio whds a u).weighted Body.velocity = u.mass • a.star.velocity := by
  have hm : u.star.mass ≠ 0 := hu.1.ne'
  cases whds
  · have h1 : ((a.planets.zip u.planets).map fun x => x.2.mass • (x.1.velocity + a.star.velocity)).sum
        = ((a.planets.zip u.planets).map fun x => x.2.mass • x.1.velocity).sum
          + totalMass u.planets • a.star.velocity := by
      have : (fun x : Alt ℝ × Body ℝ => x.2.mass • (x.1.velocity + a.star.velocity))
          = fun x => x.2.mass • x.1.velocity + x.2.mass • a.star.velocity := by
        funext x; module
      rw [this, sum_add_list, sum_const_smul, sum_snd h.1 (fun p => p.mass)]
      rfl
    have h2 : starVelocity false a u = a.star.velocity
        - u.star.mass⁻¹ • ((a.planets.zip u.planets).map fun x => x.2.mass • x.1.velocity).sum := by
      unfold starVelocity
      simp only [scaled_eq, Bool.false_eq_true, if_false]
      rw [foldl_sub_eq_sum (fun x : Alt ℝ × Body ℝ => (x.2.mass / u.star.mass) • x.1.velocity), ← sum_smul_list]
      congr 3
      funext x
      rw [smul_smul, div_eq_inv_mul]
    unfold Sys.weighted fromHelio Sys.mass
    simp only [Body.moved, List.map_map, Function.comp_def, Bool.false_eq_true, if_false]
    rw [h1, h2, smul_sub, smul_smul, mul_inv_cancel₀ hm]
    module
  · set w : Alt ℝ × Body ℝ → Axes ℝ := fun x => (x.2.mass / (u.star.mass + x.2.mass)) • x.1.velocity with hw
    have h1 : ((a.planets.zip u.planets).map fun x => x.2.mass •
          (((u.star.mass + x.2.mass) / u.star.mass)⁻¹ • x.1.velocity + a.star.velocity)).sum
        = u.star.mass • ((a.planets.zip u.planets).map w).sum + totalMass u.planets • a.star.velocity := by
      have : (fun x : Alt ℝ × Body ℝ => x.2.mass •
            (((u.star.mass + x.2.mass) / u.star.mass)⁻¹ • x.1.velocity + a.star.velocity))
          = fun x => u.star.mass • w x + x.2.mass • a.star.velocity := by
        funext x
        rw [hw, inv_div, smul_add, smul_smul, smul_smul]
        congr 2
        ring
      rw [this, sum_add_list, sum_const_smul, sum_smul_list, sum_snd h.1 (fun p => p.mass)]
      rfl
    have h2 : starVelocity true a u = a.star.velocity - ((a.planets.zip u.planets).map w).sum := by
      unfold starVelocity
      simp only [scaled_eq, if_true]
      rw [foldl_sub_eq_sum (fun x : Alt ℝ × Body ℝ => (x.2.mass / (u.star.mass + x.2.mass)) • x.1.velocity)]
    unfold Sys.weighted fromHelio Sys.mass
    simp only [Body.moved, List.map_map, Function.comp_def, if_true, Axes.sdiv_eq_smul]
    rw [h1, h2]
    module

theorem fromJacobiLoop_like (l : List (Alt ℝ × Body ℝ)) (eta : ℝ) (s sv : Axes ℝ) :
    List.Forall₂ (fun p q : Body ℝ => p.mass = q.mass ∧ p.massG = q.massG) (fromJacobiLoop eta s sv l).1
      (l.map Prod.snd) := by
  induction l generalizing eta s sv with
  | nil => simp [fromJacobiLoop]
  | cons x l ih =>
    obtain ⟨a, p⟩ := x
    rw [fromJacobiLoop_cons]
    exact List.Forall₂.cons ⟨rfl, rfl⟩ (ih _ _ _)

theorem fromJacobiLoop_sums (l : List (Alt ℝ × Body ℝ)) (eta : ℝ) (s sv : Axes ℝ)
    (he : (l.map fun x => x.2.mass).sum < eta) (hp : ∀ x ∈ l, 0 < x.2.mass) :
    ((fromJacobiLoop eta s sv l).1.map fun p => p.mass • p.position).sum + (fromJacobiLoop eta s sv l).2.2.1 = s
    ∧ ((fromJacobiLoop eta s sv l).1.map fun p => p.mass • p.velocity).sum
        + (fromJacobiLoop eta s sv l).2.2.2 = sv := by
  induction l generalizing eta s sv with
  | nil => simp [fromJacobiLoop]
  | cons x l ih =>
    obtain ⟨a, p⟩ := x
    simp only [List.map_cons, List.sum_cons] at he
    have hp0 : 0 < p.mass := hp (a, p) (by simp)
    have h0 : 0 ≤ (l.map fun x => x.2.mass).sum := by
      apply List.sum_nonneg
      intro y hy
      obtain ⟨z, hz, rfl⟩ := List.mem_map.1 hy
      exact (hp z (by simp [hz])).le
    have he1 : eta ≠ 0 := by linarith
    obtain ⟨i1, i2⟩ := ih (eta - p.mass) ((eta - p.mass) • eta⁻¹ • (s - p.mass • a.position))
      ((eta - p.mass) • eta⁻¹ • (sv - p.mass • a.velocity)) (by linarith)
      (fun x hx => hp x (by simp [hx]))
    have key : ∀ w y : Axes ℝ, p.mass • (y + eta⁻¹ • (w - p.mass • y))
        + (eta - p.mass) • eta⁻¹ • (w - p.mass • y) = w := by
      intro w y
      have : p.mass • (y + eta⁻¹ • (w - p.mass • y)) + (eta - p.mass) • eta⁻¹ • (w - p.mass • y)
          = (eta * eta⁻¹) • (w - p.mass • y) + p.mass • y := by module
      rw [this, mul_inv_cancel₀ he1]
      module
    rw [fromJacobiLoop_cons]
    simp only [List.map_cons, List.sum_cons, Body.moved] at *
    rw [add_assoc, add_assoc, i1, i2, key, key]
    exact ⟨rfl, rfl⟩

theorem fromJacobi_like {a : AltSys ℝ} {u : Sys ℝ} (h : Matches a u) : Like (fromJacobi a u) u := by
  refine ⟨rfl, rfl, ?_⟩
  have := fromJacobiLoop_like (a.planets.zip u.planets).reverse a.star.mass (a.star.mass • a.star.position)
    (a.star.mass • a.star.velocity)
  rw [List.map_reverse, h.1.snd] at this
  have := List.rel_reverse this
  rw [List.reverse_reverse] at this
  exact this

theorem weighted_list_reverse (l : List (Body ℝ)) (f : Body ℝ → Axes ℝ) :
    (l.reverse.map fun p => p.mass • f p).sum = (l.map fun p => p.mass • f p).sum := by
  rw [List.map_reverse, List.sum_reverse]

theorem fromJacobi_sums {a : AltSys ℝ} {u : Sys ℝ} (h : Matches a u) (hu : Massive u) :
    (fromJacobi a u).weighted Body.position = u.mass • a.star.position
    ∧ (fromJacobi a u).weighted Body.velocity = u.mass • a.star.velocity := by
  have hsum : ((a.planets.zip u.planets).reverse.map fun x => x.2.mass).sum = totalMass u.planets := by
    rw [List.map_reverse, List.sum_reverse, sum_snd h.1 (fun p => p.mass)]
    rfl
  have hlt : ((a.planets.zip u.planets).reverse.map fun x => x.2.mass).sum < a.star.mass := by
    rw [hsum, h.2]
    unfold Sys.mass
    have := hu.1
    linarith
  obtain ⟨e1, e2⟩ := fromJacobiLoop_sums (a.planets.zip u.planets).reverse a.star.mass
    (a.star.mass • a.star.position) (a.star.mass • a.star.velocity) hlt (fun x hx => hu.2 _ (by
      rw [List.mem_reverse] at hx
      exact (List.of_mem_zip hx).2))
  have e3 := fromJacobiLoop_mass (a.planets.zip u.planets).reverse a.star.mass
    (a.star.mass • a.star.position) (a.star.mass • a.star.velocity)
  rw [hsum, h.2] at e3
  have e4 : u.mass - totalMass u.planets = u.star.mass := by unfold Sys.mass; ring
  rw [e4, ← h.2] at e3
  have l1 : (lit 1 : ℝ) = 1 := by simp
  unfold Sys.weighted fromJacobi
  simp only [Body.moved, scaled_eq, weighted_list_reverse, e3, l1, smul_smul, one_div,
    mul_inv_cancel₀ hu.1.ne', one_smul]
  rw [← h.2, add_comm, e1, add_comm, e2]
  exact ⟨rfl, rfl⟩

end Posidonius.WHFast
