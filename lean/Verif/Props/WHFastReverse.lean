import Verif.Spec.WHFastReverse
import Verif.Props.WHFastTwoBody
import Verif.Props.WHFastSplit

/-! # C115: WHFast is time reversible -/

namespace Posidonius.WHFast
open Posidonius

/-! ### The step of the code -/

theorem planetsMove_iff (c : Coordinates) (fuel : ℕ) (t : ℝ) (l m : List (Alt ℝ)) (running : ℝ) :
    keplerPlanets c fuel t running l = some m ↔ PlanetsMove (keplerStep fuel) c t running l m := by
  induction l generalizing running m with
  | nil =>
    constructor
    · intro h; cases h; exact .nil
    · intro h; cases h; rfl
  | cons a l ih =>
    have e : keplerPlanets c fuel t running (a :: l)
        = (match a.kepler fuel (attracting c running a) t, keplerPlanets c fuel t (carried c running a) l with
          | some b, some s => some (b :: s)
          | _, _ => none) := by
      cases c <;> simp only [keplerPlanets, attracting, carried] <;>
        (generalize Alt.kepler _ _ _ a = x
         generalize keplerPlanets _ _ _ _ l = y
         cases x <;> cases y <;> rfl)
    constructor
    · intro h
      rw [e] at h
      split at h
      · next b s e1 e2 =>
        cases h
        unfold Alt.kepler at e1
        split at e1
        · cases e1
        · next r v er =>
          cases e1
          exact .cons rfl rfl er ((ih _ _).1 e2)
      · cases h
    · intro h
      cases h with
      | @cons _ _ b _ m h1 h2 h3 h4 =>
        rw [e, (ih _ _).2 h4, Alt.kepler, h3]
        obtain ⟨bm, bg, bp, bv⟩ := b
        dsimp only at h1 h2
        subst h1 h2
        rfl

theorem keplerMove_iff (c : Coordinates) (fuel : ℕ) (t : ℝ) (u : Sys ℝ) (a b : AltSys ℝ) :
    keplerSteps c fuel t u a = some b ↔ KeplerMove (keplerStep fuel) c t u a b := by
  unfold keplerSteps KeplerMove
  rw [← planetsMove_iff]
  obtain ⟨⟨bm, bp, bv⟩, bl⟩ := b
  cases h : keplerPlanets c fuel t u.star.massG a.planets with
  | none => simp
  | some pl =>
    simp only [Option.some.injEq, AltSys.mk.injEq, Centre.mk.injEq]
    constructor
    · rintro ⟨⟨rfl, rfl, rfl⟩, rfl⟩; exact ⟨rfl, rfl, rfl, rfl⟩
    · rintro ⟨rfl, rfl, rfl, rfl⟩; exact ⟨⟨rfl, rfl, rfl⟩, rfl⟩

/-- **C115, the step of the code**: it is Kepler motion by the solver of the code, jump, kick, jump and Kepler motion. -/
theorem C115_step (c : Coordinates) (fuel : ℕ) (g dt half : ℝ) (gravity : Sys ℝ → Option (Sys ℝ)) (u u' : Sys ℝ) :
    step c fuel g dt half gravity u = some u' ↔ StepBy (keplerStep fuel) c g dt half gravity u u' := by
  constructor
  · intro h
    unfold step at h
    split at h
    · cases h
    · next a u1 e1 =>
      split at h
      · cases h
      · next u2 e2 =>
        unfold part1 at e1
        split at e1
        · cases e1
        · next b eb =>
          cases e1
          unfold part2 at h
          dsimp only at h
          split at h
          · cases h
          · next d ed =>
            cases h
            exact ⟨b, d, u2, (keplerMove_iff _ _ _ _ _ _).1 eb, e2, (keplerMove_iff _ _ _ _ _ _).1 ed, rfl⟩
  · rintro ⟨a1, a5, u2, h1, h2, h3, rfl⟩
    rw [← keplerMove_iff] at h1 h3
    simp only [step, part1, part2, h1, h2, h3]

/-! ### Reversed velocities -/

noncomputable def Alt.reversed (a : Alt ℝ) : Alt ℝ := { a with velocity := -a.velocity }

noncomputable def AltSys.reversed (a : AltSys ℝ) : AltSys ℝ :=
  { star := { a.star with velocity := -a.star.velocity }, planets := a.planets.map Alt.reversed }

noncomputable def Body.reversed (p : Body ℝ) : Body ℝ := { p with velocity := -p.velocity }

theorem Sys.reversed_planets (u : Sys ℝ) : u.reversed.planets = u.planets.map Body.reversed := rfl

theorem Sys.reversed_like (u : Sys ℝ) : Like u.reversed u := by
  refine ⟨rfl, rfl, ?_⟩
  rw [Sys.reversed_planets, List.forall₂_map_left_iff]
  exact List.forall₂_same.2 fun _ _ => ⟨rfl, rfl⟩

theorem jacobiLoop_reversed (l : List (Body ℝ)) (eta : ℝ) (s sv : Axes ℝ) :
    jacobiLoop eta s (-sv) (l.map Body.reversed)
      = ((jacobiLoop eta s sv l).1.map Alt.reversed, (jacobiLoop eta s sv l).2.1, (jacobiLoop eta s sv l).2.2.1,
          -(jacobiLoop eta s sv l).2.2.2) := by
  induction l generalizing eta s sv with
  | nil => rfl
  | cons p l ih =>
    have key : ∀ k e m : ℝ, k • -sv + m • (-p.velocity - e • -sv) = -(k • sv + m • (p.velocity - e • sv)) := by
      intro k e m; ext <;> simp <;> ring
    have key2 : ∀ e : ℝ, -p.velocity - e • -sv = -(p.velocity - e • sv) := by
      intro e; ext <;> simp <;> ring
    have e1 : p.reversed.mass = p.mass := rfl
    have e2 : p.reversed.massG = p.massG := rfl
    have e3 : p.reversed.position = p.position := rfl
    have e4 : p.reversed.velocity = -p.velocity := rfl
    rw [List.map_cons]
    simp only [jacobiLoop, scaled_eq, e1, e2, e3, e4, key, ih]
    simp only [List.map_cons, Alt.reversed, key2]

theorem weighted_reversed (u : Sys ℝ) : u.reversed.weighted Body.velocity = -u.weighted Body.velocity
    ∧ u.reversed.weighted Body.position = u.weighted Body.position ∧ u.reversed.mass = u.mass := by
  refine ⟨?_, ?_, u.reversed_like.mass⟩
  · simp only [Sys.weighted, Sys.reversed_planets, List.map_map, Function.comp_def]
    simp only [Sys.reversed, Body.reversed, smul_neg, sum_neg_list]
    abel
  · simp only [Sys.weighted, Sys.reversed_planets, List.map_map, Function.comp_def]
    rfl

theorem toAlternative_reversed (c : Coordinates) (u : Sys ℝ) :
    toAlternative c u.reversed = (toAlternative c u).reversed := by
  have hh : ∀ whds, toHelio whds u.reversed = (toHelio whds u).reversed := by
    intro whds
    unfold toHelio
    rw [centre_eq, centre_eq, (weighted_reversed u).1, (weighted_reversed u).2.1, (weighted_reversed u).2.2]
    simp only [AltSys.reversed, Sys.reversed_planets, List.map_map, AltSys.mk.injEq, true_and, smul_neg]
    apply List.map_congr_left
    intro p _
    simp only [Function.comp_apply, Alt.reversed, Body.reversed, Sys.reversed, Alt.mk.injEq, true_and]
    cases whds
    · simp only [Bool.false_eq_true, if_false]; abel
    · simp only [if_true, scaled_eq]
      ext <;> simp <;> ring
  cases c
  · show toJacobi u.reversed = (toJacobi u).reversed
    have := jacobiLoop_reversed u.planets u.star.mass (u.star.mass • u.star.position) (u.star.mass • u.star.velocity)
    have e : u.star.mass • -u.star.velocity = -(u.star.mass • u.star.velocity) := smul_neg _ _
    have e1 : u.reversed.star.mass = u.star.mass := rfl
    have e3 : u.reversed.star.position = u.star.position := rfl
    have e4 : u.reversed.star.velocity = -u.star.velocity := rfl
    simp only [toJacobi, e1, e3, e4, e, Sys.reversed_planets, this, AltSys.reversed, scaled_eq, smul_neg]
  · exact hh false
  · exact hh true

/-! ### What the transformation back depends on -/

/-- Masses and positions of alternative coordinates. -/
def AltSys.Beside (a b : AltSys ℝ) : Prop :=
  a.star.mass = b.star.mass ∧ a.star.position = b.star.position
  ∧ List.Forall₂ (fun x y : Alt ℝ => x.mass = y.mass ∧ x.massG = y.massG ∧ x.position = y.position) a.planets b.planets

theorem AltSys.Beside.refl (a : AltSys ℝ) : a.Beside a :=
  ⟨rfl, rfl, List.forall₂_same.2 fun _ _ => ⟨rfl, rfl, rfl⟩⟩

abbrev Paired (x y : Alt ℝ × Body ℝ) : Prop :=
  x.1.position = y.1.position ∧ x.2.mass = y.2.mass ∧ x.2.massG = y.2.massG

theorem zip_paired {a b : List (Alt ℝ)} {p q : List (Body ℝ)}
    (h : List.Forall₂ (fun x y : Alt ℝ => x.mass = y.mass ∧ x.massG = y.massG ∧ x.position = y.position) a b)
    (hp : List.Forall₂ (fun p q : Body ℝ => p.mass = q.mass ∧ p.massG = q.massG) p q) :
    List.Forall₂ Paired (a.zip p) (b.zip q) := by
  induction h generalizing p q with
  | nil => exact .nil
  | cons h1 _ ih =>
    cases hp with
    | nil => exact .nil
    | cons h2 h3 => exact .cons ⟨h1.2.2, h2⟩ (ih h3)

theorem map_paired {γ : Type} {l m : List (Alt ℝ × Body ℝ)} (h : List.Forall₂ Paired l m)
    (f g : Alt ℝ × Body ℝ → γ) (hf : ∀ x y, Paired x y → f x = g y) : l.map f = m.map g := by
  induction h with
  | nil => rfl
  | cons h1 _ ih => rw [List.map_cons, List.map_cons, ih, hf _ _ h1]

def placeOf (p : Body ℝ) : ℝ × ℝ × Axes ℝ := (p.mass, p.massG, p.position)

def motionOf (p : Body ℝ) : ℝ × ℝ × Axes ℝ × Axes ℝ := (p.mass, p.massG, p.position, p.velocity)

theorem fromJacobiLoop_places {l m : List (Alt ℝ × Body ℝ)} (h : List.Forall₂ Paired l m) (eta : ℝ) (s sv sw : Axes ℝ) :
    (fromJacobiLoop eta s sv l).1.map placeOf = (fromJacobiLoop eta s sw m).1.map placeOf
    ∧ (fromJacobiLoop eta s sv l).2.1 = (fromJacobiLoop eta s sw m).2.1
    ∧ (fromJacobiLoop eta s sv l).2.2.1 = (fromJacobiLoop eta s sw m).2.2.1 := by
  induction h generalizing eta s sv sw with
  | nil => exact ⟨rfl, rfl, rfl⟩
  | @cons x y l m h1 _ ih =>
    obtain ⟨a, p⟩ := x
    obtain ⟨b, q⟩ := y
    obtain ⟨e1, e2, e3⟩ := h1
    dsimp only at e1 e2 e3
    rw [fromJacobiLoop_cons, fromJacobiLoop_cons, e1, e2]
    obtain ⟨i1, i2, i3⟩ := ih (eta - q.mass) ((eta - q.mass) • eta⁻¹ • (s - q.mass • b.position))
      ((eta - q.mass) • eta⁻¹ • (sv - q.mass • a.velocity)) ((eta - q.mass) • eta⁻¹ • (sw - q.mass • b.velocity))
    refine ⟨?_, i2, i3⟩
    rw [List.map_cons, List.map_cons, i1]
    simp only [placeOf, Body.moved, e2, e3]

theorem fromAlternative_places (c : Coordinates) {a b : AltSys ℝ} {u v : Sys ℝ} (h : a.Beside b) (hu : Like u v) :
    (fromAlternative c a u).places = (fromAlternative c b v).places := by
  obtain ⟨h1, h2, h3⟩ := h
  have hz := zip_paired h3 hu.2.2
  have hh : ∀ whds, (fromHelio whds a u).places = (fromHelio whds b v).places := by
    intro whds
    have hs : starPosition a u = starPosition b v := by
      rw [starPosition_eq, starPosition_eq, h1, h2]
      congr 3
      exact map_paired hz _ _ fun x y hxy => by rw [hxy.1, hxy.2.1]
    simp only [Sys.places, Sys.bodies, fromHelio, List.map_cons, List.map_map, Body.moved, hs, hu.1, hu.2.1, List.cons.injEq,
      true_and]
    exact map_paired hz _ _ fun x y hxy => by simp [hxy.1, hxy.2.1, hxy.2.2]
  cases c
  · obtain ⟨i1, i2, i3⟩ := fromJacobiLoop_places (List.rel_reverse hz) b.star.mass (b.star.mass • b.star.position)
      (b.star.mass • a.star.velocity) (b.star.mass • b.star.velocity)
    show (fromJacobi a u).places = (fromJacobi b v).places
    simp only [Sys.places, Sys.bodies, fromJacobi, List.map_cons, List.map_reverse, Body.moved, h1, h2, i2, i3, hu.1, hu.2.1,
      List.cons.injEq, true_and]
    exact congrArg List.reverse i1
  · exact hh false
  · exact hh true

abbrev Twin (x y : Alt ℝ × Body ℝ) : Prop := x.1 = y.1 ∧ x.2.mass = y.2.mass ∧ x.2.massG = y.2.massG

theorem zip_twin (a : List (Alt ℝ)) {p q : List (Body ℝ)}
    (hp : List.Forall₂ (fun p q : Body ℝ => p.mass = q.mass ∧ p.massG = q.massG) p q) :
    List.Forall₂ Twin (a.zip p) (a.zip q) := by
  induction hp generalizing a with
  | nil => rw [List.zip_nil_right]; exact .nil
  | cons h1 _ ih =>
    cases a with
    | nil => exact .nil
    | cons x a => exact .cons ⟨rfl, h1⟩ (ih a)

theorem map_twin {γ : Type} {l m : List (Alt ℝ × Body ℝ)} (h : List.Forall₂ Twin l m)
    (f g : Alt ℝ × Body ℝ → γ) (hf : ∀ x y, Twin x y → f x = g y) : l.map f = m.map g := by
  induction h with
  | nil => rfl
  | cons h1 _ ih => rw [List.map_cons, List.map_cons, ih, hf _ _ h1]

theorem fromJacobiLoop_motions {l m : List (Alt ℝ × Body ℝ)} (h : List.Forall₂ Twin l m) (eta : ℝ) (s sv : Axes ℝ) :
    (fromJacobiLoop eta s sv l).1.map motionOf = (fromJacobiLoop eta s sv m).1.map motionOf
    ∧ (fromJacobiLoop eta s sv l).2 = (fromJacobiLoop eta s sv m).2 := by
  induction h generalizing eta s sv with
  | nil => exact ⟨rfl, rfl⟩
  | @cons x y l m h1 _ ih =>
    obtain ⟨a, p⟩ := x
    obtain ⟨b, q⟩ := y
    obtain ⟨e1, e2, e3⟩ := h1
    dsimp only at e1 e2 e3
    subst e1
    rw [fromJacobiLoop_cons, fromJacobiLoop_cons, e2]
    obtain ⟨i1, i2⟩ := ih (eta - q.mass) ((eta - q.mass) • eta⁻¹ • (s - q.mass • a.position))
      ((eta - q.mass) • eta⁻¹ • (sv - q.mass • a.velocity))
    refine ⟨?_, i2⟩
    rw [List.map_cons, List.map_cons, i1]
    simp only [motionOf, Body.moved, e2, e3]

theorem fromAlternative_motions (c : Coordinates) (a : AltSys ℝ) {u v : Sys ℝ} (hu : Like u v) :
    (fromAlternative c a u).motions = (fromAlternative c a v).motions := by
  have hz := zip_twin a.planets hu.2.2
  have hh : ∀ whds, (fromHelio whds a u).motions = (fromHelio whds a v).motions := by
    intro whds
    have hs : starPosition a u = starPosition a v := by
      rw [starPosition_eq, starPosition_eq]
      congr 3
      exact map_twin hz _ _ fun x y hxy => by rw [hxy.1, hxy.2.1]
    have hv : starVelocity whds a u = starVelocity whds a v := by
      unfold starVelocity
      rw [foldl_sub_eq_sum, foldl_sub_eq_sum]
      congr 2
      exact map_twin hz _ _ fun x y hxy => by rw [hxy.1, hxy.2.1, hu.1]
    simp only [Sys.motions, Sys.bodies, fromHelio, List.map_cons, List.map_map, Body.moved, hs, hv, hu.1, hu.2.1,
      List.cons.injEq, true_and]
    exact map_twin hz _ _ fun x y hxy => by simp [hxy.1, hxy.2.1, hxy.2.2]
  cases c
  · obtain ⟨i1, i2⟩ := fromJacobiLoop_motions (List.rel_reverse hz) a.star.mass (a.star.mass • a.star.position)
      (a.star.mass • a.star.velocity)
    show (fromJacobi a u).motions = (fromJacobi a v).motions
    simp only [Sys.motions, Sys.bodies, fromJacobi, List.map_cons, List.map_reverse, Body.moved, i2, hu.1, hu.2.1,
      List.cons.injEq, true_and]
    exact congrArg List.reverse i1
  · exact hh false
  · exact hh true

theorem jacobiAccelerationLoop_congr {p q : List (Body ℝ)}
    (h : List.Forall₂ (fun p q : Body ℝ => p.mass = q.mass ∧ p.massG = q.massG) p q)
    (ha : p.map Body.acceleration = q.map Body.acceleration) (eta : ℝ) (s : Axes ℝ) :
    jacobiAccelerationLoop eta s p = jacobiAccelerationLoop eta s q := by
  induction h generalizing eta s with
  | nil => rfl
  | cons h1 _ ih =>
    rw [List.map_cons, List.map_cons, List.cons.injEq] at ha
    simp only [jacobiAccelerationLoop, h1.1, ha.1, ih ha.2]

theorem interactionStep_congr (c : Coordinates) (g dt : ℝ) (a : AltSys ℝ) {u v : Sys ℝ} (hu : Like v u)
    (ha : v.bodies.map Body.acceleration = u.bodies.map Body.acceleration) :
    interactionStep c g dt v a = interactionStep c g dt u a := by
  simp only [Sys.bodies, List.map_cons, List.cons.injEq] at ha
  obtain ⟨a1, a2⟩ := ha
  have hz : ∀ {p q : List (Body ℝ)} (b : List (Alt ℝ)),
      List.Forall₂ (fun p q : Body ℝ => p.mass = q.mass ∧ p.massG = q.massG) p q →
      p.map Body.acceleration = q.map Body.acceleration → ∀ (f : Alt ℝ × Body ℝ → Alt ℝ),
      (∀ x p q, p.mass = q.mass → p.acceleration = q.acceleration → f (x, p) = f (x, q)) →
      (b.zip p).map f = (b.zip q).map f := by
    intro p q b hpq hacc f hf
    induction hpq generalizing b with
    | nil => rfl
    | cons h1 _ ih =>
      rw [List.map_cons, List.map_cons, List.cons.injEq] at hacc
      cases b with
      | nil => rfl
      | cons x b =>
        rw [List.zip_cons_cons, List.zip_cons_cons, List.map_cons, List.map_cons, hf _ _ _ h1.1 hacc.1, ih _ hacc.2]
  cases c
  · show jacobiInteraction g dt v a = jacobiInteraction g dt u a
    have e : jacobiAccelerations v = jacobiAccelerations u := by
      unfold jacobiAccelerations
      rw [hu.1, a1]
      exact jacobiAccelerationLoop_congr hu.2.2 a2 _ _
    simp only [jacobiInteraction, e, hu.1]
  · show democraticInteraction dt v a = democraticInteraction dt u a
    simp only [democraticInteraction]
    rw [hz _ hu.2.2 a2 _ (fun x p q _ e => by rw [e])]
  · show whdsInteraction dt v a = whdsInteraction dt u a
    simp only [whdsInteraction, hu.1]
    rw [hz _ hu.2.2 a2 _ (fun x p q e' e => by rw [e, e'])]

/-! ### Undoing jumps, kicks and Kepler motion -/

theorem jumpStep_like (c : Coordinates) (t : ℝ) (a : AltSys ℝ) {u v : Sys ℝ} (hu : Like v u) :
    jumpStep c t v a = jumpStep c t u a := by
  have hz := zip_twin a.planets hu.2.2
  cases c
  · rfl
  · simp only [jumpStep, democraticJump, foldl_add_list]
    rw [map_twin hz (fun x => x.2.mass • x.1.velocity) (fun x => x.2.mass • x.1.velocity)
      (fun x y hxy => by rw [hxy.1, hxy.2.1]), hu.1]
  · simp only [jumpStep, whdsJump, foldl_add_list]
    rw [map_twin hz (fun x => (x.2.mass • x.1.velocity).sdiv (v.star.mass + x.2.mass))
      (fun x => (x.2.mass • x.1.velocity).sdiv (u.star.mass + x.2.mass))
      (fun x y hxy => by rw [hxy.1, hxy.2.1, hu.1])]
    congr 1
    exact map_twin hz _ _ (fun x y hxy => by rw [hxy.1, hxy.2.1, hu.1])

theorem zip_map_zip (f : Alt ℝ × Body ℝ → Alt ℝ) (a : List (Alt ℝ)) (p : List (Body ℝ)) :
    ((a.zip p).map f).zip p = (a.zip p).map fun x => (f x, x.2) := by
  induction a generalizing p with
  | nil => rfl
  | cons x a ih =>
    cases p with
    | nil => rfl
    | cons y p => simp [ih]

theorem SameMasses.map_fst {γ : Type} {a : List (Alt ℝ)} {p : List (Body ℝ)} (h : SameMasses a p) (f : Alt ℝ → γ) :
    ((a.zip p).map fun x => f x.1) = a.map f := by
  conv_rhs => rw [← h.fst]
  rw [List.map_map]
  rfl

theorem sum_turned {a b : List (Alt ℝ)} (h : List.Forall₂ (fun x y : Alt ℝ => y.velocity = -x.velocity) a b)
    (w : Body ℝ → Axes ℝ → Axes ℝ) (hw : ∀ p v, w p (-v) = -w p v) (p : List (Body ℝ)) :
    ((b.zip p).map fun x => w x.2 x.1.velocity).sum = -((a.zip p).map fun x => w x.2 x.1.velocity).sum := by
  induction h generalizing p with
  | nil => simp
  | cons h1 _ ih =>
    cases p with
    | nil => simp
    | cons y p =>
      simp only [List.zip_cons_cons, List.map_cons, List.sum_cons, ih, h1, hw]
      abel

theorem jump_undone (c : Coordinates) (t : ℝ) {a : AltSys ℝ} {u v : Sys ℝ} (h : Matches a u) (hu : Like v u) :
    jumpStep c t v (jumpStep c t u a).reversed = a.reversed := by
  rw [jumpStep_like c t _ hu]
  cases c
  · rfl
  · have e := sum_turned (a := a.planets) (b := (democraticJump t u a).reversed.planets) (by
      simp only [democraticJump, AltSys.reversed, List.map_map, List.forall₂_map_right_iff]
      exact List.forall₂_same.2 fun _ _ => rfl) (fun p v => p.mass • v) (fun p v => smul_neg _ _) u.planets
    show democraticJump t u (democraticJump t u a).reversed = _
    rw [democraticJump, foldl_add_list, e]
    simp only [democraticJump, AltSys.reversed, List.map_map, AltSys.mk.injEq, true_and, foldl_add_list]
    apply List.map_congr_left
    intro x _
    simp only [Function.comp_apply, Alt.reversed, Alt.mk.injEq, true_and, and_true]
    ext <;> simp <;> ring
  · have hb : (whdsJump t u a).reversed.planets = (a.planets.zip u.planets).map fun x => Alt.reversed { x.1 with
          position := x.1.position + t • (Axes.zero + ((a.planets.zip u.planets).map fun x =>
            (x.2.mass • x.1.velocity).sdiv (u.star.mass + x.2.mass)).sum
            - (x.2.mass • x.1.velocity).sdiv (u.star.mass + x.2.mass)) } := by
      simp only [whdsJump, AltSys.reversed, List.map_map, foldl_add_list]
      rfl
    have e := sum_turned (a := a.planets) (b := (whdsJump t u a).reversed.planets) (by
      rw [hb, List.forall₂_map_right_iff]
      have := h.1.fst
      conv_lhs => rw [← this]
      rw [List.forall₂_map_left_iff]
      exact List.forall₂_same.2 fun _ _ => rfl) (fun p v => (p.mass • v).sdiv (u.star.mass + p.mass))
      (fun p v => by ext <;> simp [neg_div]) u.planets
    show whdsJump t u (whdsJump t u a).reversed = _
    rw [whdsJump, foldl_add_list, e, hb, zip_map_zip, List.map_map]
    simp only [AltSys.reversed, AltSys.mk.injEq]
    refine ⟨rfl, ?_⟩
    rw [← h.1.map_fst]
    apply List.map_congr_left
    intro x _
    simp only [Function.comp_apply, Alt.reversed, Alt.mk.injEq, true_and, and_true]
    ext <;> simp <;> ring

theorem jacobiKick_undone (g dt : ℝ) (a : List (Alt ℝ)) (acc : List (Axes ℝ)) (hl : a.length = acc.length) (first : Bool)
    (eta : ℝ) :
    jacobiKick g dt first eta (((jacobiKick g dt first eta (a.zip acc)).map Alt.reversed).zip acc)
      = a.map Alt.reversed := by
  induction a generalizing acc first eta with
  | nil => rfl
  | cons x a ih =>
    cases acc with
    | nil => simp at hl
    | cons y acc =>
      simp only [List.zip_cons_cons, jacobiKick, List.map_cons, Alt.reversed, List.cons.injEq, Alt.mk.injEq, true_and]
      refine ⟨?_, ih acc (by simpa using hl) false _⟩
      cases first
      · simp only [Bool.false_eq_true, if_false]; abel
      · simp only [if_true]; abel

theorem kick_undone (c : Coordinates) (g dt : ℝ) {a : AltSys ℝ} {u v : Sys ℝ} (h : Matches a u) (hu : Like v u)
    (ha : v.bodies.map Body.acceleration = u.bodies.map Body.acceleration) :
    interactionStep c g dt v (interactionStep c g dt u a).reversed = a.reversed := by
  rw [interactionStep_congr c g dt _ hu ha]
  cases c
  · simp only [interactionStep, jacobiInteraction, AltSys.reversed, AltSys.mk.injEq, true_and]
    exact jacobiKick_undone g dt _ _ (by
      rw [jacobiAccelerations, jacobiAccelerationLoop_length]; exact h.1.length_eq) true _
  · simp only [interactionStep, democraticInteraction, AltSys.reversed, AltSys.mk.injEq, true_and]
    rw [List.map_map, zip_map_zip, List.map_map, ← h.1.map_fst]
    apply List.map_congr_left
    intro x _
    simp only [Function.comp_apply, Alt.reversed, Alt.mk.injEq, true_and]
    abel
  · simp only [interactionStep, whdsInteraction, AltSys.reversed, AltSys.mk.injEq, true_and]
    rw [List.map_map, zip_map_zip, List.map_map, ← h.1.map_fst]
    apply List.map_congr_left
    intro x _
    simp only [Function.comp_apply, Alt.reversed, Alt.mk.injEq, true_and]
    ext <;> simp <;> ring

theorem interaction_beside (c : Coordinates) (g dt : ℝ) {a : AltSys ℝ} {u : Sys ℝ} (h : Matches a u) :
    (interactionStep c g dt u a).reversed.Beside a := by
  refine ⟨by cases c <;> rfl, by cases c <;> rfl, ?_⟩
  have hk : ∀ (a : List (Alt ℝ)) (acc : List (Axes ℝ)) (first : Bool) (eta : ℝ), a.length = acc.length →
      List.Forall₂ (fun x y : Alt ℝ => x.mass = y.mass ∧ x.massG = y.massG ∧ x.position = y.position)
        ((jacobiKick g dt first eta (a.zip acc)).map Alt.reversed) a := by
    intro a
    induction a with
    | nil => intros; exact .nil
    | cons x a ih =>
      intro acc first eta hl
      cases acc with
      | nil => simp at hl
      | cons y acc =>
        rw [List.zip_cons_cons, jacobiKick, List.map_cons]
        exact .cons ⟨rfl, rfl, rfl⟩ (ih acc false _ (by simpa using hl))
  have hm : ∀ f : Alt ℝ × Body ℝ → Alt ℝ, (∀ x, (f x).mass = x.1.mass ∧ (f x).massG = x.1.massG
      ∧ (f x).position = x.1.position) →
      List.Forall₂ (fun x y : Alt ℝ => x.mass = y.mass ∧ x.massG = y.massG ∧ x.position = y.position)
        (((a.planets.zip u.planets).map f).map Alt.reversed) a.planets := by
    intro f hf
    have := h.1.fst
    conv_rhs => rw [← this]
    rw [List.forall₂_map_left_iff, List.forall₂_map_left_iff, List.forall₂_map_right_iff]
    exact List.forall₂_same.2 fun x _ => hf x
  cases c
  · exact hk _ _ _ _ (by rw [jacobiAccelerations, jacobiAccelerationLoop_length]; exact h.1.length_eq)
  · exact hm _ fun _ => ⟨rfl, rfl, rfl⟩
  · exact hm _ fun _ => ⟨rfl, rfl, rfl⟩

theorem planetsMove_undone {K : Solver} (hK : K.Reversible) {c : Coordinates} {t running : ℝ} {l m : List (Alt ℝ)}
    (h : PlanetsMove K c t running l m) :
    PlanetsMove K c t running (m.map Alt.reversed) (l.map Alt.reversed) := by
  induction h with
  | nil => exact .nil
  | @cons running a b l m h1 h2 h3 _ ih =>
    have e1 : attracting c running b.reversed = attracting c running a := by cases c <;> simp [attracting, Alt.reversed, h2]
    have e2 : carried c running b.reversed = carried c running a := by cases c <;> simp [carried, Alt.reversed, h2]
    refine .cons h1.symm h2.symm ?_ (by rw [e2]; exact ih)
    rw [e1]
    exact hK _ _ _ _ _ _ h3

theorem keplerMove_undone {K : Solver} (hK : K.Reversible) {c : Coordinates} {t : ℝ} {u v : Sys ℝ} {a b : AltSys ℝ}
    (hu : Like v u) (h : KeplerMove K c t u a b) : KeplerMove K c t v b.reversed a.reversed := by
  obtain ⟨h1, h2, h3, h4⟩ := h
  refine ⟨h1.symm, by simp [AltSys.reversed, h2], ?_, ?_⟩
  · simp only [AltSys.reversed, h2, h3]
    ext <;> simp
  · rw [hu.2.1]
    exact planetsMove_undone hK h4

theorem keplerMove_matches {K : Solver} {c : Coordinates} {t : ℝ} {u v : Sys ℝ} {a b : AltSys ℝ} (h : KeplerMove K c t v a b)
    (hm : Matches a u) : Matches b u := by
  obtain ⟨h1, -, -, h4⟩ := h
  refine ⟨?_, h1.trans hm.2⟩
  have := hm.1
  generalize u.planets = p at this
  generalize v.star.massG = running at h4
  generalize a.planets = l, b.planets = m at h4 this
  induction h4 generalizing p with
  | nil => exact this
  | cons e1 e2 _ _ ih =>
    cases this with
    | cons f1 f2 => exact .cons ⟨e1.trans f1.1, e2.trans f1.2⟩ (ih _ f2)

theorem like_of_places {v w : Sys ℝ} (h : w.places = v.places) : Like w v := by
  simp only [Sys.places, Sys.bodies, List.map_cons, List.cons.injEq, Prod.mk.injEq] at h
  refine ⟨h.1.1, h.1.2.1, ?_⟩
  have := h.2
  generalize w.planets = l, v.planets = m at this
  induction l generalizing m with
  | nil =>
    cases m with
    | nil => exact .nil
    | cons y m => simp at this
  | cons x l ih =>
    cases m with
    | nil => simp at this
    | cons y m =>
      simp only [List.map_cons, List.cons.injEq, Prod.mk.injEq] at this
      exact .cons ⟨this.1.1, this.1.2.1⟩ (ih m this.2)

theorem places_of_motions {v w : Sys ℝ} (h : w.motions = v.motions) : w.places = v.places := by
  have := congrArg (List.map fun x : ℝ × ℝ × Axes ℝ × Axes ℝ => (x.1, x.2.1, x.2.2.1)) h
  rw [Sys.motions, Sys.motions, List.map_map, List.map_map] at this
  exact this

theorem like_of_motions {v w : Sys ℝ} (h : w.motions = v.motions) : Like w v := like_of_places (places_of_motions h)

theorem Like.symm {v w : Sys ℝ} (h : Like w v) : Like v w :=
  ⟨h.1.symm, h.2.1.symm, h.2.2.flip.imp fun _ _ e => ⟨e.1.symm, e.2.symm⟩⟩

/-- **C115**: with a solver that can be reversed, a step of WHFast can be reversed: turning all velocities round after
the step and making another step leads back to the start with all velocities turned round. -/
theorem C115_reversible {K : Solver} (hK : K.Reversible) {c : Coordinates} {g dt half : ℝ}
    {gravity : Sys ℝ → Option (Sys ℝ)} {u u' : Sys ℝ} (hg : ByPositions u.bodies.length gravity) (hu : Massive u)
    (h : StepBy K c g dt half gravity u u') :
    ∃ u'', StepBy K c g dt half gravity u'.reversed u'' ∧ u''.motions = u.reversed.motions := by
  obtain ⟨a1, a5, u2, h1, h2, h3, rfl⟩ := h
  have m0 := toAlternative_matches c hu
  have m1 := keplerMove_matches h1 m0
  have m2 := jumpStep_matches c half m1
  have l1 := fromAlternative_like c m2
  have l2 := (like_of_motions (hg.keeps _ _ h2)).trans l1
  have hu2 := l2.massive hu
  have n2 := m2.like l2
  have n3 := interactionStep_matches c g dt n2
  have n4 := jumpStep_matches c half n3
  have n5 := keplerMove_matches h3 n4
  have l5 := fromAlternative_like c n5
  have lr := (fromAlternative c a5 u2).reversed_like.trans l5
  have start : toAlternative c (fromAlternative c a5 u2).reversed = a5.reversed := by
    rw [toAlternative_reversed, toAlternative_fromAlternative c n5 hu2]
  have k1 := keplerMove_undone hK lr h3
  have j1 : jumpStep c half (fromAlternative c a5 u2).reversed
      (jumpStep c half u2 (interactionStep c g dt u2 (jumpStep c half u a1))).reversed
      = (interactionStep c g dt u2 (jumpStep c half u a1)).reversed := jump_undone c half n3 lr
  have hp := fromAlternative_places c (interaction_beside c g dt n2) (lr.trans l2)
  obtain ⟨v2, hv2, hacc⟩ := hg.same _ _ _ l1.length hp h2
  have lv : Like v2 u2 :=
    ((like_of_motions (hg.keeps _ _ hv2)).trans (like_of_places hp)).trans (like_of_motions (hg.keeps _ _ h2)).symm
  have k2 := kick_undone c g dt n2 lv hacc
  have j2 : jumpStep c half v2 (jumpStep c half u a1).reversed = a1.reversed := jump_undone c half m1 (lv.trans l2)
  have k3 := keplerMove_undone hK (lv.trans l2) h1
  refine ⟨fromAlternative c (toAlternative c u).reversed v2,
    ⟨(jumpStep c half u2 (interactionStep c g dt u2 (jumpStep c half u a1))).reversed, _, v2, ?_, ?_, ?_, rfl⟩, ?_⟩
  · rw [start]; exact k1
  · rw [j1]; exact hv2
  · rw [j1, k2, j2]; exact k3
  · rw [← toAlternative_reversed, fromAlternative_motions c _ ((lv.trans l2).trans u.reversed_like.symm),
      fromAlternative_toAlternative c (u.reversed_like.massive hu)]

theorem sameMotion_of_motions {v w : Sys ℝ} (h : w.motions = v.motions) : SameMotion w v := by
  refine ⟨like_of_motions h, ?_, ?_, ?_⟩
  · simp only [Sys.motions, Sys.bodies, List.map_cons, List.cons.injEq, Prod.mk.injEq] at h; exact h.1.2.2.1
  · simp only [Sys.motions, Sys.bodies, List.map_cons, List.cons.injEq, Prod.mk.injEq] at h; exact h.1.2.2.2
  · simp only [Sys.motions, Sys.bodies, List.map_cons, List.cons.injEq] at h
    have := congrArg (List.map fun x : ℝ × ℝ × Axes ℝ × Axes ℝ => (x.2.2.1, x.2.2.2)) h.2
    rw [List.map_map, List.map_map] at this
    exact this

theorem stepBy_like {K : Solver} {c : Coordinates} {g dt half : ℝ} {gravity : Sys ℝ → Option (Sys ℝ)} {N : ℕ}
    (hg : ByPositions N gravity) {u u' : Sys ℝ} (hu : Massive u) (h : StepBy K c g dt half gravity u u') : Like u' u := by
  obtain ⟨a1, a5, u2, h1, h2, h3, rfl⟩ := h
  have m2 := jumpStep_matches c half (keplerMove_matches h1 (toAlternative_matches c hu))
  have l2 := (like_of_motions (hg.keeps _ _ h2)).trans (fromAlternative_like c m2)
  have n5 := keplerMove_matches h3 (jumpStep_matches c half (interactionStep_matches c g dt (m2.like l2)))
  exact (fromAlternative_like c n5).trans l2

/-- Accelerations before a step do not matter. -/
theorem stepBy_congr {K : Solver} {c : Coordinates} {g dt half : ℝ} {gravity : Sys ℝ → Option (Sys ℝ)} {u u' w : Sys ℝ}
    (hg : ByPositions u.bodies.length gravity) (hu : Massive u) (hw : w.motions = u.motions)
    (h : StepBy K c g dt half gravity u u') :
    ∃ w', StepBy K c g dt half gravity w w' ∧ w'.motions = u'.motions := by
  obtain ⟨a1, a5, u2, h1, h2, h3, rfl⟩ := h
  have lw := like_of_motions hw
  have m2 := jumpStep_matches c half (keplerMove_matches h1 (toAlternative_matches c hu))
  have ej : jumpStep c half w a1 = jumpStep c half u a1 := jumpStep_like c half a1 lw
  have em := fromAlternative_motions c (jumpStep c half u a1) lw
  obtain ⟨w2, hw2, hacc⟩ := hg.same _ _ _ (fromAlternative_like c m2).length (places_of_motions em) h2
  have l2 : Like w2 u2 := ((like_of_motions (hg.keeps _ _ hw2)).trans (like_of_motions em)).trans
    (like_of_motions (hg.keeps _ _ h2)).symm
  have move : ∀ {a b : AltSys ℝ} {x y : Sys ℝ}, Like y x → KeplerMove K c half x a b → KeplerMove K c half y a b := by
    intro a b x y l hk
    unfold KeplerMove at hk ⊢
    rw [l.2.1]; exact hk
  refine ⟨fromAlternative c a5 w2, ⟨a1, a5, w2, ?_, ?_, ?_, rfl⟩, fromAlternative_motions c a5 l2⟩
  · rw [toAlternative_congr c (sameMotion_of_motions hw)]
    exact move lw h1
  · rw [ej]; exact hw2
  · rw [ej, jumpStep_like c half _ l2, interactionStep_congr c g dt _ l2 hacc]
    exact move l2 h3

/-- **C115, any number of steps**: turning all velocities round after `n` steps and making `n` more steps leads back to
the start with all velocities turned round. -/
theorem C115_run {K : Solver} (hK : K.Reversible) {c : Coordinates} {g dt half : ℝ}
    {gravity : Sys ℝ → Option (Sys ℝ)} (n : ℕ) {path : ℕ → Sys ℝ} (hg : ByPositions (path 0).bodies.length gravity)
    (hu : Massive (path 0)) (h : ∀ i < n, StepBy K c g dt half gravity (path i) (path (i + 1))) :
    ∃ back : ℕ → Sys ℝ, back 0 = (path n).reversed
      ∧ (∀ i < n, StepBy K c g dt half gravity (back i) (back (i + 1)))
      ∧ (back n).motions = (path 0).reversed.motions := by
  have all : ∀ i ≤ n, Like (path i) (path 0) := by
    intro i
    induction i with
    | zero => intro _; exact ⟨rfl, rfl, List.forall₂_same.2 fun _ _ => ⟨rfl, rfl⟩⟩
    | succ i ih =>
      intro hi
      have l := ih (by omega)
      exact (stepBy_like hg (l.massive hu) (h i (by omega))).trans l
  suffices key : ∀ j ≤ n, ∀ w : Sys ℝ, w.motions = (path j).reversed.motions →
      ∃ back : ℕ → Sys ℝ, back 0 = w ∧ (∀ i < j, StepBy K c g dt half gravity (back i) (back (i + 1)))
        ∧ (back j).motions = (path 0).reversed.motions from key n le_rfl _ rfl
  intro j
  induction j with
  | zero => intro _ w hw; exact ⟨fun _ => w, rfl, by simp, hw⟩
  | succ j ih =>
    intro hj w hw
    have l := all j (by omega)
    have l' := all (j + 1) hj
    obtain ⟨w1, s1, e1⟩ := C115_reversible hK (by rw [l.length]; exact hg) (l.massive hu) (h j (by omega))
    obtain ⟨w2, s2, e2⟩ := stepBy_congr (by rw [(path (j + 1)).reversed_like.length, l'.length]; exact hg)
      ((path (j + 1)).reversed_like.massive (l'.massive hu)) hw s1
    obtain ⟨back, b1, b2, b3⟩ := ih (by omega) w2 (e2.trans e1)
    refine ⟨fun i => Nat.casesOn i w back, rfl, fun i hi => ?_, b3⟩
    cases i with
    | zero => show StepBy K c g dt half gravity w (back 0); rw [b1]; exact s2
    | succ i => exact b2 i (by omega)

/-! ### The exact solver -/

/-- The universal anomaly after the time `t`. -/
def Anomaly (m t : ℝ) (r v : Axes ℝ) (x : ℝ) : Prop :=
  universalTime (orbitOf m r v).r0 (orbitOf m r v).eta0 (orbitOf m r v).zeta0 (gFunctions (orbitOf m r v).beta) x = t

open Classical in
/-- The formulas of the code with the exact functions and the exact solution of Kepler's equation; no answer for motion
on a straight line through the centre. -/
noncomputable def exactSolver : Solver := fun m t r v =>
  if h : 0 ≤ m ∧ r.cross v ≠ 0 ∧ ∃ x, Anomaly m t r v x then
    some (keplerFinish (orbitOf m r v) t (gFunctions (orbitOf m r v).beta h.2.2.choose)
      ((orbitOf m r v).ri (gFunctions (orbitOf m r v).beta h.2.2.choose)) r v)
  else none

theorem exactSolver_of {m t : ℝ} {r v : Axes ℝ} {x : ℝ} (hm : 0 ≤ m) (hL : r.cross v ≠ 0) (hx : Anomaly m t r v x) :
    exactSolver m t r v = some (keplerFinish (orbitOf m r v) t (gFunctions (orbitOf m r v).beta x)
      ((orbitOf m r v).ri (gFunctions (orbitOf m r v).beta x)) r v) := by
  have h : 0 ≤ m ∧ r.cross v ≠ 0 ∧ ∃ x, Anomaly m t r v x := ⟨hm, hL, x, hx⟩
  have e : h.2.2.choose = x :=
    (C24_unique_anomaly (gFunctions_spec _) hm hL t).unique h.2.2.choose_spec hx
  rw [exactSolver, dif_pos h, e]

theorem exactSolver_some {m t : ℝ} {r v : Axes ℝ} {res : Axes ℝ × Axes ℝ} (h : exactSolver m t r v = some res) :
    0 ≤ m ∧ r.cross v ≠ 0 ∧ ∃ x, Anomaly m t r v x ∧ res = keplerFinish (orbitOf m r v) t
      (gFunctions (orbitOf m r v).beta x) ((orbitOf m r v).ri (gFunctions (orbitOf m r v).beta x)) r v := by
  unfold exactSolver at h
  split at h
  · next hc =>
    cases h
    exact ⟨hc.1, hc.2.1, _, hc.2.2.choose_spec, rfl⟩
  · cases h

/-- **C115, the exact solver**: it follows the solution of the two-body problem. -/
theorem C115_exact {m : ℝ} (hm : 0 ≤ m) {r v : Axes ℝ} (hL : r.cross v ≠ 0) :
    ∃ p w : ℝ → Axes ℝ, (∀ t, exactSolver m t r v = some (p t, w t)) ∧ p 0 = r ∧ w 0 = v
      ∧ ∀ t, VecDeriv p (w t) t ∧ VecDeriv w ((-m / √((p t).dot (p t)) ^ 3) • p t) t := by
  obtain ⟨x, hx, p, w, h1, h2, h3, h4⟩ := C24_two_body (gFunctions_spec (orbitOf m r v).beta) hm hL
  exact ⟨p, w, fun t => by rw [h1 t]; exact exactSolver_of hm hL (hx t), h2, h3, h4⟩

theorem exactSolver_reversible : exactSolver.Reversible := by
  intro m t r v r' v' h
  obtain ⟨hm, hL, x, hx, he⟩ := exactSolver_some h
  have hr : r ≠ 0 := by rintro rfl; exact hL (Axes.zero_cross v)
  have hG := gFunctions_spec (orbitOf m r v).beta
  have hd := distance_pos hG hL x
  have hr0 := orbit_r0_pos m v hr
  have hx' : (orbitOf m r v).time (gFunctions (orbitOf m r v).beta) x = t := hx
  have e1 := finish_distance2 hG hr x ((orbitOf m r v).ri (gFunctions (orbitOf m r v).beta x))
  have e2 := finish_velocity2 hG hr x hd.ne'
  have e3 := finish_cross hG hr x hd.ne'
  have det := hG.determinant (eta0 := (orbitOf m r v).eta0) (orbit_zeta m r v) hr0.ne' x hd.ne'
  have coe := hG.coefficient (eta0 := (orbitOf m r v).eta0) (orbit_zeta m r v) x
  rw [hx', ← he] at e1 e2 e3
  dsimp only at e1 e2 e3
  rw [keplerFinish_eq, Orbit.ri_eq, Prod.mk.injEq] at he
  have s0 := orbit_r0_sq m r v
  have sη := orbit_eta m r v
  have sβ := orbit_beta m r v
  have sζ := orbit_zeta m r v
  have q0 := hG.r0 x
  have q1 := hG.r1 x
  have q2 := hG.r2 x
  have hd' : (orbitOf m r v).distance (gFunctions (orbitOf m r v).beta) x = (orbitOf m r v).r0
      + (orbitOf m r v).eta0 * (gFunctions (orbitOf m r v).beta x).g1
      + (orbitOf m r v).zeta0 * (gFunctions (orbitOf m r v).beta x).g2 := rfl
  have ht : (orbitOf m r v).r0 * x + (orbitOf m r v).eta0 * (gFunctions (orbitOf m r v).beta x).g2
      + (orbitOf m r v).zeta0 * (gFunctions (orbitOf m r v).beta x).g3 = t := hx
  change (1 - _ / _) * (1 - _ * ((orbitOf m r v).distance (gFunctions (orbitOf m r v).beta) x)⁻¹)
    - ((orbitOf m r v).time (gFunctions (orbitOf m r v).beta) x - _) * (_ * ((orbitOf m r v).distance
      (gFunctions (orbitOf m r v).beta) x)⁻¹) = 1 at det
  change (orbitOf m r v).time (gFunctions (orbitOf m r v).beta) x - _ = _ at coe
  rw [hx'] at det coe
  simp only [orbit_massG] at he det coe sβ sζ
  set β := (orbitOf m r v).beta with hβ
  set d := (orbitOf m r v).distance (gFunctions β) x with hdd
  set r0 := (orbitOf m r v).r0
  set η := (orbitOf m r v).eta0
  set ζ := (orbitOf m r v).zeta0
  -- the orbit seen from the end
  have n1 : (orbitOf m r' (-v')).r0 = d := by
    rw [orbitOf_eq]
    dsimp only
    rw [e1, Real.sqrt_sq hd.le]
  have n2 : (orbitOf m r' (-v')).beta = β := by
    rw [orbit_beta, n1, orbit_massG]
    have : (-v').dot (-v') = v'.dot v' := by simp [Axes.dot]
    rw [this, e2]; ring
  have n3 : (orbitOf m r' (-v')).eta0 = -(η * (gFunctions β x).g0 + ζ * (gFunctions β x).g1) := by
    rw [orbit_eta]
    have : r'.dot (-v') = -(r'.dot v') := by simp [Axes.dot]; ring
    rw [this, he.1, he.2, combination_dot, ← s0, ← sη, coe, q0]
    congr 1
    have hv2 : v.dot v = 2 * m * r0⁻¹ - β := by rw [sβ]; ring
    rw [hv2, sζ, ]
    have hd2 : d = r0 + η * (gFunctions β x).g1 + (m - β * r0) * (gFunctions β x).g2 := by rw [hd', sζ]
    generalize (gFunctions β x).g1 = g1 at *
    generalize (gFunctions β x).g2 = g2 at *
    clear_value d β r0 η ζ
    field_simp
    rw [hd2]
    ring
  have n4 : (orbitOf m r' (-v')).zeta0 = m - β * d := by rw [orbit_zeta, n1, n2, orbit_massG]
  have hL' : r'.cross (-v') ≠ 0 := by
    have : r'.cross (-v') = -(r'.cross v') := by ext <;> simp <;> ring
    rw [this, e3]
    exact neg_ne_zero.2 hL
  have hb : (orbitOf m r' (-v')).distance (gFunctions β) x = r0 := by
    show universalDistance _ _ _ _ _ = _
    unfold universalDistance
    rw [n1, n3, n4, hd', sζ, q0]
    linear_combination (-(m - β * r0)) * q2
  have hy : Anomaly m t r' (-v') x := by
    unfold Anomaly universalTime
    rw [n1, n2, n3, n4, ← ht, hd', sζ, q0]
    linear_combination (-(η * (gFunctions β x).g1 + (m - β * r0) * (gFunctions β x).g2)) * q1 + η * q2
  rw [exactSolver_of hm hL' hy, keplerFinish_eq, Orbit.ri_eq, n2, hb, n1, orbit_massG]
  have a1 : (1 - m * (gFunctions β x).g2 / d) • r' + (t - m * (gFunctions β x).g3) • -v' = r := by
    rw [he.1, he.2]
    ext
    · simp only [Axes.add_x, Axes.smul_x, Axes.neg_x]; linear_combination r.x * det
    · simp only [Axes.add_y, Axes.smul_y, Axes.neg_y]; linear_combination r.y * det
    · simp only [Axes.add_z, Axes.smul_z, Axes.neg_z]; linear_combination r.z * det
  have a2 : (-m * (gFunctions β x).g1 / d * r0⁻¹) • r' + (1 - m * (gFunctions β x).g2 * r0⁻¹) • -v' = -v := by
    rw [he.1, he.2]
    ext
    · simp only [Axes.add_x, Axes.smul_x, Axes.neg_x]; linear_combination -v.x * det
    · simp only [Axes.add_y, Axes.smul_y, Axes.neg_y]; linear_combination -v.y * det
    · simp only [Axes.add_z, Axes.smul_z, Axes.neg_z]; linear_combination -v.z * det
  rw [a1, a2]

/-- **C115, exact solution**: with the exact solution of the two-body problem any number of steps can be reversed. -/
theorem C115_exact_run {c : Coordinates} {g dt half : ℝ} {gravity : Sys ℝ → Option (Sys ℝ)} (n : ℕ) {path : ℕ → Sys ℝ}
    (hg : ByPositions (path 0).bodies.length gravity) (hu : Massive (path 0))
    (h : ∀ i < n, StepBy exactSolver c g dt half gravity (path i) (path (i + 1))) :
    ∃ back : ℕ → Sys ℝ, back 0 = (path n).reversed
      ∧ (∀ i < n, StepBy exactSolver c g dt half gravity (back i) (back (i + 1)))
      ∧ (back n).motions = (path 0).reversed.motions := C115_run exactSolver_reversible n hg hu h

/-! ### Examples -/

theorem pull_places (G : ℝ) (l : List (Body ℝ)) (x : Axes ℝ) :
    pull G l x = ((l.map placeOf).map fun t => Gravity.newton G t.1 x t.2.2).sum := by
  rw [List.map_map]; rfl

/-- **C115, gravity of the kick**: the accelerations of the kick depend on masses and positions only. -/
theorem C115_kicked (c : Coordinates) (G : ℝ) (N : ℕ) : ByPositions N fun v => some (kicked c G v) := by
  have same : ∀ l : List (Body ℝ), ∀ a : Body ℝ → Axes ℝ,
      ((l.map fun q => q.accelerated (a q)).map fun p => (p.mass, p.massG, p.position, p.velocity))
        = l.map fun p => (p.mass, p.massG, p.position, p.velocity) := by
    intro l a; rw [List.map_map]; rfl
  have acc : ∀ l l' : List (Body ℝ), l'.map placeOf = l.map placeOf → ∀ a : Axes ℝ → Axes ℝ,
      ((l'.map fun q => q.accelerated (a q.position)).map Body.acceleration)
        = ((l.map fun q => q.accelerated (a q.position)).map Body.acceleration) := by
    intro l l' h a
    have := congrArg (List.map fun t : ℝ × ℝ × Axes ℝ => a t.2.2) h
    rw [List.map_map, List.map_map] at this ⊢
    exact this
  constructor
  · rintro ⟨s, l⟩ w h
    cases h
    cases c
    · cases l with
      | nil => rfl
      | cons p l => simp only [kicked, Sys.motions, Sys.bodies, List.map_cons, same]; rfl
    all_goals simp only [kicked, Sys.motions, Sys.bodies, List.map_cons, same]; rfl
  · rintro ⟨s, l⟩ ⟨s', l'⟩ w - hp h
    cases h
    refine ⟨_, rfl, ?_⟩
    have hp : placeOf s' :: l'.map placeOf = placeOf s :: l.map placeOf := hp
    obtain ⟨h0, hl⟩ := List.cons.inj hp
    cases c
    · cases l with
      | nil => cases l' with
        | nil => rfl
        | cons => cases hl
      | cons p l => cases l' with
        | nil => cases hl
        | cons p' l' =>
          obtain ⟨h1, h2⟩ := List.cons.inj hl
          simp only [kicked, Sys.bodies, List.map_cons, pull_places, h0, h1, h2]
          rw [acc l l' h2 fun x => (Gravity.newton G (placeOf s).1 x (placeOf s).2.2 ::
            Gravity.newton G (placeOf p).1 x (placeOf p).2.2 ::
              (l.map placeOf).map fun t => Gravity.newton G t.1 x t.2.2).sum]
          simp only [Body.accelerated]
          have e0 := congrArg (fun t : ℝ × ℝ × Axes ℝ => t.2.2) h0
          have e1 := congrArg (fun t : ℝ × ℝ × Axes ℝ => t.2.2) h1
          simp only [placeOf] at e0 e1
          rw [e0, e1]
    all_goals
      simp only [kicked, Sys.bodies, List.map_cons, pull_places, hl]
      rw [acc l l' hl fun x => ((l.map placeOf).map fun t => Gravity.newton G t.1 x t.2.2).sum]
      rfl

/-- A star with one planet. -/
noncomputable def pairSys : Sys ℝ :=
  { star := ⟨1, 1, ⟨0, 0, 0⟩, ⟨0, 0, 0⟩, ⟨0, 0, 0⟩⟩, planets := [⟨1 / 10, 1 / 10, ⟨1, 0, 0⟩, ⟨0, 1, 0⟩, ⟨0, 0, 0⟩⟩] }

theorem pairSys_massive : Massive pairSys := by
  refine ⟨by simp [pairSys], ?_⟩
  intro p hp
  simp only [pairSys, List.mem_singleton] at hp
  subst hp; norm_num

theorem exactSolver_cross {m t : ℝ} {r v r' v' : Axes ℝ} (h : exactSolver m t r v = some (r', v')) :
    r'.cross v' = r.cross v := by
  obtain ⟨hm, hL, x, hx, he⟩ := exactSolver_some h
  have := C24_angular_momentum (gFunctions_spec _) hL t x hx
  rw [← he] at this
  exact this

theorem exactSolver_exists {m : ℝ} (hm : 0 ≤ m) {r v : Axes ℝ} (hL : r.cross v ≠ 0) (t : ℝ) :
    ∃ r' v', exactSolver m t r v = some (r', v') ∧ r'.cross v' ≠ 0 := by
  obtain ⟨p, w, h, -⟩ := C115_exact hm hL
  exact ⟨p t, w t, h t, by rw [exactSolver_cross (h t)]; exact hL⟩

/-- With one planet the exact solver always has an answer. -/
theorem exists_step (dt : ℝ) : ∃ u', StepBy exactSolver .jacobi 1 dt (dt / 2) (fun v => some (kicked .jacobi 1 v)) pairSys u' := by
  have hJ : Coordinates.jacobi ≠ .democraticHeliocentric := by simp
  have e := toAlternative_single hJ pairSys_massive (p := ⟨1 / 10, 1 / 10, ⟨1, 0, 0⟩, ⟨0, 1, 0⟩, ⟨0, 0, 0⟩⟩) rfl
  obtain ⟨r, v, h1, hc⟩ := exactSolver_exists (m := 1 + 1 / 10) (by norm_num)
    (r := (relative pairSys.star ⟨1 / 10, 1 / 10, ⟨1, 0, 0⟩, ⟨0, 1, 0⟩, ⟨0, 0, 0⟩⟩).1)
    (v := (relative pairSys.star ⟨1 / 10, 1 / 10, ⟨1, 0, 0⟩, ⟨0, 1, 0⟩, ⟨0, 0, 0⟩⟩).2)
    (by
      intro h
      have := congrArg Axes.z h
      simp [relative, pairSys, Axes.cross] at this) (dt / 2)
  obtain ⟨r', v', h2, -⟩ := exactSolver_exists (m := 1 + 1 / 10) (by norm_num) hc (dt / 2)
  let a1 : AltSys ℝ := ⟨{ (toAlternative .jacobi pairSys).star with
    position := (toAlternative .jacobi pairSys).star.position + (dt / 2) • (toAlternative .jacobi pairSys).star.velocity },
    [⟨1 / 10, 1 / 10, r, v⟩]⟩
  obtain ⟨p, hp⟩ : ∃ p, (fromAlternative .jacobi a1 pairSys).planets = [p] := ⟨_, rfl⟩
  have k2 : kicked .jacobi 1 (fromAlternative .jacobi a1 pairSys)
      = ⟨(fromAlternative .jacobi a1 pairSys).star.accelerated 0, [p.accelerated 0]⟩ := by
    simp [kicked, hp, pull, Gravity.newton]
  have i2 := interactionStep_single hJ 1 dt (u := kicked .jacobi 1 (fromAlternative .jacobi a1 pairSys))
    (p := p.accelerated 0) (by rw [k2]) (by rw [k2]; rfl) rfl (a := a1) rfl
  let a2 := interactionStep .jacobi 1 dt (kicked .jacobi 1 (fromAlternative .jacobi a1 pairSys)) a1
  let a5 : AltSys ℝ := ⟨{ a2.star with position := a2.star.position + (dt / 2) • a2.star.velocity },
    [⟨1 / 10, 1 / 10, r', v'⟩]⟩
  refine ⟨_, a1, a5, _, ⟨rfl, rfl, rfl, ?_⟩, rfl, ⟨rfl, rfl, rfl, ?_⟩, rfl⟩
  · rw [e]
    exact .cons rfl rfl h1 .nil
  · show PlanetsMove _ _ _ (kicked .jacobi 1 (fromAlternative .jacobi a1 pairSys)).star.massG a2.planets _
    rw [show a2.planets = _ from i2, show (kicked .jacobi 1 (fromAlternative .jacobi a1 pairSys)).star.massG = 1 by rw [k2]; rfl]
    exact .cons rfl rfl h2 .nil

/-- The hypotheses of `C115_run` can be met: a step of a star and a planet, and back. -/
example (dt : ℝ) : ∃ u' w, StepBy exactSolver .jacobi 1 dt (dt / 2) (fun v => some (kicked .jacobi 1 v)) pairSys u'
    ∧ StepBy exactSolver .jacobi 1 dt (dt / 2) (fun v => some (kicked .jacobi 1 v)) u'.reversed w
    ∧ w.motions = pairSys.reversed.motions := by
  obtain ⟨u', h⟩ := exists_step dt
  obtain ⟨w, h1, h2⟩ := C115_reversible exactSolver_reversible (C115_kicked .jacobi 1 _) pairSys_massive h
  exact ⟨u', w, h, h1, h2⟩

end Posidonius.WHFast

namespace Posidonius.Univ

theorem gravity_still {n : ℕ} (g : ℝ) {p q : Fin n → Gravity.Body ℝ} (roche : Fin n → Fin n → ℝ) (ig : Gravity.Ignore)
    (mm : ℕ) (h : ∀ i, { p i with velocity := 0 } = { q i with velocity := (0 : Axes ℝ) }) :
    Gravity.gravity g p roche ig mm = Gravity.gravity g q roche ig mm := by
  have e : ∀ p : Fin n → Gravity.Body ℝ, Gravity.gravity g p roche ig mm
      = Gravity.gravity g (fun i => { p i with velocity := 0 }) roche ig mm := fun _ => rfl
  rw [e p, e q, funext h]

/-- **C115, gravity of the universe**: its accelerations depend on masses and positions only. -/
theorem C115_gravity {n : ℕ} (k : Consts ℝ) (roche : Fin n → Fin n → ℝ) (c : WHFast.Coordinates) (u : Universe ℝ n) :
    WHFast.ByPositions n (whfastGravity k roche c u) := by
  constructor
  · intro v w h
    unfold whfastGravity at h
    split at h
    · cases h
    · cases h
      simp only [WHFast.Sys.motions, WHFast.Sys.bodies, List.map_cons, List.cons.injEq, true_and]
      apply List.ext_getElem (by simp)
      intro i h1 h2
      simp
  · intro v v' w hl hp h
    have hs : ∀ i, { bodyOf ((withSystem v u).particles i) with velocity := (0 : Axes ℝ) }
        = { bodyOf ((withSystem v' u).particles i) with velocity := (0 : Axes ℝ) } := by
      intro i
      have key : ∀ d : WHFast.Body ℝ, (entry u.hosts.mostMassive v.bodies d i).position
          = (entry u.hosts.mostMassive v'.bodies d i).position := by
        intro d
        have := congrArg (fun l => (l[(starFirst u.hosts.mostMassive).idxOf i]?.getD (d.mass, d.massG, d.position)).2.2) hp
        dsimp only [WHFast.Sys.places] at this
        rw [List.getElem?_map, List.getElem?_map] at this
        unfold entry
        generalize v.bodies[(starFirst u.hosts.mostMassive).idxOf i]? = x at this ⊢
        generalize v'.bodies[(starFirst u.hosts.mostMassive).idxOf i]? = y at this ⊢
        cases x <;> cases y <;> exact this.symm
      simp only [bodyOf, withSystem, key]
    have hl' : v'.bodies.length = n := by
      have := congrArg List.length hp
      simp only [WHFast.Sys.places, List.length_map] at this
      omega
    unfold whfastGravity universeGravity at h ⊢
    rw [← gravity_still k.g roche (ignored c) _ hs]
    have hm : (withSystem v' u).hosts = (withSystem v u).hosts := rfl
    rw [hm]
    cases hgr : Gravity.gravity k.g (fun i => bodyOf ((withSystem v u).particles i)) roche (ignored c)
        (withSystem v u).hosts.mostMassive with
    | error e => rw [hgr] at h; cases h
    | ok acc =>
      rw [hgr] at h
      cases h
      refine ⟨_, rfl, ?_⟩
      simp only [WHFast.Sys.bodies, List.length_cons] at hl hl'
      have hsl := starFirst_length u.hosts.mostMassive
      simp only [WHFast.Sys.bodies, List.map_cons, List.cons.injEq]
      refine ⟨by simp [starFirst], List.ext_getElem (by simp; omega) fun j h1 h2 => ?_⟩
      simp only [List.length_map, List.length_mapIdx] at h1 h2
      have hj : j + 1 < (starFirst u.hosts.mostMassive).length := by omega
      simp [List.getElem?_eq_getElem hj]

end Posidonius.Univ
