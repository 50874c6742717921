import Verif.Lemmas.WHFastAngular
import Verif.Spec.WHFastSplit

/-! The parts of the splitting, planet by planet. -/

namespace Posidonius.WHFast
open Posidonius Gravity

theorem newton_self (G m : ℝ) (x : Axes ℝ) : newton G m x x = 0 := by
  simp [newton]

theorem newton_neg (G m : ℝ) (x y : Axes ℝ) : newton G m y x = -newton G m x y := by
  have : (x - y).dot (x - y) = (y - x).dot (y - x) := by simp [Axes.dot]; ring
  unfold newton
  rw [this]
  module

theorem newton_scale (G m k : ℝ) (x y : Axes ℝ) : newton G (k * m) x y = k • newton G m x y := by
  unfold newton
  rw [smul_smul]
  congr 1
  ring

theorem newton_comm (G m k : ℝ) (x y : Axes ℝ) : k • newton G m x y = -(m • newton G k y x) := by
  rw [newton_neg G k x y, smul_neg, neg_neg, ← newton_scale, ← newton_scale, mul_comm]

theorem newton_central (G m : ℝ) (x y : Axes ℝ) : newton G m x y = central G m (x - y) := by
  unfold central newton
  have : y - x = 0 - (x - y) := by module
  rw [this]

theorem central_add (G m k : ℝ) (q : Axes ℝ) : central G (m + k) q = central G m q + central G k q := by
  unfold central newton
  rw [← add_smul]
  congr 1
  ring

theorem central_scale (G m k : ℝ) (q : Axes ℝ) : central G (k * m) q = k • central G m q := newton_scale G m k q 0

theorem pull_cons (G : ℝ) (p : Body ℝ) (l : List (Body ℝ)) (x : Axes ℝ) :
    pull G (p :: l) x = newton G p.mass x p.position + pull G l x := by simp [pull]

/-! ### All forces balance -/

theorem sum_neg_list {ι : Type} (f : ι → Axes ℝ) (l : List ι) : (l.map fun x => -f x).sum = -(l.map f).sum := by
  induction l with
  | nil => simp
  | cons x l ih => simp only [List.map_cons, List.sum_cons, ih, neg_add]

theorem pairs_balance (G : ℝ) (l m : List (Body ℝ)) :
    (l.map fun p => p.mass • pull G m p.position).sum = -(m.map fun p => p.mass • pull G l p.position).sum := by
  induction l with
  | nil => simp [pull]
  | cons p l ih =>
    simp only [List.map_cons, List.sum_cons, ih, pull_cons]
    have e : (m.map fun q => q.mass • (newton G p.mass q.position p.position + pull G l q.position)).sum
        = (m.map fun q => q.mass • newton G p.mass q.position p.position).sum
          + (m.map fun q => q.mass • pull G l q.position).sum := by
      rw [← sum_add_list]
      simp only [smul_add]
    rw [e, neg_add]
    congr 1
    unfold pull
    rw [← sum_smul_list, ← sum_neg_list]
    congr 1
    exact List.map_congr_left fun q _ => newton_comm _ _ _ _ _

theorem pull_balance (G : ℝ) (l : List (Body ℝ)) : (l.map fun p => p.mass • pull G l p.position).sum = 0 := by
  have := pairs_balance G l l
  have h : (2 : ℝ) • (l.map fun p => p.mass • pull G l p.position).sum = 0 := by
    rw [two_smul]
    nth_rewrite 1 [this]
    exact neg_add_cancel _
  simpa using h

theorem euler_mass (G dt : ℝ) (u : Sys ℝ) : (u.euler G dt).mass = u.mass := by
  simp [Sys.euler, Sys.mass, totalMass, Body.moved, Function.comp_def]

theorem euler_velocity (G dt : ℝ) (u : Sys ℝ) :
    (u.euler G dt).weighted Body.velocity = u.weighted Body.velocity := by
  have h := pull_balance G (u.star :: u.planets)
  simp only [List.map_cons, List.sum_cons] at h
  simp only [Sys.euler, Sys.weighted, Body.moved, List.map_map, Function.comp_def, smul_add]
  rw [sum_add_list]
  have e : (u.planets.map fun p => p.mass • dt • pull G (u.star :: u.planets) p.position).sum
      = dt • (u.planets.map fun p => p.mass • pull G (u.star :: u.planets) p.position).sum := by
    rw [← sum_smul_list]
    congr 1
    exact List.map_congr_left fun p _ => smul_comm _ _ _
  rw [e]
  have : ∀ a b c d : Axes ℝ, a + u.star.mass • dt • b + (c + dt • d) = a + c + dt • (u.star.mass • b + d) := by
    intro a b c d; module
  rw [this, h, smul_zero, add_zero]

/-! ### Heliocentric coordinates -/

theorem getElem_helio (whds : Bool) {u : Sys ℝ} {i : ℕ} {p : Body ℝ} (h : u.planets[i]? = some p) :
    (toHelio whds u).planets[i]? = some (helioOf whds u p) := by
  rw [toHelio_planets, List.getElem?_map, h]
  rfl

theorem euler_planet (G dt : ℝ) {u : Sys ℝ} {i : ℕ} {p : Body ℝ} (h : u.planets[i]? = some p) :
    (u.euler G dt).planets[i]? = some (p.moved (p.position + dt • p.velocity)
      (p.velocity + dt • pull G (u.star :: u.planets) p.position)) := by
  simp [Sys.euler, h]

theorem relative_momentum {u : Sys ℝ} (hu : Massive u) :
    (u.planets.map fun p => p.mass • (p.velocity - (centre u).velocity)).sum
      = u.star.mass • ((centre u).velocity - u.star.velocity) := by
  have hm := hu.mass_pos.ne'
  have e : (fun p : Body ℝ => p.mass • (p.velocity - (centre u).velocity))
      = fun p => p.mass • p.velocity - p.mass • (centre u).velocity := by
    funext p; rw [smul_sub]
  rw [e, sum_sub_list, sum_const_smul, centre_eq]
  dsimp only
  have e1 : (u.planets.map fun p => p.mass • p.velocity).sum
      = u.weighted Body.velocity - u.star.mass • u.star.velocity := by unfold Sys.weighted; abel
  have e3 : (u.planets.map fun p => p.mass).sum = u.mass - u.star.mass := by unfold Sys.mass totalMass; ring
  rw [e1, e3]
  generalize u.weighted Body.velocity = V
  generalize u.mass = M at *
  ext <;> simp <;> field_simp <;> ring

theorem helio_position_split (whds : Bool) (G dt : ℝ) {u : Sys ℝ} (hu : Massive u) {i : ℕ} {p : Body ℝ}
    (h : u.planets[i]? = some p) :
    ∃ x e j, (toHelio whds u).planets[i]? = some x ∧ (toHelio whds (u.euler G dt)).planets[i]? = some e
      ∧ (jumpStep (helioOfBool whds) dt u (toHelio whds u)).planets[i]? = some j
      ∧ e.position = j.position + dt • x.velocity := by
  have hp := List.mem_of_getElem? h
  have h0 := hu.1
  have h1 := hu.2 p hp
  have h0' := h0.ne'
  refine ⟨_, _, { helioOf whds u p with position := (helioOf whds u p).position
      + dt • ((centre u).velocity - u.star.velocity - if whds then (p.mass / u.star.mass) •
        (p.velocity - (centre u).velocity) else 0) },
    getElem_helio whds h, getElem_helio whds (euler_planet G dt h), ?_, ?_⟩
  · cases whds
    · simp only [helioOfBool, jumpStep, democraticJump, Bool.false_eq_true, if_false, List.getElem?_map,
        getElem_helio false h, Option.map_some]
      rw [foldl_add_list, toHelio_planets, zip_map_self, List.map_map]
      simp only [Function.comp_def]
      have : (u.planets.map fun p => p.mass • (helioOf false u p).velocity).sum
          = u.star.mass • ((centre u).velocity - u.star.velocity) := relative_momentum hu
      rw [this, sub_zero]
      congr 3
      rw [Axes.sdiv_eq_smul]
      ext <;> simp [Axes.zero] <;> field_simp
    · simp only [helioOfBool, jumpStep, whdsJump, if_true]
      rw [foldl_add_list, toHelio_planets, zip_map_self, List.map_map, List.map_map]
      simp only [Function.comp_def, List.getElem?_map, h, Option.map_some]
      have hw : ∀ q ∈ u.planets, (q.mass • (helioOf true u q).velocity).sdiv (u.star.mass + q.mass)
          = u.star.mass⁻¹ • q.mass • (q.velocity - (centre u).velocity) := by
        intro q hq
        have := hu.2 q hq
        have h2 : u.star.mass + q.mass ≠ 0 := by positivity
        simp only [helioOf, if_true, scaled_eq, Axes.sdiv_eq_smul, smul_smul]
        congr 1
        field_simp
      have hs : (u.planets.map fun x => (x.mass • (helioOf true u x).velocity).sdiv (u.star.mass + x.mass)).sum
          = (centre u).velocity - u.star.velocity := by
        rw [List.map_congr_left hw, sum_smul_list, relative_momentum hu, smul_smul, inv_mul_cancel₀ h0', one_smul]
      rw [hs, hw p hp]
      congr 3
      rw [smul_smul]
      have : (Axes.zero : Axes ℝ) = 0 := by ext <;> simp [Axes.zero]
      rw [this, zero_add, div_eq_inv_mul]
  · simp only [helioOf, Body.moved, Sys.euler, scaled_eq]
    cases whds
    · simp only [Bool.false_eq_true, if_false]
      module
    · simp only [if_true]
      have : (u.star.mass + p.mass) / u.star.mass = 1 + p.mass / u.star.mass := by field_simp
      rw [this]
      module

theorem centre_euler (G dt : ℝ) (u : Sys ℝ) : (centre (u.euler G dt)).velocity = (centre u).velocity := by
  rw [centre_eq, centre_eq]
  dsimp only
  rw [euler_velocity, euler_mass]

theorem kicked_helio (whds : Bool) (G : ℝ) (u : Sys ℝ) : kicked (helioOfBool whds) G u
    = { star := u.star.accelerated 0,
        planets := u.planets.map fun q => q.accelerated (pull G u.planets q.position) } := by
  cases whds <;> rfl

theorem helio_velocity_split (whds : Bool) (G g dt : ℝ) {u : Sys ℝ} (hu : Massive u) {i : ℕ} {p : Body ℝ}
    (h : u.planets[i]? = some p) :
    ∃ x e k, (toHelio whds u).planets[i]? = some x ∧ (toHelio whds (u.euler G dt)).planets[i]? = some e
      ∧ (interactionStep (helioOfBool whds) g dt (kicked (helioOfBool whds) G u) (toHelio whds u)).planets[i]? = some k
      ∧ e.velocity = k.velocity + dt • central G (keplerMass (helioOfBool whds) u i) x.position := by
  have hp := List.mem_of_getElem? h
  have h0 := hu.1
  have h1 := hu.2 p hp
  have h0' := h0.ne'
  have hz : (u.planets.map (helioOf whds u)).zip
      (u.planets.map fun q => q.accelerated (pull G u.planets q.position))
      = u.planets.map fun q => (helioOf whds u q, q.accelerated (pull G u.planets q.position)) := by
    rw [List.zip_map']
  refine ⟨_, _, { helioOf whds u p with velocity := (helioOf whds u p).velocity
      + (dt * if whds then (u.star.mass + p.mass) / u.star.mass else 1) • pull G u.planets p.position },
    getElem_helio whds h, getElem_helio whds (euler_planet G dt h), ?_, ?_⟩
  · rw [kicked_helio]
    cases whds
    · simp only [helioOfBool, interactionStep, democraticInteraction, Bool.false_eq_true, if_false, toHelio_planets, hz,
        List.map_map, List.getElem?_map, h, Option.map_some, Function.comp_def, mul_one]
      rfl
    · simp only [helioOfBool, interactionStep, whdsInteraction, if_true, toHelio_planets, hz,
        List.map_map, List.getElem?_map, h, Option.map_some, Function.comp_def]
      congr 3
      rw [Axes.sdiv_eq_smul, smul_smul]
      simp only [Body.accelerated]
      congr 1
      field_simp
  · have hk : keplerMass (helioOfBool whds) u i = if whds then u.star.mass + p.mass else u.star.mass := by
      cases whds
      · rfl
      · have : (u.planets.drop i).take 1 = [p] := by
          obtain ⟨hi, e⟩ := List.getElem?_eq_some_iff.1 h
          rw [List.drop_eq_getElem_cons hi, e]
          simp
        simp [helioOfBool, keplerMass, this, totalMass]
    rw [hk]
    simp only [helioOf, Body.moved, scaled_eq, centre_euler, pull_cons, newton_central]
    have es : (u.euler G dt).star.mass = u.star.mass := rfl
    rw [es]
    cases whds
    · simp only [Bool.false_eq_true, if_false]
      module
    · simp only [if_true]
      have : u.star.mass + p.mass = ((u.star.mass + p.mass) / u.star.mass) * u.star.mass := by field_simp
      conv_rhs => rw [show central G (u.star.mass + p.mass) (p.position - u.star.position)
        = ((u.star.mass + p.mass) / u.star.mass) • central G u.star.mass (p.position - u.star.position) by
          rw [← central_scale, ← this]]
      module

/-! ### Jacobi coordinates -/

theorem getElem_jacobi {u : Sys ℝ} (hu : Massive u) {before after : List (Body ℝ)} {p : Body ℝ}
    (h : u.planets = before ++ p :: after) : (toJacobi u).planets[before.length]? =
      some ⟨p.mass, p.massG,
        p.position - (⟨u.star, before⟩ : Sys ℝ).mass⁻¹ • (⟨u.star, before⟩ : Sys ℝ).weighted Body.position,
        p.velocity - (⟨u.star, before⟩ : Sys ℝ).mass⁻¹ • (⟨u.star, before⟩ : Sys ℝ).weighted Body.velocity⟩ := by
  have hb : ∀ q ∈ before, 0 < q.mass := fun q hq => hu.2 q (by simp [h, hq])
  have hM : Massive (⟨u.star, before⟩ : Sys ℝ) := ⟨hu.1, hb⟩
  obtain ⟨h1, h2, h3⟩ := jacobiLoop_sums before u.star.mass (u.star.mass • u.star.position)
    (u.star.mass • u.star.velocity) hu.1 hb
  have hl : (jacobiLoop u.star.mass (u.star.mass • u.star.position) (u.star.mass • u.star.velocity) before).1.length
      = before.length := (jacobiLoop_sameMasses before _ _ _).length_eq
  have e : (toJacobi u).planets = (jacobiLoop u.star.mass (u.star.mass • u.star.position)
      (u.star.mass • u.star.velocity) u.planets).1 := rfl
  rw [e, h, jacobiLoop_append, List.getElem?_append_right hl.le, hl, Nat.sub_self, h1, h2, h3]
  have hm' : u.star.mass + totalMass before ≠ 0 := hM.mass_pos.ne'
  rw [jacobiLoop_cons hm', List.getElem?_cons_zero]
  rfl

theorem getElem_jacobiAccelerations {u : Sys ℝ} (hu : Massive u) {before after : List (Body ℝ)} {p : Body ℝ}
    (h : u.planets = before ++ p :: after) : (jacobiAccelerations u)[before.length]? =
      some (p.acceleration - (⟨u.star, before⟩ : Sys ℝ).mass⁻¹
        • (⟨u.star, before⟩ : Sys ℝ).weighted Body.acceleration) := by
  have hj := (jacobiAccelerationLoop_eq u.planets u.star.mass (u.star.mass • u.star.position)
    (u.star.mass • u.star.velocity) (u.star.mass • u.star.acceleration)).1
  have h' : (accelerating u).planets = before.map (fun p => p.moved p.position p.acceleration)
      ++ p.moved p.position p.acceleration :: after.map (fun p => p.moved p.position p.acceleration) := by
    simp [accelerating, h]
  have g := getElem_jacobi (accelerating_massive hu) h'
  rw [List.length_map] at g
  have e : jacobiAccelerations u = (toJacobi (accelerating u)).planets.map Alt.velocity := hj
  have em := accelerating_mass ⟨u.star, before⟩
  have ev := accelerating_velocity ⟨u.star, before⟩
  rw [e, List.getElem?_map, g, Option.map_some, ← em, ← ev]
  rfl

theorem jacobiKick_getElem (g dt : ℝ) (l : List (Alt ℝ × Axes ℝ)) (first : Bool) (eta : ℝ) (i : ℕ) {a : Alt ℝ}
    {acc : Axes ℝ} (h : l[i]? = some (a, acc)) :
    (jacobiKick g dt first eta l)[i]? = some { a with velocity := a.velocity + dt • acc
                                                        - if first && i == 0 then 0 else dt • softened 1e-12 g (eta
                                                          + ((l.take (i + 1)).map fun x => x.1.mass).sum) a.position } := by
  induction l generalizing first eta i with
  | nil => simp at h
  | cons x l ih =>
    obtain ⟨b, bc⟩ := x
    cases i with
    | zero =>
      simp only [List.getElem?_cons_zero, Option.some.injEq, Prod.mk.injEq] at h
      obtain ⟨rfl, rfl⟩ := h
      simp only [jacobiKick, List.getElem?_cons_zero, Option.some.injEq]
      congr 1
      cases first
      · simp only [Bool.false_eq_true, if_false, Bool.false_and, softened]
        have e : (lit 1e-12 : ℝ) = 1e-12 := by simp
        have l1 : (lit 1 : ℝ) = 1 := by simp
        have en : b.position.norm2 = b.position.dot b.position := by simp [Axes.norm2]
        rw [e, l1, en]
        simp only [sqrt_real, zero_add, List.take_succ_cons, List.take_zero, List.map_cons, List.map_nil, List.sum_cons,
          List.sum_nil, add_zero]
        have hd : (0:ℝ) < b.position.dot b.position + 1e-12 := by
          have := b.position.dot_self_nonneg
          positivity
        generalize b.position.dot b.position + 1e-12 = d at *
        have hs : Real.sqrt d ≠ 0 := (Real.sqrt_pos.2 hd).ne'
        have e1 : Real.sqrt (1 / d) * (1 / d) = 1 / Real.sqrt d ^ 3 := by
          have h2 := Real.sq_sqrt hd.le
          rw [Real.sqrt_div (by norm_num), Real.sqrt_one, div_mul_div_comm, one_mul, pow_succ' , h2]
        rw [e1]
        module
      · simp
    | succ i =>
      simp only [List.getElem?_cons_succ] at h
      have := ih false (eta + b.mass) i h
      simp only [jacobiKick, List.getElem?_cons_succ]
      rw [this]
      simp only [Bool.false_and, Bool.false_eq_true, if_false, List.take_succ_cons, List.map_cons, List.sum_cons]
      have e : (first && (i + 1 == 0)) = false := by simp
      rw [e, if_neg (by simp), add_assoc]

theorem kicked_planets (G : ℝ) (u : Sys ℝ) {i : ℕ} {p : Body ℝ} (h : u.planets[i]? = some p) :
    (kicked .jacobi G u).planets[i]? = some (p.accelerated
      (if i = 0 then pull G u.planets p.position else pull G (u.star :: u.planets) p.position)) := by
  cases hu : u.planets with
  | nil => simp [hu] at h
  | cons q l =>
    rw [hu] at h
    have : (kicked .jacobi G u).planets = q.accelerated (pull G (q :: l) q.position)
        :: l.map fun r => r.accelerated (pull G (u.star :: q :: l) r.position) := by
      unfold kicked; rw [hu]
    rw [this]
    cases i with
    | zero =>
      simp only [List.getElem?_cons_zero, Option.some.injEq] at h
      subst h
      simp
    | succ i =>
      simp only [List.getElem?_cons_succ] at h ⊢
      rw [List.getElem?_map, h]
      simp

/-- The star and the first planets attract each other with opposite forces, so that leaving them out does not
change sums that contain both. -/
theorem kicked_before (G : ℝ) (u : Sys ℝ) {before after : List (Body ℝ)} (h : u.planets = before ++ after)
    (hb : before ≠ []) : ∃ b, (kicked .jacobi G u).planets = b ++ (kicked .jacobi G u).planets.drop before.length
      ∧ b.length = before.length
      ∧ (⟨(kicked .jacobi G u).star, b⟩ : Sys ℝ).weighted Body.acceleration
        = u.star.mass • pull G (u.star :: u.planets) u.star.position
          + (before.map fun q => q.mass • pull G (u.star :: u.planets) q.position).sum := by
  cases before with
  | nil => exact absurd rfl hb
  | cons q l =>
    rw [List.cons_append] at h
    have e : kicked .jacobi G u = ⟨u.star.accelerated (pull G (l ++ after) u.star.position),
        q.accelerated (pull G (q :: (l ++ after)) q.position)
        :: (l ++ after).map fun r => r.accelerated (pull G (u.star :: q :: (l ++ after)) r.position)⟩ := by
      unfold kicked; rw [h]
    rw [e]
    refine ⟨q.accelerated (pull G (q :: (l ++ after)) q.position)
        :: l.map fun r => r.accelerated (pull G (u.star :: q :: (l ++ after)) r.position), ?_, by simp, ?_⟩
    · have hl : l.length = (l.map fun r => r.accelerated (pull G (u.star :: q :: (l ++ after)) r.position)).length := by simp
      rw [List.length_cons, List.drop_succ_cons, List.map_append, List.cons_append]
      rw [List.drop_left' hl.symm]
    · simp only [Sys.weighted, List.map_cons, List.sum_cons, List.map_map, Function.comp_def, Body.accelerated]
      rw [h]
      simp only [pull_cons, newton_self]
      have := newton_comm G q.mass u.star.mass u.star.position q.position
      rw [smul_add, smul_add, smul_add, smul_add, smul_add, this]
      simp only [smul_zero]
      abel

theorem jacobi_split (G dt : ℝ) {u : Sys ℝ} (hu : Massive u) {before after : List (Body ℝ)} {p : Body ℝ}
    (h : u.planets = before ++ p :: after) :
    ∃ x e k, (toJacobi u).planets[before.length]? = some x
      ∧ (toJacobi (u.euler G dt)).planets[before.length]? = some e
      ∧ (jacobiInteraction G dt (kicked .jacobi G u) (toJacobi u)).planets[before.length]? = some k
      ∧ e.position = x.position + dt • x.velocity
      ∧ e.velocity = k.velocity + dt • if before.length = 0
          then central G (keplerMass .jacobi u before.length) x.position
          else softened 1e-12 G (keplerMass .jacobi u before.length) x.position := by
  have hb : ∀ q ∈ before, 0 < q.mass := fun q hq => hu.2 q (by simp [h, hq])
  have hM : Massive (⟨u.star, before⟩ : Sys ℝ) := ⟨hu.1, hb⟩
  have hm := hM.mass_pos.ne'
  have hi : u.planets[before.length]? = some p := by
    rw [h, List.getElem?_append_right le_rfl, Nat.sub_self]; rfl
  have hx := getElem_jacobi hu h
  -- the bodies after a first order step
  have heu : Massive (u.euler G dt) := by
    refine ⟨hu.1, ?_⟩
    intro q hq
    simp only [Sys.euler, List.mem_map] at hq
    obtain ⟨r, hr, rfl⟩ := hq
    exact hu.2 r hr
  have hes : (u.euler G dt).planets
      = before.map (fun q => q.moved (q.position + dt • q.velocity) (q.velocity + dt • pull G (u.star :: u.planets) q.position))
        ++ p.moved (p.position + dt • p.velocity) (p.velocity + dt • pull G (u.star :: u.planets) p.position)
        :: after.map (fun q => q.moved (q.position + dt • q.velocity)
          (q.velocity + dt • pull G (u.star :: u.planets) q.position)) := by
    simp only [Sys.euler]
    rw [h, List.map_append, List.map_cons]
  have he := getElem_jacobi heu hes
  rw [List.length_map] at he
  -- masses and sums of the bodies before
  have e1 : (⟨(u.euler G dt).star, before.map (fun q => q.moved (q.position + dt • q.velocity)
      (q.velocity + dt • pull G (u.star :: u.planets) q.position))⟩ : Sys ℝ).mass = (⟨u.star, before⟩ : Sys ℝ).mass := by
    simp [Sys.euler, Sys.mass, totalMass, Body.moved, Function.comp_def]
  have e2 : (⟨(u.euler G dt).star, before.map (fun q => q.moved (q.position + dt • q.velocity)
      (q.velocity + dt • pull G (u.star :: u.planets) q.position))⟩ : Sys ℝ).weighted Body.position
      = (⟨u.star, before⟩ : Sys ℝ).weighted Body.position
        + dt • (⟨u.star, before⟩ : Sys ℝ).weighted Body.velocity := by
    simp only [Sys.euler, Sys.weighted, List.map_map, Function.comp_def, Body.moved, smul_add]
    rw [sum_add_list, show (before.map fun q => q.mass • dt • q.velocity) = before.map fun q => dt • q.mass • q.velocity
      from List.map_congr_left fun q _ => smul_comm _ _ _, sum_smul_list]
    module
  have e3 : (⟨(u.euler G dt).star, before.map (fun q => q.moved (q.position + dt • q.velocity)
      (q.velocity + dt • pull G (u.star :: u.planets) q.position))⟩ : Sys ℝ).weighted Body.velocity
      = (⟨u.star, before⟩ : Sys ℝ).weighted Body.velocity
        + dt • (u.star.mass • pull G (u.star :: u.planets) u.star.position
          + (before.map fun q => q.mass • pull G (u.star :: u.planets) q.position).sum) := by
    simp only [Sys.euler, Sys.weighted, List.map_map, Function.comp_def, Body.moved, smul_add]
    rw [sum_add_list, show (before.map fun q => q.mass • dt • pull G (u.star :: u.planets) q.position)
      = before.map fun q => dt • q.mass • pull G (u.star :: u.planets) q.position
      from List.map_congr_left fun q _ => smul_comm _ _ _, sum_smul_list]
    module
  rw [e1, e2, e3] at he
  -- the kick
  have hkm : Massive (kicked .jacobi G u) := by
    refine ⟨?_, ?_⟩
    · have : (kicked .jacobi G u).star.mass = u.star.mass := by
        unfold kicked; cases u.planets <;> rfl
      rw [this]; exact hu.1
    · intro q hq
      obtain ⟨i, hi⟩ := List.mem_iff_getElem?.1 hq
      have hlen : (kicked .jacobi G u).planets.length = u.planets.length := by
        unfold kicked; cases u.planets <;> simp
      have hi' : i < u.planets.length := by
        rw [← hlen]; exact (List.getElem?_eq_some_iff.1 hi).1
      have := kicked_planets G u (List.getElem?_eq_getElem hi')
      rw [hi] at this
      simp only [Option.some.injEq] at this
      rw [this]
      have := hu.2 _ (List.getElem_mem hi')
      exact this
  have hsm : (kicked .jacobi G u).star.mass = u.star.mass := by
    unfold kicked; cases u.planets <;> rfl
  have hkp := kicked_planets G u hi
  have key : ∃ acc, (jacobiAccelerations (kicked .jacobi G u))[before.length]? = some acc
      ∧ acc + (if before.length = 0 then central G (keplerMass .jacobi u before.length)
          (p.position - (⟨u.star, before⟩ : Sys ℝ).mass⁻¹ • (⟨u.star, before⟩ : Sys ℝ).weighted Body.position) else 0)
        = pull G (u.star :: u.planets) p.position - (⟨u.star, before⟩ : Sys ℝ).mass⁻¹ •
          (u.star.mass • pull G (u.star :: u.planets) u.star.position
          + (before.map fun q => q.mass • pull G (u.star :: u.planets) q.position).sum) := by
    obtain ⟨hlt, hget⟩ := List.getElem?_eq_some_iff.1 hkp
    by_cases hb0 : before = []
    · subst hb0
      simp only [List.length_nil, List.nil_append] at h hkp hget hlt ⊢
      have hs : (kicked .jacobi G u).planets = [] ++ (kicked .jacobi G u).planets[0] :: (kicked .jacobi G u).planets.drop 1 := by
        rw [List.nil_append, ← List.drop_eq_getElem_cons hlt, List.drop_zero]
      have hacc := getElem_jacobiAccelerations hkm hs
      simp only [List.length_nil] at hacc
      refine ⟨_, hacc, ?_⟩
      rw [hget]
      have h0 := hu.1.ne'
      have hsa : (kicked .jacobi G u).star.acceleration = pull G after u.star.position := by
        unfold kicked; rw [h]; rfl
      simp only [if_true, Body.accelerated, Sys.mass, totalMass, Sys.weighted, List.map_nil, List.sum_nil, add_zero, hsm, hsa,
        smul_smul, inv_mul_cancel₀ h0, one_smul, keplerMass, h, List.take_succ_cons, List.take_zero, List.map_cons,
        List.sum_cons, pull_cons, newton_self, zero_add]
      rw [central_add, newton_neg G p.mass p.position u.star.position, newton_central, newton_central]
      abel
    · obtain ⟨b, hb1, hb2, hb3⟩ := kicked_before G u h hb0
      have hlen : before.length ≠ 0 := by simpa using hb0
      have hs : (kicked .jacobi G u).planets = b ++ (kicked .jacobi G u).planets[before.length]
          :: (kicked .jacobi G u).planets.drop (before.length + 1) := by
        rw [← List.drop_eq_getElem_cons hlt, ← hb1]
      have hacc := getElem_jacobiAccelerations hkm hs
      rw [hb2] at hacc
      refine ⟨_, hacc, ?_⟩
      have hmass : (⟨(kicked .jacobi G u).star, b⟩ : Sys ℝ).mass = (⟨u.star, before⟩ : Sys ℝ).mass := by
        unfold Sys.mass
        dsimp only
        rw [hsm]
        congr 1
        have : ∀ l m : List (Body ℝ), l.length = m.length → (∀ (i : ℕ) (q : Body ℝ), m[i]? = some q →
            ∃ r : Body ℝ, l[i]? = some r ∧ r.mass = q.mass) →
            totalMass l = totalMass m := by
          intro l m hl hlm
          unfold totalMass
          congr 1
          apply List.ext_getElem?
          intro i
          rw [List.getElem?_map, List.getElem?_map]
          cases hq : m[i]? with
          | none =>
            have : l[i]? = none := by
              rw [List.getElem?_eq_none_iff] at hq ⊢; omega
            rw [this]
          | some q =>
            obtain ⟨r, hr, hr2⟩ := hlm i q hq
            rw [hr]; simp [hr2]
        refine this _ _ hb2 fun i q hq => ?_
        have hlt' := (List.getElem?_eq_some_iff.1 hq).1
        have hq' : u.planets[i]? = some q := by rw [h, List.getElem?_append_left hlt', hq]
        have := kicked_planets G u hq'
        rw [hb1, List.getElem?_append_left (by omega)] at this
        exact ⟨_, this, rfl⟩
      rw [hget, hmass, hb3]
      simp only [hlen, if_false, Body.accelerated, add_zero]
  obtain ⟨acc, hacc, hsum⟩ := key
  obtain ⟨x, hxx⟩ : ∃ x, x = (⟨p.mass, p.massG,
      p.position - (⟨u.star, before⟩ : Sys ℝ).mass⁻¹ • (⟨u.star, before⟩ : Sys ℝ).weighted Body.position,
      p.velocity - (⟨u.star, before⟩ : Sys ℝ).mass⁻¹ • (⟨u.star, before⟩ : Sys ℝ).weighted Body.velocity⟩ : Alt ℝ) :=
    ⟨_, rfl⟩
  rw [← hxx] at hx
  have hz : ((toJacobi u).planets.zip (jacobiAccelerations (kicked .jacobi G u)))[before.length]? = some (x, acc) := by
    rw [List.getElem?_zip_eq_some]
    exact ⟨hx, hacc⟩
  have hk := jacobiKick_getElem G dt _ true (kicked .jacobi G u).star.mass _ hz
  have hlen2 : (toJacobi u).planets.length = u.planets.length := (jacobiLoop_sameMasses u.planets _ _ _).length_eq
  have hlen3 : (jacobiAccelerations (kicked .jacobi G u)).length = u.planets.length := by
    rw [jacobiAccelerations, jacobiAccelerationLoop_length]
    unfold kicked; cases u.planets <;> simp
  have hmass : (kicked .jacobi G u).star.mass + ((((toJacobi u).planets.zip (jacobiAccelerations
      (kicked .jacobi G u))).take (before.length + 1)).map fun x => x.1.mass).sum
      = keplerMass .jacobi u before.length := by
    rw [hsm, keplerMass]
    congr 1
    have hf : ((toJacobi u).planets.zip (jacobiAccelerations (kicked .jacobi G u))).map Prod.fst = (toJacobi u).planets :=
      List.map_fst_zip (by omega)
    have hms : (toJacobi u).planets.map Alt.mass = u.planets.map Body.mass := by
      have : ∀ {a : List (Alt ℝ)} {q : List (Body ℝ)}, SameMasses a q → a.map Alt.mass = q.map Body.mass := by
        intro a q hh
        induction hh with
        | nil => rfl
        | @cons x y l m h1 _ ih => simp [ih, h1.1]
      exact this (jacobiLoop_sameMasses u.planets _ _ _)
    unfold totalMass
    rw [List.map_take, List.map_take, ← hms]
    conv_rhs => rw [← hf, List.map_map]
    rfl
  rw [hmass] at hk
  refine ⟨_, _, _, hx, he, hk, ?_, ?_⟩
  · simp only [Body.moved, hxx]
    module
  · simp only [Body.moved, hxx]
    have hs2 : pull G (u.star :: u.planets) p.position = acc
        + (if before.length = 0 then central G (keplerMass .jacobi u before.length)
          (p.position - (⟨u.star, before⟩ : Sys ℝ).mass⁻¹ • (⟨u.star, before⟩ : Sys ℝ).weighted Body.position) else 0)
        + (⟨u.star, before⟩ : Sys ℝ).mass⁻¹ • (u.star.mass • pull G (u.star :: u.planets) u.star.position
          + (before.map fun q => q.mass • pull G (u.star :: u.planets) q.position).sum) := by
      rw [hsum]; abel
    rw [hs2]
    by_cases hl0 : before.length = 0
    · simp only [hl0, if_true, Bool.true_and, beq_self_eq_true]
      module
    · have hf : (before.length == 0) = false := by simpa using hl0
      simp only [hl0, if_false, Bool.true_and, hf, Bool.false_eq_true]
      module

end Posidonius.WHFast
