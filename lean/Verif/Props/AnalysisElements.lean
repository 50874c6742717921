import Verif.Model.Analysis
import Verif.Props.FrontEndTools

/-! # C129: the elements of the analysis -/

namespace Posidonius.Analysis
open Kepler (ellipsePosition ellipseVelocity len)
open Tools (SameAngle meanOf totalMass)
open Tools.Py (Body Elements keplerianElements)

theorem sub_real (a b : Axes ℝ) : a.sub b = a - b := rfl

/-- **C129** for one planet: the elements are those of its orbit around the star. -/
theorem C129_partial (G : ℝ) (star planet : Body ℝ) (a e i g n bigE : ℝ) (hG : 0 < G) (hM : 0 < star.mass)
    (hm : 0 ≤ planet.mass) (ha : 0 < a) (he0 : 3 / 100000000 ≤ e) (he1 : e < 1)
    (hi0 : 0 < i) (hi1 : i < Real.pi) (hn0 : 1 / 100000000 ≤ n) (hn1 : n < 2 * Real.pi)
    (hr : planet.position - star.position = ellipsePosition a e i g n bigE)
    (hv : planet.velocity - star.velocity = ellipseVelocity (G * (star.mass + planet.mass)) a e i g n bigE) :
    ∃ el b, classify G [star, planet] 0 = some [(some el, b)] ∧ b.position = planet.position - star.position ∧
      b.velocity = planet.velocity - star.velocity ∧ el.semiMajorAxis = a ∧ el.eccentricity = e ∧ el.inclination = i := by
  have z : (⟨(0 : ℝ), 0, 0⟩ : Axes ℝ) = 0 := by ext <;> simp
  set s : Body ℝ := ⟨star.mass, ⟨(lit 0 : ℝ), lit 0, lit 0⟩, ⟨(lit 0 : ℝ), lit 0, lit 0⟩⟩ with hs
  have m1 : meanOf (·.position) [s] = 0 := by simp [meanOf, totalMass, hs, z]
  have m2 : meanOf (·.velocity) [s] = 0 := by simp [meanOf, totalMass, hs, z]
  have m3 : totalMass [s] = star.mass := by simp [totalMass, hs]
  have m4 : len (0 : Axes ℝ) = 0 := by simp [len, Axes.dot]
  obtain ⟨el, h1, h2, -, h3, h4, -⟩ := Tools.C125_violated_bodies G planet.mass a e i g n bigE [s] (by simp) hG hm
    (by simpa [hs] using hM) ha he0 he1 hi0 hi1 hn0 hn1 (planet.position - star.position) (planet.velocity - star.velocity)
    (by rw [m1, sub_zero, hr]) (by rw [m2, sub_zero, hv, m3])
  rw [m1, m4, add_zero] at h2
  exact ⟨el, relativeTo star planet, by simp only [classify, classifyLoop]; rw [← h1]; rfl, rfl, rfl, h2, h3, h4⟩

theorem classifyLoop_bodies (G : ℝ) (star : Body ℝ) : ∀ done todo : List (Body ℝ),
    (classifyLoop G star done todo).map (·.2) = todo.map (relativeTo star)
  | _, [] => rfl
  | done, b :: rest => by
    simp only [classifyLoop, List.map_cons, classifyLoop_bodies G star _ rest]

/-- **C129**: the coordinates are those relative to the reference, of the bodies 1, 2, ... -/
theorem C129_coordinates (G : ℝ) (bodies : List (Body ℝ)) (reference : Nat) (star : Body ℝ)
    (hs : bodies[reference]? = some star) : ∃ l, classify G bodies reference = some l ∧
      l.map (fun x => (x.2.mass, x.2.position, x.2.velocity))
        = (bodies.drop 1).map fun b => (b.mass, b.position - star.position, b.velocity - star.velocity) := by
  refine ⟨classifyLoop G star [] (bodies.drop 1), by simp only [classify, hs], ?_⟩
  have h := congrArg (List.map fun x : Body ℝ => (x.mass, x.position, x.velocity)) (classifyLoop_bodies G star [] (bodies.drop 1))
  simp only [List.map_map] at h
  exact h

/-- **C129** fails for a reference other than the first body: the reference is listed as a body at distance zero of itself, and
the number of bodies listed leaves no room for all the others. -/
theorem C129_violated_reference (G : ℝ) (bodies : List (Body ℝ)) (reference : Nat) (star : Body ℝ) (h0 : 0 < reference)
    (hs : bodies[reference]? = some star) : ∃ l x, classify G bodies reference = some l ∧
      l[reference - 1]? = some x ∧ x.2.mass = star.mass ∧ x.2.position = 0 ∧ x.2.velocity = 0 ∧
      l.length + 1 = bodies.length := by
  obtain ⟨l, h1, h2⟩ := C129_coordinates G bodies reference star hs
  have hlt : reference < bodies.length := (List.getElem?_eq_some_iff.1 hs).1
  have hl : l.length = bodies.length - 1 := by
    have := congrArg List.length h2
    simpa using this
  have hx : reference - 1 < l.length := by omega
  refine ⟨l, l[reference - 1], h1, List.getElem?_eq_getElem hx, ?_⟩
  have h3 := congrArg (fun l => l[reference - 1]?) h2
  rw [List.getElem?_map, List.getElem?_map, List.getElem?_eq_getElem hx, List.getElem?_drop,
    show 1 + (reference - 1) = reference by omega, hs] at h3
  simp only [Option.map_some, Option.some.injEq, Prod.mk.injEq, sub_self] at h3
  exact ⟨h3.1, h3.2.1, h3.2.2, by omega⟩

/-- The bodies around which the planet between `before` and `after` is thought to move: the star, put into the origin, the planets
before it, relative to the star, and the planets after it, as the history has them. -/
noncomputable def companions (star : Body ℝ) (before after : List (Body ℝ)) : List (Body ℝ) :=
  ⟨star.mass, 0, 0⟩ :: (before.map fun b => ⟨b.mass, b.position - star.position, b.velocity - star.velocity⟩) ++ after

theorem classifyLoop_get (G : ℝ) (star p : Body ℝ) (after : List (Body ℝ)) : ∀ before done : List (Body ℝ),
    (classifyLoop G star done (before ++ p :: after))[before.length]? =
      some (keplerianElements G p.mass (p.position - star.position) (p.velocity - star.velocity)
        (⟨star.mass, 0, 0⟩ :: (done ++ before.map (relativeTo star) ++ after)), relativeTo star p)
  | [], done => by
    have z : (⟨(lit 0 : ℝ), lit 0, lit 0⟩ : Axes ℝ) = 0 := by ext <;> simp
    simp only [classifyLoop, z, List.nil_append, List.length_nil, List.getElem?_cons_zero, List.map_nil, List.append_nil]
    rfl
  | b :: before, done => by
    simp only [List.cons_append, classifyLoop, List.length_cons, List.getElem?_cons_succ]
    rw [classifyLoop_get G star p after before]
    simp [List.append_assoc]

/-- **C129**, what is computed instead: the elements of the ellipse around the centre of mass of the star in the origin, of the
planets before relative to the star and of the planets after in the coordinates of the history.  To the semi-major axis the
distance of this point from the origin is added. -/
theorem C129_exactly (G : ℝ) (star p : Body ℝ) (before after : List (Body ℝ)) (a e i g n bigE : ℝ) (hG : 0 < G)
    (hM : 0 < star.mass) (hb : ∀ b ∈ before, 0 < b.mass) (hc : ∀ b ∈ after, 0 < b.mass)
    (hm : 0 ≤ p.mass) (ha : 0 < a) (he0 : 3 / 100000000 ≤ e) (he1 : e < 1)
    (hi0 : 0 < i) (hi1 : i < Real.pi) (hn0 : 1 / 100000000 ≤ n) (hn1 : n < 2 * Real.pi)
    (hr : p.position - star.position - meanOf (·.position) (companions star before after) = ellipsePosition a e i g n bigE)
    (hv : p.velocity - star.velocity - meanOf (·.velocity) (companions star before after) =
      ellipseVelocity (G * (totalMass (companions star before after) + p.mass)) a e i g n bigE) :
    ∃ l el b, classify G (star :: before ++ p :: after) 0 = some l ∧ l[before.length]? = some (some el, b) ∧
      el.semiMajorAxis = a + len (meanOf (·.position) (companions star before after)) ∧ el.eccentricity = e ∧
      el.inclination = i ∧ el.longitudeOfAscendingNode = n ∧ SameAngle el.longitudeOfPerihelion (g + n) ∧
      SameAngle el.meanAnomaly (bigE - e * Real.sin bigE) := by
  obtain ⟨el, h1, h2, -, h3⟩ := Tools.C125_violated_bodies G p.mass a e i g n bigE (companions star before after)
    (by simp [companions]) hG hm (by
      intro b h
      simp only [companions, List.cons_append, List.mem_cons, List.mem_append, List.mem_map] at h
      rcases h with h | ⟨c, h, h'⟩ | h
      · rw [h]; exact hM
      · rw [← h']; exact hb c h
      · exact hc b h) ha he0 he1 hi0 hi1 hn0 hn1 _ _ hr hv
  refine ⟨classifyLoop G star [] (before ++ p :: after), el, relativeTo star p, rfl, ?_, h2, h3⟩
  rw [classifyLoop_get, ← h1]
  rfl

theorem apsis_position {a e a' e' x : ℝ} (i g n : ℝ) (h : a' * (1 - e') = x * (a * (1 - e))) :
    ellipsePosition a' e' i g n 0 = x • ellipsePosition a e i g n 0 := by
  simp only [ellipsePosition, Real.cos_zero, Real.sin_zero, mul_zero, zero_smul, add_zero, smul_smul, h]

theorem apsis_speed {gm a e : ℝ} (i g n : ℝ) (hgm : 0 < gm) (ha : 0 < a) (he0 : 0 ≤ e) (he1 : e < 1) :
    ellipseVelocity gm a e i g n 0 = Real.sqrt (gm * (1 + e) / (a * (1 - e))) • Kepler.transverseDirection i g n := by
  have h1 : 0 < 1 - e := by linarith
  simp only [ellipseVelocity, Real.cos_zero, Real.sin_zero, mul_one, neg_zero, zero_smul, zero_add, smul_smul]
  congr 1
  rw [div_mul_eq_mul_div, div_eq_iff h1.ne', ← Real.sqrt_mul (by positivity)]
  nth_rewrite 2 [← Real.sqrt_sq h1.le]
  rw [← Real.sqrt_mul (by apply div_nonneg <;> nlinarith)]
  congr 1
  field_simp
  ring

/-- **C129 is violated** as soon as there is a second planet.  A planet is in the perihelion of an ellipse around the star; the
next one is at `l` times the relative position of the former, and at rest, in the coordinates of the history.  The eccentricity
reported for the former is not that of the ellipse, and it changes with `l`: with the origin of the coordinates, as the vector
`c` from the next planet to the star remains what it is. -/
theorem C129_violated (G mStar m mNext a e i g n l : ℝ) (c w : Axes ℝ) (hG : 0 < G) (hM : 0 < mStar)
    (hm : 0 ≤ m) (hm' : 0 < mNext) (ha : 0 < a) (he0 : 0 ≤ e) (he1 : e < 1)
    (hi0 : 0 < i) (hi1 : i < Real.pi) (hn0 : 1 / 100000000 ≤ n) (hn1 : n < 2 * Real.pi)
    (hl : mNext * l < mStar + mNext) (e' : ℝ)
    (he' : e' = (1 + e) * (1 - mNext * l / (mStar + mNext)) * ((mStar + m) / (mStar + mNext + m)) - 1)
    (he0' : 3 / 100000000 ≤ e') (he1' : e' < 1) (star planet next : Body ℝ)
    (hs : star = ⟨mStar, l • ellipsePosition a e i g n 0 + c, w⟩)
    (hp : planet = ⟨m, star.position + ellipsePosition a e i g n 0,
      star.velocity + ellipseVelocity (G * (mStar + m)) a e i g n 0⟩)
    (hnext : next = ⟨mNext, l • ellipsePosition a e i g n 0, 0⟩) :
    ∃ el b rest, classify G [star, planet, next] 0 = some ((some el, b) :: rest) ∧ el.eccentricity = e' ∧
      (0 ≤ l → el.eccentricity < e) := by
  have hMn : 0 < mStar + mNext := by linarith
  have hMm : 0 < mStar + m := by linarith
  have hall : 0 < mStar + mNext + m := by linarith
  have h1e : 0 < 1 - e := by linarith
  have h1e' : 0 < 1 - e' := by linarith
  have hk : 0 < 1 - mNext * l / (mStar + mNext) := by rw [sub_pos, div_lt_one hMn]; exact hl
  set k := mNext * l / (mStar + mNext) with hkdef
  set a' := (1 - k) * (a * (1 - e)) / (1 - e') with ha'
  have hq : a' * (1 - e') = (1 - k) * (a * (1 - e)) := by rw [ha']; field_simp
  have hapos : 0 < a' := by rw [ha']; positivity
  have m1 : totalMass (companions star [] [next]) = mStar + mNext := by simp [companions, totalMass, hs, hnext]
  have m2 : meanOf (·.position) (companions star [] [next]) = k • ellipsePosition a e i g n 0 := by
    rw [meanOf, m1]
    simp only [companions, hnext, List.map_nil, List.nil_append, List.cons_append, List.map_cons, smul_zero, List.sum_cons,
      List.sum_nil, add_zero, zero_add, smul_smul]
    congr 1
    rw [hkdef]; field_simp
  have m3 : meanOf (·.velocity) (companions star [] [next]) = 0 := by
    simp [meanOf, companions, hnext]
  have hr : planet.position - star.position - meanOf (·.position) (companions star [] [next]) =
      ellipsePosition a' e' i g n 0 := by
    rw [m2, apsis_position i g n hq, hp, sub_smul, one_smul]; simp
  have hv : planet.velocity - star.velocity - meanOf (·.velocity) (companions star [] [next]) =
      ellipseVelocity (G * (totalMass (companions star [] [next]) + planet.mass)) a' e' i g n 0 := by
    have hpm : planet.mass = m := by rw [hp]
    rw [m1, m3, sub_zero, hpm, apsis_speed i g n (mul_pos hG hall) hapos (by linarith) he1', hp]
    simp only [add_sub_cancel_left]
    rw [apsis_speed i g n (mul_pos hG hMm) ha he0 he1]
    congr 2
    rw [hq, he']
    field_simp
    ring
  have hsm : star.mass = mStar := by rw [hs]
  obtain ⟨L, el, b, h1, h2, -, h3, -⟩ := C129_exactly G star planet [] [next] a' e' i g n 0 hG (by rw [hsm]; exact hM) (by simp)
    (by simpa [hnext] using hm') (by rw [hp]; exact hm) hapos he0' he1' hi0 hi1 hn0 hn1 hr hv
  obtain ⟨x, rest, rfl⟩ : ∃ x rest, L = x :: rest := by
    cases L with
    | nil => simp at h2
    | cons x rest => exact ⟨x, rest, rfl⟩
  simp only [List.length_nil, List.getElem?_cons_zero, Option.some.injEq] at h2
  refine ⟨el, b, rest, by rw [← h2]; exact h1, h3, fun hl0 => ?_⟩
  rw [h3, he']
  have hk1 : 1 - k ≤ 1 := by
    have : 0 ≤ k := by rw [hkdef]; positivity
    linarith
  have hq1 : (mStar + m) / (mStar + mNext + m) < 1 := by rw [div_lt_one hall]; linarith
  have hq0 : 0 < (mStar + m) / (mStar + mNext + m) := by positivity
  have : (1 + e) * (1 - k) * ((mStar + m) / (mStar + mNext + m)) < (1 + e) * 1 := by
    calc _ ≤ (1 + e) * 1 * ((mStar + m) / (mStar + mNext + m)) := by gcongr
      _ < (1 + e) * 1 * 1 := by gcongr
      _ = _ := by ring
  linarith

/-! ## Examples -/

/-- One planet, with eccentricity 1/2. -/
example : ∃ el b, classify 1 [⟨1, ⟨1, 2, 3⟩, ⟨4, 5, 6⟩⟩, ⟨(1 / 2 : ℝ), ⟨1, 2, 3⟩ + ellipsePosition 1 (1 / 2) 1 1 2 4,
      ⟨4, 5, 6⟩ + ellipseVelocity (1 * (1 + 1 / 2)) 1 (1 / 2) 1 1 2 4⟩] 0 = some [(some el, b)] ∧ el.eccentricity = 1 / 2 := by
  have hpi := Real.pi_gt_d2
  obtain ⟨el, b, h1, -, -, -, h2, -⟩ := C129_partial 1 ⟨1, ⟨1, 2, 3⟩, ⟨4, 5, 6⟩⟩ ⟨(1 / 2 : ℝ),
      ⟨1, 2, 3⟩ + ellipsePosition 1 (1 / 2) 1 1 2 4, ⟨4, 5, 6⟩ + ellipseVelocity (1 * (1 + 1 / 2)) 1 (1 / 2) 1 1 2 4⟩
      1 (1 / 2) 1 1 2 4 (by norm_num) (by norm_num) (by norm_num) (by norm_num) (by norm_num) (by norm_num) (by norm_num)
      (by linarith) (by norm_num) (by linarith) (by simp) (by simp)
  exact ⟨el, b, h1, h2⟩

/-- The next planet has a tenth of the mass of the star: eccentricity 1/2 becomes 4/11. -/
example : ∃ el b rest, classify 1 [⟨1, (0 : ℝ) • ellipsePosition 1 (1 / 2) 1 1 2 0 + ⟨5, 0, 0⟩, 0⟩,
      ⟨0, (0 : ℝ) • ellipsePosition 1 (1 / 2) 1 1 2 0 + ⟨5, 0, 0⟩ + ellipsePosition 1 (1 / 2) 1 1 2 0,
        0 + ellipseVelocity (1 * (1 + 0)) 1 (1 / 2) 1 1 2 0⟩,
      ⟨1 / 10, (0 : ℝ) • ellipsePosition 1 (1 / 2) 1 1 2 0, 0⟩] 0 = some ((some el, b) :: rest) ∧ el.eccentricity = 4 / 11 := by
  have hpi := Real.pi_gt_d2
  obtain ⟨el, b, rest, h1, h2, -⟩ := C129_violated 1 1 0 (1 / 10) 1 (1 / 2) 1 1 2 0 ⟨5, 0, 0⟩ 0 (by norm_num) (by norm_num)
    (by norm_num) (by norm_num) (by norm_num) (by norm_num) (by norm_num) (by norm_num) (by linarith) (by norm_num)
    (by linarith) (by norm_num) (4 / 11) (by norm_num) (by norm_num) (by norm_num) _ _ _ rfl rfl rfl
  exact ⟨el, b, rest, h1, h2⟩

/-- Of three bodies with the second as reference, the second and the third are listed. -/
example : ∃ l x, classify 1 [⟨1, ⟨0, 0, 0⟩, ⟨0, 0, 0⟩⟩, ⟨1, ⟨1, 0, 0⟩, ⟨0, 1, 0⟩⟩, ⟨(1 : ℝ), ⟨2, 0, 0⟩, ⟨0, 1, 0⟩⟩] 1 = some l ∧
    l[0]? = some x ∧ x.2.position = 0 := by
  obtain ⟨l, x, h1, h2, -, h3, -⟩ := C129_violated_reference 1 [⟨1, ⟨0, 0, 0⟩, ⟨0, 0, 0⟩⟩, ⟨1, ⟨1, 0, 0⟩, ⟨0, 1, 0⟩⟩,
    ⟨(1 : ℝ), ⟨2, 0, 0⟩, ⟨0, 1, 0⟩⟩] 1 _ (by norm_num) rfl
  exact ⟨l, x, h1, h2, h3⟩

end Posidonius.Analysis
