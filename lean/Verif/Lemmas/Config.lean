import Verif.Model.Config
import Verif.Lemmas.Universe

/-! Lemmas about the construction of the universe. -/

namespace Posidonius.Univ
open Finset
open Evolution (EvolutionType Evolver)

variable {n : Nat}

/-! ## Searching for a role -/

theorem findHost_fold_none (role : Fin n → Bool) (l : List (Fin n)) :
    l.foldl (findStep role) none = none := by
  induction l with
  | nil => rfl
  | cons a l ih => exact ih

theorem findHost_fold_some (role : Fin n → Bool) (l : List (Fin n)) (h : Fin n) :
    l.foldl (findStep role) (some (some h))
      = if ∃ i ∈ l, role i = true then none else some (some h) := by
  induction l with
  | nil => simp
  | cons a l ih =>
    rw [List.foldl_cons]
    by_cases ha : role a = true
    · rw [show findStep role (some (some h)) a = none by simp [findStep, ha]]
      rw [findHost_fold_none, if_pos ⟨a, List.mem_cons_self, ha⟩]
    · rw [show findStep role (some (some h)) a = some (some h) by simp [findStep, ha]]
      rw [ih]
      have : (∃ i ∈ a :: l, role i = true) ↔ ∃ i ∈ l, role i = true := by
        simp [ha]
      simp only [this]

theorem findHost_fold_start (role : Fin n → Bool) (l : List (Fin n)) (hl : l.Nodup) :
    (∀ h, l.foldl (findStep role) (some none)
      = some (some h) ↔ h ∈ l ∧ role h = true ∧ ∀ j ∈ l, role j = true → j = h)
    ∧ (l.foldl (findStep role) (some none)
      = some none ↔ ∀ j ∈ l, role j = false) := by
  induction l with
  | nil => simp
  | cons a l ih =>
    obtain ⟨hal, hl⟩ := List.nodup_cons.1 hl
    by_cases ha : role a = true
    · simp only [List.foldl_cons]
      rw [show findStep role (some none) a = some (some a) by simp [findStep, ha]]
      rw [findHost_fold_some]
      refine ⟨fun h => ?_, ?_⟩
      · by_cases he : ∃ i ∈ l, role i = true
        · rw [if_pos he]
          simp only [reduceCtorEq, false_iff]
          rintro ⟨-, -, hh⟩
          obtain ⟨i, hi, hr⟩ := he
          have h1 := hh i (List.mem_cons_of_mem _ hi) hr
          have h2 := hh a List.mem_cons_self ha
          rw [h1, ← h2] at hi
          exact hal hi
        · rw [if_neg he]
          push Not at he
          constructor
          · intro e
            have e : a = h := by simpa using e
            rw [← e]
            refine ⟨List.mem_cons_self, ha, fun j hj hr => ?_⟩
            rcases List.mem_cons.1 hj with hj | hj
            · exact hj
            · exact absurd hr (he j hj)
          · rintro ⟨-, -, hh⟩
            rw [hh a List.mem_cons_self ha]
      · constructor
        · intro e
          split at e <;> simp at e
        · intro hh
          rw [hh a List.mem_cons_self] at ha
          simp at ha
    · simp only [List.foldl_cons]
      rw [show findStep role (some none) a = some none by simp [findStep, ha]]
      obtain ⟨i1, i2⟩ := ih hl
      refine ⟨fun h => (i1 h).trans ?_, i2.trans ?_⟩
      · constructor
        · rintro ⟨h1, h2, h3⟩
          refine ⟨List.mem_cons_of_mem _ h1, h2, fun j hj hr => ?_⟩
          rcases List.mem_cons.1 hj with hj | hj
          · rw [hj] at hr; exact absurd hr ha
          · exact h3 j hj hr
        · rintro ⟨h1, h2, h3⟩
          refine ⟨?_, h2, fun j hj => h3 j (List.mem_cons_of_mem _ hj)⟩
          rcases List.mem_cons.1 h1 with hj | hj
          · rw [hj] at h2; exact absurd h2 ha
          · exact hj
      · constructor
        · intro hh j hj
          rcases List.mem_cons.1 hj with hj | hj
          · rw [hj]; simpa using ha
          · exact hh j hj
        · exact fun hh j hj => hh j (List.mem_cons_of_mem _ hj)

theorem findHost_some {role : Fin n → Bool} {h : Fin n} :
    findHost role = some (some h) ↔ role h = true ∧ ∀ j, role j = true → j = h := by
  have := (findHost_fold_start role (List.finRange n) (List.nodup_finRange n)).1 h
  unfold findHost
  rw [this]
  simp

theorem findHost_empty {role : Fin n → Bool} :
    findHost role = some none ↔ ∀ j, role j = false := by
  have := (findHost_fold_start role (List.finRange n) (List.nodup_finRange n)).2
  unfold findHost
  rw [this]
  simp

/-- `foundOnce` is the same search without the index. -/
theorem foundOnce_eq (role : Fin n → Bool) : foundOnce role = (findHost role).map Option.isSome := by
  have key : ∀ (l : List (Fin n)) (s : Option (Option (Fin n))),
      l.foldl (foundStep role) (s.map Option.isSome)
      = (l.foldl (findStep role) s).map
          Option.isSome := by
    intro l
    induction l with
    | nil => intro s; rfl
    | cons a l ih =>
      intro s
      simp only [List.foldl_cons]
      rw [← ih]
      congr 1
      match s with
      | none => rfl
      | some none => by_cases ha : role a <;> simp [ha, findStep, foundStep]
      | some (some b) => by_cases ha : role a <;> simp [ha, findStep, foundStep]
  exact key _ (some none)

theorem foundAny_eq (role : Fin n → Bool) : foundAny role = true ↔ ∃ i, role i = true := by
  have key : ∀ (l : List (Fin n)) (b : Bool),
      l.foldl (fun found i => if role i then true else found) b = true ↔ b = true ∨ ∃ i ∈ l, role i = true := by
    intro l
    induction l with
    | nil => simp
    | cons a l ih =>
      intro b
      rw [List.foldl_cons, ih]
      by_cases ha : role a = true
      · simp [ha]
      · simp [ha]
  unfold foundAny
  rw [key]
  simp

/-! ## The most massive body -/

theorem mostMassive_invariant (m : Fin n → ℝ) (l : List (Fin n)) (hl : l.Pairwise (· < ·)) :
    let r := l.foldl (fun (best : Option (Fin n) × ℝ) i =>
      if ltb best.2 (m i) then (some i, m i) else best) (none, 0)
    match r.1 with
    | none => r.2 = 0 ∧ ∀ j ∈ l, m j ≤ 0
    | some h => h ∈ l ∧ r.2 = m h ∧ 0 < m h ∧ ∀ j ∈ l, m j ≤ m h ∧ (j < h → m j < m h) := by
  induction l using List.reverseRecOn with
  | nil => simp
  | append_singleton l a ih =>
    obtain ⟨hl1, -, hl2⟩ := List.pairwise_append.1 hl
    have ih := ih hl1
    intro r
    have er : r = (fun (best : Option (Fin n) × ℝ) => if ltb best.2 (m a) then (some a, m a) else best)
      (l.foldl (fun (best : Option (Fin n) × ℝ) i =>
        if ltb best.2 (m i) then (some i, m i) else best) (none, 0)) := by
      simp [r, List.foldl_append]
    rw [er]
    clear er r
    generalize l.foldl (fun (best : Option (Fin n) × ℝ) i =>
        if ltb best.2 (m i) then (some i, m i) else best) (none, 0) = s at ih
    obtain ⟨o, M⟩ := s
    simp only [ltb_real]
    match o with
    | none =>
      obtain ⟨hM, hj⟩ := ih
      have hM : M = 0 := hM
      by_cases hlt : M < m a
      · simp only [hlt, decide_true, if_true]
        rw [hM] at hlt
        refine ⟨by simp, trivial, hlt, fun j hjl => ?_⟩
        rcases List.mem_append.1 hjl with hjl | hjl
        · exact ⟨(hj j hjl).trans hlt.le, fun _ => (hj j hjl).trans_lt hlt⟩
        · rw [List.mem_singleton.1 hjl]
          exact ⟨le_rfl, fun h => absurd h (lt_irrefl _)⟩
      · simp only [hlt, decide_false, Bool.false_eq_true, if_false]
        refine ⟨hM, fun j hjl => ?_⟩
        rcases List.mem_append.1 hjl with hjl | hjl
        · exact hj j hjl
        · rw [List.mem_singleton.1 hjl, ← hM]
          exact not_lt.1 hlt
    | some h =>
      obtain ⟨hh, hM, hpos, hj⟩ := ih
      have hM : M = m h := hM
      by_cases hlt : M < m a
      · simp only [hlt, decide_true, if_true]
        rw [hM] at hlt
        refine ⟨by simp, trivial, hpos.trans hlt, fun j hjl => ?_⟩
        rcases List.mem_append.1 hjl with hjl | hjl
        · have := (hj j hjl).1.trans_lt hlt
          exact ⟨this.le, fun _ => this⟩
        · rw [List.mem_singleton.1 hjl]
          exact ⟨le_rfl, fun h => absurd h (lt_irrefl _)⟩
      · simp only [hlt, decide_false, Bool.false_eq_true, if_false]
        refine ⟨List.mem_append_left _ hh, hM, hpos, fun j hjl => ?_⟩
        rcases List.mem_append.1 hjl with hjl | hjl
        · exact hj j hjl
        · rw [List.mem_singleton.1 hjl]
          refine ⟨by rw [← hM]; exact not_lt.1 hlt, fun hah => ?_⟩
          exact absurd (hl2 h hh a (by simp)) (not_lt.2 hah.le)

theorem mostMassive_some {p : Fin n → Particle ℝ} {h : Fin n} :
    mostMassive p = some h ↔ 0 < (p h).mass ∧ (∀ j, (p j).mass ≤ (p h).mass)
      ∧ ∀ j, j < h → (p j).mass < (p h).mass := by
  have key := mostMassive_invariant (fun i => (p i).mass) (List.finRange n)
    (List.pairwise_lt_finRange n)
  have e : mostMassive p = ((List.finRange n).foldl (fun (best : Option (Fin n) × ℝ) i =>
      if ltb best.2 (p i).mass then (some i, (p i).mass) else best) (none, 0)).1 := by
    simp [mostMassive]
  rw [e]
  dsimp only at key
  generalize (List.finRange n).foldl (fun (best : Option (Fin n) × ℝ) i =>
      if ltb best.2 (p i).mass then (some i, (p i).mass) else best) (none, 0) = s at key
  obtain ⟨o, M⟩ := s
  match o with
  | none =>
    obtain ⟨-, hj⟩ := key
    simp only [reduceCtorEq, false_iff]
    rintro ⟨hp, -⟩
    exact absurd (hj h (List.mem_finRange h)) (not_le.2 hp)
  | some g =>
    obtain ⟨-, -, hpos, hj⟩ := key
    constructor
    · intro e
      have e : g = h := by simpa using e
      rw [← e]
      exact ⟨hpos, fun j => (hj j (List.mem_finRange j)).1, fun j => (hj j (List.mem_finRange j)).2⟩
    · rintro ⟨h1, h2, h3⟩
      rcases lt_trichotomy g h with hgh | hgh | hgh
      · exact absurd ((hj h (List.mem_finRange h)).1) (not_le.2 (h3 g hgh))
      · rw [hgh]
      · exact absurd (h2 g) (not_le.2 ((hj h (List.mem_finRange h)).2 hgh))

theorem mostMassive_none {p : Fin n → Particle ℝ} : mostMassive p = none ↔ ∀ j, (p j).mass ≤ 0 := by
  have key := mostMassive_invariant (fun i => (p i).mass) (List.finRange n)
    (List.pairwise_lt_finRange n)
  have e : mostMassive p = ((List.finRange n).foldl (fun (best : Option (Fin n) × ℝ) i =>
      if ltb best.2 (p i).mass then (some i, (p i).mass) else best) (none, 0)).1 := by
    simp [mostMassive]
  rw [e]
  dsimp only at key
  generalize (List.finRange n).foldl (fun (best : Option (Fin n) × ℝ) i =>
      if ltb best.2 (p i).mass then (some i, (p i).mass) else best) (none, 0) = s at key
  obtain ⟨o, M⟩ := s
  match o with
  | none =>
    obtain ⟨-, hj⟩ := key
    simpa using fun j => hj j (List.mem_finRange j)
  | some g =>
    obtain ⟨-, -, hpos, -⟩ := key
    simp only [reduceCtorEq, false_iff]
    intro hh
    exact absurd (hh g) (not_le.2 hpos)

/-! ## The centre of mass -/

theorem centerOfMass_invariant (p : Fin n → Particle ℝ) (hm : ∀ i, 0 ≤ (p i).mass) (l : List (Fin n)) :
    let r := l.foldl (fun c i => centerOfMassOfPair c (p i)) (Axes.zero, Axes.zero, lit 0)
    r.2.2 = (l.map fun i => (p i).mass).sum
      ∧ r.2.2 • r.1 = (l.map fun i => (p i).mass • (p i).heliocentricPosition).sum
      ∧ r.2.2 • r.2.1 = (l.map fun i => (p i).mass • (p i).heliocentricVelocity).sum := by
  induction l using List.reverseRecOn with
  | nil => simp
  | append_singleton l a ih =>
    intro r
    have er : r = centerOfMassOfPair (l.foldl (fun c i => centerOfMassOfPair c (p i))
        (Axes.zero, Axes.zero, lit 0)) (p a) := by
      simp [r, List.foldl_append]
    rw [er]
    clear er r
    dsimp only at ih
    generalize l.foldl (fun c i => centerOfMassOfPair c (p i)) (Axes.zero, Axes.zero, lit 0) = s at ih
    obtain ⟨P, V, M⟩ := s
    obtain ⟨h1, h2, h3⟩ := ih
    dsimp only at h1 h2 h3
    have hM : 0 ≤ M := by
      rw [h1]
      refine List.sum_nonneg fun x hx => ?_
      obtain ⟨i, -, rfl⟩ := List.mem_map.1 hx
      exact hm i
    have ha := hm a
    simp only [List.map_append, List.map_cons, List.map_nil, List.sum_append, List.sum_cons, List.sum_nil,
      add_zero]
    rw [← h1, ← h2, ← h3]
    unfold centerOfMassOfPair
    dsimp only
    simp only [ltb_real, lit_real]
    push_cast
    by_cases hpos : 0 < M + (p a).mass
    · simp only [hpos, decide_true, if_true]
      have h0 : M + (p a).mass ≠ 0 := hpos.ne'
      generalize M + (p a).mass = N at h0
      refine ⟨trivial, ?_, ?_⟩
      · ext <;> simp <;> field_simp
      · ext <;> simp <;> field_simp
    · simp only [hpos, decide_false, Bool.false_eq_true, if_false]
      have hM0 : M = 0 := by linarith
      have ha0 : (p a).mass = 0 := by linarith
      rw [hM0, ha0]
      simp

/-- The centre of mass is at the mean position and velocity, weighted by the masses. -/
theorem centerOfMass_spec (p : Fin n → Particle ℝ) (hm : ∀ i, 0 ≤ (p i).mass) :
    (∑ i, (p i).mass) • (centerOfMass p).1 = ∑ i, (p i).mass • (p i).heliocentricPosition
      ∧ (∑ i, (p i).mass) • (centerOfMass p).2 = ∑ i, (p i).mass • (p i).heliocentricVelocity := by
  obtain ⟨h1, h2, h3⟩ := centerOfMass_invariant p hm (List.finRange n)
  have e : ∀ {M : Type} [AddCommMonoid M] (f : Fin n → M), ((List.finRange n).map f).sum = ∑ i, f i := by
    intro M _ f
    rw [← List.ofFn_eq_map, List.sum_ofFn]
  rw [e] at h1 h2 h3
  rw [← h1, ← h2, ← h3]
  exact ⟨rfl, rfl⟩

/-! ## The stages of the construction -/

section
variable {F : Type} [Add F] [Sub F] [Mul F] [Div F] [Neg F] [FOps F] [FPow F] [FTrig F]

theorem newUniverse_stages {c0 : Consider} {make : Fin n → Option (Evolver F)} {p0 : Fin n → Particle F}
    {u : Universe F n} (hu : newUniverse c0 make p0 = some u) :
    ∃ evolvers : Fin n → Evolver F, disableUnnecessary c0 p0 = some u.consider ∧ findIndices p0 u.consider = some u.hosts
      ∧ n ≤ maxParticles ∧ (∀ i, make i = some (evolvers i))
      ∧ u.grImplementation = (grSetup u.consider u.hosts.gr p0).1
      ∧ ∀ i, (let q := grSetup u.consider u.hosts.gr p0
        let p1 : Particle F := { toInertial (centerOfMass q.2).1 (centerOfMass q.2).2 (q.2 i) with id := i.val }
        if u.consider.evolution then matchEvolution p1 (evolvers i) = some (u.particles i, u.evolvers i)
        else u.particles i = p1 ∧ u.evolvers i = evolvers i) := by
  unfold newUniverse at hu
  dsimp only at hu
  cases h1 : disableUnnecessary c0 p0 with
  | none => rw [h1] at hu; simp at hu
  | some c =>
    rw [h1] at hu
    dsimp only at hu
    cases h2 : findIndices p0 c with
    | none => rw [h2] at hu; simp at hu
    | some hosts =>
      rw [h2] at hu
      dsimp only at hu
      by_cases hn : n > maxParticles
      · rw [if_pos hn] at hu; simp at hu
      · rw [if_neg hn] at hu
        cases h3 : traverse make with
        | none => rw [h3] at hu; simp at hu
        | some evolvers =>
          rw [h3] at hu
          dsimp only at hu
          split at hu
          · simp at hu
          · rename_i r hr
            have hu := Option.some.inj hu
            subst hu
            refine ⟨evolvers, rfl, h2, not_lt.1 hn, fun i => traverse_some h3 i, rfl, fun i => ?_⟩
            have := traverse_some hr i
            dsimp only
            by_cases he : c.evolution = true
            · rw [if_pos he] at this ⊢
              exact this
            · rw [if_neg he] at this ⊢
              have := Option.some.inj this
              exact ⟨(congrArg Prod.fst this).symm, (congrArg Prod.snd this).symm⟩

/-- The relativistic factor is the only thing changed by `grSetup`. -/
theorem grSetup_fields (c : Consider) (g : Option (Fin n)) (p : Fin n → Particle F) (i : Fin n) :
    { (grSetup c g p).2 i with gr := { ((grSetup c g p).2 i).gr with factor := (p i).gr.factor } } = p i := by
  have key : ∀ h, mapOthers h grFactor p i = p i ∨ mapOthers h grFactor p i = grFactor (p h) (p i) := by
    intro h
    unfold mapOthers
    by_cases hi : i = h <;> simp [hi]
  unfold grSetup
  by_cases hc : c.gr = true
  · rw [if_pos hc]
    cases g with
    | none => rfl
    | some h =>
      dsimp only
      cases (p h).gr.effect with
      | central im =>
        dsimp only
        split
        · dsimp only
          rcases key h with e | e <;> rw [e] <;> rfl
        · rfl
      | orbiting => rfl
      | disabled => rfl
  · rw [if_neg hc]

end
end Posidonius.Univ
