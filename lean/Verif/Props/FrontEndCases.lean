import Verif.Props.FrontEnd
import Verif.Props.Config

/-! Property C123, continued: particles, examples, and where front end and constructor differ. -/

namespace Posidonius.Univ
open Evolution (EvolutionType Evolver)

variable {n : Nat}

/-! ## Particles -/

theorem py_newTides_eq (e : TidesEffect ℝ) : Py.newTides e = Tides.new e := by
  unfold Py.newTides Tides.new
  cases e with
  | disabled => rfl
  | central m => cases m <;> simp [mul_comm]
  | orbiting m => cases m <;> simp [mul_comm]

theorem py_viscosityOk_eq (t : TidesEffect ℝ) (f : FlatteningEffect ℝ) : Py.viscosityOk t f = viscosityOk t f := by
  have h : ∀ a b : ℝ, FOps.abs (b - a) = FOps.abs (a - b) := fun a b => abs_sub_comm b a
  unfold Py.viscosityOk viscosityOk
  cases t <;> cases f <;> simp only [h] <;> rfl

theorem py_newWind_eq (i : Bool) (a b : ℝ) (h : i = false → a = 0 ∧ b = 0) : Py.newWind i a b = Wind.new i a b := by
  cases i with
  | true => simp [Py.newWind, Wind.new, ipow]
  | false =>
    obtain ⟨rfl, rfl⟩ := h rfl
    simp [Py.newWind, Wind.new, ipow]

/-- **C123, particles** (real numbers): the front end makes the particles of the library, and rejects the same
settings.  A disabled wind of the front end has no parameters. -/
theorem C123_particle (k : Consts ℝ) (mass radius radiusOfGyration : ℝ) (position velocity spin : Axes ℝ)
    (settings : List (Setting ℝ)) (hw : ∀ a b, Setting.wind false a b ∈ settings → a = 0 ∧ b = 0) :
    Py.configure (Py.newParticle k mass radius radiusOfGyration position velocity spin) settings
      = configure (Particle.new k mass radius radiusOfGyration position velocity spin) settings := by
  have h0 : Py.newParticle k mass radius radiusOfGyration position velocity spin
      = Particle.new k mass radius radiusOfGyration position velocity spin := by
    unfold Py.newParticle Particle.new
    rw [py_newTides_eq, py_newWind_eq _ _ _ (by simp)]
    simp [ipow, mul_assoc, Py.newFlattening, Flattening.new, Py.newGr, Gr.new, Py.newDisk, Disk.new]
  rw [h0]
  generalize Particle.new k mass radius radiusOfGyration position velocity spin = p
  induction settings generalizing p with
  | nil => rfl
  | cons s l ih =>
    have hs : Py.apply p s = s.apply p := by
      cases s with
      | tides e => simp only [Py.apply, Setting.apply, Setting.assign, py_newTides_eq, py_viscosityOk_eq]; rfl
      | flattening e => simp only [Py.apply, Setting.apply, Setting.assign, py_viscosityOk_eq]; rfl
      | gr e => rfl
      | wind i a b =>
        simp only [Py.apply, Setting.apply, Setting.assign]
        rw [py_newWind_eq _ _ _ (fun hi => hw a b (by simp [hi]))]
      | disk e => rfl
      | evolution e => rfl
    unfold Py.configure configure
    rw [hs]
    cases hq : s.apply p with
    | none => rfl
    | some q => exact ih (fun a b h => hw a b (by simp [h])) q

/-- A planet with tides and the flattening of an oblate spheroid, as it is made by both. -/
example (k : Consts ℝ) : ∃ q, Py.configure (Py.newParticle k 1 2 3 0 0 ⟨0, 0, 1⟩)
      [.tides (.orbiting (.constantTimeLag 2 3 4)), .flattening (.orbiting (.oblateSpheroid 5))] = some q
    ∧ q.momentOfInertia = 36 ∧ q.tides.scaledDissipationFactor = 6 := by
  rw [C123_particle _ _ _ _ _ _ _ _ (by simp)]
  refine ⟨_, by
    simp only [configure, Setting.apply, Setting.assign, Particle.new, viscosityOk, TidesEffect.creep,
      FlatteningEffect.creep, if_true]
    rfl, ?_, ?_⟩
  · norm_num [ipow]
  · norm_num [Tides.new]

/-- Different viscosities of tides and flattening are rejected by both. -/
example (k : Consts ℝ) : Py.configure (Py.newParticle k 1 2 3 0 0 ⟨0, 0, 1⟩)
      [.tides (.orbiting (.creepCoplanar 1)), .flattening (.orbiting (.creepCoplanar 2))] = none := by
  rw [C123_particle _ _ _ _ _ _ _ _ (by simp)]
  simp [configure, Setting.apply, Setting.assign, Particle.new, viscosityOk, TidesEffect.creep,
    FlatteningEffect.creep, Flattening.new, Tides.new, abs]
  norm_num

/-! ## Positive masses -/

theorem py_massesPositive_real (l : List (Particle ℝ)) (m : ℝ) (h1 : ∀ p ∈ l, 0 ≤ p.mass)
    (h2 : 0 < m ∨ ∃ p r, l = p :: r ∧ 0 < m + p.mass) : Py.MassesPositive l m := by
  induction l generalizing m with
  | nil => trivial
  | cons p l ih =>
    have hp : 0 < m + p.mass := by
      rcases h2 with h2 | ⟨q, r, hq, h2⟩
      · have := h1 p (by simp)
        linarith
      · obtain ⟨rfl, -⟩ := List.cons.inj hq
        exact h2
    exact ⟨by simpa using hp, by simpa using hp.ne', ih _ (fun q hq => h1 q (by simp [hq])) (Or.inl hp)⟩

theorem py_massesPositive_ofFn (p : Fin (n + 1) → Particle ℝ) (h0 : 0 < (p 0).mass) (h1 : ∀ i, 0 ≤ (p i).mass) :
    Py.MassesPositive (List.ofFn p) (lit 0) := by
  apply py_massesPositive_real
  · intro q hq
    obtain ⟨i, rfl⟩ := (List.mem_ofFn).1 hq
    exact h1 i
  · exact Or.inr ⟨p 0, List.ofFn fun i => p i.succ, by rw [List.ofFn_succ], by simpa using h0⟩

/-- **C123, over the real numbers**: with a positive mass of the first body and no negative ones. -/
theorem C123_partial_real (k : Consts ℝ) (evolve : Particle ℝ → Option (Particle ℝ)) (c0 : Consider)
    (make : Fin (n + 1) → Option (Evolver ℝ)) (p : Fin (n + 1) → Particle ℝ) (u : Universe ℝ (n + 1))
    (hu : newUniverse c0 make p = some u) (he : Prepares evolve c0 make p)
    (h0 : 0 < (p 0).mass) (h1 : ∀ i, 0 ≤ (p i).mass)
    (hd : ∀ i d, (p i).disk.effect = .central d → d.innerEdgeDistance ≠ 0 ∨ d.outerEdgeDistance ≠ 0) :
    ∃ f, Py.caseFile k evolve c0 (List.ofFn p) = some f ∧ Describes f u := by
  refine C123_partial k evolve c0 make p u hu he (py_massesPositive_ofFn p h0 h1) fun i hi => ?_
  cases h : (p i).disk.effect with
  | central d => simpa [DiskEffect.hasDisk, h, or_iff_not_imp_left] using hd i d h
  | _ => rw [h] at hi; cases hi

/-- A star with tides, flattening and relativity and a planet: the file has the star as host of everything. -/
example (k : Consts ℝ) (evolve : Particle ℝ → Option (Particle ℝ)) :
    ∃ f, Py.caseFile k evolve askAll (List.ofFn (starAndPlanet 0 ⟨1, 2, 3⟩ ⟨0, 1, 0⟩)) = some f
      ∧ f.tides = 0 ∧ f.gr = 0 ∧ f.disk = 11 ∧ f.particles.length = 10 := by
  obtain ⟨u, hu, h1, h2, h3, h4, -⟩ := starAndPlanet_defined 0 ⟨1, 2, 3⟩ ⟨0, 1, 0⟩
  obtain ⟨f, hf, hd⟩ := C123_partial_real k evolve askAll noEvolver _ u hu
    (prepares_nonEvolving _ _ _ _ fun i => by by_cases hi : i = 0 <;> simp [starAndPlanet, hi, blank])
    (by simp [starAndPlanet]) (fun i => by by_cases hi : i = 0 <;> simp [starAndPlanet, hi])
    (fun i d hd => by by_cases hi : i = 0 <;> simp [starAndPlanet, hi, blank] at hd)
  obtain ⟨e, -, -, -⟩ := newUniverse_stages hu
  obtain ⟨ev, hdis, hfind, -⟩ := newUniverse_stages hu
  obtain ⟨-, hgr, -, ⟨t, ht, htt⟩, -, hdisk, -⟩ := findIndices_found hfind
  refine ⟨f, hf, ?_, ?_, ?_, hd.array⟩
  · rw [hd.tides, htt, h1]
    rw [h1] at ht
    have : findHost (fun i => (starAndPlanet 0 ⟨1, 2, 3⟩ ⟨0, 1, 0⟩ i).tides.effect.isCentral) = some (some 0) := by
      rw [findHost_of (h := 0)] <;> simp [starAndPlanet, TidesEffect.isCentral]
    rw [findIf_found ht this]
    rfl
  · rw [hd.gr]
    rw [h3] at hgr
    have : findHost (fun i => (starAndPlanet 0 ⟨1, 2, 3⟩ ⟨0, 1, 0⟩ i).gr.effect.isCentral) = some (some 0) := by
      rw [findHost_of (h := 0)] <;> simp [starAndPlanet, GrEffect.isCentral, blank]
    rw [findIf_found hgr this]
    rfl
  · rw [hd.disk]
    rw [h4] at hdisk
    have := (Option.some.inj hdisk).symm
    rw [this]
    rfl

/-! ## What the front end writes, whatever the constructor does -/

section
variable {F : Type} [Add F] [Sub F] [Mul F] [Div F] [Neg F] [FOps F]

/-- A file, when `add_particle` raises no exception. -/
theorem py_caseFile_some (k : Consts F) (evolve : Particle F → Option (Particle F)) (c0 : Consider)
    (p : Fin n → Particle F) (hn : n ≤ 11) (he : ∀ i, (p i).evolution = .nonEvolving) (mm : Fin n)
    (hmm : Univ.mostMassive p = some mm) (hm : Py.MassesPositive (List.ofFn p) (lit 0)) {t f g d : Nat}
    (ht : Py.claimAll c0.tides (List.ofFn fun i => (p i).tides.effect.isCentral) 11 0 = some t)
    (hf : Py.claimAll c0.flattening (List.ofFn fun i => (p i).flattening.effect.isCentral) 11 0 = some f)
    (hg : Py.claimAll c0.gr (List.ofFn fun i => (p i).gr.effect.isCentral) 11 0 = some g)
    (hd : Py.claimAll c0.disk (List.ofFn fun i => (p i).disk.effect.isCentral) 11 0 = some d)
    (hgm : g = 11 ∨ g = mm.val) :
    ∃ fl, Py.caseFile k evolve c0 (List.ofFn p) = some fl ∧ fl.number = n ∧ fl.particles.length = n + (10 - n)
      ∧ fl.consider.tides = (c0.tides && t != 11) ∧ fl.consider.flattening = (c0.flattening && f != 11)
      ∧ fl.consider.disk = (c0.disk && d != 11)
      ∧ (fl.consider.tides = true → fl.tides = t) ∧ (fl.consider.flattening = true → fl.flattening = f)
      ∧ (fl.consider.disk = true → fl.disk = d) := by
  have hadd := Py.addAll_eq evolve (List.ofFn p) (by
      intro q hq
      obtain ⟨i, rfl⟩ := List.mem_ofFn.1 hq
      rw [if_pos (he i)]) (Py.start c0)
    (by simp only [Py.start, List.length_nil, List.length_ofFn, Nat.zero_add]; exact hn) (t := t) (f := f) (g := g) (d := d)
    (by rw [List.map_ofFn]; exact ht) (by rw [List.map_ofFn]; exact hf) (by rw [List.map_ofFn]; exact hg)
    (by rw [List.map_ofFn]; exact hd)
  have hn0 : n ≠ 0 := by have := mm.isLt; omega
  have hcom := Py.centerOfMass_eq p hn0 hm
  unfold Py.caseFile
  rw [hadd]
  dsimp only [Py.start, List.nil_append]
  unfold Py.get
  dsimp only
  rw [hcom]
  dsimp only
  rw [List.map_ofFn, Py.assignIds_eq]
  have hmmP : Py.mostMassive (List.ofFn fun i =>
      ({ (Py.toInertial (centerOfMass p) ∘ p) i with id := i.val } : Particle F)) = mm.val := by
    rw [Py.mostMassive_eq]
    have : Univ.mostMassive (fun i => ({ (Py.toInertial (centerOfMass p) ∘ p) i with id := i.val } : Particle F))
        = Univ.mostMassive p := rfl
    rw [this, hmm]
    rfl
  rw [hmmP, if_neg (by
    rintro ⟨h1, h2⟩
    rcases hgm with h | h
    · exact h1 h
    · exact h2 h)]
  have hget : (List.ofFn fun i => ({ (Py.toInertial (centerOfMass p) ∘ p) i with id := i.val } : Particle F))[
      mm.val]? = some { Py.toInertial (centerOfMass p) (p mm) with id := mm.val } := by
    simp
  rw [hget]
  have key : ∀ (a : Bool) (x : Nat), (if (a && x == maxParticles + 1) = true then false else a) = (a && x != 11) := by
    intro a x
    by_cases hx : x = 11
    · subst hx; cases a <;> rfl
    · have : (x == maxParticles + 1) = false := beq_eq_false_iff_ne.2 hx
      rw [this]
      cases a <;> simp [hx]
  refine ⟨_, rfl, by simp, ?_, ?_, ?_, ?_, ?_, ?_, ?_⟩
  · simp
    rfl
  · exact key _ _
  · exact key _ _
  · exact key _ _
  · intro h
    dsimp only at h ⊢
    simp only [h, Bool.not_true, Bool.and_false, Bool.false_eq_true, if_false]
  · intro h
    dsimp only at h ⊢
    simp only [h, Bool.not_true, Bool.false_eq_true, if_false]
  · intro h
    dsimp only at h ⊢
    simp only [h, Bool.not_true, Bool.false_eq_true, if_false]

theorem py_claimAll_empty (considered : Bool) (role : Fin n → Bool) (h : ∀ i, role i = false) :
    Py.claimAll considered (List.ofFn role) 11 0 = some 11 := by
  have := Py.claimAll_findHost considered role none (findHost_empty.2 h)
  simpa [hostNumber, maxParticles] using this

theorem py_claimAll_only (role : Fin n → Bool) (i : Fin n) (h1 : role i = true) (h2 : ∀ j, role j = true → j = i) :
    Py.claimAll true (List.ofFn role) 11 0 = some i.val :=
  Py.claimAll_findHost true role (some i) (findHost_some.2 ⟨h1, h2⟩)

end

/-! ## Violations -/

theorem exists_mostMassive (p : Fin (n + 1) → Particle ℝ) (h0 : 0 < (p 0).mass) : ∃ mm, mostMassive p = some mm := by
  cases h : mostMassive p with
  | some mm => exact ⟨mm, rfl⟩
  | none => exact absurd (mostMassive_none.1 h 0) (not_le.2 h0)

/-- **C123 is violated by eleven bodies**: the front end writes a file with eleven particles, which has no place in the
array of ten; the constructor refuses. -/
theorem C123_violated_eleven (k : Consts ℝ) (evolve : Particle ℝ → Option (Particle ℝ)) (c0 : Consider)
    (make : Fin 11 → Option (Evolver ℝ)) (p : Fin 11 → Particle ℝ) (he : ∀ i, (p i).evolution = .nonEvolving)
    (hm : ∀ i, 0 < (p i).mass) (ht : ∀ i, (p i).tides.effect.isCentral = false)
    (hf : ∀ i, (p i).flattening.effect.isCentral = false) (hg : ∀ i, (p i).gr.effect.isCentral = false)
    (hd : ∀ i, (p i).disk.effect.isCentral = false) :
    (∃ f, Py.caseFile k evolve c0 (List.ofFn p) = some f ∧ f.number = 11 ∧ f.particles.length = 11)
      ∧ newUniverse c0 make p = none := by
  obtain ⟨mm, hmm⟩ := exists_mostMassive p (hm 0)
  obtain ⟨f, h1, h2, h3, -⟩ := py_caseFile_some k evolve c0 p le_rfl he mm hmm
    (py_massesPositive_ofFn p (hm 0) fun i => (hm i).le) (py_claimAll_empty _ _ ht) (py_claimAll_empty _ _ hf)
    (py_claimAll_empty _ _ hg) (py_claimAll_empty _ _ hd) (Or.inl rfl)
  refine ⟨⟨f, h1, h2, by simpa using h3⟩, ?_⟩
  cases hu : newUniverse c0 make p with
  | none => rfl
  | some u =>
    obtain ⟨-, -, -, h, -⟩ := newUniverse_stages hu
    exact absurd h (by decide)

example (k : Consts ℝ) : ∃ f, Py.caseFile k some askAll
    (List.ofFn fun _ : Fin 11 => { blank ℝ with mass := 1 }) = some f ∧ f.particles.length = 11 := by
  obtain ⟨⟨f, h, -, h'⟩, -⟩ := C123_violated_eleven k some askAll noEvolver
    (fun _ : Fin 11 => { blank ℝ with mass := 1 }) (fun _ => rfl) (by simp) (fun _ => rfl) (fun _ => rfl)
    (fun _ => rfl) (fun _ => rfl)
  exact ⟨f, h, h'⟩

/-- **C123 is violated by different hosts of tides and flattening**: the front end writes both into the file (the
simulator then takes the tidal one for the flattening too); the constructor refuses. -/
theorem C123_violated_hosts (k : Consts ℝ) (evolve : Particle ℝ → Option (Particle ℝ)) (c0 : Consider)
    (make : Fin (n + 1) → Option (Evolver ℝ)) (p : Fin (n + 1) → Particle ℝ) (hn : n + 1 ≤ 10)
    (he : ∀ i, (p i).evolution = .nonEvolving) (hm : ∀ i, 0 < (p i).mass)
    (h1 : c0.tides = true) (h2 : c0.flattening = true) {i j : Fin (n + 1)} (hij : i ≠ j)
    (ht : ∀ l, (p l).tides.effect.isCentral = true ↔ l = i)
    (hf : ∀ l, (p l).flattening.effect.isCentral = true ↔ l = j) (hg : ∀ i, (p i).gr.effect.isCentral = false)
    (hd : ∀ i, (p i).disk.effect.isCentral = false) :
    (∃ f, Py.caseFile k evolve c0 (List.ofFn p) = some f ∧ f.consider.tides = true ∧ f.consider.flattening = true
        ∧ f.tides = i ∧ f.flattening = j)
      ∧ newUniverse c0 make p = none := by
  obtain ⟨mm, hmm⟩ := exists_mostMassive p (hm 0)
  have hi := i.isLt
  have hj := j.isLt
  have htf : findHost (fun l => (p l).tides.effect.isCentral) = some (some i) :=
    findHost_of ((ht i).2 rfl) fun l hl => (ht l).1 hl
  have hff : findHost (fun l => (p l).flattening.effect.isCentral) = some (some j) :=
    findHost_of ((hf j).2 rfl) fun l hl => (hf l).1 hl
  obtain ⟨f, e1, -, -, e4, e5, -, e6, e7, -⟩ := py_caseFile_some k evolve c0 p (by omega) he mm hmm
    (py_massesPositive_ofFn p (hm 0) fun i => (hm i).le)
    (by rw [h1]; exact py_claimAll_only _ i ((ht i).2 rfl) fun l hl => (ht l).1 hl)
    (by rw [h2]; exact py_claimAll_only _ j ((hf j).2 rfl) fun l hl => (hf l).1 hl)
    (py_claimAll_empty _ _ hg) (py_claimAll_empty _ _ hd) (Or.inl rfl)
  have e4' : f.consider.tides = true := by rw [e4, h1]; simp; omega
  have e5' : f.consider.flattening = true := by rw [e5, h2]; simp; omega
  refine ⟨⟨f, e1, e4', e5', e6 e4', e7 e5'⟩, ?_⟩
  cases hu : newUniverse c0 make p with
  | none => rfl
  | some u =>
    exfalso
    obtain ⟨ev, hdis, hfind, -⟩ := newUniverse_stages hu
    obtain ⟨t, fl, g, d, a1, a2, -, -, hc⟩ := disableUnnecessary_found hdis
    obtain rfl := Option.some.inj (a1.symm.trans htf)
    obtain rfl := Option.some.inj (a2.symm.trans hff)
    have c1 : u.consider.tides = true := by rw [hc]; simp [h1]
    have c2 : u.consider.flattening = true := by rw [hc]; simp [h2]
    unfold findIndices at hfind
    rw [c1, c2] at hfind
    simp only [findIf, if_true, htf, hff, hmm] at hfind
    split at hfind
    · cases hfind
    split at hfind
    · cases hfind
    simp only [Bool.true_and] at hfind
    rw [if_pos (by simpa using hij)] at hfind
    cases hfind

/-- A star that raises tides and a flattened planet. -/
example (k : Consts ℝ) : ∃ f, Py.caseFile k some askAll (List.ofFn fun i : Fin 2 =>
      if i = 0 then { blank ℝ with mass := 3, tides := { (blank ℝ).tides with effect := .central (.constantTimeLag 1 1 1) } }
      else { blank ℝ with mass := 1, flattening := { (blank ℝ).flattening with effect := .central (.oblateSpheroid 1) } })
    = some f ∧ f.tides = 0 ∧ f.flattening = 1 := by
  obtain ⟨⟨f, h, -, -, h1, h2⟩, -⟩ := C123_violated_hosts (n := 1) (i := 0) (j := 1) k some askAll noEvolver
    (fun i : Fin 2 =>
      if i = 0 then { blank ℝ with mass := 3, tides := { (blank ℝ).tides with effect := .central (.constantTimeLag 1 1 1) } }
      else { blank ℝ with mass := 1, flattening := { (blank ℝ).flattening with effect := .central (.oblateSpheroid 1) } })
    (by decide) (fun i => by by_cases hi : i = 0 <;> simp [hi, blank])
    (fun i => by by_cases hi : i = 0 <;> simp [hi]) rfl rfl (by decide)
    (fun i => by by_cases hi : i = 0 <;> simp [hi, blank, TidesEffect.isCentral])
    (fun i => by
      by_cases hi : i = 0
      · subst hi; simp [blank, FlatteningEffect.isCentral]
      · have : i = 1 := by
          apply Fin.ext
          have := i.isLt
          have : i.val ≠ 0 := fun h => hi (Fin.ext h)
          change i.val = 1
          omega
        subst this; simp [FlatteningEffect.isCentral])
    (fun i => by by_cases hi : i = 0 <;> simp [hi, blank, GrEffect.isCentral])
    (fun i => by by_cases hi : i = 0 <;> simp [hi, blank, DiskEffect.isCentral])
  exact ⟨f, h, h1, h2⟩

/-- **C123 is violated by two central bodies of an effect that is not asked for**: the front end only prints a message;
the constructor refuses. -/
theorem C123_violated_unused (k : Consts ℝ) (evolve : Particle ℝ → Option (Particle ℝ)) (c0 : Consider)
    (make : Fin (n + 1) → Option (Evolver ℝ)) (p : Fin (n + 1) → Particle ℝ) (hn : n + 1 ≤ 10)
    (he : ∀ i, (p i).evolution = .nonEvolving) (hm : ∀ i, 0 < (p i).mass) (h1 : c0.tides = false)
    {i j : Fin (n + 1)} (hij : i ≠ j) (hi : TidalHost (p i)) (hj : TidalHost (p j))
    (hf : ∀ i, (p i).flattening.effect.isCentral = false) (hg : ∀ i, (p i).gr.effect.isCentral = false)
    (hd : ∀ i, (p i).disk.effect.isCentral = false) :
    (∃ f, Py.caseFile k evolve c0 (List.ofFn p) = some f ∧ f.number = n + 1) ∧ newUniverse c0 make p = none := by
  obtain ⟨mm, hmm⟩ := exists_mostMassive p (hm 0)
  obtain ⟨f, e1, e2, -⟩ := py_caseFile_some k evolve c0 p (by omega) he mm hmm
    (py_massesPositive_ofFn p (hm 0) fun i => (hm i).le)
    (by rw [h1]; exact Py.claimAll_ignored _ _ _) (py_claimAll_empty _ _ hf)
    (py_claimAll_empty _ _ hg) (py_claimAll_empty _ _ hd) (Or.inl rfl)
  exact ⟨⟨f, e1, e2⟩, C43_rejects c0 make p hij (Or.inl ⟨hi, hj⟩)⟩

example (k : Consts ℝ) : ∃ f, Py.caseFile k some ⟨false, true, true, true, true, true⟩ (List.ofFn fun _ : Fin 2 =>
      { blank ℝ with mass := 1, tides := { (blank ℝ).tides with effect := .central (.constantTimeLag 1 1 1) } })
    = some f ∧ f.number = 2 :=
  (C123_violated_unused (n := 1) (i := 0) (j := 1) k some ⟨false, true, true, true, true, true⟩ noEvolver _
    (by decide) (fun _ => rfl) (fun _ => by simp) rfl (by decide) ⟨_, rfl⟩ ⟨_, rfl⟩ (fun _ => rfl) (fun _ => rfl)
    (fun _ => rfl)).1

theorem py_centerOfMassStep_none (l : List (Particle ℝ)) :
    l.foldl Py.centerOfMassStep none = none := by
  induction l with
  | nil => rfl
  | cons p l ih => exact ih

/-- **C123 is violated when the first body has no mass**: no file at all is written (a division by zero). -/
theorem C123_violated_massless (k : Consts ℝ) (evolve : Particle ℝ → Option (Particle ℝ)) (c0 : Consider)
    (p : Fin (n + 1) → Particle ℝ) (he : ∀ i, (p i).evolution = .nonEvolving) (h0 : (p 0).mass = 0) :
    Py.caseFile k evolve c0 (List.ofFn p) = none := by
  unfold Py.caseFile
  split
  · rfl
  rename_i s hs
  obtain ⟨-, -, -, -, -, -, hp⟩ := Py.addAll_some evolve _ _ s hs (by
    intro q hq
    obtain ⟨i, rfl⟩ := (List.mem_ofFn).1 hq
    rw [if_pos (he i)])
  unfold Py.get
  dsimp only
  rw [hp]
  have : Py.centerOfMass ((Py.start c0).particles ++ List.ofFn p) = none := by
    unfold Py.centerOfMass
    rw [if_neg (by simp [List.ofFn_succ])]
    simp only [Py.start, List.nil_append, List.ofFn_succ, List.foldl_cons]
    have hst : Py.centerOfMassStep (some (Axes.zero, Axes.zero, lit 0)) (p 0) = none := by
      simp [Py.centerOfMassStep, h0]
    rw [hst, py_centerOfMassStep_none]
    rfl
  rw [this]

/-- A massless particle and a star in this order: the constructor makes a universe of them. -/
example (k : Consts ℝ) : (∃ u, newUniverse askAll noEvolver (fun i : Fin 2 =>
      if i = 0 then blank ℝ else { blank ℝ with mass := 3 }) = some u)
    ∧ Py.caseFile k some askAll (List.ofFn fun i : Fin 2 =>
      if i = 0 then blank ℝ else { blank ℝ with mass := 3 }) = none := by
  constructor
  · have hm : mostMassive (fun i : Fin 2 => if i = 0 then blank ℝ else { blank ℝ with mass := 3 }) = some 1 := by
      rw [mostMassive_some]
      refine ⟨by simp, fun j => ?_, fun j hj => ?_⟩
      · by_cases hj : j = 0 <;> simp [hj, blank]
      · have : j = 0 := by omega
        simp [this, blank]
    have hno : ∀ role : Particle ℝ → Bool, role (blank ℝ) = false → role { blank ℝ with mass := 3 } = false →
        findHost (fun i : Fin 2 => role (if i = 0 then blank ℝ else { blank ℝ with mass := 3 })) = some none := by
      intro role h1 h2
      rw [findHost_empty]
      intro i
      by_cases hi : i = 0
      · simpa [hi] using h1
      · simpa [hi] using h2
    have a1 := hno (fun q => q.tides.effect.isCentral) rfl rfl
    have a2 := hno (fun q => q.flattening.effect.isCentral) rfl rfl
    have a3 := hno (fun q => q.gr.effect.isCentral) rfl rfl
    have a4 := hno (fun q => q.disk.effect.isCentral) rfl rfl
    have hdis : ∃ c, disableUnnecessary askAll (fun i : Fin 2 =>
          if i = 0 then blank ℝ else { blank ℝ with mass := 3 }) = some c
        ∧ c.tides = false ∧ c.flattening = false ∧ c.gr = false ∧ c.disk = false := by
      unfold disableUnnecessary
      simp only [foundOnce_eq, a1, a2, a3, a4]
      exact ⟨_, rfl, rfl, rfl, rfl, rfl⟩
    obtain ⟨c, hc, c1, c2, c3, c4⟩ := hdis
    unfold newUniverse
    rw [hc]
    dsimp only
    have hfi : ∃ hs, findIndices (fun i : Fin 2 => if i = 0 then blank ℝ else { blank ℝ with mass := 3 }) c
        = some hs := by
      unfold findIndices
      rw [hm]
      simp [findIf, c1, c2, c3, c4]
    obtain ⟨hs, hfi⟩ := hfi
    rw [hfi]
    dsimp only
    rw [if_neg (by decide)]
    obtain ⟨ev, hev⟩ := traverse_of_some (f := (noEvolver : Fin 2 → Option (Evolver ℝ))) (fun _ => rfl)
    rw [hev]
    dsimp only
    have hev : c.evolution = false := by
      obtain ⟨_, _, _, _, -, -, -, -, hce⟩ := disableUnnecessary_found hc
      rw [hce]
      have : foundAny (fun i : Fin 2 =>
          ((if i = 0 then blank ℝ else { blank ℝ with mass := 3 } : Particle ℝ).evolution != .nonEvolving)) = false := by
        simp [foundAny, List.finRange_succ, blank]
      simp only [this, Bool.and_false]
    simp only [hev, Bool.false_eq_true, if_false]
    obtain ⟨r, hr⟩ := traverse_of_some (f := fun i : Fin 2 => some ((
      { toInertial (centerOfMass (grSetup c hs.gr (fun i : Fin 2 => if i = 0 then blank ℝ else { blank ℝ with mass := 3 })).2).1
          (centerOfMass (grSetup c hs.gr (fun i : Fin 2 => if i = 0 then blank ℝ else { blank ℝ with mass := 3 })).2).2
          ((grSetup c hs.gr (fun i : Fin 2 => if i = 0 then blank ℝ else { blank ℝ with mass := 3 })).2 i) with
        id := i.val } : Particle ℝ), ev i)) (fun _ => rfl)
    rw [hr]
    exact ⟨_, rfl⟩
  · exact C123_violated_massless (n := 1) k some askAll _
      (fun i => by by_cases hi : i = 0 <;> simp [hi, blank]) (by simp [blank])

/-- **C123 is violated by a central disk without edges**: in the file it is the host of the disk; in the universe of
the constructor there is no host, although the disk is considered. -/
theorem C123_violated_disk (k : Consts ℝ) (evolve : Particle ℝ → Option (Particle ℝ)) (c0 : Consider)
    (make : Fin (n + 1) → Option (Evolver ℝ)) (p : Fin (n + 1) → Particle ℝ) (u : Universe ℝ (n + 1))
    (hu : newUniverse c0 make p = some u)
    (he : ∀ i, (p i).evolution = .nonEvolving) (hm : ∀ i, 0 < (p i).mass) (h1 : c0.disk = true) {i : Fin (n + 1)}
    (ht : ∀ i, (p i).tides.effect.isCentral = false)
    (hf : ∀ i, (p i).flattening.effect.isCentral = false) (hg : ∀ i, (p i).gr.effect.isCentral = false)
    (hd : ∀ l, (p l).disk.effect.isCentral = true ↔ l = i) (hdi : (p i).disk.effect.hasDisk = false) :
    (∃ f, Py.caseFile k evolve c0 (List.ofFn p) = some f ∧ f.consider.disk = true ∧ f.disk = i)
      ∧ u.consider.disk = true ∧ u.hosts.disk = none := by
  obtain ⟨ev, hdis, hfind, hn, -⟩ := newUniverse_stages hu
  have hn : n + 1 ≤ 10 := hn
  have hi := i.isLt
  obtain ⟨mm, hmm⟩ := exists_mostMassive p (hm 0)
  obtain ⟨f, e1, -, -, -, -, e4, -, -, e5⟩ := py_caseFile_some k evolve c0 p (by omega) he mm hmm
    (py_massesPositive_ofFn p (hm 0) fun i => (hm i).le)
    (py_claimAll_empty _ _ ht) (py_claimAll_empty _ _ hf)
    (py_claimAll_empty _ _ hg)
    (by rw [h1]; exact py_claimAll_only _ i ((hd i).2 rfl) fun l hl => (hd l).1 hl) (Or.inl rfl)
  have e4' : f.consider.disk = true := by rw [e4, h1]; simp; omega
  have hdf : findHost (fun l => (p l).disk.effect.isCentral) = some (some i) :=
    findHost_of ((hd i).2 rfl) fun l hl => (hd l).1 hl
  obtain ⟨t, fl, g, d, -, -, -, a4, hc⟩ := disableUnnecessary_found hdis
  obtain rfl := Option.some.inj (a4.symm.trans hdf)
  have c1 : u.consider.disk = true := by rw [hc]; simp [h1]
  obtain ⟨-, -, -, -, -, hdk, -⟩ := findIndices_found hfind
  refine ⟨⟨f, e1, e4', e5 e4'⟩, c1, ?_⟩
  have hnone : findHost (fun l => (p l).disk.effect.hasDisk) = some none := by
    rw [findHost_empty]
    intro l
    by_cases hl : l = i
    · rw [hl, hdi]
    · have : ¬ (p l).disk.effect.isCentral = true := fun h => hl ((hd l).1 h)
      cases hq : (p l).disk.effect with
      | central d => rw [hq] at this; exact absurd rfl this
      | _ => rfl
  rw [findIf_found hdk hnone, c1]
  rfl

example (k : Consts ℝ) : (∃ f, Py.caseFile k some askAll (List.ofFn starWithEmptyDisk) = some f ∧ f.disk = 0)
    ∧ ∃ u, newUniverse askAll noEvolver starWithEmptyDisk = some u ∧ u.hosts.disk = none := by
  obtain ⟨u, hu, -⟩ := C43_violated
  obtain ⟨⟨f, h1, -, h2⟩, -, h3⟩ := C123_violated_disk (n := 1) (i := 0) k some askAll noEvolver starWithEmptyDisk u hu
    (fun i => by by_cases hi : i = 0 <;> simp [starWithEmptyDisk, hi, blank])
    (fun i => by by_cases hi : i = 0 <;> simp [starWithEmptyDisk, hi]) rfl
    (fun i => by by_cases hi : i = 0 <;> simp [starWithEmptyDisk, hi, blank, TidesEffect.isCentral])
    (fun i => by by_cases hi : i = 0 <;> simp [starWithEmptyDisk, hi, blank, FlatteningEffect.isCentral])
    (fun i => by by_cases hi : i = 0 <;> simp [starWithEmptyDisk, hi, blank, GrEffect.isCentral])
    (fun i => by by_cases hi : i = 0 <;> simp [starWithEmptyDisk, hi, DiskEffect.isCentral])
    (by simp [starWithEmptyDisk, DiskEffect.hasDisk])
  exact ⟨⟨f, h1, h2⟩, u, hu, h3⟩

end Posidonius.Univ
