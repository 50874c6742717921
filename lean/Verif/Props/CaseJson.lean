import Verif.Lemmas.CaseJson
import Verif.Props.FrontEndCases
import Verif.Props.Json

/-!
# C127: the simulator reads the files of the front end

`b` makes a number of the case into a double, `c` is the text of doubles (as for C18).  `pyIntegrator b false k` is the
dictionary that the front end dumps for the case `k`, `stIntegrator b k` is the integrator that the case describes, in the
order of the Rust structures (Spec/CaseJson).
-/

namespace Posidonius.CaseJson
open Posidonius.Json Posidonius.Univ
open Posidonius.Output (F64)

section
variable {N F : Type} [Add F] [Sub F] [Mul F] [Div F] [Neg F] [FOps F]

/-- **C127, for up to ten bodies, finite numbers and Kaula tables of 1024 entries** (missing: all other cases, which are
not read, see below): the simulator reads the integrator that was chosen, in the state that the case describes. -/
theorem C127_partial (b : F → F64) (c : FloatText N) (hc : c.Exact) (kc : Consts F)
    (evolve : Particle F → Option (Particle F)) (c0 : Consider) (l : List (Particle F)) (k : Case F)
    (hf : Py.caseFile kc evolve c0 l = some k.file) (hl : l.length ≤ 10)
    (hn : allFinite (pyIntegrator b false k) = true)
    (hk : ∀ pe ∈ withExtras k.file.particles k.extras, usesKaula pe.1.tides.effect = true → pe.2.kaula.Fits)
    (hi : ∀ e ∈ k.extras, e.evolver.leftIndex < 2 ^ 64) :
    read c (pyIntegrator b false k) = some (k.kind, stIntegrator b k) := by
  obtain ⟨hr, hlen⟩ := caseFile_inRange kc evolve c0 l k.file hf
  exact read_reads b c hc k hn (universe_reads b c hc k hr (by omega) hk fun e he => by have := hi e he; omega) hr

/-- **C127, exactly when**: the cases of `C127_partial` are the only ones that are read at all. -/
theorem C127_exactly (b : F → F64) (c : FloatText N) (hc : c.Exact) (kc : Consts F)
    (evolve : Particle F → Option (Particle F)) (c0 : Consider) (l : List (Particle F)) (k : Case F)
    (hf : Py.caseFile kc evolve c0 l = some k.file) (hi : ∀ e ∈ k.extras, e.evolver.leftIndex < 2 ^ 64) :
    (read c (pyIntegrator b false k)).isSome ↔ l.length ≤ 10 ∧ allFinite (pyIntegrator b false k) = true
      ∧ ∀ pe ∈ withExtras k.file.particles k.extras, usesKaula pe.1.tides.effect = true → pe.2.kaula.Fits := by
  constructor
  · intro h
    obtain ⟨hr, hlen⟩ := caseFile_inRange kc evolve c0 l k.file hf
    refine ⟨?_, ?_, ?_⟩
    · by_contra hl
      rw [read_fails b c false k (universe_fails_length b c false k (by omega))] at h
      simp at h
    · by_contra hn
      simp [read, dump, hn] at h
    · intro pe hpe h1
      by_contra h2
      rw [read_fails b c false k (universe_fails_kaula b c false k pe hpe h1 h2)] at h
      simp at h
  · rintro ⟨h1, h2, h3⟩
    rw [C127_partial b c hc kc evolve c0 l k hf h1 h2 h3 hi]
    rfl

/-- **C127, for the universes of the library**: whenever the library constructs a universe from bodies (with positive running
sums of masses, disks with edges and evolving bodies prepared from the same tables), the front end writes a file of the same
bodies that describes this universe, and the simulator reads it. -/
theorem C127_library_partial [FPow F] [FTrig F] {n : Nat} (b : F → F64) (c : FloatText N) (hc : c.Exact) (kc : Consts F)
    (evolve : Particle F → Option (Particle F)) (c0 : Consider) (make : Fin n → Option (Evolution.Evolver F))
    (p : Fin n → Particle F) (u : Universe F n) (hu : newUniverse c0 make p = some u) (he : Prepares evolve c0 make p)
    (hm : Py.MassesPositive (List.ofFn p) (lit 0))
    (hd : ∀ i, (p i).disk.effect.isCentral = true → (p i).disk.effect.hasDisk = true) :
    ∃ f, Py.caseFile kc evolve c0 (List.ofFn p) = some f ∧ Describes f u ∧ ∀ k : Case F, k.file = f →
      allFinite (pyIntegrator b false k) = true →
      (∀ pe ∈ withExtras k.file.particles k.extras, usesKaula pe.1.tides.effect = true → pe.2.kaula.Fits) →
      (∀ e ∈ k.extras, e.evolver.leftIndex < 2 ^ 64) →
      read c (pyIntegrator b false k) = some (k.kind, stIntegrator b k) := by
  obtain ⟨f, hf, hdesc⟩ := C123_partial kc evolve c0 make p u hu he hm hd
  refine ⟨f, hf, hdesc, fun k hk hn hka hi => ?_⟩
  subst hk
  obtain ⟨_, -, -, hn10, -⟩ := newUniverse_stages hu
  exact C127_partial b c hc kc evolve c0 (List.ofFn p) k hf (by rw [List.length_ofFn]; exact hn10) hn hka hi

/-- **C127 is violated by eleven bodies**: the front end writes their file (C123_violated_eleven), the simulator panics
when it reads it. -/
theorem C127_violated_bodies (b : F → F64) (c : FloatText N) (kc : Consts F)
    (evolve : Particle F → Option (Particle F)) (c0 : Consider) (l : List (Particle F)) (k : Case F)
    (hf : Py.caseFile kc evolve c0 l = some k.file) (hl : l.length = 11) : read c (pyIntegrator b false k) = none := by
  obtain ⟨-, hlen⟩ := caseFile_inRange kc evolve c0 l k.file hf
  exact read_fails b c false k (universe_fails_length b c false k (by omega))

omit [Add F] [Sub F] [Div F] [Neg F] in
/-- **C127 is violated by a Kaula table of another length than 1024**, which the front end takes without a word. -/
theorem C127_violated_kaula (b : F → F64) (c : FloatText N) (k : Case F) (pe : Particle F × Extra F)
    (hpe : pe ∈ withExtras k.file.particles k.extras) (h1 : usesKaula pe.1.tides.effect = true)
    (h2 : pe.2.kaula.frequency.length ≠ 1024) : read c (pyIntegrator b false k) = none :=
  read_fails b c false k (universe_fails_kaula b c false k pe hpe h1 fun h => h2 h.1)

omit [Add F] [Sub F] [Div F] [Neg F] in
/-- **C127 is violated by a number that is not finite**, such as an infinite period of snapshots (no snapshots): the file
has `Infinity` in it, which is not JSON. -/
theorem C127_violated_number (b : F → F64) (c : FloatText N) (k : Case F) (h : finite (b k.historicPeriod) = false) :
    read c (pyIntegrator b false k) = none := by
  have hn : allFinite (pyIntegrator b false k) = false := by
    by_contra hn
    rw [Bool.not_eq_false] at hn
    have key : ∀ l : List (String × Val), pyIntegrator b false k = dict l →
        ("historic_snapshot_period", num b k.historicPeriod) ∈ l → False := by
      intro l hl hm
      rw [hl] at hn
      have := allFiniteFields_go l (by simpa [dict, allFinite] using hn) _ hm
      simp [num, allFinite, h] at this
    cases hk : k.kind with
    | whfast => exact key _ (by simp only [pyIntegrator, hk]; rfl) (by simp [pyCommon])
    | ias15 => exact key _ (by simp only [pyIntegrator, hk]; rfl) (by simp [pyCommon])
    | leapfrog => exact key _ (by simp only [pyIntegrator, hk]; rfl) (by simp [pyCommon])
  simp [read, dump, hn]

omit [Add F] [Sub F] [Div F] [Neg F] in
/-- **C127 is violated by effects that are asked for with `1` instead of `True`**: the front end keeps the number, the
simulator wants a boolean. -/
theorem C127_violated_flags (b : F → F64) (c : FloatText N) (k : Case F)
    (h : k.file.consider.tides = true ∨ k.file.consider.flattening = true ∨ k.file.consider.gr = true
      ∨ k.file.consider.disk = true ∨ k.file.consider.wind = true ∨ k.file.consider.evolution = true) :
    read c (pyIntegrator b true k) = none :=
  read_fails b c true k (universe_fails_ones b c k (consider_fails c k.file.consider h))

end

/-! ## Snapshots of the whole universe -/

/-- No structure of the simulator declares a field twice. -/
theorem universe_wellFormed : WellFormed universeTy := by
  have h0 : WellFormed axes := by simp [axes, fields, WellFormed, WellFormedFields, TFields.names]
  have h1 : WellFormed (struct polynomialsFields) := by
    simp [struct, polynomialsFields, fields, WellFormed, WellFormedFields, TFields.names]
  have h2 : WellFormed kaulaTy := by
    simp [kaulaTy, WellFormed, WellFormedFields, TFields.names, h0, h1]
  have h3 : WellFormed tidalModelTy := by
    simp [tidalModelTy, constantTimeLagTy, creepTy, struct, fields, WellFormed, WellFormedFields, WellFormedVariants,
      TFields.names, h2]
  have h4 : WellFormed forceOutputTy := by
    simp [forceOutputTy, struct, fields, WellFormed, WellFormedFields, TFields.names, h0]
  have h5 : WellFormed coordinatesTy := by
    simp [coordinatesTy, struct, fields, WellFormed, WellFormedFields, TFields.names, h0]
  have h6 : WellFormed tidesTy := by
    simp [tidesTy, tidesEffectTy, tidesInternalFields, struct, fields, WellFormed, WellFormedFields, WellFormedVariants,
      TFields.names, h0, h3, h4, h5]
  have h7 : WellFormed flatteningTy := by
    simp [flatteningTy, flatteningEffectTy, flatteningModelTy, creepTy, flatteningInternalFields, struct, fields,
      WellFormed, WellFormedFields, WellFormedVariants, TFields.names, h0, h4, h5]
  have h8 : WellFormed grTy := by
    simp [grTy, grEffectTy, grImplementationTy, struct, fields, WellFormed, WellFormedFields, WellFormedVariants,
      TFields.names, h4, h5]
  have h9 : WellFormed diskTy := by
    simp [diskTy, diskEffectTy, diskPropertiesTy, struct, fields, WellFormed, WellFormedFields, WellFormedVariants,
      TFields.names, h0, h5]
  have h10 : WellFormed windTy := by
    simp [windTy, struct, fields, WellFormed, WellFormedFields, TFields.names, h0]
  have h11 : WellFormed evolutionTy := by simp [evolutionTy, WellFormed, WellFormedVariants]
  simp [universeTy, struct, fields, WellFormed, WellFormedFields, WellFormedVariants, TFields.names, particleTy,
    evolverTy, considerTy, hostsTy, grImplementationTy, referenceTy, u64, h0, h6, h7, h8, h9, h10, h11]

/-- **C18 with the universe of the simulator** (missing: infinities and NaN): a snapshot of a whole integrator, with all
bodies, effects and evolvers, is read back as it was. -/
theorem C18_partial_universe {N : Type} (c : FloatText N) (hc : c.Exact) (k : Kind) (v : Val) (hv : HasTy (k.ty universeTy) v)
    (hf : Finite v) : restore c universeTy (ser c v) = some (k, v) :=
  C18_partial c hc universeTy universe_wellFormed k v hv hf

/-! ## Finite numbers -/

theorem allFinite_dict (l : List (String × Val)) : allFinite (dict l) = l.all fun e => allFinite e.2 := by
  unfold dict
  rw [allFinite]
  induction l with
  | nil => rfl
  | cons e l ih => simp [dict.go, allFiniteFields, ih]

theorem allFinite_vals (l : List Val) : allFiniteList (vals l) = l.all allFinite := by
  induction l with
  | nil => rfl
  | cons e l ih => simp [vals, allFiniteList, ih]

theorem finite_zero : finite 0#64 = true := by decide
theorem finite_minusOne : finite 13830554455654793216#64 = true := by decide

section
variable {F : Type} (b : F → F64) (hb : ∀ x, finite (b x) = true)
include hb

theorem allFinite_num (x : F) : allFinite (num b x) = true := hb x
theorem allFinite_nums (l : List F) : allFinite (nums b l) = true := by
  simp [nums, allFinite_vals, allFinite, allFinite_num b hb]
theorem allFinite_axes (a : Axes F) : allFinite (pyAxes b a) = true := by
  simp [pyAxes, allFinite_dict, allFinite_num b hb]
theorem allFinite_model (k : KaulaTables F) (m : TidalModel F) : allFinite (pyTidalModel b k m) = true := by
  cases m <;> simp [pyTidalModel, allFinite_dict, allFinite_num b hb, allFinite_nums b hb, allFinite, finite_zero]
theorem allFinite_tides (k : KaulaTables F) (t : Tides F) : allFinite (pyTides b k t) = true := by
  simp only [pyTides, allFinite_dict, allFinite_num b hb, allFinite_axes b hb, List.all_cons, List.all_nil, Bool.and_true]
  unfold pyTidesEffect
  cases t.effect <;> simp [allFinite_dict, allFinite_model b hb, allFinite]
theorem allFinite_flattening (f : Flattening F) : allFinite (pyFlattening b f) = true := by
  simp only [pyFlattening, allFinite_dict, allFinite_num b hb, allFinite_axes b hb, List.all_cons, List.all_nil,
    Bool.and_true]
  cases f.effect with
  | disabled => rfl
  | central m => cases m <;> simp [pyFlatteningModel, allFinite_dict, allFinite_num b hb]
  | orbiting m => cases m <;> simp [pyFlatteningModel, allFinite_dict, allFinite_num b hb]
theorem allFinite_gr (g : Gr F) : allFinite (pyGr b g) = true := by
  simp only [pyGr, allFinite_dict, allFinite_num b hb, allFinite_axes b hb, List.all_cons, List.all_nil, Bool.and_true]
  cases g.effect <;> simp [allFinite_dict, allFinite]
theorem allFinite_disk (d : Disk F) : allFinite (pyDisk b d) = true := by
  simp only [pyDisk, allFinite_dict, allFinite_num b hb, allFinite_axes b hb, List.all_cons, List.all_nil, Bool.and_true]
  cases d.effect <;> simp [allFinite_dict, allFinite, allFinite_num b hb]
theorem allFinite_wind (w : Wind F) : allFinite (pyWind b w) = true := by
  simp [pyWind, allFinite_dict, allFinite_num b hb, allFinite_axes b hb, allFinite]
theorem allFinite_evolution (m : F) (e : Evolution.EvolutionType) : allFinite (pyEvolution b m e) = true := by
  cases e <;> simp [pyEvolution, allFinite_dict, allFinite_num b hb, allFinite]
theorem allFinite_evolver (e : Extra F) : allFinite (pyEvolver b e) = true := by
  simp [pyEvolver, allFinite_dict, allFinite_nums b hb, allFinite_evolution b hb, allFinite]
theorem allFinite_particle (pe : Particle F × Extra F) : allFinite (pyParticle b pe) = true := by
  simp [pyParticle, allFinite_dict, allFinite_num b hb, allFinite_axes b hb, allFinite_tides b hb,
    allFinite_flattening b hb, allFinite_gr b hb, allFinite_disk b hb, allFinite_wind b hb, allFinite_evolution b hb,
    allFinite]

omit hb in
theorem allFinite_flag (o x : Bool) : allFinite (pyFlag o x) = true := by
  cases o <;> cases x <;> simp [pyFlag, allFinite]

omit hb in
theorem allFinite_zeros (n : Nat) : allFinite (zeros n) = true := by
  simp [zeros, allFinite_vals, allFinite, finite_zero]

theorem allFinite_universe [FOps F] (o : Bool) (k : Case F) : allFinite (pyUniverse b o k) = true := by
  simp [pyUniverse, pyConsider, allFinite_dict, allFinite_vals, allFinite, allFinite_num b hb, allFinite_particle b hb,
    allFinite_evolver b hb, allFinite_flag, allFinite_zeros, allFinite]

/-- Finite doubles for all numbers of the case are finite doubles everywhere in the file. -/
theorem allFinite_integrator [Mul F] [FOps F] (o : Bool) (k : Case F) : allFinite (pyIntegrator b o k) = true := by
  unfold pyIntegrator
  split
  all_goals
    simp [pyCommon, allFinite_dict, allFinite_vals, allFinite, allFinite_num b hb, allFinite_universe b hb, allFinite_zeros,
      minusOne, finite_minusOne, finite_zero, pyAlternative, zeroAxes, allFinite]

end

/-! ## Examples -/

/-- Doubles for the numbers 0 and 1, and 2.0 for all others. -/
noncomputable def roughly (x : ℝ) : F64 :=
  open Classical in if x = 0 then 0 else if x = 1 then 0x3FF0000000000000 else 0x4000000000000000

theorem roughly_finite (x : ℝ) : finite (roughly x) = true := by
  unfold roughly
  split
  · decide
  · split <;> decide

/-- The extras of a body without tables. -/
noncomputable def noExtra : Extra ℝ := dummyExtra

theorem noExtra_leftIndex (e : Extra ℝ) (h : e ∈ [noExtra, noExtra]) : e.evolver.leftIndex < 2 ^ 64 := by
  have : e = noExtra := by simpa using h
  subst this
  simp [noExtra, dummyExtra]

/-- A case with the file `f`. -/
noncomputable def demoCase (f : Py.CaseFile ℝ) (kind : Kind) : Case ℝ :=
  { file := f, extras := [noExtra, noExtra], initialTime := 0, timeLimit := 100, timeStep := 1, recoveryPeriod := 10,
    historicPeriod := 1, kind := kind, coordinates := .whds }

theorem starAndPlanet_file (kc : Consts ℝ) (evolve : Particle ℝ → Option (Particle ℝ)) :
    ∃ f, Py.caseFile kc evolve askAll (List.ofFn (starAndPlanet 0 ⟨1, 2, 3⟩ ⟨0, 1, 0⟩)) = some f := by
  obtain ⟨u, hu, -⟩ := starAndPlanet_defined 0 ⟨1, 2, 3⟩ ⟨0, 1, 0⟩
  obtain ⟨f, hf, -⟩ := C123_partial_real kc evolve askAll noEvolver _ u hu
    (prepares_nonEvolving _ _ _ _ fun i => by by_cases hi : i = 0 <;> simp [starAndPlanet, hi, blank])
    (by simp [starAndPlanet]) (fun i => by by_cases hi : i = 0 <;> simp [starAndPlanet, hi])
    (fun i d hd => by by_cases hi : i = 0 <;> simp [starAndPlanet, hi, blank] at hd)
  exact ⟨f, hf⟩

/-- A star with tides and a planet are read by all three integrators. -/
example (kc : Consts ℝ) (kind : Kind) : ∃ f,
    Py.caseFile kc some askAll (List.ofFn (starAndPlanet 0 ⟨1, 2, 3⟩ ⟨0, 1, 0⟩)) = some f
      ∧ read bitsText (pyIntegrator roughly false (demoCase f kind)) = some (kind, stIntegrator roughly (demoCase f kind)) := by
  obtain ⟨f, hf⟩ := starAndPlanet_file kc some
  refine ⟨f, hf, C127_partial roughly bitsText bitsText_exact kc some askAll _ (demoCase f kind) hf (by simp)
    (allFinite_integrator roughly roughly_finite _ _) ?_ noExtra_leftIndex⟩
  intro pe hpe hk
  have he := caseFile_tides kc some (fun p q h => by rw [Option.some.inj h]) askAll _ f hf
  have hm := List.mem_map_of_mem (f := fun p : Particle ℝ => p.tides.effect) (mem_withExtras _ _ _ hpe).1
  rw [show (demoCase f kind).file = f from rfl, he] at hm
  rcases List.mem_append.1 hm with hm | hm
  · obtain ⟨p, hp, h⟩ := List.mem_map.1 hm
    obtain ⟨i, rfl⟩ := List.mem_ofFn.1 hp
    rw [← h] at hk
    by_cases hi : i = 0 <;> simp [starAndPlanet, hi, usesKaula] at hk
  · rw [(List.mem_replicate.1 hm).2] at hk
    cases hk

/-- Eleven bodies. -/
example (kc : Consts ℝ) (kind : Kind) : ∃ f,
    Py.caseFile kc some askAll (List.ofFn fun _ : Fin 11 => { blank ℝ with mass := 1 }) = some f
      ∧ read bitsText (pyIntegrator roughly false (demoCase f kind)) = none := by
  obtain ⟨⟨f, h, -, -⟩, -⟩ := C123_violated_eleven kc some askAll noEvolver
    (fun _ : Fin 11 => { blank ℝ with mass := 1 }) (fun _ => rfl) (by simp) (fun _ => rfl) (fun _ => rfl)
    (fun _ => rfl) (fun _ => rfl)
  exact ⟨f, h, C127_violated_bodies roughly bitsText kc some askAll _ (demoCase f kind) h (by simp)⟩

/-- A single body with the tides of Kaula and empty tables. -/
example (kc : Consts ℝ) (kind : Kind) : ∃ f, Py.caseFile kc some askAll
      [{ blank ℝ with mass := 1, tides := { (blank ℝ).tides with effect := .orbiting .kaula } }] = some f
      ∧ read bitsText (pyIntegrator roughly false (demoCase f kind)) = none := by
  obtain ⟨mm, hmm⟩ := exists_mostMassive (n := 0)
    (fun _ => { blank ℝ with mass := 1, tides := { (blank ℝ).tides with effect := .orbiting .kaula } }) (by simp)
  obtain ⟨f, h1, h2, h3, -⟩ := py_caseFile_some kc some askAll (n := 1)
    (fun _ => { blank ℝ with mass := 1, tides := { (blank ℝ).tides with effect := .orbiting .kaula } }) (by decide)
    (fun _ => rfl) mm hmm (py_massesPositive_ofFn _ (by simp) (by simp)) (py_claimAll_empty _ _ fun _ => rfl)
    (py_claimAll_empty _ _ fun _ => rfl) (py_claimAll_empty _ _ fun _ => rfl) (py_claimAll_empty _ _ fun _ => rfl)
    (Or.inl rfl)
  have he := caseFile_tides kc some (fun p q h => by rw [Option.some.inj h]) askAll _ f h1
  refine ⟨f, by simpa using h1, ?_⟩
  obtain ⟨p, r, hp⟩ : ∃ p r, f.particles = p :: r := by
    cases hf : f.particles with
    | nil => simp [hf] at h3
    | cons p r => exact ⟨p, r, rfl⟩
  refine C127_violated_kaula roughly bitsText (demoCase f kind) (p, noExtra) ?_ ?_ (by simp [noExtra, dummyExtra])
  · simp [demoCase, hp, withExtras]
  · simp [hp] at he
    simp [he.1, usesKaula]

/-- Effects that are asked for with 1. -/
example (kc : Consts ℝ) (kind : Kind) : ∃ f,
    Py.caseFile kc some askAll (List.ofFn (starAndPlanet 0 ⟨1, 2, 3⟩ ⟨0, 1, 0⟩)) = some f
      ∧ read bitsText (pyIntegrator roughly true (demoCase f kind)) = none := by
  obtain ⟨u, hu, h1, -⟩ := starAndPlanet_defined 0 ⟨1, 2, 3⟩ ⟨0, 1, 0⟩
  obtain ⟨f, hf, hd⟩ := C123_partial_real kc some askAll noEvolver _ u hu
    (prepares_nonEvolving _ _ _ _ fun i => by by_cases hi : i = 0 <;> simp [starAndPlanet, hi, blank])
    (by simp [starAndPlanet]) (fun i => by by_cases hi : i = 0 <;> simp [starAndPlanet, hi])
    (fun i d hd => by by_cases hi : i = 0 <;> simp [starAndPlanet, hi, blank] at hd)
  exact ⟨f, hf, C127_violated_flags roughly bitsText (demoCase f kind) (Or.inl (by
    change f.consider.tides = true
    rw [hd.consider, h1]))⟩

/-- The bits of an infinite double for everything but 0. -/
example (f : Py.CaseFile ℝ) (kind : Kind) : read bitsText (pyIntegrator
    (open Classical in fun x : ℝ => if x = 0 then 0 else 0x7FF0000000000000) false (demoCase f kind)) = none :=
  C127_violated_number _ _ _ (by simp [demoCase]; decide)

end Posidonius.CaseJson
