import Verif.Lemmas.FrontEnd
import Verif.Model.RealScalar
import Verif.Model.RealTrig

/-! Property C123: the case file of the Python front end describes the universe of the Rust constructor. -/

namespace Posidonius.Univ
open Evolution (EvolutionType Evolver)

variable {n : Nat}

section
variable {F : Type} [Add F] [Sub F] [Mul F] [Div F] [Neg F] [FOps F]

/-- A particle with another relativistic factor. -/
def Particle.withGrFactor (p : Particle F) (x : F) : Particle F := { p with gr := { p.gr with factor := x } }

/-- The file describes the universe: the same effects, hosts (by their numbers) and particles, in an array of ten.
The relativistic factor of a particle that does not take part in general relativity, which is never used, may be
different. -/
structure Describes (f : Py.CaseFile F) (u : Universe F n) : Prop where
  number : f.number = n
  array : f.particles.length = maxParticles
  consider : f.consider = u.consider
  grImplementation : f.grImplementation = u.grImplementation
  mostMassive : f.mostMassive = u.hosts.mostMassive.val
  tides : f.tides = hostNumber u.hosts.tides
  flattening : f.flattening = hostNumber u.hosts.flattening
  gr : f.gr = hostNumber u.hosts.gr
  disk : f.disk = hostNumber u.hosts.disk
  all : f.all = u.hosts.all
  mostMassiveTides : f.mostMassiveTides = u.hosts.mostMassiveTides
  mostMassiveFlattening : f.mostMassiveFlattening = u.hosts.mostMassiveFlattening
  mostMassiveGr : f.mostMassiveGr = u.hosts.mostMassiveGr
  mostMassiveDisk : f.mostMassiveDisk = u.hosts.mostMassiveDisk
  particles : ∀ i : Fin n, ∃ q, f.particles[i.val]? = some q
    ∧ q.withGrFactor (u.particles i).gr.factor = u.particles i
    ∧ (u.consider.gr = true → q.gr.effect = .orbiting → eqb q.mass (lit 0) = false →
        q.gr.factor = (u.particles i).gr.factor)

variable [FPow F] [FTrig F]

theorem disableUnnecessary_found {c0 c : Consider} {p : Fin n → Particle F} (h : disableUnnecessary c0 p = some c) :
    ∃ t f g d : Option (Fin n), findHost (fun i => (p i).tides.effect.isCentral) = some t
      ∧ findHost (fun i => (p i).flattening.effect.isCentral) = some f
      ∧ findHost (fun i => (p i).gr.effect.isCentral) = some g
      ∧ findHost (fun i => (p i).disk.effect.isCentral) = some d
      ∧ c = { tides := c0.tides && t.isSome, flattening := c0.flattening && f.isSome, gr := c0.gr && g.isSome
              disk := c0.disk && d.isSome, wind := c0.wind && foundAny (fun i => (p i).wind.interaction)
              evolution := c0.evolution && foundAny (fun i => (p i).evolution != .nonEvolving) } := by
  unfold disableUnnecessary at h
  simp only [foundOnce_eq] at h
  split at h
  · rename_i t' f' g' d' ht hf hg hd
    simp only [Option.map_eq_some_iff] at ht hf hg hd
    obtain ⟨t, ht, rfl⟩ := ht
    obtain ⟨f, hf, rfl⟩ := hf
    obtain ⟨g, hg, rfl⟩ := hg
    obtain ⟨d, hd, rfl⟩ := hd
    refine ⟨t, f, g, d, ht, hf, hg, hd, ?_⟩
    have := Option.some.inj h
    subst this
    have key : ∀ a b : Bool, (if (a && !b) = true then false else a) = (a && b) := by decide
    simp only [key]
  · cases h

/-- What `find_indices` gives when it does not panic. -/
theorem findIndices_found {p : Fin n → Particle F} {c : Consider} {hs : Hosts n} (h : findIndices p c = some hs) :
    mostMassive p = some hs.mostMassive
      ∧ findIf c.gr (fun i => (p i).gr.effect.isCentral) = some hs.gr
      ∧ (c.gr = true → hs.gr = some hs.mostMassive)
      ∧ (∃ t, findIf c.tides (fun i => (p i).tides.effect.isCentral) = some t
        ∧ hs.tides = if !c.tides && c.flattening then hs.flattening else t)
      ∧ findIf c.flattening (fun i => (p i).flattening.effect.isCentral) = some hs.flattening
      ∧ findIf c.disk (fun i => (p i).disk.effect.hasDisk) = some hs.disk
      ∧ hs.mostMassiveTides = (c.tides && (some hs.mostMassive == hs.tides))
      ∧ hs.mostMassiveFlattening = (c.flattening && (some hs.mostMassive == hs.flattening))
      ∧ hs.mostMassiveGr = (c.gr && (some hs.mostMassive == hs.gr))
      ∧ hs.mostMassiveDisk = (c.disk && (some hs.mostMassive == hs.disk))
      ∧ hs.all = (((c.tides && hs.mostMassiveTides) || !c.tides)
        && ((c.flattening && hs.mostMassiveFlattening) || !c.flattening)
        && ((c.gr && hs.mostMassiveGr) || !c.gr) && ((c.disk && hs.mostMassiveDisk) || !c.disk)) := by
  unfold findIndices at h
  dsimp only at h
  split at h
  · cases h
  rename_i mm hmm
  split at h
  · cases h
  rename_i g hg
  split at h
  · cases h
  rename_i hgr
  split at h
  · cases h
  rename_i t ht
  split at h
  · cases h
  rename_i f hf
  split at h
  · cases h
  split at h
  · cases h
  rename_i d hd
  have h := Option.some.inj h
  subst h
  refine ⟨hmm, hg, ?_, ⟨t, ht, rfl⟩, hf, hd, rfl, rfl, rfl, rfl, rfl⟩
  intro hc
  dsimp only
  simpa [hc] using (Eq.symm (by simpa [hc] using hgr) : g = some mm)

theorem findIf_found {considered : Bool} {role : Fin n → Bool} {a b : Option (Fin n)}
    (h1 : findIf considered role = some a) (h2 : findHost role = some b) : a = if considered then b else none := by
  unfold findIf at h1
  cases considered with
  | false => simpa using h1.symm
  | true => simpa [h2] using h1.symm

theorem grSetup_eq (c : Consider) (g : Option (Fin n)) (p : Fin n → Particle F) (i : Fin n) :
    (grSetup c g p).2 i = (p i).withGrFactor ((grSetup c g p).2 i).gr.factor := by
  conv_rhs => rw [← grSetup_fields c g p i]
  rfl

theorem GrEffect.isCentral_elim {e : GrEffect} (h : e.isCentral = true) :
    ∃ i, e = .central i ∧ i ≠ .disabled := by
  cases e with
  | central i => exact ⟨i, rfl, by simpa [GrEffect.isCentral] using h⟩
  | _ => simp [GrEffect.isCentral] at h

theorem grSetup_host (c : Consider) (hc : c.gr = true) (h : Fin n) (p : Fin n → Particle F) (i : GrImplementation)
    (hi : (p h).gr.effect = .central i) (hne : i ≠ .disabled) :
    grSetup c (some h) p = (i, mapOthers h grFactor p) := by
  simp [grSetup, hc, hi, hne]

theorem matchEvolution_nonEvolving (p : Particle F) (e : Evolver F) (h : p.evolution = .nonEvolving) :
    matchEvolution p e = some (p, e) := by
  simp [matchEvolution, h]

theorem hostNumber_beq (hn : n ≤ maxParticles) (a b : Option (Fin n)) :
    (hostNumber a == hostNumber b) = (a == b) := by
  by_cases h : a = b
  · subst h; simp
  · have : hostNumber a ≠ hostNumber b := fun e => h (hostNumber_inj hn e)
    rw [beq_eq_false_iff_ne.2 this, beq_eq_false_iff_ne.2 h]

/-- What the front end writes about particles that need no preparation. -/
theorem caseFile_describes (k : Consts F) (c0 : Consider) (p : Fin n → Particle F) (u : Universe F n)
    (hdis : disableUnnecessary c0 p = some u.consider) (hfind : findIndices p u.consider = some u.hosts)
    (hn : n ≤ maxParticles) (himp : u.grImplementation = (grSetup u.consider u.hosts.gr p).1)
    (hpart : ∀ i, u.particles i = { toInertial (centerOfMass p).1 (centerOfMass p).2
      ((p i).withGrFactor ((grSetup u.consider u.hosts.gr p).2 i).gr.factor) with id := i.val })
    (hm : Py.MassesPositive (List.ofFn p) (lit 0))
    (hd : ∀ i, (p i).disk.effect.isCentral = true → (p i).disk.effect.hasDisk = true) :
    ∃ f, Py.caseFile k some c0 (List.ofFn p) = some f ∧ Describes f u := by
  obtain ⟨t, fl, g, d, ht, hf, hg, hdk, hc⟩ := disableUnnecessary_found hdis
  obtain ⟨hmm, hgr, hgrmm, ⟨t', ht', htt⟩, hfl, hdisk, hm1, hm2, hm3, hm4, hall⟩ := findIndices_found hfind
  have hfl0 := findIf_found hfl hf
  have hgr0 := findIf_found hgr hg
  have ht0 := findIf_found ht' ht
  have hdiskrole : (fun i => (p i).disk.effect.hasDisk) = fun i => (p i).disk.effect.isCentral := by
    funext i
    have := hd i
    cases hi : (p i).disk.effect with
    | central e =>
      rw [hi] at this
      exact (this rfl).trans rfl
    | _ => rfl
  rw [hdiskrole] at hdisk
  have hdisk0 := findIf_found hdisk hdk
  have hn0 : n ≠ 0 := by
    have := u.hosts.mostMassive.isLt
    omega
  -- the calls of `add_particle`
  have hadd := Py.addAll_eq some (List.ofFn p) (by intro q _; split <;> rfl) (Py.start c0)
    (by simpa [Py.start] using Nat.le_succ_of_le hn)
    (t := hostNumber (if c0.tides then t else none)) (f := hostNumber (if c0.flattening then fl else none))
    (g := hostNumber (if c0.gr then g else none)) (d := hostNumber (if c0.disk then d else none))
    (by rw [List.map_ofFn]; exact Py.claimAll_findHost _ _ _ ht)
    (by rw [List.map_ofFn]; exact Py.claimAll_findHost _ _ _ hf)
    (by rw [List.map_ofFn]; exact Py.claimAll_findHost _ _ _ hg)
    (by rw [List.map_ofFn]; exact Py.claimAll_findHost _ _ _ hdk)
  -- the implementation
  have himpl : Py.implementations c0.gr (List.ofFn p) .disabled = u.grImplementation := by
    rw [himp]
    by_cases hcg : c0.gr = true
    · cases hgc : g with
      | none =>
        have hcf : u.consider.gr = false := by rw [hc]; simp [hgc]
        rw [hgc, findHost_empty] at hg
        rw [Py.implementations_none _ _ (by simpa [List.mem_ofFn] using hg)]
        simp [grSetup, hcf]
      | some h =>
        have hct : u.consider.gr = true := by rw [hc]; simp [hgc, hcg]
        rw [hgc, findHost_some] at hg
        obtain ⟨i, hi, hne⟩ := GrEffect.isCentral_elim hg.1
        have : u.hosts.gr = some h := by rw [hgr0, hct, hgc]; rfl
        rw [this, grSetup_host _ hct _ _ _ hi hne, hcg]
        exact Py.implementations_one p h i hi hne hg.2 _
    · have hcf : u.consider.gr = false := by rw [hc]; simp [hcg]
      rw [Bool.not_eq_true] at hcg
      rw [hcg, Py.implementations_ignored]
      simp [grSetup, hcf]
  have hcom := Py.centerOfMass_eq p hn0 hm
  -- the considered effects
  have hcons : ∀ s : Py.Front F, s.consider = c0 → s.particles = List.ofFn p →
      s.tides = hostNumber (if c0.tides then t else none) →
      s.flattening = hostNumber (if c0.flattening then fl else none) →
      s.gr = hostNumber (if c0.gr then g else none) →
      s.disk = hostNumber (if c0.disk then d else none) → Py.disableUnnecessary s = u.consider := by
    intro s h1 h2 h3 h4 h5 h6
    have key : ∀ (a : Bool) (x : Option (Fin n)),
        (if (a && hostNumber (if a then x else none) == maxParticles + 1) = true then false else a)
          = (a && x.isSome) := by
      intro a x
      cases a with
      | false => rfl
      | true =>
        simp only [if_true, Bool.true_and]
        cases x with
        | none => simp [hostNumber]
        | some i =>
          have : i.val ≠ maxParticles + 1 := by have := i.isLt; omega
          simp [hostNumber, this]
    have key2 : ∀ a b : Bool, (if (a && !b) = true then false else a) = (a && b) := by decide
    unfold Py.disableUnnecessary
    rw [h1, h2, h3, h4, h5, h6, Py.foundAny_foldl p (fun q => q.evolution != .nonEvolving),
      Py.foundAny_foldl p (fun q => q.wind.interaction), hc]
    simp only [key, key2]
  unfold Py.caseFile
  rw [hadd]
  dsimp only [Py.start, List.nil_append]
  unfold Py.get
  rw [hcons _ rfl rfl rfl rfl rfl rfl]
  dsimp only
  rw [hcom]
  dsimp only
  rw [List.map_ofFn, Py.assignIds_eq]
  have hmmP : Py.mostMassive (List.ofFn fun i =>
      ({ (Py.toInertial (centerOfMass p) ∘ p) i with id := i.val } : Particle F))
        = u.hosts.mostMassive.val := by
    rw [Py.mostMassive_eq]
    have : mostMassive (fun i => ({ (Py.toInertial (centerOfMass p) ∘ p) i with id := i.val } : Particle F))
        = mostMassive p := rfl
    rw [this, hmm]
    rfl
  rw [hmmP]
  have hgnum : ¬ (hostNumber (if c0.gr then g else none) ≠ maxParticles + 1 ∧
      hostNumber (if c0.gr then g else none) ≠ u.hosts.mostMassive.val) := by
    rintro ⟨h1, h2⟩
    rw [Ne, hostNumber_none_iff hn] at h1
    have hcg : c0.gr = true := by
      by_contra hcf
      simp [hcf] at h1
    simp only [hcg, if_true] at h1 h2
    have hct : u.consider.gr = true := by
      rw [hc]
      cases g with
      | none => exact absurd rfl h1
      | some h => simp [hcg]
    have := hgrmm hct
    rw [hgr0, hct] at this
    simp only [if_true] at this
    rw [this] at h2
    exact h2 rfl
  rw [if_neg hgnum]
  have hcT : u.consider.tides = (c0.tides && t.isSome) := by rw [hc]
  have hcF : u.consider.flattening = (c0.flattening && fl.isSome) := by rw [hc]
  have hcG : u.consider.gr = (c0.gr && g.isSome) := by rw [hc]
  have hcD : u.consider.disk = (c0.disk && d.isSome) := by rw [hc]
  have on : ∀ {a b : Bool} {x : Option (Fin n)}, a = (b && x.isSome) → a = true →
      (if b = true then x else none) = x := by
    intro a b x h1 h2
    rw [h2] at h1
    have : b = true := by
      cases b with
      | false => exact absurd h1 (by simp)
      | true => rfl
    simp [this]
  have bool : ∀ {a b : Bool} {x y : Option (Fin n)}, a = (b && x.isSome) → y = (if a = true then x else none) →
      (a && u.hosts.mostMassive.val == hostNumber (if b = true then x else none))
        = (a && (some u.hosts.mostMassive == y)) := by
    intro a b x y h1 h2
    cases ha : a with
    | false => rfl
    | true =>
      rw [on h1 ha, h2, ha, if_pos rfl, ← hostNumber_beq hn]
      rfl
  have num : ∀ {a b : Bool} {x y : Option (Fin n)}, a = (b && x.isSome) → y = (if a = true then x else none) →
      (if (!a) = true then maxParticles + 1 else hostNumber (if b = true then x else none)) = hostNumber y := by
    intro a b x y h1 h2
    cases ha : a with
    | false => rw [h2, ha]; rfl
    | true => rw [on h1 ha, h2, ha]; rfl
  have htT : u.consider.tides = true → u.hosts.tides = t := by
    intro h
    rw [htt, ht0, h]
    rfl
  have hT : (u.consider.tides && u.hosts.mostMassive.val == hostNumber (if c0.tides = true then t else none))
      = u.hosts.mostMassiveTides := by
    rw [bool hcT ht0, hm1]
    cases ha : u.consider.tides with
    | false => rfl
    | true => rw [htT ha, ht0, ha]; rfl
  have hF := bool hcF hfl0
  have hG := bool hcG hgr0
  have hD := bool hcD hdisk0
  rw [← hm2] at hF
  rw [← hm3] at hG
  rw [← hm4] at hD
  have hget : (List.ofFn fun i => ({ (Py.toInertial (centerOfMass p) ∘ p) i with id := i.val } : Particle F))[
      u.hosts.mostMassive.val]? = some { Py.toInertial (centerOfMass p) (p u.hosts.mostMassive) with
        id := u.hosts.mostMassive.val } := by
    simp
  rw [hget]
  refine ⟨_, rfl, ?_⟩
  constructor
  · simp
  · simp
    exact Nat.add_sub_cancel' hn
  · rfl
  · exact himpl
  · rfl
  · dsimp only
    rw [htt, ht0]
    cases ha : u.consider.tides with
    | false =>
      cases hb : u.consider.flattening with
      | false => rfl
      | true => simp [on hcF hb, hfl0, hb]
    | true => simp [on hcT ha]
  · exact num hcF hfl0
  · exact num hcG hgr0
  · exact num hcD hdisk0
  · dsimp only
    rw [hT, hF, hG, hD, hall]
  · exact hT
  · exact hF
  · exact hG
  · exact hD
  · intro i
    have hui := hpart i
    refine ⟨Py.withFactor u.consider.gr (p u.hosts.mostMassive).massG
      { toInertial (centerOfMass p).1 (centerOfMass p).2 (p i) with id := i.val }, ?_, ?_, ?_⟩
    · rw [List.getElem?_append_left (by simp)]
      simp
      rfl
    · rw [hui]
      rfl
    · intro hcg hor hmass
      have hgm := hgrmm hcg
      rw [hui, hgm]
      rw [hgr0, hcg, if_pos rfl] at hgm
      rw [hgm, findHost_some] at hg
      obtain ⟨im, hi, hne⟩ := GrEffect.isCentral_elim hg.1
      rw [grSetup_host _ hcg _ _ _ hi hne]
      have hor' : (p i).gr.effect = .orbiting := hor
      have hih : i ≠ u.hosts.mostMassive := by
        intro h
        rw [h, hi] at hor'
        cases hor'
      have hmass' : eqb (p i).mass (lit 0) = false := hmass
      simp [mapOthers, hih, grFactor, toInertial, Particle.withGrFactor, Py.withFactor, hcg, hor', GrEffect.isCentral,
        hmass', ipow]

/-- The same body, perhaps of another size and rotation. -/
def Particle.SameBody (p q : Particle F) : Prop :=
  ∃ r rg2 i l, q = { p with radius := r, radiusOfGyration2 := rg2, momentOfInertia := i, angularMomentum := l }

theorem matchEvolution_sameBody {p q : Particle F} {e e' : Evolver F} (h : matchEvolution p e = some (q, e')) :
    p.SameBody q := by
  unfold matchEvolution at h
  split at h
  · have h : p = q := congrArg Prod.fst (Option.some.inj h)
    exact ⟨_, _, _, _, h.symm⟩
  · split at h
    · simp at h
    · split at h
      · simp at h
      · dsimp only at h
        split at h
        · exact ⟨_, _, _, _, (congrArg Prod.fst (Option.some.inj h)).symm⟩
        · exact ⟨_, _, _, _, (congrArg Prod.fst (Option.some.inj h)).symm⟩

/-- The evolution does not ask where the body is. -/
theorem matchEvolution_moved (p : Particle F) (x : F) (a b : Axes F) (i : Nat) (e : Evolver F) :
    matchEvolution { toInertial a b (p.withGrFactor x) with id := i } e
      = (matchEvolution p e).map fun r => ({ toInertial a b (r.1.withGrFactor x) with id := i }, r.2) := by
  unfold matchEvolution
  dsimp only [toInertial, Particle.withGrFactor]
  split
  · rfl
  · split
    · rfl
    · split
      · rfl
      · split <;> rfl

section
variable {p q : Fin n → Particle F} (h : ∀ i, (p i).SameBody (q i))
include h

theorem SameBody.field {α : Type} (π : Particle F → α) (hπ : ∀ p q : Particle F, p.SameBody q → π q = π p) :
    (fun i => π (q i)) = fun i => π (p i) := funext fun i => hπ _ _ (h i)

theorem SameBody.disableUnnecessary (c0 : Consider) : disableUnnecessary c0 q = disableUnnecessary c0 p := by
  unfold Univ.disableUnnecessary
  rw [SameBody.field h (fun q => q.tides.effect.isCentral) (by rintro p q ⟨_, _, _, _, rfl⟩; rfl),
    SameBody.field h (fun q => q.flattening.effect.isCentral) (by rintro p q ⟨_, _, _, _, rfl⟩; rfl),
    SameBody.field h (fun q => q.gr.effect.isCentral) (by rintro p q ⟨_, _, _, _, rfl⟩; rfl),
    SameBody.field h (fun q => q.disk.effect.isCentral) (by rintro p q ⟨_, _, _, _, rfl⟩; rfl),
    SameBody.field h (fun q => q.wind.interaction) (by rintro p q ⟨_, _, _, _, rfl⟩; rfl),
    SameBody.field h (fun q => q.evolution != .nonEvolving) (by rintro p q ⟨_, _, _, _, rfl⟩; rfl)]

theorem SameBody.mostMassive : mostMassive q = mostMassive p := by
  unfold Univ.mostMassive
  have : (fun (best : Option (Fin n) × F) i => if ltb best.2 (q i).mass then (some i, (q i).mass) else best)
      = fun best i => if ltb best.2 (p i).mass then (some i, (p i).mass) else best := by
    funext best i
    obtain ⟨_, _, _, _, hi⟩ := h i
    rw [hi]
  rw [this]

theorem SameBody.findIndices (c : Consider) : findIndices q c = findIndices p c := by
  unfold Univ.findIndices
  rw [SameBody.mostMassive h,
    SameBody.field h (fun q => q.tides.effect.isCentral) (by rintro p q ⟨_, _, _, _, rfl⟩; rfl),
    SameBody.field h (fun q => q.flattening.effect.isCentral) (by rintro p q ⟨_, _, _, _, rfl⟩; rfl),
    SameBody.field h (fun q => q.gr.effect.isCentral) (by rintro p q ⟨_, _, _, _, rfl⟩; rfl),
    SameBody.field h (fun q => q.disk.effect.hasDisk) (by rintro p q ⟨_, _, _, _, rfl⟩; rfl)]

theorem SameBody.grSetup (c : Consider) (g : Option (Fin n)) :
    (grSetup c g q).1 = (grSetup c g p).1
      ∧ ∀ i, ((grSetup c g q).2 i).gr.factor = ((grSetup c g p).2 i).gr.factor := by
  have hgr := fun i => congrFun (SameBody.field h (fun q => q.gr) (by rintro p q ⟨_, _, _, _, rfl⟩; rfl)) i
  have hmassG := fun i => congrFun (SameBody.field h (fun q => q.massG) (by rintro p q ⟨_, _, _, _, rfl⟩; rfl)) i
  have hf : ∀ l i, (mapOthers l grFactor q i).gr.factor = (mapOthers l grFactor p i).gr.factor := by
    intro l i
    unfold mapOthers
    split
    · rw [hgr]
    · unfold grFactor
      rw [hmassG, hmassG]
  unfold Univ.grSetup
  split
  · cases g with
    | none => exact ⟨rfl, fun i => by rw [hgr]⟩
    | some l =>
      dsimp only
      rw [hgr]
      split
      · split
        · exact ⟨rfl, fun i => hf _ i⟩
        · exact ⟨rfl, fun i => by rw [hgr]⟩
      · exact ⟨rfl, fun i => by rw [hgr]⟩
  · exact ⟨rfl, fun i => by rw [hgr]⟩

theorem SameBody.centerOfMass : centerOfMass q = centerOfMass p :=
  Py.centerOfMass_congr _ _ fun i => by
    obtain ⟨_, _, _, _, hi⟩ := h i
    rw [hi]
    exact ⟨rfl, rfl, rfl⟩

end

theorem Py.massesPositive_congr {l l' : List (Particle F)} (h : List.Forall₂ (fun p q => q.mass = p.mass) l l') (m : F)
    (hm : Py.MassesPositive l m) : Py.MassesPositive l' m := by
  induction h generalizing m with
  | nil => trivial
  | cons hpq _ ih =>
    obtain ⟨h1, h2, h3⟩ := hm
    exact ⟨by rw [hpq]; exact h1, by rw [hpq]; exact h2, by rw [hpq]; exact ih _ h3⟩

theorem forall₂_ofFn {A B : Type} {R : A → B → Prop} {a : Fin n → A} {b : Fin n → B} (h : ∀ i, R (a i) (b i)) :
    List.Forall₂ R (List.ofFn a) (List.ofFn b) := by
  rw [List.forall₂_iff_get]
  refine ⟨by simp, fun i h1 h2 => ?_⟩
  simp only [List.get_eq_getElem, List.getElem_ofFn]
  exact h _

/-- The front end prepares evolving bodies as the library does: it takes the size from the tables, if the evolution is
asked for. -/
def Prepares (evolve : Particle F → Option (Particle F)) (c0 : Consider) (make : Fin n → Option (Evolver F))
    (p : Fin n → Particle F) : Prop :=
  ∀ i e, make i = some e → (p i).evolution ≠ .nonEvolving →
    evolve (p i) = if c0.evolution then (matchEvolution (p i) e).map Prod.fst else some (p i)

theorem foundAny_of {role : Fin n → Bool} {i : Fin n} (h : role i = true) : foundAny role = true := (foundAny_eq _).2 ⟨i, h⟩

/-- **C123** (partial: see the violations below for its conditions): whenever the Rust constructor accepts a system, the
front end accepts it too, and the file that it writes describes the universe of the constructor — in any arithmetic,
provided that the running sums of the masses are positive, every central body of a disk has an edge, and evolving bodies
are prepared as in the library (for which see C124). -/
theorem C123_partial (k : Consts F) (evolve : Particle F → Option (Particle F)) (c0 : Consider)
    (make : Fin n → Option (Evolver F)) (p : Fin n → Particle F) (u : Universe F n)
    (hu : newUniverse c0 make p = some u)
    (he : Prepares evolve c0 make p)
    (hm : Py.MassesPositive (List.ofFn p) (lit 0))
    (hd : ∀ i, (p i).disk.effect.isCentral = true → (p i).disk.effect.hasDisk = true) :
    ∃ f, Py.caseFile k evolve c0 (List.ofFn p) = some f ∧ Describes f u := by
  obtain ⟨evolvers, hdis, hfind, hn, hmake, himp, hpart⟩ := newUniverse_stages hu
  have hcong : centerOfMass (grSetup u.consider u.hosts.gr p).2 = centerOfMass p := by
    apply Py.centerOfMass_congr
    intro j
    rw [grSetup_eq]
    exact ⟨rfl, rfl, rfl⟩
  have hc := (disableUnnecessary_found hdis)
  obtain ⟨_, _, _, _, -, -, -, -, hc⟩ := hc
  have hcev : u.consider.evolution
      = (c0.evolution && foundAny (fun i => (p i).evolution != .nonEvolving)) := by rw [hc]
  -- the prepared bodies
  have key : ∀ i, ∃ q, (if (p i).evolution = .nonEvolving then some (p i) else evolve (p i)) = some q
      ∧ (p i).SameBody q
      ∧ u.particles i = { toInertial (centerOfMass p).1 (centerOfMass p).2
        (q.withGrFactor ((grSetup u.consider u.hosts.gr p).2 i).gr.factor) with id := i.val } := by
    intro i
    have hi := hpart i
    dsimp only at hi
    rw [hcong, grSetup_eq, matchEvolution_moved] at hi
    by_cases hne : (p i).evolution = .nonEvolving
    · refine ⟨p i, by rw [if_pos hne], ⟨_, _, _, _, rfl⟩, ?_⟩
      split at hi
      · rw [matchEvolution_nonEvolving _ _ hne] at hi
        exact (congrArg Prod.fst (Option.some.inj hi)).symm
      · exact hi.1
    · rw [if_neg hne, he i _ (hmake i) hne]
      have hfound : foundAny (fun i => (p i).evolution != .nonEvolving) = true :=
        foundAny_of (i := i) (by simpa using hne)
      rw [hfound, Bool.and_true] at hcev
      rw [hcev] at hi
      split at hi
      · rename_i hce
        rw [if_pos hce]
        cases hq : matchEvolution (p i) (evolvers i) with
        | none => rw [hq] at hi; cases hi
        | some r =>
          obtain ⟨q, e'⟩ := r
          rw [hq] at hi
          exact ⟨q, rfl, matchEvolution_sameBody hq, (congrArg Prod.fst (Option.some.inj hi)).symm⟩
      · rename_i hce
        rw [if_neg hce]
        exact ⟨p i, rfl, ⟨_, _, _, _, rfl⟩, hi.1⟩
  choose q hq1 hq2 hq3 using key
  have hfile : Py.caseFile k evolve c0 (List.ofFn p) = Py.caseFile k some c0 (List.ofFn q) := by
    unfold Py.caseFile
    rw [Py.addAll_evolved evolve (l' := List.ofFn q)]
    apply forall₂_ofFn
    intro i
    refine ⟨hq1 i, ?_⟩
    obtain ⟨_, _, _, _, hi⟩ := hq2 i
    rw [hi]
    exact ⟨rfl, rfl, rfl, rfl⟩
  rw [hfile]
  apply caseFile_describes k c0 q u ((SameBody.disableUnnecessary hq2 c0).trans hdis)
    ((SameBody.findIndices hq2 _).trans hfind) hn (himp.trans (SameBody.grSetup hq2 _ _).1.symm)
  · intro i
    rw [SameBody.centerOfMass hq2, (SameBody.grSetup hq2 _ _).2]
    exact hq3 i
  · refine Py.massesPositive_congr (forall₂_ofFn fun i => ?_) _ hm
    obtain ⟨_, _, _, _, hi⟩ := hq2 i
    rw [hi]
  · intro i
    obtain ⟨_, _, _, _, hi⟩ := hq2 i
    rw [hi]
    exact hd i

/-- Bodies that do not evolve need no preparation. -/
theorem prepares_nonEvolving (evolve : Particle F → Option (Particle F)) (c0 : Consider)
    (make : Fin n → Option (Evolver F)) (p : Fin n → Particle F) (he : ∀ i, (p i).evolution = .nonEvolving) :
    Prepares evolve c0 make p := fun i _ _ h => absurd (he i) h

/-- A role that was claimed without an exception is found by the constructor. -/
theorem findHost_claimed (hn : n ≤ maxParticles) {considered : Bool} {role : Fin n → Bool} {x : Nat}
    (h : Py.claimAll considered (List.ofFn role) (maxParticles + 1) 0 = some x)
    (hu : considered = false → ∀ i j, role i = true → role j = true → i = j) :
    ∃ i, findHost role = some i ∧ x = hostNumber (if considered then i else none) := by
  cases considered with
  | true =>
    obtain ⟨i, h1, h2⟩ := Py.findHost_claimAll (Nat.le_succ_of_le hn) role x h
    exact ⟨i, h1, by simpa using h2⟩
  | false =>
    have hu := hu rfl
    by_cases hex : ∃ i, role i = true
    · obtain ⟨i, hi⟩ := hex
      have hf : findHost role = some (some i) := findHost_some.2 ⟨hi, fun j hj => hu j i hj hi⟩
      refine ⟨_, hf, ?_⟩
      have := Py.claimAll_findHost false role _ hf
      rw [h] at this
      exact Option.some.inj this
    · push Not at hex
      have hf : findHost role = some none := findHost_empty.2 fun j => by simpa using hex j
      refine ⟨_, hf, ?_⟩
      have := Py.claimAll_findHost false role _ hf
      rw [h] at this
      exact Option.some.inj this

theorem traverse_of_some {A : Type} {f : Fin n → Option A} (h : ∀ i, (f i).isSome = true) :
    ∃ r, traverse f = some r := ⟨_, dif_pos h⟩

/-- **C123, the other direction**: a file of the front end describes the universe
that the constructor makes of the same particles, provided that there are at most ten, an effect that is not asked for
has at most one central body, tides and flattening (when both are considered) have the same central body, central
bodies of a disk have an edge, the running sums of the masses are positive, and evolving bodies are prepared as in the
library.  The violations below show that none of
these conditions is checked by the front end or, for the last two, by the constructor. -/
theorem C123_partial_file (k : Consts F) (evolve : Particle F → Option (Particle F)) (c0 : Consider)
    (make : Fin n → Option (Evolver F)) (p : Fin n → Particle F) (f : Py.CaseFile F)
    (hf : Py.caseFile k evolve c0 (List.ofFn p) = some f)
    (he : Prepares evolve c0 make p) (hmake : ∀ i, (make i).isSome = true)
    (hn : n ≤ 10)
    (htu : c0.tides = false → ∀ i j, (p i).tides.effect.isCentral = true → (p j).tides.effect.isCentral = true → i = j)
    (hfu : c0.flattening = false → ∀ i j, (p i).flattening.effect.isCentral = true →
      (p j).flattening.effect.isCentral = true → i = j)
    (hgu : c0.gr = false → ∀ i j, (p i).gr.effect.isCentral = true → (p j).gr.effect.isCentral = true → i = j)
    (hdu : c0.disk = false → ∀ i j, (p i).disk.effect.isCentral = true → (p j).disk.effect.isCentral = true → i = j)
    (hsame : f.consider.tides = true → f.consider.flattening = true → f.tides = f.flattening)
    (hm : Py.MassesPositive (List.ofFn p) (lit 0))
    (hd : ∀ i, (p i).disk.effect.isCentral = true → (p i).disk.effect.hasDisk = true) :
    ∃ u, newUniverse c0 make p = some u ∧ Describes f u := by
  suffices h : ∃ u, newUniverse c0 make p = some u by
    obtain ⟨u, hu⟩ := h
    obtain ⟨f', h1, h2⟩ := C123_partial k evolve c0 make p u hu he hm hd
    rw [hf] at h1
    exact ⟨u, hu, (Option.some.inj h1) ▸ h2⟩
  have hn' : n ≤ maxParticles := hn
  unfold Py.caseFile at hf
  split at hf
  · cases hf
  rename_i s hs
  obtain ⟨ev, hev⟩ := traverse_of_some hmake
  have hev' := fun i => traverse_some hev i
  have hsome := Py.addAll_isSome evolve _ _ s hs
  -- the prepared bodies
  have key : ∀ i, ∃ q, (if (p i).evolution = .nonEvolving then some (p i) else evolve (p i)) = some q
      ∧ (p i).SameBody q ∧ (c0.evolution = true → ∃ e', matchEvolution (p i) (ev i) = some (q, e')) := by
    intro i
    obtain ⟨q, hq⟩ := hsome (p i) (List.mem_ofFn.2 ⟨i, rfl⟩)
    refine ⟨q, hq, ?_⟩
    split at hq
    · rename_i hne
      have := Option.some.inj hq
      subst this
      exact ⟨⟨_, _, _, _, rfl⟩, fun _ => ⟨_, matchEvolution_nonEvolving _ _ hne⟩⟩
    · rename_i hne
      rw [he i _ (hev' i) hne] at hq
      split at hq
      · rename_i hce
        obtain ⟨⟨q', e'⟩, h1, h2⟩ := Option.map_eq_some_iff.1 hq
        dsimp only at h2
        subst h2
        exact ⟨matchEvolution_sameBody h1, fun _ => ⟨e', h1⟩⟩
      · rename_i hce
        have := Option.some.inj hq
        subst this
        exact ⟨⟨_, _, _, _, rfl⟩, fun h => absurd h hce⟩
  choose q hq1 hq2 hq3 using key
  have hadd : Py.addAll evolve (Py.start c0) (List.ofFn p) = Py.addAll some (Py.start c0) (List.ofFn q) := by
    rw [Py.addAll_evolved evolve (l' := List.ofFn q)]
    apply forall₂_ofFn
    intro i
    refine ⟨hq1 i, ?_⟩
    obtain ⟨_, _, _, _, hi⟩ := hq2 i
    rw [hi]
    exact ⟨rfl, rfl, rfl, rfl⟩
  rw [hadd] at hs
  obtain ⟨-, ht, hfl, hg, hdk, hcons, hpart⟩ := Py.addAll_some some _ _ s hs (by intro q _; split <;> rfl)
  simp only [Py.start, List.length_nil, List.map_ofFn, List.nil_append] at ht hfl hg hdk hcons hpart
  have r1 := SameBody.field hq2 (fun q => q.tides.effect.isCentral) (by rintro p q ⟨_, _, _, _, rfl⟩; rfl)
  have r2 := SameBody.field hq2 (fun q => q.flattening.effect.isCentral) (by rintro p q ⟨_, _, _, _, rfl⟩; rfl)
  have r3 := SameBody.field hq2 (fun q => q.gr.effect.isCentral) (by rintro p q ⟨_, _, _, _, rfl⟩; rfl)
  have r4 := SameBody.field hq2 (fun q => q.disk.effect.isCentral) (by rintro p q ⟨_, _, _, _, rfl⟩; rfl)
  have r5 := SameBody.field hq2 (fun q => q.wind.interaction) (by rintro p q ⟨_, _, _, _, rfl⟩; rfl)
  have r6 := SameBody.field hq2 (fun q => q.evolution != .nonEvolving) (by rintro p q ⟨_, _, _, _, rfl⟩; rfl)
  change Py.claimAll _ (List.ofFn fun i => (q i).tides.effect.isCentral) _ _ = _ at ht
  change Py.claimAll _ (List.ofFn fun i => (q i).flattening.effect.isCentral) _ _ = _ at hfl
  change Py.claimAll _ (List.ofFn fun i => (q i).gr.effect.isCentral) _ _ = _ at hg
  change Py.claimAll _ (List.ofFn fun i => (q i).disk.effect.isCentral) _ _ = _ at hdk
  rw [r1] at ht
  rw [r2] at hfl
  rw [r3] at hg
  rw [r4] at hdk
  obtain ⟨t, ht1, ht2⟩ := findHost_claimed hn' ht htu
  obtain ⟨fl, hf1, hf2⟩ := findHost_claimed hn' hfl hfu
  obtain ⟨g, hg1, hg2⟩ := findHost_claimed hn' hg hgu
  obtain ⟨d, hd1, hd2⟩ := findHost_claimed hn' hdk hdu
  have hdis : ∃ c, disableUnnecessary c0 p = some c := by
    unfold disableUnnecessary
    simp only [foundOnce_eq]
    change findHost (fun i => (p i).tides.effect.isCentral) = _ at ht1
    change findHost (fun i => (p i).flattening.effect.isCentral) = _ at hf1
    change findHost (fun i => (p i).gr.effect.isCentral) = _ at hg1
    change findHost (fun i => (p i).disk.effect.isCentral) = _ at hd1
    rw [ht1, hf1, hg1, hd1]
    exact ⟨_, rfl⟩
  obtain ⟨c, hc⟩ := hdis
  obtain ⟨t', f', g', d', e1, e2, e3, e4, hceq⟩ := disableUnnecessary_found hc
  obtain rfl : t' = t := Option.some.inj (e1.symm.trans ht1)
  obtain rfl : f' = fl := Option.some.inj (e2.symm.trans hf1)
  obtain rfl : g' = g := Option.some.inj (e3.symm.trans hg1)
  obtain rfl : d' = d := Option.some.inj (e4.symm.trans hd1)
  -- the effects in the file
  have hcfile : Py.disableUnnecessary s = c := by
    have key : ∀ (a : Bool) (x : Option (Fin n)),
        (if (a && hostNumber (if a then x else none) == maxParticles + 1) = true then false else a)
          = (a && x.isSome) := by
      intro a x
      cases a with
      | false => rfl
      | true =>
        simp only [if_true, Bool.true_and]
        cases x with
        | none => simp [hostNumber]
        | some i =>
          have : i.val ≠ maxParticles + 1 := by have := i.isLt; omega
          simp [hostNumber, this]
    have key2 : ∀ a b : Bool, (if (a && !b) = true then false else a) = (a && b) := by decide
    unfold Py.disableUnnecessary
    rw [hcons, hpart, ht2, hf2, hg2, hd2, Py.foundAny_foldl q (fun q => q.evolution != .nonEvolving),
      Py.foundAny_foldl q (fun q => q.wind.interaction), r5, r6, hceq]
    simp only [key, key2]
  unfold Py.get at hf
  rw [hcfile, hpart] at hf
  dsimp only at hf
  split at hf
  · cases hf
  rename_i com hcom
  rw [List.map_ofFn, Py.assignIds_eq, Py.mostMassive_eq] at hf
  have hmm0 : mostMassive (fun i => ({ (Py.toInertial com ∘ q) i with id := i.val } : Particle F)) = mostMassive p :=
    (show _ = mostMassive q from rfl).trans (SameBody.mostMassive hq2)
  rw [hmm0] at hf
  split at hf
  · cases hf
  rename_i hguard
  split at hf
  · cases hf
  rename_i central hcentral
  have hf := Option.some.inj hf
  have hmm : ∃ mm, mostMassive p = some mm := by
    cases hmm : mostMassive p with
    | some mm => exact ⟨mm, rfl⟩
    | none =>
      rw [hmm] at hcentral
      have := List.getElem?_eq_some_iff.1 hcentral
      obtain ⟨hlt, -⟩ := this
      simp [hostNumber] at hlt
      omega
  obtain ⟨mm, hmm⟩ := hmm
  have hdiskrole : (fun i => (p i).disk.effect.hasDisk) = fun i => (p i).disk.effect.isCentral := by
    funext i
    have := hd i
    cases hi : (p i).disk.effect with
    | central e =>
      rw [hi] at this
      exact (this rfl).trans rfl
    | _ => rfl
  have hif : ∀ (a : Bool) (role : Fin n → Bool) (x : Option (Fin n)), findHost role = some x →
      findIf a role = some (if a then x else none) := by
    intro a role x h
    unfold findIf
    cases a <;> simp [h]
  have hfind : ∃ hs, findIndices p c = some hs := by
    unfold findIndices
    rw [hmm, hdiskrole, hif _ _ _ e1, hif _ _ _ e2, hif _ _ _ e3, hif _ _ _ e4]
    dsimp only
    rw [if_neg, if_neg]
    · exact ⟨_, rfl⟩
    · intro h
      simp only [Bool.and_eq_true] at h
      obtain ⟨⟨h1, h2⟩, h3⟩ := h
      rw [← hf] at hsame
      have := hsame h1 h2
      simp only [h1, h2, Bool.not_true, Bool.and_false, Bool.false_eq_true, if_false] at this
      rw [ht2, hf2] at this
      have hct : c0.tides = true := by
        rw [hceq] at h1; simp only [Bool.and_eq_true] at h1; exact h1.1
      have hcf : c0.flattening = true := by
        rw [hceq] at h2; simp only [Bool.and_eq_true] at h2; exact h2.1
      rw [hct, hcf] at this
      have := hostNumber_inj hn' this
      simp only [if_true] at this
      rw [h1, h2] at h3
      simp [this] at h3
    · intro h
      simp only [Bool.and_eq_true] at h
      obtain ⟨h1, h3⟩ := h
      rw [h1] at h3
      have hcg : c0.gr = true ∧ g'.isSome = true := by
        rw [hceq] at h1; simpa using h1
      apply hguard
      rw [hg2, hcg.1, hmm]
      obtain ⟨h, hg⟩ := Option.isSome_iff_exists.1 hcg.2
      simp only [hg, if_true, hostNumber]
      simp only [hg, if_true, bne_iff_ne, ne_eq, Option.some.injEq] at h3
      have := h.isLt
      refine ⟨by omega, fun e => h3 (Fin.ext e.symm)⟩
  obtain ⟨hs', hfind⟩ := hfind
  unfold newUniverse
  rw [hc]
  dsimp only
  rw [hfind]
  dsimp only
  rw [if_neg (by omega), hev]
  dsimp only
  obtain ⟨r, hr⟩ := traverse_of_some (f := fun i =>
    if c.evolution = true then
      matchEvolution { toInertial (centerOfMass (grSetup c hs'.gr p).2).1 (centerOfMass (grSetup c hs'.gr p).2).2
        ((grSetup c hs'.gr p).2 i) with id := i.val } (ev i)
    else some ({ toInertial (centerOfMass (grSetup c hs'.gr p).2).1 (centerOfMass (grSetup c hs'.gr p).2).2
        ((grSetup c hs'.gr p).2 i) with id := i.val }, ev i)) (by
    intro i
    dsimp only
    split
    · rename_i hce
      have : c0.evolution = true := by
        rw [hceq] at hce
        simp only [Bool.and_eq_true] at hce
        exact hce.1
      obtain ⟨e', he'⟩ := hq3 i this
      rw [grSetup_eq, matchEvolution_moved, he']
      rfl
    · rfl)
  rw [hr]
  exact ⟨_, rfl⟩

end
end Posidonius.Univ
