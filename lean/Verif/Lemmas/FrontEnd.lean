import Verif.Model.FrontEnd
import Verif.Lemmas.Config

/-! Lemmas about the Python front end. -/

namespace Posidonius.Univ
open Evolution (EvolutionType Evolver)

variable {n : Nat}

/-- The number of a host in a file; 11 when there is none. -/
def hostNumber : Option (Fin n) → Nat
  | none => maxParticles + 1
  | some i => i.val

theorem hostNumber_none_iff (hn : n ≤ maxParticles) (h : Option (Fin n)) :
    hostNumber h = maxParticles + 1 ↔ h = none := by
  cases h with
  | none => simp [hostNumber]
  | some i => simp [hostNumber]; omega

theorem hostNumber_inj (hn : n ≤ maxParticles) {a b : Option (Fin n)} (h : hostNumber a = hostNumber b) : a = b := by
  cases a with
  | none => exact ((hostNumber_none_iff hn b).1 h.symm).symm
  | some i =>
    cases b with
    | none => exact absurd h (by simp [hostNumber]; omega)
    | some j => exact congrArg some (Fin.ext h)

namespace Py

theorem enumFold_ofFn {α β : Type} (g : β → Nat → α → β) (p : Fin n → α) (b : β) (k : Nat) :
    enumFold g b (List.ofFn p) k = (List.finRange n).foldl (fun b i => g b (k + i.val) (p i)) b := by
  induction n generalizing b k with
  | zero => simp [enumFold]
  | succ n ih =>
    rw [List.ofFn_succ, enumFold, ih, List.finRange_succ, List.foldl_cons, List.foldl_map]
    simp [Nat.add_assoc, Nat.add_comm 1]

theorem foldl_ofFn {α β : Type} (g : β → α → β) (p : Fin n → α) (b : β) :
    (List.ofFn p).foldl g b = (List.finRange n).foldl (fun b i => g b (p i)) b := by
  rw [List.ofFn_eq_map, List.foldl_map]

/-! ## The indices of the central bodies -/

/-- The claims of one effect. -/
def claimAll (considered : Bool) : List Bool → Nat → Nat → Option Nat
  | [], index, _ => some index
  | r :: l, index, k =>
    match claim considered r index k with
    | none => none
    | some i => claimAll considered l i (k + 1)

theorem claimAll_unclaimed (considered : Bool) (l : List Bool) (h : ∀ r ∈ l, r = false) (index k : Nat) :
    claimAll considered l index k = some index := by
  induction l generalizing k with
  | nil => rfl
  | cons r l ih =>
    have hr : r = false := h r (by simp)
    subst hr
    simp only [claimAll, claim]
    exact ih (fun r hr => h r (by simp [hr])) _

theorem claimAll_ignored (l : List Bool) (index k : Nat) : claimAll false l index k = some index := by
  induction l generalizing k with
  | nil => rfl
  | cons r l ih => cases r <;> simp only [claimAll, claim] <;> exact ih _

theorem claimAll_one (a b : List Bool) (ha : ∀ r ∈ a, r = false) (hb : ∀ r ∈ b, r = false) (k : Nat) :
    claimAll true (a ++ true :: b) (maxParticles + 1) k = some (k + a.length) := by
  induction a generalizing k with
  | nil =>
    simp only [List.nil_append, claimAll, claim, if_true]
    simpa using claimAll_unclaimed true b hb k (k + 1)
  | cons r a ih =>
    have hr : r = false := ha r (by simp)
    subst hr
    simp only [List.cons_append, claimAll, claim]
    simp only [Bool.false_eq_true, if_false]
    rw [ih (fun r hr => ha r (by simp [hr]))]
    simp only [List.length_cons]
    congr 1
    omega

/-- The search of the constructor, when it does not panic, gives the same index as the claims. -/
theorem claimAll_findHost (considered : Bool) (role : Fin n → Bool) (h : Option (Fin n))
    (hh : findHost role = some h) :
    claimAll considered (List.ofFn role) (maxParticles + 1) 0 = some (hostNumber (if considered then h else none)) := by
  cases considered with
  | false => simp [claimAll_ignored, hostNumber]
  | true =>
    cases h with
    | none =>
      rw [findHost_empty] at hh
      rw [claimAll_unclaimed _ _ (by simpa [List.mem_ofFn] using hh)]
      simp [hostNumber]
    | some i =>
      rw [findHost_some] at hh
      have hl : i.val < (List.ofFn role).length := by simp
      have hsplit : List.ofFn role
          = (List.ofFn role).take i.val ++ true :: (List.ofFn role).drop (i.val + 1) := by
        conv_lhs => rw [← List.take_append_drop i.val (List.ofFn role)]
        rw [List.drop_eq_getElem_cons hl]
        simp [hh.1]
      rw [hsplit, claimAll_one]
      · simp [hostNumber]
      · intro r hr
        obtain ⟨j, hj, rfl⟩ := List.mem_iff_getElem.1 hr
        simp only [List.length_take, List.length_ofFn] at hj
        rw [List.getElem_take, List.getElem_ofFn]
        by_contra hc
        have := hh.2 ⟨j, by omega⟩ (by simpa using hc)
        rw [← this] at hj
        simp at hj
      · intro r hr
        obtain ⟨j, hj, rfl⟩ := List.mem_iff_getElem.1 hr
        simp only [List.length_drop, List.length_ofFn] at hj
        rw [List.getElem_drop, List.getElem_ofFn]
        by_contra hc
        have := hh.2 ⟨i.val + 1 + j, by omega⟩ (by simpa using hc)
        have := congrArg Fin.val this
        simp at this
        omega

theorem exists_first (l : List Bool) (h : ∃ r ∈ l, r = true) :
    ∃ a b, l = a ++ true :: b ∧ ∀ r ∈ a, r = false := by
  induction l with
  | nil => simp at h
  | cons r l ih =>
    cases r with
    | true => exact ⟨[], l, rfl, by simp⟩
    | false =>
      obtain ⟨a, b, rfl, hab⟩ := ih (by simpa using h)
      exact ⟨false :: a, b, rfl, by simpa using hab⟩

theorem claimAll_taken (l : List Bool) (h : ∃ r ∈ l, r = true) (index : Nat) (hi : index ≠ maxParticles + 1) (k : Nat) :
    claimAll true l index k = none := by
  induction l generalizing k with
  | nil => simp at h
  | cons r l ih =>
    cases r with
    | true => simp [claimAll, claim, hi]
    | false => simpa [claimAll, claim] using ih (by simpa using h) (k + 1)

theorem claimAll_two (a b : List Bool) (ha : ∀ r ∈ a, r = false) (hb : ∃ r ∈ b, r = true) (k : Nat)
    (hk : k + a.length ≠ maxParticles + 1) :
    claimAll true (a ++ true :: b) (maxParticles + 1) k = none := by
  induction a generalizing k with
  | nil =>
    simp only [List.nil_append, claimAll, claim, if_true]
    exact claimAll_taken b hb k (by simpa using hk) _
  | cons r a ih =>
    have hr : r = false := ha r (by simp)
    subst hr
    simp only [List.cons_append, claimAll, claim]
    simp only [Bool.false_eq_true, if_false]
    exact ih (fun r hr => ha r (by simp [hr])) _ (by simp only [List.length_cons] at hk; omega)

/-- Conversely, claims that raise no exception have found what the constructor finds. -/
theorem findHost_claimAll (hn : n ≤ maxParticles + 1) (role : Fin n → Bool) (x : Nat)
    (h : claimAll true (List.ofFn role) (maxParticles + 1) 0 = some x) :
    ∃ i, findHost role = some i ∧ x = hostNumber i := by
  cases hf : findHost role with
  | some i =>
    have := claimAll_findHost true role i hf
    rw [h] at this
    exact ⟨i, rfl, by simpa using this⟩
  | none =>
    exfalso
    by_cases hex : ∃ r ∈ List.ofFn role, r = true
    · obtain ⟨a, b, hab, ha⟩ := exists_first _ hex
      have hlen : a.length + (b.length + 1) = n := by
        have := congrArg List.length hab
        simpa using this.symm
      by_cases hb : ∃ r ∈ b, r = true
      · rw [hab, claimAll_two a b ha hb 0 (by omega)] at h
        cases h
      · have : findHost role = some (some ⟨a.length, by omega⟩) := by
          rw [findHost_some]
          have hr : ∀ j : Fin n, role j = (a ++ true :: b)[j.val]'(by simp; omega) := by
            intro j
            have : role j = (List.ofFn role)[j.val]'(by simp) := by simp
            rw [this]
            congr 1
          refine ⟨by rw [hr]; simp, fun j hj => ?_⟩
          rw [hr] at hj
          apply Fin.ext
          dsimp only
          by_contra hne
          rcases Nat.lt_or_gt_of_ne hne with h1 | h1
          · rw [List.getElem_append_left h1] at hj
            have := ha _ (List.getElem_mem h1)
            rw [hj] at this
            cases this
          · rw [List.getElem_append_right (Nat.le_of_lt h1)] at hj
            obtain ⟨m, hm⟩ : ∃ m, j.val - a.length = m + 1 := ⟨j.val - a.length - 1, by omega⟩
            simp only [hm, List.getElem_cons_succ] at hj
            exact hb ⟨_, List.getElem_mem _, hj⟩
        rw [hf] at this
        cases this
    · push Not at hex
      have : findHost role = some none := by
        rw [findHost_empty]
        intro j
        have := hex (role j) (by simp [List.mem_ofFn])
        simpa using this
      rw [hf] at this
      cases this

section
variable {F : Type} [Add F] [Sub F] [Mul F] [Div F] [Neg F] [FOps F]

/-- The implementation after all claims. -/
def implementations (considered : Bool) : List (Particle F) → GrImplementation → GrImplementation
  | [], old => old
  | p :: l, old => implementations considered l (claimImplementation considered p.gr.effect old)

theorem addAll_eq (evolve : Particle F → Option (Particle F)) (l : List (Particle F))
    (he : ∀ p ∈ l, (if p.evolution = .nonEvolving then some p else evolve p) = some p) (s : Front F) (hs : s.particles.length + l.length ≤ maxParticles + 1)
    {t f g d : Nat}
    (ht : claimAll s.consider.tides (l.map fun p => p.tides.effect.isCentral) s.tides s.particles.length = some t)
    (hf : claimAll s.consider.flattening (l.map fun p => p.flattening.effect.isCentral) s.flattening
      s.particles.length = some f)
    (hg : claimAll s.consider.gr (l.map fun p => p.gr.effect.isCentral) s.gr s.particles.length = some g)
    (hd : claimAll s.consider.disk (l.map fun p => p.disk.effect.isCentral) s.disk s.particles.length = some d) :
    addAll evolve s l = some { consider := s.consider
                               grImplementation := implementations s.consider.gr l s.grImplementation
                               tides := t, flattening := f, gr := g, disk := d, particles := s.particles ++ l } := by
  induction l generalizing s with
  | nil =>
    simp only [List.map_nil, claimAll, Option.some.injEq] at ht hf hg hd
    subst ht hf hg hd
    simp [addAll, implementations]
  | cons p l ih =>
    simp only [List.length_cons] at hs
    simp only [List.map_cons, claimAll] at ht hf hg hd
    unfold addAll addParticle
    rw [if_neg (by omega)]
    split at ht
    · cases ht
    rename_i t' ht'
    split at hf
    · cases hf
    rename_i f' hf'
    split at hg
    · cases hg
    rename_i g' hg'
    split at hd
    · cases hd
    rename_i d' hd'
    simp only [ht', hf', hg', hd', he p (by simp)]
    rw [ih (fun q hq => he q (by simp [hq]))]
    · simp [implementations]
    · simp; omega
    · simpa using ht
    · simpa using hf
    · simpa using hg
    · simpa using hd

/-- What has been claimed when all particles have been added. -/
theorem addAll_some (evolve : Particle F → Option (Particle F)) (l : List (Particle F)) (s r : Front F)
    (h : addAll evolve s l = some r)
    (he : ∀ p ∈ l, (if p.evolution = .nonEvolving then some p else evolve p) = some p) :
    (l ≠ [] → s.particles.length + l.length ≤ maxParticles + 1)
      ∧ claimAll s.consider.tides (l.map fun p => p.tides.effect.isCentral) s.tides s.particles.length = some r.tides
      ∧ claimAll s.consider.flattening (l.map fun p => p.flattening.effect.isCentral) s.flattening
        s.particles.length = some r.flattening
      ∧ claimAll s.consider.gr (l.map fun p => p.gr.effect.isCentral) s.gr s.particles.length = some r.gr
      ∧ claimAll s.consider.disk (l.map fun p => p.disk.effect.isCentral) s.disk s.particles.length = some r.disk
      ∧ r.consider = s.consider ∧ r.particles = s.particles ++ l := by
  induction l generalizing s with
  | nil =>
    simp only [addAll, Option.some.injEq] at h
    subst h
    simp [claimAll]
  | cons p l ih =>
    unfold addAll at h
    split at h
    · cases h
    rename_i s' hs'
    unfold addParticle at hs'
    split at hs'
    · cases hs'
    rename_i hlen
    rw [he p (by simp)] at hs'
    split at hs'
    · rename_i t f g d q ht hf hg hd hq
      have hs' := Option.some.inj hs'
      have hq := Option.some.inj hq
      subst hq
      subst hs'
      obtain ⟨h0, h1, h2, h3, h4, h5, h6⟩ := ih _ h (fun q hq => he q (by simp [hq]))
      simp only [List.length_append, List.length_cons, List.length_nil] at h0 h1 h2 h3 h4
      refine ⟨fun _ => ?_, ?_, ?_, ?_, ?_, h5, ?_⟩
      · by_cases hl : l = []
        · subst hl; simp; omega
        · have := h0 hl
          simp only [List.length_cons]
          omega
      · simp only [List.map_cons, claimAll, ht]; exact h1
      · simp only [List.map_cons, claimAll, hf]; exact h2
      · simp only [List.map_cons, claimAll, hg]; exact h3
      · simp only [List.map_cons, claimAll, hd]; exact h4
      · simpa using h6
    · cases hs'

/-- The front end adds evolving bodies as it adds the bodies of the same roles that it makes of them. -/
theorem addAll_evolved (evolve : Particle F → Option (Particle F)) {l l' : List (Particle F)}
    (h : List.Forall₂ (fun p q => (if p.evolution = .nonEvolving then some p else evolve p) = some q
      ∧ q.tides = p.tides ∧ q.flattening = p.flattening ∧ q.gr = p.gr ∧ q.disk = p.disk) l l') (s : Front F) :
    addAll evolve s l = addAll some s l' := by
  induction h generalizing s with
  | nil => rfl
  | @cons p q l l' hpq _ ih =>
    obtain ⟨h1, h2, h3, h4, h5⟩ := hpq
    have : addParticle evolve s p = addParticle some s q := by
      unfold addParticle
      rw [h1, h2, h3, h4, h5]
      have : (if q.evolution = .nonEvolving then some q else some q) = some q := by split <;> rfl
      rw [this]
    unfold addAll
    rw [this]
    cases addParticle some s q with
    | none => rfl
    | some s' => exact ih s'

theorem addAll_isSome (evolve : Particle F → Option (Particle F)) (l : List (Particle F)) (s r : Front F)
    (h : addAll evolve s l = some r) :
    ∀ p ∈ l, ∃ q, (if p.evolution = .nonEvolving then some p else evolve p) = some q := by
  induction l generalizing s with
  | nil => simp
  | cons p l ih =>
    unfold addAll at h
    split at h
    · cases h
    rename_i s' hs'
    unfold addParticle at hs'
    split at hs'
    · cases hs'
    split at hs'
    · rename_i t f g d q ht hf hg hd hq
      intro p' hp'
      rcases List.mem_cons.1 hp' with rfl | hp'
      · exact ⟨q, hq⟩
      · exact ih _ h p' hp'
    · cases hs'

theorem implementations_none (considered : Bool) (l : List (Particle F)) (h : ∀ p ∈ l, p.gr.effect.isCentral = false)
    (old : GrImplementation) : implementations considered l old = old := by
  induction l generalizing old with
  | nil => rfl
  | cons p l ih =>
    have hp := h p (by simp)
    have : claimImplementation considered p.gr.effect old = old := by
      unfold claimImplementation
      cases hq : p.gr.effect with
      | central i =>
        rw [hq] at hp
        simp only [GrEffect.isCentral] at hp
        simp [hp]
      | _ => rfl
    rw [implementations, this]
    exact ih (fun q hq => h q (by simp [hq])) old

theorem implementations_ignored (l : List (Particle F)) (old : GrImplementation) :
    implementations false l old = old := by
  induction l generalizing old with
  | nil => rfl
  | cons p l ih =>
    have : claimImplementation false p.gr.effect old = old := by
      unfold claimImplementation
      cases p.gr.effect <;> rfl
    rw [implementations, this, ih]

theorem implementations_append (considered : Bool) (a b : List (Particle F)) (old : GrImplementation) :
    implementations considered (a ++ b) old = implementations considered b (implementations considered a old) := by
  induction a generalizing old with
  | nil => rfl
  | cons p a ih => exact ih _

/-- With one central body the implementation is that body's. -/
theorem implementations_one (p : Fin n → Particle F) (h : Fin n) (i : GrImplementation)
    (hp : (p h).gr.effect = .central i) (hi : i ≠ .disabled)
    (hu : ∀ j, (p j).gr.effect.isCentral = true → j = h) (old : GrImplementation) :
    implementations true (List.ofFn p) old = i := by
  have hl : h.val < (List.ofFn p).length := by simp
  have hsplit : List.ofFn p = (List.ofFn p).take h.val ++ p h :: (List.ofFn p).drop (h.val + 1) := by
    conv_lhs => rw [← List.take_append_drop h.val (List.ofFn p)]
    rw [List.drop_eq_getElem_cons hl]
    simp
  rw [hsplit, implementations_append, implementations]
  rw [implementations_none]
  · simp [claimImplementation, hp, hi]
  · intro q hq
    obtain ⟨j, hj, rfl⟩ := List.mem_iff_getElem.1 hq
    simp only [List.length_drop, List.length_ofFn] at hj
    rw [List.getElem_drop, List.getElem_ofFn]
    by_contra hc
    have := hu ⟨h.val + 1 + j, by omega⟩ (by simpa using hc)
    have := congrArg Fin.val this
    simp at this
    omega

/-! ## The other loops -/

theorem foundAny_foldl (p : Fin n → Particle F) (role : Particle F → Bool) :
    (List.ofFn p).foldl (fun found p => if role p then true else found) false = foundAny fun i => role (p i) := by
  rw [foldl_ofFn]
  rfl

theorem mostMassive_eq (p : Fin n → Particle F) :
    Py.mostMassive (List.ofFn p) = hostNumber (Univ.mostMassive p) := by
  unfold Py.mostMassive Univ.mostMassive
  rw [enumFold_ofFn]
  have key : ∀ (l : List (Fin n)) (a : Nat × F) (b : Option (Fin n) × F), a.1 = hostNumber b.1 → a.2 = b.2 →
      (l.foldl (fun (best : Nat × F) i => if ltb best.2 (p i).mass then (0 + i.val, (p i).mass) else best) a).1
        = hostNumber (l.foldl (fun (best : Option (Fin n) × F) i =>
          if ltb best.2 (p i).mass then (some i, (p i).mass) else best) b).1 := by
    intro l
    induction l with
    | nil => intro a b h _; exact h
    | cons i l ih =>
      intro a b h1 h2
      simp only [List.foldl_cons]
      apply ih
      · rw [h2]
        by_cases hc : ltb b.2 (p i).mass = true
        · simp [hc, hostNumber]
        · simp [hc, h1]
      · rw [h2]
        by_cases hc : ltb b.2 (p i).mass = true <;> simp [hc, h2]
  exact key _ _ _ rfl rfl

theorem assignIds_eq (p : Fin n → Particle F) :
    assignIds (List.ofFn p) = List.ofFn fun i => { p i with id := i.val } := by
  unfold assignIds
  rw [enumFold_ofFn]
  have key : ∀ (l : List (Fin n)) (r : List (Particle F)),
      l.foldl (fun r i => r ++ [{ p i with id := 0 + i.val }]) r = r ++ l.map fun i => { p i with id := i.val } := by
    intro l
    induction l with
    | nil => intro r; simp
    | cons i l ih => intro r; rw [List.foldl_cons, ih]; simp
  rw [key, List.ofFn_eq_map]
  simp

/-- The running sums of the masses are positive (after the first particle), also for the test of Python. -/
def MassesPositive (l : List (Particle F)) (m : F) : Prop :=
  match l with
  | [] => True
  | p :: r => ltb (lit 0) (m + p.mass) = true ∧ eqb (m + p.mass) (lit 0) = false ∧ MassesPositive r (m + p.mass)

theorem centerOfMass_foldl (l : List (Particle F)) (c : Axes F × Axes F × F) (h : MassesPositive l c.2.2) :
    l.foldl centerOfMassStep (some c) = some (l.foldl centerOfMassOfPair c) := by
  induction l generalizing c with
  | nil => rfl
  | cons p l ih =>
    obtain ⟨h1, h2, h3⟩ := h
    simp only [List.foldl_cons]
    have : centerOfMassStep (some c) p = some (centerOfMassOfPair c p) := by
      simp [centerOfMassStep, centerOfMassOfPair, h1, h2]
    rw [this]
    apply ih
    simpa [centerOfMassOfPair, h1] using h3

theorem centerOfMass_eq (p : Fin n → Particle F) (hn : n ≠ 0) (h : MassesPositive (List.ofFn p) (lit 0)) :
    Py.centerOfMass (List.ofFn p) = some (Univ.centerOfMass p) := by
  unfold Py.centerOfMass Univ.centerOfMass
  rw [if_neg (by simpa using hn), centerOfMass_foldl _ _ h, foldl_ofFn]
  rfl

theorem toInertial_eq (c : Axes F × Axes F) (p : Particle F) : Py.toInertial c p = Univ.toInertial c.1 c.2 p := rfl

/-- The centre of mass does not depend on the relativistic factor. -/
theorem centerOfMass_congr (p q : Fin n → Particle F)
    (h : ∀ i, (p i).mass = (q i).mass ∧ (p i).heliocentricPosition = (q i).heliocentricPosition
      ∧ (p i).heliocentricVelocity = (q i).heliocentricVelocity) :
    Univ.centerOfMass p = Univ.centerOfMass q := by
  unfold Univ.centerOfMass
  have : (fun (c : Axes F × Axes F × F) i => centerOfMassOfPair c (p i))
      = fun c i => centerOfMassOfPair c (q i) := by
    funext c i
    obtain ⟨h1, h2, h3⟩ := h i
    simp [centerOfMassOfPair, h1, h2, h3]
  rw [this]

end
end Py
end Posidonius.Univ
