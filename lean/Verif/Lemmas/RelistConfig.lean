import Verif.Lemmas.RelistUniverse
import Verif.Lemmas.Config
import Mathlib.Algebra.BigOperators.Group.Finset.Basic

/-! The construction of the universe for another order of the bodies. -/

namespace Posidonius.Univ
open Evolution (Evolver)

section
variable {n : Nat} (σ : Equiv.Perm (Fin n))

theorem findHost_relist (role : Fin n → Bool) :
    (findHost fun i => role (σ i)).map (Option.map σ) = findHost role := by
  cases e : findHost role with
  | some o =>
    cases o with
    | some h =>
      obtain ⟨h1, h2⟩ := findHost_some.1 e
      have : (findHost fun i => role (σ i)) = some (some (σ.symm h)) :=
        findHost_some.2 ⟨by rw [Equiv.apply_symm_apply]; exact h1, fun j hj => by rw [← h2 _ hj, Equiv.symm_apply_apply]⟩
      rw [this]
      simp
    | none =>
      have h1 := findHost_empty.1 e
      have : (findHost fun i => role (σ i)) = some none := findHost_empty.2 fun j => h1 _
      rw [this]
      rfl
  | none =>
    cases e' : findHost (fun i => role (σ i)) with
    | none => rfl
    | some o =>
      exfalso
      cases o with
      | some h =>
        obtain ⟨h1, h2⟩ := findHost_some.1 e'
        have : findHost role = some (some (σ h)) := findHost_some.2 ⟨h1, fun j hj => by
          have := h2 (σ.symm j) (by rw [Equiv.apply_symm_apply]; exact hj)
          rw [← this, Equiv.apply_symm_apply]⟩
        rw [e] at this
        cases this
      | none =>
        have h1 := findHost_empty.1 e'
        have : findHost role = some none := findHost_empty.2 fun j => by
          have := h1 (σ.symm j)
          rwa [Equiv.apply_symm_apply] at this
        rw [e] at this
        cases this

theorem foundOnce_relist (role : Fin n → Bool) : (foundOnce fun i => role (σ i)) = foundOnce role := by
  rw [foundOnce_eq, foundOnce_eq, ← findHost_relist σ role]
  cases (findHost fun i => role (σ i)) with
  | none => rfl
  | some o => cases o <;> rfl

theorem foundAny_relist (role : Fin n → Bool) : (foundAny fun i => role (σ i)) = foundAny role := by
  rw [Bool.eq_iff_iff, foundAny_eq, foundAny_eq]
  exact ⟨fun ⟨i, h⟩ => ⟨σ i, h⟩, fun ⟨i, h⟩ => ⟨σ.symm i, by rw [Equiv.apply_symm_apply]; exact h⟩⟩

theorem findIf_relist (considered : Bool) (role : Fin n → Bool) :
    (findIf considered fun i => role (σ i)).map (Option.map σ) = findIf considered role := by
  cases considered
  · rfl
  · exact findHost_relist σ role

theorem mostMassive_relist {p : Fin n → Particle ℝ} {h : Fin n} (hh : ∀ j, j ≠ h → (p j).mass < (p h).mass) :
    (mostMassive fun i => p (σ i)).map σ = mostMassive p := by
  by_cases hp : 0 < (p h).mass
  · have le : ∀ j, (p j).mass ≤ (p h).mass := fun j => by
      by_cases hj : j = h
      · rw [hj]
      · exact (hh j hj).le
    have e : mostMassive p = some h := mostMassive_some.2 ⟨hp, le, fun j hj => hh j (ne_of_lt hj)⟩
    have e' : (mostMassive fun i => p (σ i)) = some (σ.symm h) := by
      refine mostMassive_some.2 ⟨?_, ?_, ?_⟩
      · rw [Equiv.apply_symm_apply]; exact hp
      · intro j; rw [Equiv.apply_symm_apply]; exact le _
      · intro j hj
        rw [Equiv.apply_symm_apply]
        exact hh _ fun x => (ne_of_lt hj) (by rw [← x, Equiv.symm_apply_apply])
    rw [e, e', Option.map_some, Equiv.apply_symm_apply]
  · have le : ∀ j, (p j).mass ≤ 0 := fun j => by
      by_cases hj : j = h
      · rw [hj]; exact not_lt.1 hp
      · exact (hh j hj).le.trans (not_lt.1 hp)
    rw [mostMassive_none.2 le, mostMassive_none.2 fun j => le (σ j)]
    rfl

theorem disableUnnecessary_relist (c : Consider) (p : Fin n → Particle ℝ) :
    disableUnnecessary c (fun i => p (σ i)) = disableUnnecessary c p := by
  unfold disableUnnecessary
  rw [foundOnce_relist σ fun i => (p i).tides.effect.isCentral,
    foundOnce_relist σ fun i => (p i).flattening.effect.isCentral,
    foundOnce_relist σ fun i => (p i).gr.effect.isCentral,
    foundOnce_relist σ fun i => (p i).disk.effect.isCentral,
    foundAny_relist σ fun i => (p i).wind.interaction,
    foundAny_relist σ fun i => (p i).evolution != .nonEvolving]

/-- The same hosts in two orders. -/
structure HostsRelisted (a b : Hosts n) : Prop where
  mostMassive : σ b.mostMassive = a.mostMassive
  tides : b.tides.map σ = a.tides
  flattening : b.flattening.map σ = a.flattening
  gr : b.gr.map σ = a.gr
  disk : b.disk.map σ = a.disk
  flags : b.all = a.all ∧ b.mostMassiveTides = a.mostMassiveTides
    ∧ b.mostMassiveFlattening = a.mostMassiveFlattening
    ∧ b.mostMassiveGr = a.mostMassiveGr ∧ b.mostMassiveDisk = a.mostMassiveDisk

theorem findIndices_relist (c : Consider) {p : Fin n → Particle ℝ} {h : Fin n} (hh : ∀ j, j ≠ h → (p j).mass < (p h).mass) :
    Option.Rel (HostsRelisted σ) (findIndices p c) (findIndices (fun i => p (σ i)) c) := by
  have inj : Function.Injective (Option.map σ) := Option.map_injective σ.injective
  have beq1 : ∀ (a : Fin n) (b : Option (Fin n)), (some (σ a) == b.map σ) = (some a == b) := fun a b => by
    rw [Bool.eq_iff_iff, beq_iff_eq, beq_iff_eq, ← Option.map_some, inj.eq_iff]
  have beq2 : ∀ (a b : Option (Fin n)), (a.map σ == b.map σ) = (a == b) := fun a b => by
    rw [Bool.eq_iff_iff, beq_iff_eq, beq_iff_eq, inj.eq_iff]
  have bne1 : ∀ (a : Fin n) (b : Option (Fin n)), (some (σ a) != b.map σ) = (some a != b) := fun a b => by
    unfold bne; rw [beq1]
  have bne2 : ∀ (a b : Option (Fin n)), (a.map σ != b.map σ) = (a != b) := fun a b => by
    unfold bne; rw [beq2]
  unfold findIndices
  rw [← mostMassive_relist σ hh, ← findIf_relist σ c.gr fun i => (p i).gr.effect.isCentral,
    ← findIf_relist σ c.tides fun i => (p i).tides.effect.isCentral,
    ← findIf_relist σ c.flattening fun i => (p i).flattening.effect.isCentral,
    ← findIf_relist σ c.disk fun i => (p i).disk.effect.hasDisk]
  generalize (mostMassive fun i => p (σ i)) = mm
  generalize (findIf c.gr fun i => (p (σ i)).gr.effect.isCentral) = g
  generalize (findIf c.tides fun i => (p (σ i)).tides.effect.isCentral) = t
  generalize (findIf c.flattening fun i => (p (σ i)).flattening.effect.isCentral) = f
  generalize (findIf c.disk fun i => (p (σ i)).disk.effect.hasDisk) = d
  cases mm with
  | none => exact .none
  | some mm =>
  cases g with
  | none => exact .none
  | some g =>
  simp only [Option.map_some, bne1]
  split
  · exact .none
  cases t with
  | none => exact .none
  | some t =>
  cases f with
  | none => exact .none
  | some f =>
  simp only [Option.map_some, bne2]
  split
  · exact .none
  cases d with
  | none => exact .none
  | some d =>
  simp only [Option.map_some]
  have e : (if (!c.tides && c.flattening) = true then Option.map σ f else Option.map σ t)
      = (if (!c.tides && c.flattening) = true then f else t).map σ := by split <;> rfl
  rw [e]
  refine .some ⟨rfl, rfl, rfl, rfl, rfl, ?_⟩
  simp only [beq1, and_self]

theorem grSetup_relist (c : Consider) (g : Option (Fin n)) (p : Fin n → Particle ℝ) :
    grSetup c g (fun i => p (σ i)) = ((grSetup c (g.map σ) p).1, fun i => (grSetup c (g.map σ) p).2 (σ i)) := by
  unfold grSetup
  split
  · cases g with
    | none => rfl
    | some h =>
      simp only [Option.map_some]
      cases (p (σ h)).gr.effect with
      | central implementation =>
        dsimp only
        split
        · refine Prod.ext rfl (funext fun i => ?_)
          show (if i = h then _ else _) = if σ i = σ h then _ else _
          by_cases hi : i = h
          · rw [if_pos hi, if_pos (congrArg σ hi)]
          · rw [if_neg hi, if_neg fun x => hi (σ.injective x)]
        · rfl
      | _ => rfl
  · rfl

theorem centerOfMass_relist {p : Fin n → Particle ℝ} (hm : ∀ i, 0 ≤ (p i).mass) {h : Fin n} (hp : 0 < (p h).mass) :
    centerOfMass (fun i => p (σ i)) = centerOfMass p := by
  obtain ⟨a1, a2⟩ := centerOfMass_spec p hm
  obtain ⟨b1, b2⟩ := centerOfMass_spec (fun i => p (σ i)) fun i => hm (σ i)
  rw [Equiv.sum_comp σ fun i => (p i).mass] at b1 b2
  rw [Equiv.sum_comp σ fun i => (p i).mass • (p i).heliocentricPosition, ← a1] at b1
  rw [Equiv.sum_comp σ fun i => (p i).mass • (p i).heliocentricVelocity, ← a2] at b2
  have pos : (∑ i, (p i).mass) ≠ 0 :=
    (lt_of_lt_of_le hp (Finset.single_le_sum (fun i _ => hm i) (Finset.mem_univ h))).ne'
  exact Prod.ext (smul_right_injective _ pos b1) (smul_right_injective _ pos b2)

theorem matchEvolution_listed (i : Fin n) (p : Particle ℝ) (e : Evolver ℝ) :
    matchEvolution (listedAt i p) e = (matchEvolution p e).map fun r => (listedAt i r.1, r.2) := by
  have a : (listedAt i p).evolution = p.evolution := rfl
  have b : (listedAt i p).radius = p.radius := rfl
  have c : (listedAt i p).radiusOfGyration2 = p.radiusOfGyration2 := rfl
  unfold matchEvolution
  rw [a, b, c]
  cases p.evolution with
  | nonEvolving => rfl
  | _ =>
    dsimp only
    rcases e.queryRadius (lit 0) p.radius with _ | ⟨r, e1⟩
    · rfl
    · dsimp only
      rcases e1.queryRadiusOfGyration2 (lit 0) p.radiusOfGyration2 with _ | ⟨g, e2⟩
      · rfl
      · dsimp only
        split <;> rfl

theorem newUniverse_relist (c0 : Consider) (make : Fin n → Option (Evolver ℝ)) {p0 : Fin n → Particle ℝ}
    (hm : ∀ i, 0 ≤ (p0 i).mass) {h : Fin n} (hh : ∀ j, j ≠ h → (p0 j).mass < (p0 h).mass) :
    Option.Rel (Relisted σ) (newUniverse c0 make p0) (newUniverse c0 (fun i => make (σ i)) fun i => p0 (σ i)) := by
  unfold newUniverse
  rw [disableUnnecessary_relist]
  cases disableUnnecessary c0 p0 with
  | none => exact .none
  | some c =>
  dsimp only
  have r1 := findIndices_relist σ c hh
  cases e1 : findIndices p0 c with
  | none =>
    rw [e1] at r1
    cases e2 : findIndices (fun i => p0 (σ i)) c with
    | none => exact .none
    | some b => rw [e2] at r1; cases r1
  | some a =>
    rw [e1] at r1
    cases e2 : findIndices (fun i => p0 (σ i)) c with
    | none => rw [e2] at r1; cases r1
    | some b =>
      rw [e2] at r1
      have r2 : HostsRelisted σ a b := by cases r1; assumption
      dsimp only
      rw [grSetup_relist, r2.gr]
      have hpos : ∃ j, 0 < (p0 j).mass := by
        have : mostMassive p0 ≠ none := by
          intro hn
          unfold findIndices at e1
          rw [hn] at e1
          cases e1
        rw [ne_eq, mostMassive_none] at this
        push Not at this
        exact this
      obtain ⟨j, hj⟩ := hpos
      have gm : ∀ i, ((grSetup c a.gr p0).2 i).mass = (p0 i).mass := by
        intro i
        unfold grSetup
        split
        · cases a.gr with
          | none => rfl
          | some g =>
            dsimp only
            split
            · split
              · show (if i = g then _ else _ : Particle ℝ).mass = _
                split <;> rfl
              · rfl
            · rfl
        · rfl
      rw [centerOfMass_relist σ (fun i => by rw [gm]; exact hm i) (h := j) (by rw [gm]; exact hj)]
      split
      · exact .none
      rw [traverse_relist (σ := σ) make (fun i => make (σ i)) (fun _ x => x) fun i => by rw [Option.map_id']]
      cases traverse make with
      | none => exact .none
      | some evolvers =>
        simp only [Option.map_some]
        generalize (grSetup c a.gr p0).1 = impl
        generalize centerOfMass (grSetup c a.gr p0).2 = com
        generalize (grSetup c a.gr p0).2 = q
        have tr : traverse (fun i => if c.evolution then
              matchEvolution { toInertial com.1 com.2 (q (σ i)) with id := i.val } (evolvers (σ i))
            else some ({ toInertial com.1 com.2 (q (σ i)) with id := i.val }, evolvers (σ i)))
            = (traverse (fun i => if c.evolution then
              matchEvolution { toInertial com.1 com.2 (q i) with id := i.val } (evolvers i)
            else some ({ toInertial com.1 com.2 (q i) with id := i.val }, evolvers i))).map
              fun r i => (listedAt i (r (σ i)).1, (r (σ i)).2) := by
          refine traverse_relist (σ := σ) _ _ (fun i (r : Particle ℝ × Evolver ℝ) => (listedAt i r.1, r.2)) fun i => ?_
          split
          · exact matchEvolution_listed i { toInertial com.1 com.2 (q (σ i)) with id := (σ i).val } (evolvers (σ i))
          · rfl
        rw [tr]
        generalize traverse (fun i => if c.evolution then
              matchEvolution { toInertial com.1 com.2 (q i) with id := i.val } (evolvers i)
            else some ({ toInertial com.1 com.2 (q i) with id := i.val }, evolvers i)) = x
        cases x with
        | none => exact .none
        | some r =>
          exact .some ⟨fun i => rfl, fun i => rfl, rfl, rfl, r2.mostMassive, r2.tides, r2.flattening, r2.gr, r2.disk,
            r2.flags, fun _ _ => rfl⟩

end
end Posidonius.Univ
