import Verif.Lemmas.Tides
import Verif.Spec.Relist
import Verif.Lemmas.PairFactors
import Verif.Lemmas.Settings
import Mathlib.Data.List.FinRange

/-! The stages of an evaluation for another order of the bodies. -/

namespace Posidonius.Univ
open Gravity (Ignore Body)
open Evolution (Evolver)

section
variable {n : Nat} (σ : Equiv.Perm (Fin n))

/-- The particles in the other order. -/
def relist (p : Fin n → Particle ℝ) : Fin n → Particle ℝ := fun i => listedAt i (p (σ i))

/-- The tables of pair dependent factors in the two orders. -/
def Pairs (t t' : Table ℝ) : Prop := ∀ a b : Fin n, t' (a * maxParticles + b) = t (σ a * maxParticles + σ b)

theorem others_relist (h : Fin n) : ((others h).map σ).Perm (others (σ h)) := by
  refine (List.perm_ext_iff_of_nodup ((others_nodup h).map σ.injective) (others_nodup _)).2 fun i => ?_
  rw [List.mem_map, mem_others]
  constructor
  · rintro ⟨j, hj, rfl⟩
    exact fun e => mem_others.1 hj (σ.injective e)
  · intro hi
    exact ⟨σ.symm i, mem_others.2 fun e => hi (by rw [← e, Equiv.apply_symm_apply]), σ.apply_symm_apply i⟩

variable {σ}

theorem listed_tides (i : Fin n) (q : Particle ℝ) : (listedAt i q).tides = q.tides := rfl
theorem listed_flattening (i : Fin n) (q : Particle ℝ) : (listedAt i q).flattening = q.flattening := rfl
theorem listed_gr (i : Fin n) (q : Particle ℝ) : (listedAt i q).gr = q.gr := rfl
theorem listed_disk (i : Fin n) (q : Particle ℝ) : (listedAt i q).disk = q.disk := rfl
theorem listed_evolution (i : Fin n) (q : Particle ℝ) : (listedAt i q).evolution = q.evolution := rfl

theorem step_listed {b : Bool} {i : Fin n} {x y q : Particle ℝ} (h : x = listedAt i y) :
    (if b then x else listedAt i q) = listedAt i (if b then y else q) := by
  cases b
  · rfl
  · exact h

theorem mapOthers_relist {h : Fin n} {f f' : Particle ℝ → Particle ℝ → Particle ℝ} {p : Fin n → Particle ℝ}
    (hf : ∀ i, i ≠ h → f' (relist σ p h) (relist σ p i) = listedAt i (f (p (σ h)) (p (σ i)))) :
    mapOthers h f' (relist σ p) = relist σ (mapOthers (σ h) f p) := by
  funext i
  show (if i = h then _ else _) = listedAt i (if σ i = σ h then _ else _)
  by_cases hi : i = h
  · rw [if_pos hi, if_pos (congrArg σ hi)]
    rfl
  · rw [if_neg hi, if_neg (fun e => hi (σ.injective e)), hf i hi]

theorem mapHost_relist {h : Fin n} {f f' : Particle ℝ → Particle ℝ} {p : Fin n → Particle ℝ}
    (hf : f' (relist σ p h) = listedAt h (f (p (σ h)))) :
    mapHost h f' (relist σ p) = relist σ (mapHost (σ h) f p) := by
  funext i
  show (if i = h then _ else _) = listedAt i (if σ i = σ h then _ else _)
  by_cases hi : i = h
  · subst hi
    rw [if_pos rfl, if_pos rfl, hf]
  · rw [if_neg hi, if_neg (fun e => hi (σ.injective e))]
    rfl

theorem sumOthers_relist {h : Fin n} {f f' : Particle ℝ → Axes ℝ} {p : Fin n → Particle ℝ}
    (hf : ∀ i, i ≠ h → f' (relist σ p i) = f (p (σ i))) :
    sumOthers h f' (relist σ p) = sumOthers (σ h) f p := by
  unfold sumOthers
  have e : (others h).foldl (fun acc i => acc + f' (relist σ p i)) Axes.zero
      = ((others h).map σ).foldl (fun acc i => acc + f (p i)) Axes.zero := by
    rw [List.foldl_map]
    refine List.foldl_ext _ _ _ fun acc i hi => ?_
    rw [hf i (mem_others.1 hi)]
  rw [e]
  refine (others_relist σ h).foldl_eq' (fun x _ y _ z => ?_) _
  abel

/-! ### Tides -/

theorem tidesInitialize_relist (h : Fin n) (p : Fin n → Particle ℝ) :
    tidesInitialize h (relist σ p) = relist σ (tidesInitialize (σ h) p) := by
  unfold tidesInitialize
  show (if (p (σ h)).tides.effect.isCentral then _ else _) = _
  split
  · rw [mapHost_relist (f := fun host => { host with tides := { host.tides with
          rDotStellarSpin := lit 0, rDotPlanetarySpin := lit 0,
          acceleration := Axes.zero, dAngularMomentumDt := Axes.zero } }) (by rfl)]
    refine mapOthers_relist fun i _ => ?_
    dsimp only [relist, listedAt]
    split <;> rfl
  · rfl

theorem tidesInertialToHeliocentric_relist (h : Fin n) (p : Fin n → Particle ℝ) :
    tidesInertialToHeliocentric h (relist σ p) = relist σ (tidesInertialToHeliocentric (σ h) p) := by
  unfold tidesInertialToHeliocentric
  show (if (p (σ h)).tides.effect.isCentral then _ else _) = _
  split
  · rw [mapHost_relist (f := fun host => { host with tides := { host.tides with
          position := Axes.zero, velocity := Axes.zero, distance := lit 0, radialVelocity := lit 0 } }) (by rfl)]
    refine mapOthers_relist fun i _ => ?_
    dsimp only [relist, listedAt]
    split <;> rfl
  · rfl

theorem tidesCopyHeliocentric_relist (h : Fin n) (p : Fin n → Particle ℝ) :
    tidesCopyHeliocentric h (relist σ p) = relist σ (tidesCopyHeliocentric (σ h) p) := by
  unfold tidesCopyHeliocentric
  dsimp only
  show (if (p (σ h)).tides.effect.isCentral then _ else _) = _
  split
  · rw [mapHost_relist (f := fun q => { q with tides := { q.tides with
      position := q.heliocentricPosition, velocity := q.heliocentricVelocity,
      distance := q.heliocentricDistance, radialVelocity := q.heliocentricRadialVelocity } }) (by rfl)]
    refine mapOthers_relist fun i _ => ?_
    dsimp only [relist, listedAt]
    split <;> rfl
  · rfl

/-- A step that touches one key of a table. -/
def OneKey (key : Nat) (f : Table ℝ → Table ℝ) : Prop :=
  ∃ g : Option ℝ → Option ℝ, ∀ t x, f t x = if x = key then g (t x) else t x

theorem OneKey.comm {a b : Nat} {f g : Table ℝ → Table ℝ} (hf : OneKey a f) (hg : OneKey b g) (hab : a ≠ b)
    (t : Table ℝ) : f (g t) = g (f t) := by
  obtain ⟨f', hf⟩ := hf
  obtain ⟨g', hg⟩ := hg
  funext x
  rw [hf, hg, hg, hf]
  by_cases h1 : x = a
  · have : x ≠ b := h1 ▸ hab
    rw [if_pos h1, if_neg this, if_neg this, if_pos h1]
  · rw [if_neg h1, if_neg h1]

theorem oneKey_id (key : Nat) : OneKey key fun t => t := ⟨fun o => o, fun t x => by split <;> rfl⟩

theorem oneKey_set (a b : Nat) (v : ℝ) : OneKey (a * maxParticles + b) fun t => setPairFactor t a b v :=
  ⟨fun _ => some v, fun _ _ => rfl⟩

theorem oneKey_remove (a b : Nat) : OneKey (a * maxParticles + b) fun t => removePairFactor t a b :=
  ⟨fun _ => none, fun _ _ => rfl⟩

theorem planetDependentStep_oneKey (k : Consts ℝ) (host q : Particle ℝ) :
    OneKey (host.id * maxParticles + q.id) (planetDependentStep k host q) := by
  unfold planetDependentStep
  cases q.tides.effect.orbitingCtl with
  | none => exact oneKey_id _
  | some x =>
    dsimp only
    by_cases hc : ltb (FOps.abs (FOps.sqrt host.normSpin2 - meanMotion host q)) (FOps.sqrt host.normSpin2) = true
    · simp only [if_pos hc]
      exact oneKey_set _ _ _
    · simp only [if_neg hc]
      exact oneKey_remove _ _

theorem hostDependentStep_oneKey (k : Consts ℝ) (host q : Particle ℝ) :
    OneKey (host.id * maxParticles + q.id) (hostDependentStep k host q)
      ∨ OneKey (q.id * maxParticles + host.id) (hostDependentStep k host q) := by
  unfold hostDependentStep
  by_cases hd : hasDynamicalTide q.evolution = true
  · simp only [if_pos hd]
    cases q.tides.effect.orbitingCtl with
    | none => exact Or.inl (oneKey_id _)
    | some x =>
      obtain ⟨a, b, c⟩ := x
      dsimp only
      by_cases hc : ltb (FOps.abs (FOps.sqrt q.normSpin2 - meanMotion host q)) (FOps.sqrt q.normSpin2) = true
      · simp only [if_pos hc]
        exact Or.inr (oneKey_set _ _ _)
      · simp only [if_neg hc]
        exact Or.inl (oneKey_remove _ _)
  · simp only [if_neg hd]
    exact Or.inl (oneKey_id _)

theorem key_iff (few : n ≤ maxParticles) (a b c d : Fin n) :
    (a : Nat) * maxParticles + b = c * maxParticles + d ↔ a = c ∧ b = d := by
  have := b.isLt
  have := d.isLt
  rw [Fin.ext_iff, Fin.ext_iff]
  unfold maxParticles at *
  omega

theorem pairs_set (few : n ≤ maxParticles) {t t' : Table ℝ} (ht : Pairs σ t t') (a b : Fin n) (v : ℝ) :
    Pairs σ (setPairFactor t (σ a) (σ b) v) (setPairFactor t' a b v) := by
  intro c d
  simp only [setPairFactor]
  rw [ht c d]
  simp only [key_iff few, EmbeddingLike.apply_eq_iff_eq]

theorem pairs_remove (few : n ≤ maxParticles) {t t' : Table ℝ} (ht : Pairs σ t t') (a b : Fin n) :
    Pairs σ (removePairFactor t (σ a) (σ b)) (removePairFactor t' a b) := by
  intro c d
  simp only [removePairFactor]
  rw [ht c d]
  simp only [key_iff few, EmbeddingLike.apply_eq_iff_eq]

theorem planetDependentStep_relist (few : n ≤ maxParticles) (k : Consts ℝ) {p : Fin n → Particle ℝ}
    (hid : ∀ i, (p i).id = i) (h i : Fin n) {t t' : Table ℝ} (ht : Pairs σ t t') :
    Pairs σ (planetDependentStep k (p (σ h)) (p (σ i)) t) (planetDependentStep k (relist σ p h) (relist σ p i) t') := by
  unfold planetDependentStep
  have e : (relist σ p i).tides = (p (σ i)).tides := rfl
  rw [e]
  cases (p (σ i)).tides.effect.orbitingCtl with
  | none => exact ht
  | some x =>
    dsimp only
    rw [hid, hid]
    show Pairs σ _ (if ltb (FOps.abs (FOps.sqrt (p (σ h)).normSpin2 - meanMotion (p (σ h)) (p (σ i))))
      (FOps.sqrt (p (σ h)).normSpin2) = true then _ else _)
    split
    · exact pairs_set few ht _ _ _
    · exact pairs_remove few ht _ _

theorem hostDependentStep_relist (few : n ≤ maxParticles) (k : Consts ℝ) {p : Fin n → Particle ℝ}
    (hid : ∀ i, (p i).id = i) (h i : Fin n) {t t' : Table ℝ} (ht : Pairs σ t t') :
    Pairs σ (hostDependentStep k (p (σ h)) (p (σ i)) t) (hostDependentStep k (relist σ p h) (relist σ p i) t') := by
  unfold hostDependentStep
  have e : (relist σ p i).tides = (p (σ i)).tides := rfl
  have e' : (relist σ p i).evolution = (p (σ i)).evolution := rfl
  rw [e, e']
  split
  · cases (p (σ i)).tides.effect.orbitingCtl with
    | none => exact ht
    | some x =>
      obtain ⟨a, b, c⟩ := x
      dsimp only
      rw [hid, hid]
      show Pairs σ _ (if ltb (FOps.abs (FOps.sqrt (p (σ i)).normSpin2 - meanMotion (p (σ h)) (p (σ i))))
        (FOps.sqrt (p (σ i)).normSpin2) = true then _ else _)
      split
      · exact pairs_set few ht _ _ _
      · exact pairs_remove few ht _ _
  · exact ht

theorem pairFactors_relist (few : n ≤ maxParticles) (k : Consts ℝ) {p : Fin n → Particle ℝ}
    (hid : ∀ i, (p i).id = i) (h : Fin n) {t t' : Table ℝ} (ht : Pairs σ t t') :
    Pairs σ (pairFactors k (σ h) p t) (pairFactors k h (relist σ p) t') := by
  have loop : ∀ (f : Fin n → Table ℝ → Table ℝ) (f' : Fin n → Table ℝ → Table ℝ),
      (∀ i t t', Pairs σ t t' → Pairs σ (f (σ i) t) (f' i t')) →
      (∀ i j, i ≠ σ h → j ≠ σ h → i ≠ j → ∀ t, f i (f j t) = f j (f i t)) →
      ∀ t t', Pairs σ t t' → Pairs σ ((others (σ h)).foldl (fun t i => f i t) t) ((others h).foldl (fun t i => f' i t) t') := by
    intro f f' h1 h2 t t' h0
    have e : (others (σ h)).foldl (fun t i => f i t) t = ((others h).map σ).foldl (fun t i => f i t) t := by
      refine ((others_relist σ h).symm).foldl_eq' (fun x hx y hy z => ?_) _
      by_cases hxy : x = y
      · rw [hxy]
      · exact h2 _ _ (mem_others.1 hy) (mem_others.1 hx) (Ne.symm hxy) z
    rw [e, List.foldl_map]
    generalize others h = l
    induction l generalizing t t' with
    | nil => exact h0
    | cons a l ih =>
      rw [List.foldl_cons, List.foldl_cons]
      refine ih _ _ (h1 _ _ _ h0) ?_
      refine ((others_relist σ h).symm).foldl_eq' (fun x hx y hy z => ?_) _
      by_cases hxy : x = y
      · rw [hxy]
      · exact h2 _ _ (mem_others.1 hy) (mem_others.1 hx) (Ne.symm hxy) z
  have neKey : ∀ a b c d : Fin n, (a ≠ c ∨ b ≠ d) → (a : Nat) * maxParticles + b ≠ c * maxParticles + d := by
    intro a b c d hn e
    obtain ⟨e1, e2⟩ := (key_iff few a b c d).1 e
    rcases hn with hn | hn
    · exact hn e1
    · exact hn e2
  unfold pairFactors hostDependent planetDependent
  refine loop (fun i t => hostDependentStep k (p (σ h)) (p i) t) (fun i t => hostDependentStep k (relist σ p h) (relist σ p i) t)
    (fun i t t' ht => hostDependentStep_relist few k hid h i ht) (fun i j hi hj hij t => ?_) _ _ ?_
  · have h1 := hostDependentStep_oneKey k (p (σ h)) (p i)
    have h2 := hostDependentStep_oneKey k (p (σ h)) (p j)
    rw [hid, hid] at h1
    rw [hid, hid] at h2
    rcases h1 with h1 | h1 <;> rcases h2 with h2 | h2
    · exact h1.comm h2 (neKey _ _ _ _ (Or.inr hij)) t
    · exact h1.comm h2 (neKey _ _ _ _ (Or.inr hi)) t
    · exact h1.comm h2 (neKey _ _ _ _ (Or.inl hi)) t
    · exact h1.comm h2 (neKey _ _ _ _ (Or.inl hij)) t
  · show Pairs σ (if hasDynamicalTide (p (σ h)).evolution = true then _ else _)
      (if hasDynamicalTide (p (σ h)).evolution = true then _ else _)
    split
    · refine loop (fun i t => planetDependentStep k (p (σ h)) (p i) t)
        (fun i t => planetDependentStep k (relist σ p h) (relist σ p i) t)
        (fun i t t' ht => planetDependentStep_relist few k hid h i ht) (fun i j hi hj hij t => ?_) _ _ ht
      have h1 := planetDependentStep_oneKey k (p (σ h)) (p i)
      have h2 := planetDependentStep_oneKey k (p (σ h)) (p j)
      rw [hid, hid] at h1
      rw [hid, hid] at h2
      exact h1.comm h2 (neKey _ _ _ _ (Or.inr hij)) t
    · exact ht

theorem hostSigma_relist {p : Fin n → Particle ℝ} (hid : ∀ i, (p i).id = i) {t t' : Table ℝ} (ht : Pairs σ t t')
    (h i : Fin n) : hostSigma t' (relist σ p h) (relist σ p i) = hostSigma t (p (σ h)) (p (σ i)) := by
  unfold hostSigma getPairFactorOrElse
  dsimp only [relist, listedAt]
  rw [ht h i, hid, hid]
  rfl

theorem particleSigma_relist {p : Fin n → Particle ℝ} (hid : ∀ i, (p i).id = i) {t t' : Table ℝ} (ht : Pairs σ t t')
    (h i : Fin n) : particleSigma t' (relist σ p h) (relist σ p i) = particleSigma t (p (σ h)) (p (σ i)) := by
  unfold particleSigma getPairFactorOrElse
  dsimp only [relist, listedAt]
  rw [ht i h, hid, hid]
  rfl

theorem same_id {p q : Fin n → Particle ℝ} (hs : Same settings q p) (hid : ∀ i, (p i).id = i) : ∀ i, (q i).id = i :=
  fun i => (congrArg Particle.id (hs i)).trans (hid i)

theorem orthogonalComponent_relist {p : Fin n → Particle ℝ} (hid : ∀ i, (p i).id = i) {t t' : Table ℝ}
    (ht : Pairs σ t t') (h : Fin n) :
    orthogonalComponent t' h (relist σ p) = relist σ (orthogonalComponent t (σ h) p) := by
  have e1 : ∀ q : Fin n → Particle ℝ, (∀ i, (q i).id = i) → mapOthers h (orthogonalStellarStep t') (relist σ q)
      = relist σ (mapOthers (σ h) (orthogonalStellarStep t) q) := by
    intro q hq
    refine mapOthers_relist fun i _ => ?_
    unfold orthogonalStellarStep
    rw [hostSigma_relist hq ht]
    have e : (relist σ q i).tides = (q (σ i)).tides := rfl
    rw [e]
    cases (q (σ i)).tides.effect.orbitingCtl <;> rfl
  have e2 : ∀ q : Fin n → Particle ℝ, (∀ i, (q i).id = i) → mapOthers h (orthogonalPlanetaryStep t') (relist σ q)
      = relist σ (mapOthers (σ h) (orthogonalPlanetaryStep t) q) := by
    intro q hq
    refine mapOthers_relist fun i _ => ?_
    unfold orthogonalPlanetaryStep
    rw [particleSigma_relist hq ht]
    have e : (relist σ q i).tides = (q (σ i)).tides := rfl
    rw [e]
    cases (q (σ i)).tides.effect.orbitingCtl <;> rfl
  unfold orthogonalComponent
  rw [e1 p hid, e2]
  intro i
  unfold mapOthers
  split
  · exact hid i
  · unfold orthogonalStellarStep
    split <;> exact hid i

theorem radialComponent_relist (k : Consts ℝ) {p : Fin n → Particle ℝ} (hid : ∀ i, (p i).id = i) {t t' : Table ℝ}
    (ht : Pairs σ t t') (h : Fin n) :
    radialComponent k t' h (relist σ p) = relist σ (radialComponent k t (σ h) p) := by
  unfold radialComponent
  refine mapOthers_relist fun i _ => ?_
  unfold radialStep
  rw [particleSigma_relist hid ht, hostSigma_relist hid ht]
  have e : (relist σ p i).tides = (p (σ i)).tides := rfl
  rw [e]
  cases (p (σ i)).tides.effect.orbitingCtl <;> rfl

theorem tidesShapes_relist {m : Models ℝ} (hm : Unnumbered (n := n) m) (h : Fin n) (p : Fin n → Particle ℝ) :
    tidesShapes m h (relist σ p) = relist σ (tidesShapes m (σ h) p) := by
  unfold tidesShapes
  refine mapOthers_relist fun i _ => ?_
  dsimp only [relist]
  rw [hm.tideShape]
  show (if eqb (p (σ i)).tides.effect.viscosity (lit 0) = true then _ else _) = _
  split <;> rfl

theorem tidalTorque_relist {m : Models ℝ} (hm : Unnumbered (n := n) m) (model : TidalModel ℝ) (a b : Fin n)
    (host q : Particle ℝ) (c : Bool) :
    tidalTorque m.tides model (listedAt a host) (listedAt b q) c = tidalTorque m.tides model host q c := by
  unfold tidalTorque
  cases model with
  | constantTimeLag _ _ _ => rfl
  | creepCoplanar _ => exact hm.creepTorque ..
  | kaula => exact hm.kaulaTorque ..

theorem tidalForce_relist {m : Models ℝ} (hm : Unnumbered (n := n) m) (model : TidalModel ℝ) (a b : Fin n)
    (host q : Particle ℝ) :
    tidalForce m.tides model (listedAt a host) (listedAt b q) = tidalForce m.tides model host q := by
  unfold tidalForce
  cases model with
  | constantTimeLag _ _ _ => rfl
  | creepCoplanar _ => exact hm.creepForce ..
  | kaula => exact hm.kaulaForce ..

theorem kaulaTurn_relist {m : Models ℝ} (hm : Unnumbered (n := n) m) (h : Fin n) (q : Fin n → Particle ℝ) (i : Fin n) :
    kaulaTurn m.tides h (relist σ q) i = relist σ (kaulaTurn m.tides (σ h) q (σ i)) := by
  have e : m.tides.kaulaForce (relist σ q i) (relist σ q h) true = m.tides.kaulaForce (q (σ i)) (q (σ h)) true :=
    hm.kaulaForce _ _ _ _ _
  funext j
  show (if j = h then _ else if j = i then _ else _) = listedAt j (if σ j = σ h then _ else if σ j = σ i then _ else _)
  unfold kaulaHostStep
  rw [e]
  by_cases hj : j = h
  · subst hj
    rw [if_pos rfl, if_pos rfl]
    rfl
  · rw [if_neg hj, if_neg (fun e => hj (σ.injective e))]
    by_cases hi : j = i
    · subst hi
      rw [if_pos rfl, if_pos rfl]
      rfl
    · rw [if_neg hi, if_neg (fun e => hi (σ.injective e))]
      rfl

/-- The turns of the loop for a Kaula host can be exchanged. -/
theorem kaulaTurn_comm {m : Models ℝ} (hm : Unnumbered (n := n) m) {h i j : Fin n} (hi : i ≠ h) (hj : j ≠ h)
    (q : Fin n → Particle ℝ) :
    kaulaTurn m.tides h (kaulaTurn m.tides h q i) j = kaulaTurn m.tides h (kaulaTurn m.tides h q j) i := by
  by_cases hij : i = j
  · rw [hij]
  have shape : ∀ (q : Fin n → Particle ℝ) (i : Fin n), kaulaTurn m.tides h q i
      = fun l => if l = h then withTidal ((q h).tides.acceleration + (lit 1 / (q h).mass : ℝ) • m.tides.kaulaForce (q i) (q h) true) (q h)
        else if l = i then withTidal ((q i).tides.acceleration
          + (lit (-1) * (lit 1 / (q i).mass) : ℝ) • m.tides.kaulaForce (q i) (q h) true) (q i) else q l := by
    intro q i
    rfl
  have wt : ∀ q : Particle ℝ, withTidal q.tides.acceleration q = q := fun _ => rfl
  have f1 : ∀ a p q, m.tides.kaulaForce p (withTidal a q) true = m.tides.kaulaForce p q true := fun a p q => by
    have := hm.kaulaAlone p.tides.acceleration a p q true
    rwa [wt] at this
  funext l
  rw [shape, shape (kaulaTurn m.tides h q j), shape q i, shape q j]
  simp only [if_true, if_neg hi, if_neg hj, if_neg hij, if_neg (Ne.symm hij), f1]
  by_cases hl : l = h
  · rw [if_pos hl, if_pos hl]
    show withTidal (_ + _ + _) _ = withTidal (_ + _ + _) _
    have em : ∀ a p, (withTidal a p).mass = p.mass := fun _ _ => rfl
    rw [em, em, add_right_comm]
    rfl
  · rw [if_neg hl, if_neg hl]
    by_cases h1 : l = j
    · subst h1
      simp [hl, Ne.symm hij]
    · by_cases h2 : l = i
      · subst h2
        simp [hl, hij]
      · simp [hl, h1, h2]

theorem tidalAcceleration_relist {m : Models ℝ} (hm : Unnumbered (n := n) m) (h : Fin n) (p : Fin n → Particle ℝ) :
    tidalAcceleration m.tides h (relist σ p) = relist σ (tidalAcceleration m.tides (σ h) p) := by
  have e1 : sumOthers h (companionTidalForce m.tides (relist σ p h)) (relist σ p)
      = sumOthers (σ h) (companionTidalForce m.tides (p (σ h))) p := by
    refine sumOthers_relist fun i _ => ?_
    unfold companionTidalForce
    dsimp only [relist]
    simp only [tidalForce_relist hm]
    rfl
  have e2 : mapOthers h (companionTidalAcceleration m.tides) (relist σ p)
      = relist σ (mapOthers (σ h) (companionTidalAcceleration m.tides) p) := by
    refine mapOthers_relist fun i _ => ?_
    unfold companionTidalAcceleration
    dsimp only [relist]
    simp only [tidalForce_relist hm]
    simp only [listed_tides]
    cases (p (σ i)).tides.effect <;> rfl
  have first : firstPart m.tides h (relist σ p) = relist σ (firstPart m.tides (σ h) p) := by
    unfold firstPart
    rw [e1, e2]
    exact mapHost_relist rfl
  by_cases hk : (p (σ h)).tides.effect = .central .kaula
  · rw [tidalAcceleration_kaula _ _ _ hk, tidalAcceleration_kaula m.tides h (relist σ p) hk, first]
    generalize firstPart m.tides (σ h) p = q
    have key : ∀ (l : List (Fin n)) (q : Fin n → Particle ℝ),
        l.foldl (kaulaTurn m.tides h) (relist σ q) = relist σ ((l.map σ).foldl (kaulaTurn m.tides (σ h)) q) := by
      intro l
      induction l with
      | nil => intro q; rfl
      | cons i l ih =>
        intro q
        rw [List.foldl_cons, kaulaTurn_relist hm, ih, List.map_cons, List.foldl_cons]
    rw [key]
    congr 1
    refine (others_relist σ h).foldl_eq' (fun x hx y hy z => ?_) _
    have ne : ∀ {x}, x ∈ (others h).map σ → x ≠ σ h := fun hx => mem_others.1 ((others_relist σ h).mem_iff.1 hx)
    exact kaulaTurn_comm hm (ne hx) (ne hy) z
  · rw [tidalAcceleration_plain _ _ _ hk, tidalAcceleration_plain m.tides h (relist σ p) hk, first]

theorem tidalDL_relist {m : Models ℝ} (hm : Unnumbered (n := n) m) (h : Fin n) (p : Fin n → Particle ℝ) :
    tidalDL m.tides h (relist σ p) = relist σ (tidalDL m.tides (σ h) p) := by
  have e2 : mapOthers h (companionTidalDL m.tides) (relist σ p)
      = relist σ (mapOthers (σ h) (companionTidalDL m.tides) p) := by
    refine mapOthers_relist fun i _ => ?_
    unfold companionTidalDL
    dsimp only [relist]
    simp only [tidalTorque_relist hm]
    simp only [listed_tides]
    cases (p (σ i)).tides.effect <;> rfl
  unfold tidalDL
  dsimp only
  rw [e2]
  generalize mapOthers (σ h) (companionTidalDL m.tides) p = q
  have e1 : sumOthers h (hostTidalDLTerm m.tides (relist σ q h)) (relist σ q)
      = sumOthers (σ h) (hostTidalDLTerm m.tides (q (σ h))) q := by
    refine sumOthers_relist fun i _ => ?_
    unfold hostTidalDLTerm
    dsimp only [relist]
    simp only [tidalTorque_relist hm]
    rfl
  rw [e1]
  exact mapHost_relist rfl

theorem calculateDenergyDt_relist (h : Fin n) (p : Fin n → Particle ℝ) :
    calculateDenergyDt h (relist σ p) = relist σ (calculateDenergyDt (σ h) p) := by
  unfold calculateDenergyDt
  refine mapOthers_relist fun i _ => ?_
  dsimp only [relist, listedAt]
  split <;> rfl

/-! ### Flattening -/

theorem flatteningInitialize_relist (h : Fin n) (p : Fin n → Particle ℝ) :
    flatteningInitialize h (relist σ p) = relist σ (flatteningInitialize (σ h) p) := by
  unfold flatteningInitialize
  show (if (p (σ h)).flattening.effect.isCentral then _ else _) = _
  split
  · rw [mapHost_relist (f := fun host => { host with flattening := { host.flattening with
          rDotStellarSpin := lit 0, rDotPlanetarySpin := lit 0,
          acceleration := Axes.zero, dAngularMomentumDt := Axes.zero } }) (by rfl)]
    refine mapOthers_relist fun i _ => ?_
    dsimp only [relist, listedAt]
    split <;> rfl
  · rfl

theorem flatteningInertialToHeliocentric_relist (h : Fin n) (p : Fin n → Particle ℝ) :
    flatteningInertialToHeliocentric h (relist σ p) = relist σ (flatteningInertialToHeliocentric (σ h) p) := by
  unfold flatteningInertialToHeliocentric
  show (if (p (σ h)).flattening.effect.isCentral then _ else _) = _
  split
  · rw [mapHost_relist (f := fun host => { host with flattening := { host.flattening with
          position := Axes.zero, velocity := Axes.zero, distance := lit 0 } }) (by rfl)]
    refine mapOthers_relist fun i _ => ?_
    dsimp only [relist, listedAt]
    split <;> rfl
  · rfl

theorem flatteningCopyHeliocentric_relist (h : Fin n) (p : Fin n → Particle ℝ) :
    flatteningCopyHeliocentric h (relist σ p) = relist σ (flatteningCopyHeliocentric (σ h) p) := by
  unfold flatteningCopyHeliocentric
  dsimp only
  show (if (p (σ h)).flattening.effect.isCentral then _ else _) = _
  split
  · rw [mapHost_relist (f := fun q => { q with flattening := { q.flattening with
      position := q.heliocentricPosition, velocity := q.heliocentricVelocity,
      distance := q.heliocentricDistance } }) (by rfl)]
    refine mapOthers_relist fun i _ => ?_
    dsimp only [relist, listedAt]
    split <;> rfl
  · rfl

theorem flatteningOrthogonal_relist (h : Fin n) (p : Fin n → Particle ℝ) :
    flatteningOrthogonal h (relist σ p) = relist σ (flatteningOrthogonal (σ h) p) := by
  have e1 : ∀ q : Fin n → Particle ℝ, mapOthers h oblateStarStep (relist σ q)
      = relist σ (mapOthers (σ h) oblateStarStep q) := by
    intro q
    refine mapOthers_relist fun i _ => ?_
    unfold oblateStarStep
    have e : (relist σ q i).flattening = (q (σ i)).flattening := rfl
    rw [e]
    rcases (q (σ i)).flattening.effect with (_ | _) | (_ | _) | _ <;> rfl
  have e2 : ∀ q : Fin n → Particle ℝ, mapOthers h oblatePlanetStep (relist σ q)
      = relist σ (mapOthers (σ h) oblatePlanetStep q) := by
    intro q
    refine mapOthers_relist fun i _ => ?_
    unfold oblatePlanetStep
    have e : (relist σ q i).flattening = (q (σ i)).flattening := rfl
    rw [e]
    rcases (q (σ i)).flattening.effect with (_ | _) | (_ | _) | _ <;> rfl
  unfold flatteningOrthogonal
  rw [e1, e2]

theorem flatteningShapes_relist {m : Models ℝ} (hm : Unnumbered (n := n) m) (h : Fin n) (p : Fin n → Particle ℝ) :
    flatteningShapes m h (relist σ p) = relist σ (flatteningShapes m (σ h) p) := by
  unfold flatteningShapes
  refine mapOthers_relist fun i _ => ?_
  dsimp only [relist]
  rw [hm.flatteningShape]
  show (if eqb (p (σ i)).flattening.effect.viscosity (lit 0) = true then _ else _) = _
  split <;> rfl

theorem flatteningRadial_relist (h : Fin n) (p : Fin n → Particle ℝ) :
    flatteningRadial h (relist σ p) = relist σ (flatteningRadial (σ h) p) := by
  unfold flatteningRadial
  refine mapOthers_relist fun i _ => ?_
  unfold flatteningRadialStep
  have e : (relist σ p i).flattening = (p (σ i)).flattening := rfl
  rw [e]
  by_cases hc : (p (σ i)).flattening.effect.isOrbiting = true
  · rw [if_pos hc, if_pos hc]
    rfl
  · rw [if_neg hc, if_neg hc]
    rfl

theorem flatteningTorque_relist {m : Models ℝ} (hm : Unnumbered (n := n) m) (model : FlatteningModel ℝ) (a b : Fin n)
    (host q : Particle ℝ) (c : Bool) :
    flatteningTorque m.flattening model (listedAt a host) (listedAt b q) c = flatteningTorque m.flattening model host q c := by
  unfold flatteningTorque
  cases model with
  | oblateSpheroid _ => rfl
  | creepCoplanar _ => exact hm.flatteningTorque ..

theorem flatteningForce_relist {m : Models ℝ} (hm : Unnumbered (n := n) m) (model : FlatteningModel ℝ) (a b : Fin n)
    (host q : Particle ℝ) :
    flatteningForce m.flattening model (listedAt a host) (listedAt b q) = flatteningForce m.flattening model host q := by
  unfold flatteningForce
  cases model with
  | oblateSpheroid _ => rfl
  | creepCoplanar _ => exact hm.flatteningForce ..

theorem flatteningAcceleration_relist {m : Models ℝ} (hm : Unnumbered (n := n) m) (h : Fin n) (p : Fin n → Particle ℝ) :
    flatteningAcceleration m.flattening h (relist σ p) = relist σ (flatteningAcceleration m.flattening (σ h) p) := by
  have e1 : sumOthers h (companionFlatteningForce m.flattening (relist σ p h)) (relist σ p)
      = sumOthers (σ h) (companionFlatteningForce m.flattening (p (σ h))) p := by
    refine sumOthers_relist fun i _ => ?_
    unfold companionFlatteningForce
    dsimp only [relist]
    simp only [flatteningForce_relist hm]
    rfl
  have e2 : mapOthers h (companionFlatteningAcceleration m.flattening) (relist σ p)
      = relist σ (mapOthers (σ h) (companionFlatteningAcceleration m.flattening) p) := by
    refine mapOthers_relist fun i _ => ?_
    unfold companionFlatteningAcceleration
    dsimp only [relist]
    simp only [flatteningForce_relist hm]
    simp only [listed_flattening]
    cases (p (σ i)).flattening.effect <;> rfl
  unfold flatteningAcceleration
  dsimp only
  rw [e1, e2]
  exact mapHost_relist rfl

theorem flatteningDL_relist {m : Models ℝ} (hm : Unnumbered (n := n) m) (h : Fin n) (p : Fin n → Particle ℝ) :
    flatteningDL m.flattening h (relist σ p) = relist σ (flatteningDL m.flattening (σ h) p) := by
  have e2 : mapOthers h (companionFlatteningDL m.flattening) (relist σ p)
      = relist σ (mapOthers (σ h) (companionFlatteningDL m.flattening) p) := by
    refine mapOthers_relist fun i _ => ?_
    unfold companionFlatteningDL
    dsimp only [relist]
    simp only [flatteningTorque_relist hm]
    simp only [listed_flattening]
    cases (p (σ i)).flattening.effect <;> rfl
  unfold flatteningDL
  dsimp only
  rw [e2]
  generalize mapOthers (σ h) (companionFlatteningDL m.flattening) p = q
  have e1 : sumOthers h (hostFlatteningDLTerm m.flattening (relist σ q h)) (relist σ q)
      = sumOthers (σ h) (hostFlatteningDLTerm m.flattening (q (σ h))) q := by
    refine sumOthers_relist fun i _ => ?_
    unfold hostFlatteningDLTerm
    dsimp only [relist]
    simp only [flatteningTorque_relist hm]
    rfl
  rw [e1]
  exact mapHost_relist rfl

/-! ### General relativity -/

theorem grInitialize_relist (h : Fin n) (p : Fin n → Particle ℝ) :
    grInitialize h (relist σ p) = relist σ (grInitialize (σ h) p) := by
  have key : mapOthers h (fun host q =>
        if q.gr.effect.isOrbiting then
          { q with gr := { q.gr with
              factor := host.massG * q.massG / ipow (host.massG + q.massG) 2,
              acceleration := Axes.zero, dAngularMomentumDt := Axes.zero } }
        else q)
      (mapHost h (fun host => { host with gr := { host.gr with
          factor := lit 0, acceleration := Axes.zero, dAngularMomentumDt := Axes.zero } }) (relist σ p))
      = relist σ (mapOthers (σ h) (fun host q =>
        if q.gr.effect.isOrbiting then
          { q with gr := { q.gr with
              factor := host.massG * q.massG / ipow (host.massG + q.massG) 2,
              acceleration := Axes.zero, dAngularMomentumDt := Axes.zero } }
        else q)
      (mapHost (σ h) (fun host => { host with gr := { host.gr with
          factor := lit 0, acceleration := Axes.zero, dAngularMomentumDt := Axes.zero } }) p)) := by
    rw [mapHost_relist (f := fun host => { host with gr := { host.gr with
          factor := lit 0, acceleration := Axes.zero, dAngularMomentumDt := Axes.zero } }) (by rfl)]
    refine mapOthers_relist fun i _ => ?_
    dsimp only [relist, listedAt]
    split <;> rfl
  unfold grInitialize
  rw [key]
  show (match (p (σ h)).gr.effect.implementation? with | some .kidder1995 | some .anderson1975 => _ | _ => _) = _
  rcases (p (σ h)).gr.effect.implementation? with _ | (_ | _ | _ | _) <;> rfl

theorem grInertialToHeliocentric_relist (h : Fin n) (p : Fin n → Particle ℝ) :
    grInertialToHeliocentric h (relist σ p) = relist σ (grInertialToHeliocentric (σ h) p) := by
  unfold grInertialToHeliocentric
  rw [mapHost_relist (f := fun host => { host with gr := { host.gr with
          position := Axes.zero, velocity := Axes.zero, distance := lit 0, radialVelocity := lit 0,
          normVelocity := lit 0, normVelocity2 := lit 0 } }) (by rfl), mapOthers_relist (f := fun host q =>
        if q.gr.effect.isOrbiting then
          { q with gr := { q.gr with
              position := q.inertialPosition - host.inertialPosition,
              velocity := q.inertialVelocity - host.inertialVelocity,
              distance := FOps.sqrt (q.inertialPosition - host.inertialPosition).norm2,
              radialVelocity := (q.inertialPosition - host.inertialPosition).dot (q.inertialVelocity - host.inertialVelocity)
                / FOps.sqrt (q.inertialPosition - host.inertialPosition).norm2,
              normVelocity2 := (q.inertialVelocity - host.inertialVelocity - host.gr.velocity).norm2,
              normVelocity := FOps.sqrt (q.inertialVelocity - host.inertialVelocity - host.gr.velocity).norm2 } }
        else q) fun i _ => ?_]
  · have e : (relist σ p h).gr = (p (σ h)).gr := rfl
    rw [e]
    rcases (p (σ h)).gr.effect.implementation? with _ | (_ | _ | _ | _) <;> rfl
  · dsimp only [relist, listedAt]
    split <;> rfl

theorem grCopyHeliocentric_relist (h : Fin n) (p : Fin n → Particle ℝ) :
    grCopyHeliocentric h (relist σ p) = relist σ (grCopyHeliocentric (σ h) p) := by
  unfold grCopyHeliocentric
  dsimp only
  rw [mapHost_relist (f := fun q => { q with gr := { q.gr with
      position := q.heliocentricPosition, velocity := q.heliocentricVelocity,
      distance := q.heliocentricDistance, radialVelocity := q.heliocentricRadialVelocity,
      normVelocity := q.heliocentricNormVelocity, normVelocity2 := q.heliocentricNormVelocity2 } }) (by rfl),
    mapOthers_relist (f := fun _ q => if q.gr.effect.isOrbiting then { q with gr := { q.gr with
      position := q.heliocentricPosition, velocity := q.heliocentricVelocity,
      distance := q.heliocentricDistance, radialVelocity := q.heliocentricRadialVelocity,
      normVelocity := q.heliocentricNormVelocity, normVelocity2 := q.heliocentricNormVelocity2 } } else q) fun i _ => ?_]
  · have e : (relist σ p h).gr = (p (σ h)).gr := rfl
    rw [e]
    rcases (p (σ h)).gr.effect.implementation? with _ | (_ | _ | _ | _) <;> rfl
  · dsimp only [relist, listedAt]
    split <;> rfl

theorem recoilTerm_relist (a : Particle ℝ → Particle ℝ → Axes ℝ)
    (ha : ∀ (i j : Fin n) x y, a (listedAt i x) (listedAt j y) = a x y) (h : Fin n) (p : Fin n → Particle ℝ) :
    sumOthers h (recoilTerm a (relist σ p h)) (relist σ p) = sumOthers (σ h) (recoilTerm a (p (σ h))) p := by
  refine sumOthers_relist fun i _ => ?_
  unfold recoilTerm
  simp only [relist, ha]
  rfl

theorem kidder_relist (k : Consts ℝ) (h : Fin n) (p : Fin n → Particle ℝ) :
    kidder k h (relist σ p) = relist σ (kidder k (σ h) p) := by
  have e1 : ∀ p : Fin n → Particle ℝ, kidderFirst k h (relist σ p) = relist σ (kidderFirst k (σ h) p) := by
    intro p
    unfold kidderFirst
    dsimp only
    rw [recoilTerm_relist _ (fun _ _ _ _ => rfl), mapOthers_relist (f := fun host q =>
      if q.gr.effect.isOrbiting then
        { q with gr := { q.gr with acceleration := kidderFirstOrder k host q } }
      else q) fun i _ => ?_]
    · exact mapHost_relist rfl
    · exact step_listed (b := (p (σ i)).gr.effect.isOrbiting) rfl
  have e2 : ∀ p : Fin n → Particle ℝ, kidderSecond k h (relist σ p) = relist σ (kidderSecond k (σ h) p) := by
    intro p
    unfold kidderSecond
    dsimp only
    rw [recoilTerm_relist _ (fun _ _ _ _ => rfl), mapOthers_relist (f := fun host q =>
      if q.gr.effect.isOrbiting then
        { q with gr := { q.gr with acceleration := q.gr.acceleration + kidderSecondOrder k host q } }
      else q) fun i _ => ?_]
    · exact mapHost_relist rfl
    · exact step_listed (b := (p (σ i)).gr.effect.isOrbiting) rfl
  have e3 : ∀ p : Fin n → Particle ℝ, kidderThird k h (relist σ p) = relist σ (kidderThird k (σ h) p) := by
    intro p
    have et : sumOthers h (hostTorqueTerm k (relist σ p h)) (relist σ p) = sumOthers (σ h) (hostTorqueTerm k (p (σ h))) p :=
      sumOthers_relist fun i _ => rfl
    unfold kidderThird
    dsimp only
    rw [recoilTerm_relist _ (fun _ _ _ _ => rfl), et, mapOthers_relist (f := fun host q =>
      if q.gr.effect.isOrbiting then
        { q with gr := { q.gr with
            acceleration := q.gr.acceleration + kidderSpinOrbit k host q,
            dAngularMomentumDt := kidderCompanionTorque k host q } }
      else q) fun i _ => ?_]
    · exact mapHost_relist rfl
    · exact step_listed (b := (p (σ i)).gr.effect.isOrbiting) rfl
  unfold kidder
  rw [e1, e2, e3]

theorem hostFirst_relist (h : Fin n) : ((hostFirst h).map σ).Perm (hostFirst (σ h)) :=
  (others_relist σ h).cons _

/-- Sums over all the bodies. -/
theorem foldHostFirst_relist {M : Type} [AddCommMonoid M] (h : Fin n) (b b' : Fin n → Prop) [DecidablePred b] [DecidablePred b']
    (f f' : Fin n → M) (start : M) (hb : ∀ i, b' i ↔ b (σ i)) (hf : ∀ i, f' i = f (σ i)) :
    (hostFirst h).foldl (fun a l => if b' l then a + f' l else a) start
      = (hostFirst (σ h)).foldl (fun a l => if b l then a + f l else a) start := by
  have e : (hostFirst h).foldl (fun a l => if b' l then a + f' l else a) start
      = ((hostFirst h).map σ).foldl (fun a l => if b l then a + f l else a) start := by
    rw [List.foldl_map]
    refine List.foldl_ext _ _ _ fun acc i _ => ?_
    simp only [hb, hf]
  rw [e]
  refine (hostFirst_relist h).foldl_eq' (fun x _ y _ z => ?_) _
  split_ifs <;> first | rfl | exact add_right_comm _ _ _

theorem newhallDr_relist (p : Fin n → Particle ℝ) (i j : Fin n) : newhallDr (relist σ p) i j = newhallDr p (σ i) (σ j) := by
  unfold newhallDr
  simp only [ne_eq, σ.injective.eq_iff]
  rfl

theorem newhallR_relist (p : Fin n → Particle ℝ) (i j : Fin n) : newhallR (relist σ p) i j = newhallR p (σ i) (σ j) := by
  unfold newhallR
  rw [newhallDr_relist]
  simp only [ne_eq, σ.injective.eq_iff]
  rfl

theorem newhallA1_relist (k : Consts ℝ) (h : Fin n) (p : Fin n → Particle ℝ) (i : Fin n) :
    newhallA1 k h (relist σ p) i = newhallA1 k (σ h) p (σ i) := by
  have := foldHostFirst_relist (σ := σ) h (fun l => l ≠ σ i) (fun l => l ≠ i)
    (fun l => lit 4 / k.c2 * k.g * (p l).mass / newhallR p (σ i) l)
    (fun l => lit 4 / k.c2 * k.g * (relist σ p l).mass / newhallR (relist σ p) i l) (lit 0)
    (fun l => by rw [ne_eq, ne_eq, σ.injective.eq_iff]) (fun l => by rw [newhallR_relist]; rfl)
  unfold newhallA1
  simp only [ne_eq, ite_not] at this
  exact this

theorem newhallA2_relist (k : Consts ℝ) (h : Fin n) (p : Fin n → Particle ℝ) (j : Fin n) :
    newhallA2 k h (relist σ p) j = newhallA2 k (σ h) p (σ j) := by
  have := foldHostFirst_relist (σ := σ) h (fun l => l ≠ σ j) (fun l => l ≠ j)
    (fun l => lit 1 / k.c2 * k.g * (p l).mass / newhallR p l (σ j))
    (fun l => lit 1 / k.c2 * k.g * (relist σ p l).mass / newhallR (relist σ p) l j) (lit 0)
    (fun l => by rw [ne_eq, ne_eq, σ.injective.eq_iff]) (fun l => by rw [newhallR_relist]; rfl)
  unfold newhallA2
  simp only [ne_eq, ite_not] at this
  exact this

theorem newhallConst_relist (k : Consts ℝ) (h : Fin n) (p : Fin n → Particle ℝ) (i : Fin n) :
    newhallConst k h (relist σ p) i = newhallConst k (σ h) p (σ i) := by
  have split : ∀ (h i j : Fin n) (p : Fin n → Particle ℝ) (acc : Axes ℝ),
      newhallConstPair k h p i j acc = acc + newhallConstPair k h p i j 0 := by
    intro h i j p acc
    unfold newhallConstPair
    dsimp only
    rw [zero_add, add_assoc]
  have shape : ∀ (h i : Fin n) (p : Fin n → Particle ℝ), newhallConst k h p i = (hostFirst h).foldl (fun acc j =>
      if j ≠ i ∧ grPair (p i) (p j) then acc + newhallConstPair k h p i j 0 else acc) Axes.zero := by
    intro h i p
    unfold newhallConst
    refine List.foldl_ext _ _ _ fun acc j _ => ?_
    rw [split]
  rw [shape, shape]
  have pair : ∀ j, newhallConstPair k h (relist σ p) i j 0 = newhallConstPair k (σ h) p (σ i) (σ j) 0 := by
    intro j
    unfold newhallConstPair
    rw [newhallDr_relist, newhallR_relist, newhallA1_relist, newhallA2_relist]
    rfl
  exact foldHostFirst_relist (σ := σ) h (fun j => j ≠ σ i ∧ grPair (p (σ i)) (p j) = true)
    (fun j => j ≠ i ∧ grPair (relist σ p i) (relist σ p j) = true)
    (fun j => newhallConstPair k (σ h) p (σ i) j 0) (fun j => newhallConstPair k h (relist σ p) i j 0) Axes.zero
    (fun l => by rw [ne_eq, ne_eq, σ.injective.eq_iff]; rfl) pair

theorem newhallSweep_relist (k : Consts ℝ) (h : Fin n) (p : Fin n → Particle ℝ) (newton old : Fin n → Axes ℝ) (i : Fin n) :
    newhallSweep k h (relist σ p) (fun j => newton (σ j)) (fun j => old (σ j)) i = newhallSweep k (σ h) p newton old (σ i) := by
  unfold newhallSweep
  dsimp only
  rw [newhallConst_relist]
  congr 1
  exact foldHostFirst_relist (σ := σ) h (fun j => j ≠ σ i ∧ grPair (p (σ i)) (p j) = true)
    (fun j => j ≠ i ∧ grPair (relist σ p i) (relist σ p j) = true)
    (fun j => (smulRight (((k.g * (p j).mass) • newhallDr p (σ i) j).sdiv (ipow (newhallR p (σ i) j) 2 * newhallR p (σ i) j))
        ((newhallDr p (σ i) j).dot (newton j + old j))).sdiv (lit 2 * k.c2)
      + ((lit 7 / (lit 2 * k.c2) * k.g * (p j).mass) • (newton j + old j)).sdiv (newhallR p (σ i) j))
    (fun j => (smulRight (((k.g * (relist σ p j).mass) • newhallDr (relist σ p) i j).sdiv
          (ipow (newhallR (relist σ p) i j) 2 * newhallR (relist σ p) i j))
        ((newhallDr (relist σ p) i j).dot (newton (σ j) + old (σ j)))).sdiv (lit 2 * k.c2)
      + ((lit 7 / (lit 2 * k.c2) * k.g * (relist σ p j).mass) • (newton (σ j) + old (σ j))).sdiv (newhallR (relist σ p) i j))
    Axes.zero (fun l => by rw [ne_eq, ne_eq, σ.injective.eq_iff]; rfl)
    (fun j => by rw [newhallDr_relist, newhallR_relist]; rfl)

/-- What a component adds to `maxdev` (zero if it is above the limit). -/
noncomputable def deviation (new old : ℝ) : ℝ :=
  if ltb (FOps.abs new) (lit (1/1000000000000000000000000000000)) then FOps.abs (new - old) / new else 0

/-- What a body adds to `maxdev`. -/
noncomputable def bodyDeviation (p : Fin n → Particle ℝ) (new old : Fin n → Axes ℝ) (i : Fin n) : ℝ :=
  if (p i).gr.effect != .disabled then
    max (max (deviation (new i).x (old i).x) (deviation (new i).y (old i).y)) (deviation (new i).z (old i).z)
  else 0

/-- `maxdev` is a maximum: the differences kept from an earlier body change nothing. -/
theorem newhallMaxDev_eq (h : Fin n) (p : Fin n → Particle ℝ) (new old : Fin n → Axes ℝ) :
    newhallMaxDev h p new old = (hostFirst h).foldl (fun m i => max m (bodyDeviation p new old i)) 0 := by
  unfold newhallMaxDev
  dsimp only
  have upd : ∀ m d : ℝ, (if ltb m d then d else m) = max m d := by
    intro m d
    by_cases hd : m < d
    · rw [if_pos (by simpa using hd), max_eq_right hd.le]
    · rw [if_neg (by simpa using hd), max_eq_left (not_lt.1 hd)]
  have comp : ∀ m d new old : ℝ, 0 ≤ m → d ≤ m →
      max m (if ltb (FOps.abs new) (lit (1/1000000000000000000000000000000)) then FOps.abs (new - old) / new else d)
        = max m (deviation new old) := by
    intro m d new old hm hd
    unfold deviation
    split
    · rfl
    · rw [max_eq_left hd, max_eq_left hm]
  suffices H : ∀ (l : List (Fin n)) (s : ℝ × ℝ × ℝ × ℝ), 0 ≤ s.1 → s.2.1 ≤ s.1 → s.2.2.1 ≤ s.1 → s.2.2.2 ≤ s.1 →
      (l.foldl (fun (s : ℝ × ℝ × ℝ × ℝ) i =>
        if (p i).gr.effect != .disabled then
          let dx := if ltb (FOps.abs (new i).x) (lit (1/1000000000000000000000000000000)) then FOps.abs ((new i).x - (old i).x) / (new i).x else s.2.1
          let dy := if ltb (FOps.abs (new i).y) (lit (1/1000000000000000000000000000000)) then FOps.abs ((new i).y - (old i).y) / (new i).y else s.2.2.1
          let dz := if ltb (FOps.abs (new i).z) (lit (1/1000000000000000000000000000000)) then FOps.abs ((new i).z - (old i).z) / (new i).z else s.2.2.2
          let m := if ltb s.1 dx then dx else s.1
          let m := if ltb m dy then dy else m
          let m := if ltb m dz then dz else m
          (m, dx, dy, dz)
        else s) s).1 = l.foldl (fun m i => max m (bodyDeviation p new old i)) s.1 by
    have := H (hostFirst h) (lit 0, lit 0, lit 0, lit 0) (by simp) le_rfl le_rfl le_rfl
    simp only [lit_real, Rat.cast_zero] at this ⊢
    exact this
  intro l
  induction l with
  | nil => intro s _ _ _ _; rfl
  | cons i l ih =>
    intro s h0 h1 h2 h3
    rw [List.foldl_cons, List.foldl_cons]
    by_cases hg : ((p i).gr.effect != .disabled) = true
    · rw [if_pos hg]
      refine (ih _ ?_ ?_ ?_ ?_).trans ?_
      · simp only [upd]
        exact le_trans h0 (le_trans (le_max_left _ _) (le_trans (le_max_left _ _) (le_max_left _ _)))
      · simp only [upd]
        exact le_trans (le_max_right _ _) (le_trans (le_max_left _ _) (le_max_left _ _))
      · simp only [upd]
        exact le_trans (le_max_right _ _) (le_max_left _ _)
      · simp only [upd]
        exact le_max_right _ _
      · congr 1
        simp only [upd, bodyDeviation, hg, if_true]
        rw [comp _ _ _ _ h0 h1, comp _ _ _ _ (le_trans h0 (le_max_left _ _)) (le_trans h2 (le_max_left _ _)),
          comp _ _ _ _ (le_trans h0 (le_trans (le_max_left _ _) (le_max_left _ _)))
            (le_trans h3 (le_trans (le_max_left _ _) (le_max_left _ _)))]
        simp only [max_assoc]
    · rw [if_neg hg, ih s h0 h1 h2 h3]
      congr 1
      simp only [bodyDeviation, hg, Bool.false_eq_true, if_false]
      exact (max_eq_left h0).symm

theorem newhallMaxDev_relist (h : Fin n) (p : Fin n → Particle ℝ) (new old : Fin n → Axes ℝ) :
    newhallMaxDev h (relist σ p) (fun i => new (σ i)) (fun i => old (σ i)) = newhallMaxDev (σ h) p new old := by
  rw [newhallMaxDev_eq, newhallMaxDev_eq]
  have e : (hostFirst h).foldl (fun m i => max m (bodyDeviation (relist σ p) (fun i => new (σ i)) (fun i => old (σ i)) i)) 0
      = ((hostFirst h).map σ).foldl (fun m i => max m (bodyDeviation p new old i)) 0 := by
    rw [List.foldl_map]
    rfl
  rw [e]
  refine (hostFirst_relist (σ := σ) h).foldl_eq' (fun x _ y _ z => ?_) _
  exact max_right_comm _ _ _

theorem newhallLoop_relist (k : Consts ℝ) (h : Fin n) (p : Fin n → Particle ℝ) (newton : Fin n → Axes ℝ) (fuel : Nat)
    (a : Fin n → Axes ℝ) :
    newhallLoop k h (relist σ p) (fun i => newton (σ i)) fuel (fun i => a (σ i))
      = fun i => newhallLoop k (σ h) p newton fuel a (σ i) := by
  induction fuel generalizing a with
  | zero => rfl
  | succ fuel ih =>
    unfold newhallLoop
    have e : newhallSweep k h (relist σ p) (fun i => newton (σ i)) (fun i => a (σ i))
        = fun i => newhallSweep k (σ h) p newton a (σ i) := funext fun i => newhallSweep_relist k h p newton a i
    dsimp only
    rw [e, newhallMaxDev_relist, ih]
    split <;> rfl

theorem newhall_relist (k : Consts ℝ) (h : Fin n) (p : Fin n → Particle ℝ) :
    newhall k .none h (relist σ p) = relist σ (newhall k .none (σ h) p) := by
  have e0 : newtonianAccelerations k .none h (relist σ p) = fun i => newtonianAccelerations k .none (σ h) p (σ i) := rfl
  have e1 : newhallLoop k h (relist σ p) (newtonianAccelerations k .none h (relist σ p)) 10 (fun _ => Axes.zero)
      = fun i => newhallLoop k (σ h) p (newtonianAccelerations k .none (σ h) p) 10 (fun _ => Axes.zero) (σ i) := by
    rw [e0]
    exact newhallLoop_relist k h p _ 10 fun _ => Axes.zero
  unfold newhall
  dsimp only
  rw [e1]
  generalize newhallLoop k (σ h) p (newtonianAccelerations k .none (σ h) p) 10 (fun _ => Axes.zero) = a
  funext i
  show (if i = h then _ else _) = listedAt i (if σ i = σ h then _ else _)
  by_cases hi : i = h
  · subst hi
    simp only [if_true]
    rfl
  · have hi' : σ i ≠ σ h := fun e => hi (σ.injective e)
    simp only [if_neg hi, if_neg hi']
    exact step_listed (b := (p (σ i)).gr.effect.isOrbiting) rfl

theorem generalRelativity_relist (k : Consts ℝ) (eps2 : ℝ) (h : Fin n) {p : Fin n → Particle ℝ}
    (hg : (p (σ h)).gr.effect ≠ .central .anderson1975) :
    generalRelativity k eps2 .none h (relist σ p) = relist σ (generalRelativity k eps2 .none (σ h) p) := by
  unfold generalRelativity
  have e : (relist σ p h).gr = (p (σ h)).gr := rfl
  rw [e, kidder_relist, newhall_relist]
  revert hg
  generalize (p (σ h)).gr.effect = x
  intro hg
  rcases x with (_ | _ | _ | _) | _ | _
  all_goals first | rfl | exact absurd rfl hg

/-! ### Wind and disk -/

theorem windInitialize_listed (i : Fin n) (q : Particle ℝ) : windInitialize (listedAt i q) = listedAt i (windInitialize q) := by
  exact step_listed (b := q.wind.interaction) rfl

theorem windFactor_listed (k : Consts ℝ) (i : Fin n) (q : Particle ℝ) : windFactor k (listedAt i q) = listedAt i (windFactor k q) := by
  exact step_listed (b := q.wind.interaction) rfl

theorem diskInitialize_relist (h : Fin n) (p : Fin n → Particle ℝ) :
    diskInitialize h (relist σ p) = relist σ (diskInitialize (σ h) p) := by
  unfold diskInitialize
  rw [mapHost_relist (f := fun host => { host with disk := { host.disk with acceleration := Axes.zero } }) (by rfl),
    mapOthers_relist (f := fun _ q =>
      if q.disk.effect.isOrbiting then { q with disk := { q.disk with acceleration := Axes.zero } } else q) fun i _ => ?_]
  · have e : (relist σ p h).disk = (p (σ h)).disk := rfl
    rw [e]
    cases (p (σ h)).disk.effect.central? <;> rfl
  · dsimp only [relist, listedAt]
    split <;> rfl

theorem diskInertialToHeliocentric_relist (h : Fin n) (p : Fin n → Particle ℝ) :
    diskInertialToHeliocentric h (relist σ p) = relist σ (diskInertialToHeliocentric (σ h) p) := by
  unfold diskInertialToHeliocentric
  rw [mapHost_relist (f := fun host => { host with disk := { host.disk with
          position := Axes.zero, velocity := Axes.zero, distance := lit 0,
          normVelocity := lit 0, normVelocity2 := lit 0 } }) (by rfl),
    mapOthers_relist (f := fun host q =>
        if q.disk.effect.isOrbiting then
          { q with disk := { q.disk with
              position := q.inertialPosition - host.inertialPosition,
              velocity := q.inertialVelocity - host.inertialVelocity,
              distance := FOps.sqrt (q.inertialPosition - host.inertialPosition).norm2,
              normVelocity2 := (q.inertialVelocity - host.inertialVelocity - host.disk.velocity).norm2,
              normVelocity := FOps.sqrt (q.inertialVelocity - host.inertialVelocity - host.disk.velocity).norm2 } }
        else q) fun i _ => ?_]
  · have e : (relist σ p h).disk = (p (σ h)).disk := rfl
    rw [e]
    cases (p (σ h)).disk.effect.central? <;> rfl
  · dsimp only [relist, listedAt]
    split <;> rfl

theorem diskCopyHeliocentric_relist (h : Fin n) (p : Fin n → Particle ℝ) :
    diskCopyHeliocentric h (relist σ p) = relist σ (diskCopyHeliocentric (σ h) p) := by
  unfold diskCopyHeliocentric
  dsimp only
  rw [mapHost_relist (f := fun q => { q with disk := { q.disk with
      position := q.heliocentricPosition, velocity := q.heliocentricVelocity,
      distance := q.heliocentricDistance, normVelocity := q.heliocentricNormVelocity,
      normVelocity2 := q.heliocentricNormVelocity2 } }) (by rfl),
    mapOthers_relist (f := fun _ q => if q.disk.effect.isOrbiting then { q with disk := { q.disk with
      position := q.heliocentricPosition, velocity := q.heliocentricVelocity,
      distance := q.heliocentricDistance, normVelocity := q.heliocentricNormVelocity,
      normVelocity2 := q.heliocentricNormVelocity2 } } else q) fun i _ => ?_]
  · have e : (relist σ p h).disk = (p (σ h)).disk := rfl
    rw [e]
    cases (p (σ h)).disk.effect.central? <;> rfl
  · dsimp only [relist, listedAt]
    split <;> rfl

theorem diskAcceleration_relist (k : Consts ℝ) (time : ℝ) (h : Fin n) (p : Fin n → Particle ℝ) :
    diskAcceleration k time h (relist σ p) = relist σ (diskAcceleration k time (σ h) p) := by
  have e0 : (others h).isEmpty = (others (σ h)).isEmpty := by
    have := (others_relist σ h).length_eq
    rw [List.length_map] at this
    cases h1 : others h <;> cases h2 : others (σ h) <;> simp_all
  have e1 : ∀ d, sumOthers h (diskForceTerm k time d (relist σ p h)) (relist σ p)
      = sumOthers (σ h) (diskForceTerm k time d (p (σ h))) p := fun d => sumOthers_relist fun i _ => rfl
  have e2 : ∀ d, mapOthers h (diskStep k time d) (relist σ p) = relist σ (mapOthers (σ h) (diskStep k time d) p) := by
    intro d
    refine mapOthers_relist fun i _ => ?_
    exact step_listed (b := (p (σ i)).disk.effect.isOrbiting) rfl
  unfold diskAcceleration
  have e : (relist σ p h).disk = (p (σ h)).disk := rfl
  rw [e]
  cases (p (σ h)).disk.effect.central? with
  | none => rfl
  | some d =>
    dsimp only
    rw [e0, e1, e2]
    split
    · rfl
    · exact mapHost_relist rfl

end
end Posidonius.Univ
