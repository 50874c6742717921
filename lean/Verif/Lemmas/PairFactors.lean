import Verif.Lemmas.TidalForce

/-! The table of the pair dependent dissipation factors after an update of all the pairs, and the state in
which the tides of an evaluation are computed. -/

namespace Posidonius.Univ
open Finset
open Gravity (Ignore)

variable {n : Nat}

theorem pairKey_ne {a b c d : Nat} (hb : b < maxParticles) (hd : d < maxParticles) (h : a ≠ c ∨ b ≠ d) :
    a * maxParticles + b ≠ c * maxParticles + d := by
  unfold maxParticles at *
  omega

/-- In a loop over tables only one turn matters for a key. -/
theorem foldl_table {F : Type} (f : Fin n → Table F → Table F) (key : Nat) (i : Fin n)
    (ho : ∀ j, j ≠ i → ∀ t, f j t key = t key) (l : List (Fin n)) (hn : l.Nodup) (hi : i ∈ l) (t : Table F) :
    ∃ t', t' key = t key ∧ l.foldl (fun t j => f j t) t key = f i t' key := by
  have none_ : ∀ (l : List (Fin n)) (t : Table F), i ∉ l → l.foldl (fun t j => f j t) t key = t key := by
    intro l
    induction l with
    | nil => intro t _; rfl
    | cons a l ih =>
      intro t ha
      rw [List.foldl_cons, ih _ (fun h => ha (List.mem_cons_of_mem _ h)),
        ho a (fun h => ha (h ▸ List.mem_cons_self))]
  induction l generalizing t with
  | nil => simp at hi
  | cons a l ih =>
    rw [List.foldl_cons]
    by_cases ha : a = i
    · subst ha
      exact ⟨t, rfl, none_ l _ (List.nodup_cons.1 hn).1⟩
    · have hl : i ∈ l := by
        rcases List.mem_cons.1 hi with h | h
        · exact absurd h.symm ha
        · exact h
      obtain ⟨t', h1, h2⟩ := ih (List.nodup_cons.1 hn).2 hl (f a t)
      exact ⟨t', by rw [h1, ho a ha], h2⟩

/-- Inside the regime of the dynamical tide. -/
def InRegime (host p body : Particle ℝ) : Prop :=
  |Real.sqrt body.normSpin2 - meanMotion host p| < Real.sqrt body.normSpin2

open Classical in
theorem planetDependentStep_own (k : Consts ℝ) (host p : Particle ℝ) (t : Table ℝ) {x : ℝ × ℝ × ℝ}
    (hp : p.tides.effect.orbitingCtl = some x) :
    planetDependentStep k host p t (host.id * maxParticles + p.id)
      = if InRegime host p host then
          some (dynamicalFactor k |Real.sqrt host.normSpin2 - meanMotion host p|
            host.tides.effect.hostScaleAndFactor.1 host.radius host.tides.lagAngle
            host.tides.effect.hostScaleAndFactor.2)
        else none := by
  unfold planetDependentStep
  rw [hp]
  dsimp only
  unfold InRegime
  by_cases hr : |Real.sqrt host.normSpin2 - meanMotion host p| < Real.sqrt host.normSpin2
  · rw [if_pos (by simpa using hr), if_pos hr]
    simp [setPairFactor]
  · rw [if_neg (by simpa using hr), if_neg hr]
    simp [removePairFactor]

theorem planetDependentStep_other (k : Consts ℝ) (host p : Particle ℝ) (t : Table ℝ) (key : Nat)
    (hk : key ≠ host.id * maxParticles + p.id) : planetDependentStep k host p t key = t key := by
  unfold planetDependentStep
  cases p.tides.effect.orbitingCtl with
  | none => rfl
  | some x =>
    dsimp only
    split <;> simp [setPairFactor, removePairFactor, hk]

theorem hostDependentStep_other (k : Consts ℝ) (host p : Particle ℝ) (t : Table ℝ) (key : Nat)
    (hk : key ≠ host.id * maxParticles + p.id) (hk' : key ≠ p.id * maxParticles + host.id) :
    hostDependentStep k host p t key = t key := by
  unfold hostDependentStep
  split
  · cases p.tides.effect.orbitingCtl with
    | none => rfl
    | some x =>
      dsimp only
      split <;> simp [setPairFactor, removePairFactor, hk, hk']
  · rfl

/-- For the companion's key: set inside the regime, left as it is outside. -/
theorem hostDependentStep_companion (k : Consts ℝ) (host p : Particle ℝ) (t : Table ℝ) {a b c : ℝ}
    (hp : p.tides.effect.orbitingCtl = some (a, b, c)) (hev : hasDynamicalTide p.evolution = true)
    (hid : host.id < maxParticles) (hid' : p.id < maxParticles) (hne : host.id ≠ p.id) :
    (InRegime host p p → hostDependentStep k host p t (p.id * maxParticles + host.id)
      = some (dynamicalFactor k |Real.sqrt p.normSpin2 - meanMotion host p| b p.radius p.tides.lagAngle a))
    ∧ (¬ InRegime host p p → hostDependentStep k host p t (p.id * maxParticles + host.id)
      = t (p.id * maxParticles + host.id)) := by
  have hk : p.id * maxParticles + host.id ≠ host.id * maxParticles + p.id :=
    pairKey_ne hid hid' (Or.inl hne.symm)
  unfold hostDependentStep InRegime
  rw [hev, hp]
  dsimp only
  constructor
  · intro hr
    rw [if_pos rfl, if_pos (by simpa using hr)]
    simp [setPairFactor]
  · intro hr
    rw [if_pos rfl, if_neg (by simpa using hr)]
    simp [removePairFactor, hk]

/-- For the host's key: untouched if the companion has no dynamical tide or is inside the regime. -/
theorem hostDependentStep_host (k : Consts ℝ) (host p : Particle ℝ) (t : Table ℝ)
    (hr : hasDynamicalTide p.evolution = true → InRegime host p p)
    (hid : host.id < maxParticles) (hid' : p.id < maxParticles) (hne : host.id ≠ p.id) :
    hostDependentStep k host p t (host.id * maxParticles + p.id) = t (host.id * maxParticles + p.id) := by
  have hk : host.id * maxParticles + p.id ≠ p.id * maxParticles + host.id :=
    pairKey_ne hid' hid (Or.inl hne)
  unfold hostDependentStep
  by_cases hev : hasDynamicalTide p.evolution = true
  · rw [if_pos hev]
    cases p.tides.effect.orbitingCtl with
    | none => rfl
    | some x =>
      dsimp only
      rw [if_pos (by simpa [InRegime] using hr hev)]
      simp [setPairFactor, hk]
  · rw [if_neg hev]

section
variable (k : Consts ℝ) (h : Fin n) (p : Fin n → Particle ℝ) (t : Table ℝ)
  (hid : ∀ j, (p j).id < maxParticles) (hinj : ∀ i j, (p i).id = (p j).id → i = j)
include hid hinj

theorem pairFactors_host {i : Fin n} (hi : i ≠ h) {x : ℝ × ℝ × ℝ}
    (hp : (p i).tides.effect.orbitingCtl = some x) (hev : hasDynamicalTide (p h).evolution = true)
    (hr : hasDynamicalTide (p i).evolution = true → InRegime (p h) (p i) (p i)) :
    (InRegime (p h) (p i) (p h) → pairFactors k h p t ((p h).id * maxParticles + (p i).id)
        = some (dynamicalFactor k |Real.sqrt (p h).normSpin2 - meanMotion (p h) (p i)|
            (p h).tides.effect.hostScaleAndFactor.1 (p h).radius (p h).tides.lagAngle
            (p h).tides.effect.hostScaleAndFactor.2))
      ∧ (¬ InRegime (p h) (p i) (p h) → pairFactors k h p t ((p h).id * maxParticles + (p i).id) = none) := by
  have hne : (p h).id ≠ (p i).id := fun e => hi (hinj _ _ e).symm
  have key : pairFactors k h p t ((p h).id * maxParticles + (p i).id)
      = planetDependent k h p t ((p h).id * maxParticles + (p i).id) := by
    unfold pairFactors hostDependent
    obtain ⟨t', h1, h2⟩ := foldl_table (fun j t => hostDependentStep k (p h) (p j) t)
      ((p h).id * maxParticles + (p i).id) i (fun j hj t => hostDependentStep_other k _ _ t _
        (pairKey_ne (hid _) (hid _) (Or.inr fun e => hj (hinj _ _ e).symm))
        (pairKey_ne (hid _) (hid _) (Or.inr hne.symm)))
      (others h) (others_nodup h) (mem_others.2 hi) (planetDependent k h p t)
    refine h2.trans ?_
    rw [← h1]
    exact hostDependentStep_host k _ _ t' hr (hid _) (hid _) hne
  rw [key]
  unfold planetDependent
  rw [if_pos hev]
  obtain ⟨t', h1, h2⟩ := foldl_table (fun j t => planetDependentStep k (p h) (p j) t)
    ((p h).id * maxParticles + (p i).id) i (fun j hj t => planetDependentStep_other k _ _ t _
      (pairKey_ne (hid _) (hid _) (Or.inr fun e => hj (hinj _ _ e).symm)))
    (others h) (others_nodup h) (mem_others.2 hi) t
  rw [h2, planetDependentStep_own k _ _ t' hp]
  exact ⟨fun hr => if_pos hr, fun hr => if_neg hr⟩

theorem pairFactors_companion {i : Fin n} (hi : i ≠ h) {a b c : ℝ}
    (hp : (p i).tides.effect.orbitingCtl = some (a, b, c)) (hev : hasDynamicalTide (p i).evolution = true) :
    (InRegime (p h) (p i) (p i) → pairFactors k h p t ((p i).id * maxParticles + (p h).id)
        = some (dynamicalFactor k |Real.sqrt (p i).normSpin2 - meanMotion (p h) (p i)| b (p i).radius
            (p i).tides.lagAngle a))
      ∧ (¬ InRegime (p h) (p i) (p i) → pairFactors k h p t ((p i).id * maxParticles + (p h).id)
        = t ((p i).id * maxParticles + (p h).id)) := by
  have hne : (p h).id ≠ (p i).id := fun e => hi (hinj _ _ e).symm
  have hpd : planetDependent k h p t ((p i).id * maxParticles + (p h).id)
      = t ((p i).id * maxParticles + (p h).id) := by
    unfold planetDependent
    split
    · have : ∀ (l : List (Fin n)) (t : Table ℝ),
          l.foldl (fun t j => planetDependentStep k (p h) (p j) t) t ((p i).id * maxParticles + (p h).id)
            = t ((p i).id * maxParticles + (p h).id) := by
        intro l
        induction l with
        | nil => intro t; rfl
        | cons j l ih =>
          intro t
          rw [List.foldl_cons, ih, planetDependentStep_other k _ _ t _
            (pairKey_ne (hid _) (hid _) (Or.inl hne.symm))]
      exact this _ _
    · rfl
  unfold pairFactors hostDependent
  obtain ⟨t', h1, h2⟩ := foldl_table (fun j t => hostDependentStep k (p h) (p j) t)
    ((p i).id * maxParticles + (p h).id) i (fun j hj t => hostDependentStep_other k _ _ t _
      (pairKey_ne (hid _) (hid _) (Or.inl hne.symm))
      (pairKey_ne (hid _) (hid _) (Or.inl fun e => hj (hinj _ _ e).symm)))
    (others h) (others_nodup h) (mem_others.2 hi) (planetDependent k h p t)
  rw [h2, ← hpd, ← h1]
  exact hostDependentStep_companion k _ _ t' hp hev (hid _) (hid _) hne

end

/-! ### Kepler's third law -/

open Tools Kepler in
theorem meanMotion_kepler (host p : Particle ℝ) {r v : Axes ℝ} (h1 : p.tides.position = r)
    (h2 : p.tides.velocity = v) (hgm : 0 < host.massG + p.massG) (hL : r.cross v ≠ 0)
    (hE : v.dot v / 2 - (host.massG + p.massG) / Real.sqrt (r.dot r) < 0) :
    IsMeanMotion (host.massG + p.massG) r v (meanMotion host p) := by
  unfold meanMotion
  rw [h1, h2]
  generalize host.massG + p.massG = gm at *
  have hr0 : r ≠ 0 := fun e => hL (by rw [e, Axes.zero_cross])
  have hrr : 0 < r.dot r :=
    lt_of_le_of_ne (Axes.dot_self_nonneg _) (fun e => hr0 (Axes.dot_self_eq_zero e.symm))
  have hLL : 0 < (r.cross v).dot (r.cross v) :=
    lt_of_le_of_ne (Axes.dot_self_nonneg _) (fun e => hL (Axes.dot_self_eq_zero e.symm))
  have hρ : 0 < Real.sqrt (r.dot r) := Real.sqrt_pos.2 hrr
  have hlen : len r = Real.sqrt (r.dot r) := rfl
  have ht0 : 0 ≤ 1 + (r.cross v).dot (r.cross v) / gm * (v.dot v / gm - 2 / len r) := by
    rw [← lrl_norm gm hgm.ne' r v (by rw [hlen]; exact hρ.ne')]
    exact Axes.dot_self_nonneg _
  dsimp only
  rw [perihelion_real]
  simp only [lit_real, powf_real, sqrt_real]
  rw [hlen] at *
  generalize hs : (r.cross v).dot (r.cross v) / gm = s at *
  have hs0 : 0 < s := by rw [← hs]; positivity
  set a := 1 / (2 / Real.sqrt (r.dot r) - v.dot v / gm) with ha
  have hpos : 0 < 2 / Real.sqrt (r.dot r) - v.dot v / gm := by
    have e : 2 / Real.sqrt (r.dot r) - v.dot v / gm
        = -(2 / gm) * (v.dot v / 2 - gm / Real.sqrt (r.dot r)) := by
      field_simp
      ring
    rw [e]
    have : 0 < 2 / gm := by positivity
    nlinarith
  have ha0 : 0 < a := by rw [ha]; positivity
  have hia : v.dot v / gm - 2 / Real.sqrt (r.dot r) = -(1 / a) := by rw [ha]; field_simp; ring
  rw [hia] at ht0 ⊢
  have hq : s / (1 + (if 1 + s * -(1 / a) ≤ 0 then 0 else Real.sqrt (1 + s * -(1 / a))))
      / (((1 : ℚ) : ℝ) - (if 1 + s * -(1 / a) ≤ 0 then 0 else Real.sqrt (1 + s * -(1 / a)))) = a := by
    split
    · rename_i hle
      have e0 : 1 + s * -(1 / a) = 0 := le_antisymm hle ht0
      have : s = a := by
        field_simp at e0
        linarith
      simp [this]
    · have e2 := Real.sq_sqrt ht0
      set e := Real.sqrt (1 + s * -(1 / a)) with he
      have hne : (1 + e) * (1 - e) ≠ 0 := by
        have : (1 + e) * (1 - e) = s * (1 / a) := by linear_combination -e2
        rw [this]; positivity
      have h1e := left_ne_zero_of_mul hne
      have h2e := right_ne_zero_of_mul hne
      push_cast
      rw [div_div, div_eq_iff hne]
      have : (1 + e) * (1 - e) = s * (1 / a) := by linear_combination -e2
      rw [this]
      field_simp
  rw [hq]
  refine ⟨mul_pos (Real.sqrt_pos.2 hgm) (Real.rpow_pos_of_pos ha0 _), a, ha0, ?_, ?_⟩
  · have : v.dot v / 2 - gm / Real.sqrt (r.dot r)
        = gm / 2 * (v.dot v / gm - 2 / Real.sqrt (r.dot r)) := by field_simp
    rw [this, hia]
    field_simp
  · rw [mul_pow, Real.sq_sqrt hgm.le, ← Real.rpow_natCast (a ^ _) 2, ← Real.rpow_mul ha0.le,
      ← Real.rpow_natCast a 3, mul_assoc, ← Real.rpow_add ha0]
    norm_num

/-! ### The state in which the tides of an evaluation are computed -/

/-- `p` is the state of the particles when the tides are computed: what the evaluation keeps, the refreshed
rotation and size, and the geometry. -/
structure TidalState (h : Fin n) (u0 u' : Universe ℝ n) (p : Fin n → Particle ℝ) : Prop where
  mass : ∀ i, (p i).mass = (u0.particles i).mass
  massG : ∀ i, (p i).massG = (u0.particles i).massG
  id : ∀ i, (p i).id = (u0.particles i).id
  evolution : ∀ i, (p i).evolution = (u0.particles i).evolution
  effect : ∀ i, (p i).tides.effect = (u0.particles i).tides.effect
  scaled : ∀ i, (p i).tides.scaledDissipationFactor = (u0.particles i).tides.scaledDissipationFactor
  spin : ∀ i, (p i).spin = (u'.particles i).spin
  normSpin2 : ∀ i, (p i).normSpin2 = (u'.particles i).spin.dot (u'.particles i).spin
  radius : ∀ i, (p i).radius = (u'.particles i).radius
  lagAngle : ∀ i, (p i).tides.lagAngle = (u'.particles i).tides.lagAngle
  geometry : ∀ i, i ≠ h → TidalGeometry ((u0.particles i).inertialPosition - (u0.particles h).inertialPosition)
    ((u0.particles i).inertialVelocity - (u0.particles h).inertialVelocity)
    (u0.particles h).spin (u0.particles i).spin (p i).tides

theorem effects_force {k : Consts ℝ} {m : Models ℝ} {eps2 time : ℝ} {evolution : Bool} {ignore : Ignore}
    {u0 u' : Universe ℝ n} {h : Fin n}
    (hok : HostsOk u0) (hh : u0.hosts.tides = some h) (ct : u0.consider.tides = true)
    (hc : AllCtl h u0.particles) (hm : ∀ i, (u0.particles i).mass ≠ 0)
    (hsep : ∀ i, i ≠ h → (u0.particles i).inertialPosition ≠ (u0.particles h).inertialPosition)
    (hu : calculateAdditionalEffects k m eps2 time evolution true true ignore (inertialToHeliocentric u0)
      = some u') :
    ∃ p : Fin n → Particle ℝ, TidalState h u0 u' p
      ∧ ∀ (a b lh : ℝ), (u0.particles h).tides.effect = .central (.constantTimeLag a b lh) →
        ∀ i, i ≠ h → ∀ (a' b' lp : ℝ), (u0.particles i).tides.effect = .orbiting (.constantTimeLag a' b' lp) →
          (u0.particles i).mass • (u'.particles i).tides.acceleration
            = ctlForce (p h) (withComponents k (pairFactors k h p u0.table) lh lp (p h) (p i)) := by
  unfold calculateAdditionalEffects at hu
  split at hu
  · simp at hu
  rename_i u1 h1
  split at hu
  · simp at hu
  rename_i u2 h2
  obtain ⟨a, b, c, d, e⟩ := prepared hok hh ct rfl h1 h2
  have hcore := initializeAll_core h1
  obtain ⟨-, -, -, -, -, -, -, -, -, -, -, -, -, tb1, -, -⟩ := initializeAll_stages h1
  obtain ⟨hsp, -, -, -, tb2⟩ := calculateSpinAndEvolving_step h2
  have tb : u2.table = u0.table := tb2.trans tb1
  have hG : ∀ i, (u2.particles i).massG = (u0.particles i).massG := by
    intro i
    have e1 : (u2.particles i).massG = (u1.particles i).massG := by
      have := congrArg Particle.massG (spinAndEvolving_noSpin (hsp i))
      exact this
    have e2 : (u1.particles i).massG = ((inertialToHeliocentric u0).particles i).massG := by
      have := congrArg Particle.massG (hcore i)
      exact this
    rw [e1, e2]
    unfold inertialToHeliocentric
    dsimp only
    by_cases hi : i = u0.hosts.mostMassive
    · subst hi
      rw [mapHost_host, mapOthers_host]
      rfl
    · rw [mapHost_other hi, mapOthers_other hi]
      rfl
  have hN : ∀ i, (u2.particles i).normSpin2 = (u2.particles i).spin.norm2 := fun i => by
    obtain ⟨_, -, -, -, s⟩ := spinAndEvolving_spin (hsp i)
    exact s
  obtain ⟨pw, pt, pg, pd, hw, ht, -, hg, hd, -, -, -, he⟩ := effects_stages hu
  obtain ⟨h', hh', ht⟩ := ht (by rw [b, ct]; rfl)
  rw [c, hh] at hh'
  injection hh' with hh'
  subst hh'
  have wc : ∀ {A : Type} (f : Particle ℝ → A), (∀ q, f q = f (noWind q)) →
      ∀ i, f (pw i) = f (u2.particles i) := by
    intro A f hf i
    rw [hf, hw i, ← hf]
  have hcw : AllCtl h pw := hc.congr fun i => by
    rw [hw.tides_of_wind, (a i).2.2.2.2.1]
  have geom : ∀ i, i ≠ h → TidalGeometry ((u0.particles i).inertialPosition - (u0.particles h).inertialPosition)
      ((u0.particles i).inertialVelocity - (u0.particles h).inertialVelocity)
      (u0.particles h).spin (u0.particles i).spin (pw i).tides := by
    intro i hi
    rw [hw.tides_of_wind]
    obtain ⟨_, _, _, e1⟩ := hc.1
    obtain ⟨_, _, _, e2⟩ := hc.2 i hi
    exact d (by rw [e1]; rfl) i hi (by rw [e2]; rfl)
  have npos : ∀ i, i ≠ h →
      0 < ((u0.particles i).inertialPosition - (u0.particles h).inertialPosition).norm2 := by
    intro i hi
    refine lt_of_le_of_ne (Axes.dot_self_nonneg _) (fun e0 => hsep i hi ?_)
    exact sub_eq_zero.1 (Axes.dot_self_eq_zero e0.symm)
  have mw : ∀ i, (pw i).mass = (u0.particles i).mass := fun i => by
    rw [wc Particle.mass (fun _ => rfl), (a i).1]
  have mne : ∀ i, (pw i).mass ≠ 0 := fun i => by rw [mw]; exact hm i
  obtain ⟨-, b2, b3, -⟩ := tidesAndFlattening_balance k m u2.consider (by rw [b, ct]) h pw u2.table
    (fun i => (u0.particles i).inertialPosition) hcw mne
    (fun i hi => (geom i hi).position)
    (fun i hi => by rw [(geom i hi).distance]; exact (Real.sqrt_pos.2 (npos i hi)).ne')
    (fun i hi => by rw [(geom i hi).distance, (geom i hi).position, Real.sq_sqrt (npos i hi).le])
  have ct2 : u2.consider.tides = true := by rw [b, ct]
  have force := fun a b lh hx i hi a' b' lp hy => tidesAndFlattening_force k m u2.consider ct2 h pw
    u2.table hcw mne (a := a) (b := b) (lh := lh) hx (i := i) hi (a' := a') (b' := b') (lp := lp) hy
  rw [← ht] at b2 b3
  rw [← ht, tb] at force
  have ft : ∀ i, (u'.particles i).tides = (pt i).tides := by
    intro i
    have e1 : (pd i).tides = (pt i).tides := by rw [hd.tides_of_disk, hg.tides_of_gr]
    rw [he i, ← e1]
    dsimp only
    split <;> split <;> rfl
  have fs : ∀ i, (u'.particles i).spin = (pw i).spin ∧ (u'.particles i).radius = (pw i).radius := by
    intro i
    have e1 : (pd i).spin = (pw i).spin := by
      have := congrArg Particle.spin ((hd.core_disk.trans (hg.core_gr.trans b2)) i)
      exact this
    have e2 : (pd i).radius = (pw i).radius := by
      have := congrArg Particle.radius ((hd.core_disk.trans (hg.core_gr.trans b2)) i)
      exact this
    rw [he i, ← e1, ← e2]
    dsimp only
    split <;> split <;> exact ⟨rfl, rfl⟩
  have eff : ∀ i, (pw i).tides.effect = (u0.particles i).tides.effect := fun i => by
    rw [hw.tides_of_wind, (a i).2.2.2.2.1]
  refine ⟨pw, ⟨mw, fun i => ?_, fun i => ?_, fun i => ?_, eff, fun i => ?_, fun i => (fs i).1.symm, fun i => ?_,
    fun i => (fs i).2.symm, fun i => ?_, geom⟩, ?_⟩
  · rw [wc Particle.massG (fun _ => rfl), hG]
  · rw [wc Particle.id (fun _ => rfl), (a i).2.2.2.2.2.1]
  · rw [wc Particle.evolution (fun _ => rfl), (a i).2.2.2.2.2.2.1]
  · rw [hw.tides_of_wind, (a i).2.2.2.2.2.2.2]
  · rw [(fs i).1, wc Particle.normSpin2 (fun _ => rfl), hN, wc Particle.spin (fun _ => rfl)]
    rfl
  · rw [ft]
    exact (congrArg Tides.lagAngle (b3 i)).symm
  · intro a b lh hx i hi a' b' lp hy
    rw [← force a b lh (by rw [eff]; exact hx) i hi a' b' lp (by rw [eff]; exact hy), mw, ft]

end Posidonius.Univ
