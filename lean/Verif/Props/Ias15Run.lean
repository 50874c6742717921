import Verif.Props.ObserverIas15
import Verif.Props.Record

/-! # C48 for the universe: the time and the steps of a run of IAS15 -/

namespace Posidonius.Ias15

section
variable {S : Type} {n : ℕ} [FNormal ℝ] {eval : Evaluate S ℝ}

theorem only_total (he : ∀ s t l a, l.length = n → eval s t l = some a → a.2.length = n) : Total (only n eval) := by
  intro s t l s' r h
  unfold only at h
  split at h
  · rename_i hl
    exact (he s t l _ hl h).trans hl.symm
  · cases h

theorem attempt_length (he : ∀ s t l a, l.length = n → eval s t l = some a → a.2.length = n) (T : Tables ℝ) (spin : Bool)
    {u u' : State S ℝ} {ok : Bool} (hl : u.particles.length = n) (h : attempt T spin eval u = some (ok, u')) :
    u'.particles.length = n := by
  have id : ∀ {A : Type} {l : List A}, l.length = n → relist (List.range n) l = l := by
    rintro A l rfl
    exact relist_range l
  have g := C141_sweeps (R := Eq) (p := List.range n) (n := n) (eval := eval) (eval' := eval) (List.Perm.refl _)
    (fun s s' t l hs hl => by
      subst hs
      rw [id hl]
      cases e : eval s t l with
      | none => exact .none
      | some a =>
        have := he s t l a hl e
        exact .some ⟨rfl, this, (id this).symm⟩) T spin u.time u.dt 12 0 (lit 1e300) (lit 2) (s := u.hidden) (s' := u.hidden) rfl
      (l := u.particles.map (Axes.map (Comp.start T spin))) (by simpa using hl)
  unfold attempt at h
  dsimp only at h
  cases e : sweeps T spin eval u.time u.dt 12 0 (lit 1e300) (lit 2) u.hidden (u.particles.map (Axes.map (Comp.start T spin))) with
  | none => rw [e] at h; cases h
  | some a =>
    rw [e] at g h
    obtain ⟨s, l⟩ := a
    have hl : l.length = n := by
      generalize sweeps T spin eval u.time u.dt 12 0 (lit 1e300) (lit 2) u.hidden _ = y at g
      cases g with
      | some g => exact g.2.1
    dsimp only at h
    split at h
    · cases h
      dsimp only
      split <;> simpa using hl
    · cases h
      simpa using hl

theorem only_integrate (he : ∀ s t l a, l.length = n → eval s t l = some a → a.2.length = n) (T : Tables ℝ) (spin : Bool) (fuel : ℕ)
    {u : State S ℝ} (hl : u.particles.length = n) :
    integrate T spin (only n eval) fuel u = integrate T spin eval fuel u := by
  induction fuel generalizing u with
  | zero => rfl
  | succ fuel ih =>
    unfold integrate
    rw [only_attempt he T spin hl]
    cases e : attempt T spin eval u with
    | none => rfl
    | some a =>
      obtain ⟨ok, u'⟩ := a
      cases ok
      · exact ih (attempt_length he T spin hl e)
      · rfl

end

end Posidonius.Ias15

namespace Posidonius.Univ

section
variable {n : Nat} {k : Consts ℝ} {m : Models ℝ} {eps2 : ℝ} {roche : Fin n → Fin n → ℝ} [Ias15.FNormal ℝ]

/-- **C48 for the universe**: an iteration of IAS15 advances the time by the step that was accepted, which is not longer than the one
tried first and in the same direction; the next one is between a quarter and four times of it. -/
theorem C48_universe (hN : Ias15.isNormal (0 : ℝ) = false) {fuel : ℕ} {record : Bool} {r r' : Ias15Run ℝ n} (hdt : r.dt ≠ 0)
    (h : ias15Iterate k m eps2 roche fuel record r = some r') :
    r'.time = r.time + r'.last ∧ 0 < r'.last / r.dt ∧ r'.last / r.dt ≤ 1 ∧ 1 / 4 ≤ r'.dt / r'.last ∧ r'.dt / r'.last ≤ 4 := by
  unfold ias15Iterate at h
  split at h
  · cases h
  rename_i u hu
  split at h
  · cases h
  rename_i s hs
  cases h
  dsimp only
  unfold Ias15.iterate at hs
  split at hs
  · cases hs
  rename_i v q hv
  have he : ∀ (u : Universe ℝ n) t l a, l.length = n → ias15Evaluate k m eps2 roche u t l = some a → a.2.length = n :=
    fun _ _ _ _ _ e => evaluate_length e
  have hq : q.length = n := evaluate_length (a := (v, q)) hv
  dsimp only at hs
  rw [← Ias15.only_integrate he _ _ fuel (by simp [hq])] at hs
  exact Ias15.C48_iteration hN _ _ _ (Ias15.only_total he) fuel _ s hdt hs

/-- **C48 for a run**: from a positive step the time increases with every iteration, the steps stay positive, and none is longer than
four times the one before. -/
theorem C48_run (hN : Ias15.isNormal (0 : ℝ) = false) {fuel : ℕ} (records : List Bool) {r r' : Ias15Run ℝ n} (hdt : 0 < r.dt)
    (h : records.foldlM (fun r record => ias15Iterate k m eps2 roche fuel record r) r = some r') :
    0 < r'.dt ∧ r'.dt ≤ 4 ^ records.length * r.dt ∧ (records ≠ [] → r.time < r'.time)
      ∧ r'.time - r.time ≤ r.dt * (4 ^ records.length - 1) / 3 := by
  induction records generalizing r with
  | nil =>
    cases h
    simp [hdt]
  | cons record records ih =>
    rw [List.foldlM_cons] at h
    obtain ⟨s, hs, h⟩ := Option.bind_eq_some_iff.1 h
    obtain ⟨h1, h2, h3, h4, h5⟩ := C48_universe hN hdt.ne' hs
    have p : 0 < s.last := by
      have := mul_pos h2 hdt
      rwa [div_mul_cancel₀ _ hdt.ne'] at this
    have q : s.last ≤ r.dt := (div_le_one hdt).1 h3
    have d : 0 < s.dt := by
      have := mul_pos (lt_of_lt_of_le (by norm_num) h4 : 0 < s.dt / s.last) p
      rwa [div_mul_cancel₀ _ p.ne'] at this
    have e : s.dt ≤ 4 * s.last := (div_le_iff₀ p).1 h5
    obtain ⟨a, b, c, f⟩ := ih d h
    have w : (1 : ℝ) ≤ 4 ^ records.length := one_le_pow₀ (by norm_num)
    refine ⟨a, ?_, fun _ => ?_, ?_⟩
    · rw [List.length_cons, pow_succ]
      nlinarith
    · by_cases hr : records = []
      · subst hr
        cases h
        linarith
      · have := c hr
        linarith
    · rw [List.length_cons, pow_succ]
      have : s.dt * (4 ^ records.length - 1) / 3 ≤ 4 * r.dt * (4 ^ records.length - 1) / 3 := by
        have : s.dt * (4 ^ records.length - 1) ≤ 4 * r.dt * (4 ^ records.length - 1) :=
          mul_le_mul_of_nonneg_right (by linarith) (by linarith)
        linarith
      linarith

end

/-- Powers and elementary functions do not occur in the example. -/
local instance : FPow XQ := ⟨fun x _ => x⟩
local instance : FTrig XQ := ⟨id, id, id, fun x _ => x, id, id, id, id, .fin 0⟩

/-- A body alone with the velocity 3. -/
def drifting : Ias15Run XQ 1 :=
  { world :=
      { particles := fun _ => { blank XQ with mass := .fin 1, massG := .fin 1, momentOfInertia := .fin 1,
                                              inertialPosition := ⟨.fin 1, .fin 0, .fin 0⟩, inertialVelocity := ⟨.fin 3, .fin 0, .fin 0⟩ },
        evolvers := fun _ => ⟨.nonEvolving, [], [], [], [], [], 0⟩,
        consider := ⟨false, false, false, false, false, false⟩,
        grImplementation := .disabled,
        hosts := ⟨0, none, none, none, none, true, false, false, false, false⟩,
        table := fun _ => none },
    arrays := fun _ => ⟨.rest (.fin 0), .rest (.fin 0), .rest (.fin 0)⟩, time := .fin 5, dt := .fin 2, last := .fin 0 }

/-- After two iterations of the lengths 2 and 8 it has moved by 30, and the next step has the length 32. -/
example : ([false, false].foldlM (fun r record => ias15Iterate unitConsts noModels (.fin 0) (fun _ _ => .fin 0) 1 record r) drifting).map
    (fun r => (r.time, r.dt, r.last, (r.world.particles 0).inertialPosition.x)) = some (.fin 15, .fin 32, .fin 8, .fin 31) := by
  decide +kernel

end Posidonius.Univ
