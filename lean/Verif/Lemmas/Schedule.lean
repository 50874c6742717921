import Verif.Lemmas.Driver
import Verif.Model.RealScalar
import Mathlib.Tactic.FieldSimp
import Mathlib.Tactic.NormNum

namespace Posidonius.Driver
open Posidonius.Output
variable {F U : Type} [Add F] [FOps F]
set_option linter.unusedSectionVars false

/-- What an iteration does to the bookkeeping. -/
theorem iterate_unfold {p : Physics F U} {s s' : State F U} {b : Option Bytes} {o : Outcome}
    (h : iterate p s = some (s', b, o)) :
    (b.isSome = (firstTrigger s || historicTrigger s)) ∧
    s'.lastHistoric = (if firstTrigger s || historicTrigger s then nextLastHistoric p s
      else s.lastHistoric) ∧
    s'.historicPeriod = s.historicPeriod ∧ s'.halfTimeStep = s.halfTimeStep ∧
    s'.timeLimit = s.timeLimit ∧ s'.lastRecovery = s.lastRecovery ∧
    s'.recoveryPeriod = s.recoveryPeriod ∧
    s'.currentIteration = s.currentIteration + 1 ∧
    s'.nHistoric = s.nHistoric + (if firstTrigger s || historicTrigger s then 1 else 0) ∧
    o = (if ltb s'.timeLimit (s'.currentTime + s'.timeStep) then .completed
      else .running (firstTrigger s || recoveryTrigger s)) ∧
    (∃ s1 : State F U, s1.currentTime = s.currentTime ∧ s1.timeStep = s.timeStep ∧
      s1.halfTimeStep = s.halfTimeStep ∧ stepPhase p s1 = some s') := by
  unfold iterate at h
  cases h1 : recordPhase p s with
  | none => simp [h1] at h
  | some r =>
    obtain ⟨s1, bytes⟩ := r
    simp only [h1] at h
    cases h2 : stepPhase p s1 with
    | none => simp [h2] at h
    | some s2 =>
      simp only [h2] at h
      have hb : s' = s2 ∧ b = bytes ∧
          o = (if ltb s2.timeLimit (s2.currentTime + s2.timeStep) then .completed
            else .running (firstTrigger s || recoveryTrigger s)) := by
        by_cases hc : ltb s2.timeLimit (s2.currentTime + s2.timeStep) = true
        · rw [if_pos hc] at h ⊢
          simp only [Option.some.injEq, Prod.mk.injEq] at h
          exact ⟨h.1.symm, h.2.1.symm, h.2.2.symm⟩
        · rw [if_neg hc] at h ⊢
          simp only [Option.some.injEq, Prod.mk.injEq] at h
          exact ⟨h.1.symm, h.2.1.symm, h.2.2.symm⟩
      obtain ⟨rfl, rfl, ho⟩ := hb
      have hs2 : s'.nHistoric = s1.nHistoric ∧ s'.lastHistoric = s1.lastHistoric ∧
          s'.historicPeriod = s1.historicPeriod ∧ s'.halfTimeStep = s1.halfTimeStep ∧
          s'.timeLimit = s1.timeLimit ∧ s'.lastRecovery = s1.lastRecovery ∧
          s'.recoveryPeriod = s1.recoveryPeriod ∧
          s'.currentIteration = s1.currentIteration + 1 := by
        unfold stepPhase at h2
        split at h2 <;> split at h2 <;> first
          | (simp at h2; done)
          | (simp only [Option.some.injEq] at h2; subst h2;
             exact ⟨rfl, rfl, rfl, rfl, rfl, rfl, rfl, rfl⟩)
      obtain ⟨a1, a2, a3, a4, a5, a6, a7, a8⟩ := hs2
      unfold recordPhase at h1
      by_cases hc : (firstTrigger s || historicTrigger s) = true
      · rw [if_pos hc] at h1
        cases hobs : p.observe s.currentTime s.univ with
        | none => simp [hobs] at h1
        | some u =>
          simp only [hobs, Option.some.injEq, Prod.mk.injEq] at h1
          obtain ⟨rfl, rfl⟩ := h1
          exact ⟨by simp [hc], by rw [if_pos hc, a2], a3, a4, a5, a6, a7, a8,
            by rw [if_pos hc, a1], ho, ⟨_, by rfl, by rfl, by rfl, h2⟩⟩
      · rw [if_neg hc] at h1
        simp only [Option.some.injEq, Prod.mk.injEq] at h1
        obtain ⟨rfl, rfl⟩ := h1
        exact ⟨by simp [Bool.eq_false_iff.2 hc], by rw [if_neg hc, a2], a3, a4, a5, a6, a7, a8,
          by rw [if_neg hc, a1]; rfl, ho, ⟨_, rfl, rfl, rfl, h2⟩⟩

theorem iterate_some_of_total {p : Physics F U} (ht : p.Total) (s : State F U) :
    ∃ r, iterate p s = some r := by
  have h1 : ∃ r, recordPhase p s = some r := by
    unfold recordPhase
    split
    · cases hobs : p.observe s.currentTime s.univ with
      | none => exact absurd hobs (ht.observe _ _)
      | some u => exact ⟨_, rfl⟩
    · exact ⟨_, rfl⟩
  obtain ⟨⟨s1, b⟩, h1⟩ := h1
  have h2 : ∃ s2, stepPhase p s1 = some s2 := by
    have := ht.step
    unfold stepPhase
    split
    · rename_i f hf
      rw [hf] at this
      cases hh : f s1.currentTime s1.timeStep s1.halfTimeStep s1.univ with
      | none => exact absurd hh (this _ _ _ _)
      | some u => exact ⟨_, rfl⟩
    · rename_i f hf
      rw [hf] at this
      cases hh : f s1.currentTime s1.timeStep s1.halfTimeStep s1.univ with
      | none => exact absurd hh (this _ _ _ _)
      | some u => exact ⟨_, rfl⟩
    · rename_i f hf
      rw [hf] at this
      rcases hh : f s1.currentTime s1.timeStep s1.univ with _ | ⟨u, a, c⟩
      · exact absurd hh (this _ _ _)
      · exact ⟨_, rfl⟩
  obtain ⟨s2, h2⟩ := h2
  unfold iterate
  simp only [h1, h2]
  split <;> exact ⟨_, rfl⟩

theorem recordTimes_succ {p : Physics F U} {s0 s s' : State F U} {k : Nat} {h : Bytes}
    {b : Option Bytes} {o : Outcome} (hk : uninterrupted p s0 k = some (s, h, false))
    (hit : iterate p s = some (s', b, o)) :
    recordTimes p s0 (k + 1) = recordTimes p s0 k ++ (if b.isSome then [s.currentTime] else []) := by
  rw [recordTimes, hk]
  simp only [hit]
  cases b <;> simp

/-! ## Fixed step over the reals -/

section Real
variable {p : Physics ℝ U}

theorem fixed_clock (hf : p.FixedStep) {s s' : State ℝ U} {b : Option Bytes} {o : Outcome}
    (hh : s.halfTimeStep = s.timeStep / 2) (h : iterate p s = some (s', b, o)) :
    s'.currentTime = s.currentTime + s.timeStep ∧ s'.timeStep = s.timeStep ∧
    s'.halfTimeStep = s'.timeStep / 2 := by
  obtain ⟨_, _, _, h4, _, _, _, _, _, _, s1, e1, e2, e3, e4⟩ := iterate_unfold h
  unfold stepPhase at e4
  unfold Physics.FixedStep at hf
  split at e4
  · split at e4
    · simp at e4
    · simp only [Option.some.injEq] at e4
      subst e4
      simp only at *
      rw [e1, e2, e3, hh]
      refine ⟨by ring, rfl, rfl⟩
  · split at e4
    · simp at e4
    · simp only [Option.some.injEq] at e4
      subst e4
      simp only at *
      rw [e1, e2, e3, hh]
      exact ⟨rfl, rfl, rfl⟩
  · rename_i heq
    rw [heq] at hf
    exact hf.elim

/-- The state of a fixed-step run after `k` iterations. -/
theorem fixed_time (hf : p.FixedStep) {dt rp hp T : ℝ} {u : U} {k : Nat} {s : State ℝ U}
    {h : Bytes} {d : Bool}
    (hk : uninterrupted p (State.fresh dt rp hp T u) k = some (s, h, d)) :
    s.currentTime = k * dt ∧ s.timeStep = dt ∧ s.halfTimeStep = s.timeStep / 2 ∧
    s.timeLimit = T ∧ s.historicPeriod = hp ∧
    (1 ≤ k → (d = true ↔ T < (k + 1) * dt)) := by
  induction k generalizing s h d with
  | zero =>
    simp only [uninterrupted, Option.some.injEq, Prod.mk.injEq] at hk
    obtain ⟨rfl, rfl, rfl⟩ := hk
    simp [State.fresh]
    ring
  | succ k ih =>
    obtain ⟨s1, h1, b, o, e1, e2, rfl, rfl⟩ := uninterrupted_succ hk
    obtain ⟨i1, i2, i3, i4, i5, _⟩ := ih e1
    obtain ⟨c1, c2, c3⟩ := fixed_clock hf i3 e2
    obtain ⟨_, _, u3, _, u5, _, _, _, _, u10, _⟩ := iterate_unfold e2
    have ct : s.currentTime = ((k + 1 : Nat) : ℝ) * dt := by
      rw [c1, i1, i2]; push_cast; ring
    refine ⟨ct, by rw [c2, i2], c3, by rw [u5, i4], by rw [u3, i5], ?_⟩
    intro _
    rw [u10, u5, i4, ct, c2, i2]
    have : ((k + 1 : Nat) : ℝ) * dt + dt = (((k + 1 : Nat) : ℝ) + 1) * dt := by ring
    rw [this]
    by_cases hc : T < (((k + 1 : Nat) : ℝ) + 1) * dt
    · rw [if_pos (by simpa using hc)]
      simp only [Outcome.isCompleted, hc]
    · rw [if_neg (by simpa using hc)]
      simp only [Outcome.isCompleted, hc, iff_false]
      simp

theorem nextLastHistoric_fixed (hf : p.FixedStep) (s : State ℝ U) :
    nextLastHistoric p s =
      if !firstTrigger s then s.lastHistoric + s.historicPeriod else 0 := by
  unfold nextLastHistoric
  unfold Physics.FixedStep at hf
  split
  · simp
  · simp
  · rename_i heq
    rw [heq] at hf
    exact hf.elim

/-- Bookkeeping of a fixed-step run: after `K` iterations with `m` records. -/
theorem fixed_schedule (hf : p.FixedStep) {dt rp hp T : ℝ} (hdt : 0 < dt) (hle : dt ≤ hp) {u : U}
    {K : Nat} {s : State ℝ U} {h : Bytes} {d : Bool}
    (hk : uninterrupted p (State.fresh dt rp hp T u) K = some (s, h, d)) :
    ∃ m : Nat, recordTimes p (State.fresh dt rp hp T u) K =
        (List.range m).map (fun k : Nat => dt * (⌈(k : ℝ) * hp / dt⌉₊ : ℝ)) ∧
      (∀ k : Nat, k < m ↔ ⌈(k : ℝ) * hp / dt⌉₊ < K) ∧
      s.lastHistoric = (if m = 0 then -1 else ((m : ℝ) - 1) * hp) := by
  induction K generalizing s h d with
  | zero =>
    simp only [uninterrupted, Option.some.injEq, Prod.mk.injEq] at hk
    obtain ⟨rfl, rfl, rfl⟩ := hk
    exact ⟨0, by simp [recordTimes], by simp, by simp [State.fresh]⟩
  | succ K ih =>
    obtain ⟨s1, h1, b, o, e1, e2, rfl, rfl⟩ := uninterrupted_succ hk
    obtain ⟨m, i1, i2, i3⟩ := ih e1
    obtain ⟨t1, t2, t3, t4, t5, _⟩ := fixed_time hf e1
    obtain ⟨u1, u2, _⟩ := iterate_unfold e2
    have hhp : 0 < hp := lt_of_lt_of_le hdt hle
    have hfirst : firstTrigger s1 = true ↔ m = 0 := by
      unfold firstTrigger
      rw [ltb_real, i3]
      rcases Nat.eq_zero_or_pos m with hm | hm
      · simp [hm]
      · have : (1 : ℝ) ≤ m := by exact_mod_cast hm
        simp only [show m ≠ 0 by omega, if_false, iff_false]
        simp only [lit_real, Rat.cast_zero, not_lt]
        apply mul_nonneg <;> linarith
    have hm0 : m = 0 → K = 0 := by
      intro hm
      have := (i2 0).not.1 (by omega)
      simpa using this
    have hrec : (firstTrigger s1 || historicTrigger s1) = true ↔ (m : ℝ) * hp ≤ K * dt := by
      rw [Bool.or_eq_true, hfirst]
      unfold historicTrigger
      rw [leb_real, i3, t5, t1]
      rcases Nat.eq_zero_or_pos m with hm | hm
      · simp only [hm, true_or, true_iff]
        have := hm0 hm
        simp [this]
      · simp only [show m ≠ 0 by omega, if_false, false_or]
        constructor <;> intro hx <;> linarith
    have hceil : (m : ℝ) * hp ≤ K * dt ↔ ⌈(m : ℝ) * hp / dt⌉₊ ≤ K := by
      rw [Nat.ceil_le, div_le_iff₀ hdt]
    have hmK : K ≤ ⌈(m : ℝ) * hp / dt⌉₊ := by
      have := (i2 m).not.1 (by omega)
      omega
    have hmono : ∀ j k : Nat, j ≤ k → ⌈(j : ℝ) * hp / dt⌉₊ ≤ ⌈(k : ℝ) * hp / dt⌉₊ := by
      intro j k hjk
      apply Nat.ceil_le_ceil
      have : (j : ℝ) ≤ k := by exact_mod_cast hjk
      gcongr
    have hnext : ⌈(m : ℝ) * hp / dt⌉₊ + 1 ≤ ⌈((m + 1 : Nat) : ℝ) * hp / dt⌉₊ := by
      have h1 : (m : ℝ) * hp / dt + 1 ≤ ((m + 1 : Nat) : ℝ) * hp / dt := by
        have : (1 : ℝ) ≤ hp / dt := by rw [le_div_iff₀ hdt]; linarith
        push_cast
        rw [add_mul, add_div, one_mul]
        linarith
      have h2 := Nat.ceil_le_ceil h1
      have h3 : (0 : ℝ) ≤ (m : ℝ) * hp / dt := by positivity
      rw [Nat.ceil_add_one h3] at h2
      exact h2
    rw [recordTimes_succ e1 e2, u1, u2]
    by_cases hc : (m : ℝ) * hp ≤ K * dt
    · have hr := hrec.2 hc
      have hK : ⌈(m : ℝ) * hp / dt⌉₊ = K := le_antisymm (hceil.1 hc) hmK
      refine ⟨m + 1, ?_, ?_, ?_⟩
      · rw [if_pos hr, i1, List.range_succ, List.map_append, List.map_singleton, hK, t1]
        simp [mul_comm]
      · intro k
        constructor
        · intro hk
          have := hmono k m (by omega)
          omega
        · intro hk
          by_contra hcon
          have := hmono (m + 1) k (by omega)
          omega
      · rw [if_pos hr, nextLastHistoric_fixed hf, t5]
        rcases Nat.eq_zero_or_pos m with hm | hm
        · rw [hfirst.2 hm, hm]; simp
        · have : firstTrigger s1 = false := by
            rw [Bool.eq_false_iff]; intro hx; have := hfirst.1 hx; omega
          rw [this, i3]
          simp only [show m ≠ 0 by omega, if_false, Bool.not_false, if_true,
            show m + 1 ≠ 0 by omega]
          push_cast; ring
    · have hr : ¬ (firstTrigger s1 || historicTrigger s1) = true := fun hx => hc (hrec.1 hx)
      refine ⟨m, ?_, ?_, ?_⟩
      · rw [if_neg hr, List.append_nil, i1]
      · intro k
        rw [i2 k]
        constructor
        · intro hk; omega
        · intro hk
          rcases Nat.lt_or_ge k m with hkm | hkm
          · exact (i2 k).1 hkm
          · have h1 := hmono m k hkm
            have h2 : ¬ ⌈(m : ℝ) * hp / dt⌉₊ ≤ K := fun hx => hc (hceil.2 hx)
            omega
      · rw [if_neg hr, i3]

/-- With a period not longer than the time step, every iteration records. -/
theorem fixed_schedule_short (hf : p.FixedStep) {dt rp hp T : ℝ} (hhp : 0 ≤ hp) (hle : hp ≤ dt)
    {u : U} {K : Nat} {s : State ℝ U} {h : Bytes} {d : Bool}
    (hk : uninterrupted p (State.fresh dt rp hp T u) K = some (s, h, d)) :
    recordTimes p (State.fresh dt rp hp T u) K = (List.range K).map (fun k : Nat => (k : ℝ) * dt) ∧
      s.lastHistoric = (if K = 0 then -1 else ((K : ℝ) - 1) * hp) := by
  induction K generalizing s h d with
  | zero =>
    simp only [uninterrupted, Option.some.injEq, Prod.mk.injEq] at hk
    obtain ⟨rfl, rfl, rfl⟩ := hk
    exact ⟨by simp [recordTimes], by simp [State.fresh]⟩
  | succ K ih =>
    obtain ⟨s1, h1, b, o, e1, e2, rfl, rfl⟩ := uninterrupted_succ hk
    obtain ⟨i1, i3⟩ := ih e1
    obtain ⟨t1, t2, t3, t4, t5, _⟩ := fixed_time hf e1
    obtain ⟨u1, u2, _⟩ := iterate_unfold e2
    have hfirst : firstTrigger s1 = true ↔ K = 0 := by
      unfold firstTrigger
      rw [ltb_real, i3]
      rcases Nat.eq_zero_or_pos K with hm | hm
      · simp [hm]
      · have : (1 : ℝ) ≤ K := by exact_mod_cast hm
        simp only [show K ≠ 0 by omega, if_false, iff_false]
        simp only [lit_real, Rat.cast_zero, not_lt]
        apply mul_nonneg <;> linarith
    have hr : (firstTrigger s1 || historicTrigger s1) = true := by
      rw [Bool.or_eq_true, hfirst]
      rcases Nat.eq_zero_or_pos K with hm | hm
      · exact Or.inl hm
      · right
        unfold historicTrigger
        rw [leb_real, i3, t5, t1]
        simp only [show K ≠ 0 by omega, if_false]
        have : (0 : ℝ) ≤ K := Nat.cast_nonneg _
        nlinarith
    rw [recordTimes_succ e1 e2, u1, u2, if_pos hr, if_pos hr, i1, List.range_succ, List.map_append,
      List.map_singleton, t1, nextLastHistoric_fixed hf, t5]
    refine ⟨rfl, ?_⟩
    rcases Nat.eq_zero_or_pos K with hm | hm
    · rw [hfirst.2 hm, hm]; simp
    · have : firstTrigger s1 = false := by
        rw [Bool.eq_false_iff]; intro hx; have := hfirst.1 hx; omega
      rw [this, i3]
      simp only [show K ≠ 0 by omega, if_false, Bool.not_false, if_true,
        show K + 1 ≠ 0 by omega]
      push_cast; ring

/-- A run of total physics goes on as long as the limit allows. -/
theorem fixed_running (hf : p.FixedStep) (ht : p.Total) {dt : ℝ} (hdt : 0 < dt) (rp hp T : ℝ) (u : U)
    (k : Nat) (hk : k = 0 ∨ (k + 1) * dt ≤ T) :
    ∃ s h, uninterrupted p (State.fresh dt rp hp T u) k = some (s, h, false) := by
  induction k with
  | zero => exact ⟨_, _, rfl⟩
  | succ k ih =>
    have hk' : ((k + 1 : Nat) + 1) * dt ≤ T := by
      rcases hk with h | h
      · omega
      · exact h
    have : k = 0 ∨ ((k : ℝ) + 1) * dt ≤ T := by
      right
      push_cast at hk'
      nlinarith
    obtain ⟨s, h, e⟩ := ih this
    obtain ⟨⟨s', b, o⟩, e2⟩ := iterate_some_of_total ht s
    have e3 := uninterrupted_step e e2
    have := (fixed_time hf e3).2.2.2.2.2 (by omega)
    have hno : o.isCompleted = false := by
      rw [← Bool.not_eq_true, this]
      push_cast at hk' ⊢
      linarith
    rw [hno] at e3
    exact ⟨_, _, e3⟩

theorem fixed_completes (hf : p.FixedStep) (ht : p.Total) {dt : ℝ} (hdt : 0 < dt) (rp hp T : ℝ)
    (u : U) :
    ∃ s h, uninterrupted p (State.fresh dt rp hp T u) (max 1 ⌊T / dt⌋₊) = some (s, h, true) := by
  obtain ⟨n, hn⟩ : ∃ n, max 1 ⌊T / dt⌋₊ = n + 1 := ⟨max 1 ⌊T / dt⌋₊ - 1, by omega⟩
  rw [hn]
  have h1 : n = 0 ∨ ((n : ℝ) + 1) * dt ≤ T := by
    rcases Nat.eq_zero_or_pos n with h | h
    · exact Or.inl h
    · right
      have h2 : n + 1 ≤ ⌊T / dt⌋₊ := by omega
      have h3 := (Nat.le_floor_iff' (by omega)).1 h2
      rw [le_div_iff₀ hdt] at h3
      push_cast at h3
      exact h3
  obtain ⟨s, h, e⟩ := fixed_running hf ht hdt rp hp T u n h1
  obtain ⟨⟨s', b, o⟩, e2⟩ := iterate_some_of_total ht s
  have e3 := uninterrupted_step e e2
  have := (fixed_time hf e3).2.2.2.2.2 (by omega)
  have hyes : o.isCompleted = true := by
    rw [this]
    have h2 : ⌊T / dt⌋₊ < n + 2 := by omega
    have h3 := Nat.lt_floor_add_one (T / dt)
    rw [div_lt_iff₀ hdt] at h3
    have h4 : ((⌊T / dt⌋₊ : ℝ)) + 1 ≤ ((n + 1 : Nat) : ℝ) + 1 := by
      have : ⌊T / dt⌋₊ ≤ n + 1 := by omega
      have : ((⌊T / dt⌋₊ : Nat) : ℝ) ≤ ((n + 1 : Nat) : ℝ) := by exact_mod_cast this
      linarith
    nlinarith
  rw [hyes] at e3
  exact ⟨_, _, e3⟩

/-! ## Adaptive step -/

/-- The recording rule of the adaptive integrator, in terms of the records written so far. -/
theorem adaptive_schedule {f} (hs : p.scheme = .ias15 f) {dt rp hp T : ℝ}
    (hpos : ∀ t dt u u' done next, f t dt u = some (u', done, next) → 0 ≤ done)
    {u : U} {K : Nat} {s : State ℝ U} {h : Bytes} {d : Bool}
    (hk : uninterrupted p (State.fresh dt rp hp T u) K = some (s, h, d)) :
    0 ≤ s.currentTime ∧ s.historicPeriod = hp ∧
    s.lastHistoric = ((recordTimes p (State.fresh dt rp hp T u) K).getLast?).getD (-1) ∧
    ∀ t ∈ recordTimes p (State.fresh dt rp hp T u) K, 0 ≤ t := by
  induction K generalizing s h d with
  | zero =>
    simp only [uninterrupted, Option.some.injEq, Prod.mk.injEq] at hk
    obtain ⟨rfl, rfl, rfl⟩ := hk
    simp [recordTimes, State.fresh]
  | succ K ih =>
    obtain ⟨s1, h1, b, o, e1, e2, rfl, rfl⟩ := uninterrupted_succ hk
    obtain ⟨i1, i2, i3, i4⟩ := ih e1
    obtain ⟨u1, u2, u3, _, _, _, _, _, _, _, s2, w1, w2, w3, w4⟩ := iterate_unfold e2
    have hct : 0 ≤ s.currentTime := by
      unfold stepPhase at w4
      rw [hs] at w4
      simp only at w4
      rcases hh : f s2.currentTime s2.timeStep s2.univ with _ | ⟨u', a, c⟩
      · simp [hh] at w4
      · simp only [hh, Option.some.injEq] at w4
        rw [← w4]
        simp only
        have := hpos _ _ _ _ _ _ hh
        rw [w1]; linarith
    rw [recordTimes_succ e1 e2, u1, u2]
    refine ⟨hct, by rw [u3, i2], ?_, ?_⟩
    · by_cases hc : (firstTrigger s1 || historicTrigger s1) = true
      · rw [if_pos hc, if_pos hc]
        simp [nextLastHistoric, hs]
      · rw [if_neg hc, if_neg hc, List.append_nil, i3]
    · intro t ht
      rw [List.mem_append] at ht
      rcases ht with ht | ht
      · exact i4 t ht
      · split at ht
        · simp only [List.mem_singleton] at ht
          rw [ht]; exact i1
        · simp at ht

end Real
end Posidonius.Driver
