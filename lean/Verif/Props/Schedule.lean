import Verif.Lemmas.Toy
import Verif.Props.Recovery

/-!
# C08-C12: when records are written and when a simulation ends
-/

namespace Posidonius.Driver
open Posidonius.Output Posidonius.Disk
set_option linter.unusedSectionVars false

section Any
variable {F U : Type} [Add F] [FOps F]

theorem iterate_bytes {p : Physics F U} {s s' : State F U} {b : Option Bytes} {o : Outcome}
    (h : iterate p s = some (s', b, o)) :
    b = none ∨ ∃ u, p.observe s.currentTime s.univ = some u ∧
      b = some (writeHistoricSnapshot (p.view u) (p.bits s.currentTime) (p.bits s.timeStep)) := by
  unfold iterate at h
  cases h1 : recordPhase p s with
  | none => simp [h1] at h
  | some r =>
    obtain ⟨s1, bytes⟩ := r
    simp only [h1] at h
    have hb : b = bytes := by
      cases h2 : stepPhase p s1 with
      | none => simp [h2] at h
      | some s2 =>
        simp only [h2] at h
        split at h <;> simp only [Option.some.injEq, Prod.mk.injEq] at h <;> exact h.2.1.symm
    subst hb
    unfold recordPhase at h1
    split at h1
    · cases hobs : p.observe s.currentTime s.univ with
      | none => simp [hobs] at h1
      | some u =>
        simp only [hobs, Option.some.injEq, Prod.mk.injEq] at h1
        exact Or.inr ⟨u, rfl, h1.2.symm⟩
    · simp only [Option.some.injEq, Prod.mk.injEq] at h1
      exact Or.inl h1.2.symm

/-- **C08** (any arithmetic) The history file is the sequence of the snapshots taken at the record
times, in order, each of all particles; there is at most one per iteration. -/
theorem C08_history_is_the_records (p : Physics F U) (s0 : State F U) {k : Nat} {s : State F U}
    {h : Bytes} {d : Bool} (hk : uninterrupted p s0 k = some (s, h, d)) :
    (recordTimes p s0 k).length ≤ k ∧
    ∃ snaps : List Snapshot, h = historyFile snaps ∧
      snaps.map Snapshot.time = (recordTimes p s0 k).map p.bits ∧
      ∀ sn ∈ snaps, sn.particles.length = p.nParticles := by
  induction k generalizing s h d with
  | zero =>
    simp only [uninterrupted, Option.some.injEq, Prod.mk.injEq] at hk
    obtain ⟨rfl, rfl, rfl⟩ := hk
    exact ⟨by simp [recordTimes], [], by simp [historyFile], by simp [recordTimes], by simp⟩
  | succ k ih =>
    obtain ⟨s1, h1, b, o, e1, e2, rfl, rfl⟩ := uninterrupted_succ hk
    obtain ⟨i0, snaps, i1, i2, i3⟩ := ih e1
    rw [recordTimes_succ e1 e2]
    rcases iterate_bytes e2 with rfl | ⟨u, _, rfl⟩
    · simp only [Option.isSome_none, Bool.false_eq_true, if_false, List.append_nil, Option.getD_none]
      exact ⟨by omega, snaps, i1, i2, i3⟩
    · simp only [Option.isSome_some, if_true, Option.getD_some, List.length_append,
        List.length_singleton]
      refine ⟨by omega, snaps ++ [⟨p.bits s1.currentTime, p.bits s1.timeStep, p.view u⟩], ?_, ?_, ?_⟩
      · simp [historyFile, i1]
      · simp [i2]
      · intro sn hsn
        rw [List.mem_append, List.mem_singleton] at hsn
        rcases hsn with hsn | rfl
        · exact i3 sn hsn
        · exact p.view_length u

/-- **C08** (any arithmetic in which -1 < 0) The first iteration of a fresh simulation writes a
record, of the initial state as observed at time 0. -/
theorem C08_first_record [Mul F] [Neg F] (p : Physics F U) (dt rp hp T : F) (u : U)
    (hneg : ltb (-(lit 1) : F) (lit 0) = true)
    {s : State F U} {h : Bytes} {d : Bool}
    (h1 : uninterrupted p (State.fresh dt rp hp T u) 1 = some (s, h, d)) :
    recordTimes p (State.fresh dt rp hp T u) 1 = [lit 0] ∧
    ∃ u', p.observe (lit 0) u = some u' ∧
      h = writeHistoricSnapshot (p.view u') (p.bits (lit 0)) (p.bits dt) := by
  obtain ⟨s1, h1, b, o, e1, e2, rfl, rfl⟩ := uninterrupted_succ h1
  have e1' := e1
  simp only [uninterrupted, Option.some.injEq, Prod.mk.injEq] at e1'
  obtain ⟨rfl, rfl, _⟩ := e1'
  have hb := (iterate_unfold e2).1
  have hf : firstTrigger (State.fresh dt rp hp T u) = true := hneg
  rw [hf, Bool.true_or] at hb
  rw [recordTimes_succ e1 e2, hb]
  refine ⟨by simp [recordTimes, State.fresh], ?_⟩
  rcases iterate_bytes e2 with rfl | ⟨u', e3, rfl⟩
  · simp at hb
  · exact ⟨u', e3, by simp [State.fresh]⟩

end Any

section Real
variable {U : Type} {p : Physics ℝ U}

/-- Times of the iterations before `k` are smaller than the time at `k`. -/
theorem recordTimes_lt (s0 : State ℝ U)
    (hclock : ∀ k s h s' b o, uninterrupted p s0 k = some (s, h, false) →
      iterate p s = some (s', b, o) → s.currentTime < s'.currentTime)
    {k : Nat} {s : State ℝ U} {h : Bytes} {d : Bool}
    (hk : uninterrupted p s0 k = some (s, h, d)) :
    (recordTimes p s0 k).Pairwise (· < ·) ∧ ∀ t ∈ recordTimes p s0 k, t < s.currentTime := by
  induction k generalizing s h d with
  | zero => simp [recordTimes]
  | succ k ih =>
    obtain ⟨s1, h1, b, o, e1, e2, rfl, rfl⟩ := uninterrupted_succ hk
    obtain ⟨i1, i2⟩ := ih e1
    have hlt := hclock k s1 h1 s b o e1 e2
    rw [recordTimes_succ e1 e2]
    constructor
    · rw [List.pairwise_append]
      refine ⟨i1, by split <;> simp, ?_⟩
      intro a ha c hc
      split at hc
      · simp only [List.mem_singleton] at hc
        rw [hc]; exact i2 a ha
      · simp at hc
    · intro t ht
      rw [List.mem_append] at ht
      rcases ht with ht | ht
      · exact (i2 t ht).trans hlt
      · split at ht
        · simp only [List.mem_singleton] at ht
          rw [ht]; exact hlt
        · simp at ht

theorem fixed_hclock (hf : p.FixedStep) {dt : ℝ} (hdt : 0 < dt) (rp hp T : ℝ) (u : U) :
    ∀ k s h s' b o, uninterrupted p (State.fresh dt rp hp T u) k = some (s, h, false) →
      iterate p s = some (s', b, o) → s.currentTime < s'.currentTime := by
  intro k s h s' b o e1 e2
  obtain ⟨t1, t2, t3, _⟩ := fixed_time hf e1
  obtain ⟨c1, _⟩ := fixed_clock hf t3 e2
  rw [c1, t2]; linarith

theorem adaptive_hclock {f} (hs : p.scheme = .ias15 f)
    (hpos : ∀ t dt u u' done next, f t dt u = some (u', done, next) → 0 < done)
    (s0 : State ℝ U) :
    ∀ k s h s' b o, uninterrupted p s0 k = some (s, h, false) →
      iterate p s = some (s', b, o) → s.currentTime < s'.currentTime := by
  intro k s h s' b o _ e2
  obtain ⟨_, _, _, _, _, _, _, _, _, _, s2, w1, _, _, w4⟩ := iterate_unfold e2
  unfold stepPhase at w4
  rw [hs] at w4
  simp only at w4
  rcases hh : f s2.currentTime s2.timeStep s2.univ with _ | ⟨u', a, c⟩
  · simp [hh] at w4
  · simp only [hh, Option.some.injEq] at w4
    rw [← w4]
    simp only
    have := hpos _ _ _ _ _ _ hh
    rw [w1]; linarith

/-- **C08** Fixed step: record times are strictly increasing (so no time is recorded twice), start
at 0, and precede the current time. -/
theorem C08_record_order_fixed (hf : p.FixedStep) {dt : ℝ} (hdt : 0 < dt) (rp hp T : ℝ) (u : U)
    {k : Nat} {s : State ℝ U} {h : Bytes} {d : Bool}
    (hk : uninterrupted p (State.fresh dt rp hp T u) k = some (s, h, d)) :
    (recordTimes p (State.fresh dt rp hp T u) k).Pairwise (· < ·) ∧
    (1 ≤ k → (recordTimes p (State.fresh dt rp hp T u) k).head? = some 0) ∧
    ∀ t ∈ recordTimes p (State.fresh dt rp hp T u) k, t < s.currentTime := by
  obtain ⟨h1, h2⟩ := recordTimes_lt _ (fixed_hclock hf hdt rp hp T u) hk
  refine ⟨h1, ?_, h2⟩
  intro hk1
  have key : ∀ j, ∀ s h d, uninterrupted p (State.fresh dt rp hp T u) (j + 1) = some (s, h, d) →
      (recordTimes p (State.fresh dt rp hp T u) (j + 1)).head? = some 0 := by
    intro j
    induction j with
    | zero =>
      intro s h d e
      rw [(C08_first_record p dt rp hp T u (by simp) e).1]
      simp
    | succ j ih =>
      intro s h d e
      obtain ⟨s1, h1, b, o, e1, e2, rfl, rfl⟩ := uninterrupted_succ e
      rw [recordTimes_succ e1 e2, List.head?_append, ih _ _ _ e1]
      rfl
  obtain ⟨j, rfl⟩ : ∃ j, k = j + 1 := ⟨k - 1, by omega⟩
  exact key j _ _ _ hk

/-- **C08** Adaptive step: the same, when every step done is positive. -/
theorem C08_record_order_adaptive {f} (hs : p.scheme = .ias15 f)
    (hpos : ∀ t dt u u' done next, f t dt u = some (u', done, next) → 0 < done)
    (dt rp hp T : ℝ) (u : U) {k : Nat} {s : State ℝ U} {h : Bytes} {d : Bool}
    (hk : uninterrupted p (State.fresh dt rp hp T u) k = some (s, h, d)) :
    (recordTimes p (State.fresh dt rp hp T u) k).Pairwise (· < ·) ∧
    (1 ≤ k → (recordTimes p (State.fresh dt rp hp T u) k).head? = some 0) ∧
    ∀ t ∈ recordTimes p (State.fresh dt rp hp T u) k, t < s.currentTime := by
  obtain ⟨h1, h2⟩ := recordTimes_lt _ (adaptive_hclock hs hpos _) hk
  refine ⟨h1, ?_, h2⟩
  intro hk1
  have key : ∀ j, ∀ s h d, uninterrupted p (State.fresh dt rp hp T u) (j + 1) = some (s, h, d) →
      (recordTimes p (State.fresh dt rp hp T u) (j + 1)).head? = some 0 := by
    intro j
    induction j with
    | zero =>
      intro s h d e
      rw [(C08_first_record p dt rp hp T u (by simp) e).1]
      simp
    | succ j ih =>
      intro s h d e
      obtain ⟨s1, h1, b, o, e1, e2, rfl, rfl⟩ := uninterrupted_succ e
      rw [recordTimes_succ e1 e2, List.head?_append, ih _ _ _ e1]
      rfl
  obtain ⟨j, rfl⟩ : ∃ j, k = j + 1 := ⟨k - 1, by omega⟩
  exact key j _ _ _ hk

/-- **C09** With `0 < dt ≤ P`, after any number `K` of iterations the records are exactly numbers
`k = 0, 1, ..., m-1`, record `k` at time `dt * ⌈k P / dt⌉`, the first step time that is not before
`k P`; and record `k` is there as soon as that step has been reached. -/
theorem C09_schedule (hf : p.FixedStep) {dt P : ℝ} (hdt : 0 < dt) (hle : dt ≤ P) (rp T : ℝ) (u : U)
    {K : Nat} {s : State ℝ U} {h : Bytes} {d : Bool}
    (hk : uninterrupted p (State.fresh dt rp P T u) K = some (s, h, d)) :
    ∃ m : Nat, recordTimes p (State.fresh dt rp P T u) K =
        (List.range m).map (fun k : Nat => dt * (⌈(k : ℝ) * P / dt⌉₊ : ℝ)) ∧
      ∀ k : Nat, k < m ↔ ⌈(k : ℝ) * P / dt⌉₊ < K := by
  obtain ⟨m, h1, h2, _⟩ := fixed_schedule hf hdt hle hk
  exact ⟨m, h1, h2⟩

/-- **C09**, in other words: record `k` is at most one time step late, and never early; there is
no drift, whatever `k`. -/
theorem C09_no_drift {dt P : ℝ} (hdt : 0 < dt) (hP : 0 ≤ P) (k : Nat) :
    (k : ℝ) * P ≤ dt * (⌈(k : ℝ) * P / dt⌉₊ : ℝ) ∧ dt * (⌈(k : ℝ) * P / dt⌉₊ : ℝ) < k * P + dt := by
  have h1 := Nat.le_ceil ((k : ℝ) * P / dt)
  have h2 := Nat.ceil_lt_add_one (a := (k : ℝ) * P / dt) (by positivity)
  rw [div_le_iff₀ hdt] at h1
  constructor
  · linarith
  · have : (k : ℝ) * P / dt + 1 = (k * P + dt) / dt := by field_simp
    rw [this, lt_div_iff₀ hdt] at h2
    linarith

/-- **C09**, the other case (`0 ≤ P ≤ dt`): every iteration writes a record. -/
theorem C09_short_period (hf : p.FixedStep) {dt P : ℝ} (hP : 0 ≤ P) (hle : P ≤ dt) (rp T : ℝ) (u : U)
    {K : Nat} {s : State ℝ U} {h : Bytes} {d : Bool}
    (hk : uninterrupted p (State.fresh dt rp P T u) K = some (s, h, d)) :
    recordTimes p (State.fresh dt rp P T u) K = (List.range K).map (fun k : Nat => (k : ℝ) * dt) :=
  (fixed_schedule_short hf hP hle hk).1

/-- **C10** Adaptive step: an iteration that begins at time `t` writes a record exactly if there is
no record yet, or the last one is at least one period old. -/
theorem C10_record_rule {f} (hs : p.scheme = .ias15 f)
    (hpos : ∀ t dt u u' done next, f t dt u = some (u', done, next) → 0 ≤ done)
    (dt rp P T : ℝ) (u : U) {k : Nat} {s : State ℝ U} {h : Bytes}
    (hk : uninterrupted p (State.fresh dt rp P T u) k = some (s, h, false))
    {s' : State ℝ U} {b : Option Bytes} {o : Outcome} (hit : iterate p s = some (s', b, o)) :
    b.isSome = true ↔
      match (recordTimes p (State.fresh dt rp P T u) k).getLast? with
      | none => True
      | some last => last + P ≤ s.currentTime := by
  obtain ⟨i1, i2, i3, i4⟩ := adaptive_schedule hs hpos hk
  rw [(iterate_unfold hit).1, Bool.or_eq_true]
  unfold firstTrigger historicTrigger
  rw [ltb_real, leb_real, i3, i2]
  cases hl : (recordTimes p (State.fresh dt rp P T u) k).getLast? with
  | none => simp
  | some last =>
    have : 0 ≤ last := i4 last (List.mem_of_getLast? hl)
    simp only [Option.getD_some, lit_real, Rat.cast_zero]
    constructor
    · rintro (h | h)
      · linarith
      · exact h
    · exact Or.inr

/-- **C10** Consecutive records are at least one period apart. -/
theorem C10_records_one_period_apart {f} (hs : p.scheme = .ias15 f)
    (hpos : ∀ t dt u u' done next, f t dt u = some (u', done, next) → 0 ≤ done)
    (dt rp P T : ℝ) (u : U) {k : Nat} {s : State ℝ U} {h : Bytes} {d : Bool}
    (hk : uninterrupted p (State.fresh dt rp P T u) k = some (s, h, d)) :
    (recordTimes p (State.fresh dt rp P T u) k).IsChain (fun a b => a + P ≤ b) := by
  induction k generalizing s h d with
  | zero => simp [recordTimes]
  | succ k ih =>
    obtain ⟨s1, h1, b, o, e1, e2, rfl, rfl⟩ := uninterrupted_succ hk
    have i1 := ih e1
    have i2 := C10_record_rule hs hpos dt rp P T u e1 e2
    rw [recordTimes_succ e1 e2]
    split
    · rename_i hb
      rw [List.isChain_append]
      refine ⟨i1, by simp, ?_⟩
      intro x hx y hy
      have := i2.1 hb
      rw [hx] at this
      simp only [List.head?_cons, Option.mem_def, Option.some.injEq] at hy
      rw [← hy]; exact this
    · rw [List.append_nil]; exact i1

/-- **C11** A fixed-step run of time limit `T` ends after exactly `max 1 ⌊T/dt⌋` iterations (if the
physics does not panic), and, if it ends, then there; its final time is at most `T` when `dt ≤ T`. -/
theorem C11_run_ends (hf : p.FixedStep) {dt : ℝ} (hdt : 0 < dt) (rp hp T : ℝ) (u : U) :
    (p.Total → ∃ s h,
      uninterrupted p (State.fresh dt rp hp T u) (max 1 ⌊T / dt⌋₊) = some (s, h, true)) ∧
    (∀ K s h, uninterrupted p (State.fresh dt rp hp T u) K = some (s, h, true) →
      K = max 1 ⌊T / dt⌋₊ ∧ s.currentTime = K * dt ∧ (dt ≤ T → s.currentTime ≤ T)) := by
  refine ⟨fun ht => fixed_completes hf ht hdt rp hp T u, ?_⟩
  intro K s h hK
  obtain ⟨t1, t2, t3, t4, t5, t6⟩ := fixed_time hf hK
  have hK1 : 1 ≤ K := by
    rcases Nat.eq_zero_or_pos K with h0 | h0
    · subst h0
      simp [uninterrupted] at hK
    · exact h0
  have hd := (t6 hK1).1 rfl
  obtain ⟨n, rfl⟩ : ∃ n, K = n + 1 := ⟨K - 1, by omega⟩
  obtain ⟨s1, h1, b, o, e1, e2, _, _⟩ := uninterrupted_succ hK
  obtain ⟨_, _, _, _, _, q6⟩ := fixed_time hf e1
  have hlow : 1 ≤ n → ((n : ℝ) + 1) * dt ≤ T := by
    intro hn
    have := (q6 hn).not.1 (by simp)
    linarith
  have hup : ⌊T / dt⌋₊ ≤ n + 1 := by
    have : ⌊T / dt⌋₊ < n + 2 := by
      apply Nat.floor_lt' (by omega) |>.2
      rw [div_lt_iff₀ hdt]
      push_cast at hd ⊢
      linarith
    omega
  have hK : n + 1 = max 1 ⌊T / dt⌋₊ := by
    rcases Nat.eq_zero_or_pos n with hn | hn
    · subst hn; omega
    · have : n + 1 ≤ ⌊T / dt⌋₊ := by
        rw [Nat.le_floor_iff' (by omega), le_div_iff₀ hdt]
        push_cast
        exact hlow hn
      omega
  refine ⟨hK, t1, ?_⟩
  intro hT
  rw [t1]
  rcases Nat.eq_zero_or_pos n with hn | hn
  · subst hn; simpa using hT
  · push_cast; exact hlow hn

/-- **C12 is violated** by every completed fixed-step run: the final time is later than the time of
every record in the history and than the time of every recovery snapshot on disk, so the final state
is nowhere.  (Witnesses that such runs exist: C11.) -/
theorem C12_violated (hf : p.FixedStep) {dt : ℝ} (hdt : 0 < dt) (rp hp T : ℝ) (u : U)
    (older : Bool) {w : World ℝ U} (hw : Reachable p older (State.fresh dt rp hp T u) w)
    (hfin : w.finished = true) :
    ∃ K s, uninterrupted p (State.fresh dt rp hp T u) K = some (s, w.files.history, true) ∧
      (∀ t ∈ recordTimes p (State.fresh dt rp hp T u) K, t < s.currentTime) ∧
      (∀ t : State ℝ U, (w.files.recovery = some (.complete t) ∨
          ∃ name, w.files.backups name = some (.complete t)) → t.currentTime < s.currentTime) := by
  have hi := inv_reachable p older (State.fresh dt rp hp T u) rfl
    (nonzeroTimes_fixed hf hdt rp hp T u) hw
  obtain ⟨_, K, s, e⟩ := hi.fin hfin
  refine ⟨K, s, e, (C08_record_order_fixed hf hdt rp hp T u e).2.2, ?_⟩
  intro t ht
  obtain ⟨h, k, s', e1, e2⟩ := hi.snaps t ht
  have hlt : k + 1 < K := by
    by_contra hle
    rcases Nat.lt_or_ge K (k + 1) with hlt | hge
    · obtain ⟨sj, hj, dj, c1, _⟩ := uninterrupted_prefix (j := K + 1) (by omega) e1
      obtain ⟨s1, h1, _, _, c2, _⟩ := uninterrupted_succ c1
      rw [e] at c2
      simp at c2
    · have : K = k + 1 := by omega
      subst this
      rw [e] at e1
      simp at e1
  rw [e2.currentTime, (fixed_time hf e1).1, (fixed_time hf e).1]
  have : ((k + 1 : Nat) : ℝ) < (K : ℝ) := by exact_mod_cast hlt
  nlinarith

/-- **C12, what holds instead** (missing: the state at the final time): the last record is less than
one period plus one time step older than the final state. -/
theorem C12_partial (hf : p.FixedStep) {dt P : ℝ} (hdt : 0 < dt) (hle : dt ≤ P) (rp T : ℝ) (u : U)
    {K : Nat} {s : State ℝ U} {h : Bytes}
    (hk : uninterrupted p (State.fresh dt rp P T u) K = some (s, h, true)) :
    ∃ last ∈ (recordTimes p (State.fresh dt rp P T u) K).getLast?,
      last < s.currentTime ∧ s.currentTime < last + P + dt := by
  obtain ⟨m, h1, h2⟩ := C09_schedule hf hdt hle rp T u hk
  have hK := ((C11_run_ends hf hdt rp P T u).2 K s h hk).1
  have hm : 0 < m := by
    rw [h2 0]; simp; omega
  obtain ⟨n, rfl⟩ : ∃ n, m = n + 1 := ⟨m - 1, by omega⟩
  refine ⟨dt * (⌈(n : ℝ) * P / dt⌉₊ : ℝ), ?_, ?_, ?_⟩
  · rw [h1, List.range_succ, List.map_append]
    simp
  · apply (C08_record_order_fixed hf hdt rp P T u hk).2.2
    rw [h1, List.range_succ, List.map_append]
    simp
  · have h3 : K ≤ ⌈((n + 1 : Nat) : ℝ) * P / dt⌉₊ := by
      have := (h2 (n + 1)).not.1 (by omega)
      omega
    have h4 := (C09_no_drift hdt (hdt.le.trans hle) (n + 1)).2
    have h5 := (C09_no_drift hdt (hdt.le.trans hle) n).1
    have h6 : (K : ℝ) ≤ (⌈((n + 1 : Nat) : ℝ) * P / dt⌉₊ : ℝ) := by exact_mod_cast h3
    rw [(fixed_time hf hk).1]
    push_cast at h4 h6
    nlinarith

end Real

section Rounding
variable {F U : Type} [Add F] [FOps F]

/-- **C11** in any arithmetic (rounding included), WHFast: whenever an iteration begins that is not
the first one, the time it will reach is the very number that was compared with the limit before, and
was not above it.  So the clock can pass the limit only in the very first iteration. -/
theorem C11_whfast_never_passes_limit {p : Physics F U} {f} (hs : p.scheme = .whfast f)
    (s0 : State F U) {k : Nat} {s s' s'' : State F U} {h : Bytes} {b b' : Option Bytes} {o o' : Outcome}
    (_hk : uninterrupted p s0 k = some (s, h, false)) (hit : iterate p s = some (s', b, o))
    (hrun : o ≠ .completed) (hit' : iterate p s' = some (s'', b', o')) :
    ltb s''.timeLimit s''.currentTime = false := by
  obtain ⟨_, _, _, _, u5, _, _, _, _, u10, _⟩ := iterate_unfold hit
  obtain ⟨_, _, _, _, v5, _, _, _, _, _, s2, w1, w2, _, w4⟩ := iterate_unfold hit'
  have ht : s''.currentTime = s'.currentTime + s'.timeStep := by
    unfold stepPhase at w4
    rw [hs] at w4
    simp only at w4
    split at w4
    · simp at w4
    · simp only [Option.some.injEq] at w4
      rw [← w4]
      simp only [w1, w2]
  rw [v5, ht]
  by_cases hc : ltb s'.timeLimit (s'.currentTime + s'.timeStep) = true
  · rw [if_pos hc] at u10; exact absurd u10 hrun
  · simpa using hc

/-- **C11**, the limit of exact arithmetic: with rounding, once the time step is absorbed by the
clock (`t + dt = t`, as happens to doubles for `t > dt * 2^53`) a WHFast run that has not completed
never completes, and its clock stands still. -/
theorem C11_absorbed_step_never_completes {p : Physics F U} {f} (hs : p.scheme = .whfast f)
    (s0 : State F U) (habs : s0.currentTime + s0.timeStep = s0.currentTime)
    (hlim : ltb s0.timeLimit s0.currentTime = false) (k : Nat) {s : State F U} {h : Bytes} {d : Bool}
    (hk : uninterrupted p s0 k = some (s, h, d)) : d = false ∧ s.currentTime = s0.currentTime := by
  suffices hh : d = false ∧ s.currentTime = s0.currentTime ∧ s.timeStep = s0.timeStep ∧
      s.timeLimit = s0.timeLimit from ⟨hh.1, hh.2.1⟩
  induction k generalizing s h d with
  | zero =>
    simp only [uninterrupted, Option.some.injEq, Prod.mk.injEq] at hk
    obtain ⟨rfl, rfl, rfl⟩ := hk
    exact ⟨rfl, rfl, rfl, rfl⟩
  | succ k ih =>
    obtain ⟨s1, h1, b, o, e1, e2, rfl, rfl⟩ := uninterrupted_succ hk
    obtain ⟨_, i1, i2, i3⟩ := ih e1
    obtain ⟨_, _, _, _, v5, _, _, _, _, v10, s2, w1, w2, _, w4⟩ := iterate_unfold e2
    have ht : s.currentTime = s1.currentTime + s1.timeStep ∧ s.timeStep = s1.timeStep := by
      unfold stepPhase at w4
      rw [hs] at w4
      simp only at w4
      split at w4
      · simp at w4
      · simp only [Option.some.injEq] at w4
        rw [← w4]
        simp only [w1, w2, and_self]
    have hct : s.currentTime = s0.currentTime := by rw [ht.1, i1, i2, habs]
    have hts : s.timeStep = s0.timeStep := by rw [ht.2, i2]
    have htl : s.timeLimit = s0.timeLimit := by rw [v5, i3]
    refine ⟨?_, hct, hts, htl⟩
    rw [v10, hct, hts, htl, habs, if_neg (by simp [hlim])]
    rfl

end Rounding

/-! ## Examples on the toy run: dt = 1, period 2, limit 5 -/

/-- C08, C09: after 5 iterations, records at times 0, 2, 4. -/
example : recordTimes toy toyStart 5 = [0, 2, 4] := by
  obtain ⟨s, h, e⟩ := toy_completes
  obtain ⟨m, h1, h2⟩ := C09_schedule toy_fixed (dt := 1) (P := 2) one_pos (by norm_num) 3 5 0 e
  have c : ∀ k : Nat, ⌈(k : ℝ) * 2 / 1⌉₊ = 2 * k := by
    intro k
    have : (k : ℝ) * 2 / 1 = ((2 * k : Nat) : ℝ) := by push_cast; ring
    rw [this, Nat.ceil_natCast]
  have hm : m = 3 := by
    have a := h2 2
    have b := h2 3
    rw [c] at a b
    omega
  subst hm
  unfold toyStart
  rw [h1]
  simp [List.range_succ]
  norm_num

/-- C08: the first record of the toy run is of time 0. -/
example : ∃ s h, uninterrupted toy toyStart 1 = some (s, h, false) ∧
    recordTimes toy toyStart 1 = [0] := by
  obtain ⟨s, h, e⟩ := toy_running 1 (by omega)
  have := (C08_first_record toy 1 3 2 5 0 (by simp) e).1
  exact ⟨s, h, e, by simpa [toyStart] using this⟩

/-- C10: the adaptive toy has positive steps, and runs. -/
example : ∃ s h d, uninterrupted toyAdaptive toyStart 1 = some (s, h, d) ∧
    (recordTimes toyAdaptive toyStart 1).IsChain (fun a b => a + 2 ≤ b) := by
  obtain ⟨⟨s', b, o⟩, e⟩ := iterate_some_of_total toyAdaptive_total toyStart
  have e1 := uninterrupted_step (p := toyAdaptive) (s0 := toyStart) (k := 0) rfl e
  refine ⟨_, _, _, e1, C10_records_one_period_apart (p := toyAdaptive) rfl ?_ 1 3 2 5 0 e1⟩
  intro t dt u u' done next h
  simp only [Option.some.injEq, Prod.mk.injEq] at h
  rw [← h.2.1]; norm_num

/-- C11, C12: the toy run ends at iteration 5 and time 5; the last record is of time 4 < 5 < 4+2+1. -/
example : ∃ s h, uninterrupted toy toyStart 5 = some (s, h, true) ∧ s.currentTime = 5 := by
  obtain ⟨s, h, e⟩ := toy_completes
  have := ((C11_run_ends toy_fixed (dt := 1) one_pos 3 2 5 0).2 5 s h e).2.1
  exact ⟨s, h, e, by rw [this]; norm_num⟩

/-- C11 (absorption): infinity absorbs every step; here with the `XQ` scalars. -/
example (f : XQ → XQ → XQ → ℕ → Option ℕ) (p : Physics XQ ℕ) (hs : p.scheme = .whfast f)
    (s0 : State XQ ℕ) (h1 : s0.currentTime = .pinf) (h2 : s0.timeStep = .fin 1)
    (h3 : s0.timeLimit = .pinf) (k : Nat) (s : State XQ ℕ) (h : Bytes) (d : Bool)
    (hk : uninterrupted p s0 k = some (s, h, d)) : d = false :=
  (C11_absorbed_step_never_completes hs s0 (by rw [h1, h2]; rfl) (by rw [h1, h3]; rfl) k hk).1

end Posidonius.Driver
