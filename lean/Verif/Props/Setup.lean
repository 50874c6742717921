import Verif.Model.Main
import Verif.Lemmas.Toy
import Verif.Lemmas.Disk

/-!
# C13-C17: options, start-up and main loop
-/

namespace Posidonius.Driver
open Posidonius.Output
set_option linter.unusedSectionVars false

section Any
variable {F U : Type} [Add F] [FOps F]

/-- **C13** (any arithmetic) A new limit that is not positive is ignored, whatever it is. -/
theorem C13_nonpositive_ignored (evo : Bool) (ages : List (Option F)) (s : State F U) (l : F)
    (h : ltb (lit 0) l = false) : setTimeLimit evo ages s l = some s := by
  simp [setTimeLimit, h]

/-- **C13** (any arithmetic) An accepted positive limit takes effect exactly, and nothing else
changes. -/
theorem C13_takes_effect (evo : Bool) (ages : List (Option F)) (s s' : State F U) (l : F)
    (hpos : ltb (lit 0) l = true) (hne : eqb s.timeLimit l = false)
    (h : setTimeLimit evo ages s l = some s') : s' = { s with timeLimit := l } := by
  unfold setTimeLimit at h
  rw [hpos, hne] at h
  simp only [Bool.not_false, Bool.and_self, if_true] at h
  repeat' split at h
  all_goals first
    | (simp at h; done)
    | (simp only [Option.some.injEq] at h; exact h.symm)

/-- **C14** (any arithmetic, NaN included) Each period is replaced by the requested value exactly if
that is positive (`0 < x` as computed); everything else in the integrator is untouched.
(`eqb` true means the period already has that value.) -/
theorem C14_periods (s : State F U) (np rp : F) :
    setSnapshotPeriods s np rp = { s with
      historicPeriod := if ltb (lit 0) np && !eqb s.historicPeriod np then np else s.historicPeriod
      recoveryPeriod := if ltb (lit 0) rp && !eqb s.recoveryPeriod rp then rp
        else s.recoveryPeriod } := by
  unfold setSnapshotPeriods
  generalize (ltb (lit 0) np && !eqb s.historicPeriod np) = a
  cases a
  · simp only [Bool.false_eq_true, if_false]
    generalize (ltb (lit 0) rp && !eqb s.recoveryPeriod rp) = b
    cases b <;> rfl
  · simp only [if_true]
    generalize (ltb (lit 0) rp && !eqb s.recoveryPeriod rp) = b
    cases b <;> rfl

end Any

section Real
variable {U : Type}

/-- **C14** in exact arithmetic: the period is the requested one if positive, else unchanged. -/
theorem C14_periods_exact (s : State ℝ U) (np rp : ℝ) :
    (setSnapshotPeriods s np rp).historicPeriod = (if 0 < np then np else s.historicPeriod) ∧
    (setSnapshotPeriods s np rp).recoveryPeriod = (if 0 < rp then rp else s.recoveryPeriod) := by
  have key : ∀ c x : ℝ, (if ltb (lit 0) x && !eqb c x then x else c) = if 0 < x then x else c := by
    intro c x
    by_cases hx : 0 < x
    · by_cases he : c = x
      · simp [he]
      · have : eqb c x = false := by simp [he]
        simp [hx]
    · simp [hx]
  rw [C14_periods]
  exact ⟨key _ _, key _ _⟩

/-- **C13** Exactly which limits are refused: positive ones that exceed both the current limit and
the last tabulated age of an evolving body (when evolution is considered), and positive ones below
both the current limit and the current time. -/
theorem C13_refused_iff (evo : Bool) (ages : List (Option ℝ)) (s : State ℝ U) (l : ℝ) :
    setTimeLimit evo ages s l = none ↔
      0 < l ∧ ((s.timeLimit < l ∧ evo = true ∧ ∃ a, some a ∈ ages ∧ a < l) ∨
        (l < s.timeLimit ∧ l < s.currentTime)) := by
  have hany : ages.any (tableEndsBefore l) = true ↔ ∃ a, some a ∈ ages ∧ a < l := by
    rw [List.any_eq_true]
    constructor
    · rintro ⟨x, hx, h⟩
      cases x with
      | none => simp [tableEndsBefore] at h
      | some a => exact ⟨a, hx, by simpa [tableEndsBefore] using h⟩
    · rintro ⟨a, ha, h⟩
      exact ⟨some a, ha, by simpa [tableEndsBefore] using h⟩
  unfold setTimeLimit
  by_cases h1 : 0 < l
  · by_cases h2 : s.timeLimit = l
    · have : (ltb (lit 0) l && !eqb s.timeLimit l) = false := by simp [h2]
      rw [this]
      simp [h2]
    · have : (ltb (lit 0) l && !eqb s.timeLimit l) = true := by simp [h1, h2]
      rw [this, if_pos rfl]
      by_cases h3 : s.timeLimit < l
      · have h3' : ¬ l < s.timeLimit := by linarith
        have e1 : ltb s.timeLimit l = true := by simpa using h3
        have e2 : ltb l s.timeLimit = false := by simpa using h3.le
        rw [e1, e2]
        cases evo with
        | false => simp [h3']
        | true =>
          simp only [Bool.and_self, if_true]
          by_cases h4 : ∃ a, some a ∈ ages ∧ a < l
          · rw [if_pos (hany.2 h4)]
            simp only [true_iff]
            exact ⟨h1, Or.inl ⟨h3, trivial, h4⟩⟩
          · rw [if_neg (fun h => h4 (hany.1 h))]
            simp only [reduceCtorEq, false_iff, not_and, not_or]
            exact fun _ => ⟨fun _ _ h => h4 h, fun h => absurd h h3'⟩
      · have h4 : l < s.timeLimit := lt_of_le_of_ne (not_lt.1 h3) (Ne.symm h2)
        have e1 : ltb s.timeLimit l = false := by simpa using h4.le
        have e2 : ltb l s.timeLimit = true := by simpa using h4
        rw [e1, e2]
        simp only [Bool.false_and, Bool.false_eq_true, if_false, if_true]
        by_cases h5 : l < s.currentTime
        · rw [if_pos (by simpa using h5)]
          simp [h1, h4, h5]
        · rw [if_neg (by simpa using h5)]
          simp [h3, h5]
  · have : (ltb (lit 0) l && !eqb s.timeLimit l) = false := by
      have : ltb (lit 0 : ℝ) l = false := by simpa using h1
      rw [this, Bool.false_and]
    rw [this]
    simp [h1]

/-- The limit is covered by every table. -/
def Covered (evo : Bool) (ages : List (Option ℝ)) (s : State ℝ U) : Prop :=
  evo = true → ∀ a, some a ∈ ages → s.timeLimit ≤ a

/-- **C13** Any sequence of accepted changes keeps the limit within the tables of all evolving bodies
and, once the current time is within the limit, keeps it so. -/
theorem C13_sequence (evo : Bool) (ages : List (Option ℝ)) (ls : List ℝ) (s s' : State ℝ U)
    (hc : Covered evo ages s) (ht : s.currentTime ≤ s.timeLimit)
    (h : ls.foldlM (fun s l => setTimeLimit evo ages s l) s = some s') :
    Covered evo ages s' ∧ s'.currentTime ≤ s'.timeLimit := by
  induction ls generalizing s with
  | nil =>
    simp only [List.foldlM_nil] at h
    cases h
    exact ⟨hc, ht⟩
  | cons l ls ih =>
    rw [List.foldlM_cons] at h
    cases h1 : setTimeLimit evo ages s l with
    | none => simp [h1] at h
    | some s1 =>
      simp only [h1, Option.bind_eq_bind, Option.bind_some] at h
      have hnot := (C13_refused_iff evo ages s l).not.1 (by simp [h1])
      by_cases hpos : 0 < l
      · by_cases hne : s.timeLimit = l
        · have : setTimeLimit evo ages s l = some s := by
            unfold setTimeLimit
            have : (ltb (lit 0) l && !eqb s.timeLimit l) = false := by simp [hne]
            rw [this]; simp
          rw [h1] at this
          cases this
          exact ih _ hc ht h
        · have he := C13_takes_effect evo ages s s1 l (by simpa using hpos) (by simpa using hne) h1
          subst he
          have hn := fun hh => hnot ⟨hpos, hh⟩
          apply ih _ _ _ h
          · intro hevo a ha
            by_contra hlt
            simp only [not_le] at hlt
            rcases lt_or_ge s.timeLimit l with h2 | h2
            · exact hn (Or.inl ⟨h2, hevo, a, ha, hlt⟩)
            · have := hc hevo a ha
              linarith
          · simp only
            rcases lt_or_ge l s.timeLimit with h2 | h2
            · by_contra h3
              exact hn (Or.inr ⟨h2, not_le.1 h3⟩)
            · linarith
      · have : setTimeLimit evo ages s l = some s := by
          apply C13_nonpositive_ignored
          simpa using hpos
        rw [h1] at this
        cases this
        exact ih _ hc ht h

/-- C13: a body tabulated up to 100 days, limit 50, time 20: 70 is accepted, then 120 is refused. -/
example (u : U) : ∃ s' : State ℝ U,
    setTimeLimit true [none, some (100 : ℝ)]
      { State.fresh (1 : ℝ) 1 1 50 u with currentTime := (20 : ℝ) } 70 = some s' ∧
    s'.timeLimit = 70 ∧ setTimeLimit true [none, some 100] s' 120 = none := by
  cases h : setTimeLimit true [none, some (100 : ℝ)]
      { State.fresh (1 : ℝ) 1 1 50 u with currentTime := (20 : ℝ) } 70 with
  | none =>
    rw [C13_refused_iff] at h
    exfalso
    obtain ⟨_, ⟨_, _, a, ha, hlt⟩ | ⟨h1, _⟩⟩ := h
    · simp at ha; subst ha; norm_num at hlt
    · simp [State.fresh] at h1; norm_num at h1
  | some s' =>
    have he := C13_takes_effect true [none, some 100] _ s' 70 (by simp) (by simp [State.fresh]) h
    refine ⟨s', rfl, by rw [he], ?_⟩
    rw [C13_refused_iff, he]
    refine ⟨by norm_num, Or.inl ⟨by norm_num, rfl, 100, by simp, by norm_num⟩⟩

/-- C14: a new historic period of 7 and no new recovery period. -/
example (u : U) : (setSnapshotPeriods (State.fresh 1 2 3 50 u) (7 : ℝ) (-1)).historicPeriod = 7 ∧
    (setSnapshotPeriods (State.fresh 1 2 3 50 u) (7 : ℝ) (-1)).recoveryPeriod = 2 := by
  have := C14_periods_exact (State.fresh 1 2 3 50 u) (7 : ℝ) (-1)
  rw [this.1, this.2]
  norm_num [State.fresh]

end Real
end Posidonius.Driver

namespace Posidonius.Main
open Posidonius.Output Posidonius.Driver Posidonius.Disk
set_option linter.unusedSectionVars false
variable {F U : Type}

/-- **C15 is violated** by every value: whatever is given to `--time-limit`, and whatever the number
parsers do, the program ends in a usage error or a panic before anything is simulated. -/
theorem C15_violated [Neg F] [FOps F] (parseU : String → Option Nat) (parseF : String → Option F)
    (l : ResumeLine) (v : String) (hv : l.timeLimit = some v) :
    ∃ e, resumeOptions parseU parseF l = .error e := by
  cases h : resumeOptions parseU parseF l with
  | error e => exact ⟨e, rfl⟩
  | ok o =>
    exfalso
    revert h
    unfold resumeOptions
    rw [hv]
    cases parseU64Arg (F := F) parseU l.limit with
    | error _ => simp [bind, Except.bind]
    | ok a =>
      cases parseF64Arg parseF l.historicPeriod with
      | error _ => simp [bind, Except.bind]
      | ok b =>
        cases parseF64Arg parseF l.recoveryPeriod with
        | error _ => simp [bind, Except.bind]
        | ok c =>
          cases hp : parseU v with
          | none => simp [bind, Except.bind, parseU64Arg, hp]
          | some n =>
            simp only [bind, Except.bind, parseU64Arg, hp]
            have hn : getOneF64 (some (ArgVal.u64 n) : Option (ArgVal F)) = .error .panic := rfl
            rw [hn]
            generalize getOneF64 b = x
            generalize getOneF64 c = y
            cases x <;> cases y <;> simp

/-- **C15, what holds instead** (missing: everything with the option): without `--time-limit`, the
other options are read as given, and the time limit is left unchanged. -/
theorem C15_partial [Add F] [Neg F] [FOps F] (parseU : String → Option Nat) (parseF : String → Option F)
    (hneg : ltb (lit 0) (-(lit 1) : F) = false)
    (l : ResumeLine) (hv : l.timeLimit = none)
    (hl : ∀ s, l.limit = some s → parseU s ≠ none)
    (hh : ∀ s, l.historicPeriod = some s → parseF s ≠ none)
    (hr : ∀ s, l.recoveryPeriod = some s → parseF s ≠ none) :
    ∃ o, resumeOptions parseU parseF l = .ok o ∧
      o.executionLimit = (l.limit.bind parseU).getD 0 ∧
      o.historicPeriod = (l.historicPeriod.bind parseF).getD (-(lit 1)) ∧
      o.recoveryPeriod = (l.recoveryPeriod.bind parseF).getD (-(lit 1)) ∧
      ∀ (evo : Bool) (ages : List (Option F)) (s : State F U),
        setTimeLimit evo ages s o.timeLimit = some s := by
  obtain ⟨limit, hist, recp, tl⟩ := l
  simp only at *
  subst hv
  have kU : ∃ a, parseU64Arg (F := F) parseU limit = .ok a ∧ getOneU64 a = .ok (limit.bind parseU) := by
    cases limit with
    | none => exact ⟨none, rfl, rfl⟩
    | some s =>
      cases h : parseU s with
      | none => exact absurd h (hl s rfl)
      | some n => exact ⟨some (.u64 n), by simp [parseU64Arg, h], by simp [getOneU64, h]⟩
  have kF : ∀ o : Option String, (∀ s, o = some s → parseF s ≠ none) →
      ∃ a, parseF64Arg parseF o = .ok a ∧ getOneF64 a = .ok (o.bind parseF) := by
    intro o ho
    cases o with
    | none => exact ⟨none, rfl, rfl⟩
    | some s =>
      cases h : parseF s with
      | none => exact absurd h (ho s rfl)
      | some n => exact ⟨some (.f64 n), by simp [parseF64Arg, h], by simp [getOneF64, h]⟩
  obtain ⟨a, a1, a2⟩ := kU
  obtain ⟨b, b1, b2⟩ := kF hist hh
  obtain ⟨c, c1, c2⟩ := kF recp hr
  refine ⟨⟨(limit.bind parseU).getD 0, (hist.bind parseF).getD (-(lit 1)),
    (recp.bind parseF).getD (-(lit 1)), -(lit 1)⟩, ?_, rfl, rfl, rfl, ?_⟩
  · have t1 : parseU64Arg (F := F) parseU none = .ok none := rfl
    have t2 : getOneF64 (none : Option (ArgVal F)) = .ok none := rfl
    simp [resumeOptions, a1, a2, b1, b2, c1, c2, t1, t2, bind, Except.bind, pure, Except.pure]
  · intro evo ages s
    exact C13_nonpositive_ignored evo ages s _ hneg

/-- C15: `posidonius resume ... --time-limit 100` (100 parses as a u64) panics. -/
example (parseU : String → Option Nat) (h : parseU "100" = some 100) :
    resumeOptions (F := ℝ) parseU (fun _ => some 1)
    ⟨none, none, none, some "100"⟩ = .error .panic := by
  simp [resumeOptions, bind, Except.bind, parseU64Arg, parseF64Arg, getOneF64, h]

section Loop
variable [Add F] [FOps F]

/-- **C16 is violated** by every run with an execution limit: as long as the limit has not been
reached, no recovery snapshot is written at all, whatever the recovery period. -/
theorem C16_violated (p : Physics F U) (limit : Nat) (hlim : limit ≠ 0) (clock : Nat → Nat)
    (s0 : State F U) (k : Nat) (hclock : ∀ i < k, clock i < limit) (l : LoopState F U)
    (hk : mainLoop p limit clock s0 k = some l) : l.snapshots = [] := by
  induction k generalizing l with
  | zero =>
    simp only [mainLoop, Option.some.injEq] at hk
    rw [← hk]
  | succ k ih =>
    unfold mainLoop at hk
    cases h : mainLoop p limit clock s0 k with
    | none => simp [h] at hk
    | some l1 =>
      simp only [h] at hk
      have i1 := ih (fun i hi => hclock i (by omega)) l1 h
      have hc := hclock k (by omega)
      unfold loopTurn at hk
      split at hk
      · simp only [Option.some.injEq] at hk; rw [← hk, i1]
      · split at hk
        · simp at hk
        · simp only [Option.some.injEq] at hk; rw [← hk, i1]
        · first
            | rw [if_pos hlim, if_neg (by omega)] at hk
            | rw [if_neg (by omega)] at hk
          simp only [Option.some.injEq] at hk; rw [← hk, i1]


/-- **C16, what holds instead** (missing: runs with an execution limit), the rule: without limit, a
turn writes a recovery snapshot - of the state reached - exactly if `iterate` says one is due, and does
not leave the loop. -/
theorem C16_partial_rule (p : Physics F U) (elapsed : Nat) (l : LoopState F U)
    (hl : l.stopped = false) (s : State F U) (b : Option Bytes) (due : Bool)
    (hit : iterate p l.st = some (s, b, .running due)) :
    loopTurn p 0 elapsed l = some
      (if due then ⟨stampRecovery p s, l.snapshots ++ [stampRecovery p s], false⟩
        else ⟨s, l.snapshots, false⟩) := by
  unfold loopTurn
  simp only [hl, hit]
  cases due <;> simp

/-- **C16, what holds instead**, the limit itself: the first turn that finds the limit reached, unless it
completes the simulation, writes one recovery snapshot, of the state it has reached, and leaves the loop. -/
theorem C16_partial_at_limit (p : Physics F U) (limit : Nat) (hlim : limit ≠ 0) (clock : Nat → Nat)
    (s0 : State F U) (k : Nat) (hclock : ∀ i < k, clock i < limit) (hk : limit ≤ clock k) (l : LoopState F U)
    (hl : mainLoop p limit clock s0 k = some l) (hrun : l.stopped = false) (s : State F U) (b : Option Bytes)
    (due : Bool) (hit : iterate p l.st = some (s, b, .running due)) :
    mainLoop p limit clock s0 (k + 1) = some ⟨stampRecovery p s, [stampRecovery p s], true⟩ := by
  have h0 := C16_violated p limit hlim clock s0 k hclock l hl
  unfold mainLoop
  simp only [hl]
  unfold loopTurn
  simp [hrun, hit, hlim, hk, h0]

end Loop

/-- **C16, what holds instead** (missing: runs with an execution limit), the schedule: without
limit, for a fixed step `dt` and recovery period `R ≥ 0`, after every turn of the loop that did not
complete the simulation there is a recovery snapshot, the last of those written, and it is less than
`R + dt` old. -/
theorem C16_partial_schedule {p : Physics ℝ U} (hf : p.FixedStep) {dt R : ℝ} (hdt : 0 < dt)
    (hR : 0 ≤ R) (P T : ℝ) (u : U) (clock : Nat → Nat) (k : Nat) (l : LoopState ℝ U)
    (hk : mainLoop p 0 clock (State.fresh dt R P T u) (k + 1) = some l) (hl : l.stopped = false) :
    ∃ last ∈ l.snapshots.getLast?, last.currentTime ≤ l.st.currentTime ∧
      l.st.currentTime < last.currentTime + R + dt := by
  -- bookkeeping invariant of the loop
  have key : ∀ k l, mainLoop p 0 clock (State.fresh dt R P T u) k = some l → l.stopped = false →
      l.st.currentTime = k * dt ∧ l.st.timeStep = dt ∧ l.st.halfTimeStep = l.st.timeStep / 2 ∧
      l.st.recoveryPeriod = R ∧ l.st.historicPeriod = P ∧
      (k = 0 → l.st.lastHistoric = -1) ∧
      (1 ≤ k → ∃ last ∈ l.snapshots.getLast?, last.currentTime = l.st.lastRecovery ∧
        l.st.lastRecovery ≤ l.st.currentTime ∧ l.st.currentTime < l.st.lastRecovery + R + dt) := by
    intro k
    induction k with
    | zero =>
      intro l h _
      simp only [mainLoop, Option.some.injEq] at h
      rw [← h]
      simp [State.fresh]
      ring
    | succ k ih =>
      intro l h hl
      unfold mainLoop at h
      cases h1 : mainLoop p 0 clock (State.fresh dt R P T u) k with
      | none => simp [h1] at h
      | some l1 =>
        simp only [h1] at h
        have hl1 : l1.stopped = false := by
          by_contra hc
          rw [Bool.not_eq_false] at hc
          unfold loopTurn at h
          rw [if_pos hc] at h
          simp only [Option.some.injEq] at h
          rw [← h, hc] at hl
          simp at hl
        obtain ⟨i1, i2, i3, i4, i5, i6, i7⟩ := ih l1 h1 hl1
        cases hit : iterate p l1.st with
        | none =>
          unfold loopTurn at h
          simp [hl1, hit] at h
        | some r =>
          obtain ⟨s, b, o⟩ := r
          cases o with
          | completed =>
            unfold loopTurn at h
            simp only [hl1, Bool.false_eq_true, if_false, hit, Option.some.injEq] at h
            rw [← h] at hl
            simp at hl
          | running due =>
            rw [C16_partial_rule p (clock k) l1 hl1 s b due hit, Option.some.injEq] at h
            obtain ⟨c1, c2, c3⟩ := fixed_clock hf i3 hit
            obtain ⟨_, _, u3, _, _, u6, u7, _, _, u10, _⟩ := iterate_unfold hit
            have ct : s.currentTime = ((k + 1 : Nat) : ℝ) * dt := by
              rw [c1, i1, i2]; push_cast; ring
            have hdue : due = (firstTrigger l1.st || recoveryTrigger l1.st) := by
              by_cases hc : ltb s.timeLimit (s.currentTime + s.timeStep) = true
              · rw [if_pos hc] at u10; simp at u10
              · rw [if_neg hc] at u10
                simpa using u10
            cases due with
            | true =>
              simp only [if_true] at h
              subst h
              refine ⟨ct, by simp [stampRecovery, c2, i2], by simpa [stampRecovery] using c3,
                by simp [stampRecovery, u7, i4], by simp [stampRecovery, u3, i5], by omega, ?_⟩
              intro _
              refine ⟨stampRecovery p s, by simp, rfl, le_refl _, ?_⟩
              simp only [stampRecovery]
              linarith
            | false =>
              simp only [Bool.false_eq_true, if_false] at h
              subst h
              refine ⟨ct, by rw [c2, i2], c3, by rw [u7, i4], by rw [u3, i5], by omega, ?_⟩
              intro _
              have hk1 : 1 ≤ k := by
                by_contra hk0
                have : l1.st.lastHistoric = -1 := i6 (by omega)
                have hft : firstTrigger l1.st = true := by
                  unfold firstTrigger
                  rw [ltb_real, this]; simp
                rw [hft] at hdue
                simp at hdue
              obtain ⟨last, m1, m2, m3, m4⟩ := i7 hk1
              have hrt : recoveryTrigger l1.st = false := by
                rw [eq_comm, Bool.or_eq_false_iff] at hdue
                exact hdue.2
              unfold recoveryTrigger at hrt
              rw [leb_real_false, i4] at hrt
              refine ⟨last, m1, by rw [m2, u6], ?_, ?_⟩
              · rw [u6, c1, i2]; linarith
              · rw [u6, c1, i2]; linarith
  obtain ⟨_, _, _, _, _, _, h7⟩ := key (k + 1) l hk hl
  obtain ⟨last, m1, m2, m3, m4⟩ := h7 (by omega)
  exact ⟨last, m1, by rw [m2]; exact m3, by rw [m2]; exact m4⟩

/-- C16: the toy run with a limit of one hour and a clock that never reaches it: three turns, no
snapshot; the same run without limit: at least one. -/
example : (∃ l, mainLoop toy 3600 (fun _ => 5) toyStart 3 = some l ∧ l.stopped = false ∧
      l.snapshots = []) ∧
    (∃ l, mainLoop toy 0 (fun _ => 5) toyStart 3 = some l ∧ l.stopped = false ∧ l.snapshots ≠ []) := by
  have run : ∀ limit, limit = 0 ∨ limit = 3600 → ∀ k, k ≤ 3 → ∃ l s h,
      mainLoop toy limit (fun _ => 5) toyStart k = some l ∧ l.stopped = false ∧
      uninterrupted toy toyStart k = some (s, h, false) ∧ SameRun l.st s := by
    intro limit hlim k
    induction k with
    | zero => intro _; exact ⟨_, _, _, rfl, rfl, rfl, SameRun.refl _⟩
    | succ k ih =>
      intro hk
      obtain ⟨l, s, h, e1, e2, e3, e4⟩ := ih (by omega)
      obtain ⟨s', h', f1⟩ := toy_running (k + 1) (by omega)
      obtain ⟨s1, h1, b, o, g1, g2, _, g4⟩ := uninterrupted_succ f1
      rw [e3] at g1
      simp only [Option.some.injEq, Prod.mk.injEq, and_true] at g1
      obtain ⟨rfl, rfl⟩ := g1
      rcases iterate_sameRun toy e4 with ⟨_, q⟩ | ⟨a, c, b', o1, o2, q1, q2, q3, q4⟩
      · rw [q] at g2; simp at g2
      · rw [q2] at g2
        simp only [Option.some.injEq, Prod.mk.injEq] at g2
        obtain ⟨rfl, rfl, rfl⟩ := g2
        cases o1 with
        | completed => rw [← q4] at g4; simp [Outcome.isCompleted] at g4
        | running due =>
          rcases hlim with rfl | rfl
          · have := C16_partial_rule toy 5 l e2 a b' due q1
            refine ⟨_, c, h', by simp [mainLoop, e1, this]; rfl, ?_, f1, ?_⟩
            · split <;> rfl
            · split
              · exact (stampRecovery_sameRun toy a).trans q3
              · exact q3
          · exact ⟨⟨a, l.snapshots, l.stopped⟩, c, h', by simp [mainLoop, e1, loopTurn, e2, q1], e2, f1, q3⟩
  refine ⟨?_, ?_⟩
  · obtain ⟨l, s, h, e1, e2, _⟩ := run 3600 (Or.inr rfl) 3 (by omega)
    exact ⟨l, e1, e2, C16_violated toy 3600 (by omega) _ toyStart 3 (by simp) l e1⟩
  · obtain ⟨l, s, h, e1, e2, _⟩ := run 0 (Or.inl rfl) 3 (by omega)
    obtain ⟨last, m, _⟩ := C16_partial_schedule toy_fixed (dt := 1) (R := 3) one_pos (by norm_num) 2 5
      0 (fun _ => 5) 2 l e1 e2
    refine ⟨l, e1, e2, ?_⟩
    intro hnil
    rw [hnil] at m
    simp at m

section Setup
variable [Add F] [FOps F]
variable (p : Physics F U) (decode : String → Bytes → Option (State F U)) (evo : State F U → Bool)
  (ages : State F U → List (Option F))

/-- **C17** `start` with an existing recovery or history file: refused, and the file system is
untouched. -/
theorem C17_start_never_overwrites (casePath recoveryPath historyPath : String) (np rp nl : F) (fs : FS)
    (h : (fs recoveryPath).isSome = true ∨ (fs historyPath).isSome = true) :
    setup p decode evo ages false casePath recoveryPath historyPath np rp nl fs = (fs, none) := by
  unfold setup
  split
  · rfl
  · split
    · rfl
    · split
      · rfl
      · dsimp only
        split
        · rfl
        · rcases h with h | h
          · simp [h]
          · by_cases h2 : (fs recoveryPath).isSome = true
            · simp [h2]
            · simp [h, h2]

/-- **C17** Whatever the command and its outcome, no file other than the history is touched; the
history is touched only in two ways: it is created empty if it did not exist, or it is cut to the
length the restored snapshot promises - and this only if it has at least that length and the command
is accepted. -/
theorem C17_effects (resume : Bool) (casePath recoveryPath historyPath : String) (np rp nl : F)
    (fs fs' : FS) (r : Option (State F U))
    (h : setup p decode evo ages resume casePath recoveryPath historyPath np rp nl fs = (fs', r)) :
    (∀ path, path ≠ historyPath → fs' path = fs path) ∧
    (r = none → fs' historyPath = fs historyPath ∨
      (fs historyPath = none ∧ fs' historyPath = some [])) ∧
    (∀ s, r = some s →
      s.nHistoric * 156 * p.nParticles ≤ ((fs historyPath).getD []).length ∧
      fs' historyPath = some (((fs historyPath).getD []).take (s.nHistoric * 156 * p.nParticles)) ∧
      (resume = false → fs historyPath = none ∧ fs recoveryPath = none)) := by
  have trivialCase : ∀ (r : Option (State F U)), r = none → fs' = fs →
      (∀ path, path ≠ historyPath → fs' path = fs path) ∧
      (r = none → fs' historyPath = fs historyPath ∨
        (fs historyPath = none ∧ fs' historyPath = some [])) ∧
      (∀ s, r = some s →
        s.nHistoric * 156 * p.nParticles ≤ ((fs historyPath).getD []).length ∧
        fs' historyPath = some (((fs historyPath).getD []).take (s.nHistoric * 156 * p.nParticles)) ∧
        (resume = false → fs historyPath = none ∧ fs recoveryPath = none)) := by
    intro r hr hfs
    subst hr hfs
    exact ⟨fun _ _ => rfl, fun _ => Or.inl rfl, by simp⟩
  unfold setup at h
  split at h
  · simp only [Prod.mk.injEq] at h; exact trivialCase r h.2.symm h.1.symm
  · split at h
    · simp only [Prod.mk.injEq] at h; exact trivialCase r h.2.symm h.1.symm
    · split at h
      · simp only [Prod.mk.injEq] at h; exact trivialCase r h.2.symm h.1.symm
      · dsimp only at h
        split at h
        · simp only [Prod.mk.injEq] at h; exact trivialCase r h.2.symm h.1.symm
        · rename_i s hs
          by_cases h1 : (!resume && (fs recoveryPath).isSome) = true
          · rw [if_pos h1] at h
            simp only [Prod.mk.injEq] at h; exact trivialCase r h.2.symm h.1.symm
          · rw [if_neg h1] at h
            by_cases h2 : (!resume && (fs historyPath).isSome) = true
            · rw [if_pos h2] at h
              simp only [Prod.mk.injEq] at h; exact trivialCase r h.2.symm h.1.symm
            · rw [if_neg h2] at h
              split at h
              · rename_i hlt
                simp only [Prod.mk.injEq] at h
                obtain ⟨rfl, rfl⟩ := h
                refine ⟨fun path hp => by simp [FS.put, hp], ?_, by simp⟩
                intro _
                cases hh : fs historyPath with
                | none => right; simp [FS.put]
                | some b => left; simp [FS.put]
              · rename_i hlt
                simp only [Prod.mk.injEq] at h
                obtain ⟨rfl, rfl⟩ := h
                refine ⟨fun path hp => by simp [FS.put, hp], by simp, ?_⟩
                intro s' hs'
                simp only [Option.some.injEq] at hs'
                subst hs'
                simp only [expectedNBytes, nBytesPerParticle, Nat.reduceSub, Nat.reduceMul, Nat.reduceAdd]
                  at hlt ⊢
                refine ⟨by omega, by simp [FS.put], ?_⟩
                intro hr
                subst hr
                simp only [Bool.not_false, Bool.true_and, Bool.not_eq_true,
                  Option.isSome_eq_false_iff, Option.isNone_iff_eq_none] at h1 h2
                exact ⟨h2, h1⟩

/-- **C17** When the command is accepted and no option changes the periods or the limit (always so for
`start`), the loop begins with exactly the state that was read from the case file; only a state of time zero
has its physical values initialized first. -/
theorem C17_begins_with_the_case (resume : Bool) (casePath recoveryPath historyPath : String) (np rp nl : F)
    (hnp : ltb (lit 0) np = false) (hrp : ltb (lit 0) rp = false) (hnl : ltb (lit 0) nl = false)
    (fs fs' : FS) (s : State F U)
    (h : setup p decode evo ages resume casePath recoveryPath historyPath np rp nl fs = (fs', some s)) :
    ∃ bytes c, fs casePath = some bytes ∧ decode casePath bytes = some c ∧
      (eqb c.currentTime (lit 0) = false → s = c) ∧
      (eqb c.currentTime (lit 0) = true → p.init c.univ = some s.univ ∧ s = { c with univ := s.univ }) := by
  unfold setup at h
  split at h
  · simp at h
  · rename_i bytes hb
    split at h
    · simp at h
    · rename_i c hc
      refine ⟨bytes, c, hb, hc, ?_⟩
      split at h
      · simp at h
      · rename_i c1 hc1
        dsimp only at h
        split at h
        · simp at h
        · rename_i c2 hc2
          have e2 : c2 = c1 := by
            simp [setTimeLimit, setSnapshotPeriods, hnp, hrp, hnl] at hc2
            exact hc2.symm
          have e3 : s = c2 := by
            split at h
            · simp at h
            · split at h
              · simp at h
              · split at h
                · simp at h
                · simp only [Prod.mk.injEq, Option.some.injEq] at h
                  exact h.2.symm
          subst e3 e2
          unfold afterRestore at hc1
          cases hz : eqb c.currentTime (lit 0) with
          | false =>
            simp [hz] at hc1
            exact ⟨fun _ => hc1.symm, by simp⟩
          | true =>
            simp only [hz, if_true] at hc1
            split at hc1
            · simp at hc1
            · rename_i u hu
              simp only [Option.some.injEq] at hc1
              subst hc1
              exact ⟨by simp, fun _ => ⟨hu, rfl⟩⟩

end Setup

/-- C16, the limit: a limit of one second and a first turn that takes five. -/
example : ∃ s, mainLoop toy 1 (fun _ => 5) toyStart 1 = some ⟨stampRecovery toy s, [stampRecovery toy s], true⟩ := by
  obtain ⟨s', h', f1⟩ := toy_running 1 (by omega)
  obtain ⟨s1, h1, b, o, g1, g2, _, g4⟩ := uninterrupted_succ f1
  simp only [uninterrupted, Option.some.injEq, Prod.mk.injEq] at g1
  obtain ⟨rfl, _⟩ := g1
  cases o with
  | completed => simp [Outcome.isCompleted] at g4
  | running due =>
    exact ⟨s', C16_partial_at_limit toy 1 (by omega) (fun _ => 5) toyStart 0 (by simp) (by simp) _ rfl rfl
      s' b due g2⟩

/-- C17: the toy case is accepted and the loop starts with it. -/
example : (setup toy (fun _ _ => some toyStart) (fun _ => false) (fun _ => []) false
    "case.json" "r.bin" "h.bin" (-1) (-1) (-1)
    (fun q => if q = "case.json" then some [1, 2, 3] else none)).2 = some toyStart := by
  simp [setup, afterRestore, toyStart, State.fresh, toy, setSnapshotPeriods, setTimeLimit, expectedNBytes]
  norm_num

/-- C17: a toy case file at "case.json"; the recovery file "r.bin" already exists. -/
example : setup toy (fun _ _ => some toyStart) (fun _ => false) (fun _ => []) false
    "case.json" "r.bin" "h.bin" (-1) (-1) (-1)
    (fun q => if q = "case.json" ∨ q = "r.bin" then some [1, 2, 3] else none) =
    ((fun q => if q = "case.json" ∨ q = "r.bin" then some [1, 2, 3] else none), none) :=
  C17_start_never_overwrites toy _ _ _ _ _ _ _ _ _ _ (Or.inl (by simp))

end Posidonius.Main
