import Verif.Model.Driver

/-! # Specification: the uninterrupted run -/

namespace Posidonius.Driver
open Posidonius.Output
variable {F U : Type} [Add F] [FOps F]

/-- A run without recovery snapshots, crashes or resumes: after `k` iterations from `s0`, the state,
the bytes of history produced, and whether the last iteration returned "Simulation completed".
`none`: the run panicked or had already completed. -/
def uninterrupted (p : Physics F U) (s0 : State F U) : Nat → Option (State F U × Bytes × Bool)
  | 0 => some (s0, [], false)
  | k + 1 =>
    match uninterrupted p s0 k with
    | some (s, h, false) =>
      match iterate p s with
      | some (s', b, .completed) => some (s', h ++ b.getD [], true)
      | some (s', b, .running _) => some (s', h ++ b.getD [], false)
      | none => none
    | _ => none

/-- Two integrators that agree on everything except the recovery bookkeeping (time of the last
recovery snapshot, recovery period, hash). -/
structure SameRun (s t : State F U) : Prop where
  timeStep : s.timeStep = t.timeStep
  halfTimeStep : s.halfTimeStep = t.halfTimeStep
  univ : s.univ = t.univ
  currentTime : s.currentTime = t.currentTime
  currentIteration : s.currentIteration = t.currentIteration
  historicPeriod : s.historicPeriod = t.historicPeriod
  lastHistoric : s.lastHistoric = t.lastHistoric
  nHistoric : s.nHistoric = t.nHistoric
  timeLimit : s.timeLimit = t.timeLimit

end Posidonius.Driver

namespace Posidonius.Driver
open Posidonius.Output
variable {F U : Type} [Add F] [FOps F]

/-- The times at which the first `k` iterations of the uninterrupted run wrote a record. -/
def recordTimes (p : Physics F U) (s0 : State F U) : Nat → List F
  | 0 => []
  | k + 1 =>
    recordTimes p s0 k ++
      match uninterrupted p s0 k with
      | some (s, _, false) =>
        match iterate p s with
        | some (_, some _, _) => [s.currentTime]
        | _ => []
      | _ => []

/-- The integrator uses a constant time step (LeapFrog or WHFast). -/
def Physics.FixedStep (p : Physics F U) : Prop :=
  match p.scheme with
  | .leapfrog _ | .whfast _ => True
  | .ias15 _ => False

/-- The physics never panics. -/
structure Physics.Total (p : Physics F U) : Prop where
  observe : ∀ t u, p.observe t u ≠ none
  step : match p.scheme with
    | .leapfrog f | .whfast f => ∀ t dt h u, f t dt h u ≠ none
    | .ias15 f => ∀ t dt u, f t dt u ≠ none

/-- A run during which a recovery snapshot is written after iteration number `k` (counted from 0)
whenever `write k` is true. -/
def withRecoverySnapshots (p : Physics F U) (write : Nat → Bool) (s0 : State F U) :
    Nat → Option (State F U × Bytes × Bool)
  | 0 => some (s0, [], false)
  | k + 1 =>
    match withRecoverySnapshots p write s0 k with
    | some (s, h, false) =>
      match iterate p s with
      | some (s', b, .completed) => some (s', h ++ b.getD [], true)
      | some (s', b, .running _) =>
        some (if write k then stampRecovery p s' else s', h ++ b.getD [], false)
      | none => none
    | _ => none

end Posidonius.Driver
