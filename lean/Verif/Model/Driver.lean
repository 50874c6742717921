import Verif.Model.Output

/-!
# The integrators' bookkeeping: `iterate`, snapshot periods, time limit

Model of the part of the three integrators that decides what is recorded, when, and when the
simulation ends: /repo/src/integrator/leapfrog.rs 41-228, whfast.rs 98-318, ias15.rs 30-475.
The physics of a step is an arbitrary partial function on an arbitrary type `U` (the universe
together with the integrator's private arrays); partiality stands for a panic.  It is a parameter
because the bookkeeping does not look at it.  The concrete physics is modelled in other files.
-/

namespace Posidonius.Driver

open Posidonius.Output

/-- The integrator structure as it is serialized in a recovery snapshot (leapfrog.rs 41-54,
whfast.rs 99-120, ias15.rs 30-...): bookkeeping fields, and everything else in `univ`.
Simplifications: `universe.time_limit` is listed here as `timeLimit`; `halfTimeStep` is unused by
IAS15; counters are natural numbers (no overflow of u32/usize). -/
structure State (F U : Type) where
  timeStep : F
  halfTimeStep : F
  univ : U
  currentTime : F
  currentIteration : Nat
  recoveryPeriod : F
  historicPeriod : F
  lastRecovery : F
  lastHistoric : F
  nHistoric : Nat
  hash : Nat
  timeLimit : F

/-- How a step advances the clock, one constructor per integrator.  `step t dt h u` is the physics
of one step of size `dt` (half step `h`) from time `t`; `none` is a panic.
For IAS15 it returns the step actually done and the step proposed for the next iteration. -/
inductive Scheme (F U : Type) where
  | leapfrog (step : F → F → F → U → Option U)
  | whfast (step : F → F → F → U → Option U)
  | ias15 (step : F → F → U → Option (U × F × F))

/-- The parameters of the model. -/
structure Physics (F U : Type) where
  /-- integrator -/
  scheme : Scheme F U
  /-- leapfrog.rs 157-162 = whfast.rs 241-246 = ias15.rs 426-431: what is recomputed before a record
  is written (heliocentric coordinates, spin and evolving quantities, tidal heating). -/
  observe : F → U → Option U
  /-- the columns of the history -/
  view : U → List HistParticle
  /-- the bit pattern of an `f64` -/
  bits : F → F64
  /-- leapfrog.rs 142-149 `initialize_physical_values` at time zero -/
  init : U → Option U
  /-- `n_particles`; it never changes (no function of the crate assigns it after `Universe::new`) -/
  nParticles : Nat
  view_length : ∀ u, (view u).length = nParticles
  /-- the hash stored in a recovery snapshot (leapfrog.rs 220-224) -/
  hashOf : State F U → Nat

/-- What `iterate` returns (leapfrog.rs 209-214): `Err("Simulation completed")` or
`Ok(recovery snapshot due)`. -/
inductive Outcome where
  | completed
  | running (recoveryDue : Bool)
deriving DecidableEq, Repr

variable {F U : Type}

/-- leapfrog.rs 66-81, whfast.rs 143-165, ias15.rs `new`: the state of a fresh simulation. -/
def State.fresh [Mul F] [Neg F] [FOps F] (timeStep recoveryPeriod historicPeriod timeLimit : F) (u : U) : State F U where
  timeStep := timeStep
  halfTimeStep := lit (1/2) * timeStep
  univ := u
  currentTime := lit 0
  currentIteration := 0
  recoveryPeriod := recoveryPeriod
  historicPeriod := historicPeriod
  lastRecovery := -(lit 1)
  lastHistoric := -(lit 1)
  nHistoric := 0
  hash := 0
  timeLimit := timeLimit

variable [Add F] [FOps F]

/-- leapfrog.rs 153, whfast.rs 237, ias15.rs 422: `last_historic_snapshot_time < 0.` -/
def firstTrigger (s : State F U) : Bool := ltb s.lastHistoric (lit 0)
/-- leapfrog.rs 154, whfast.rs 238, ias15.rs 423. -/
def historicTrigger (s : State F U) : Bool := leb (s.lastHistoric + s.historicPeriod) s.currentTime
/-- leapfrog.rs 155, whfast.rs 239, ias15.rs 424. -/
def recoveryTrigger (s : State F U) : Bool := leb (s.lastRecovery + s.recoveryPeriod) s.currentTime

/-- leapfrog.rs 164-170 and whfast.rs 248-254 (fixed step); ias15.rs 433 (adaptive). -/
def nextLastHistoric (p : Physics F U) (s : State F U) : F :=
  match p.scheme with
  | .leapfrog _ | .whfast _ =>
      if !firstTrigger s then s.lastHistoric + s.historicPeriod else lit 0
  | .ias15 _ => s.currentTime

/-- leapfrog.rs 156-177, whfast.rs 240-261, ias15.rs 425-440: write a record if one is due.
Returns the new state and the bytes handed to the history writer, if any. -/
def recordPhase (p : Physics F U) (s : State F U) : Option (State F U × Option Bytes) :=
  if firstTrigger s || historicTrigger s then
    match p.observe s.currentTime s.univ with
    | none => none
    | some u =>
      let bytes := writeHistoricSnapshot (p.view u) (p.bits s.currentTime) (p.bits s.timeStep)
      some ({ s with
                univ := u
                lastHistoric := nextLastHistoric p s
                nHistoric := s.nHistoric + 1 }, some bytes)
  else some (s, none)

/-- leapfrog.rs 179-207, whfast.rs 263-297, ias15.rs 442-455: the step itself.  Clock: leapfrog adds
half a step twice (244, 261), whfast adds the step (294), ias15 adds the step done (1280) and
replaces the time step by the one proposed (1226). -/
def stepPhase (p : Physics F U) (s : State F U) : Option (State F U) :=
  match p.scheme with
  | .leapfrog step =>
    match step s.currentTime s.timeStep s.halfTimeStep s.univ with
    | none => none
    | some u => some { s with
        univ := u
        currentTime := (s.currentTime + s.halfTimeStep) + s.halfTimeStep
        currentIteration := s.currentIteration + 1 }
  | .whfast step =>
    match step s.currentTime s.timeStep s.halfTimeStep s.univ with
    | none => none
    | some u => some { s with
        univ := u
        currentTime := s.currentTime + s.timeStep
        currentIteration := s.currentIteration + 1 }
  | .ias15 step =>
    match step s.currentTime s.timeStep s.univ with
    | none => none
    | some (u, dtDone, dtNext) => some { s with
        univ := u
        currentTime := s.currentTime + dtDone
        timeStep := dtNext
        currentIteration := s.currentIteration + 1 }

/-- `iterate` (leapfrog.rs 151-215, whfast.rs 235-305, ias15.rs 420-463): new state, bytes written to
the history, and the value returned.  `none`: panic. -/
def iterate (p : Physics F U) (s : State F U) : Option (State F U × Option Bytes × Outcome) :=
  let first := firstTrigger s
  let recovery := recoveryTrigger s
  match recordPhase p s with
  | none => none
  | some (s1, bytes) =>
    match stepPhase p s1 with
    | none => none
    | some s2 =>
      if ltb s2.timeLimit (s2.currentTime + s2.timeStep) then
        some (s2, bytes, .completed)
      else
        some (s2, bytes, .running (first || recovery))

/-- leapfrog.rs 217-224, whfast.rs 307-314, ias15.rs 465-472: the fields changed by
`write_recovery_snapshot` before the structure is serialized. -/
def stampRecovery (p : Physics F U) (s : State F U) : State F U :=
  let s := { s with lastRecovery := s.currentTime, hash := 0 }
  { s with hash := p.hashOf s }

/-- leapfrog.rs 126-140 `set_snapshot_periods`. -/
def setSnapshotPeriods (s : State F U) (historicPeriod recoveryPeriod : F) : State F U :=
  let s := if ltb (lit 0) historicPeriod && !eqb s.historicPeriod historicPeriod then
      { s with historicPeriod := historicPeriod } else s
  if ltb (lit 0) recoveryPeriod && !eqb s.recoveryPeriod recoveryPeriod then
    { s with recoveryPeriod := recoveryPeriod } else s

/-- leapfrog.rs 108-112: an evolving body whose table ends before `timeLimit`. -/
def tableEndsBefore (timeLimit : F) : Option F → Bool
  | none => false
  | some last => ltb last timeLimit

/-- leapfrog.rs 103-124 `set_time_limit`.  `evolution` is `consider_effects.evolution`;
`lastAges` lists, for each evolver, `none` if it is `NonEvolving` and the last tabulated time
otherwise (a table is never empty for an evolving body, see `Model/Evolver`).
`none`: one of the two panics. -/
def setTimeLimit (evolution : Bool) (lastAges : List (Option F)) (s : State F U) (timeLimit : F) :
    Option (State F U) :=
  if ltb (lit 0) timeLimit && !eqb s.timeLimit timeLimit then
    if ltb s.timeLimit timeLimit && evolution then
      if lastAges.any (tableEndsBefore timeLimit) then none
      else some { s with timeLimit := timeLimit }
    else if ltb timeLimit s.timeLimit then
      if ltb timeLimit s.currentTime then none
      else some { s with timeLimit := timeLimit }
    else some { s with timeLimit := timeLimit }
  else some s

/-- output.rs 191-198: what `restore_snapshot` does after deserializing: a snapshot of time zero is
(re)initialized. -/
def afterRestore (p : Physics F U) (s : State F U) : Option (State F U) :=
  if eqb s.currentTime (lit 0) then
    match p.init s.univ with
    | none => none
    | some u => some { s with univ := u }
  else some s

end Posidonius.Driver
