import Verif.Model.Disk

/-!
# The command line program: options, start-up and main loop (/repo/src/main.rs)
-/

namespace Posidonius.Main

open Posidonius.Output Posidonius.Driver Posidonius.Disk

/-! ## Command line options (clap) -/

/-- A value stored by clap: it has the type of the `value_parser!` the argument was declared with. -/
inductive ArgVal (F : Type) where
  | u64 (n : Nat)
  | f64 (x : F)

/-- How a run of the argument handling may end early. -/
inductive Stop where
  /-- clap rejects the command line (exit status 2) -/
  | usage
  /-- a Rust panic -/
  | panic
deriving DecidableEq, Repr

variable {F U : Type}

/-- clap's parsing of one optional argument declared with `value_parser!(u64)`.
`parse` is `str::parse::<u64>`. -/
def parseU64Arg (parse : String → Option Nat) : Option String → Except Stop (Option (ArgVal F))
  | none => .ok none
  | some s => match parse s with
    | none => .error .usage
    | some n => .ok (some (.u64 n))

/-- The same for `value_parser!(f64)`. -/
def parseF64Arg (parse : String → Option F) : Option String → Except Stop (Option (ArgVal F))
  | none => .ok none
  | some s => match parse s with
    | none => .error .usage
    | some x => .ok (some (.f64 x))

/-- clap 4 `ArgMatches::get_one::<u64>`: panics if the stored type is another one. -/
def getOneU64 : Option (ArgVal F) → Except Stop (Option Nat)
  | none => .ok none
  | some (.u64 n) => .ok (some n)
  | some (.f64 _) => .error .panic

/-- clap 4 `ArgMatches::get_one::<f64>`: panics if the stored type is another one. -/
def getOneF64 : Option (ArgVal F) → Except Stop (Option F)
  | none => .ok none
  | some (.f64 x) => .ok (some x)
  | some (.u64 _) => .error .panic

/-- The optional arguments of `resume` as typed by the user. -/
structure ResumeLine where
  limit : Option String
  historicPeriod : Option String
  recoveryPeriod : Option String
  timeLimit : Option String

/-- The values main.rs works with. -/
structure Options (F : Type) where
  executionLimit : Nat
  historicPeriod : F
  recoveryPeriod : F
  timeLimit : F

/-- main.rs 40-76 (declarations) and 111-114 (accesses) for `resume`: `limit` is declared and read as
u64, the two periods are declared and read as f64, `change_time_limit` is declared as u64 (line 75)
and read as f64 (line 113).  clap parses the whole line before any access. -/
def resumeOptions [Neg F] [FOps F] (parseU : String → Option Nat) (parseF : String → Option F)
    (l : ResumeLine) : Except Stop (Options F) := do
  let limit ← parseU64Arg (F := F) parseU l.limit
  let hist ← parseF64Arg parseF l.historicPeriod
  let rec_ ← parseF64Arg parseF l.recoveryPeriod
  let tl ← parseU64Arg (F := F) parseU l.timeLimit
  let h ← getOneF64 hist
  let r ← getOneF64 rec_
  let t ← getOneF64 tl
  let e ← getOneU64 limit
  return {
    executionLimit := e.getD 0
    historicPeriod := h.getD (-(lit 1))
    recoveryPeriod := r.getD (-(lit 1))
    timeLimit := t.getD (-(lit 1)) }

/-! ## Start-up on a file system -/

/-- Files by path. -/
abbrev FS := String → Option Bytes

/-- Write a file. -/
def FS.put (fs : FS) (path : String) (b : Bytes) : FS := fun q => if q = path then some b else fs q

variable [Add F] [FOps F]

/-- main.rs 122-150: restore the case, apply the options, refuse to overwrite, open the history.
Returns the file system afterwards and the integrator with which the loop starts; `none`: a panic
(the file system is then what the panic leaves behind).
`decode` is `deserialize_*_snapshot` (output.rs 205-279; depends on the extension of the path), an
arbitrary function here.  `evo`, `ages`: see `setTimeLimit`. -/
def setup (p : Physics F U) (decode : String → Bytes → Option (State F U)) (evo : State F U → Bool)
    (ages : State F U → List (Option F)) (resume : Bool) (casePath recoveryPath historyPath : String)
    (np rp nl : F) (fs : FS) : FS × Option (State F U) :=
  match fs casePath with
  | none => (fs, none)
  | some bytes =>
    match decode casePath bytes with
    | none => (fs, none)
    | some s =>
      match afterRestore p s with
      | none => (fs, none)
      | some s =>
        let s := setSnapshotPeriods s np rp
        match setTimeLimit (evo s) (ages s) s nl with
        | none => (fs, none)
        | some s =>
          let expected := expectedNBytes s.nHistoric p.nParticles
          if !resume && (fs recoveryPath).isSome then (fs, none)
          else if !resume && (fs historyPath).isSome then (fs, none)
          else
            -- output.rs 70-80: the file is opened with `create`, then its length is checked
            let history := (fs historyPath).getD []
            if history.length < expected then (fs.put historyPath history, none)
            else (fs.put historyPath (history.take expected), some s)

/-! ## The main loop -/

/-- What the loop has done so far: the integrator, the recovery snapshots written (oldest first), and
whether it has left the loop. -/
structure LoopState (F U : Type) where
  st : State F U
  snapshots : List (State F U)
  stopped : Bool

/-- One turn of the loop of main.rs 158-176.  `limit` is the execution time limit in seconds (0:
none), `elapsed` the time elapsed when it is looked at (an arbitrary value).  `none`: panic. -/
def loopTurn (p : Physics F U) (limit elapsed : Nat) (l : LoopState F U) : Option (LoopState F U) :=
  if l.stopped then some l
  else
    match iterate p l.st with
    | none => none
    | some (s, _, .completed) => some { l with st := s, stopped := true }
    | some (s, _, .running due) =>
      if limit ≠ 0 then
        if limit ≤ elapsed then
          let s := stampRecovery p s
          some ⟨s, l.snapshots ++ [s], true⟩
        else some { l with st := s }
      else if due then
        let s := stampRecovery p s
        some ⟨s, l.snapshots ++ [s], false⟩
      else some { l with st := s }

/-- The loop after `k` turns; `clock i` is the elapsed time read in turn `i`. -/
def mainLoop (p : Physics F U) (limit : Nat) (clock : Nat → Nat) (s0 : State F U) :
    Nat → Option (LoopState F U)
  | 0 => some ⟨s0, [], false⟩
  | k + 1 =>
    match mainLoop p limit clock s0 k with
    | none => none
    | some l => loopTurn p limit (clock k) l

end Posidonius.Main
