import Verif.Model.Driver

/-!
# Process, files, crashes and resumes

A transition system for `posidonius start` / `resume` (/repo/src/main.rs 123-176) together with
the files it writes.  A crash may happen between any two steps.
-/

namespace Posidonius.Disk

open Posidonius.Output Posidonius.Driver

/-- Content of a recovery file: a completely written snapshot of a state, or anything else (created
but not, or not completely, written).  A complete file deserializes to the state written: see C18
for the JSON format; a partial one makes `restore_snapshot` panic (output.rs 187, 189). -/
inductive Content (F U : Type) where
  | complete (s : State F U)
  | incomplete

/-- The files of one simulation.  `backups name` is the file to which an old recovery snapshot is
renamed; the name is derived from the date and AM/PM (output.rs 39), here a number supplied by the
environment.  -/
structure Files (F U : Type) where
  history : Bytes
  recovery : Option (Content F U)
  backups : Nat → Option (Content F U)

/-- Program points of the process between two of its effects on the disk. -/
inductive Phase where
  /-- main.rs 158: about to call `iterate` -/
  | running
  /-- main.rs 165, 171: about to write a recovery snapshot -/
  | flushing
  /-- leapfrog.rs 225, output.rs 35: history flushed, about to rename the old snapshot -/
  | renaming
  /-- output.rs 44: about to create the new file -/
  | creating
  /-- output.rs 46-54: writing the new file -/
  | writing
deriving DecidableEq

/-- A live process: the integrator in memory, the unwritten part of the history `BufWriter`
(output.rs 86), and where it is. -/
structure Proc (F U : Type) where
  st : State F U
  buf : Bytes
  phase : Phase

structure World (F U : Type) where
  files : Files F U
  proc : Option (Proc F U)
  /-- the last process ended with "Simulation completed" (main.rs 174) -/
  finished : Bool

variable {F U : Type} [Add F] [FOps F]

/-- main.rs 139-141 and output.rs 63-89: open the history with the expected length.
`none`: the panic of line 80. -/
def openHistory (p : Physics F U) (history : Bytes) (s : State F U) : Option Bytes :=
  let expected := expectedNBytes s.nHistoric p.nParticles
  if history.length < expected then none else some (history.take expected)

/-- One step of the world.  `older = true` also allows resumes from a snapshot that is not the most
advanced complete one on disk.

Over-approximation: a recovery snapshot may be written after any iteration that returns `Ok` (main.rs
161-172 decides by the trigger or by the elapsed wall-clock time). -/
inductive Step (p : Physics F U) (older : Bool) : World F U → World F U → Prop
  /-- the `BufWriter` passes some of its bytes on to the file (at any time: it decides itself) -/
  | spill (w : World F U) (q : Proc F U) (n : Nat) (hq : w.proc = some q) :
      Step p older w { w with
        files := { w.files with history := w.files.history ++ q.buf.take n }
        proc := some { q with buf := q.buf.drop n } }
  /-- main.rs 159-172: one iteration; `wr`: a recovery snapshot will be written now -/
  | iterate (w : World F U) (q : Proc F U) (s' : State F U) (b : Option Bytes) (due wr : Bool)
      (hq : w.proc = some q) (hph : q.phase = .running)
      (hit : Driver.iterate p q.st = some (s', b, .running due)) :
      Step p older w { w with
        proc := some ⟨s', q.buf ++ b.getD [], if wr then .flushing else .running⟩ }
  /-- main.rs 174: completion; `main` returns and the dropped `BufWriter` is flushed -/
  | complete (w : World F U) (q : Proc F U) (s' : State F U) (b : Option Bytes)
      (hq : w.proc = some q) (hph : q.phase = .running)
      (hit : Driver.iterate p q.st = some (s', b, .completed)) :
      Step p older w
        { files := { w.files with history := w.files.history ++ (q.buf ++ b.getD []) }
          proc := none
          finished := true }
  /-- leapfrog.rs 217-224: stamp the state and flush the history -/
  | flush (w : World F U) (q : Proc F U) (hq : w.proc = some q) (hph : q.phase = .flushing) :
      Step p older w { w with
        files := { w.files with history := w.files.history ++ q.buf }
        proc := some ⟨stampRecovery p q.st, [], .renaming⟩ }
  /-- output.rs 35-41: rename the existing file (replacing any file of that name) -/
  | rename (w : World F U) (q : Proc F U) (c : Content F U) (name : Nat)
      (hq : w.proc = some q) (hph : q.phase = .renaming) (hc : w.files.recovery = some c) :
      Step p older w { w with
        files := { w.files with
          recovery := none
          backups := fun m => if m = name then some c else w.files.backups m }
        proc := some { q with phase := .creating } }
  /-- output.rs 35: no old file -/
  | noRename (w : World F U) (q : Proc F U)
      (hq : w.proc = some q) (hph : q.phase = .renaming) (hc : w.files.recovery = none) :
      Step p older w { w with proc := some { q with phase := .creating } }
  /-- output.rs 44: `File::create` -/
  | create (w : World F U) (q : Proc F U) (hq : w.proc = some q) (hph : q.phase = .creating) :
      Step p older w { w with
        files := { w.files with recovery := some .incomplete }
        proc := some { q with phase := .writing } }
  /-- output.rs 46-54: all bytes written; back in the main loop -/
  | written (w : World F U) (q : Proc F U) (hq : w.proc = some q) (hph : q.phase = .writing) :
      Step p older w { w with
        files := { w.files with recovery := some (.complete q.st) }
        proc := some { q with phase := .running } }
  /-- the process dies, anywhere (kill, panic, execution limit after the snapshot: main.rs 167);
  unspilled bytes of the history are lost -/
  | crash (w : World F U) (q : Proc F U) (hq : w.proc = some q) :
      Step p older w { w with proc := none }
  /-- the user copies a backup to the recovery path -/
  | restoreBackup (w : World F U) (c : Content F U) (name : Nat) (hq : w.proc = none)
      (hc : w.files.backups name = some c) :
      Step p older w { w with files := { w.files with recovery := some c } }
  /-- `posidonius resume` (main.rs 104-150) with an optional new recovery period `rp`; `np` and `nl`
  are the "unchanged" values (-1) of the other two options -/
  | resume (w : World F U) (s s' : State F U) (np rp nl : F) (evo : Bool) (ages : List (Option F))
      (s'' : State F U) (history' : Bytes)
      (hq : w.proc = none) (hc : w.files.recovery = some (.complete s))
      (hnp : ltb (lit 0) np = false) (hnl : ltb (lit 0) nl = false)
      (hs' : afterRestore p s = some s')
      (hs'' : setTimeLimit evo ages (setSnapshotPeriods s' np rp) nl = some s'')
      (hopen : openHistory p w.files.history s'' = some history')
      (holder : older = true ∨ ∀ name t, w.files.backups name = some (.complete t) →
        t.nHistoric ≤ s.nHistoric) :
      Step p older w
        { files := { w.files with history := history' }
          proc := some ⟨s'', [], .running⟩
          finished := false }

/-- A fresh start (main.rs 93-150): no files yet; `s0` is the restored and initialized case. -/
def start (s0 : State F U) : World F U where
  files := ⟨[], none, fun _ => none⟩
  proc := some ⟨s0, [], .running⟩
  finished := false

/-- Reachable worlds: any number of steps, crashes and resumes. -/
inductive Reachable (p : Physics F U) (older : Bool) (s0 : State F U) : World F U → Prop
  | start : Reachable p older s0 (start s0)
  | step {w w' : World F U} : Reachable p older s0 w → Step p older w w' →
      Reachable p older s0 w'

end Posidonius.Disk
