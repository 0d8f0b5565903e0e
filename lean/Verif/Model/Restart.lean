import Verif.Model.Basic

/-
Model of the breakpoint files on disk and of the time loop that writes them
(InputOutput.c:124-139, 666-670, 848; Main_DOODZ.c:126-130, 408-435, 1204-1214).

The disk maps file names to files.  A file is described by the step whose state it holds and by
whether it has been written completely: its contents proper are the subject of
`Verif.Model.Breakpoint`.  A crash may happen between any two elementary actions; what has been
written before is on disk (no loss of operating-system buffers), an interrupted `fwrite` sequence
leaves an incomplete file, and the shell's `mv` is a single rename.
-/
namespace Verif.Run

/-- `Breakpoint%05d.dat` with its number, or `BreakpointXXXXX.dat` (InputOutput.c:666-668). -/
inductive Name
  | numbered (step : Nat) | fixed
  deriving DecidableEq

/-- What is in a file: the state of step `step`, completely or not. -/
structure File where
  step : Nat
  complete : Bool
  deriving DecidableEq

abbrev Disk := Name → Option File

/-- Elementary actions on the disk. -/
inductive Act
  /-- `system("mv a b")`, InputOutput.c:128-131. -/
  | mv (a b : Name)
  /-- `fopen(name, "wb")` truncates, InputOutput.c:670. -/
  | openW (n : Name) (step : Nat)
  /-- one `fwrite`, InputOutput.c:677-845. -/
  | more (n : Name)
  /-- `fclose`, InputOutput.c:847. -/
  | close (n : Name)
  deriving DecidableEq

/-- Effect of an action. Renaming a missing file fails and changes nothing. -/
def Act.run (d : Disk) : Act → Disk
  | .mv a b => match d a with
    | none => d
    | some f => fun n => if n = b then some f else if n = a then none else d n
  | .openW m step => fun n => if n = m then some ⟨step, false⟩ else d n
  | .more _ => d
  | .close m => fun n => if n = m then (d n).map fun f => { f with complete := true } else d n

/-- A sequence of actions. -/
def runActs (d : Disk) (l : List Act) : Disk := l.foldl Act.run d

/-- `DeletePreviousBreakpoint(step, writer_step)` (InputOutput.c:124-139); `int` arithmetic. -/
def deletePrevious (step w : Nat) : List Act :=
  if (step : Int) - 2 * w > 1 then [.mv (.numbered (step - 2 * w)) (.numbered step)] else []

/-- Name of the file (InputOutput.c:667-668; the same choice in the loader, 158-159). -/
def fileName (mode : Int) (step : Nat) : Name := if mode = -1 then .fixed else .numbered step

/-- The disk actions of one output step (Main_DOODZ.c:1212-1213); `mode` is `delete_breakpoints`,
`nw` the number of `fwrite` calls. -/
def outputActs (mode : Int) (w nw step : Nat) : List Act :=
  (if mode = 1 then deletePrevious step w else []) ++
    (.openW (fileName mode step) step :: List.replicate nw (.more (fileName mode step)) ++
      [.close (fileName mode step)])

/-- The disk actions of the steps `first+1, ..., Nt` of the time loop (Main_DOODZ.c:426-435, 1204). -/
def acts (mode : Int) (w nw first Nt : Nat) : List Act :=
  (List.range' (first + 1) (Nt - first)).flatMap fun s =>
    if s % w = 0 then outputActs mode w nw s else []

variable {σ : Type*}

/-- The time loop (Main_DOODZ.c:426-435): `step += 1; for (; step <= Nt; step++) body`, with the
list of the steps executed. -/
def loop (f : Nat → σ → σ) (Nt : Nat) (step : Nat) (s : σ) : σ × List Nat :=
  (List.range' (step + 1) (Nt - step)).foldl (fun p k => (f k p.1, p.2 ++ [k])) (s, [])

/-- The restart parameters after `ReadInputFile` (InputOutput.c:1029-1031). -/
def effectiveRestart (irestart istep : Int) : Int := if istep = 0 then 0 else irestart

/-- `RunMDOODZ` from the restart decision on (Main_DOODZ.c:126-130, 408-435): a fresh start runs
from step 0 on the initial state, otherwise the breakpoint of `istep` is loaded. -/
def runMain (f : Nat → σ → σ) (Nt : Nat) (irestart : Int) (istep : Nat) (init : σ)
    (loaded : Nat → σ) : σ × List Nat :=
  if effectiveRestart irestart istep = 0 then loop f Nt 0 init else loop f Nt istep (loaded istep)

end Verif.Run
