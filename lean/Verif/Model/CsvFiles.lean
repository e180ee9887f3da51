import Verif.Model.Basic

/-!
# Writing CSV files

Models `write_csv` of /repo/src/auv_nav/tools/csv_tools.py at the level of file operations,
the threads of /repo/src/auv_nav/process.py that run it, and the folder creation they share.
Text is a list of characters.  Console output is left out.
-/

namespace Oplab

abbrev Text := List Char

/-- Operations on a named file: `open("w")`, `open("a")`, `write`, `close`. -/
inductive FOp (F : Type) where
  | openW (f : F)
  | openA (f : F)
  | write (f : F) (s : Text)
  | close (f : F)

/-- The file an operation acts on. (/repo/src/auv_nav/tools/csv_tools.py L65-91) -/
def FOp.file {F : Type} : FOp F → F
  | .openW f => f
  | .openA f => f
  | .write f _ => f
  | .close f => f

/-- A file: its content on disk, if it exists, and the text written to it that is still
buffered. -/
structure FileSt where
  disk : Option Text
  buf : Text
  deriving DecidableEq

/-- Effect of an operation on the file it names. (csv_tools.py L65-91) -/
def FileSt.apply {F : Type} (s : FileSt) : FOp F → FileSt
  | .openW _ => ⟨some [], []⟩
  | .openA _ => ⟨some (s.disk.getD []), []⟩
  | .write _ t => ⟨s.disk, s.buf ++ t⟩
  | .close _ => ⟨s.disk.map (· ++ s.buf), []⟩

/-- A file system: a state for every name. -/
abbrev Files (F : Type) := F → FileSt

/-- One operation. (csv_tools.py L65-91) -/
def Files.step {F : Type} [DecidableEq F] (fs : Files F) (op : FOp F) : Files F :=
  fun f => if f = op.file then (fs f).apply op else fs f

/-- A sequence of operations. (csv_tools.py L65-91) -/
def Files.run {F : Type} [DecidableEq F] (fs : Files F) (ops : List (FOp F)) : Files F :=
  ops.foldl Files.step fs

/-- csv_tools.py L85-91: open for append, write a line, close. -/
def appendOps {F : Type} (f : F) (s : Text) : List (FOp F) := [.openA f, .write f s, .close f]

/-- csv_tools.py L65-77: open for writing, write the header, close. -/
def createOps {F : Type} (f : F) (s : Text) : List (FOp F) := [.openW f, .write f s, .close f]

/-- csv_tools.py L92-98: `IndexError` becomes `Console.quit`, anything else propagates. -/
def csvErr : Err → Err
  | .indexError => .quit
  | e => e

/-- csv_tools.py L80-98: the loop over the records.  A record is the pair of the results of
`to_csv_row` and `to_csv_cov_row`; with `cov = none` no covariance is written.  Both texts
are made before anything is written. -/
def rowOps {F : Type} (main : F) (cov : Option F) :
    List (Res Text × Res Text) → List (FOp F) × Res Unit
  | [] => ([], .ok ())
  | (r, c) :: rest =>
    match r with
    | .error e => ([], .error (csvErr e))
    | .ok s =>
      match cov with
      | none =>
        let t := rowOps main cov rest
        (appendOps main s ++ t.1, t.2)
      | some cf =>
        match c with
        | .error e => ([], .error (csvErr e))
        | .ok sc =>
          let t := rowOps main cov rest
          (appendOps cf sc ++ appendOps main s ++ t.1, t.2)

/-- csv_tools.py L31-103 `write_csv` after the folder exists: the file operations and how
the call ends.  `cov` is the covariance file with its header, if the first record has a
covariance (L70-77).  Lists of fewer than two records are not written (L48). -/
def writeCsv {F : Type} (flag : Bool) (main : F) (header : Text) (cov : Option (F × Text))
    (rows : List (Res Text × Res Text)) : List (FOp F) × Res Unit :=
  if flag && decide (1 < rows.length) then
    let t := rowOps main (cov.map (·.1)) rows
    (createOps main header ++ (match cov with | none => [] | some c => createOps c.1 c.2) ++ t.1, t.2)
  else ([], .ok ())

/-- sensors.py L2042-2052 `Camera.to_csv_cov_row`: 36 entries, already as text; nothing at
all without a covariance. -/
def covRow (filename : Text) (cov : Option (List Text)) : Text :=
  match cov with
  | none => []
  | some es => filename ++ es.flatMap (fun e => ',' :: e) ++ ['\n']

/-! ### Threads -/

/-- `Interleave ts l`: `l` is one way to run the threads `ts` (lists of atomic steps)
concurrently to completion. -/
inductive Interleave {α : Type} : List (List α) → List α → Prop where
  | done {ts : List (List α)} : (∀ t ∈ ts, t = []) → Interleave ts []
  | step {ts : List (List α)} {i : Nat} {a : α} {r l : List α} :
      ts[i]? = some (a :: r) → Interleave (ts.set i r) l → Interleave ts (a :: l)

/-- Where a writer thread is in csv_tools.py L51-58. -/
inductive DirPc where
  /-- L51: about to ask whether the folder exists. -/
  | start
  /-- L53: about to take the mutex. -/
  | acquire
  /-- L54: about to make the folder (`locked`: with the mutex held). -/
  | mkdir (locked : Bool)
  /-- L56: about to release the mutex. -/
  | release
  /-- L58 onwards: writing into the folder. -/
  | writing
  deriving DecidableEq

/-- Folder, mutex and writer threads; `withMutex i` tells whether thread `i` was given the
mutex (process.py L595-638 gives it, L1744-2095 does not). -/
structure DirSt where
  exist : Bool
  owner : Option Nat
  pcs : List DirPc

/-- A step of thread `i`.  `mkdir(parents=True, exist_ok=True)` succeeds whether or not the
folder is there. -/
inductive DirStep (withMutex : Nat → Bool) : DirSt → DirSt → Prop where
  | skip {s i} : s.pcs[i]? = some .start → s.exist = true →
      DirStep withMutex s { s with pcs := s.pcs.set i .writing }
  | lock {s i} : s.pcs[i]? = some .start → s.exist = false → withMutex i = true →
      DirStep withMutex s { s with pcs := s.pcs.set i .acquire }
  | nolock {s i} : s.pcs[i]? = some .start → s.exist = false → withMutex i = false →
      DirStep withMutex s { s with pcs := s.pcs.set i (.mkdir false) }
  | acquire {s i} : s.pcs[i]? = some .acquire → s.owner = none →
      DirStep withMutex s { s with owner := some i, pcs := s.pcs.set i (.mkdir true) }
  | mkLocked {s i} : s.pcs[i]? = some (.mkdir true) →
      DirStep withMutex s { s with exist := true, pcs := s.pcs.set i .release }
  | mk {s i} : s.pcs[i]? = some (.mkdir false) →
      DirStep withMutex s { s with exist := true, pcs := s.pcs.set i .writing }
  | release {s i} : s.pcs[i]? = some .release →
      DirStep withMutex s { s with owner := none, pcs := s.pcs.set i .writing }

/-- Any number of steps. -/
inductive DirRun (withMutex : Nat → Bool) : DirSt → DirSt → Prop where
  | refl {s} : DirRun withMutex s s
  | tail {s t u} : DirRun withMutex s t → DirStep withMutex t u → DirRun withMutex s u

/-- Steps on the shared list of camera poses: a writer thread turns record `i` into a row
(csv_tools.py L82-91); the main thread makes pose `i` relative to the next one
(process.py L2042-2048). -/
inductive PoseOp where
  | emit (i : Nat)
  | rel (i : Nat)

/-- Effect on the poses and the rows written so far. (csv_tools.py L80-91, process.py L2041-2049) -/
def poseStep {K : Type} [Sub K] (s : List K × List K) : PoseOp → List K × List K
  | .emit i => match s.1[i]? with
    | some p => (s.1, s.2 ++ [p])
    | none => s
  | .rel i => match s.1[i]?, s.1[i + 1]? with
    | some p, some q => (s.1.set i (p - q), s.2)
    | _, _ => s

/-- process.py L1851-1862 (writer of the first camera's file) and L2041-2049 (conversion for
SLAM++) for `n` poses. -/
def poseThreads (n : Nat) : List (List PoseOp) :=
  [(List.range n).map .emit, (List.range (n - 1)).map .rel]

end Oplab
