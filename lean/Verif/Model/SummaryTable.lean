import Verif.Model.SummaryScript

/-
Model of the rest of the script that summarises streams (tools/h264nal-conformance.py): the list of files, the names in the table, the runs that
do not end or do not start, and the text of the table.

Simplifications: the command line is read already (`timeout` and the list of paths); what is shown on `stderr` is modelled up to the numbers in
its last line.  The file system is a record of what the script asks it.  `os.path` is that of POSIX systems, `csv.DictWriter` has the dialect it
has by default.
-/

namespace H264.Summary

/-- `os.path.basename`: what follows the last `/` (h264nal-conformance.py:213, 215). -/
def basename (p : List Char) : List Char := (p.reverse.takeWhile (· ≠ '/')).reverse

/-- `os.path.dirname`: what precedes the last `/`, without the `/` at its end unless there is nothing else (h264nal-conformance.py:213). -/
def dirname (p : List Char) : List Char :=
  let head := (p.reverse.dropWhile (· ≠ '/')).reverse
  if head.all (· == '/') then head else (head.reverse.dropWhile (· == '/')).reverse

/-- `p.split("/")` -/
def components : List Char → List (List Char)
  | [] => [[]]
  | c :: r =>
    if c = '/' then [] :: components r
    else match components r with
      | w :: ws => (c :: w) :: ws
      | [] => [[c]]

/-- The loop of `os.path.normpath`. -/
def normGo (abs : Bool) : List (List Char) → List (List Char) → List (List Char)
  | acc, [] => acc
  | acc, c :: r =>
    if c = [] ∨ c = ['.'] then normGo abs acc r
    else if c ≠ ['.', '.'] ∨ (abs = false ∧ acc = []) ∨ acc.getLast? = some ['.', '.'] then normGo abs (acc ++ [c]) r
    else normGo abs acc.dropLast r

/-- `"/".join` -/
def joinSlash : List (List Char) → List Char
  | [] => []
  | [p] => p
  | p :: q :: r => p ++ ('/' :: joinSlash (q :: r))

/-- `os.path.normpath` -/
def normpath (p : List Char) : List Char :=
  let slashes := if p.take 1 = ['/'] then (if p.take 2 = ['/', '/'] ∧ p.take 3 ≠ ['/', '/', '/'] then 2 else 1) else 0
  let path := List.replicate slashes '/' ++ joinSlash (normGo (slashes ≠ 0) [] (components p))
  if path = [] then ['.'] else path

/-- `os.path.abspath` in the directory `cwd` (h264nal-conformance.py:214). -/
def abspath (cwd p : List Char) : List Char :=
  normpath (if p.take 1 = ['/'] then p else if cwd = [] ∨ cwd.getLast? = some '/' then cwd ++ p else cwd ++ ('/' :: p))

/-- What `subprocess.run` does (h264nal-conformance.py:78-95): the tool takes too long, cannot be run, or reads a file with these bytes and
writes this to `stderr`. -/
inductive Run where
  | timeout
  | osError (error : List Char)
  | ran (data : List UInt8) (stderr : List Char)

/-- What the script asks the system. -/
structure World where
  cwd : List Char
  isdir : List Char → Bool
  run : List Char → Run

/-- A row of the table (h264nal-conformance.py:21-32). -/
structure TableRow where
  input_dir : List Char
  input_file : List Char
  row : Row
  deriving DecidableEq, Repr

/-- `run_h264nal` (h264nal-conformance.py:72-102) and what `analyze_file` (202-226) makes of it. -/
def runRow (nd : Bool) (timeout : Nat) : Run → Res Row
  | .timeout => pure { analyzeText [] 0 [] with h264nal_status := ("timeout after " ++ toString timeout ++ "s").toList }
  | .osError e => pure { analyzeText [] 0 [] with h264nal_status := "could not run h264nal: ".toList ++ e }
  | .ran data stderr => analyze nd data stderr

/-- `analyze_file` (h264nal-conformance.py:202-226). -/
def analyzeFile (nd : Bool) (w : World) (timeout : Nat) (p : List Char) : Res TableRow := do
  let row ← runRow nd timeout (w.run p)
  pure { input_dir := basename (dirname (abspath w.cwd p)), input_file := basename p, row }

/-- The loop of `main` (h264nal-conformance.py:271-279). -/
def tableRows (nd : Bool) (w : World) (timeout : Nat) : List (List Char) → Res (List TableRow)
  | [] => pure []
  | p :: ps =>
    if w.isdir p then tableRows nd w timeout ps
    else do
      let r ← analyzeFile nd w timeout p
      let rs ← tableRows nd w timeout ps
      pure (r :: rs)

/-- `CSV_FIELDS` (h264nal-conformance.py:21-32) -/
def csvFields : List (List Char) :=
  ["input_dir", "input_file", "resolution", "profile", "level", "number_of_nalus", "number_of_slice_nalus", "number_of_slice_header_nalus",
    "h264nal_status", "slice_header_status"].map String.toList

/-- The values of a row in the order of the columns. -/
def rowFields (r : TableRow) : List (List Char) :=
  [r.input_dir, r.input_file, r.row.resolution, r.row.profile, r.row.level, (toString r.row.number_of_nalus).toList,
    (toString r.row.number_of_slice_nalus).toList, (toString r.row.number_of_slice_header_nalus).toList, r.row.h264nal_status,
    r.row.slice_header_status]

/-- How `csv` writes a field: in quotes if it has a comma, a quote or a line break, with its quotes doubled. -/
def csvField (f : List Char) : List Char :=
  if f.any (fun c => c == ',' || c == '"' || c == '\r' || c == '\n') then
    '"' :: (f.flatMap (fun c => if c = '"' then ['"', '"'] else [c]) ++ ['"'])
  else f

/-- The fields of a line with commas between them. -/
def csvJoin : List (List Char) → List Char
  | [] => []
  | [f] => csvField f
  | f :: g :: r => csvField f ++ (',' :: csvJoin (g :: r))

/-- `write_csv` (h264nal-conformance.py:301-304). -/
def writeCsv (rows : List TableRow) : List Char := (csvFields :: rows.map rowFields).flatMap fun fs => csvJoin fs ++ ['\r', '\n']

/-- The numbers of the last line on `stderr` (h264nal-conformance.py:287-298): files, files with issues, files silently missing headers. -/
def tally (rows : List TableRow) : Nat × Nat × Nat :=
  (rows.length, rows.countP (fun r => r.row.h264nal_status ≠ "0".toList),
    rows.countP fun r => r.row.h264nal_status = "0".toList ∧ r.row.slice_header_status ≠ "0".toList)

end H264.Summary
