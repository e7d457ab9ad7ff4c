import Verif.Model.DpbScript

/-
Model of the script that summarises streams (tools/h264nal-conformance.py).  It runs the tool on each file, reads what it wrote
with regular expressions, and gives one row per file.

Simplifications: what the tool writes to `stderr` is an argument.  A tool that cannot be run or takes too long, the names of the file
and its directory, the quoting of the CSV file and the messages on `stderr` are not modelled.  The text of the tool is ASCII, so that
`\w`, `\d` and `strip` are taken in that range, and `splitlines` splits at line feeds.
-/

namespace H264.Summary
open H264.Script

/-- `\w` -/
def isWord (c : Char) : Bool := c.isAlphanum || c == '_'

/-- What follows each match of `\blit` in a text, in order; `lit` begins with a word character, `prev` says whether the character before
the text is one (h264nal-conformance.py:123, 159, 179). -/
def afters (lit : List Char) : Bool → List Char → List (List Char)
  | _, [] => []
  | prev, c :: t => (if !prev && lit.isPrefixOf (c :: t) then [(c :: t).drop lit.length] else []) ++ afters lit (isWord c) t

/-- `(\d+)` at the front of a text, as a number. -/
def natAt (t : List Char) : Option Nat := if (t.takeWhile isDec).isEmpty then none else some (number 10 (t.takeWhile isDec))

/-- `(-?\d+)` at the front of a text, and `int` of it. -/
def intAt : List Char → Option Int
  | '-' :: t => (natAt t).map fun v => -(v : Int)
  | t => (natAt t).map fun v => (v : Int)

/-- `get_int_field` (h264nal-conformance.py:122-124). -/
def getInt (t : List Char) (name : String) : Option Int := (afters (name.toList ++ ": ".toList) false t).findSome? intAt

/-- `HIGH_PROFILE_IDCS` (h264nal-conformance.py:58) -/
def highProfileIdcs : List Int := [44, 100, 110, 122, 244]

/-- `format_level` (h264nal-conformance.py:127-136). -/
def formatLevel (profile_idc level_idc constraint_set3_flag : Option Int) : Option (List Char) :=
  match level_idc with
  | none => none
  | some l =>
    let plain := (toString (l / 10) ++ "." ++ toString (l % 10)).toList
    if (∃ p ∈ highProfileIdcs, profile_idc = some p) then (if l = 9 then some "1b".toList else some plain)
    else if l = 11 ∧ constraint_set3_flag = some 1 then some "1b".toList
    else some plain

/-- `(.+?)stop` at the front of a line: the group. -/
def lazyUpTo (stop : List Char) : List Char → Option (List Char)
  | [] => none
  | c :: t => if stop.isPrefixOf t then some [c] else (lazyUpTo stop t).map (c :: ·)

/-- `strip()` -/
def strip (t : List Char) : List Char := ((t.dropWhile (· == ' ')).reverse.dropWhile (· == ' ')).reverse

/-- h264nal-conformance.py:159-160. -/
def getProfile (t : List Char) : Option (List Char) :=
  ((afters "profile: ".toList false t).findSome? (lazyUpTo " level_idc:".toList)).map strip

/-- `add_unique` (h264nal-conformance.py:171-173). -/
def addUnique (vs : List (List Char)) : Option (List Char) → List (List Char)
  | none => vs
  | some v => if v ∈ vs then vs else vs ++ [v]

/-- `t.count(lit)`, where no two matches overlap (the strings searched for do not overlap with themselves). -/
def count (lit : List Char) : List Char → Nat
  | [] => 0
  | c :: t => (if lit.isPrefixOf (c :: t) then 1 else 0) + count lit t

/-- `t.splitlines()`: the first line, and the others. -/
def linesGo : List Char → List Char × List (List Char)
  | [] => ([], [])
  | c :: t =>
    let r := linesGo t
    if c = '\n' then ([], r.1 :: r.2) else (c :: r.1, r.2)
/-- `t.splitlines()`: there is no line after the last line feed. -/
def splitLines (t : List Char) : List (List Char) :=
  let r := linesGo t
  let l := r.1 :: r.2
  if l.getLast? = some [] then l.dropLast else l

/-- The loop of `parse_sps_lines` (h264nal-conformance.py:149-166) for one line. -/
def spsLine (acc : List (List Char) × List (List Char) × List (List Char)) (line : List Char) :
    List (List Char) × List (List Char) × List (List Char) :=
  if count "sps_data {".toList line = 0 then acc
  else
    let profile_idc := getInt line "profile_idc"
    let level_idc := getInt line "level_idc"
    let constraint_set3_flag := getInt line "constraint_set3_flag"
    let resolution := match getInt line "width", getInt line "height" with
      | some w, some h => some (toString w ++ "x" ++ toString h).toList
      | _, _ => none
    (addUnique acc.1 resolution, addUnique acc.2.1 (getProfile line),
      addUnique acc.2.2 (formatLevel profile_idc level_idc constraint_set3_flag))

/-- `parse_sps_lines` (h264nal-conformance.py:139-168). -/
def parseSpsLines (stdout : List Char) : List (List Char) × List (List Char) × List (List Char) :=
  (splitLines stdout).foldl spsLine ([], [], [])

/-- `(?:1|5|20)\b` at the front of a text: the word there is one of these. -/
def sliceTypeAt (t : List Char) : Bool :=
  decide (t.takeWhile isWord = "1".toList ∨ t.takeWhile isWord = "5".toList ∨ t.takeWhile isWord = "20".toList)

/-- `count_slice_nalus` (h264nal-conformance.py:176-179). -/
def countSliceNalus (stdout : List Char) : Nat := (afters "nal_unit_type: ".toList false stdout).countP sliceTypeAt

/-- `count_slice_headers` (h264nal-conformance.py:182-184). -/
def countSliceHeaders (stdout : List Char) : Nat :=
  count "slice_header {".toList stdout + count "slice_header_in_scalable_extension {".toList stdout

/-- `get_slice_header_status` (h264nal-conformance.py:187-199). -/
def sliceHeaderStatus (slice_nalus slice_headers : Nat) : List Char :=
  if slice_headers = slice_nalus then "0".toList
  else ("unparsed slice headers: " ++ toString slice_headers ++ "/" ++ toString slice_nalus).toList

/-- How often each message occurs, in the order of their first occurrence (`collections.Counter`). -/
def counts : List (List Char) → List (List Char × Nat) → List (List Char × Nat)
  | [], acc => acc
  | m :: ms, acc =>
    counts ms (if acc.any (·.1 == m) then acc.map (fun x => if x.1 = m then (m, x.2 + 1) else x) else acc ++ [(m, 1)])

/-- `"; ".join` -/
def joinStatus : List (List Char) → List Char
  | [] => []
  | [p] => p
  | p :: q :: r => p ++ (';' :: ' ' :: joinStatus (q :: r))

/-- `summarize_errors` (h264nal-conformance.py:105-119). -/
def summarizeErrors (stderr : List Char) : List Char :=
  let messages := ((splitLines stderr).map strip).filter (· ≠ [])
  if messages = [] then "0".toList
  else joinStatus ((counts messages []).map fun (m, k) => if k = 1 then m else m ++ (" (x" ++ toString k ++ ")").toList)

/-- The status of a run (h264nal-conformance.py:97-102). -/
def runStatus (code : Int) (stderr : List Char) : List Char :=
  let status := summarizeErrors stderr
  if code ≠ 0 then
    let rc := if code = 1 then "h264nal: invalid bitstream".toList
      else if code = 2 then "h264nal: unimplemented syntax".toList
      else ("h264nal exited with " ++ toString code).toList
    if status = "0".toList then rc else rc ++ (';' :: ' ' :: status)
  else status

/-- A row of the table (h264nal-conformance.py:21-32), without the names. -/
structure Row where
  resolution : List Char
  profile : List Char
  level : List Char
  number_of_nalus : Nat
  number_of_slice_nalus : Nat
  number_of_slice_header_nalus : Nat
  h264nal_status : List Char
  slice_header_status : List Char
  deriving DecidableEq, Repr

/-- The options given to the tool (h264nal-conformance.py:80-86). -/
def summaryArgs : ToolArgs := { as_one_line := true, add_resolution := true }

/-- `analyze_file` (h264nal-conformance.py:202-226) for the text and the exit status of the tool. -/
def analyzeText (stdout : List Char) (code : Int) (stderr : List Char) : Row :=
  let r := parseSpsLines stdout
  let slice_nalus := countSliceNalus stdout
  let slice_headers := countSliceHeaders stdout
  { resolution := Dpb.joinSemi r.1, profile := Dpb.joinSemi r.2.1, level := Dpb.joinSemi r.2.2
    number_of_nalus := count "nal_unit {".toList stdout
    number_of_slice_nalus := slice_nalus
    number_of_slice_header_nalus := slice_headers
    h264nal_status := runStatus code stderr
    slice_header_status := sliceHeaderStatus slice_nalus slice_headers }

/-- `analyze_file` for an input file with the bytes `data`. -/
def analyze (nd : Bool) (data : List UInt8) (stderr : List Char) : Res Row := do
  let (out, code) ← toolMain nd summaryArgs data
  pure (analyzeText out code stderr)

end H264.Summary
