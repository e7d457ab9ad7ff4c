import Verif.Model.Tool

/-
Model of the script that splits a stream at resolution changes (tools/h264nal-split.py).  It runs the tool, reads what it wrote
with regular expressions, and writes slices of the input file.

Simplifications: the file is the same when the tool and the script read it; the messages on `stderr`, the command line of the
script and failures of the file system are not modelled.  `\d` also stands for digits outside ASCII in Python, which the tool
never writes.
-/

namespace H264.Script

/-- What `re.search` does with a literal followed by a group `([class]+)`, at one position: the group. -/
def matchAt (lit : List Char) (cls : Char → Bool) (t : List Char) : Option (List Char) :=
  if lit.isPrefixOf t then
    let g := (t.drop lit.length).takeWhile cls
    if g.isEmpty then none else some g
  else none

/-- `re.search(r"lit([class]+)", t)` (h264nal-split.py:55-68): the group of the first match. -/
def search (lit : List Char) (cls : Char → Bool) : List Char → Option (List Char)
  | [] => matchAt lit cls []
  | c :: t =>
    match matchAt lit cls (c :: t) with
    | some g => some g
    | none => search lit cls t

/-- `\d` -/
def isDec (c : Char) : Bool := '0' ≤ c && c ≤ '9'
/-- `[0-9a-f]` -/
def isHex (c : Char) : Bool := isDec c || ('a' ≤ c && c ≤ 'f')

/-- The value of a digit. -/
def digit (c : Char) : Nat := if isDec c then c.toNat - 48 else c.toNat - 87
/-- `int(g, base)` of a group of digits (h264nal-split.py:57, 61, 65, 70-71). -/
def number (base : Nat) (g : List Char) : Nat := g.foldl (fun v c => base * v + digit c) 0

/-- `re.split(r"^lit", t, flags=re.MULTILINE)` (h264nal-split.py:49): `skip` characters of a match are still to be dropped, `bol` says
whether the position is the beginning of a line.  The first piece, and the others. -/
def splitGo (lit : List Char) : Nat → Bool → List Char → List Char × List (List Char)
  | _, _, [] => ([], [])
  | k + 1, _, c :: t => splitGo lit k (c == '\n') t
  | 0, bol, c :: t =>
    if bol && lit.isPrefixOf (c :: t) then
      let r := splitGo lit (lit.length - 1) (c == '\n') t
      ([], r.1 :: r.2)
    else
      let r := splitGo lit 0 (c == '\n') t
      (c :: r.1, r.2)

/-- The dictionary of a NAL unit (h264nal-split.py:53-73): a key that is missing is `none`. -/
structure Nal where
  offset : Option Nat
  length : Option Nat
  nal_unit_type : Option Nat
  /-- `width` and `height` are set together. -/
  resolution : Option (Nat × Nat)
  deriving DecidableEq, Repr

/-- h264nal-split.py:67-71. -/
def readResolution (t : List Char) : Option (Nat × Nat) :=
  match search "width: ".toList isDec t, search "height: ".toList isDec t with
  | some w, some h => some (number 10 w, number 10 h)
  | _, _ => none

/-- h264nal-split.py:52-73: one piece of the text. -/
def readNal (t : List Char) : Nal where
  offset := (search "offset: 0x".toList isHex t).map (number 16)
  length := (search "length: ".toList isDec t).map (number 10)
  nal_unit_type := (search "nal_unit_type: ".toList isDec t).map (number 10)
  resolution := readResolution t

/-- `parse_nal_units` (h264nal-split.py:43-75). -/
def parseNalUnits (content : List Char) : List Nal := (splitGo "nal_unit {".toList 0 true content).2.map readNal

/-- `data[a:b]` -/
def slice (data : List UInt8) (a b : Nat) : List UInt8 := (data.drop a).take (b - a)

/-- `find_start_code_offset` (h264nal-split.py:78-95). -/
def findStartCodeOffset (data : List UInt8) (p : Nat) : Nat :=
  if p ≥ 4 ∧ slice data (p - 4) p = [0, 0, 0, 1] then p - 4
  else if p ≥ 3 ∧ slice data (p - 3) p = [0, 0, 1] then p - 3
  else p

/-- The loop of `find_split_points` (h264nal-split.py:105-131); `cur` is `current_resolution`.  `none` is an uncaught `KeyError`
(115). -/
def splitPoints (data : List UInt8) : Option (Nat × Nat) → List Nal → Option (List Nat)
  | _, [] => some []
  | cur, n :: ns =>
    if n.nal_unit_type ≠ some 7 then splitPoints data cur ns
    else
      match n.resolution with
      | none => splitPoints data cur ns
      | some r =>
        if cur ≠ none ∧ some r ≠ cur then
          match n.offset with
          | none => none
          | some p => (splitPoints data (some r) ns).map (findStartCodeOffset data p :: ·)
        else splitPoints data (some r) ns

/-- The slices of `split_file` (h264nal-split.py:137-145): between consecutive boundaries. -/
def slices (data : List UInt8) : List Nat → List (List UInt8)
  | a :: b :: r => slice data a b :: slices data (b :: r)
  | _ => []

/-- `split_file` (h264nal-split.py:134-154), without the names of the files. -/
def splitFile (data : List UInt8) (points : List Nat) : List (List UInt8) := slices data ([0] ++ points ++ [data.length])

/-- The last `.` of a path: what is before it, and what starts with it. -/
def lastDot : List Char → Option (List Char × List Char)
  | [] => none
  | c :: t =>
    match lastDot t with
    | some (a, b) => some (c :: a, b)
    | none => if c = '.' then some ([], c :: t) else none

/-- `os.path.splitext` (h264nal-split.py:136) for POSIX: the extension begins at the last dot of the last component, if there is
something other than dots before it there. -/
def splitext (path : List Char) : List Char × List Char :=
  match lastDot path with
  | none => (path, [])
  | some (a, b) =>
    if '/' ∈ b ∨ (a.reverse.takeWhile (· ≠ '/')).all (· = '.') then (path, []) else (a, b)

/-- `f"{base}.{i + 1:02d}{ext}"` (h264nal-split.py:143). -/
def pieceName (path : List Char) (i : Nat) : List Char :=
  let d := Nat.toDigits 10 (i + 1)
  (splitext path).1 ++ ('.' :: (List.replicate (2 - d.length) '0' ++ d)) ++ (splitext path).2

/-- The options given to the tool (h264nal-split.py:24-36). -/
def toolArgs : ToolArgs :=
  { as_one_line := false, add_offset := true, add_length := true, add_resolution := true }

/-- What a run of the script ends with. -/
inductive Outcome where
  /-- `h264nal failed` (h264nal-split.py:37-39), exit status 1: nothing is written. -/
  | failed
  /-- An uncaught exception. -/
  | keyError
  /-- `No resolution changes detected` (215-220): nothing is written. -/
  | unchanged
  /-- The files written, in order. -/
  | files (pieces : List (List UInt8))
  deriving DecidableEq, Repr

/-- h264nal-split.py:200-228: what is done with the text the tool wrote. -/
def splitWith (data : List UInt8) (out : List Char) : Outcome :=
  match splitPoints data none (parseNalUnits out) with
  | none => .keyError
  | some [] => .unchanged
  | some (p :: ps) => .files (splitFile data (p :: ps))

/-- `main` (h264nal-split.py:182-228) for an input file with the bytes `data`. -/
def main (nd : Bool) (data : List UInt8) : Res Outcome := do
  let (out, code) ← toolMain nd toolArgs data
  if code ≠ 0 then pure .failed
  else pure (splitWith data out)

end H264.Script
