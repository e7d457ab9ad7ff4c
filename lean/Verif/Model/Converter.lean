/-! # The script that makes fuzzers and seeds out of unit tests

`/repo/fuzz/converter.py`.  A line is the list of its characters with the newline.  Lines are those of a file opened by name (with `-` the
script reads bytes from the standard input and stops with a TypeError; not modelled), after Python's translation of newlines.  Not modelled:
the names of the files that are written, the command line and the debug output. -/

namespace H264.Conv

/-- Python's whitespace characters, for `str.strip` and `\s` (converter.py:125, 187, 191). -/
def isSpace (c : Char) : Bool :=
  (9 ≤ c.toNat && c.toNat ≤ 13) || (28 ≤ c.toNat && c.toNat ≤ 32) ||
    [0x85, 0xa0, 0x1680, 0x2028, 0x2029, 0x202f, 0x205f, 0x3000].contains c.toNat || (0x2000 ≤ c.toNat && c.toNat ≤ 0x200a)

/-- Python: `pat in text` (converter.py:130, 137, 143, 156). -/
def hasSub (pat : List Char) : List Char → Bool
  | [] => pat.isEmpty
  | c :: r => pat.isPrefixOf (c :: r) || hasSub pat r

/-- The variables of the loop (converter.py:115–122). -/
structure State where
  lines_include : List (List Char) := []
  lines_data : List (List (List Char)) := []
  blocks_code : List (List (List Char)) := []
  data_mode : Bool := false
  code_mode : Bool := false

/-- Python: `lists[-1].append(x)` (converter.py:148, 150); `none` is an IndexError. -/
def appendLast {α : Type} : List (List α) → α → Option (List (List α))
  | [], _ => none
  | [b], x => some [b ++ [x]]
  | b :: c :: r, x => (appendLast (c :: r) x).map (b :: ·)

/-- The end of an iteration (converter.py:147–150). -/
def store (s : State) (line : List Char) : Option State := do
  let s ← if s.data_mode then (appendLast s.lines_data line).map fun d => { s with lines_data := d } else some s
  if s.code_mode then (appendLast s.blocks_code line).map fun d => { s with blocks_code := d } else some s

/-- One iteration (converter.py:123–150). -/
def step (s : State) (line : List Char) : Option State :=
  if line.all isSpace then some s
  else if "#include ".toList.isPrefixOf line then store { s with lines_include := s.lines_include ++ [line] } line
  else if hasSub "fuzzer::conv: data".toList line then some { s with data_mode := true, lines_data := s.lines_data ++ [[]] }
  else if line = "};\n".toList then store { s with data_mode := false } line
  else if hasSub "fuzzer::conv: begin".toList line then
    some { s with data_mode := false, code_mode := true, blocks_code := s.blocks_code ++ [[]] }
  else if hasSub "fuzzer::conv: end".toList line then some { s with code_mode := false }
  else store s line

/-- The loop over the lines (converter.py:123–150). -/
def run : State → List (List Char) → Option State
  | s, [] => some s
  | s, l :: ls => (step s l).bind fun s => run s ls

/-- `[0-9a-f]` (converter.py:49). -/
def isHex (c : Char) : Bool := ('0' ≤ c && c ≤ '9') || ('a' ≤ c && c ≤ 'f')

/-- Python: `re.findall('0x[0-9a-f][0-9a-f]', text)`, the two digits of each match (converter.py:49, 163–165).  The number says how many
characters still belong to the last match. -/
def findHex : Nat → List Char → List (Char × Char)
  | _, [] => []
  | k + 1, _ :: r => findHex k r
  | 0, c :: r =>
    match c, r with
    | '0', 'x' :: a :: b :: _ => if isHex a && isHex b then (a, b) :: findHex 3 r else findHex 0 r
    | _, _ => findHex 0 r

/-- The value of a digit, for `bytes.fromhex` (converter.py:164). -/
def hexVal (c : Char) : Nat := if c ≤ '9' then c.toNat - '0'.toNat else c.toNat - 'a'.toNat + 10

/-- The bytes of one seed (converter.py:163–165). -/
def seed (ls : List (List Char)) : List UInt8 := (findHex 0 ls.flatten).map fun d => UInt8.ofNat (16 * hexVal d.1 + hexVal d.2)

/-- `\w`, for ASCII; Python's also has the letters and digits of other scripts (converter.py:187). -/
def isWord (c : Char) : Bool := c.isAlphanum || c == '_'

/-- The length of a match of `(\w+),\s*arraysize\(\1\)` at the beginning of the text (converter.py:187).  A comma is neither a word
character nor whitespace, so `\w+` can only be the longest one, and so for `\s*`. -/
def callAt (t : List Char) : Option Nat :=
  let w := t.takeWhile isWord
  match t.dropWhile isWord with
  | ',' :: r =>
    if w.isEmpty then none
    else if ("arraysize(".toList ++ w ++ [')']).isPrefixOf (r.dropWhile isSpace) then
      some (w.length + 1 + (r.takeWhile isSpace).length + 10 + w.length + 1)
    else none
  | _ => none

/-- Python: `re.sub(r'\b(\w+),\s*arraysize\(\1\)', 'data, size', text)` (converter.py:187–188).  The first argument says whether the last
character was a word character, the second how many characters still belong to the last match. -/
def subst : Bool → Nat → List Char → List Char
  | _, _, [] => []
  | _, k + 1, c :: r => subst (isWord c) k r
  | p, 0, c :: r =>
    match if p then none else callAt (c :: r) with
    | some n => "data, size".toList ++ subst (isWord c) (n - 1) r
    | none => c :: subst (isWord c) 0 r

/-- Python: `re.sub(r'\s+', ' ', code)` (converter.py:191); the argument says whether the last character was whitespace. -/
def collapse : Bool → List Char → List Char
  | _, [] => []
  | p, c :: r => if isSpace c then (if p then collapse true r else ' ' :: collapse true r) else c :: collapse false r

/-- What is compared (converter.py:191). -/
def key (code : List Char) : List Char :=
  (((collapse false code).dropWhile isSpace).reverse.dropWhile isSpace).reverse

/-- The loop that drops blocks that came before (converter.py:177–195). -/
def unique (seen : List (List Char)) : List (List (List Char)) → List (List Char)
  | [] => []
  | block :: bs =>
    let code := subst false 0 block.flatten
    if seen.contains (key code) then unique seen bs else code :: unique (key code :: seen) bs

/-- What `parse_input` returns (converter.py:114–204). -/
structure Output where
  include_ : List Char
  data : List (List UInt8)
  code : List Char
deriving DecidableEq

/-- `strip('\n')` (converter.py:202). -/
def stripNewlines (t : List Char) : List Char := ((t.dropWhile (· == '\n')).reverse.dropWhile (· == '\n')).reverse

/-- `parse_input` (converter.py:114–204). -/
def parseInput (lines : List (List Char)) : Option Output :=
  (run {} lines).map fun s =>
    { include_ := (s.lines_include.filter fun l => !(hasSub "gmock".toList l || hasSub "gtest".toList l)).flatten
      data := s.lines_data.map seed
      code := stripNewlines ((unique [] s.blocks_code).map fun code => "  {\n".toList ++ code ++ "  }\n".toList).flatten }

end H264.Conv
