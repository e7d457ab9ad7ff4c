/-! # Reading a CSV file (RFC 4180), and paths (C89) -/

namespace H264.Spec

/-- Where a reader of a CSV file is: before a cell, in one, in one that began with a quote, after a quote in such a cell, after the first half of
a line break. -/
inductive CsvMode where
  | start | plain | quoted | quote | cr
  deriving DecidableEq

/-- The lines read, the cells of the present line, the present cell. -/
structure CsvReader where
  mode : CsvMode
  lines : List (List (List Char))
  cells : List (List Char)
  cell : List Char
  deriving DecidableEq

/-- One character; `none` if there is something between the end of a quoted cell and the next comma or line break, a quote or half a line break in
a cell without quotes. -/
def csvStep (s : CsvReader) (c : Char) : Option CsvReader :=
  match s.mode with
  | .quoted => some (if c = '"' then { s with mode := .quote } else { s with cell := s.cell ++ [c] })
  | .cr => if c = '\n' then some { mode := .start, lines := s.lines ++ [s.cells ++ [s.cell]], cells := [], cell := [] } else none
  | m =>
    if c = ',' then some { s with mode := .start, cells := s.cells ++ [s.cell], cell := [] }
    else if c = '\r' then some { s with mode := .cr }
    else if c = '"' then
      match m with
      | .start => some { s with mode := .quoted }
      | .quote => some { s with mode := .quoted, cell := s.cell ++ ['"'] }
      | _ => none
    else if c = '\n' ∨ m = .quote then none
    else some { s with mode := .plain, cell := s.cell ++ [c] }

/-- The lines of a CSV file, each a list of cells. -/
def readCsv (t : List Char) : Option (List (List (List Char))) :=
  match t.foldlM csvStep { mode := .start, lines := [], cells := [], cell := [] } with
  | some s => if s.mode = .start ∧ s.cells = [] ∧ s.cell = [] then some s.lines else none
  | none => none

/-- A name in a directory. -/
def IsName (c : List Char) : Prop := c ≠ [] ∧ '/' ∉ c ∧ c ≠ ['.'] ∧ c ≠ ['.', '.']

instance (c : List Char) : Decidable (IsName c) := inferInstanceAs (Decidable (_ ∧ _))

/-- The path through these directories from the root. -/
def fromRoot (cs : List (List Char)) : List Char := cs.flatMap ('/' :: ·)

end H264.Spec
