import Verif.Model.ToolArgs

/-
What the options of the command line tool mean.
-/

namespace H264.Spec

/-- The value that the last option to set something gives it; `d` if no option sets it. -/
def lastSet {α : Type} (sets : Opt → Option α) (d : α) (l : List Opt) : α := (l.reverse.findSome? sets).getD d

/-- The value of decimal digits, the first one having the highest weight. -/
def decimalVal : List Char → Nat
  | [] => 0
  | c :: s => (c.toNat - '0'.toNat) * 10 ^ s.length + decimalVal s

def isBlank (c : Char) : Prop := c = ' ' ∨ c = '\t' ∨ c = '\n' ∨ c = '\x0b' ∨ c = '\x0c' ∨ c = '\r'

/-- A number as the tool accepts it: blanks, an optional sign, digits up to the end; a minus sign only before zero. -/
def IsNumber (s : List Char) (v : Nat) : Prop :=
  ∃ ws sign ds, s = ws ++ (sign ++ ds) ∧ (∀ c ∈ ws, isBlank c) ∧ (sign = [] ∨ sign = ['+'] ∨ (sign = ['-'] ∧ v = 0)) ∧
    ds ≠ [] ∧ (∀ c ∈ ds, c.isDigit = true) ∧ decimalVal ds = v

/-- The argument is accepted with this value: a number below 2^31, or nothing at all. -/
def Accepted (s : List Char) (v : Nat) : Prop := (IsNumber s v ∧ v < 2 ^ 31) ∨ (s = [] ∧ v = 0)

/-- Options after which the tool exits. -/
def Stops : Opt → Prop
  | .version => True
  | .help => True
  | .unsupported => True
  | .nalu_length_bytes s => ∀ v, ¬ Accepted s v
  | .frames_per_second s => ∀ v, ¬ Accepted s v
  | _ => False

def setsInfile : Opt → Option (Option (List Char)) | .infile s => some (some s) | _ => none
def setsOutfile : Opt → Option (Option (List Char)) | .outfile s => some (some s) | _ => none
def setsAvcc : Opt → Option (Option (List Char)) | .avcc_file s => some (some s) | _ => none
def setsDumpmode : Opt → Option Dumpmode | .dump_all => some .dump_all | .dump_length => some .dump_length | _ => none
def setsOneLine : Opt → Option Bool | .as_one_line v => some v | _ => none
def setsOffset : Opt → Option Bool | .add_offset v => some v | _ => none
def setsLength : Opt → Option Bool | .add_length v => some v | _ => none
def setsParsedLength : Opt → Option Bool | .add_parsed_length v => some v | _ => none
def setsChecksum : Opt → Option Bool | .add_checksum v => some v | _ => none
def setsResolution : Opt → Option Bool | .add_resolution v => some v | _ => none
def setsContents : Opt → Option Bool | .add_contents v => some v | _ => none
/-- The number is the one `Accepted` gives. -/
def setsLengthBytes : Opt → Option Int | .nalu_length_bytes s => numArg s | _ => none
def setsRate : Opt → Option Int | .frames_per_second s => numArg s | _ => none

/-- The options in effect after a sequence of options none of which stops the tool. -/
def inEffect (l : List Opt) : ArgOptions :=
  { debug := (l.reverse.takeWhile (fun x => decide (x ≠ .quiet))).count .debug
    args :=
      { dumpmode := lastSet setsDumpmode .dump_all l
        as_one_line := lastSet setsOneLine true l
        add_offset := lastSet setsOffset false l
        add_length := lastSet setsLength false l
        add_parsed_length := lastSet setsParsedLength false l
        add_checksum := lastSet setsChecksum false l
        add_resolution := lastSet setsResolution false l
        add_contents := lastSet setsContents false l
        nalu_length_bytes := lastSet setsLengthBytes (-1) l
        frames_per_second := lastSet setsRate 30 l }
    avcc_file := lastSet setsAvcc none l
    infile := lastSet setsInfile none l
    outfile := lastSet setsOutfile none l }

/-- The input that a name stands for: `-` is all of standard input.  A file gives as many bytes as its size says; one that says it is
empty or has fewer bytes than it says is refused. -/
def IsInput (w : World) (name : List Char) (data : List UInt8) : Prop :=
  (name = ['-'] ∧ data = w.stdin) ∨
  (name ≠ ['-'] ∧ data ≠ [] ∧ ∃ more, w.file name = some { size := data.length, bytes := data ++ more })

/-- The output can be written: to standard output, or to a file that can be opened. -/
def Writable (w : World) (outfile : Option (List Char)) : Prop :=
  ∀ name, outfile = some name → name ≠ ['-'] → w.writable name = true

/-- The tool refuses to work: an option stops it that does not ask for the version, or there is no input, or the input cannot be read
or the output cannot be written. -/
def Refused (w : World) (l : List Opt) : Prop :=
  (∃ pre x post, l = pre ++ x :: post ∧ (∀ y ∈ pre, ¬ Stops y) ∧ Stops x ∧ x ≠ .version) ∨
  ((∀ x ∈ l, ¬ Stops x) ∧
    (((inEffect l).infile = none ∧ (inEffect l).avcc_file = none) ∨
     (∃ name, (inEffect l).infile = some name ∧ ∀ data, ¬ IsInput w name data) ∨
     ¬ Writable w (inEffect l).outfile))

end H264.Spec
