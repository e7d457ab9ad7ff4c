import Verif.Model.Converter
import Verif.Model.SummaryTable

/-
Model of the files that fuzz/converter.py reads and writes (`do_something`, `read_input`).

Simplifications: a file system is a function from paths, as the script spells them, to contents; links, rights and missing directories are not
modelled.  A file that holds bytes and is read as text is an outcome of its own.  The messages with `--debug` are left out.
-/

namespace H264.Conv
open H264.Summary (basename)

inductive Content where
  | text (t : List Char)
  | bytes (b : List UInt8)
  deriving DecidableEq

abbrev FS := List Char → Option Content

/-- `open(p, 'w')`, `write`, `close`. -/
def write (fs : FS) (p : List Char) (c : Content) : FS := fun q => if q = p then some c else fs q

/-- `readlines` (converter.py:109): the lines with their line feeds. -/
def fileLines : List Char → List (List Char)
  | [] => []
  | c :: r =>
    if c = '\n' then ['\n'] :: fileLines r
    else match fileLines r with
      | l :: ls => (c :: l) :: ls
      | [] => [[c]]

/-- `t.replace(old, new)`; `skip` characters of a match are still to be dropped. -/
def replaceGo (old new : List Char) : Nat → List Char → List Char
  | _, [] => []
  | k + 1, _ :: t => replaceGo old new k t
  | 0, c :: t => if old.isPrefixOf (c :: t) then new ++ replaceGo old new (old.length - 1) t else c :: replaceGo old new 0 t

def replace (old new t : List Char) : List Char := replaceGo old new 0 t

/-- `os.path.join(a, b)` for a relative path `b`. -/
def join (a b : List Char) : List Char := if a = [] ∨ a.getLast? = some '/' then a ++ b else a ++ ('/' :: b)

/-- `outfile_code` (converter.py:62-64) -/
def codePath (infile outdir : List Char) : List Char := join outdir (replace "unittest".toList "fuzzer".toList (basename infile))

/-- `outfile_data_dir` (converter.py:66-70) -/
def seedDir (infile outdir : List Char) : List Char :=
  join (join outdir "corpus".toList)
    (replace ".cc".toList [] (replace "unittest".toList "fuzzer".toList (basename infile)))

/-- `'%02i' % i` -/
def twoDigits (i : Nat) : List Char := if i < 10 then '0' :: (toString i).toList else (toString i).toList

/-- `outfile_data_template % i` (converter.py:71-72, 87), if the rest of the path has no `%`. -/
def seedPath (dir : List Char) (i : Nat) : List Char := join dir ("unittest.".toList ++ twoDigits i ++ ".bin".toList)

/-- `CODE_TEMPLATE` up to the headers (converter.py:20-29), with the name of the unit test. -/
def codeHead (infile : List Char) : List Char :=
  "/*\n *  Copyright (c) Facebook, Inc. and its affiliates.\n */\n\n// This file was auto-generated using fuzz/converter.py from\n// ".toList ++
  infile ++ ".\n// Do not edit directly.\n\n".toList

/-- `CODE_TEMPLATE` between the headers and the code (converter.py:30-44). -/
def codeMid : List Char :=
  "\n\n// libfuzzer infra to test the fuzz target\nextern \"C\" int LLVMFuzzerTestOneInput(const uint8_t *data, size_t size) {\n".toList ++
  "  // the code below is copied verbatim out of a unit test, where it sits\n  // inside \"namespace h264nal\", and so refers to the project's types\n".toList ++
  "  // unqualified. This entry point cannot: it has to be extern \"C\" at\n  // global scope. Pull the namespace in rather than qualifying each name,\n".toList ++
  "  // which would mean keeping a list of them here.\n  using namespace h264nal;  // NOLINT(build/namespaces)\n".toList ++
  "  // a test with no fuzzer::conv markers converts to an empty body\n  (void)data;\n  (void)size;\n".toList

/-- `CODE_TEMPLATE` with its fields (converter.py:20-48, 75-79). -/
def codeText (infile : List Char) (out : Output) : List Char :=
  codeHead infile ++ out.include_ ++ codeMid ++ out.code ++ "\n  return 0;\n}\n".toList

/-- The loop over the seeds (converter.py:86-93). -/
def writeSeeds (dir : List Char) : Nat → List (List UInt8) → FS → FS
  | _, [], fs => fs
  | i, d :: ds, fs => writeSeeds dir (i + 1) ds (write fs (seedPath dir i) (.bytes d))

/-- How a run of the script ends. -/
inductive End where
  | ok
  /-- the script asks for the name of the standard input -/
  | typeError
  /-- the file cannot be opened: a variable has no value -/
  | unboundLocal
  | indexError
  /-- the input is a file of bytes -/
  | notText
  /-- a `%` in the name of the directory is taken for a format -/
  | format
  deriving DecidableEq

/-- `do_something` (converter.py:53-95) and `read_input` (98-111); `none` is the standard input (249-250). -/
def convert (infile : Option (List Char)) (outdir : List Char) (fs : FS) : End × FS :=
  match infile with
  | none => (.typeError, fs)
  | some p =>
    match fs p with
    | none => (.unboundLocal, fs)
    | some (.bytes _) => (.notText, fs)
    | some (.text t) =>
      match parseInput (fileLines t) with
      | none => (.indexError, fs)
      | some out =>
        let fs1 := write fs (codePath p outdir) (.text (codeText (basename p) out))
        if out.data = [] then (.ok, fs1)
        else if '%' ∈ seedDir p outdir then (.format, fs1)
        else (.ok, writeSeeds (seedDir p outdir) 0 out.data fs1)

end H264.Conv
