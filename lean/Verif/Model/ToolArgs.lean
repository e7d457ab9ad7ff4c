import Verif.Model.Tool

/-
Model of the rest of the command line tool (tools/h264nal.cc): the options, the input file, the output file.  The options are what
`getopt_long` returns, one after the other, with their arguments; how it takes them from `argv` is not modelled.  Text written to
`stderr` is not modelled.
-/

namespace H264

/-- What `getopt_long` returns (tools/h264nal.cc:168-197), in the order of the `switch` (206-338). -/
inductive Opt where
  | debug
  | quiet
  | infile (arg : Text)
  | outfile (arg : Text)
  | dump_all
  | dump_length
  | as_one_line (v : Bool)
  | add_offset (v : Bool)
  | add_length (v : Bool)
  | add_parsed_length (v : Bool)
  | add_checksum (v : Bool)
  | add_resolution (v : Bool)
  | add_contents (v : Bool)
  | avcc_file (arg : Text)
  | nalu_length_bytes (arg : Text)
  | frames_per_second (arg : Text)
  | version
  | help
  | unsupported
  deriving DecidableEq, Repr

/-- `arg_options` (tools/h264nal.cc:48-63) and its default (66-81).  `debug` is a signed 32-bit integer in the code; more than
2^31 - 1 options `-d` are not considered. -/
structure ArgOptions where
  debug : Nat := 0
  args : ToolArgs := {}
  avcc_file : Option Text := none
  infile : Option Text := none
  outfile : Option Text := none
  deriving DecidableEq, Repr

/-- `isspace` in the C locale. -/
def isSpaceC (c : Char) : Bool := c = ' ' || (9 ≤ c.toNat && c.toNat ≤ 13)

/-- The digits at the beginning of a text and what comes after them. -/
def spanDigits : Text → Text × Text
  | [] => ([], [])
  | c :: s => if c.isDigit then (c :: (spanDigits s).1, (spanDigits s).2) else ([], c :: s)

/-- The value of a sequence of digits. -/
def digitsVal (s : Text) : Nat := s.foldl (fun v c => 10 * v + (c.toNat - 48)) 0

/-- Skipped white space of `strtol`. -/
def skipSpace : Text → Text
  | [] => []
  | c :: s => if isSpaceC c then skipSpace s else c :: s

/-- The sign that `strtol` accepts before the digits (tools/h264nal.cc:303, 314): is it a minus sign, and the text after it. -/
def splitSign (t : Text) : Bool × Text :=
  match t with
  | '-' :: u => (true, u)
  | '+' :: u => (false, u)
  | _ => (false, t)

/-- `strtol(s, &end, 10)` for a 64-bit `long`: the value, the text at `end`, and whether `errno` is set (to ERANGE; a library
that sets EINVAL when there are no digits would differ). -/
def strtol10 (s : Text) : Int × Text × Bool :=
  let (neg, u) := splitSign (skipSpace s)
  let (ds, rest) := spanDigits u
  if ds = [] then (0, s, false)
  else
    let v : Int := if neg then -(digitsVal ds) else digitsVal ds
    if v < -(2 ^ 63) then (-(2 ^ 63), rest, true)
    else if v > 2 ^ 63 - 1 then (2 ^ 63 - 1, rest, true)
    else (v, rest, false)

/-- The argument of `--nalu-length-bytes` and `--frames-per-second` (tools/h264nal.cc:301-321). -/
def numArg (s : Text) : Option Int :=
  let (v, rest, errno) := strtol10 s
  if errno = true ∨ rest ≠ [] ∨ v < 0 ∨ v > 2 ^ 31 - 1 then none else some v

/-- One pass of the loop (tools/h264nal.cc:205-338): the options after it, or the exit status.  `exit(-1)` gives the status 255. -/
def stepArg (o : ArgOptions) : Opt → Except Nat ArgOptions
  | .debug => .ok { o with debug := o.debug + 1 }
  | .quiet => .ok { o with debug := 0 }
  | .infile s => .ok { o with infile := some s }
  | .outfile s => .ok { o with outfile := some s }
  | .dump_all => .ok { o with args := { o.args with dumpmode := .dump_all } }
  | .dump_length => .ok { o with args := { o.args with dumpmode := .dump_length } }
  | .as_one_line v => .ok { o with args := { o.args with as_one_line := v } }
  | .add_offset v => .ok { o with args := { o.args with add_offset := v } }
  | .add_length v => .ok { o with args := { o.args with add_length := v } }
  | .add_parsed_length v => .ok { o with args := { o.args with add_parsed_length := v } }
  | .add_checksum v => .ok { o with args := { o.args with add_checksum := v } }
  | .add_resolution v => .ok { o with args := { o.args with add_resolution := v } }
  | .add_contents v => .ok { o with args := { o.args with add_contents := v } }
  | .avcc_file s => .ok { o with avcc_file := some s }
  | .nalu_length_bytes s =>
    match numArg s with
    | some v => .ok { o with args := { o.args with nalu_length_bytes := v } }
    | none => .error 255
  | .frames_per_second s =>
    match numArg s with
    | some v => .ok { o with args := { o.args with frames_per_second := v } }
    | none => .error 255
  | .version => .error 0
  | .help => .error 255
  | .unsupported => .error 255

/-- The loop (tools/h264nal.cc:204-339). -/
def stepArgs (o : ArgOptions) : List Opt → Except Nat ArgOptions
  | [] => .ok o
  | x :: l => match stepArg o x with
    | .ok o => stepArgs o l
    | .error e => .error e

/-- `parse_args` (tools/h264nal.cc:162-349) and what `main` does with its result (359-362). -/
def parseArgs (l : List Opt) : Except Nat ArgOptions :=
  match stepArgs {} l with
  | .ok o => if o.infile = none ∧ o.avcc_file = none then .error 255 else .ok o
  | .error e => .error e

/-- A file that could be opened for reading: the size that `ftell` reports at its end (-1 if it cannot tell), and the bytes that can
be read from its start. -/
structure OpenFile where
  size : Int
  bytes : List UInt8

/-- What the tool finds: standard input, the files that can be opened, the files that can be opened for writing. -/
structure World where
  stdin : List UInt8
  file : Text → Option OpenFile
  writable : Text → Bool

/-- `std::cin`: the bytes that were not read yet, and whether an attempt to read failed. -/
structure InStream where
  rest : List UInt8
  failed : Bool := false

/-- `std::cin.read` and `gcount`: at most `n` bytes; nothing once the stream has failed, and it fails when there are fewer. -/
def InStream.read (n : Nat) (s : InStream) : List UInt8 × InStream :=
  if s.failed then ([], s) else (s.rest.take n, { rest := s.rest.drop n, failed := decide (s.rest.length < n) })

/-- The loop of `ReadStdinToBuffer` (src/h264_utils.cc:19-24).  `.bad .fuel` stands for a loop that does not end. -/
def readStdinLoop (chunk : Nat) : Nat → InStream → List UInt8 → Res (List UInt8)
  | 0, _, _ => .bad .fuel
  | f + 1, s, buffer =>
    let (temp, s) := s.read chunk
    if temp.length = 0 then .val buffer else readStdinLoop chunk f s (buffer ++ temp)

/-- `ReadStdinToBuffer` (src/h264_utils.cc:16-27), called with an empty buffer (tools/h264nal.cc:433-437). -/
def readStdinToBuffer (stdin : List UInt8) : Res (List UInt8) := readStdinLoop 4096 (stdin.length + 1) { rest := stdin } []

/-- `H264Utils::ReadFile` (src/h264_utils.cc:32-68); `none` stands for -1. -/
def readFile (w : World) (name : Text) : Res (Option (List UInt8)) :=
  if name = ['-'] then do
    let buffer ← readStdinToBuffer w.stdin
    pure (some buffer)
  else match w.file name with
    | none => pure none
    | some f =>
      if f.size ≤ 0 then pure none
      else
        let buffer := f.bytes.take f.size.toNat
        pure (if buffer.length ≠ f.size.toNat then none else some buffer)

/-- What a run of the tool leaves behind: standard output, the contents of the output file, if one was written, and the exit
status. -/
structure RunResult where
  stdout : Text := []
  outfile : Option (Text × Text) := none
  status : Int
  deriving DecidableEq, Repr

/-- tools/h264nal.cc:364-379: the debug output. -/
def debugText (o : ArgOptions) : Text :=
  if o.debug > 1 then
    "h264nal: original version\n".toList ++
    ("options.debug = ".toList ++ (decU o.debug ++ ('\n' ::
    ("options.infile = ".toList ++ ((o.infile.getD "null".toList) ++ ('\n' ::
    ("options.outfile = ".toList ++ ((o.outfile.getD "null".toList) ++ ['\n']))))))))
  else []

/-- tools/h264nal.cc:457-476: is the output to be written to a file that cannot be opened? -/
def outFails (w : World) (o : ArgOptions) : Bool :=
  match o.outfile with
  | none => false
  | some name => decide (name ≠ ['-']) && !w.writable name

/-- tools/h264nal.cc:457-476 and 560-563: where the output goes, if it can be opened. -/
def deliver (o : ArgOptions) (out : Text) (status : Int) : RunResult :=
  match o.outfile with
  | none => { stdout := debugText o ++ out, status := status }
  | some name =>
    if name = ['-'] then { stdout := debugText o ++ out, status := status }
    else { stdout := debugText o, outfile := some (name, out), status := status }

/-- `main` (tools/h264nal.cc:355-606) from the options on.  The version text on standard output is left out. -/
def toolRun (nd : Bool) (w : World) (l : List Opt) : Res RunResult :=
  match parseArgs l with
  | .error e => .val { status := e }
  | .ok o =>
    match o.infile with
    | none => .val (if outFails w o then { stdout := debugText o, status := 255 } else deliver o [] 0)
    | some name => do
      match ← readFile w name with
      | none => pure { stdout := debugText o, status := 255 }
      | some data =>
        if outFails w o then do
          let _ ← toolParse nd o.args data
          pure { stdout := debugText o, status := 255 }
        else do
          let (out, status) ← toolMain nd o.args data
          pure (deliver o out status)

end H264
