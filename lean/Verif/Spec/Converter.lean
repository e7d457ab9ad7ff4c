import Verif.Model.Converter

/-! # What the seeds and the code of a fuzzer should be (C88) -/

namespace H264.Conv

/-- A byte as a C++ literal, in lower case. -/
def literal (b : UInt8) : List Char := ['0', 'x', Nat.digitChar (b.toNat / 16), Nat.digitChar (b.toNat % 16)]

/-- The literals in a line, with any other text around them that has no `0x`. -/
inductive Literals : List Char → List UInt8 → Prop where
  | text {t : List Char} : ¬ "0x".toList <:+: t → Literals t []
  | literal {t r : List Char} {b : UInt8} {bs : List UInt8} : ¬ "0x".toList <:+: t → Literals r bs → Literals (t ++ literal b ++ r) (b :: bs)

/-- A marked array in a unit test: the line with the mark, the lines of the array and the bytes in each of them, the line that ends it, and
the lines up to the next mark. -/
structure Marked where
  mark : List Char
  array : List (List Char × List UInt8)
  stop : List Char
  others : List (List Char)

def Marked.lines (m : Marked) : List (List Char) := m.mark :: m.array.map (·.1) ++ m.stop :: m.others

/-- The bytes of the array. -/
def Marked.bytes (m : Marked) : List UInt8 := m.array.flatMap (·.2)

def marksData (l : List Char) : Prop := "fuzzer::conv: data".toList <:+: l

/-- The array is marked as it should be: only its own lines are between the mark and a line that is `};` without indentation or the mark of
the code. -/
structure Marked.Good (m : Marked) : Prop where
  mark : marksData m.mark ∧ ¬ "#include ".toList <+: m.mark
  array : ∀ x ∈ m.array, Literals x.1 x.2 ∧ x.1.getLast? = some '\n' ∧ ¬ "fuzzer::conv:".toList <:+: x.1 ∧ x.1 ≠ "};\n".toList
  stop : m.stop = "};\n".toList ∨ ("fuzzer::conv: begin".toList <:+: m.stop ∧ ¬ marksData m.stop ∧ ¬ "#include ".toList <+: m.stop)
  others : ∀ l ∈ m.others, ¬ marksData l

/-- A marked block of code: the line with the mark, the code, the line with the mark of its end, and the lines up to the next block. -/
structure Coded where
  mark : List Char
  code : List (List Char)
  stop : List Char
  others : List (List Char)

def Coded.lines (m : Coded) : List (List Char) := m.mark :: m.code ++ m.stop :: m.others

/-- The text of the code, without lines that are blank. -/
def Coded.text (m : Coded) : List Char := (m.code.filter fun l => l.any fun c => !isSpace c).flatten

structure Coded.Good (m : Coded) : Prop where
  mark : "fuzzer::conv: begin".toList <:+: m.mark ∧ ¬ marksData m.mark ∧ ¬ "#include ".toList <+: m.mark
  code : ∀ l ∈ m.code, ¬ "fuzzer::conv:".toList <:+: l
  stop : "fuzzer::conv: end".toList <:+: m.stop ∧ ¬ marksData m.stop ∧ ¬ "fuzzer::conv: begin".toList <:+: m.stop ∧
    ¬ "#include ".toList <+: m.stop
  others : ∀ l ∈ m.others, ¬ "fuzzer::conv: begin".toList <:+: l

/-- The words of a text: what is between whitespace. -/
def words : List Char → List (List Char)
  | [] => []
  | c :: r =>
    if isSpace c then words r
    else if r.head?.all isSpace then [c] :: words r
    else match words r with
      | w :: ws => (c :: w) :: ws
      | [] => [[c]]

/-- An array and its size as arguments of a call, wrapped in any way. -/
def bufferArgs (w ws : List Char) : List Char := w ++ ',' :: (ws ++ ("arraysize(".toList ++ w ++ [')']))

end H264.Conv
