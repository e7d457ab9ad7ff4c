import Verif.Model.Threads

/-
What the answers to the calls of a thread are (C66).  The functions of the model that parse without threads are used with a counter
that begins at 0, so that what they leave in it is how much they count.
-/

namespace H264.Spec

/-- `Answers nd n σ calls as' seen m`: a thread that has counted `n` times so far and has the parser state `σ` gets the answers `as'` to
`calls`, after which it has counted `m` times.  Each parser call is answered as if the thread were alone, and so is the next one with the
parser state that it leaves.  `seen` lists, for each `get_unimplemented_count`, how often the thread itself had counted and the answer, which
can be anything here. -/
inductive Answers (nd : Bool) : Nat → Store → List Call → List Answer → List (Nat × Nat) → Nat → Prop
  | nil (n : Nat) (σ : Store) : Answers nd n σ [] [] [] n
  | bitstream {n m k : Nat} {σ σ' : Store} {cs : List Call} {as' : List Answer} {seen : List (Nat × Nat)} {opts : ParsingOptions}
      {data : List UInt8} {bs : Bitstream} :
      parseBitstream nd opts data σ 0 = .val (bs, σ', k) → Answers nd (n + k) σ' cs as' seen m →
      Answers nd n σ (.bitstream opts data :: cs) (.bitstream bs :: as') seen m
  | lengths {n m k l : Nat} {σ σ' : Store} {cs : List Call} {as' : List Answer} {seen : List (Nat × Nat)} {opts : ParsingOptions}
      {data : List UInt8} {bs : Bitstream} :
      parseBitstreamNALULength nd opts data l σ 0 = .val (bs, σ', k) → Answers nd (n + k) σ' cs as' seen m →
      Answers nd n σ (.lengths opts data l :: cs) (.bitstream bs :: as') seen m
  | nalUnit {n m k : Nat} {σ σ' : Store} {cs : List Call} {as' : List Answer} {seen : List (Nat × Nat)} {opts : ParsingOptions}
      {data : List UInt8} {x : Option NalUnit} :
      parseNalUnit nd opts data 0 data.length σ 0 = .val (x, σ', k) → Answers nd (n + k) σ' cs as' seen m →
      Answers nd n σ (.nalUnit opts data :: cs) (.nalUnit x :: as') seen m
  | rtp {n m k : Nat} {σ σ' : Store} {cs : List Call} {as' : List Answer} {seen : List (Nat × Nat)} {data : List UInt8} {x : Option Rtp} :
      parseRtpData nd data 0 data.length σ 0 = .val (x, σ', k) → Answers nd (n + k) σ' cs as' seen m →
      Answers nd n σ (.rtp data :: cs) (.rtp x :: as') seen m
  | count {n m : Nat} {σ : Store} {cs : List Call} {as' : List Answer} {seen : List (Nat × Nat)} (v : Nat) :
      Answers nd n σ cs as' seen m → Answers nd n σ (.count :: cs) (.count v :: as') ((n, v) :: seen) m
  | reset {n m : Nat} {σ : Store} {cs : List Call} {as' : List Answer} {seen : List (Nat × Nat)} :
      Answers nd n σ cs as' seen m → Answers nd n σ (.reset :: cs) (.reset :: as') seen m

/-- `Alone nd c σ calls as' c'`: the calls `calls`, made one after the other when the counter is `c`, get the answers `as'` and leave `c'` in
the counter. -/
inductive Alone (nd : Bool) : Nat → Store → List Call → List Answer → Nat → Prop
  | nil (c : Nat) (σ : Store) : Alone nd c σ [] [] c
  | bitstream {c c' c'' : Nat} {σ σ' : Store} {cs : List Call} {as' : List Answer} {opts : ParsingOptions} {data : List UInt8} {bs : Bitstream} :
      parseBitstream nd opts data σ c = .val (bs, σ', c') → Alone nd c' σ' cs as' c'' →
      Alone nd c σ (.bitstream opts data :: cs) (.bitstream bs :: as') c''
  | lengths {c c' c'' l : Nat} {σ σ' : Store} {cs : List Call} {as' : List Answer} {opts : ParsingOptions} {data : List UInt8} {bs : Bitstream} :
      parseBitstreamNALULength nd opts data l σ c = .val (bs, σ', c') → Alone nd c' σ' cs as' c'' →
      Alone nd c σ (.lengths opts data l :: cs) (.bitstream bs :: as') c''
  | nalUnit {c c' c'' : Nat} {σ σ' : Store} {cs : List Call} {as' : List Answer} {opts : ParsingOptions} {data : List UInt8} {x : Option NalUnit} :
      parseNalUnit nd opts data 0 data.length σ c = .val (x, σ', c') → Alone nd c' σ' cs as' c'' →
      Alone nd c σ (.nalUnit opts data :: cs) (.nalUnit x :: as') c''
  | rtp {c c' c'' : Nat} {σ σ' : Store} {cs : List Call} {as' : List Answer} {data : List UInt8} {x : Option Rtp} :
      parseRtpData nd data 0 data.length σ c = .val (x, σ', c') → Alone nd c' σ' cs as' c'' →
      Alone nd c σ (.rtp data :: cs) (.rtp x :: as') c''
  | count {c c'' : Nat} {σ : Store} {cs : List Call} {as' : List Answer} :
      Alone nd c σ cs as' c'' → Alone nd c σ (.count :: cs) (.count (c % 2 ^ 32) :: as') c''
  | reset {c c'' : Nat} {σ : Store} {cs : List Call} {as' : List Answer} :
      Alone nd 0 σ cs as' c'' → Alone nd c σ (.reset :: cs) (.reset :: as') c''

/-- The elements of two lists are related one by one. -/
inductive Each {α β : Type} (R : α → β → Prop) : List α → List β → Prop
  | nil : Each R [] []
  | cons {a : α} {b : β} {as' : List α} {bs : List β} : R a b → Each R as' bs → Each R (a :: as') (b :: bs)

/-- What a thread got: its answers, the values of the counter that it read (with how often it had counted itself by then), and how often it
has counted. -/
structure Outcome where
  answers : List Answer
  seen : List (Nat × Nat)
  count : Nat

/-- The values that a thread read in a counter that began at `c`: what it had counted itself, and what others had counted, which is never
less than before and never more than `most`. -/
def Reads (c most : Nat) (seen : List (Nat × Nat)) : Prop :=
  ∃ others : List Nat, Each (fun x o => x.2 = (c + x.1 + o) % 2 ^ 32) seen others ∧ others.Pairwise (· ≤ ·) ∧ ∀ o ∈ others, o ≤ most

/-- The data of a call is below 4 GiB, and size fields have at most 7 bytes. -/
def Call.Small : Call → Prop
  | .bitstream _ data => data.length < 2 ^ 32
  | .lengths _ data k => data.length < 2 ^ 32 ∧ k ≤ 7
  | .nalUnit _ data => data.length < 2 ^ 32
  | .rtp data => data.length < 2 ^ 32
  | .count => True
  | .reset => True

end H264.Spec
