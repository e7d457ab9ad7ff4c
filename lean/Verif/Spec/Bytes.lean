import Verif.Model.Bytes

/-
Specifications at byte level, independent of the code: emulation prevention (H.264 clause 7.4.1), the Annex B byte stream
format, length-prefixed framing.  (Only the record `NaluIndex` is shared with the model.)
-/

namespace H264.Spec

/-! ### Emulation prevention -/

/-- Clause 7.4.1: write the bytes of an RBSP, putting 0x03 before a byte 0x00..0x03 that follows two zero bytes.  `z` is the
number of zero bytes just written (0, 1 or 2). -/
def escapeFrom (z : Nat) : List UInt8 → List UInt8
  | [] => []
  | b :: r =>
    if z = 2 ∧ b.toNat ≤ 3 then 3 :: b :: escapeFrom (if b.toNat = 0 then 1 else 0) r
    else b :: escapeFrom (if b.toNat = 0 then z + 1 else 0) r

/-- The emulation-prevented form of an RBSP. -/
def escape (rbsp : List UInt8) : List UInt8 := escapeFrom 0 rbsp

/-- Clause 7.4.1: "When the last byte of the RBSP data is equal to 0x00 (which can only occur when the RBSP ends in a
cabac_zero_word), a final byte equal to 0x03 is appended to the end of the data." -/
def escapeNal (rbsp : List UInt8) : List UInt8 :=
  if rbsp.getLast? = some 0 then escape rbsp ++ [3] else escape rbsp

/-- Number of zero bytes at the end. -/
def trailingZeros (l : List UInt8) : Nat := (l.reverse.takeWhile (fun b => b = 0)).length

/-- The byte at index `j` is 0x03 and follows two zero bytes. -/
def isEmulationByte (l : List UInt8) (j : Nat) : Prop :=
  2 ≤ j ∧ l[j - 2]? = some 0 ∧ l[j - 1]? = some 0 ∧ l[j]? = some 3

instance (l : List UInt8) (j : Nat) : Decidable (isEmulationByte l j) := by
  unfold isEmulationByte; infer_instance

/-- The bytes that are not emulation prevention bytes, in order. -/
def withoutEmulation (l : List UInt8) : List UInt8 :=
  ((List.range l.length).filter (fun j => ¬ isEmulationByte l j)).filterMap (fun j => l[j]?)

/-- `x y z` occurs in `l` at index `j`. -/
def at3 (l : List UInt8) (j : Nat) (x y z : UInt8) : Prop := l[j]? = some x ∧ l[j + 1]? = some y ∧ l[j + 2]? = some z

instance (l : List UInt8) (j : Nat) (x y z : UInt8) : Decidable (at3 l j x y z) := by unfold at3; infer_instance

/-! ### Annex B -/

/-- A start code prefix 00 00 01 at index `i`, followed by at least one byte. -/
def isStart (l : List UInt8) (i : Nat) : Prop := at3 l i 0 0 1 ∧ i + 3 < l.length

instance (l : List UInt8) (i : Nat) : Decidable (isStart l i) := by unfold isStart; infer_instance

/-- All start codes, in order. -/
def starts (l : List UInt8) : List Nat := (List.range l.length).filter (fun i => isStart l i)

/-- Where a start code begins, counting the zero byte before it if there is one. -/
def startOffset (l : List UInt8) (i : Nat) : Nat := if 0 < i ∧ l[i - 1]? = some 0 then i - 1 else i

/-- The entries for the given start codes: each NAL unit ends where the next start code begins, the last one at the end of
the data. -/
def entries (l : List UInt8) : List Nat → List NaluIndex
  | [] => []
  | [p] => [⟨startOffset l p, p + 3, l.length - (p + 3)⟩]
  | p :: q :: r => ⟨startOffset l p, p + 3, startOffset l q - (p + 3)⟩ :: entries l (q :: r)

/-- The bytes an entry names. -/
def sliceOf (l : List UInt8) (e : NaluIndex) : List UInt8 := (l.drop e.payload_start_offset).take e.payload_size

/-- A NAL unit Annex B can carry: not empty, no 00 00 01 in it (nor 00 00 00, which is not needed here), last byte not zero. -/
structure Carriable (u : List UInt8) : Prop where
  nonempty : u ≠ []
  no1 : ∀ j, ¬ at3 u j 0 0 1
  last : u.getLast? ≠ some 0

/-- The Annex B byte stream: each NAL unit after a four-byte (`true`) or three-byte (`false`) start code. -/
def annexB : List (Bool × List UInt8) → List UInt8
  | [] => []
  | (long, u) :: r => (if long then [0, 0, 0, 1] else [0, 0, 1]) ++ u ++ annexB r

/-! ### Length-prefixed framing -/

/-- Big-endian, `n` bytes. -/
def be : Nat → Nat → List UInt8
  | 0, _ => []
  | n + 1, v => UInt8.ofNat (v / 256 ^ n) :: be n v

/-- Value of a big-endian byte string. -/
def ofBE (l : List UInt8) : Nat := l.foldl (fun v b => v * 256 + b.toNat) 0

/-- Each NAL unit after its length in `n` bytes. -/
def framed (n : Nat) : List (List UInt8) → List UInt8
  | [] => []
  | u :: r => be n u.length ++ u ++ framed n r

/-- The entries of a framed stream starting at `pos`. -/
def framedEntries (n pos : Nat) : List (List UInt8) → List NaluIndex
  | [] => []
  | u :: r => ⟨pos, pos + n, u.length⟩ :: framedEntries n (pos + n + u.length) r

/-- A run of frames with `n`-byte length prefixes in `l` from `pos` to `stop`: each entry gives the position of its prefix,
the position after it, and its value, and lies inside `l`. -/
inductive Frames (l : List UInt8) (n : Nat) : Nat → List NaluIndex → Nat → Prop
  | nil (pos : Nat) : Frames l n pos [] pos
  | cons {pos : Nat} {es : List NaluIndex} {stop : Nat} (size : Nat) : ofBE ((l.drop pos).take n) = size →
      pos + n + size ≤ l.length → Frames l n (pos + n + size) es stop → Frames l n pos (⟨pos, pos + n, size⟩ :: es) stop

end H264.Spec
