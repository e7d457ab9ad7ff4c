/-
What it means for a dump to be well laid out, on plain lists of characters.
-/

namespace H264

/-- How many braces are open after `t`. -/
def depth (t : List Char) : Int := (t.count '{' : Int) - (t.count '}' : Int)

/-- Every brace is closed, and none is closed before it is opened. -/
structure Balanced (t : List Char) : Prop where
  closed : depth t = 0
  opened : ∀ a b, t = a ++ b → 0 ≤ depth a

/-- Every line but the first starts with two spaces for each level: the level `l` of the whole text plus the braces open at
that point, not counting one that the line closes at its very beginning. -/
def Indented (l : Nat) (t : List Char) : Prop :=
  ∀ a b, t = a ++ '\n' :: b → ∃ k rest, b = List.replicate k ' ' ++ rest ∧ rest.head? ≠ some ' ' ∧
    (k : Int) = 2 * (l + depth a) - (if rest.head? = some '}' then 2 else 0)

/-- What the dump of a structure looks like, at an indentation level that is -1 (everything on one line) or not negative. -/
structure LaidOut (level : Int) (t : List Char) : Prop where
  balanced : Balanced t
  oneLine : level = -1 → '\n' ∉ t
  indented : 0 ≤ level → Indented level.toNat t

end H264
