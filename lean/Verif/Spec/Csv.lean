/-! # Tables with commas between the cells and a line for each row (C83) -/

namespace H264.Spec

/-- What is between the separators. -/
def splitAtChar (d : Char) : List Char → List (List Char)
  | [] => [[]]
  | c :: r =>
    if c = d then [] :: splitAtChar d r
    else match splitAtChar d r with
      | w :: ws => (c :: w) :: ws
      | [] => [[c]]

/-- The cells of the rows of a table; every line ends with a line break. -/
def csvRows (t : List Char) : List (List (List Char)) := (splitAtChar '\n' t).dropLast.map (splitAtChar ',')

end H264.Spec
