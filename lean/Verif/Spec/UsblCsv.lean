import Verif.Model.Sonardyne

/-! How a reader gets a table from the text of a csv file. -/

namespace Oplab.Spec

/-- The cells of all complete lines after the first one. -/
def csvCells (text : List Char) : List (List (List Char)) :=
  ((splitAtSep (· == '\n') text).dropLast.drop 1).map (splitAtSep (· == ','))

/-- The names in the first line, without the blanks around them. -/
def csvNames (text : List Char) : List (List Char) :=
  (splitAtSep (· == ',') ((splitAtSep (· == '\n') text).headD [])).map stripBlanks

end Oplab.Spec
