import Verif.Model.UtilFilters

/-! Specification of what a line-list file says, independent of how it is read. -/

namespace Rascal.Spec

variable {K : Type _}

/-- The three texts of a row: element, wavelength and intensity. -/
abbrev Fields := List Char × List Char × List Char

/-- No comma and no comment sign. -/
def Plain (f : List Char) : Prop := ',' ∉ f ∧ '#' ∉ f

/-- The file consists of empty lines, comment lines and rows `element,wavelength,intensity`; the rows
are, in order, those listed. -/
inductive FileSays : List (List Char) → List Fields → Prop
  | nil : FileSays [] []
  | blank {ls fs} : FileSays ls fs → FileSays ([] :: ls) fs
  | comment {ls fs} (c : List Char) : FileSays ls fs → FileSays (('#' :: c) :: ls) fs
  | row {ls fs} (e w i : List Char) : Plain e → Plain w → Plain i → FileSays ls fs →
      FileSays ((e ++ ',' :: (w ++ ',' :: i)) :: ls) ((e, w, i) :: fs)

/-- The rows mean these lines, the numbers being read by `parse`. -/
def Means (parse : List Char → Option K) (fs : List Fields) (rows : List (Row K)) : Prop :=
  List.Forall₂ (fun f r => r.elem = String.ofList f.1 ∧ parse f.2.1 = some r.wl ∧
    parse f.2.2 = some r.inten) fs rows

/-- No text of the row is longer than twelve characters. -/
def Short (f : Fields) : Prop := f.1.length ≤ 12 ∧ f.2.1.length ≤ 12 ∧ f.2.2.length ≤ 12

end Rascal.Spec
