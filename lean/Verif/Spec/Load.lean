import Verif.Spec.Lines
import Verif.Model.UtilFilters

/-! Specification of what `load_calibration_lines` is asked for. -/

namespace Rascal.Spec

variable {K : Type _} [LinearOrder K]

/-- The line is at least as bright as the threshold that applies to it
(no threshold when none, or one of an unsupported type, is given). -/
def BrightEnough (elements : List String) (mi : MinIntensity K) (r : Row K) : Prop :=
  match mi with
  | .scalar v => v ≤ r.inten
  | .perElement vs => ∃ t, LastEntry elements vs r.elem t ∧ t ≤ r.inten
  | .none => True
  | .other => True

/-- A per-element threshold list has one entry per element. -/
def ThresholdsFit (elements : List String) (mi : MinIntensity K) : Prop :=
  ∀ vs, mi = .perElement vs → vs.length = elements.length

/-- `r` is the first line of a requested element with its wavelength, in the inclusive range,
and bright enough. -/
def Requested (lines : List (Row K)) (elements : List String) (lo hi : K)
    (mi : MinIntensity K) (r : Row K) : Prop :=
  FirstWith Row.wl (lines.filter (fun q => elements.contains q.elem)) r ∧
    lo ≤ r.wl ∧ r.wl ≤ hi ∧ BrightEnough elements mi r

end Rascal.Spec
