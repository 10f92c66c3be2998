import Verif.Base.Np
import Verif.Model.Models

/-!
Model of src/rascal/synthetic.py.
-/

namespace Rascal

variable {K : Type _}

/-- The attributes of `SyntheticSpectrum` after a successful construction
(src/rascal/synthetic.py:23-31, 39-40, 85-86).  `coefficients = none`: the attribute does not exist;
`model = none`, `degree = none`: they hold `None`. -/
structure Synth (K : Type _) where
  minW : PyFloat K
  maxW : PyFloat K
  coefficients : Option (List K)
  degree : Option Int
  model : Option (List K)

/-- An argument of `set_wavelength_limit` (src/rascal/synthetic.py:50-57): `None`, a float, or
anything else (ints included). -/
inductive LimitArg (K : Type _)
  | none
  | float (v : PyFloat K)
  | other

/-- `None`, a list (or array), or anything else (src/rascal/synthetic.py:25, 38, 99). -/
inductive ListArg (α : Type _)
  | none
  | list (l : List α)
  | other

section
variable [LinearOrder K]

/-- `set_wavelength_limit` (src/rascal/synthetic.py:45-92) given the current limits
(`none`: attribute missing, as during construction); returns the new limits. -/
def newLimits (cur : Option (PyFloat K × PyFloat K)) (lo hi : LimitArg K) :
    PyRes (PyFloat K × PyFloat K) :=
  match lo with
  | .other => .error .typeError
  | lo =>
    match (match lo with | .float v => some v | _ => cur.map Prod.fst) with
    | none => .error .attributeError
    | some newLo =>
      match hi with
      | .other => .error .typeError
      | hi =>
        match (match hi with | .float v => some v | _ => cur.map Prod.snd) with
        | none => .error .attributeError
        | some newHi => if newLo.lt newHi then .ok (newLo, newHi) else .error .runtimeError

/-- `set_wavelength_limit` on an existing object (src/rascal/synthetic.py:45-92). -/
def Synth.setLimit (s : Synth K) (lo hi : LimitArg K) : Synth K × PyRes Unit :=
  match newLimits (some (s.minW, s.maxW)) lo hi with
  | .ok (a, b) => ({ s with minW := a, maxW := b }, .ok ())
  | .error e => (s, .error e)

/-- `set_model` (src/rascal/synthetic.py:33-43).  The closure `models.polynomial(a, degree)` is
represented by its coefficients; its length assertion always holds here. -/
def Synth.setModel (s : Synth K) (c : ListArg K) : Synth K × PyRes Unit :=
  match c with
  | .list l => ({ s with degree := some ((l.length : Int) - 1), model := some l }, .ok ())
  | _ => (s, .error .typeError)

/-- `SyntheticSpectrum.__init__` (src/rascal/synthetic.py:7-31). -/
def Synth.new (c : ListArg K) (lo hi : LimitArg K) : PyRes (Synth K) :=
  match newLimits none lo hi with
  | .error e => .error e
  | .ok (a, b) =>
    match c with
    | .none => .ok ⟨a, b, none, none, none⟩
    | .list l => .ok ⟨a, b, some l, some ((l.length : Int) - 1), some l⟩
    | .other => .error .typeError

variable [Field K]

/-- `get_pixels` (src/rascal/synthetic.py:94-118).  `inv` stands for `pynverse.inversefunc`.
Wavelengths are finite numbers; a zero divisor in the linear case gives inf/nan in numpy and is left
at the value of the field division (0). -/
def Synth.getPixels (inv : (K → K) → List K → PyRes (List K)) (s : Synth K) (w : ListArg K) :
    PyRes (List K × List K) :=
  match w with
  | .list l =>
    let l1 := l.filter (fun v => s.minW.lt (.fin v))
    let l2 := l1.filter (fun v => (PyFloat.fin v).lt s.maxW)
    if s.degree = some 0 then
      match s.coefficients with
      | none => .error .attributeError
      | some c => match c[0]? with
        | none => .error .indexError
        | some c0 => .ok ((List.replicate l2.length 1).map (fun o => c0 * o), l2)
    else if s.degree = some 1 then
      match s.coefficients with
      | none => .error .attributeError
      | some c => match c[0]? with
        | none => .error .indexError
        | some c0 => match c[1]? with
          | none => .error .indexError
          | some c1 => .ok (l2.map (fun v => (v - c0) / c1), l2)
    else
      match s.model with
      | none => .error .typeError
      | some [] => .error .indexError
      | some a => match inv (polyLoop a (a.length - 1)) l2 with
        | .error e => .error e
        | .ok p => .ok (p, l2)
  | _ => .error .typeError

end

end Rascal
