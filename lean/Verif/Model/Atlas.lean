import Verif.Base.Np
import Verif.Model.UtilFilters

/-!
Model of src/rascal/atlas.py.
-/

namespace Rascal

variable {K : Type _}

/-- `AtlasLine` (src/rascal/atlas.py:6-11); `source` is `"NIST"` or `None`. -/
structure AtlasLine (K : Type _) where
  wl : K
  elem : String
  inten : K
  source : Option String
  deriving DecidableEq, Repr

/-- The attributes of `Atlas` that are read again (src/rascal/atlas.py:75-80).  Limits may be `None`
or non-finite when the atlas is created without elements. -/
structure Atlas (K : Type _) where
  lines : List (AtlasLine K)
  minW : Option (PyFloat K)
  maxW : Option (PyFloat K)
  rangeTol : K
  deriving DecidableEq, Repr

/-- The `elements` argument of `Atlas.add` (src/rascal/atlas.py:176-179). -/
inductive ElementsArg
  | none
  | str (s : String)
  | list (l : List String)

/-- The elements iterated over (src/rascal/atlas.py:176-180). -/
def ElementsArg.toList : ElementsArg → List String
  | .none => []
  | .str s => [s]
  | .list l => l

/-- The arguments of one `Atlas.add` call (src/rascal/atlas.py:96-109).  The atmosphere arguments
appear as the two conversion functions they determine. -/
structure AddArgs (K : Type _) where
  elements : ElementsArg
  minW : Option (PyFloat K)
  maxW : Option (PyFloat K)
  minIntensity : MinIntensity K
  minDistance : K
  vacuum : Bool
  airToVac : K → K
  vacToAir : K → K
  linelist : LineListArg
  brightest : Option Int

/-- What `load_calibration_lines` reads from outside: the packaged list and the file system, and
numpy's argsort (src/rascal/atlas.py:185, src/rascal/util.py:352-369, 400). -/
structure Env (K : Type _) where
  argsort : List K → List Nat
  nistRows : List (Row K)
  fs : String → Option (List (Row K))

/-- `float - float` / `float + float` with a finite second operand (src/rascal/atlas.py:156, 161). -/
def PyFloat.map {K : Type _} (f : K → K) : PyFloat K → PyFloat K
  | .fin v => .fin (f v)
  | .posInf => .posInf
  | .negInf => .negInf
  | .nan => .nan

section
variable [AddCommGroup K] [LinearOrder K]

/-- The `load_calibration_lines` call of `Atlas.add` for one element (src/rascal/atlas.py:185-197). -/
def AddArgs.load (env : Env K) (a : AddArgs K) (lo hi : K) (element : String) :
    PyRes (LineArrays K) :=
  loadFromFile env.argsort a.airToVac a.vacToAir env.nistRows env.fs a.linelist [element] lo hi
    a.minIntensity a.minDistance a.vacuum a.brightest

/-- `zip(atlas_elements_tmp, atlas_tmp, atlas_intensities_tmp)` as lines
(src/rascal/atlas.py:199-204). -/
def LineArrays.nistLines (r : LineArrays K) : List (AtlasLine K) :=
  ((r.elems.zip (r.wls.zip r.intens))).map (fun t => ⟨t.2.1, t.1, t.2.2, some "NIST"⟩)

/-- The loop over the elements (src/rascal/atlas.py:180-204): lines are appended element by element,
an exception leaves what was appended before. -/
def addLoop (load : String → PyRes (LineArrays K)) :
    List String → List (AtlasLine K) → List (AtlasLine K) × PyRes Unit
  | [], lines => (lines, .ok ())
  | e :: es, lines =>
    match load e with
    | .error err => (lines, .error err)
    | .ok r => addLoop load es (lines ++ r.nistLines)

/-- A limit of `Atlas.add`: given, or the atlas limit moved by the range tolerance
(src/rascal/atlas.py:154-162), which must be finite (164-174).  `None - float` raises TypeError. -/
def addLimit (given atlasLimit : Option (PyFloat K)) (f : K → K) : PyRes (PyFloat K) :=
  match given with
  | some v => .ok v
  | none => match atlasLimit with
    | none => .error .typeError
    | some v => .ok (v.map f)

/-- `Atlas.add` (src/rascal/atlas.py:96-204). -/
def Atlas.add (env : Env K) (at_ : Atlas K) (a : AddArgs K) : Atlas K × PyRes Unit :=
  match addLimit a.minW at_.minW (fun v => v - at_.rangeTol) with
  | .error e => (at_, .error e)
  | .ok lo' =>
    match addLimit a.maxW at_.maxW (fun v => v + at_.rangeTol) with
    | .error e => (at_, .error e)
    | .ok hi' =>
      match lo'.toFinite with
      | none => (at_, .error .valueError)
      | some lo =>
        match hi'.toFinite with
        | none => (at_, .error .valueError)
        | some hi =>
          let r := addLoop (a.load env lo hi) a.elements.toList at_.lines
          ({ at_ with lines := r.1 }, r.2)

/-- The call of `add` in `Atlas.__init__` (src/rascal/atlas.py:82-94) does not give `brightest_n_lines`,
which has the default 1000 (108). -/
def AddArgs.atMost1000 (a : AddArgs K) : AddArgs K := { a with brightest := some 1000 }

/-- `Atlas.__init__` (src/rascal/atlas.py:15-94), which has no argument `brightest_n_lines`, so that
field of `a` is not used: an exception in `add` leaves no object. -/
def Atlas.new (env : Env K) (a : AddArgs K) (rangeTol : K) : PyRes (Atlas K) :=
  let at0 : Atlas K := ⟨[], a.minW, a.maxW, rangeTol⟩
  match a.elements with
  | .none => .ok at0
  | _ => match Atlas.add env at0 a.atMost1000 with
    | (at1, .ok _) => .ok at1
    | (_, .error e) => .error e

/-- An argument passed through `list(...)` (src/rascal/atlas.py:249-260): a list (or other iterable),
or something that cannot be iterated, e.g. a number. -/
inductive SeqArg (α : Type _)
  | seq (l : List α)
  | notIterable

/-- The `elements` argument of `add_user_atlas` (src/rascal/atlas.py:249-250): a string becomes the
list of its characters. -/
inductive UserElems
  | list (l : List String)
  | str (s : List Char)
  | notIterable

/-- `list(elements)` (src/rascal/atlas.py:249-250). -/
def UserElems.toList : UserElems → Option (List String)
  | .list l => some l
  | .str s => some (s.map (fun c => c.toString))
  | .notIterable => none

/-- `list(...)` (src/rascal/atlas.py:252-253, 259-260). -/
def SeqArg.toList {α : Type _} : SeqArg α → Option (List α)
  | .seq l => some l
  | .notIterable => none

/-- The intensities used: one zero per wavelength if none are given (src/rascal/atlas.py:255-260). -/
def userIntensities (n : Nat) : Option (SeqArg K) → Option (List K)
  | none => some (List.replicate n 0)
  | some s => s.toList

/-- `add_user_atlas` (src/rascal/atlas.py:206-280).  `vacToAir` is the conversion applied when
`vacuum` is true. -/
def Atlas.addUser (at_ : Atlas K) (elements : UserElems) (wavelengths : SeqArg K)
    (intensities : Option (SeqArg K)) (vacuum : Bool) (vacToAir : K → K) :
    Atlas K × PyRes Unit :=
  match elements.toList with
  | none => (at_, .error .typeError)
  | some es =>
    match wavelengths.toList with
    | none => (at_, .error .typeError)
    | some ws =>
      match userIntensities ws.length intensities with
      | none => (at_, .error .typeError)
      | some is =>
        if es.length ≠ ws.length then (at_, .error .assertionError)
        else if es.length ≠ is.length then (at_, .error .assertionError)
        else
          let ws' := if vacuum then ws.map vacToAir else ws
          match ws' with
          | [] => (at_, .error .valueError)
          | w :: t =>
            ({ at_ with
                minW := some (.fin (listMin w t))
                maxW := some (.fin (listMax w t))
                lines := at_.lines ++
                  (es.zip (ws'.zip is)).map (fun p => ⟨p.2.1, p.1, p.2.2, none⟩) }, .ok ())

/-- Removing from a list while a `for` loop iterates over it (src/rascal/atlas.py:327-329): the loop
index advances by one per step, `remove` (identity comparison, each line object is in the list once)
deletes the current position.  `fuel` bounds the number of steps; the length always suffices. -/
def removeLoop {α : Type _} (p : α → Bool) : Nat → List α → Nat → List α
  | 0, l, _ => l
  | fuel + 1, l, i =>
    match l[i]? with
    | none => l
    | some a => if p a then removeLoop p fuel (l.eraseIdx i) (i + 1)
      else removeLoop p fuel l (i + 1)

/-- `remove_atlas_lines_range` (src/rascal/atlas.py:314-329). -/
def Atlas.removeRange (at_ : Atlas K) (w tol : K) : Atlas K :=
  { at_ with
    lines := removeLoop (fun l => decide (|l.wl - w| < tol)) at_.lines.length at_.lines 0 }

end

/-- `get_lines` (src/rascal/atlas.py:282-290). -/
def Atlas.getLines (at_ : Atlas K) : List K := at_.lines.map AtlasLine.wl

/-- `get_elements` (src/rascal/atlas.py:292-301). -/
def Atlas.getElements (at_ : Atlas K) : List String := at_.lines.map AtlasLine.elem

/-- `get_intensities` (src/rascal/atlas.py:303-312). -/
def Atlas.getIntensities (at_ : Atlas K) : List K := at_.lines.map AtlasLine.inten

/-- `clear` (src/rascal/atlas.py:347-353). -/
def Atlas.clear (at_ : Atlas K) : Atlas K := { at_ with lines := [] }

/-- `__len__` (src/rascal/atlas.py:355-356). -/
def Atlas.len (at_ : Atlas K) : Nat := at_.lines.length

end Rascal
