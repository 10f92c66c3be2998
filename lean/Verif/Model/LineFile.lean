import Verif.Model.Atlas
import Mathlib.Algebra.Order.Field.Basic
import Mathlib.Algebra.GroupWithZero.Basic

/-!
Model of the reading of a line-list file as text: `np.loadtxt(path, delimiter=",", dtype=">U12")` and
the conversions of the fields (src/rascal/util.py:355-373, 187, 279-283, 395-397), and of the text
printed by `Atlas.list` (src/rascal/atlas.py:331-345).

The file is given as its lines without line ends.  `parse` is Python's `float` on a field, `none` if it
raises.  Not modelled: fields reading `nan` or `inf`, encodings, missing files.
-/

namespace Rascal

variable {K : Type _}

/-- The part of a line before a comment (`np.loadtxt`, src/rascal/util.py:361, 363). -/
def beforeHash (l : List Char) : List Char := l.takeWhile (fun c => c ≠ '#')

/-- `line.split(",")` (`np.loadtxt`, src/rascal/util.py:361, 363). -/
def splitComma : List Char → List (List Char)
  | [] => [[]]
  | c :: l =>
    if c = ',' then [] :: splitComma l
    else match splitComma l with
      | [] => [[c]]
      | f :: fs => (c :: f) :: fs

/-- The rows of fields of a file (`np.loadtxt`, src/rascal/util.py:361, 363): comments are cut off and
empty lines skipped. -/
def fileRows (lines : List (List Char)) : List (List (List Char)) :=
  ((lines.map beforeHash).filter (fun l => !l.isEmpty)).map splitComma

/-- The array returned by `np.loadtxt` (src/rascal/util.py:361, 363): dimensions of length one are
dropped, so it can have no, one or two dimensions. -/
inductive TextTable
  | scalar
  | vector
  | table (cols : Nat) (rows : List (List (List Char)))

/-- `np.loadtxt(path, delimiter=",", dtype=">U12")` (src/rascal/util.py:361, 363): rows of different
lengths raise ValueError, every field is cut to 12 characters. -/
def loadtxt (lines : List (List Char)) : PyRes TextTable :=
  match fileRows lines with
  | [] => .ok .vector
  | r :: rs =>
    if rs.all (fun q => q.length == r.length) then
      if rs = [] then .ok (if r.length = 1 then .scalar else .vector)
      else if r.length = 1 then .ok .vector
      else .ok (.table r.length ((r :: rs).map (fun q => q.map (fun f => f.take 12))))
    else .error .valueError

/-- A list comprehension whose body may raise (src/rascal/util.py:187, 279-283, 397). -/
def mapRes {α β : Type _} (f : α → PyRes β) : List α → PyRes (List β)
  | [] => .ok []
  | a :: l =>
    match f a with
    | .error e => .error e
    | .ok b => match mapRes f l with
      | .error e => .error e
      | .ok bs => .ok (b :: bs)

/-- A row whose wavelength is converted and whose intensity is still text, `none` if there is no third
column (src/rascal/util.py:187, 283). -/
structure TextRow (K : Type _) where
  elem : String
  wl : K
  inten : Option (List Char)

/-- The first field of a row (src/rascal/util.py:372). -/
def rowElement (r : List (List Char)) : String := String.ofList (r.headD [])

/-- `lines[:, 1].astype(np.float64)` for one row (src/rascal/util.py:187). -/
def readWavelength (parse : List Char → Option K) (r : List (List Char)) : PyRes (TextRow K) :=
  match parse (r.getD 1 []) with
  | none => .error .valueError
  | some w => .ok ⟨rowElement r, w, r[2]?⟩

/-- `float(line[2])` and `lines[:, 2].astype("float64")` for one row (src/rascal/util.py:283, 397). -/
def readIntensity (parse : List Char → Option K) (r : TextRow K) : PyRes (Row K) :=
  match r.inten with
  | none => .error .indexError
  | some f => match parse f with
    | none => .error .valueError
    | some v => .ok ⟨r.elem, r.wl, v⟩

/-- `assert len(min_intensity) == len(elements)` (src/rascal/util.py:261). -/
def thresholdsOk (elements : List String) : MinIntensity K → Bool
  | .perElement vs => vs.length == elements.length
  | _ => true

section
variable [AddCommGroup K] [LinearOrder K]

/-- `load_calibration_lines` on a two-dimensional array of text (src/rascal/util.py:371-423).  Only the
rows of the elements are converted, and only the intensities of lines within the limits.  With fewer
than three columns `line[2]` or `lines[:, 2]` raises IndexError (283, 397). -/
def loadTable (parse : List Char → Option K) (argsort : List K → List Nat) (airToVac vacToAir : K → K)
    (cols : Nat) (rows : List (List (List Char))) (elements : List String) (lo hi : K)
    (mi : MinIntensity K) (minDistance : K) (vacuum : Bool) (brightest : Option Int) :
    PyRes (LineArrays K) :=
  match mapRes (readWavelength parse) (rows.filter (fun r => elements.contains (rowElement r))) with
  | .error e => .error e
  | .ok ts =>
    if !thresholdsOk elements mi then .error .assertionError
    else if cols < 3 then .error .indexError
    else
      match mapRes (readIntensity parse) (filterWavelengthsBy TextRow.wl ts
          (if vacuum then lo else airToVac lo) (if vacuum then hi else airToVac hi)) with
      | .error e => .error e
      | .ok sel => loadSelected argsort vacToAir sel elements mi minDistance vacuum brightest

/-- `load_calibration_lines` on the text of an existing file (src/rascal/util.py:361-423).  A
zero-dimensional array cannot be iterated (372); of a one-dimensional one `lines[:, 1]` raises
IndexError (187), unless `li[0]` (372) did so before. -/
def loadText (parse : List Char → Option K) (argsort : List K → List Nat) (airToVac vacToAir : K → K)
    (lines : List (List Char)) (elements : List String) (lo hi : K) (mi : MinIntensity K)
    (minDistance : K) (vacuum : Bool) (brightest : Option Int) : PyRes (LineArrays K) :=
  match loadtxt lines with
  | .error e => .error e
  | .ok .scalar => .error .typeError
  | .ok .vector => .error .indexError
  | .ok (.table cols rows) =>
    loadTable parse argsort airToVac vacToAir cols rows elements lo hi mi minDistance vacuum brightest

end

/-- The value of a string of digits (`float`, src/rascal/util.py:187, 283, 397). -/
def digitsVal (l : List Char) : Nat := l.foldl (fun n c => 10 * n + (c.toNat - 48)) 0

/-- Digits with at most one point, as digits before and after it (`float`, src/rascal/util.py:187, 283,
397). -/
def splitPoint (l : List Char) : Option (List Char × List Char) :=
  let whole := l.takeWhile Char.isDigit
  match l.dropWhile Char.isDigit with
  | [] => if whole = [] then none else some (whole, [])
  | c :: frac =>
    if c = '.' ∧ frac.all Char.isDigit ∧ ¬ (whole = [] ∧ frac = []) then some (whole, frac) else none

/-- A leading sign (`float`, src/rascal/util.py:187, 283, 397). -/
def splitSign : List Char → Bool × List Char
  | '-' :: l => (true, l)
  | '+' :: l => (false, l)
  | l => (false, l)

/-- The integer of an exponent (`float`, src/rascal/util.py:187, 283, 397). -/
def parseExponent (l : List Char) : Option Int :=
  let d := splitSign l
  if d.2 ≠ [] ∧ d.2.all Char.isDigit then
    some (if d.1 then -(digitsVal d.2 : Int) else (digitsVal d.2 : Int))
  else none

/-- The mantissa of a number without its sign (`float`, src/rascal/util.py:187, 283, 397). -/
def parseMantissa [Field K] (l : List Char) : Option K :=
  match splitPoint l with
  | none => none
  | some (whole, frac) =>
    some ((digitsVal whole : K) + (digitsVal frac : K) / 10 ^ frac.length)

/-- `float` of a decimal number with optional sign, fraction and exponent (src/rascal/util.py:187, 283,
397).  Simplified: no surrounding blanks, underscores, `nan` or `inf`. -/
def parseFloat [Field K] (s : List Char) : Option K :=
  let d := splitSign s
  let m := d.2.takeWhile (fun c => c ≠ 'e' ∧ c ≠ 'E')
  match (parseMantissa m : Option K) with
  | none => none
  | some v =>
    match d.2.dropWhile (fun c => c ≠ 'e' ∧ c ≠ 'E') with
    | [] => some (if d.1 then -v else v)
    | _ :: x => match parseExponent x with
      | none => none
      | some n => some ((if d.1 then -v else v) * (10 : K) ^ n)

/-- The text printed by `Atlas.list` for one line (src/rascal/atlas.py:337-345); `str` is Python's `str`
of a number. -/
def AtlasLine.describe (str : K → String) (l : AtlasLine K) : String :=
  "Element " ++ l.elem ++ " at " ++ str l.wl ++ " with intensity " ++ str l.inten

/-- `Atlas.list` (src/rascal/atlas.py:331-345) and `list_atlas` (src/rascal/calibrator.py:1350-1355): one
line of text for each line of the atlas. -/
def Atlas.printed (str : K → String) (at_ : Atlas K) : List String :=
  at_.lines.map (AtlasLine.describe str)

end Rascal
