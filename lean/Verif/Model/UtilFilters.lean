import Verif.Base.Py
import Mathlib.Algebra.Order.Group.Abs
import Mathlib.Algebra.Order.Field.Basic

/-!
Model of the line-list filters and of `load_calibration_lines` (src/rascal/util.py:165-423).
-/

namespace Rascal

variable {K : Type _}

/-- One row of a line list: element, wavelength, intensity (src/rascal/util.py:355, 372, 395-397).
The code stores the three fields as strings and converts with `astype`; the model starts from
the converted values. -/
structure Row (K : Type _) where
  elem : String
  wl : K
  inten : K
  deriving DecidableEq, Repr

/-- `filter_wavelengths` (src/rascal/util.py:165-195) on rows of any kind, `wl` being
`lines[:, 1].astype(np.float64)` (187). -/
def filterWavelengthsBy {α : Type _} [LinearOrder K] (wl : α → K) (lines : List α) (lo hi : K) :
    List α :=
  let wavelengths := lines.map wl
  let index := npUniqueIndex wavelengths
  let mask := (takeIdx wavelengths index).map (fun w => decide (lo ≤ w) && decide (w ≤ hi))
  boolMask (takeIdx lines index) mask

/-- `filter_wavelengths` (src/rascal/util.py:165-195). -/
def filterWavelengths [LinearOrder K] (lines : List (Row K)) (lo hi : K) : List (Row K) :=
  filterWavelengthsBy Row.wl lines lo hi

/-- `wavelengths[1:] - wavelengths[:-1]` (src/rascal/util.py:219, 222). -/
def diffs [Sub K] (ws : List K) : List K := List.zipWith (fun a b => b - a) ws ws.tail

/-- `filter_separation` (src/rascal/util.py:198-229).  `left_dists` is `0` followed by the
differences, `right_dists` the differences followed by `0`; the entries `0` and `-1` of
`distances` are overwritten; on an empty array `distances[0]` raises IndexError. -/
def filterSeparation [AddCommGroup K] [LinearOrder K] (ws : List K) (minSep : K) :
    PyRes (List Bool) :=
  match ws with
  | [] => .error .indexError
  | _ :: _ =>
    let left := 0 :: diffs ws
    let right := diffs ws ++ [0]
    let distances := List.zipWith min right left
    let distances := distances.set 0 (right.headD 0)
    let distances := distances.set (distances.length - 1) (left.getLastD 0)
    .ok (distances.map (fun d => decide (minSep ≤ |d|)))

/-- The `min_intensity` argument (src/rascal/util.py:248-277, 390): `None`, a number, a
list/array, or anything else. -/
inductive MinIntensity (K : Type _)
  | none
  | scalar (v : K)
  | perElement (vs : List K)
  | other
  deriving Repr

/-- Python dict item assignment (src/rascal/util.py:252, 258, 270). -/
def dictSet {V : Type _} (d : String → Option V) (k : String) (v : V) : String → Option V :=
  fun k' => if k' = k then some v else d k'

/-- The loops filling `min_intensity_dict` in order (src/rascal/util.py:251-252, 257-258,
269-270). -/
def dictFill {V : Type _} (kvs : List (String × V)) : String → Option V :=
  kvs.foldl (fun d kv => dictSet d kv.1 kv.2) (fun _ => none)

/-- Choice of the dict by the type of `min_intensity` (src/rascal/util.py:248-277). -/
def intensityDict [Zero K] (elements : List String) : MinIntensity K →
    PyRes (String → Option K)
  | .none => .ok (dictFill (elements.map (fun e => (e, 0))))
  | .scalar v => .ok (dictFill (elements.map (fun e => (e, v))))
  | .perElement vs =>
      if vs.length = elements.length then .ok (dictFill (elements.zip vs))
      else .error .assertionError
  | .other => .error .valueError

/-- The loop over the lines (src/rascal/util.py:279-290); a line whose element has no entry
raises KeyError. -/
def intensityLoop [LinearOrder K] (d : String → Option K) : List (Row K) → PyRes (List Bool)
  | [] => .ok []
  | r :: rest =>
    match d r.elem with
    | none => .error .keyError
    | some t =>
      match intensityLoop d rest with
      | .error e => .error e
      | .ok out => .ok (decide (t ≤ r.inten) :: out)

/-- `filter_intensity` (src/rascal/util.py:232-290). -/
def filterIntensity [Zero K] [LinearOrder K] (elements : List String) (lines : List (Row K))
    (mi : MinIntensity K) : PyRes (List Bool) :=
  match intensityDict elements mi with
  | .error e => .error e
  | .ok d => intensityLoop d lines

/-- The optional `filter_intensity` call of `load_calibration_lines`
(src/rascal/util.py:389-393): `None` and unsupported types keep everything. -/
def loadIntensityMask [Zero K] [LinearOrder K] (elements : List String) (lines : List (Row K))
    (mi : MinIntensity K) : PyRes (List Bool) :=
  match mi with
  | .scalar _ | .perElement _ => filterIntensity elements lines mi
  | .none | .other => .ok (lines.map (fun _ => true))

/-- The optional `filter_separation` call of `load_calibration_lines`
(src/rascal/util.py:407-411). -/
def loadDistanceMask [AddCommGroup K] [LinearOrder K] (ws : List K) (minDistance : K) :
    PyRes (List Bool) :=
  if 0 < minDistance then filterSeparation ws minDistance
  else .ok (ws.map (fun _ => true))

/-- The three parallel arrays returned by `load_calibration_lines`
(src/rascal/util.py:395-397, 423). -/
structure LineArrays (K : Type _) where
  elems : List String
  wls : List K
  intens : List K
  deriving DecidableEq, Repr

/-- Optional restriction to the brightest lines (src/rascal/util.py:399-405).  `argsort` is a
parameter, see `IsArgsort`. -/
def keepBrightest (argsort : List K → List Nat) (brightest : Option Int)
    (a : LineArrays K) : LineArrays K :=
  match brightest with
  | none => a
  | some n =>
    let toKeep := pyTake (argsort a.intens).reverse n
    ⟨takeIdx a.elems toKeep, takeIdx a.wls toKeep, takeIdx a.intens toKeep⟩

/-- `load_calibration_lines` from the intensity filter on (src/rascal/util.py:389-423), given the lines
of the elements within the limits. -/
def loadSelected [AddCommGroup K] [LinearOrder K] (argsort : List K → List Nat) (vacToAir : K → K)
    (lines : List (Row K)) (elements : List String) (mi : MinIntensity K) (minDistance : K)
    (vacuum : Bool) (brightest : Option Int) : PyRes (LineArrays K) :=
  -- 390-393
  match loadIntensityMask elements lines mi with
  | .error e => .error e
  | .ok imask =>
    -- 395-405
    let a : LineArrays K :=
      ⟨boolMask (lines.map Row.elem) imask, boolMask (lines.map Row.wl) imask,
        boolMask (lines.map Row.inten) imask⟩
    let a := keepBrightest argsort brightest a
    -- 408-411
    match loadDistanceMask a.wls minDistance with
    | .error e => .error e
    | .ok dmask =>
      -- 413-423
      let wls := boolMask a.wls dmask
      .ok ⟨boolMask a.elems dmask, if vacuum then wls else wls.map vacToAir,
        boolMask a.intens dmask⟩

/-- `load_calibration_lines` from the parsed line list on (src/rascal/util.py:371-423).
`airToVac`/`vacToAir` are the conversions at the given pressure, temperature and humidity
(src/rascal/util.py:377-382, 419-421), passed as functions; see `Verif.Model.Atmosphere`.
Reading the file (356-369) is `loadFromFile`; its text is modelled in `Verif.Model.LineFile`. -/
def loadCalibrationLines [AddCommGroup K] [LinearOrder K] (argsort : List K → List Nat)
    (airToVac vacToAir : K → K) (lines : List (Row K)) (elements : List String) (lo hi : K)
    (mi : MinIntensity K) (minDistance : K) (vacuum : Bool) (brightest : Option Int) :
    PyRes (LineArrays K) :=
  -- 372-373
  let lines := boolMask lines (lines.map (fun li => elements.contains li.elem))
  -- 376-382
  let lo' := if vacuum then lo else airToVac lo
  let hi' := if vacuum then hi else airToVac hi
  -- 385-423
  loadSelected argsort vacToAir (filterWavelengths lines lo' hi') elements mi minDistance vacuum
    brightest

/-- The `linelist` argument (src/rascal/util.py:356-369). -/
inductive LineListArg
  | nist
  | path (p : String)
  | notAString
  deriving Repr

/-- Reading the line list (src/rascal/util.py:355-369).  `nistRows` is the packaged file, `fs` the
file system, both with the fields converted; see `Verif.Model.LineFile` for the text. -/
def readLineList (nistRows : List (Row K)) (fs : String → Option (List (Row K))) :
    LineListArg → PyRes (List (Row K))
  | .nist => .ok nistRows
  | .path p => match fs p with
    | some rows => .ok rows
    | none => .error .valueError
  | .notAString => .error .valueError

/-- The whole of `load_calibration_lines` (src/rascal/util.py:293-423). -/
def loadFromFile [AddCommGroup K] [LinearOrder K] (argsort : List K → List Nat)
    (airToVac vacToAir : K → K) (nistRows : List (Row K))
    (fs : String → Option (List (Row K))) (linelist : LineListArg) (elements : List String)
    (lo hi : K) (mi : MinIntensity K) (minDistance : K) (vacuum : Bool)
    (brightest : Option Int) : PyRes (LineArrays K) :=
  match readLineList nistRows fs linelist with
  | .error e => .error e
  | .ok rows => loadCalibrationLines argsort airToVac vacToAir rows elements lo hi mi
      minDistance vacuum brightest

end Rascal
