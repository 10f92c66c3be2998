import Verif.Model.Hough

/-!
Model of `HoughTransform.save` and `HoughTransform.load`
(src/rascal/houghtransform.py:212-339).  Strings are lists of characters.
-/

namespace Rascal

variable {K : Type _}

/-- Worker of `str.split` (src/rascal/houghtransform.py:241): `skip` counts the characters of a
delimiter already recognised, `cur` is the current piece. -/
def pySplitGo (delim : List Char) : Nat → List Char → List Char → List (List Char)
  | _, cur, [] => [cur]
  | skip + 1, cur, _ :: t => pySplitGo delim skip cur t
  | 0, cur, c :: t =>
    if delim.isPrefixOf (c :: t) then cur :: pySplitGo delim (delim.length - 1) [] t
    else pySplitGo delim 0 (cur ++ [c]) t

/-- `s.split(delim)` (src/rascal/houghtransform.py:241, src/rascal/plotting.py `fig_type.split`);
an empty delimiter raises ValueError. -/
def pySplit (s delim : List Char) : PyRes (List (List Char)) :=
  if delim = [] then .error .valueError else .ok (pySplitGo delim 0 [] s)

/-- The eight attributes that are written (src/rascal/houghtransform.py:246-253, 261-268). -/
structure HoughData (K : Type _) where
  points : Option (PointStore K)
  hist : Option (List (List Nat))
  xedges : Option (List K)
  yedges : Option (List K)
  minSlope : Option K
  maxSlope : Option K
  minIntercept : Option K
  maxIntercept : Option K
  deriving DecidableEq, Repr

/-- What `save` collects from the object (src/rascal/houghtransform.py:246-253). -/
def Hough.data (h : Hough K) : HoughData K :=
  ⟨h.points, h.hist, h.xedges, h.yedges, h.minSlope, h.maxSlope, h.minIntercept, h.maxIntercept⟩

/-- A file: a pickled object array written by `np.save`, a json document, or something else
(src/rascal/houghtransform.py:256, 272). -/
inductive DiskFile (K : Type _)
  | npy (d : HoughData K)
  | json (d : HoughData K)
  | other
  deriving DecidableEq, Repr

/-- The file system as `save`/`load` see it (src/rascal/houghtransform.py:256, 271, 310, 325). -/
abbrev Disk (K : Type _) := List Char → Option (DiskFile K)

/-- Writing a file (src/rascal/houghtransform.py:256, 271-272). -/
def Disk.write (d : Disk K) (name : List Char) (f : DiskFile K) : Disk K :=
  fun n => if n = name then some f else d n

/-- Value returned by `save` (src/rascal/houghtransform.py:274-289). -/
inductive SaveResult (K : Type _)
  | none
  | npy (d : HoughData K)
  | json (d : HoughData K)
  | both (d1 d2 : HoughData K)
  deriving DecidableEq, Repr

/-- The json dictionary (src/rascal/houghtransform.py:259-268): `.tolist()` exists on arrays only,
so `None` or a plain list raise AttributeError; array points become a list of lists. -/
def Hough.jsonData (h : Hough K) : PyRes (HoughData K) :=
  match h.points, h.hist, h.xedges, h.yedges with
  | some (.array p), some hi, some xe, some ye =>
    .ok ⟨some (.pyList p), some hi, some xe, some ye, h.minSlope, h.maxSlope, h.minIntercept,
      h.maxIntercept⟩
  | _, _, _, _ => .error .attributeError

/-- `save` (src/rascal/houghtransform.py:212-289).  `np.save` of the ragged list is taken to
succeed (numpy before 1.24).  The saved contents of a malformed array are not distinguished. -/
def Hough.save (h : Hough K) (disk : Disk K) (filename fileformat delim : List Char)
    (toDisk : Bool) : Disk K × PyRes (SaveResult K) :=
  match pySplit fileformat delim with
  | .error e => (disk, .error e)
  | .ok parts =>
    let npy := decide ("npy".toList ∈ parts)
    let json := decide ("json".toList ∈ parts)
    let disk1 := if npy && toDisk then disk.write (filename ++ ".npy".toList) (.npy h.data) else disk
    if json then
      match h.jsonData with
      | .error e => (disk1, .error e)
      | .ok j =>
        let disk2 := if toDisk then disk1.write (filename ++ ".json".toList) (.json j) else disk1
        (disk2, .ok (if toDisk then .none else if npy then .both h.data j else .json j))
    else (disk1, .ok (if toDisk then .none else if npy then .npy h.data else .none))

/-- `filename[-n:] != ext` then `filename += ext` (src/rascal/houghtransform.py:307-308, 322-323),
`n` the length of the extension. -/
def withExt (filename ext : List Char) : List Char :=
  if filename.drop (filename.length - ext.length) = ext then filename else filename ++ ext

/-- The assignments of `load` in sequence (src/rascal/houghtransform.py:312-319, 327-334): `None`
in place of an array has no `astype` (AttributeError; for json `np.array(None).astype` gives a nan
scalar but `save` never writes that), `float(None)` raises TypeError; earlier assignments stay. -/
def Hough.assign (h : Hough K) (d : HoughData K) : Hough K × PyRes Unit :=
  let h1 := { h with points := d.points }
  match d.hist with
  | none => (h1, .error .attributeError)
  | some hi =>
    let h2 := { h1 with hist := some hi }
    match d.xedges with
    | none => (h2, .error .attributeError)
    | some xe =>
      let h3 := { h2 with xedges := some xe }
      match d.yedges with
      | none => (h3, .error .attributeError)
      | some ye =>
        let h4 := { h3 with yedges := some ye }
        match d.minSlope with
        | none => (h4, .error .typeError)
        | some a =>
          let h5 := { h4 with minSlope := some a }
          match d.maxSlope with
          | none => (h5, .error .typeError)
          | some b =>
            let h6 := { h5 with maxSlope := some b }
            match d.minIntercept with
            | none => (h6, .error .typeError)
            | some c =>
              let h7 := { h6 with minIntercept := some c }
              match d.maxIntercept with
              | none => (h7, .error .typeError)
              | some e => ({ h7 with maxIntercept := some e }, .ok ())

/-- `load` (src/rascal/houghtransform.py:291-339).  A file of another kind raises in `np.load` or
`json.load` before any assignment. -/
def Hough.load (h : Hough K) (disk : Disk K) (filename filetype : List Char) :
    Hough K × PyRes Unit :=
  if filetype = "npy".toList then
    match disk (withExt filename ".npy".toList) with
    | none => (h, .error .fileNotFound)
    | some (.npy d) => h.assign d
    | some _ => (h, .error .valueError)
  else if filetype = "json".toList then
    match disk (withExt filename ".json".toList) with
    | none => (h, .error .fileNotFound)
    | some (.json d) => h.assign d
    | some _ => (h, .error .valueError)
  else (h, .error .valueError)

end Rascal
