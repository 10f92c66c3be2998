import Mathlib.Order.Defs.LinearOrder
import Mathlib.Data.List.Basic

/-!
Python and numpy primitives shared by all model files.  They model the language and library
behaviour the cited lines rely on; each comment gives one place in /repo where it is used.
-/

namespace Rascal

/-- The exception classes that can leave the modelled code
(e.g. `raise ValueError` src/rascal/util.py:273, `assert` src/rascal/util.py:261,
`IndexError` of `distances[0]` src/rascal/util.py:224). -/
inductive PyErr
  | typeError | valueError | indexError | keyError | assertionError | runtimeError
  | attributeError | zeroDivision | unboundLocal | fileNotFound | linAlg
  deriving DecidableEq, Repr, Inhabited

/-- A call that returns or raises (all of /repo/src/rascal; e.g. src/rascal/util.py:232-290). -/
abbrev PyRes (α : Type _) := Except PyErr α

/-- numpy boolean indexing `arr[mask]` (src/rascal/util.py:195, 373, 395, 413).
numpy rejects masks of another length; every use in the model has equal lengths. -/
def boolMask {α : Type _} (l : List α) (m : List Bool) : List α :=
  ((l.zip m).filter (fun p => p.2)).map Prod.fst

/-- numpy integer indexing `arr[idx]` (src/rascal/util.py:195, 403-405).  Indices come from
`argsort`/`unique`, so they are in range; an out-of-range index would be dropped here. -/
def takeIdx {α : Type _} (l : List α) (idx : List Nat) : List α :=
  idx.filterMap (fun i => l[i]?)

/-- Python slice bound normalisation: negative indices count from the end, then clamp
(`[:brightest_n_lines]` src/rascal/util.py:400-402, `spectrum[a:b]` src/rascal/util.py:483-487). -/
def pyBound (len : Nat) (i : Int) : Nat :=
  if i < 0 then (len + i).toNat else min i.toNat len

/-- Python slice `l[:n]` (src/rascal/util.py:400-402). -/
def pyTake {α : Type _} (l : List α) (n : Int) : List α := l.take (pyBound l.length n)

/-- Contract of `np.argsort` with the default (unstable) algorithm: a permutation of the
indices that sorts the array (src/rascal/util.py:400, src/rascal/houghtransform.py:111, 193). -/
def IsArgsort {K : Type _} [LinearOrder K] (argsort : List K → List Nat) : Prop :=
  ∀ l, (argsort l).Perm (List.range l.length) ∧ (takeIdx l (argsort l)).Pairwise (· ≤ ·)

/-- Insert a (value, index) pair in value order, dropping it when the value is present
(helper of `npUniqueIndex`; src/rascal/util.py:189). -/
def uniqIns {K : Type _} [LinearOrder K] (a : K × Nat) : List (K × Nat) → List (K × Nat)
  | [] => [a]
  | b :: t => if a.1 < b.1 then a :: b :: t else if b.1 < a.1 then b :: uniqIns a t else b :: t

/-- `np.unique(values, return_index=True)[1]`: positions of the first occurrences, ordered by
value (src/rascal/util.py:189). -/
def npUniqueIndex {K : Type _} [LinearOrder K] (l : List K) : List Nat :=
  (l.zipIdx.foldl (fun acc a => uniqIns a acc) []).map Prod.snd

/-- `np.unique(values)`: the distinct values in increasing order
(src/rascal/calibrator.py:190, 477). -/
def npUnique {K : Type _} [LinearOrder K] (l : List K) : List K :=
  takeIdx l (npUniqueIndex l)

end Rascal
