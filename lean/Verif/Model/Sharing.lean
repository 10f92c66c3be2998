import Verif.Model.Match

/-! Which lists and arrays a calibrator has in common with its user (src/rascal/calibrator.py:21-84, 859-982, 1513-2124). -/

set_option linter.unusedSectionVars false

namespace Rascal

/-- A user and a calibrator (src/rascal/calibrator.py:21-84).  `heap` holds the lists and arrays of numbers, `kheap` those used
for known pairs, which may hold nan; `reach` and `kreach` are the ones the user has a variable for.  The other fields are
attributes: `base` those that are not lists, and the addresses of the others.  Simplified: an array used for known pairs is
used for nothing else; the spectrum is in Model/Plot.lean, an atlas is shared as in `World`, residuals are not followed. -/
structure Shared (K : Type _) where
  heap : List (List K)
  kheap : List (List (PyFloat K))
  reach : List Nat
  kreach : List Nat
  base : Session K
  peaks : Nat
  pixels : Nat
  mPeaks : Nat
  mAtlas : Nat
  coeff : Option Nat
  known : Option (Nat × Nat)

/-- What a user does (src/rascal/calibrator.py:859-2124): make a list, change one in place, or call a method.  `call` is given
values made for it; `setPixels` an array the user keeps, `setKnown` two objects with a flag saying whether they are arrays of
floats, `fitFrom` the object given as `fit_coeff`. -/
inductive SharedOp (K : Type _)
  | make (l : List K)
  | makeKnown (l : List (PyFloat K))
  | write (a : Nat) (l : List K)
  | writeKnown (a : Nat) (l : List (PyFloat K))
  | call (c : SessionCall K)
  | setPixels (a : Nat) (numPix : Option K) (lib : Option PlotLib)
  | setKnown (p w : Nat) (pArr wArr : Bool)
  | fitFrom (co : Nat) (a : FitArgs K) (arr : Bool) (rnd : FitRandom K)

/-- The attributes a call assigns anew (src/rascal/calibrator.py:708-709, 934, 1883-1900, 2006-2112). -/
structure Renewed where
  pixels : Bool := false
  matched : Bool := false
  coeff : Bool := false
  known : Bool := false

variable {K : Type _}

/-- The contents of an object (src/rascal/calibrator.py:37). -/
def Shared.obj (s : Shared K) (a : Nat) : List K := s.heap.getD a []

/-- The contents of an array of known values (src/rascal/calibrator.py:1531-1532). -/
def Shared.kobj (s : Shared K) (a : Nat) : List (PyFloat K) := s.kheap.getD a []

/-- The calibrator with the present contents of its lists (src/rascal/calibrator.py:21-84). -/
def Shared.view (s : Shared K) : Session K :=
  { s.base with world := { s.base.world with cal := { s.base.world.cal with
      peaks := s.obj s.peaks
      props := { s.base.world.cal.props with pixelList := s.obj s.pixels }
      matchedPeaks := s.obj s.mPeaks
      matchedAtlas := s.obj s.mAtlas
      fitCoeff := s.coeff.map s.obj
      known := s.known.map (fun p => (s.kobj p.1, s.kobj p.2)) } } }

/-- A calibrator as the constructor leaves it (src/rascal/calibrator.py:37, 78-80, 937): the user keeps the first object, the
calibrator has a deep copy of it. -/
def Shared.start (t : Session K) : Shared K :=
  ⟨[t.world.cal.peaks, t.world.cal.peaks, t.world.cal.props.pixelList, [], []], [], [0], [], t, 1, 2, 3, 4, none, none⟩

/-- The session seen by a new calibrator: no matches, no solution, no known pairs (src/rascal/calibrator.py:78-80, 44-46). -/
def Session.fresh (t : Session K) : Session K :=
  { t with world := { t.world with cal := { t.world.cal with
      matchedPeaks := [], matchedAtlas := [], fitCoeff := none, known := none } } }

section
variable [Field K] [LinearOrder K] [FloorRing K]

/-- Whether `fit` accepts a trial (src/rascal/calibrator.py:708-709), as in `Session.fit`. -/
def Session.accepts (F : FitEnv K) (s : Session K) (a : FitArgs K) (rnd : FitRandom K) : Bool :=
  decide (((s.world.noMatches).fit F a rnd).1.cal.matchedPeaks ≠ [])

/-- Whether the call returns lists: `fit` (src/rascal/calibrator.py:1707-1715), `match_peaks` (1926-1956), `manual_refit`
(2118-2124). -/
def SessionCall.returns (F : FitEnv K) (M : MatchKernels K) (s : Session K) : SessionCall K → Bool
  | .fit a arr rnd => match (s.fit F a arr rnd).2 with
    | .done (.ok _) => true
    | _ => false
  | .matchPeaks a => match (s.matchPeaks F M a).2 with
    | .ok (.report _) => true
    | _ => false
  | .manualRefit a => match (s.manualRefit F M a).2 with
    | .ok _ => true
    | _ => false
  | _ => false

/-- Whether `match_peaks` gets as far as assigning `matched_peaks` (src/rascal/calibrator.py:1782-1883); it may raise after
that. -/
def Session.storesMatches (F : FitEnv K) (M : MatchKernels K) (s : Session K) (a : MatchArgs K) : Bool :=
  match s.inputCoeff a with
  | .error _ => false
  | .ok (kind, co) =>
    match s.refineStep F M a kind co with
    | .error _ => false
    | .ok .nan => false
    | .ok _ =>
      match s.world.atlasLines with
      | .error _ => false
      | .ok lines =>
        if s.world.cal.peaks ≠ [] ∧ (s.basis = none ∨ co = []) then false
        else
          let m := if kind = .nan then []
            else matchLoop ((F.kern (s.basis.getD .poly)).polyval co) lines a.tol s.world.cal.peaks
          match expandMatches (m.map Prod.snd) [] with
          | .error _ => false
          | .ok _ => true

/-- What the call assigns anew: `set_calibrator_properties` a given pixel list even if it raises (src/rascal/calibrator.py:934),
`set_known_pairs` at its end (1549-1550), `fit` the solution at once (1612) and the matches with a trial (708-709),
`match_peaks` the matches before it can fail for the last time (1883-1888), the edits both lists (2006-2007, 2025-2026),
`manual_refit` everything before it looks for `polyval` (2110-2113). -/
def SessionCall.renews (E : CalEnv K) (F : FitEnv K) (M : MatchKernels K) (s : Session K) : SessionCall K → Renewed
  | .set (.setCalibrator _ (some _) _) => { pixels := true }
  | .set (.setKnown p w) => match (s.step E (.setKnown p w)).2 with
    | .ok _ => { known := true }
    | .error _ => {}
  | .set _ => {}
  | .fit a _ rnd => { matched := s.accepts F a rnd, coeff := true }
  | .matchPeaks a => match s.matchPeaks F M a with
    | (_, .ok (.report _)) => { matched := true, coeff := true }
    | (_, .ok (.input _)) => {}
    | (_, .error _) => { matched := s.storesMatches F M a }
  | .addPair n p w => match (s.addPair n p w).2 with
    | .ok _ => { matched := true }
    | .error _ => {}
  | .removePair i => match (s.removePair i).2 with
    | .ok _ => { matched := true }
    | .error _ => {}
  | .manualRefit a => match (s.manualRefit F M a).2 with
    | .ok _ => { matched := true, coeff := true }
    | .error e => { matched := decide (e = .attributeError ∧ s.basis = none),
                    coeff := decide (e = .attributeError ∧ s.basis = none) }

/-- The state after a call that leaves the calibrator as `t` (src/rascal/calibrator.py:822-2124): what is assigned anew, or has
another value than before, is a new object, everything else the object it was; nothing is changed in place.  The values of
attributes that keep their object are put on the heap as well, where nobody has them. -/
def Shared.absorb (s : Shared K) (t : Session K) (r : Renewed) : Shared K :=
  { heap := s.heap ++ [t.world.cal.peaks, t.world.cal.props.pixelList, t.world.cal.matchedPeaks, t.world.cal.matchedAtlas,
      t.world.cal.fitCoeff.getD []]
    kheap := s.kheap ++ [(t.world.cal.known.getD ([], [])).1, (t.world.cal.known.getD ([], [])).2]
    reach := s.reach
    kreach := s.kreach
    base := t
    peaks := if t.world.cal.peaks = s.obj s.peaks then s.peaks else s.heap.length
    pixels := if r.pixels = false ∧ t.world.cal.props.pixelList = s.obj s.pixels then s.pixels else s.heap.length + 1
    mPeaks := if r.matched = false ∧ t.world.cal.matchedPeaks = s.obj s.mPeaks then s.mPeaks else s.heap.length + 2
    mAtlas := if r.matched = false ∧ t.world.cal.matchedAtlas = s.obj s.mAtlas then s.mAtlas else s.heap.length + 3
    coeff := if r.coeff = false ∧ t.world.cal.fitCoeff = s.coeff.map s.obj then s.coeff
      else t.world.cal.fitCoeff.map (fun _ => s.heap.length + 4)
    known := if r.known = false ∧ t.world.cal.known = s.known.map (fun p => (s.kobj p.1, s.kobj p.2)) then s.known
      else t.world.cal.known.map (fun _ => (s.kheap.length, s.kheap.length + 1)) }

/-- The attributes `fit`, `match_peaks` and `manual_refit` hand out (src/rascal/calibrator.py:1707-1709, 1948-1950, 2118-2120). -/
def Shared.handOut (s : Shared K) : Shared K :=
  { s with reach := s.reach ++ [s.mPeaks, s.mAtlas] ++ s.coeff.toList }

/-- A call (src/rascal/calibrator.py:822-2124). -/
def Shared.run (E : CalEnv K) (F : FitEnv K) (M : MatchKernels K) (s : Shared K) (c : SessionCall K) : Shared K :=
  if c.returns F M s.view then (s.absorb (s.view.call E F M c) (c.renews E F M s.view)).handOut
  else s.absorb (s.view.call E F M c) (c.renews E F M s.view)

/-- The call behind an operation (src/rascal/calibrator.py:822-2124); none for what the user does alone, or with an object the
user does not have. -/
def SharedOp.asCall (s : Shared K) : SharedOp K → Option (SessionCall K)
  | .call c => some c
  | .setPixels a n lib => if a ∈ s.reach then some (.set (.setCalibrator n (some (s.obj a)) lib)) else none
  | .setKnown p w _ _ => if p ∈ s.kreach ∧ w ∈ s.kreach then some (.set (.setKnown (s.kobj p) (s.kobj w))) else none
  | .fitFrom co a arr rnd => if co ∈ s.reach then some (.fit { a with fitCoeff := some (s.obj co) } arr rnd) else none
  | _ => none

/-- One operation.  `np.asarray` of an array is that array (src/rascal/calibrator.py:934, and 1531-1532 for floats, where
`reshape` is a view of it); `fit_coeff` is kept as it is until the fit succeeds (1612). -/
def Shared.op (E : CalEnv K) (F : FitEnv K) (M : MatchKernels K) (s : Shared K) (o : SharedOp K) : Shared K :=
  match o, o.asCall s with
  | .make l, _ => { s with heap := s.heap ++ [l], reach := s.reach ++ [s.heap.length] }
  | .makeKnown l, _ => { s with kheap := s.kheap ++ [l], kreach := s.kreach ++ [s.kheap.length] }
  | .write a l, _ => if a ∈ s.reach then { s with heap := s.heap.set a l } else s
  | .writeKnown a l, _ => if a ∈ s.kreach then { s with kheap := s.kheap.set a l } else s
  | .call _, some c => s.run E F M c
  | .setPixels a _ _, some c =>
    { s.run E F M c with pixels := a }
  | .setKnown p w pArr wArr, some c =>
    if ((s.view.step E (.setKnown (s.kobj p) (s.kobj w))).2.toOption).isSome then
      { s.run E F M c with
        known := some ((if pArr then p else s.kheap.length), (if wArr then w else s.kheap.length + 1)) }
    else s.run E F M c
  | .fitFrom co _ _ _, some c =>
    if c.returns F M s.view then s.run E F M c else { s.run E F M c with coeff := some co }
  | _, none => s

/-- A program (src/rascal/calibrator.py:822-2124). -/
def Shared.ops (E : CalEnv K) (F : FitEnv K) (M : MatchKernels K) (s : Shared K) (h : List (SharedOp K)) : Shared K :=
  h.foldl (fun s o => s.op E F M o) s

end

end Rascal
