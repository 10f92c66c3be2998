import Verif.Model.Fit

/-!
Candidate ranking when all wavelengths are integers (src/rascal/calibrator.py:154-217).  The array of
the summed weights is created with `np.zeros_like(unique_wavelengths)` and then has an integer type, so
storing a sum drops its fraction.
-/

namespace Rascal

variable {K : Type _} [Field K] [LinearOrder K] [FloorRing K]

/-- A sum stored in an integer array (src/rascal/calibrator.py:207-210). -/
def intSum (a : K) : K := (pyInt a : K)

/-- The per-peak part of `_get_most_common_candidates` with integer wavelengths
(src/rascal/calibrator.py:193-215). -/
def mostCommonOfInt (argsort : List K → List Nat) (topN : Int) (peak : K) (matched counts : List K) :
    List K × List K :=
  let uniq := npUnique matched
  let n : Int := min topN uniq.length
  let agg := uniq.map (fun w => intSum (boolMask counts (matched.map (fun v => decide (v = w)))).sum)
  (List.replicate n.toNat peak, takeIdx matched (pyTake (argsort (agg.map (fun a => -a))) n))

/-- `_get_most_common_candidates` with integer wavelengths (src/rascal/calibrator.py:154-217). -/
def mostCommonInt (argsort : List K → List Nat) (cs : List (Cand K)) (topN : Int) (weighted : Bool) :
    List K × List K :=
  let peaks := cs.flatMap Cand.peaks
  let wls := cs.flatMap Cand.wls
  let probs := cs.flatMap Cand.weights
  let per := (npUnique peaks).map (fun peak =>
    let mask := peaks.map (fun p => decide (p = peak))
    let counts := boolMask probs mask
    mostCommonOfInt argsort topN peak (boolMask wls mask)
      (if weighted then counts else counts.map (fun _ => 1)))
  (per.flatMap Prod.fst, per.flatMap Prod.snd)

/-- The environment of a fit whose peaks and wavelengths are integers (src/rascal/calibrator.py:103-106,
154-217, 1552-1715): sorting the stored sums is sorting after dropping the fractions.  Nothing else in
`fit` stores into an array with the type of the wavelengths. -/
def FitEnv.intWaves (F : FitEnv K) : FitEnv K :=
  { F with argsortK := fun l => F.argsortK (l.map intSum) }

end Rascal
