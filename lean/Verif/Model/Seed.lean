import Verif.Model.Match

/-!
Model of the random seed: `set_calibrator_properties(seed=...)` seeds numpy's generator, which all calibrators of a
process share.  The calibrators are taken to have separate atlas objects.
-/

namespace Rascal

/-- numpy's global generator (src/rascal/calibrator.py:299, 538-553, 951-952): its state after a seed, what `fit` draws
from a state, and the state that a fit with a number of passes leaves. -/
structure Rng (K σ : Type _) where
  seeded : Nat → σ
  uniform : σ → Nat → K
  draw : σ → Nat → Draw
  after : σ → Session K → FitArgs K → Nat → σ

/-- The calibrators of a process (src/rascal/calibrator.py:21-84) and numpy's generator (951-952). -/
structure Process (K σ : Type _) where
  cals : List (Session K)
  gen : σ

/-- A call on one of the calibrators: `set_calibrator_properties` with a seed (src/rascal/calibrator.py:859-982), or any
call without (822-2124); the tape of a fit only says how many passes are looked at. -/
inductive ProcCall (K : Type _)
  | seeded (i : Nat) (seed : Nat) (numPix : Option K) (pixelList : Option (List K)) (lib : Option PlotLib)
  | call (i : Nat) (c : SessionCall K)

variable {K σ : Type _}

/-- The calibrator concerned (src/rascal/calibrator.py:822-2124). -/
def ProcCall.target : ProcCall K → Nat
  | .seeded i _ _ _ _ => i
  | .call i _ => i

/-- What a fit of `n` passes draws (src/rascal/calibrator.py:299, 538-553). -/
def Rng.random (R : Rng K σ) (g : σ) (n : Nat) : FitRandom K := ⟨R.uniform g, (List.range n).map (R.draw g)⟩

section
variable [Field K] [LinearOrder K] [FloorRing K]

/-- One call (src/rascal/calibrator.py:822-2124).  The seed is set after `interp1d` has accepted the pixel list (945-952). -/
def Process.call (R : Rng K σ) (E : CalEnv K) (F : FitEnv K) (M : MatchKernels K) (p : Process K σ) :
    ProcCall K → Process K σ
  | .seeded i seed n l lib =>
    match p.cals[i]? with
    | none => p
    | some s =>
      match (s.step E (.setCalibrator n l lib)).2 with
      | .error _ => ⟨p.cals.set i (s.step E (.setCalibrator n l lib)).1, p.gen⟩
      | .ok _ => ⟨p.cals.set i (s.step E (.setCalibrator n l lib)).1, R.seeded seed⟩
  | .call i (.fit a arr rnd) =>
    match p.cals[i]? with
    | none => p
    | some s => ⟨p.cals.set i (s.fit F a arr (R.random p.gen rnd.tape.length)).1, R.after p.gen s a rnd.tape.length⟩
  | .call i c =>
    match p.cals[i]? with
    | none => p
    | some s => ⟨p.cals.set i (s.call E F M c), p.gen⟩

/-- A history of calls (src/rascal/calibrator.py:822-2124). -/
def Process.calls (R : Rng K σ) (E : CalEnv K) (F : FitEnv K) (M : MatchKernels K) (p : Process K σ)
    (h : List (ProcCall K)) : Process K σ :=
  h.foldl (fun p c => p.call R E F M c) p

/-- The outcome of a fit of calibrator `i` (src/rascal/calibrator.py:1552-1715) within `n` passes. -/
def Process.fitOutcome (R : Rng K σ) (F : FitEnv K) (p : Process K σ) (i : Nat) (a : FitArgs K) (arr : Bool) (n : Nat) :
    Option (CallRes (FitReport K)) :=
  p.cals[i]?.map (fun s => (s.fit F a arr (R.random p.gen n)).2)

end

end Rascal
