import Verif.Model.Match
import Verif.Proofs.Toy

/-! Small sessions over the rationals, used as concrete cases for what follows a fit. -/

namespace Rascal.Toy

/-- An atlas with the given wavelengths. -/
def atlasOf (lines : List ℚ) : Atlas ℚ := ⟨lines.map (fun l => ⟨l, "Xe", 1, none⟩), none, none, 0⟩

/-- A minimiser that shifts the first coefficient by one, and a straight-line fit that, like
`robust_polyfit`, needs some spread in the wavelengths. -/
def mkern : MatchKernels ℚ where
  minimize := fun _ start => .ok (some (start.mapIdx (fun i _ => if i = 0 then 1 else 0)))
  robust := fun xs ys n _ =>
    if n = 1 then
      if ys.all (fun y => decide (y = ys.headD 0)) then .error .valueError
      else match line xs ys with
        | .error e => .error e
        | .ok co => .ok (some co)
    else .error .valueError

/-- A new calibrator whose first fit fails for lack of an atlas, which sets the basis; then an atlas is
set. -/
def session (peaks : List ℚ) (int : Bool) (lines : List ℚ) : PyRes (Session ℚ) :=
  match Cal.new (fun _ => .ok ()) peaks true none with
  | .error e => .error e
  | .ok c => .ok (Session.calls calEnv env mkern (Session.new ⟨[atlasOf lines], c⟩ int)
      [.fit args false rnd, .set (.setAtlas 0 10 false)])

/-- The report of `match_peaks`, if it returned one. -/
def matchReport (r : Session ℚ × PyRes (MatchOut ℚ)) : Option (MatchReport ℚ) :=
  match r.2 with
  | .ok (.report r) => some r
  | _ => none

/-- The exception of a call, if it raised. -/
def raised {α : Type _} (r : Session ℚ × PyRes α) : Option PyErr :=
  match r.2 with
  | .error e => some e
  | _ => none

/-- Matching two peaks. -/
example : (session [10, 20] false [5900, 8700]).toOption.map (fun s =>
      matchReport (s.matchPeaks env mkern { coeff := some (true, [3101, 280]), tol := 10, minFrac := 1 / 2 })) =
    some (some ⟨[3100, 280], [10, 20], [5900, 8700], 0, [0, 0], 1, 1⟩) := by
  decide +kernel

/-- Two peaks can always be fitted. -/
theorem line_two (y1 y2 : ℚ) : ∃ co, line [10, 20] [y1, y2] = .ok co := by
  simp only [line]
  exact ⟨_, if_neg (by decide +kernel)⟩

theorem polyfit_two (y1 y2 : ℚ) : ∃ co, polyfitChecked kern [10, 20] [y1, y2] 1 = .ok co := by
  have : polyfitChecked kern [10, 20] [y1, y2] 1 = line [10, 20] [y1, y2] := by
    unfold polyfitChecked
    rw [if_neg (by simp)]
    rfl
  rw [this]
  exact line_two y1 y2

/-- A session ready for matching. -/
def pair : Session ℚ := (session [10, 20] false [5900, 8700]).toOption.get (by decide +kernel)

/-- Arguments with which both peaks are matched. -/
def matchArgs : MatchArgs ℚ := { coeff := some (true, [3101, 280]), tol := 10, minFrac := 1 / 2 }

/-- What matching returns. -/
def matchFound : MatchReport ℚ := ⟨[3100, 280], [10, 20], [5900, 8700], 0, [0, 0], 1, 1⟩

theorem matchReport_some {x : Session ℚ × PyRes (MatchOut ℚ)} {r : MatchReport ℚ} (h : matchReport x = some r) :
    x = (x.1, .ok (.report r)) := by
  obtain ⟨s, o⟩ := x
  unfold matchReport at h
  split at h
  · next q hq => dsimp only at hq ⊢; rw [hq, Option.some.inj h]
  · cases h

/-- A successful matching, for the hypotheses of the theorems about it. -/
theorem pair_match : pair.matchPeaks env mkern matchArgs =
    ((pair.matchPeaks env mkern matchArgs).1, .ok (.report matchFound)) :=
  matchReport_some (by decide +kernel)

end Rascal.Toy
