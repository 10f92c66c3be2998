import Verif.Proofs.FitMain
import Verif.Proofs.ToyKern

/-!
A small calibrator over the rationals, used as a concrete case: peaks at 10 and 20, five atlas lines,
three of them out of reach, and least-squares straight lines as fitting routines.
-/

namespace Rascal.Toy

/-- The environment of the toy calibrator. -/
def env : FitEnv ℚ := ⟨fun _ => kern, fun _ _ _ => 1, stableArgsort, stableArgsort, true⟩

/-- The environment of the other calls. -/
def calEnv : CalEnv ℚ :=
  ⟨fun _ => .ok (), stableArgsort, stableArgsort, ⟨fun _ => [], [], fun _ => none⟩, ⟨[], none, none, 0⟩⟩

/-- Five lines; only the first two can be matched. -/
def atlas : Atlas ℚ :=
  ⟨[⟨5900, "Xe", 1, none⟩, ⟨8700, "Xe", 1, none⟩, ⟨20000, "Xe", 1, none⟩, ⟨21000, "Xe", 1, none⟩,
    ⟨22000, "Xe", 1, none⟩], none, none, 0⟩

/-- The calibrator `Calibrator([10, 20])` with some settings and the atlas. -/
def world (size : Int) (err : ℚ) : PyRes (World ℚ) :=
  match twoPeaks with
  | .error e => .error e
  | .ok c => .ok (World.steps calEnv ⟨[atlas], c⟩
      [.setHough { numSlopes := some 2, xbins := some 4, ybins := some 4 },
       .setRansac { sampleSize := some size, minFitError := some err },
       .setAtlas 0 10 false])

/-- The arguments of the toy fits. -/
def args : FitArgs ℚ := { fitDeg := 1, candTol := 300 }

/-- The report of a fit, if it returned. -/
def report (r : World ℚ × CallRes (FitReport ℚ)) : Option (FitReport ℚ) :=
  match r.2 with
  | .done (.ok r) => some r
  | _ => none

/-- The exception of a fit, if it raised. -/
def exception (r : World ℚ × CallRes (FitReport ℚ)) : Option PyErr :=
  match r.2 with
  | .done (.error e) => some e
  | _ => none

/-- One pass that draws the first choices. -/
def rnd : FitRandom ℚ := ⟨fun _ => 0, [⟨[], []⟩]⟩

/-- A fit of the toy calibrator succeeds with the line through both pairs. -/
example : (world 2 0).toOption.map (fun w => report (w.fit env args rnd)) =
    some (some ⟨[3100, 280], [10, 20], [5900, 8700], 0, some [0, 0], 1, .fin (2 / 5)⟩) := by
  decide +kernel

/-- The toy calibrator with sample size 2. -/
def ready : World ℚ := (world 2 0).toOption.get (by decide +kernel)

/-- What its fit returns. -/
def found : FitReport ℚ := ⟨[3100, 280], [10, 20], [5900, 8700], 0, some [0, 0], 1, .fin (2 / 5)⟩

/-- A successful fit, for the hypotheses of the theorems about fits. -/
theorem ready_fit : (ready.fit env args rnd).2 = .done (.ok found) := by
  have h : report (ready.fit env args rnd) = some found := by decide +kernel
  unfold report at h
  split at h
  · next r hr => rw [hr, Option.some.inj h]
  · cases h

theorem env_argsort : IsArgsort env.argsortK := stableArgsort_isArgsort

theorem ready_lines : ready.atlasLines = .ok [5900, 8700, 20000, 21000, 22000] := by
  have h : ready.atlasLines.toOption = some [5900, 8700, 20000, 21000, 22000] := by decide +kernel
  cases hl : ready.atlasLines with
  | error e => rw [hl] at h; cases h
  | ok l => rw [hl] at h; exact congrArg _ (Option.some.inj h)

end Rascal.Toy
