import Verif.Props.MatchQualityProps

/-! Property theorem C173: what the refinement of `match_peaks` guarantees about the quality of the solution. -/

set_option linter.unusedSectionVars false

namespace Rascal

open Spec

/-- The contract on the minimiser: it does not return a point that is worse than its start (as Nelder-Mead, which
keeps the best point seen). -/
def Spec.NeverWorse {K : Type _} [LinearOrder K] (M : MatchKernels K) : Prop :=
  ∀ f x0 d v0, M.minimize f x0 = .ok (some d) → f x0 = .ok v0 → v0 ≠ .nan →
    ∃ v, f d = .ok v ∧ v.le v0 = true

/-- The first `n` coefficients enlarged by a thousandth. -/
def Spec.enlarged {K : Type _} [Field K] (n : Nat) (co : List K) : List K :=
  co.mapIdx (fun i c => if i < n then c + c / 1000 else c)

section
variable {K : Type _} [Field K] [LinearOrder K] [IsStrictOrderedRing K]

theorem addDelta_nil (co : List K) : addDelta co [] = .ok co := by
  unfold addDelta
  rw [if_neg (by simp)]
  congr 1
  apply List.ext_getElem
  · simp
  · intro i h1 h2
    simp

/-- The objective at a change is the objective of the changed coefficients. -/
theorem objective_changed (F : FitEnv K) (s : Session K) (a : MatchArgs K) (co d l : List K)
    (h : addDelta co d = .ok l) : s.objective F a co d = s.objective F a l [] := by
  unfold Session.objective adjustPolyfit
  rw [h, addDelta_nil]

theorem addDelta_start (co : List K) (n : Nat) :
    addDelta co ((co.take n).map (fun c => c * (1 / 1000))) = .ok (Spec.enlarged n co) := by
  unfold addDelta Spec.enlarged
  rw [if_neg (by simp)]
  congr 1
  apply List.ext_getElem
  · simp
  · intro i h1 h2
    simp only [List.length_mapIdx] at h1
    simp only [List.getElem_mapIdx, List.getD_eq_getElem?_getD, List.getElem?_map, List.getElem?_take]
    split
    · rw [List.getElem?_eq_getElem h1]
      simp only [Option.map_some, Option.getD_some]
      ring
    · simp

theorem pyTake_nat {α : Type _} (l : List α) (m : Int) (hm : 0 ≤ m) : pyTake l m = l.take m.toNat := by
  unfold pyTake pyBound
  rw [if_neg (by omega)]
  by_cases hc : m ≤ l.length
  · rw [min_eq_left (by omega)]
  · rw [min_eq_right (by omega), List.take_length, List.take_of_length_le (by omega)]

theorem matchFit_refined (F : FitEnv K) (M : MatchKernels K) (s s' : Session K) (nLines deg : Nat) (l xs ys : List K)
    (r : MatchReport K) (h : s.matchFit F M nLines false deg (.coeffs l) xs ys = (s', .ok (.report r))) :
    r.coeffs = l := by
  unfold Session.matchFit at h
  dsimp only at h
  split at h
  · cases h
  · split at h
    · cases h
    · split at h
      · unfold Session.matchRefit at h
        simp only [Bool.false_eq_true, if_false] at h
        cases h
        rfl
      · cases h

theorem objective_not_nan (F : FitEnv K) (s : Session K) (a : MatchArgs K) (co d : List K) (v : PyFloat K)
    (h : s.objective F a co d = .ok v) : v ≠ .nan := by
  unfold Session.objective at h
  split at h
  · unfold adjustPolyfit at h
    split at h
    · cases h
    · split at h
      · cases h
      · split at h
        · cases h
        · dsimp only at h
          split at h
          · cases h; simp
          · split at h
            · cases h; simp
            · split at h
              · cases h; simp
              · cases h; simp
  · cases h

/-- Without the robust fit the coefficients returned are those of the refinement. -/
theorem refined_returned (F : FitEnv K) (M : MatchKernels K) (s s' : Session K) (a : MatchArgs K)
    (r : MatchReport K) (hr : a.refine = true) (hrob : a.robust = false)
    (h : s.matchPeaks F M a = (s', .ok (.report r))) :
    ∃ kind co, s.inputCoeff a = .ok (kind, co) ∧ s.refineStep F M a kind co = .ok (.coeffs r.coeffs) := by
  unfold Session.matchPeaks at h
  cases hi : s.inputCoeff a with
  | error e => rw [hi] at h; cases h
  | ok kc =>
    obtain ⟨kind, co⟩ := kc
    rw [hi] at h
    dsimp only at h
    refine ⟨kind, co, rfl, ?_⟩
    cases hst : s.refineStep F M a kind co with
    | error e => rw [hst] at h; cases h
    | ok n =>
      rw [hst] at h
      cases n with
      | nan => cases h
      | skipped =>
        rcases (refineStep_spec F M s a kind co _ hst).2 hr with h' | ⟨l, h'⟩ <;> cases h'
      | coeffs l =>
        dsimp only at h
        unfold Session.matchSearch at h
        split at h
        · cases h
        · split at h
          · cases h
          · split at h
            · cases h
            · dsimp only at h
              split at h
              · cases h
              · rw [hrob] at h
                rw [matchFit_refined F M _ _ _ _ _ _ _ _ h]

/-- C173, what holds: with `refine=True` and `robust_refit=False` the solution returned by `match_peaks` is not worse
than the input solution with the first `n_delta` coefficients (default: all but the last) enlarged by a thousandth,
from which the minimiser starts.  Missing: it can be worse than the input solution. -/
theorem C173_start_partial (F : FitEnv K) (M : MatchKernels K) (hM : NeverWorse M) (s s' : Session K)
    (a : MatchArgs K) (r : MatchReport K) (hr : a.refine = true) (hrob : a.robust = false)
    (h : s.matchPeaks F M a = (s', .ok (.report r))) (co : List K) (hco : ∃ kind, s.inputCoeff a = .ok (kind, co))
    (n : Nat) (hn : a.nDelta = some (n : Int) ∨ a.nDelta = none ∧ co.length = n + 1) :
    ∀ v0, s.objective F a (Spec.enlarged n co) [] = .ok v0 →
      ∃ v, s.objective F a r.coeffs [] = .ok v ∧ v.le v0 = true := by
  intro v0 hv0
  obtain ⟨kind', hco⟩ := hco
  obtain ⟨kind, co', hi, hs⟩ := refined_returned F M s s' a r hr hrob h
  rw [hco] at hi
  cases hi
  have hnd : a.nDelta.getD ((co.length : Int) - 1) = (n : Int) := by
    rcases hn with hn | ⟨hn, hl⟩
    · rw [hn]; rfl
    · rw [hn, hl]; simp
  unfold Session.refineStep at hs
  rw [hr, hnd, pyTake_nat _ _ (by omega), Int.toNat_natCast] at hs
  simp only [Bool.not_true, Bool.false_eq_true, if_false] at hs
  split at hs
  · cases hs
  · cases hs
  · split at hs
    · cases hs
    · cases hs
    · rename_i d hd
      split at hs
      · cases hs
      · rename_i l hl
        cases hs
        obtain ⟨v, hv, hle⟩ := hM _ _ _ v0 hd (by
          rw [objective_changed F s a co _ _ (addDelta_start co n)]
          exact hv0) (objective_not_nan F s a _ _ _ hv0)
        exact ⟨v, by rw [← objective_changed F s a co d _ hl]; exact hv, hle⟩

end

/-! ### refutation and concrete cases -/

/-- The expected behaviour: the refined solution is not worse than the input solution. -/
def C173_Statement : Prop :=
  ∀ (F : FitEnv ℚ) (M : MatchKernels ℚ), NeverWorse M → ∀ (s s' : Session ℚ) (a : MatchArgs ℚ) (r : MatchReport ℚ),
    a.refine = true → a.robust = false → s.matchPeaks F M a = (s', .ok (.report r)) →
    ∀ kind co, s.inputCoeff a = .ok (kind, co) → ∀ v0, s.objective F a co [] = .ok v0 →
    ∃ v, s.objective F a r.coeffs [] = .ok v ∧ v.le v0 = true

/-- A minimiser that gives up at its start. -/
def Toy.atStart : MatchKernels ℚ where
  minimize := fun _ start => .ok (some start)
  robust := Toy.mkern.robust

theorem Toy.atStart_neverWorse : NeverWorse Toy.atStart := by
  intro f x0 d v0 h h0 hn
  cases h
  exact ⟨v0, h0, PyFloat.le_refl v0 hn⟩

/-- Four peaks on the line of the input solution. -/
def Toy.refineArgs : MatchArgs ℚ :=
  { coeff := some (true, [3000, 100]), tol := 10, minFrac := 1 / 2, refine := true, robust := false }

/-- The minimiser gives up at its start, which is three units off the exact input solution. -/
theorem Toy.refine_run : ∃ s s' r, Toy.session [10, 20, 30, 40] false [4000, 5000, 6000, 7000] = .ok s ∧
    s.matchPeaks env atStart refineArgs = (s', .ok (.report r)) ∧ r.coeffs = [3003, 100] ∧
    s.objective env refineArgs [3000, 100] [] = .ok (.fin 0) ∧
    s.objective env refineArgs [3003, 100] [] = .ok (.fin 36) := by
  have hc : (Toy.session [10, 20, 30, 40] false [4000, 5000, 6000, 7000]).toOption.bind (fun s =>
      (matchReport (s.matchPeaks env atStart refineArgs)).map (fun r =>
        (r.coeffs, (s.objective env refineArgs [3000, 100] []).toOption,
          (s.objective env refineArgs [3003, 100] []).toOption))) =
      some ([3003, 100], some (.fin 0), some (.fin 36)) := by decide +kernel
  cases hs : Toy.session [10, 20, 30, 40] false [4000, 5000, 6000, 7000] with
  | error e => rw [hs] at hc; simp [Except.toOption] at hc
  | ok s =>
    rw [hs] at hc
    simp only [Except.toOption, Option.bind_some, Option.map_eq_some_iff, Prod.mk.injEq] at hc
    obtain ⟨r, hr, h1, h2, h3⟩ := hc
    refine ⟨s, _, r, rfl, Toy.matchReport_some hr, h1, ?_, ?_⟩
    · revert h2
      cases s.objective env refineArgs [3000, 100] [] <;> simp
    · revert h3
      cases s.objective env refineArgs [3003, 100] [] <;> simp

/-- C173 is false: the search starts with coefficients enlarged by a thousandth, not with the input solution. -/
theorem C173_refuted : ¬ C173_Statement := by
  intro h
  obtain ⟨s, s', r, _, hm, hc, h0, h1⟩ := Toy.refine_run
  obtain ⟨v, hv, hle⟩ := h Toy.env Toy.atStart Toy.atStart_neverWorse s s' Toy.refineArgs r rfl rfl hm .array [3000, 100]
    rfl _ h0
  rw [hc, h1] at hv
  cases hv
  revert hle
  decide +kernel

/-- A case for `C173_start_partial`. -/
example : ∃ (s s' : Session ℚ) (r : MatchReport ℚ), s.matchPeaks Toy.env Toy.atStart Toy.refineArgs = (s', .ok (.report r)) ∧
    s.objective Toy.env Toy.refineArgs (Spec.enlarged 1 [3000, 100]) [] = .ok (.fin 36) ∧
    ∃ v, s.objective Toy.env Toy.refineArgs r.coeffs [] = .ok v ∧ v.le (.fin 36) = true := by
  obtain ⟨s, s', r, _, hm, hc, h0, h1⟩ := Toy.refine_run
  have he : Spec.enlarged 1 [(3000 : ℚ), 100] = [3003, 100] := by decide +kernel
  refine ⟨s, s', r, hm, by rw [he]; exact h1, ?_⟩
  exact C173_start_partial Toy.env Toy.atStart Toy.atStart_neverWorse s s' Toy.refineArgs r rfl rfl hm [3000, 100]
    ⟨.array, rfl⟩ 1 (Or.inr ⟨rfl, rfl⟩) _ (by rw [he]; exact h1)

end Rascal
