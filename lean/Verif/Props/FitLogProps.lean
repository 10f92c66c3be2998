import Verif.Model.FitLog
import Verif.Props.HistoryProps
import Mathlib.Analysis.Real.Sqrt

/-!
Property theorems C167 and C168: the warnings of `fit`.
-/

set_option linter.unusedSectionVars false

namespace Rascal

section
variable {K : Type _} [Field K] [LinearOrder K] [IsStrictOrderedRing K] [FloorRing K]

/-- What the search hands back when it returns a solution. -/
theorem solve_out (F : FitEnv K) (k : Kernels K) (c : Cal K) (lines : List K) (a : FitArgs K) (d : Nat)
    (rnd : FitRandom K) (out : SolveOut K) (h : (c.solve F k lines a d rnd).2 = .done (.ok out))
    (hc : out.coeffs ≠ none) :
    out.inliers = (c.solve F k lines a d rnd).1.matchedPeaks.length ∧
      out.valid = !decide (out.inliers ≤ d + 1) := by
  unfold Cal.solve at h ⊢
  split at h
  · simp at h
  · rename_i cands hcands
    dsimp only at h ⊢
    split at h
    · simp only [CallRes.done.injEq, Except.ok.injEq] at h
      subst h
      exact absurd rfl hc
    · rename_i hlen
      rw [if_neg hlen]
      unfold Cal.solveLists at h ⊢
      dsimp only at h ⊢
      split at h
      · simp at h
      · rename_i dd hd
        split at h
        · simp at h
        · rename_i cost err hst
          split at h
          · simp at h
          · simp at h
          · rename_i s hrun
            simp only [CallRes.done.injEq] at h
            unfold finishSolve at h
            split at h
            · rename_i hch
              simp only [Except.ok.injEq] at h
              subst h
              simp only [hrun]
              exact ⟨hch.1, trivial⟩
            · simp at h

theorem mem_matchesLog (m : Int) (nl np : Nat) :
    FitWarning.invalidFit ∉ matchesLog m nl np ∧ FitWarning.rmsTooLarge ∉ matchesLog m nl np ∧
      FitWarning.sampleSize ∉ matchesLog m nl np := by
  unfold matchesLog
  refine ⟨?_, ?_, ?_⟩ <;> (split_ifs <;> simp)

/-- C167, what holds: a fit that returns has logged "Invalid fit" exactly if it has at most `fit_deg + 1` matches,
and "RMS too large" exactly if the returned rms is above `fit_tolerance`.  What is missing: the solution is returned
all the same. -/
theorem C167_warnings_partial (F : FitEnv K) (w : World K) (a : FitArgs K) (fitTol : K) (rnd : FitRandom K)
    (r : FitReport K) (h : (w.fit F a rnd).2 = .done (.ok r)) :
    (FitWarning.invalidFit ∈ w.fitLog F a fitTol rnd ↔ r.matchedPeaks.length ≤ a.degree + 1) ∧
      (FitWarning.rmsTooLarge ∈ w.fitLog F a fitTol rnd ↔ fitTol < r.rms) := by
  unfold World.fit at h
  unfold World.fitLog
  dsimp only at h ⊢
  split at h
  · simp at h
  rename_i hft
  rw [if_neg hft]
  split at h
  · simp at h
  rename_i lines hl
  rw [hl]
  dsimp only at h ⊢
  unfold Cal.fitWith at h
  dsimp only at h
  generalize Cal.ensureHough F _ = H at *
  split at h
  · simp at h
  rename_i hh
  rw [hh]
  dsimp only
  unfold Cal.fitSearch at h
  unfold Cal.searchLog
  dsimp only at h ⊢
  split at h
  · simp at h
  · simp at h
  rename_i out hout
  rw [hout]
  dsimp only at h ⊢
  simp only [CallRes.done.injEq] at h
  have hso := solve_out F _ _ lines a a.degree rnd out hout
  generalize (Cal.solve F (F.kern a.fitType) _ lines a a.degree rnd).1 = c2 at *
  unfold Cal.finishFit at h
  split at h
  · simp at h
  rename_i u1 hu1
  split at h
  · simp at h
  rename_i u2 hu2
  split at h
  · simp at h
  rename_i co hco
  dsimp only at h
  simp only [Except.ok.injEq] at h
  obtain ⟨h1, h2⟩ := hso (by rw [hco]; simp)
  subst h
  unfold finishLog
  rw [hu1, hu2]
  dsimp only
  rw [h2, h1]
  obtain ⟨m1, m2, -⟩ := mem_matchesLog H.1.ransac.minMatches lines.length H.1.peaks.length
  constructor
  · rw [List.mem_append, List.mem_append, List.mem_append]
    by_cases hd : c2.matchedPeaks.length ≤ a.degree + 1
    · simp [hd]
    · simp only [hd, decide_false, Bool.not_false, if_true, iff_false]
      push Not
      refine ⟨?_, m1, by simp, ?_⟩
      · split_ifs <;> simp
      · split_ifs <;> simp
  · rw [List.mem_append, List.mem_append, List.mem_append]
    by_cases hd : fitTol < out.err
    · simp [hd]
    · simp only [hd, if_false, iff_false]
      push Not
      refine ⟨?_, m2, ?_, by simp⟩
      · split_ifs <;> simp
      · split_ifs <;> simp

/-- C167, what holds: with a `fit_tolerance` of at least `ransac_tolerance` (both are 5 by default) and a correct
square root the second warning is never logged by a fit that returns.  What is missing: see
`C167_warnings_partial`. -/
theorem C167_default_partial (F : FitEnv K) (ha : IsArgsort F.argsortK) (w : World K) (hp : PairsOnPeaks w.cal)
    (a : FitArgs K) (fitTol : K) (rnd : FitRandom K) (r : FitReport K) (h : (w.fit F a rnd).2 = .done (.ok r))
    (hsq : ∀ v : K, 0 ≤ v → 0 ≤ (F.kern a.fitType).sqrt v ∧ (F.kern a.fitType).sqrt v ^ 2 = v)
    (hle : w.cal.ransac.tol ≤ fitTol) : FitWarning.rmsTooLarge ∉ w.fitLog F a fitTol rnd := by
  rw [(C167_warnings_partial F w a fitTol rnd r h).2, not_lt]
  obtain ⟨-, -, -, -, -, -, -, -, ⟨res, -, -, -, -, hr, hb⟩, -⟩ := C62_report F ha w hp a rnd r h
  have h0 : 0 ≤ (res.map (fun x => x ^ 2)).sum / (res.length : K) := by
    apply div_nonneg
    · apply List.sum_nonneg
      intro v hv
      obtain ⟨x, -, rfl⟩ := List.mem_map.1 hv
      positivity
    · positivity
  obtain ⟨g1, g2⟩ := hsq _ h0
  rw [← hr] at g1 g2
  exact (hb g1 g2).trans hle

/-- C168, what holds: whatever the outcome, `minimum_matches` has another value after the call exactly if one of the
two warnings about it was logged, and the warning about `sample_size` is logged exactly if it was larger than the
atlas.  The last of the two warnings names the value that is used: the number of peaks, or of lines.  What is
missing: other changes of `sample_size` are not announced, see `C168_refuted`. -/
theorem C168_matches_partial (F : FitEnv K) (w : World K) (a : FitArgs K) (fitTol : K) (rnd : FitRandom K) :
    ((w.fit F a rnd).1.cal.ransac.minMatches ≠ w.cal.ransac.minMatches ↔
      FitWarning.matchesAtlas ∈ w.fitLog F a fitTol rnd ∨ FitWarning.matchesPeaks ∈ w.fitLog F a fitTol rnd) ∧
    (FitWarning.matchesPeaks ∈ w.fitLog F a fitTol rnd →
      (w.fit F a rnd).1.cal.ransac.minMatches = w.cal.peaks.length) ∧
    ∀ lines, a.fitType ≠ .other → w.atlasLines = .ok lines →
      (FitWarning.sampleSize ∈ w.fitLog F a fitTol rnd ↔ (lines.length : Int) < w.cal.ransac.sampleSize) ∧
      (FitWarning.matchesAtlas ∈ w.fitLog F a fitTol rnd → FitWarning.matchesPeaks ∉ w.fitLog F a fitTol rnd →
        (w.fit F a rnd).1.cal.ransac.minMatches = lines.length) := by
  unfold World.fit World.fitLog
  dsimp only
  split
  · rename_i hft
    exact ⟨by simp, by simp, fun _ h => absurd hft h⟩
  cases hl : w.atlasLines with
  | error e => exact ⟨by simp, by simp, fun _ _ h => by cases h⟩
  | ok lines =>
    dsimp only
    unfold Cal.fitWith
    dsimp only
    obtain ⟨ht, hl', hp, hfr⟩ := ensureHough_frame F
      { w.given a with ransac := { (w.given a).ransac with
        sampleSize := adjustSampleSize (w.given a).ransac.sampleSize lines.length a.fitDeg } }
    unfold World.given at hfr
    dsimp only at hfr
    have hmem : ∀ x : FitWarning, x ≠ .sampleSize →
        x ∉ (if w.cal.ransac.sampleSize > (lines.length : Int) then [FitWarning.sampleSize] else []) := by
      intro x hx
      split_ifs <;> simp [hx]
    have hsame : ∀ l, FitWarning.sampleSize ∉ l → (FitWarning.sampleSize ∈
        (if w.cal.ransac.sampleSize > (lines.length : Int) then [FitWarning.sampleSize] else []) ++ l ↔
          (lines.length : Int) < w.cal.ransac.sampleSize) := by
      intro l hnl
      rw [List.mem_append]
      split_ifs with hc
      · simp [hc]
      · simp only [List.not_mem_nil, hnl, or_self, false_iff]; exact hc
    generalize Cal.ensureHough F _ = H at *
    obtain ⟨H1, H2⟩ := H
    dsimp only at hfr ⊢
    cases H2 with
    | error e =>
      dsimp only
      refine ⟨?_, fun h => ?_, fun l _ h => ?_⟩
      · rw [hfr]
        simp [hmem]
      · simp [hmem] at h
      · cases h
        exact ⟨hsame [] (by simp), fun h => by simp [hmem] at h⟩
    | ok u =>
      dsimp only
      unfold Cal.fitSearch Cal.searchLog
      dsimp only
      have hsolve : ∀ (c : Cal K) (k : Kernels K),
          (c.solve F k lines a a.degree rnd).1.ransac.minMatches = c.ransac.minMatches := by
        intro c k
        unfold Cal.solve
        cases c.candidates F k lines a.candTol rnd.uniform with
        | error e => rfl
        | ok cands =>
          dsimp only
          split
          · rfl
          · unfold Cal.solveLists
            dsimp only
            repeat' split
            all_goals rfl
      have hfin : ∀ (c : Cal K) n out, (c.finishFit n out).1.ransac = c.ransac := by
        intro c n out
        unfold Cal.finishFit
        repeat' split
        all_goals rfl
      have hfl : ∀ np nl out x, x ∈ finishLog np nl fitTol out → x = .invalidFit ∨ x = .rmsTooLarge := by
        intro np nl out x hx
        unfold finishLog at hx
        split at hx
        · rw [List.mem_append] at hx
          rcases hx with hx | hx <;> split_ifs at hx <;> simp at hx <;> simp [hx]
        · simp at hx
      have hml : ∀ (m : Int) nl np, (FitWarning.matchesAtlas ∈ matchesLog m nl np ∨
          FitWarning.matchesPeaks ∈ matchesLog m nl np) ↔ adjustMinMatches m nl np ≠ m := by
        intro m nl np
        unfold matchesLog adjustMinMatches
        dsimp only
        split_ifs <;> simp <;> omega
      have hmp : ∀ (m : Int) nl np, FitWarning.matchesPeaks ∈ matchesLog m nl np →
          adjustMinMatches m nl np = np := by
        intro m nl np
        unfold matchesLog adjustMinMatches
        dsimp only
        split_ifs <;> simp
      have hma : ∀ (m : Int) nl np, FitWarning.matchesAtlas ∈ matchesLog m nl np →
          FitWarning.matchesPeaks ∉ matchesLog m nl np → adjustMinMatches m nl np = nl := by
        intro m nl np
        unfold matchesLog adjustMinMatches
        dsimp only
        split_ifs <;> simp
      have hq := hsolve { H1 with ransac := { H1.ransac with
        minMatches := adjustMinMatches H1.ransac.minMatches lines.length H1.peaks.length } } (F.kern a.fitType)
      dsimp only at hq
      generalize Cal.solve F (F.kern a.fitType) _ lines a a.degree rnd = q at *
      have e1 : H1.ransac.minMatches = w.cal.ransac.minMatches := by rw [hfr]
      have e2 : H1.peaks = w.cal.peaks := by rw [hfr]
      rw [e1, e2] at hq ⊢
      have key : ∀ (mm : Int) (rest : List FitWarning),
          mm = adjustMinMatches w.cal.ransac.minMatches lines.length w.cal.peaks.length →
          (∀ x ∈ rest, x = .invalidFit ∨ x = .rmsTooLarge) →
          let log := (if w.cal.ransac.sampleSize > (lines.length : Int) then [FitWarning.sampleSize] else []) ++
            (matchesLog w.cal.ransac.minMatches lines.length w.cal.peaks.length ++ rest)
          (mm ≠ w.cal.ransac.minMatches ↔ FitWarning.matchesAtlas ∈ log ∨ FitWarning.matchesPeaks ∈ log) ∧
          (FitWarning.matchesPeaks ∈ log → mm = w.cal.peaks.length) ∧
          ∀ lines', a.fitType ≠ .other → (Except.ok lines : PyRes (List K)) = .ok lines' →
            (FitWarning.sampleSize ∈ log ↔ (lines'.length : Int) < w.cal.ransac.sampleSize) ∧
            (FitWarning.matchesAtlas ∈ log → FitWarning.matchesPeaks ∉ log → mm = lines'.length) := by
        intro mm rest hmm hrest log
        have hnr : ∀ x : FitWarning, x ≠ .invalidFit → x ≠ .rmsTooLarge → x ∉ rest := by
          intro x h1 h2 hx
          rcases hrest x hx with h | h
          · exact h1 h
          · exact h2 h
        have ga : FitWarning.matchesAtlas ∈ log ↔
            FitWarning.matchesAtlas ∈ matchesLog w.cal.ransac.minMatches lines.length w.cal.peaks.length := by
          simp only [log, List.mem_append, hmem _ (show FitWarning.matchesAtlas ≠ .sampleSize by decide),
            hnr .matchesAtlas (by decide) (by decide), false_or, or_false]
        have gp : FitWarning.matchesPeaks ∈ log ↔
            FitWarning.matchesPeaks ∈ matchesLog w.cal.ransac.minMatches lines.length w.cal.peaks.length := by
          simp only [log, List.mem_append, hmem _ (show FitWarning.matchesPeaks ≠ .sampleSize by decide),
            hnr .matchesPeaks (by decide) (by decide), false_or, or_false]
        refine ⟨?_, fun h => ?_, fun l _ h => ?_⟩
        · rw [hmm, ← hml, ga, gp]
        · rw [hmm]
          exact hmp _ _ _ (gp.1 h)
        · cases h
          refine ⟨?_, fun h1 h2 => ?_⟩
          swap
          · rw [hmm]
            exact hma _ _ _ (ga.1 h1) (fun h3 => h2 (gp.2 h3))
          apply hsame
          rw [List.mem_append]
          push Not
          exact ⟨(mem_matchesLog _ _ _).2.2, hnr .sampleSize (by decide) (by decide)⟩
      obtain ⟨q1, q2⟩ := q
      dsimp only at hq ⊢
      rcases q2 with _ | (e | out)
      · exact key _ [] hq (by simp)
      · exact key _ [] hq (by simp)
      · refine key _ _ ?_ (fun x hx => hfl _ _ _ x hx)
        dsimp only
        rw [hfin]
        exact hq

end

/-! ### The refutations and concrete cases -/

/-- The documented meaning of `fit_tolerance`: a tolerance on whether a fit is considered acceptable. -/
def C167_Statement : Prop :=
  ∀ (F : FitEnv ℚ) (w : World ℚ) (a : FitArgs ℚ) (rnd : FitRandom ℚ) (fitTol : ℚ) (r : FitReport ℚ),
    IsArgsort F.argsortK → FitWarning.rmsTooLarge ∈ w.fitLog F a fitTol rnd ∨
      FitWarning.invalidFit ∈ w.fitLog F a fitTol rnd → (w.fit F a rnd).2 ≠ .done (.ok r)

/-- The tries of the case with an rms of about 2. -/
def Toy.missing : FitRandom ℚ := ⟨fun _ => 0, [⟨[0, 2], [0, 0]⟩]⟩

/-- C167 is false: a fit whose rms is above `fit_tolerance` is returned. -/
theorem C167_refuted : ¬ C167_Statement := by
  intro h
  have hc : (Toy.fourPeaks [4500, 5900, 7440, 8847]).toOption.bind (fun w =>
      (Toy.report (w.fit Toy.env (Toy.fourArgs 1) Toy.missing)).map (fun r =>
        (r.rms, w.fitLog Toy.env (Toy.fourArgs 1) 1 Toy.missing))) = some (127 / 65, [.rmsTooLarge]) := by
    decide +kernel
  cases hw : Toy.fourPeaks [4500, 5900, 7440, 8847] with
  | error e => rw [hw] at hc; simp [Except.toOption] at hc
  | ok w =>
    rw [hw] at hc
    simp only [Except.toOption, Option.bind_some, Option.map_eq_some_iff, Prod.mk.injEq] at hc
    obtain ⟨r, hr, h1, h2⟩ := hc
    exact h Toy.env w _ _ 1 r stableArgsort_isArgsort (.inl (by rw [h2]; simp)) (Toy.report_some _ _ hr)

/-- An overfitted solution (two matches, a straight line) is returned as well, with a warning: a case meeting the
hypotheses of `C167_warnings_partial`. -/
example : Toy.ready.fitLog Toy.env Toy.args 5 Toy.rnd = [.invalidFit] ∧ Toy.found.matchedPeaks.length ≤ Toy.args.degree + 1 ∧
    (Toy.ready.fit Toy.env Toy.args Toy.rnd).2 = .done (.ok Toy.found) :=
  ⟨by decide +kernel, by decide +kernel, Toy.ready_fit⟩

/-- The expected behaviour: no setting is changed without a warning. -/
def C168_Statement : Prop :=
  ∀ (F : FitEnv ℚ) (w : World ℚ) (a : FitArgs ℚ) (rnd : FitRandom ℚ) (fitTol : ℚ), IsArgsort F.argsortK →
    (w.fit F a rnd).1.cal.ransac ≠ w.cal.ransac →
    FitWarning.sampleSize ∈ w.fitLog F a fitTol rnd ∨ FitWarning.matchesAtlas ∈ w.fitLog F a fitTol rnd ∨
      FitWarning.matchesPeaks ∈ w.fitLog F a fitTol rnd

/-- The toy calibrator with sample size 1. -/
def Toy.single : World ℚ := (Toy.world 1 0).toOption.get (by decide +kernel)

/-- C168 is false: a sample size of 1 becomes 2 without a word for a straight line. -/
theorem C168_refuted : ¬ C168_Statement := by
  intro h
  have := h Toy.env Toy.single Toy.args Toy.rnd 5 stableArgsort_isArgsort (by decide +kernel)
  have hl : Toy.single.fitLog Toy.env Toy.args 5 Toy.rnd = [.invalidFit] := by decide +kernel
  rw [hl] at this
  simp at this

/-- `C168_matches_partial` with a calibrator that asks for three matches of two peaks, and a sample of ten. -/
example :
    let w := (Toy.ready.setRansac { sampleSize := some 10, minMatches := some 3 }).1
    w.fitLog Toy.env Toy.args 5 Toy.rnd = [.sampleSize, .matchesPeaks, .invalidFit, .rmsTooLarge] ∧
      (w.fit Toy.env Toy.args Toy.rnd).1.cal.ransac.minMatches = 2 := by decide +kernel

/-- Asking for ten matches of five lines and two peaks brings both warnings; the second names the value used. -/
example :
    let w := (Toy.ready.setRansac { minMatches := some 10 }).1
    w.fitLog Toy.env Toy.args 5 Toy.rnd = [.matchesAtlas, .matchesPeaks, .invalidFit] ∧
      (w.fit Toy.env Toy.args Toy.rnd).1.cal.ransac.minMatches = 2 := by decide +kernel

/-- The square roots of the hypotheses of `C167_default_partial` exist over the reals. -/
example : ∀ v : ℝ, 0 ≤ v → 0 ≤ Real.sqrt v ∧ Real.sqrt v ^ 2 = v := fun v hv => ⟨Real.sqrt_nonneg v, Real.sq_sqrt hv⟩

end Rascal
