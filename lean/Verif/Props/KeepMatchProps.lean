import Verif.Props.MatchMonoProps
import Verif.Props.FitProps
import Verif.Props.UnitProps
import Verif.Props.AfterFitProps

/-! Property theorems C204: `match_peaks` right after `fit` keeps the matches of the fit. -/

set_option linter.unusedSectionVars false

namespace Rascal

open Spec

section
variable {K : Type _} [Field K] [LinearOrder K] [IsStrictOrderedRing K]

/-- A call that returns a report has every peak with a line within the tolerance, with that line. -/
theorem match_has (F : FitEnv K) (M : MatchKernels K) (s s' : Session K) (a : MatchArgs K) (r : MatchReport K)
    (h : s.matchPeaks F M a = (s', .ok (.report r))) (b : FitType) (co lines : List K) (hb : s.basis = some b)
    (hco : StartsFrom s a co) (hl : s.world.atlasLines = .ok lines) (e : K × K) (h1 : e.1 ∈ s.world.cal.peaks)
    (h2 : e.2 ∈ lines) (h3 : |e.2 - (F.kern b).polyval co e.1| < a.tol) : e ∈ r.peaks.zip r.atlas := by
  obtain ⟨b', co', lines', fitted, res, new, R⟩ := matchPeaks_report F M s a s' r h
  have eb : b' = b := Option.some.inj (R.basis.symm.trans hb)
  have el : lines' = lines := Except.ok.inj (R.hasLines.symm.trans hl)
  have eco : co' = co := by
    rcases hco with ⟨arr, e1⟩ | ⟨e1, e2⟩ <;> rcases R.start with ⟨arr', f1⟩ | ⟨f1, f2⟩
    · rw [e1] at f1; exact (Prod.mk.inj (Option.some.inj f1)).2.symm
    · rw [e1] at f1; cases f1
    · rw [e1] at f1; cases f1
    · rw [e2] at f2; exact (Option.some.inj f2).symm
  subst eb el eco
  have hp : e.1 ∈ r.peaks := by
    rw [R.peaks, List.mem_filter]
    exact ⟨h1, decide_eq_true ⟨e.2, h2, h3⟩⟩
  obtain ⟨i, hi, hie⟩ := List.getElem_of_mem hp
  have hi' : i < r.atlas.length := by rw [← R.length]; exact hi
  have hz : (e.1, r.atlas[i]) ∈ r.peaks.zip r.atlas := by
    rw [List.mem_iff_getElem]
    exact ⟨i, by simp; omega, by simp [hie]⟩
  obtain ⟨m₁, m₂, hs', hd2, hno⟩ := (List.forall₂_iff_zip.1 R.only).2 hz
  have hu : e.2 = r.atlas[i] := by
    by_contra hne
    refine hno e.2 ?_ h3
    rw [hs'] at h2
    rcases List.mem_append.1 h2 with hm | hm
    · exact List.mem_append_left _ hm
    · rcases List.mem_cons.1 hm with he | hm
      · exact absurd he hne
      · exact List.mem_append_right _ hm
  rw [show e = (e.1, e.2) from rfl, hu]
  exact hz

/-- C204, what holds: if `match_peaks` is called right after a `fit` and returns, it has every pair of the fit that is
within its tolerance of the solution.  What is missing: pairs the robust fit has moved away from. -/
theorem C204_near_partial [FloorRing K] (F : FitEnv K) (M : MatchKernels K) (ha : IsArgsort F.argsortK)
    (s t : Session K) (hp : PairsOnPeaks s.world.cal) (a : FitArgs K) (arr : Bool) (rnd : FitRandom K)
    (r : FitReport K) (c : MatchArgs K) (q : MatchReport K) (lines : List K)
    (h : (s.fit F a arr rnd).2 = .done (.ok r)) (hc : c.coeff = none)
    (g : (s.fit F a arr rnd).1.matchPeaks F M c = (t, .ok (.report q))) (hl : s.world.atlasLines = .ok lines)
    (e : K × K) (he : e ∈ r.matchedPeaks.zip r.matchedAtlas) (hw : e.2 ∈ lines)
    (hn : |e.2 - (F.kern a.fitType).polyval r.coeffs e.1| < c.tol) : e ∈ q.peaks.zip q.atlas := by
  have h' : (s.world.fit F a rnd).2 = .done (.ok r) := h
  have hft : a.fitType ≠ .other := by
    intro hft
    unfold World.fit at h'
    dsimp only at h'
    rw [if_pos hft] at h'
    cases h'
  obtain ⟨hfr, hat⟩ := fit_frame F s.world a rnd
  obtain ⟨-, -, -, hpk, -, -, -, -, -, -, -, -, hco, -⟩ := C62_report F ha s.world hp a rnd r h'
  refine match_has F M _ t c q g a.fitType r.coeffs lines ?_ (.inr ⟨hc, hco⟩) ?_ e ?_ hw hn
  · show (if a.fitType = .other then s.basis else some a.fitType) = _
    rw [if_neg hft]
  · show (s.world.fit F a rnd).1.atlasLines = _
    rw [← hl]
    unfold World.atlasLines
    rw [hat, hfr.atlas]
  · show e.1 ∈ (s.world.fit F a rnd).1.cal.peaks
    rw [hfr.peaks]
    exact hpk _ (List.of_mem_zip (a := e.1) (b := e.2) he).1

/-- C204, what holds: with a tolerance at least `ransac_tolerance`, every pair is kept if no residual of the fit is at
`ransac_tolerance`, and the utilisation does not fall.  What is missing: residuals that were cut. -/
theorem C204_kept_partial [FloorRing K] (F : FitEnv K) (M : MatchKernels K) (ha : IsArgsort F.argsortK)
    (s t : Session K) (hp : PairsOnPeaks s.world.cal) (a : FitArgs K) (arr : Bool) (rnd : FitRandom K)
    (r : FitReport K) (c : MatchArgs K) (q : MatchReport K) (lines : List K)
    (h : (s.fit F a arr rnd).2 = .done (.ok r)) (hc : c.coeff = none)
    (g : (s.fit F a arr rnd).1.matchPeaks F M c = (t, .ok (.report q))) (hl : s.world.atlasLines = .ok lines)
    (hw : ∀ v ∈ r.matchedAtlas, v ∈ lines) (htol : s.world.cal.ransac.tol ≤ c.tol)
    (hres : ∀ res, r.residual = some res → ∀ x ∈ res, |x| < s.world.cal.ransac.tol) :
    (∀ e ∈ r.matchedPeaks.zip r.matchedAtlas, e ∈ q.peaks.zip q.atlas) ∧ r.peakUtil ≤ q.peakUtil := by
  have h' : (s.world.fit F a rnd).2 = .done (.ok r) := h
  obtain ⟨hlen, hnd, -, hpk, -, -, -, -, ⟨res, hr1, hr2, hr3, -⟩, hpu, -, -, -⟩ :=
    C62_report F ha s.world hp a rnd r h'
  have key : ∀ e ∈ r.matchedPeaks.zip r.matchedAtlas, e ∈ q.peaks.zip q.atlas := by
    intro e he
    refine C204_near_partial F M ha s t hp a arr rnd r c q lines h hc g hl e he
      (hw _ (List.of_mem_zip (a := e.1) (b := e.2) he).2) ?_
    obtain ⟨i, hi, hie⟩ := List.getElem_of_mem he
    rw [List.length_zip] at hi
    rw [List.getElem_zip] at hie
    obtain ⟨x, hx, hx1, hx2⟩ := hr3 i e.1 e.2 (by rw [List.getElem?_eq_getElem (by omega), ← hie])
      (by rw [List.getElem?_eq_getElem (by omega), ← hie])
    have hxb := hres res hr1 x (List.mem_of_getElem? hx)
    rw [abs_sub_comm]
    rcases le_or_gt |(F.kern a.fitType).polyval r.coeffs e.1 - e.2| s.world.cal.ransac.tol with hle | hgt
    · rw [hx1 hle] at hxb
      exact hxb.trans_le htol
    · rw [hx2 hgt] at hxb
      exact absurd (le_abs_self s.world.cal.ransac.tol) (not_le.2 hxb)
  refine ⟨key, ?_⟩
  obtain ⟨-, -, -, -, -, -, -, -, -, hq, -⟩ := C70_matched_peaks F M _ t c q g
  have hpe : (s.fit F a arr rnd).1.world.cal.peaks = s.world.cal.peaks := (fit_frame F s.world a rnd).1.peaks
  rw [hpu, hq, hpe]
  have hsub : r.matchedPeaks ⊆ q.peaks := by
    intro p hpm
    obtain ⟨i, hi, hie⟩ := List.getElem_of_mem hpm
    have hz : (p, r.matchedAtlas[i]'(by omega)) ∈ r.matchedPeaks.zip r.matchedAtlas := by
      rw [List.mem_iff_getElem]
      exact ⟨i, by simp; omega, by simp [hie]⟩
    exact (List.of_mem_zip (key _ hz)).1
  have hle : r.matchedPeaks.length ≤ q.peaks.length := (hnd.subperm hsub).length_le
  exact div_le_div_of_nonneg_right (by exact_mod_cast hle) (Nat.cast_nonneg _)

end

/-- The expected behaviour: with a tolerance at least that of the fit, `match_peaks` keeps every pair of the fit. -/
def C204_Statement : Prop :=
  ∀ (F : FitEnv ℚ) (M : MatchKernels ℚ) (s t : Session ℚ) (a : FitArgs ℚ) (rnd : FitRandom ℚ)
    (r : FitReport ℚ) (c : MatchArgs ℚ) (q : MatchReport ℚ) (lines : List ℚ), IsArgsort F.argsortK →
    (s.fit F a false rnd).2 = .done (.ok r) → c.coeff = none →
    (s.fit F a false rnd).1.matchPeaks F M c = (t, .ok (.report q)) → s.world.atlasLines = .ok lines →
    (∀ v ∈ r.matchedAtlas, v ∈ lines) → s.world.cal.ransac.tol ≤ c.tol →
    ∀ e ∈ r.matchedPeaks.zip r.matchedAtlas, e ∈ q.peaks.zip q.atlas

/-- Four peaks whose last two lines are off by 4.9 in opposite directions. -/
def Toy.apartLines : PyRes (World ℚ) := Toy.fourPeaks [4500, 5900, 74449 / 10, 88351 / 10]

/-- The session after the fit. -/
def Toy.apartFit (w : World ℚ) : Session ℚ × CallRes (FitReport ℚ) :=
  (Session.new w false).fit Toy.env (Toy.fourArgs 1) false Toy.rnd

set_option synthInstance.maxSize 2000 in
set_option synthInstance.maxHeartbeats 400000 in
/-- The fit matches all four peaks; `match_peaks` with the tolerance 5.2 three of them, with 6 all four. -/
theorem Toy.apartLines_runs : Toy.apartLines.toOption.map (fun w =>
    ((Toy.sessionReport (Toy.apartFit w)).map (fun r => (r.matchedPeaks, r.matchedAtlas, r.residual)),
     (Toy.matchReport ((Toy.apartFit w).1.matchPeaks Toy.env Toy.mkern { tol := 26 / 5, minFrac := 1 / 2 })).map
        (fun q => (q.peaks, q.atlas)),
     (Toy.matchReport ((Toy.apartFit w).1.matchPeaks Toy.env Toy.mkern { tol := 6, minFrac := 1 / 2 })).map
        (fun q => (q.peaks, q.atlas)),
     w.atlasLines.toOption, w.cal.ransac.tol)) =
    some (some ([10, 20, 31, 41], [4500, 5900, 74449 / 10, 88351 / 10],
        some [1519 / 1082, 539 / 1082, 5, 9457 / 2705]),
      some ([10, 20, 41], [4500, 5900, 88351 / 10]),
      some ([10, 20, 31, 41], [4500, 5900, 74449 / 10, 88351 / 10]),
      some [4500, 5900, 74449 / 10, 88351 / 10], 5) := by
  decide +kernel

/-- C204 is false: the robust fit ends 5.4 away from the third line, which the trial had within 5. -/
theorem C204_refuted : ¬ C204_Statement := by
  intro h
  have hd := Toy.apartLines_runs
  cases hw : Toy.apartLines with
  | error e => rw [hw] at hd; cases hd
  | ok w =>
    rw [hw] at hd
    have hd := Option.some.inj hd
    simp only [Prod.mk.injEq, Option.map_eq_some_iff] at hd
    obtain ⟨⟨r, h1, hr1, hr2, -⟩, ⟨q, h2, hq1, hq2⟩, -, h4, h5⟩ := hd
    have hl : w.atlasLines = .ok [4500, 5900, 74449 / 10, 88351 / 10] := by
      cases hl : w.atlasLines with
      | error e => rw [hl] at h4; cases h4
      | ok l => rw [hl] at h4; exact congrArg _ (Option.some.inj h4)
    have := h Toy.env Toy.mkern (Session.new w false) _ (Toy.fourArgs 1) Toy.rnd r
      { tol := 26 / 5, minFrac := 1 / 2 } q _ stableArgsort_isArgsort (Toy.sessionReport_some h1) rfl
      (Toy.matchReport_some h2) hl (by rw [hr2]; simp) (by show w.cal.ransac.tol ≤ _; rw [h5]; norm_num)
    rw [hr1, hr2, hq1, hq2] at this
    revert this
    decide +kernel

set_option synthInstance.maxSize 2000 in
set_option synthInstance.maxHeartbeats 400000 in
/-- A case for both theorems: three lines on a straight line and the fourth off by one; no residual reaches the tolerance,
and `match_peaks` keeps the four pairs. -/
example : (Toy.fourPeaks [4500, 5900, 7440, 8841]).toOption.map (fun w =>
    ((Toy.sessionReport (Toy.apartFit w)).map (fun r =>
        (r.matchedPeaks, (r.residual.getD []).all (fun x => decide (|x| < w.cal.ransac.tol)), r.peakUtil)),
     (Toy.matchReport ((Toy.apartFit w).1.matchPeaks Toy.env Toy.mkern { tol := 10, minFrac := 1 / 2 })).map
        (fun q => (q.peaks, q.atlas, q.peakUtil)), decide (w.cal.ransac.tol ≤ 10))) =
    some (some ([10, 20, 31, 41], true, 1), some ([10, 20, 31, 41], [4500, 5900, 7440, 8841], 1), true) := by
  decide +kernel

end Rascal
