import Verif.Proofs.MatchMain
import Verif.Proofs.ToySession

/-! Property theorems C70 to C74, C96 and C98: `match_peaks`. -/

set_option linter.unusedSectionVars false

namespace Rascal

open Spec

section
variable {K : Type _} [Field K] [LinearOrder K] [IsStrictOrderedRing K]

/-! ### C70 -/

/-- C70: the peaks returned are, in order, those with a line within the tolerance of the wavelength
predicted by the starting coefficients; each is returned with such a line; their fraction is the peak
utilisation.  The same lists are stored. -/
theorem C70_matched_peaks (F : FitEnv K) (M : MatchKernels K) (s s' : Session K) (a : MatchArgs K)
    (r : MatchReport K) (h : s.matchPeaks F M a = (s', .ok (.report r))) :
    ∃ b co lines, s.basis = some b ∧ StartsFrom s a co ∧ s.world.atlasLines = .ok lines ∧
      r.peaks = s.world.cal.peaks.filter
        (fun p => decide (Near lines a.tol ((F.kern b).polyval co p))) ∧
      r.peaks ≠ [] ∧
      List.Forall₂ (fun p l => l ∈ lines ∧ |l - (F.kern b).polyval co p| < a.tol) r.peaks r.atlas ∧
      r.peakUtil = (r.peaks.length : K) / (s.world.cal.peaks.length : K) ∧
      0 < r.peakUtil ∧ r.peakUtil ≤ 1 ∧
      s'.world.cal.matchedPeaks = r.peaks ∧ s'.world.cal.matchedAtlas = r.atlas := by
  obtain ⟨b, co, lines, fitted, res, new, R⟩ := matchPeaks_report F M s a s' r h
  have hu := R.ending.lists.2.2.1
  have hle : r.peaks.length ≤ s.world.cal.peaks.length := by
    rw [R.peaks]; exact List.length_filter_le _ _
  have hpos : 0 < r.peaks.length := List.length_pos_iff.2 R.nonempty
  have hpos' : (0 : K) < (s.world.cal.peaks.length : K) := by
    exact_mod_cast lt_of_lt_of_le hpos hle
  refine ⟨b, co, lines, R.basis, R.start, R.hasLines, R.peaks, R.nonempty, ?_, hu, ?_, ?_, ?_⟩
  · refine R.only.imp ?_
    rintro p l ⟨l₁, l₂, rfl, h1, _⟩
    exact ⟨by simp, h1⟩
  · rw [hu]; exact div_pos (by exact_mod_cast hpos) hpos'
  · rw [hu, div_le_one hpos']; exact_mod_cast hle
  · have hend := R.ending
    generalize ho : (Except.ok (MatchOut.report r) : PyRes (MatchOut K)) = o at hend
    cases hend with
    | failed e _ _ => cases ho
    | nan s' h1 h2 h3 => subst h3; exact ⟨rfl, rfl⟩
    | robust co s' h1 h2 h3 => subst h3; exact ⟨rfl, rfl⟩
    | refined co s' h1 h2 h3 => subst h3; exact ⟨rfl, rfl⟩
    | unbound _ _ => cases ho

/-- Three peaks, of which two have a line within the tolerance. -/
example : (Toy.session [10, 20, 30] false [5900, 8700]).toOption.map (fun s =>
      Toy.matchReport (s.matchPeaks Toy.env Toy.mkern
        { coeff := some (true, [3101, 280]), tol := 10, minFrac := 1 / 2 })) =
    some (some ⟨[3100, 280], [10, 20], [5900, 8700], 0, [0, 0], 2 / 3, 1⟩) := by
  decide +kernel

/-! ### C71 -/

/-- The expected behaviour: with several lines within the tolerance of a peak the alternatives are
tried, and if every fit succeeds there is a result. -/
def C71_Statement : Prop :=
  ∀ (F : FitEnv ℚ) (M : MatchKernels ℚ) (s : Session ℚ) (a : MatchArgs ℚ) (b : FitType)
    (co lines : List ℚ) (arr : Bool),
    a.coeff = some (arr, co) → co ≠ [] → a.refine = false → a.robust = true → s.basis = some b →
    s.world.atlasLines = .ok lines → s.world.cal.peaks ≠ [] →
    (∀ p ∈ s.world.cal.peaks, Near lines a.tol ((F.kern b).polyval co p)) →
    (∀ ys, ys.length = s.world.cal.peaks.length → ys.Nodup →
      (polyfitChecked (F.kern b) s.world.cal.peaks ys (a.deg.getD (co.length - 1))).toBool = true ∧
      (M.robust s.world.cal.peaks ys (a.deg.getD (co.length - 1)) none).toBool = true) →
    ∃ s' r, s.matchPeaks F M a = (s', .ok (.report r))

/-- C71, what holds: a result is only returned if no matched peak was ambiguous; otherwise the call
raises TypeError. -/
theorem C71_ambiguous_partial (F : FitEnv K) (M : MatchKernels K) (s s' : Session K) (a : MatchArgs K)
    (r : MatchReport K) (h : s.matchPeaks F M a = (s', .ok (.report r))) :
    ∃ b co lines, s.basis = some b ∧ StartsFrom s a co ∧ s.world.atlasLines = .ok lines ∧
      List.Forall₂ (fun p l => OnlyNear lines a.tol ((F.kern b).polyval co p) l) r.peaks r.atlas := by
  obtain ⟨b, co, lines, fitted, res, new, R⟩ := matchPeaks_report F M s a s' r h
  exact ⟨b, co, lines, R.basis, R.start, R.hasLines, R.only⟩

/-- The hypothesis of `C71_ambiguous_partial` met by two peaks. -/
example := C71_ambiguous_partial Toy.env Toy.mkern Toy.pair _ Toy.matchArgs Toy.matchFound Toy.pair_match

/-- C71, what happens instead: an ambiguous peak makes the call raise TypeError. -/
theorem C71_ambiguous_raises_partial (F : FitEnv K) (M : MatchKernels K) (s : Session K)
    (a : MatchArgs K) (b : FitType) (co lines : List K) (arr : Bool) (hc : a.coeff = some (arr, co))
    (hne : co ≠ []) (hr : a.refine = false) (hb : s.basis = some b)
    (hl : s.world.atlasLines = .ok lines) (p : K) (hp : p ∈ s.world.cal.peaks) (a₁ a₂ : K)
    (l₁ l₂ l₃ : List K) (hsplit : lines = l₁ ++ a₁ :: l₂ ++ a₂ :: l₃)
    (h1 : |a₁ - (F.kern b).polyval co p| < a.tol) (h2 : |a₂ - (F.kern b).polyval co p| < a.tol) :
    (s.matchPeaks F M a).2 = .error .typeError := by
  have hpk : s.world.cal.peaks ≠ [] := List.ne_nil_of_mem hp
  have hin : s.inputCoeff a = .ok (if arr then .array else .list, co) := by
    rw [Session.inputCoeff, hc]
  have hkind : (if arr then CoeffKind.array else CoeffKind.list) ≠ .nan := by
    cases arr <;> simp
  have hE : s.matchPeaks F M a =
      (match expandMatches ((matchLoop ((F.kern b).polyval co) lines a.tol s.world.cal.peaks).map
          Prod.snd) [] with
      | .error e => (s, .error e)
      | .ok ys => s.matchFit F M lines.length a.robust (a.deg.getD (co.length - 1)) .skipped
          ((matchLoop ((F.kern b).polyval co) lines a.tol s.world.cal.peaks).map Prod.fst) ys) := by
    simp only [Session.matchPeaks, hin, Session.refineStep, hr, Bool.not_false, if_true,
      Session.matchSearch, hl, hb, hne, and_false, if_false, hkind, Option.getD_some, reduceCtorEq]
    rfl
  have hmem : (p, linesNear lines a.tol ((F.kern b).polyval co p)) ∈
      matchLoop ((F.kern b).polyval co) lines a.tol s.world.cal.peaks := by
    have hnear : linesNear lines a.tol ((F.kern b).polyval co p) ≠ [] := by
      apply List.ne_nil_of_mem (a := a₁)
      simp [linesNear, hsplit, h1]
    simp only [matchLoop, List.mem_filterMap]
    exact ⟨p, hp, by rw [if_neg hnear]⟩
  have htwo : 2 ≤ (linesNear lines a.tol ((F.kern b).polyval co p)).length := by
    rw [hsplit]
    simp only [linesNear, List.filter_append, List.filter_cons, h1, h2, decide_true, if_true,
      List.length_append, List.length_cons]
    omega
  rw [hE]
  cases he : expandMatches ((matchLoop ((F.kern b).polyval co) lines a.tol s.world.cal.peaks).map
      Prod.snd) [] with
  | error e =>
    obtain ⟨rfl, _⟩ := expandMatches_error _ _ _ he
    rfl
  | ok ys =>
    dsimp only
    have hlen : ((matchLoop ((F.kern b).polyval co) lines a.tol s.world.cal.peaks).map
        Prod.fst).length ≠ ys.length := by
      intro hlen
      obtain ⟨t, ht, _, hf⟩ := expandMatches_ok _ _ _ he
      rw [List.nil_append] at ht
      subst ht
      have hf' := hf (by simpa using hlen.symm)
      obtain ⟨i, hi, hgi⟩ := List.getElem_of_mem hmem
      rw [List.forall₂_iff_get] at hf'
      have hv := hf'.2 i (by simpa using hi) (by rw [← hlen]; simpa using hi)
      simp only [List.get_eq_getElem, List.getElem_map, hgi] at hv
      rw [hv] at htwo
      simp at htwo
    unfold Session.matchFit
    simp only [hb]
    have : polyfitChecked (F.kern b) ((matchLoop ((F.kern b).polyval co) lines a.tol
        s.world.cal.peaks).map Prod.fst) ys (a.deg.getD (co.length - 1)) = .error .typeError := by
      unfold polyfitChecked
      rw [if_pos (.inr hlen)]
    rw [this]

/-- The hypotheses of `C71_ambiguous_raises_partial` met: a tolerance of 3000 reaches both lines from peak 10. -/
example := C71_ambiguous_raises_partial Toy.env Toy.mkern Toy.pair { Toy.matchArgs with tol := 3000 } .poly
  [3101, 280] [5900, 8700] true rfl (by decide) rfl (by decide +kernel)
  (by
    have h : Toy.pair.world.atlasLines.toOption = some [5900, 8700] := by decide +kernel
    cases hl : Toy.pair.world.atlasLines with
    | error e => rw [hl] at h; cases h
    | ok l => rw [hl] at h; cases h; rfl)
  10 (by decide +kernel) 5900 8700 [] [] [] rfl (by decide +kernel) (by decide +kernel)

end

/-- A peak with two lines within the tolerance. -/
theorem C71_refuted : ¬ C71_Statement := by
  intro h
  have hc : (Toy.session [10, 20] false [5900, 5905, 8700]).toOption.map (fun s =>
      (s.basis, s.world.atlasLines.toOption, s.world.cal.peaks, Toy.raised (s.matchPeaks Toy.env Toy.mkern
        { coeff := some (true, [3100, 280]), tol := 10, minFrac := 1 / 2 }))) =
      some (some .poly, some [5900, 5905, 8700], [10, 20], some .typeError) := by decide +kernel
  cases hs : Toy.session [10, 20] false [5900, 5905, 8700] with
  | error e => rw [hs] at hc; simp [Except.toOption] at hc
  | ok s =>
    rw [hs] at hc
    simp only [Except.toOption, Option.map_some, Option.some.injEq, Prod.mk.injEq] at hc
    obtain ⟨h1, h2, h3, h4⟩ := hc
    have h2' : s.world.atlasLines = .ok [5900, 5905, 8700] := by
      cases hl : s.world.atlasLines with
      | error e => rw [hl] at h2; cases h2
      | ok l => rw [hl] at h2; cases h2; rfl
    obtain ⟨s', r, hr⟩ := h Toy.env Toy.mkern s
      { coeff := some (true, [3100, 280]), tol := 10, minFrac := 1 / 2 } .poly [3100, 280]
      [5900, 5905, 8700] true rfl (by simp) rfl rfl h1 h2' (by rw [h3]; simp)
      (by rw [h3]; decide +kernel)
      (by
        rw [h3]
        intro ys hlen hnd
        match ys, hlen with
        | [y1, y2], _ =>
          have hne : y2 ≠ y1 := by
            intro he; simp [he] at hnd
          obtain ⟨co, hco⟩ := Toy.line_two y1 y2
          refine ⟨?_, ?_⟩
          · show (polyfitChecked Toy.kern [10, 20] [y1, y2] 1).toBool = true
            obtain ⟨co, hco⟩ := Toy.polyfit_two y1 y2
            rw [hco]; rfl
          · show (Toy.mkern.robust [10, 20] [y1, y2] 1 none).toBool = true
            have : Toy.mkern.robust [10, 20] [y1, y2] 1 none = .ok (some co) := by
              simp only [Toy.mkern, if_true]
              rw [if_neg (by simp [hne]), hco]
            rw [this]; rfl)
    rw [hr] at h4
    cases h4

/-! ### C72 -/

/-- The expected behaviour: with neither refinement nor robust refit the list of well fitted lines is
returned. -/
def C72_Statement : Prop :=
  ∀ (F : FitEnv ℚ) (M : MatchKernels ℚ) (s : Session ℚ) (a : MatchArgs ℚ) (b : FitType)
    (co lines : List ℚ) (arr : Bool),
    a.coeff = some (arr, co) → co ≠ [] → a.refine = false → a.robust = false → s.basis = some b →
    s.world.atlasLines = .ok lines → s.world.cal.peaks ≠ [] →
    (∀ p ∈ s.world.cal.peaks, ∃ l, OnlyNear lines a.tol ((F.kern b).polyval co p) l) →
    (∀ ys, ys.length = s.world.cal.peaks.length →
      ∃ f, polyfitChecked (F.kern b) s.world.cal.peaks ys (a.deg.getD (co.length - 1)) = .ok f) →
    ∃ s' r, s.matchPeaks F M a = (s', .ok (.report r))

section
variable {K : Type _} [Field K] [LinearOrder K] [IsStrictOrderedRing K]

/-- C72, what happens instead: such a call never returns anything. -/
theorem C72_never_returns (F : FitEnv K) (M : MatchKernels K) (s : Session K) (a : MatchArgs K)
    (h1 : a.refine = false) (h2 : a.robust = false) (o : MatchOut K) :
    (s.matchPeaks F M a).2 ≠ .ok o := by
  intro ho
  cases o with
  | input co =>
    have hc := matchPeaks_cases F M s a
    rw [ho] at hc
    generalize hx : (Except.ok (MatchOut.input co) : PyRes (MatchOut K)) = x at hc
    generalize (s.matchPeaks F M a).1 = s' at hc
    cases hc with
    | early e => cases hx
    | input co _ hr => rw [h1] at hr; cases hr
    | ambiguous kind co lines e _ _ _ _ => cases hx
    | fit co lines new m ys s' o _ _ _ _ _ _ hf =>
      subst hx
      generalize hx : (Except.ok (MatchOut.input _) : PyRes (MatchOut K)) = x at hf
      cases hf with
      | noBasis _ => cases hx
      | noFit b e _ _ => cases hx
      | bad b f _ _ _ => cases hx
      | done b fitted res s' o _ _ _ _ hend => subst hx; cases hend
  | report r =>
    obtain ⟨b, co, lines, fitted, res, new, R⟩ := matchPeaks_report F M s a (s.matchPeaks F M a).1 r
      (by rw [← ho])
    have hs := R.skipped h1
    have hend := R.ending
    rw [hs, h2] at hend
    generalize (s.matchPeaks F M a).1 = s' at hend
    generalize hx : (Except.ok (MatchOut.report r) : PyRes (MatchOut K)) = x at hend
    cases hend with
    | failed e h _ => cases h
    | nan s' h _ _ => cases h
    | robust co s' h _ _ => cases h
    | refined co s' _ h _ => cases h
    | unbound _ _ => cases hx

/-- The hypotheses of `C72_never_returns` met by the toy arguments without the robust fit. -/
example := C72_never_returns Toy.env Toy.mkern Toy.pair { Toy.matchArgs with robust := false } rfl rfl
  (.report Toy.matchFound)

/-- C72, what holds: if every matched peak has one line and the plain fit succeeds with a total error
below the limit, the call stores the matches before it raises UnboundLocalError. -/
theorem C72_stored_partial (F : FitEnv K) (M : MatchKernels K) (s : Session K) (a : MatchArgs K)
    (b : FitType) (co lines ys fitted : List K) (arr : Bool) (hc : a.coeff = some (arr, co))
    (hne : co ≠ []) (h1 : a.refine = false) (h2 : a.robust = false) (hb : s.basis = some b)
    (hl : s.world.atlasLines = .ok lines)
    (hy : List.Forall₂ (fun p l => OnlyNear lines a.tol ((F.kern b).polyval co p) l)
      (s.world.cal.peaks.filter (fun p => decide (Near lines a.tol ((F.kern b).polyval co p)))) ys)
    (hf : polyfitChecked (F.kern b)
      (s.world.cal.peaks.filter (fun p => decide (Near lines a.tol ((F.kern b).polyval co p)))) ys
      (a.deg.getD (co.length - 1)) = .ok fitted)
    (hlt : (List.zipWith (fun x y => |y - (F.kern b).polyval fitted x|)
      (s.world.cal.peaks.filter (fun p => decide (Near lines a.tol ((F.kern b).polyval co p)))) ys).sum <
        10 ^ 9) :
    (s.matchPeaks F M a).2 = .error .unboundLocal ∧
    (s.matchPeaks F M a).1.world.cal.matchedPeaks =
      s.world.cal.peaks.filter (fun p => decide (Near lines a.tol ((F.kern b).polyval co p))) ∧
    (s.matchPeaks F M a).1.world.cal.matchedAtlas = ys := by
  have hin : s.inputCoeff a = .ok (if arr then .array else .list, co) := by
    rw [Session.inputCoeff, hc]
  have hkind : (if arr then CoeffKind.array else CoeffKind.list) ≠ .nan := by
    cases arr <;> simp
  have hx := matchLoop_fst ((F.kern b).polyval co) lines a.tol s.world.cal.peaks
  have hexp : expandMatches ((matchLoop ((F.kern b).polyval co) lines a.tol s.world.cal.peaks).map
      Prod.snd) [] = .ok ys := by
    rw [← hx] at hy
    refine expandMatches_singles _ [] ys ?_
    rw [List.forall₂_iff_get] at hy ⊢
    refine ⟨by simpa using hy.1, ?_⟩
    intro i h1 h2
    have hi : i < (matchLoop ((F.kern b).polyval co) lines a.tol s.world.cal.peaks).length := by
      simpa using h1
    have := hy.2 i (by simpa using h1) h2
    simp only [List.get_eq_getElem, List.getElem_map] at this ⊢
    rw [(matchLoop_snd _ _ _ _ _ (List.getElem_mem hi)).1]
    exact linesNear_of_onlyNear _ _ _ _ this
  simp only [Session.matchPeaks, hin, Session.refineStep, h1, Bool.not_false, if_true,
    Session.matchSearch, hl, hb, hne, and_false, if_false, hkind, Option.getD_some, reduceCtorEq, hexp,
    Session.matchFit, hx, hf, hlt, h2, Session.matchRefit, Bool.false_eq_true, Session.clearMatches,
    and_self]

/-- The hypotheses of `C72_stored_partial` met by two peaks with one line each. -/
example := C72_stored_partial Toy.env Toy.mkern Toy.pair { Toy.matchArgs with robust := false } .poly [3101, 280]
  [5900, 8700] [5900, 8700] [3100, 280] true rfl (by decide) rfl rfl (by decide +kernel)
  (by
    have h : Toy.pair.world.atlasLines.toOption = some [5900, 8700] := by decide +kernel
    cases hl : Toy.pair.world.atlasLines with
    | error e => rw [hl] at h; cases h
    | ok l => rw [hl] at h; cases h; rfl)
  (by
    have h : Toy.pair.world.cal.peaks.filter (fun p => decide (Near [5900, 8700] 10
        ((Toy.env.kern .poly).polyval [3101, 280] p))) = [10, 20] := by decide +kernel
    exact h ▸ .cons ⟨[], [8700], rfl, by decide +kernel, by decide +kernel⟩
      (.cons ⟨[5900], [], rfl, by decide +kernel, by decide +kernel⟩ .nil))
  (by decide +kernel) (by decide +kernel)

end

/-- Two peaks exactly on two lines. -/
theorem C72_refuted : ¬ C72_Statement := by
  intro h
  have hc : (Toy.session [10, 20] false [5900, 8700]).toOption.map (fun s =>
      (s.basis, s.world.atlasLines.toOption, s.world.cal.peaks)) =
      some (some .poly, some [5900, 8700], [10, 20]) := by decide +kernel
  cases hs : Toy.session [10, 20] false [5900, 8700] with
  | error e => rw [hs] at hc; simp [Except.toOption] at hc
  | ok s =>
    rw [hs] at hc
    simp only [Except.toOption, Option.map_some, Option.some.injEq, Prod.mk.injEq] at hc
    obtain ⟨h1, h2, h3⟩ := hc
    have h2' : s.world.atlasLines = .ok [5900, 8700] := by
      cases hl : s.world.atlasLines with
      | error e => rw [hl] at h2; cases h2
      | ok l => rw [hl] at h2; cases h2; rfl
    obtain ⟨s', r, hr⟩ := h Toy.env Toy.mkern s
      { coeff := some (true, [3100, 280]), tol := 10, minFrac := 1 / 2, robust := false } .poly
      [3100, 280] [5900, 8700] true rfl (by simp) rfl rfl h1 h2' (by rw [h3]; simp)
      (by
        rw [h3]
        intro p hp
        simp only [List.mem_cons, List.not_mem_nil, or_false] at hp
        rcases hp with rfl | rfl
        · exact ⟨5900, [], [8700], rfl, by decide +kernel, by decide +kernel⟩
        · exact ⟨8700, [5900], [], rfl, by decide +kernel, by decide +kernel⟩)
      (by
        rw [h3]
        intro ys hlen
        match ys, hlen with
        | [y1, y2], _ =>
          exact Toy.polyfit_two y1 y2)
    exact C72_never_returns Toy.env Toy.mkern s _ rfl rfl (.report r) (by rw [hr])

end Rascal
