import Verif.Props.MatchProps
import Mathlib.Tactic.Linarith

/-! Property theorems C73, C74, C96 and C98: utilisation, residuals, failures and refinement of
`match_peaks`. -/

set_option linter.unusedSectionVars false

namespace Rascal

open Spec

section
variable {K : Type _} [Field K] [LinearOrder K] [IsStrictOrderedRing K]

/-! ### C73 -/

/-- C73, what holds: the atlas utilisation is the number of matches over the number of lines, and
positive.  If the predictions for any two peaks are at least twice the tolerance apart, no line is
matched twice and the utilisation is at most 1. -/
theorem C73_atlas_utilisation_partial (F : FitEnv K) (M : MatchKernels K) (s s' : Session K)
    (a : MatchArgs K) (r : MatchReport K) (h : s.matchPeaks F M a = (s', .ok (.report r))) :
    ∃ b co lines, s.basis = some b ∧ StartsFrom s a co ∧ s.world.atlasLines = .ok lines ∧
      r.atlasUtil = (r.atlas.length : K) / (lines.length : K) ∧ 0 < r.atlasUtil ∧
      (s.world.cal.peaks.Pairwise
          (fun p q => 2 * a.tol ≤ |(F.kern b).polyval co p - (F.kern b).polyval co q|) →
        r.atlas.Nodup ∧ r.atlasUtil ≤ 1) := by
  obtain ⟨b, co, lines, fitted, res, new, R⟩ := matchPeaks_report F M s a s' r h
  have hu := R.ending.lists.2.2.2
  have hpos : 0 < r.atlas.length := by
    rw [← R.length]; exact List.length_pos_iff.2 R.nonempty
  have hmem : ∀ l ∈ r.atlas, l ∈ lines := by
    intro l hl
    obtain ⟨i, hi, rfl⟩ := List.getElem_of_mem hl
    have := (List.forall₂_iff_get.1 R.only).2 i (by rw [R.length]; exact hi) hi
    obtain ⟨l₁, l₂, rfl, _⟩ := this
    simp
  have hlpos : 0 < lines.length := by
    obtain ⟨l, hl⟩ := List.exists_mem_of_length_pos hpos
    exact List.length_pos_of_mem (hmem l hl)
  have hlpos' : (0 : K) < (lines.length : K) := by exact_mod_cast hlpos
  refine ⟨b, co, lines, R.basis, R.start, R.hasLines, hu, ?_, ?_⟩
  · rw [hu]; exact div_pos (by exact_mod_cast hpos) hlpos'
  · intro hfar
    have hfar' : r.peaks.Pairwise
        (fun p q => 2 * a.tol ≤ |(F.kern b).polyval co p - (F.kern b).polyval co q|) := by
      rw [R.peaks]; exact hfar.sublist List.filter_sublist
    have hnd : r.atlas.Nodup := by
      rw [List.Nodup, List.pairwise_iff_getElem]
      intro i j hi hj hij heq
      have hO := (List.forall₂_iff_get.1 R.only).2
      obtain ⟨_, _, _, h1, _⟩ := hO i (by rw [R.length]; exact hi) hi
      obtain ⟨_, _, _, h2, _⟩ := hO j (by rw [R.length]; exact hj) hj
      have h3 := List.pairwise_iff_getElem.1 hfar' i j (by rw [R.length]; exact hi)
        (by rw [R.length]; exact hj) hij
      simp only [List.get_eq_getElem] at h1 h2
      rw [heq] at h1
      rw [abs_sub_comm] at h1
      have := abs_sub_le ((F.kern b).polyval co (r.peaks[i]'(by rw [R.length]; exact hi))) r.atlas[j]
        ((F.kern b).polyval co (r.peaks[j]'(by rw [R.length]; exact hj)))
      linarith
    refine ⟨hnd, ?_⟩
    rw [hu, div_le_one hlpos']
    exact_mod_cast (List.subperm_of_subset hnd hmem).length_le

/-- The hypothesis of `C73_atlas_utilisation_partial` met by two peaks. -/
example := C73_atlas_utilisation_partial Toy.env Toy.mkern Toy.pair _ Toy.matchArgs Toy.matchFound Toy.pair_match

/-! ### C74 -/

/-- C74, what holds: after a robust refit without nan the residuals returned are wavelength minus
solution and the rms is their root mean square; the solution is the one stored. -/
theorem C74_robust_partial (F : FitEnv K) (M : MatchKernels K) (s s' : Session K) (a : MatchArgs K)
    (r : MatchReport K) (h : s.matchPeaks F M a = (s', .ok (.report r))) (hr : a.robust = true)
    (hn : s'.coeffKind ≠ .nan) :
    ∃ b, s.basis = some b ∧ s'.world.cal.fitCoeff = some r.coeffs ∧
      r.residuals = List.zipWith (fun p l => l - (F.kern b).polyval r.coeffs p) r.peaks r.atlas ∧
      r.rms = (F.kern b).sqrt ((r.residuals.map (fun v => v ^ 2)).sum / (r.residuals.length : K)) ∧
      s'.residuals = some r.residuals ∧ s'.world.cal.rms = some r.rms := by
  obtain ⟨b, co, lines, fitted, res, new, R⟩ := matchPeaks_report F M s a s' r h
  refine ⟨b, R.basis, ?_⟩
  have hend := R.ending
  generalize ho : (Except.ok (MatchOut.report r) : PyRes (MatchOut K)) = o at hend
  rw [hr] at hend
  cases hend with
  | failed e _ _ => cases ho
  | nan s' h1 h2 h3 => subst h3; exact absurd rfl hn
  | robust co s' h1 h2 h3 =>
    subst h3
    have hco : r.coeffs = co := by
      simp only [Except.ok.injEq, MatchOut.report.injEq] at ho
      rw [ho]
    have hre : r.residuals = List.zipWith (fun x y => y - (F.kern b).polyval co x) r.peaks r.atlas := by
      simp only [Except.ok.injEq, MatchOut.report.injEq] at ho
      rw [ho]
    have hrm : r.rms = rmsOf (F.kern b)
        (List.zipWith (fun x y => y - (F.kern b).polyval co x) r.peaks r.atlas) := by
      simp only [Except.ok.injEq, MatchOut.report.injEq] at ho
      rw [ho]
    refine ⟨by rw [hco], by rw [hco, hre], by rw [hrm, hre]; rfl, by rw [hre], by rw [hrm]⟩
  | refined co s' h1 h2 h3 => cases h1
  | unbound h1 _ => cases h1

/-- The hypotheses of `C74_robust_partial` met by two peaks. -/
example := C74_robust_partial Toy.env Toy.mkern Toy.pair _ Toy.matchArgs Toy.matchFound Toy.pair_match rfl (by decide +kernel)

/-- C74, what holds otherwise: the residuals and the rms are those of a plain polynomial fit to the
matches, whatever is returned as the solution. -/
theorem C74_plain_partial (F : FitEnv K) (M : MatchKernels K) (s s' : Session K) (a : MatchArgs K)
    (r : MatchReport K) (h : s.matchPeaks F M a = (s', .ok (.report r)))
    (hr : a.robust = false ∨ s'.coeffKind = .nan) :
    ∃ b co fitted, s.basis = some b ∧ StartsFrom s a co ∧
      (F.kern b).polyfit (r.peaks.map .fin) (r.atlas.map .fin) (a.deg.getD (co.length - 1)) =
        .ok fitted ∧
      r.residuals = List.zipWith (fun p l => |l - (F.kern b).polyval fitted p|) r.peaks r.atlas ∧
      r.rms = (F.kern b).sqrt ((r.residuals.map (fun v => v ^ 2)).sum / (r.residuals.length : K)) := by
  obtain ⟨b, co, lines, fitted, res, new, R⟩ := matchPeaks_report F M s a s' r h
  refine ⟨b, co, fitted, R.basis, R.start, R.polyfit, ?_⟩
  have hres := R.resEq
  have hend := R.ending
  suffices hh : r.residuals = res ∧ r.rms = rmsOf (F.kern b) res by
    rw [hh.1, hh.2]
    exact ⟨hres, rfl⟩
  generalize ho : (Except.ok (MatchOut.report r) : PyRes (MatchOut K)) = o at hend
  cases hend with
  | failed e _ _ => cases ho
  | nan s' h1 h2 h3 =>
    simp only [Except.ok.injEq, MatchOut.report.injEq] at ho
    constructor <;> rw [ho]
  | robust co s' h1 h2 h3 =>
    rcases hr with hr | hr
    · rw [hr] at h1; cases h1
    · subst h3; cases hr
  | refined co s' h1 h2 h3 =>
    simp only [Except.ok.injEq, MatchOut.report.injEq] at ho
    constructor <;> rw [ho]
  | unbound h1 _ => cases ho

/-- The hypotheses of `C74_plain_partial` met with refinement instead of the robust fit. -/
example := C74_plain_partial Toy.env Toy.mkern Toy.pair _
  { coeff := some (true, [3100, 280]), tol := 10, minFrac := 1 / 2, refine := true, robust := false }
  ⟨[3101, 280], [10, 20], [5900, 8700], 0, [0, 0], 1, 1⟩ (Toy.matchReport_some (by decide +kernel)) (.inl rfl)

/-! ### C96 -/

theorem RefitEnd.same {F : FitEnv K} {M : MatchKernels K} {s : Session K} {b : FitType} {robust : Bool}
    {deg : Nat} {new : Refined K} {fitted xs ys res : List K} {rms pu au : K} {s' : Session K}
    {o : PyRes (MatchOut K)} (h : RefitEnd F M s b robust deg new fitted xs ys res rms pu au s' o) :
    SameSetup s s' ∧ (∀ e, o = .error e → s' = s) := by
  cases h with
  | failed e _ _ => exact ⟨.refl s, fun _ _ => rfl⟩
  | nan s' h1 h2 h3 => subst h3; exact ⟨by constructor <;> rfl, fun _ h => by cases h⟩
  | robust co s' h1 h2 h3 => subst h3; exact ⟨by constructor <;> rfl, fun _ h => by cases h⟩
  | refined co s' h1 h2 h3 => subst h3; exact ⟨by constructor <;> rfl, fun _ h => by cases h⟩
  | unbound _ _ => exact ⟨.refl s, fun _ _ => rfl⟩

/-- C96, what holds: whatever happens, `match_peaks` leaves the settings, the atlas, the search space
and the known pairs alone; if it raises the solution is unchanged, and the matches are either unchanged
or the peaks are replaced by those with a line within the tolerance. -/
theorem C96_failed_match_partial (F : FitEnv K) (M : MatchKernels K) (s : Session K) (a : MatchArgs K) :
    SameSetup s (s.matchPeaks F M a).1 ∧
    ∀ e, (s.matchPeaks F M a).2 = .error e →
      (s.matchPeaks F M a).1.world.cal.fitCoeff = s.world.cal.fitCoeff ∧
      (s.matchPeaks F M a).1.coeffKind = s.coeffKind ∧
      ((s.matchPeaks F M a).1 = s ∨
        ((s.matchPeaks F M a).1.peaksArr = true ∧
          (s.matchPeaks F M a).1.world.cal.matchedPeaks.Sublist s.world.cal.peaks)) := by
  have hc := matchPeaks_cases F M s a
  generalize (s.matchPeaks F M a).1 = s' at hc ⊢
  generalize (s.matchPeaks F M a).2 = o at hc ⊢
  cases hc with
  | early e => exact ⟨.refl s, fun _ _ => ⟨rfl, rfl, .inl rfl⟩⟩
  | input co _ _ => exact ⟨.refl s, fun _ h => by cases h⟩
  | ambiguous kind co lines e _ _ _ _ => exact ⟨.refl s, fun _ _ => ⟨rfl, rfl, .inl rfl⟩⟩
  | fit co lines new m ys s' o hs hl hm he h1 h2 hf =>
    have hsub : (m.map Prod.fst).Sublist s.world.cal.peaks := by
      rcases hm with rfl | rfl
      · exact List.nil_sublist _
      · rw [matchLoop_fst]; exact List.filter_sublist
    cases hf with
    | noBasis hb => exact ⟨by constructor <;> rfl, fun _ _ => ⟨rfl, rfl, .inr ⟨rfl, hsub⟩⟩⟩
    | noFit b e hb hp => exact ⟨by constructor <;> rfl, fun _ _ => ⟨rfl, rfl, .inr ⟨rfl, hsub⟩⟩⟩
    | bad b f hb hp hs => exact ⟨by constructor <;> rfl, fun _ _ => ⟨rfl, rfl, .inr ⟨rfl, hsub⟩⟩⟩
    | done b fitted res s' o hb hp hres hlt hend =>
      obtain ⟨g1, g2⟩ := hend.same
      refine ⟨?_, ?_⟩
      · constructor
        · exact g1.atlases
        · exact g1.peaks
        · exact g1.peaksAreArray
        · exact g1.props
        · exact g1.hough
        · exact g1.ransac
        · exact g1.atlas
        · exact g1.candTol
        · exact g1.constrainPoly
        · exact g1.pairs
        · exact g1.ht
        · exact g1.houghLines
        · exact g1.houghPoints
        · exact g1.known
        · exact g1.residual
        · exact g1.basis
        · exact g1.intPeaks
      · intro e ho
        rw [g2 e ho]
        exact ⟨rfl, rfl, .inr ⟨rfl, hsub⟩⟩

/-- The hypothesis inside `C96_failed_match_partial` met: a tolerance too small for any line. -/
example : Toy.raised (Toy.pair.matchPeaks Toy.env Toy.mkern { Toy.matchArgs with tol := 1 / 2 }) = some .typeError := by
  decide +kernel

/-! ### C98 -/

/-- C98, what holds: with the default `robust_refit=True` a refinement that succeeds has no effect at
all: the call without it leaves the same state and returns the same values. -/
theorem C98_refine_without_effect_partial (F : FitEnv K) (M : MatchKernels K) (s s' : Session K)
    (a : MatchArgs K) (r : MatchReport K) (hr : a.robust = true)
    (h : s.matchPeaks F M a = (s', .ok (.report r))) :
    s.matchPeaks F M { a with refine := false } = (s', .ok (.report r)) := by
  have hrefit : ∀ (s : Session K) (b : FitType) (deg : Nat) (new new' : Refined K)
      (fitted xs ys res : List K) (rms pu au : K),
      s.matchRefit F M b true deg new fitted xs ys res rms pu au =
        s.matchRefit F M b true deg new' fitted xs ys res rms pu au := by
    intros; rfl
  have hsearch : ∀ (kind : CoeffKind) (co : List K) (new : Refined K),
      s.matchSearch F M a kind co new = s.matchSearch F M { a with refine := false } kind co .skipped := by
    intro kind co new
    unfold Session.matchSearch Session.matchFit
    dsimp only
    rw [hr]
    simp only [hrefit _ _ _ new .skipped]
  unfold Session.matchPeaks at h ⊢
  have hin : s.inputCoeff { a with refine := false } = s.inputCoeff a := rfl
  rw [hin]
  cases hi : s.inputCoeff a with
  | error e => rw [hi] at h; cases h
  | ok kc =>
    obtain ⟨kind, co⟩ := kc
    rw [hi] at h
    dsimp only at h ⊢
    have hsk : s.refineStep F M { a with refine := false } kind co = .ok .skipped := rfl
    rw [hsk]
    cases hst : s.refineStep F M a kind co with
    | error e => rw [hst] at h; cases h
    | ok n =>
      rw [hst] at h
      cases n with
      | nan => cases h
      | skipped => dsimp only at h ⊢; rw [← hsearch kind co .skipped]; exact h
      | coeffs l => dsimp only at h ⊢; rw [← hsearch kind co (.coeffs l)]; exact h

/-- The hypotheses of `C98_refine_without_effect_partial` met with refinement and the robust fit. -/
example := C98_refine_without_effect_partial Toy.env Toy.mkern Toy.pair _ { Toy.matchArgs with refine := true }
  Toy.matchFound rfl (Toy.matchReport_some (by decide +kernel))

end

/-! ### refutations -/

/-- The expected behaviour: no line is matched to two peaks and the atlas utilisation is a fraction. -/
def C73_Statement : Prop :=
  ∀ (F : FitEnv ℚ) (M : MatchKernels ℚ) (s s' : Session ℚ) (a : MatchArgs ℚ) (r : MatchReport ℚ),
    s.matchPeaks F M a = (s', .ok (.report r)) → r.atlas.Nodup ∧ r.atlasUtil ≤ 1

/-- Two neighbouring peaks match the same line. -/
theorem C73_refuted : ¬ C73_Statement := by
  intro h
  have hc : (Toy.session [10, 20, 21] false [5900, 8700]).toOption.map (fun s =>
      (Toy.matchReport (s.matchPeaks Toy.env Toy.mkern
        { coeff := some (true, [3100, 280]), tol := 300, minFrac := 1 / 2 })).map
        (fun r => (r.atlas, r.atlasUtil))) = some (some ([5900, 8700, 8700], 3 / 2)) := by decide +kernel
  cases hs : Toy.session [10, 20, 21] false [5900, 8700] with
  | error e => rw [hs] at hc; simp [Except.toOption] at hc
  | ok s =>
    rw [hs] at hc
    simp only [Except.toOption, Option.map_some, Option.some.injEq] at hc
    cases hm : s.matchPeaks Toy.env Toy.mkern
        { coeff := some (true, [3100, 280]), tol := 300, minFrac := 1 / 2 } with
    | mk s' o =>
      rw [hm] at hc
      match o, hc with
      | .ok (.report r), hc =>
        simp only [Toy.matchReport, Option.map_some, Option.some.injEq, Prod.mk.injEq] at hc
        have := (h Toy.env Toy.mkern s s' _ r hm).2
        rw [hc.2] at this
        exact absurd this (by decide +kernel)

/-- The expected behaviour: the residuals are those of the returned solution. -/
def C74_Statement : Prop :=
  ∀ (F : FitEnv ℚ) (M : MatchKernels ℚ) (s s' : Session ℚ) (a : MatchArgs ℚ) (r : MatchReport ℚ)
    (b : FitType), s.basis = some b → s.matchPeaks F M a = (s', .ok (.report r)) →
    r.residuals.map abs =
      List.zipWith (fun p l => |l - (F.kern b).polyval r.coeffs p|) r.peaks r.atlas

/-- With refinement only: the solution is off by one, the residuals are zero. -/
theorem C74_refuted : ¬ C74_Statement := by
  intro h
  have hc : (Toy.session [10, 20] false [5900, 8700]).toOption.map (fun s =>
      (s.basis, (Toy.matchReport (s.matchPeaks Toy.env Toy.mkern
        { coeff := some (true, [3100, 280]), tol := 10, minFrac := 1 / 2, refine := true,
          robust := false })))) =
      some (some .poly, some ⟨[3101, 280], [10, 20], [5900, 8700], 0, [0, 0], 1, 1⟩) := by
    decide +kernel
  cases hs : Toy.session [10, 20] false [5900, 8700] with
  | error e => rw [hs] at hc; simp [Except.toOption] at hc
  | ok s =>
    rw [hs] at hc
    simp only [Except.toOption, Option.map_some, Option.some.injEq, Prod.mk.injEq] at hc
    obtain ⟨h1, h2⟩ := hc
    cases hm : s.matchPeaks Toy.env Toy.mkern
        { coeff := some (true, [3100, 280]), tol := 10, minFrac := 1 / 2, refine := true,
          robust := false } with
    | mk s' o =>
      rw [hm] at h2
      match o, h2 with
      | .ok (.report r), h2 =>
        simp only [Toy.matchReport, Option.some.injEq] at h2
        have := h Toy.env Toy.mkern s s' _ r .poly h1 hm
        rw [h2] at this
        exact absurd this (by decide +kernel)

/-- The expected behaviour: a failing call keeps the matches. -/
def C96_Statement : Prop :=
  ∀ (F : FitEnv ℚ) (M : MatchKernels ℚ) (s : Session ℚ) (a : MatchArgs ℚ) (e : PyErr),
    (s.matchPeaks F M a).2 = .error e → (s.matchPeaks F M a).1.getPairs = s.getPairs

/-- A tolerance too small for any line: afterwards there are no pairs and asking for them raises. -/
theorem C96_refuted : ¬ C96_Statement := by
  intro h
  have hc : (Toy.session [10, 20] false [5900, 8700]).toOption.map (fun s =>
      ((s.matchPeaks Toy.env Toy.mkern
        { coeff := some (true, [3100, 280]), tol := 10, minFrac := 1 / 2 }).1.getPairs.toOption.map
          (fun l : List (Nat × ℚ × ℚ) => l.length),
       Toy.raised ((s.matchPeaks Toy.env Toy.mkern
        { coeff := some (true, [3100, 280]), tol := 10, minFrac := 1 / 2 }).1.matchPeaks Toy.env Toy.mkern
        { coeff := some (true, [3150, 280]), tol := 10, minFrac := 1 / 2 }),
       ((s.matchPeaks Toy.env Toy.mkern
        { coeff := some (true, [3100, 280]), tol := 10, minFrac := 1 / 2 }).1.matchPeaks Toy.env Toy.mkern
        { coeff := some (true, [3150, 280]), tol := 10, minFrac := 1 / 2 }).1.getPairs.toOption.map
          (fun l : List (Nat × ℚ × ℚ) => l.length))) =
      some (some 2, some .typeError, none) := by decide +kernel
  cases hs : Toy.session [10, 20] false [5900, 8700] with
  | error e => rw [hs] at hc; simp [Except.toOption] at hc
  | ok s =>
    rw [hs] at hc
    simp only [Except.toOption, Option.map_some, Option.some.injEq, Prod.mk.injEq] at hc
    obtain ⟨h1, h2, h3⟩ := hc
    have := h Toy.env Toy.mkern (s.matchPeaks Toy.env Toy.mkern
        { coeff := some (true, [3100, 280]), tol := 10, minFrac := 1 / 2 }).1
        { coeff := some (true, [3150, 280]), tol := 10, minFrac := 1 / 2 } .typeError (by
          revert h2
          generalize ((s.matchPeaks Toy.env Toy.mkern
            { coeff := some (true, [3100, 280]), tol := 10, minFrac := 1 / 2 }).1.matchPeaks Toy.env
            Toy.mkern { coeff := some (true, [3150, 280]), tol := 10, minFrac := 1 / 2 }) = q
          intro h2
          obtain ⟨q1, q2⟩ := q
          cases q2 with
          | error e => simp only [Toy.raised, Option.some.injEq] at h2; rw [h2]
          | ok v => simp [Toy.raised] at h2)
    rw [this] at h3
    rw [h1] at h3
    cases h3

/-- The expected behaviour: with `refine=True` the lines are searched near the refined solution. -/
def C98_Statement : Prop :=
  ∀ (F : FitEnv ℚ) (M : MatchKernels ℚ) (s s' : Session ℚ) (a : MatchArgs ℚ) (r : MatchReport ℚ)
    (b : FitType) (co : List ℚ), s.basis = some b → a.refine = true →
    s.refineStep F M a .array co = .ok (.coeffs r.coeffs) → a.coeff = some (true, co) →
    a.robust = false → s.matchPeaks F M a = (s', .ok (.report r)) →
    List.Forall₂ (fun p l => |l - (F.kern b).polyval r.coeffs p| < a.tol) r.peaks r.atlas

/-- The refined solution is shifted by one and no longer within the tolerance of the matches. -/
theorem C98_refuted : ¬ C98_Statement := by
  intro h
  have hc : (Toy.session [10, 20] false [5900, 8700]).toOption.map (fun s =>
      (s.basis, (match s.refineStep Toy.env Toy.mkern
          { coeff := some (true, [3100, 280]), tol := 1 / 2, minFrac := 1 / 2, refine := true,
            robust := false } .array [3100, 280] with
        | .ok (.coeffs l) => some l
        | _ => none),
        (Toy.matchReport (s.matchPeaks Toy.env Toy.mkern
        { coeff := some (true, [3100, 280]), tol := 1 / 2, minFrac := 1 / 2, refine := true,
          robust := false })))) =
      some (some .poly, some [3101, 280],
        some ⟨[3101, 280], [10, 20], [5900, 8700], 0, [0, 0], 1, 1⟩) := by
    decide +kernel
  cases hs : Toy.session [10, 20] false [5900, 8700] with
  | error e => rw [hs] at hc; simp [Except.toOption] at hc
  | ok s =>
    rw [hs] at hc
    simp only [Except.toOption, Option.map_some, Option.some.injEq, Prod.mk.injEq] at hc
    obtain ⟨h1, h2, h3⟩ := hc
    cases hm : s.matchPeaks Toy.env Toy.mkern
        { coeff := some (true, [3100, 280]), tol := 1 / 2, minFrac := 1 / 2, refine := true,
          robust := false } with
    | mk s' o =>
      rw [hm] at h3
      match o, h3 with
      | .ok (.report r), h3 =>
        simp only [Toy.matchReport, Option.some.injEq] at h3
        have := h Toy.env Toy.mkern s s' _ r .poly [3100, 280] h1 rfl (by
          split at h2
          · rename_i l hl
            simp only [Option.some.injEq] at h2
            rw [hl, h2, h3]
          · cases h2) rfl rfl hm
        rw [h3] at this
        exact absurd this (by decide +kernel)

end Rascal
