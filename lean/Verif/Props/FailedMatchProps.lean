import Verif.Props.MatchQualityProps
import Verif.Props.ProvenanceProps

/-!
Property theorem C96, the pairs after a `match_peaks` that raised.
-/

set_option linter.unusedSectionVars false

namespace Rascal

open Spec

section
variable {K : Type _} [Field K] [LinearOrder K] [IsStrictOrderedRing K] [FloorRing K]

/-- Without lines `manual_refit` needs to be given some. -/
theorem manualRefit_absent (F : FitEnv K) (M : MatchKernels K) (s : Session K) (r : RefitArgs K) (hs : s.atlasKind = .absent)
    (hr : r.atlas = none) : ∃ e, s.manualRefit F M r = (s, .error e) := by
  unfold Session.manualRefit
  cases s.refitStart r with
  | error e => exact ⟨e, rfl⟩
  | ok p =>
    have : (s.refitLists r).2.1 = .absent := by
      unfold Session.refitLists
      rw [hr]
      exact hs
    exact ⟨.typeError, by dsimp only; rw [if_pos this]⟩

/-- C96, what is left: after a `match_peaks` that raised, nothing has changed; or there are no pairs, `get_pix_wave_pairs`
raises TypeError, `manual_refit` without wavelengths raises and changes nothing, and the rms is the old one; or the pairs
are new ones, of peaks and lines of the atlas, while the
solution is still the old one.  The last happens only if the robust fit raised, or if neither the robust fit nor the
refinement was asked for.  What is missing: the pairs from before, in the last two cases. -/
theorem C96_pairs_partial (F : FitEnv K) (M : MatchKernels K) (s : Session K) (a : MatchArgs K) (e : PyErr)
    (h : (s.matchPeaks F M a).2 = .error e) :
    (s.matchPeaks F M a).1 = s ∨
    ((s.matchPeaks F M a).1.getPairs = .error .typeError ∧
      (∀ r : RefitArgs K, r.atlas = none →
        ∃ e', (s.matchPeaks F M a).1.manualRefit F M r = ((s.matchPeaks F M a).1, .error e')) ∧
      (s.matchPeaks F M a).1.world.cal.rms = s.world.cal.rms) ∨
    (∃ ps lines, (s.matchPeaks F M a).1.getPairs = .ok ps ∧ s.world.atlasLines = .ok lines ∧
      (∀ p ∈ ps, p.2.1 ∈ s.world.cal.peaks ∧ p.2.2 ∈ lines) ∧
      (s.matchPeaks F M a).1.world.cal.fitCoeff = s.world.cal.fitCoeff ∧
      (a.robust = true ∨ a.robust = false ∧ a.refine = false ∧ e = .unboundLocal)) := by
  have hc := matchPeaks_cases F M s a
  generalize (s.matchPeaks F M a).1 = s' at hc ⊢
  generalize (s.matchPeaks F M a).2 = o at hc h
  subst h
  cases hc with
  | early e => exact .inl rfl
  | ambiguous kind co lines e _ _ _ _ => exact .inl rfl
  | fit co lines new m ys s' o hs hl hm he h1 h2 hf =>
    have hsub : (m.map Prod.fst).Sublist s.world.cal.peaks := by
      rcases hm with rfl | rfl
      · exact List.nil_sublist _
      · rw [matchLoop_fst]; exact List.filter_sublist
    have hys : ∀ y ∈ ys, y ∈ lines := by
      intro y hy
      rcases expandMatches_mem _ _ _ he y hy with hy | ⟨q, hq, hyq⟩
      · exact absurd hy (by simp)
      · obtain ⟨x, hx, rfl⟩ := List.mem_map.1 hq
        rcases hm with rfl | rfl
        · exact absurd hx (by simp)
        · rw [(matchLoop_snd _ _ _ _ x hx).1] at hyq
          exact (List.mem_filter.1 hyq).1
    have pairs : ∀ p ∈ ((m.map Prod.fst).zip ys).mapIdx (fun i p => (i, p.1, p.2)),
        p.2.1 ∈ s.world.cal.peaks ∧ p.2.2 ∈ lines := by
      intro p hp
      obtain ⟨i, hi, rfl⟩ := List.mem_mapIdx.1 hp
      have hz := List.of_mem_zip (List.getElem_mem hi)
      exact ⟨hsub.subset hz.1, hys _ hz.2⟩
    cases hf with
    | noBasis hb => exact .inr (.inl ⟨rfl, fun r hr => manualRefit_absent F M _ r rfl hr, rfl⟩)
    | noFit b e hb hp => exact .inr (.inl ⟨rfl, fun r hr => manualRefit_absent F M _ r rfl hr, rfl⟩)
    | bad b f hb hp hs => exact .inr (.inl ⟨rfl, fun r hr => manualRefit_absent F M _ r rfl hr, rfl⟩)
    | done b fitted res s' o hb hp hres hlt hend =>
      refine .inr (.inr ?_)
      cases hend with
      | failed e hr hM => exact ⟨_, lines, rfl, hl, pairs, rfl, .inl hr⟩
      | unbound hr hn =>
        refine ⟨_, lines, rfl, hl, pairs, rfl, .inr ⟨hr, ?_, rfl⟩⟩
        cases hq : a.refine with
        | false => rfl
        | true =>
          obtain ⟨l, hl'⟩ := h2 hq
          exact absurd hl' (hn l)

end

/-- Cases for `C96_pairs_partial`: without any refit the new pairs are stored and `UnboundLocalError` is raised; without a
line near the peaks there are no pairs afterwards. -/
example : (Toy.session [10, 20] false [5900, 8700]).toOption.map (fun s =>
    let t := s.matchPeaks Toy.env Toy.mkern { coeff := some (true, [3100, 280]), tol := 10, minFrac := 1 / 2, robust := false }
    (Toy.raised t, t.1.getPairs.toOption.map (fun l : List (Nat × ℚ × ℚ) => l.map (fun p => p.2.2)))) =
    some (some .unboundLocal, some [5900, 8700]) := by
  decide +kernel

example : (Toy.session [10, 20] false [5900, 8700]).toOption.map (fun s =>
    let u := s.matchPeaks Toy.env Toy.mkern { coeff := some (true, [3150, 280]), tol := 10, minFrac := 1 / 2 }
    (Toy.raised u, u.1.getPairs.toOption.map (fun l : List (Nat × ℚ × ℚ) => l.length))) =
    some (some .typeError, none) := by
  decide +kernel

end Rascal
