import Verif.Props.RestoreProps
import Verif.Props.PlotFitProps

/-!
Property theorem C183: `fit` followed by `match_peaks` and `manual_refit`, on data without noise.
-/

set_option linter.unusedSectionVars false

namespace Rascal

open Spec

section
variable {K : Type _} [Field K] [LinearOrder K] [IsStrictOrderedRing K] [FloorRing K]

/-- The peaks whose true wavelength is a line of the atlas. -/
def Spec.truePeaks (f : K → K) (lines peaks : List K) : List K := peaks.filter (fun p => decide (f p ∈ lines))

/-- The attributes after `match_peaks` with a robust fit that returns numbers. -/
theorem match_types (F : FitEnv K) (M : MatchKernels K) (s s' : Session K) (a : MatchArgs K) (r : MatchReport K)
    (h : s.matchPeaks F M a = (s', .ok (.report r))) (hnum : ∀ xs ys d, M.robust xs ys d none = .ok none → r.peaks ≠ xs ∨ r.atlas ≠ ys ∨
      ∀ co, StartsFrom s a co → a.deg.getD (co.length - 1) ≠ d) :
    s'.basis = s.basis ∧ s'.coeffKind = .array ∧ s'.atlasKind = .array := by
  obtain ⟨b, co, lines, fitted, res, new, R⟩ := matchPeaks_report F M s a s' r h
  have hend := R.ending
  have hst := R.start
  generalize ho : (Except.ok (MatchOut.report r) : PyRes (MatchOut K)) = o at hend
  cases hend with
  | failed e _ _ => cases ho
  | nan s' h1 h2 h3 =>
    rcases hnum _ _ _ h2 with h | h | h
    · exact absurd rfl h
    · exact absurd rfl h
    · exact absurd rfl (h co hst)
  | robust co s' h1 h2 h3 => subst h3; exact ⟨rfl, rfl, rfl⟩
  | refined co s' h1 h2 h3 => subst h3; exact ⟨rfl, rfl, rfl⟩
  | unbound _ _ => cases ho

/-- C183: let `t` be the true calibration, every candidate lie on it, and the settings allow it.  Whatever is drawn,
`fit` returns `t`; with atlas lines at least twice the tolerance of `match_peaks` apart, and no wrong line within that
tolerance of a peak, `match_peaks()` afterwards returns `t` with exactly the peaks whose true line is in the atlas,
also those that were no candidates, with rms 0; and if these peaks are distinct, `manual_refit()` after it returns `t`
again with the same pairs. -/
theorem C183_pipeline (F : FitEnv K) (M : MatchKernels K) (ha : IsArgsort F.argsortK) (s : Session K) (a : FitArgs K) (arr : Bool)
    (u : Nat → K) (hf : a.fitType ≠ .other) (hb : a.brute = false) (lines : List K) (L : LoopStart K)
    (hl : s.world.atlasLines = .ok lines) (he : (s.world.given a).enter F lines a u = some L) (t : List K)
    (hp : SearchSpaceCurrent s.world)
    (hT : Spec.Truth (F.kern a.fitType) t a.degree L.cfg.x L.cfg.y)
    (hE : Spec.FindsExact (F.kern a.fitType) t a.degree)
    (hM : RefitsExact (F.kern a.fitType) M t a.degree)
    (hA : Spec.Allows (F.kern a.fitType) s.world a L t)
    (hu : ∀ e ∈ L.cfg.x.zip L.cfg.y, e.2 = (F.kern a.fitType).polyval t e.1)
    (hme : s.world.cal.ransac.minFitError ≤ 0)
    (hmm : adjustMinMatches s.world.cal.ransac.minMatches lines.length s.world.cal.peaks.length ≤
      (L.cfg.x.dedup.length : Int))
    (hmu : s.world.cal.ransac.minUtil * (s.world.cal.peaks.length : K) ≤ (L.cfg.x.dedup.length : K))
    (tape : List Draw) (hlong : L.trials.length ≤ tape.length)
    (m : MatchArgs K) (hm1 : m.coeff = none) (hm2 : m.refine = false) (hm3 : m.robust = true) (hm4 : m.deg = none)
    (htol : 0 < m.tol) (hsep : lines.Pairwise (fun u v => 2 * m.tol ≤ |u - v|))
    (hwrong : ∀ p ∈ s.world.cal.peaks, (∃ l ∈ lines, |l - (F.kern a.fitType).polyval t p| < m.tol) →
      (F.kern a.fitType).polyval t p ∈ lines) :
    let f := (F.kern a.fitType).polyval t
    let s1 := s.fit F a arr ⟨u, tape⟩
    let s2 := s1.1.matchPeaks F M m
    (∃ r, s1.2 = .done (.ok r) ∧ r.coeffs = t ∧ r.rms = 0) ∧
    (∃ r, s2.2 = .ok (.report r) ∧ r.coeffs = t ∧ r.peaks = truePeaks f lines s.world.cal.peaks ∧
      r.atlas = r.peaks.map f ∧ r.rms = 0 ∧ ∀ p ∈ L.cfg.x, p ∈ r.peaks) ∧
    ((truePeaks f lines s.world.cal.peaks).Nodup → ∃ r, (s2.1.manualRefit F M {}).2 = .ok r ∧ r.coeffs = some t ∧
      r.peaks = truePeaks f lines s.world.cal.peaks ∧ r.atlas = r.peaks.map f ∧ r.rms = 0) := by
  intro f s1 s2
  have h157 := C157_unambiguous F ha s.world a u hf hb lines L hl he t hT hE hA hu tape
  rw [if_pos ⟨hme, hmm, hmu⟩] at h157
  obtain ⟨r, hr, hco, hzip, hrms⟩ := h157 hlong
  have hfit : (s.fit F a arr ⟨u, tape⟩).2 = .done (.ok r) := hr
  obtain ⟨lines', l1, l2, hon⟩ := fit_on_lines F ha s.world hp a ⟨u, tape⟩ r hr
  rw [hl] at l1
  cases l1
  obtain ⟨p1, p2, p3, p4, p5⟩ := fit_pairs F ha s a arr ⟨u, tape⟩ r hfit
  obtain ⟨_, t2, t3, t4, _⟩ := fit_types F ha s a arr ⟨u, tape⟩ r hfit
  obtain ⟨_, _, _, hmp, _⟩ := C62_report F ha s.world (fun e he => (hp e he).1) a ⟨u, tape⟩ r hr
  have hpk : s1.1.world.cal.peaks = s.world.cal.peaks := (fit_frame F s.world a ⟨u, tape⟩).1.peaks
  have hx : ∀ p ∈ L.cfg.x, p ∈ truePeaks f lines s.world.cal.peaks := by
    intro p hpx
    have hz := List.of_mem_zip (hzip p hpx)
    exact List.mem_filter.2 ⟨hmp _ hz.1, decide_eq_true (hon _ hz.2)⟩
  have hdeg : t.length - 1 = a.degree := by have := hT.degree.1; omega
  have hne : t ≠ [] := by
    intro h0
    have := hT.degree.1
    rw [h0] at this
    simp at this
  have hfilter : s1.1.world.cal.peaks.filter (fun p => decide (Near lines m.tol (f p))) =
      truePeaks f lines s.world.cal.peaks := by
    rw [hpk]
    unfold truePeaks
    refine List.filter_congr (fun p hpp => ?_)
    rw [decide_eq_decide]
    constructor
    · rintro ⟨l, h1, h2⟩
      exact hwrong p hpp ⟨l, h1, h2⟩
    · intro h1
      exact ⟨_, h1, by rw [sub_self, abs_zero]; exact htol⟩
  have henough : a.degree < (truePeaks f lines s.world.cal.peaks).dedup.length := by
    have h1 := (enter_spec F _ _ _ _ _ he).enough
    rw [npUnique_length_eq_dedup] at h1
    refine lt_of_lt_of_le h1 ?_
    refine (List.subperm_of_subset L.cfg.x.nodup_dedup (fun p hpx => ?_)).length_le
    exact List.mem_dedup.2 (hx p (List.mem_dedup.1 hpx))
  have hd' : m.deg.getD (t.length - 1) = a.degree := by rw [hm4]; exact hdeg
  have hcoef : s1.1.world.cal.fitCoeff = some t := by rw [← hco]; exact p3
  obtain ⟨s', q, q1, q2, q3, q4, q5, q6, q7⟩ := C178_restored F M s1.1 m a.fitType t lines t t4
    (.inr ⟨hm1, hcoef⟩) hne (fun _ => by rw [t3]; simp) hm2 hm3 l2 (by rw [hd']; exact hE) (by rw [hd']; exact hM)
    (fun p hpp ⟨l, h1, h2⟩ => onlyNear_separated lines m.tol _ _ hsep
      (hwrong p (hpk ▸ hpp) ⟨l, h1, h2⟩) (by rw [sub_self, abs_zero]; exact htol))
    (by rw [hd']; exact hfilter ▸ henough)
  have q4' : q.peaks = truePeaks f lines s.world.cal.peaks := q4.trans hfilter
  have hs2 : s2 = (s', .ok (.report q)) := q1
  refine ⟨⟨r, hfit, hco, hrms⟩, ⟨q, by rw [hs2], q2, q4', q5, q6, fun p hpx => by rw [q4']; exact hx p hpx⟩, ?_⟩
  intro hnod
  have g := C70_matched_peaks F M s1.1 s' m q q1
  obtain ⟨_, _, _, _, _, _, _, _, _, _, _, _, g1, g2⟩ := g
  have htypes := match_types F M s1.1 s' m q q1 (by
    intro xs ys d hbad
    by_contra hcon
    push Not at hcon
    obtain ⟨c1, c2, co, c3, c4⟩ := hcon
    have hcot : co = t := by
      rcases c3 with ⟨b, hb⟩ | ⟨_, hb⟩
      · rw [hm1] at hb; cases hb
      · rw [hcoef] at hb; exact (Option.some.inj hb).symm
    rw [hcot, hd'] at c4
    have := hM xs none (by rw [← c1, q4']; exact henough)
    rw [← c4, ← c2, q5, c1, this] at hbad
    cases hbad)
  have hon' : OnTruth F.kern a.fitType t s' := by
    refine ⟨htypes.1.trans t4, q3, by rw [htypes.2.1]; simp, by rw [htypes.2.2]; simp, ?_, ?_⟩
    · rw [g1, q4']; exact hnod
    · rw [g1, g2, q5]
  obtain ⟨v, v1, v2, v3, v4, v5, _⟩ := C179_refit_partial F M a.fitType t (by rw [hdeg]; exact hM) hE.sqrt s' hon'
    (by have := hT.degree; omega)
    (by rw [g1, q4', ← hnod.dedup]; have := hT.degree; omega)
  rw [hs2]
  exact ⟨v, v1, v2, by rw [v3, g1, q4'], by rw [v3, v4, g1, g2, q5], v5⟩

end

/-- A case for `C183_pipeline`: the toy calibrator with `minimum_fit_error` 0. -/
example : ∃ w, Toy.withAtlas Toy.atlas 0 = .ok w ∧ ∃ n, ∀ tape : List Draw, n ≤ tape.length →
    ∃ r, ((((Session.new w false).fit Toy.env Toy.args false ⟨fun _ => 0, tape⟩).1.matchPeaks Toy.env Toy.mkern
      { tol := 10, minFrac := 1 / 2 }).1.manualRefit Toy.env Toy.mkern {}).2 = .ok r ∧
      r.coeffs = some [3100, 280] ∧ r.peaks = [10, 20] ∧ r.atlas = [5900, 8700] := by
  obtain ⟨w, lines, L, h0, h1, h2, h3, hx, hy, hA, hm, hu⟩ := Toy.exact_start 0 (Or.inl rfl)
  have hc : (Toy.withAtlas Toy.atlas 0).toOption.map (fun w => (w.atlasLines.toOption, w.cal.peaks,
      w.cal.pairList.all (fun e => decide (e.1 ∈ w.cal.peaks) &&
        w.atlasLines.toOption.any (fun l => decide (e.2 ∈ l))))) =
      some (some [5900, 8700, 20000, 21000, 22000], [10, 20], true) := by
    decide +kernel
  rw [h0] at hc
  simp only [Except.toOption, Option.map_some, Option.some.injEq, Prod.mk.injEq] at hc
  obtain ⟨k1, k2, k3⟩ := hc
  have hlines : lines = [5900, 8700, 20000, 21000, 22000] := by
    rw [h2] at k1
    exact Option.some.inj k1
  subst hlines
  refine ⟨w, h0, L.trials.length, fun tape hl => ?_⟩
  have hsp : SearchSpaceCurrent w := by
    intro e he
    have := List.all_eq_true.1 k3 e he
    rw [h2] at this
    simp only [Bool.and_eq_true, decide_eq_true_eq, Option.any_some] at this
    exact ⟨this.1, _, h2, this.2⟩
  have := (C183_pipeline Toy.env Toy.mkern Toy.env_argsort (Session.new w false) Toy.args false (fun _ => 0)
    (by decide) rfl _ L h2 h3 [3100, 280] hsp (by rw [hx, hy]; exact Toy.truth _ _ (by decide +kernel))
    (Toy.findsExact 3100 280) (Toy.refitsExact 3100 280 (by norm_num)) hA (by rw [hx, hy]; decide +kernel) h1.le
    (by
      show adjustMinMatches w.cal.ransac.minMatches _ w.cal.peaks.length ≤ _
      rw [hm, hx, k2]; decide +kernel)
    (by
      show w.cal.ransac.minUtil * _ ≤ _
      rw [hu, hx, zero_mul]; decide +kernel)
    tape hl { tol := 10, minFrac := 1 / 2 } rfl rfl rfl rfl (by decide +kernel) (by decide +kernel)
    (by
      show ∀ p ∈ w.cal.peaks, _
      rw [k2]
      decide +kernel)).2.2
  have hpk : (Session.new w false).world.cal.peaks = [10, 20] := k2
  rw [hpk] at this
  have htp : truePeaks ((Toy.env.kern Toy.args.fitType).polyval [3100, 280]) [5900, 8700, 20000, 21000, 22000] [10, 20] =
      [10, 20] := by decide +kernel
  rw [htp] at this
  obtain ⟨r, r1, r2, r3, r4, _⟩ := this (by decide +kernel)
  exact ⟨r, r1, r2, r3, by rw [r4, r3]; decide +kernel⟩

end Rascal
