import Verif.Props.SearchProps

/-!
Property theorems C166: what a supplied solution is replaced by.
-/

set_option linter.unusedSectionVars false

namespace Rascal

section
variable {K : Type _} [Field K] [LinearOrder K] [IsStrictOrderedRing K] [FloorRing K]

/-- C166, what holds if the density is never negative: if the supplied solution passes exactly through a candidate
line at every candidate peak, then the matches of the returned report lie exactly on the polynomial of the trial it
came from, and every candidate peak has its nearest candidate line among the matches.  What is missing: a supplied
solution with errors may be replaced by a worse one, see `C166_refuted`. -/
theorem C166_perfect_partial (F : FitEnv K) (ha : IsArgsort F.argsortK) (w : World K) (a : FitArgs K)
    (rnd : FitRandom K) (r : FitReport K) (b : List K) (hb : a.fitCoeff = some b)
    (h : (w.fit F a rnd).2 = .done (.ok r))
    (hk : ∀ xs ys n co, (F.kern a.fitType).polyfit xs ys n = .ok co → co.length = n + 1)
    (htol : 0 < w.cal.ransac.tol) :
    ∃ lines L, w.atlasLines = .ok lines ∧ (w.given a).enter F lines a rnd.uniform = some L ∧
      ((∀ g f, L.cfg.density = .spline g f → 0 ≤ g ∧ ∀ u v, 0 ≤ f u v) →
        (∀ x ∈ L.cfg.x, ∃ y, (x, y) ∈ L.cfg.x.zip L.cfg.y ∧ (F.kern a.fitType).polyval b x = y) →
        ∃ xs ys trial, (F.kern a.fitType).polyfit xs ys a.degree = .ok trial ∧
          (∀ e ∈ r.matchedPeaks.zip r.matchedAtlas, (F.kern a.fitType).polyval trial e.1 = e.2) ∧
          ∀ x ∈ L.cfg.x, ∃ y ∈ r.matchedAtlas, (x, y) ∈ L.cfg.x.zip L.cfg.y ∧
            ∀ y', (x, y') ∈ L.cfg.x.zip L.cfg.y →
              |(F.kern a.fitType).polyval trial x - y| ≤ |(F.kern a.fitType).polyval trial x - y'|) := by
  obtain ⟨lines, L, s, co0, data0, prev, S⟩ := fit_success F ha w a rnd r h
  refine ⟨lines, L, S.atlas, S.enter, ?_⟩
  intro hdens hperf
  have hs := enter_spec F _ _ _ _ _ S.enter
  have hxy := hs.aligned ha
  have htol' : 0 < L.cfg.tol := by rw [hs.tol]; exact htol
  obtain ⟨cost, err, hst, hsc⟩ := hs.start
  rw [hb] at hsc
  unfold startCost at hsc
  split at hsc
  · simp at *
  · simp at hsc
  rename_i b0 bs hbs
  simp only [Option.some.injEq] at hbs
  split at hsc
  · simp at hsc
  rename_i m0 hm0
  simp only [Except.ok.injEq, Prod.mk.injEq] at hsc
  have hbest := (C61_best_wins (F.kern a.fitType) L.cfg hxy rnd.tape L.trials L.start
    (by rw [hst, ← hsc.1]; simp)).2.1
  rw [S.run, show (RunState.finished s).best = s from rfl, hst, ← hsc.1] at hbest
  -- the supplied solution has no error
  have hsum : (m0.map (fun e => e.1)).sum = 0 := by
    rw [← hbs] at hm0
    obtain ⟨m', hm', hcand⟩ := C57_candidate_pairs ((F.kern a.fitType).polyval b) L.cfg.x L.cfg.y hxy
    rw [hm0] at hm'
    cases hm'
    apply List.sum_eq_zero
    intro v hv
    obtain ⟨e, he, rfl⟩ := List.mem_map.1 hv
    obtain ⟨y, hy, hv⟩ := hperf e.2.1 ((List.of_mem_zip (hcand e he).1).1)
    have h4 := (hcand e he).2 y hy
    rw [hv, sub_self, abs_zero] at h4
    have h5 := ((C57_matching _ _ _ _ hm0).2.2.1 e he).2.2.1
    exact le_antisymm h4 (h5 ▸ abs_nonneg _)
  obtain ⟨tr, m, q, f1, f2, f4, hq, f5⟩ := accepted_cost _ _ _ _ _ S.accepted hk hdens
  rw [f5, hsum] at hbest
  simp only [PyFloat.le, decide_eq_true_eq] at hbest
  have hM := C57_matching _ _ _ _ f2
  have hpos : ∀ e ∈ m, 0 ≤ e.1 := fun e he => by rw [(hM.2.2.1 e he).2.2.1]; exact abs_nonneg _
  have hz := (sum_min_nonneg m L.cfg.tol htol' hpos).2 (by
    by_contra hc
    exact absurd hbest (not_le.2 (mul_pos (not_le.1 hc) hq)))
  have hfil : m.filter (fun e => decide (e.1 < L.cfg.tol)) = m := by
    rw [List.filter_eq_self]
    intro e he
    rw [hz e he]
    exact decide_eq_true htol'
  rw [hfil] at f4
  have hr1 : r.matchedPeaks = s.matchedPeaks := by rw [S.report]
  have hr2 : r.matchedAtlas = s.matchedAtlas := by rw [S.report]
  rw [← hr1, ← hr2] at f4
  rw [hs.fitDeg] at f1
  refine ⟨_, _, tr, f1, ?_, ?_⟩
  · intro e he
    rw [f4] at he
    obtain ⟨t, ht, rfl⟩ := List.mem_map.1 he
    have h6 := (hM.2.2.1 t ht).2.2.1
    rw [hz t ht] at h6
    exact sub_eq_zero.1 (abs_eq_zero.1 h6.symm)
  · intro x hx
    obtain ⟨y, hcl, hy⟩ := hM.2.2.2 x ((mem_npUnique _ _).2 hx)
    obtain ⟨ws, i, hws, hi, hmin, _⟩ := hcl
    have htab : ∀ v, v ∈ ws ↔ (x, v) ∈ L.cfg.x.zip L.cfg.y := by
      intro v
      exact candTable_mem _ _ x ws hws v
    refine ⟨y, ?_, (htab y).1 (List.mem_of_getElem? hi), fun y' hy' => hmin y' ((htab y').2 hy')⟩
    obtain ⟨t, ht, rfl⟩ := List.mem_map.1 hy
    have : (t.2.1, t.2.2) ∈ r.matchedPeaks.zip r.matchedAtlas := by
      rw [f4]
      exact List.mem_map_of_mem (f := fun e : K × K × K => (e.2.1, e.2.2)) ht
    exact (List.of_mem_zip this).2

end

/-! ### The refutation and concrete cases -/

/-- The peaks that a polynomial brings closer than `tol` to a line. -/
def Spec.peaksNear (f : ℚ → ℚ) (tol : ℚ) (lines peaks : List ℚ) : List ℚ :=
  peaks.filter (fun p => lines.any (fun l => decide (|f p - l| < tol)))

/-- The expected behaviour: a supplied solution is only replaced by a solution that brings as many peaks within
`ransac_tolerance` of a line. -/
def C166_Statement : Prop :=
  ∀ (F : FitEnv ℚ) (w : World ℚ) (a : FitArgs ℚ) (rnd : FitRandom ℚ) (r : FitReport ℚ) (b lines : List ℚ),
    IsArgsort F.argsortK → a.fitCoeff = some b → w.atlasLines = .ok lines → (w.fit F a rnd).2 = .done (.ok r) →
    (Spec.peaksNear ((F.kern a.fitType).polyval b) w.cal.ransac.tol lines w.cal.peaks).length ≤
      (Spec.peaksNear ((F.kern a.fitType).polyval r.coeffs) w.cal.ransac.tol lines w.cal.peaks).length

/-- A density of one. -/
def Toy.denseEnv : FitEnv ℚ :=
  { Toy.env with kern := fun _ => { Toy.kern with spline := fun _ _ _ => .ok (fun _ _ => 1) } }

/-- Lines at `3100 + 140 x`, and further lines 60 above the first three. -/
def Toy.doubled : PyRes (World ℚ) := Toy.fourPeaks [4500, 4560, 5900, 5960, 7440, 7500, 8840]

/-- C166 is false: the supplied solution is within 1 of a line at all four peaks, the summed error is 4.  The trial
through the further lines misses the last peak by 60, which counts 5, divided by the degrees of freedom and the
density; it is returned. -/
theorem C166_refuted : ¬ C166_Statement := by
  intro h
  have hc : Toy.doubled.toOption.bind (fun w => w.atlasLines.toOption.bind (fun lines =>
      (Toy.report (w.fit Toy.denseEnv { Toy.fourArgs 1 with fitCoeff := some [3101, 140] }
        ⟨fun _ => 0, [⟨[0, 0], [1, 0]⟩]⟩)).map (fun r =>
        ((Spec.peaksNear (Toy.kern.polyval [3101, 140]) w.cal.ransac.tol lines w.cal.peaks).length,
          (Spec.peaksNear (Toy.kern.polyval r.coeffs) w.cal.ransac.tol lines w.cal.peaks).length)))) =
      some (4, 3) := by
    decide +kernel
  cases hw : Toy.doubled with
  | error e => rw [hw] at hc; simp [Except.toOption] at hc
  | ok w =>
    rw [hw] at hc
    simp only [Except.toOption, Option.bind_some] at hc
    cases hl : w.atlasLines with
    | error e => rw [hl] at hc; simp at hc
    | ok lines =>
      rw [hl] at hc
      simp only [Option.bind_some, Option.map_eq_some_iff, Prod.mk.injEq] at hc
      obtain ⟨r, hr, h1, h2⟩ := hc
      have := h Toy.denseEnv w _ _ r [3101, 140] lines stableArgsort_isArgsort rfl hl (Toy.report_some _ _ hr)
      change (Spec.peaksNear (Toy.kern.polyval [3101, 140]) _ _ _).length ≤
        (Spec.peaksNear (Toy.kern.polyval r.coeffs) _ _ _).length at this
      rw [h1, h2] at this
      exact absurd this (by decide)

/-- A case meeting the hypotheses of `C166_perfect_partial`: the supplied solution is exact at all four peaks, the
second of two tries finds it. -/
example : Toy.doubled.toOption.bind (fun w =>
      (Toy.report (w.fit Toy.denseEnv { Toy.fourArgs 2 with fitCoeff := some [3100, 140] }
        ⟨fun _ => 0, [⟨[0, 0], [1, 0]⟩, ⟨[0, 0], [0, 1]⟩]⟩)).map
        (fun r => (r.coeffs, r.matchedAtlas, w.cal.ransac.tol))) =
      some ([3100, 140], [4500, 5900, 7440, 8840], 5) := by
  decide +kernel

end Rascal
