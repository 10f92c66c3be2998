import Verif.Props.NearMatchProps

/-!
Property theorem C206: a larger `ransac_tolerance`.
-/

set_option linter.unusedSectionVars false

namespace Rascal

section
variable {K : Type _} [Field K] [LinearOrder K] [IsStrictOrderedRing K] [FloorRing K]

/-! ### sums of clipped errors -/

/-- Errors that count in full already do not grow with the tolerance, the others by at most the difference. -/
theorem clipped_sum_grows_le (m : List (K × K × K)) (t t' : K) (h : t ≤ t') :
    (m.map (fun e => min e.1 t')).sum ≤ (m.map (fun e => min e.1 t)).sum +
      ((m.length : K) - ((m.filter (fun e => decide (e.1 < t))).length : K)) * (t' - t) := by
  induction m with
  | nil => simp
  | cons e m ih =>
    rw [List.map_cons, List.sum_cons, List.map_cons, List.sum_cons, List.length_cons]
    by_cases hc : e.1 < t
    · rw [List.filter_cons_of_pos (by simpa using hc), List.length_cons, min_eq_left hc.le,
        min_eq_left (hc.le.trans h)]
      push_cast
      linarith
    · rw [List.filter_cons_of_neg (by simpa using hc), min_eq_right (not_lt.1 hc)]
      have := min_le_right e.1 t'
      push_cast
      linarith

/-- Errors that do not even count in full with the larger tolerance grow by the difference. -/
theorem le_clipped_sum_grows (m : List (K × K × K)) (t t' : K) (h : t ≤ t') :
    (m.map (fun e => min e.1 t)).sum +
      ((m.length : K) - ((m.filter (fun e => decide (e.1 < t'))).length : K)) * (t' - t) ≤
      (m.map (fun e => min e.1 t')).sum := by
  induction m with
  | nil => simp
  | cons e m ih =>
    rw [List.map_cons, List.sum_cons, List.map_cons, List.sum_cons, List.length_cons]
    by_cases hc : e.1 < t'
    · rw [List.filter_cons_of_pos (by simpa using hc), List.length_cons, min_eq_left hc.le]
      have := min_le_left e.1 t
      push_cast
      linarith
    · rw [List.filter_cons_of_neg (by simpa using hc), min_eq_right (not_lt.1 hc),
        min_eq_right (h.trans (not_lt.1 hc))]
      push_cast
      linarith

/-! ### runs that repeat no trial -/

/-- If a run ends although there are no more draws than trials, its best cost is at most the cost of every draw. -/
theorem run_cost_le (k : Kernels K) (c : RansacCfg K) (hxy : c.x.length = c.y.length) (tape : List Draw)
    (ts : List Trial) (hts : ∀ t ∈ ts, t = .random) (s fin : Best K) (hs : s.cost ≠ .nan)
    (hlen : tape.length ≤ ts.length) (h : c.run k tape ts s = .finished fin) :
    ∀ d ∈ tape, ∀ data tr m wt, c.sample d .random = .ok (some data) → k.polyfit data.1 data.2 c.fitDeg = .ok tr →
      matchBijective (k.polyval tr) (candTable c.x c.y) (npUnique c.x) = .ok m → c.weight k tr = .ok wt →
      trialCost (m.map (fun e => clipErr c.tol e.1)) tr.length wt ≠ .nan →
      fin.cost.le (trialCost (m.map (fun e => clipErr c.tol e.1)) tr.length wt) = true := by
  induction tape generalizing ts s with
  | nil => intro d hd; cases hd
  | cons d0 ds ih =>
    cases ts with
    | nil => simp at hlen
    | cons t ts =>
      have ht : t = .random := hts t (by simp)
      have hts' : ∀ t ∈ ts, t = .random := fun t ht => hts t (List.mem_cons_of_mem _ ht)
      rw [RansacCfg.run, ht] at h
      cases hc : c.attempt k d0 .random s with
      | raised e s1 => rw [hc] at h; simp at h
      | retry =>
        rw [hc] at h
        have := (first_draws_used k c (.random :: ts) (fun t ht => by
          rcases List.mem_cons.1 ht with rfl | ht
          · rfl
          · exact hts' t ht) ds s fin h).1
        simp only [List.length_cons] at this hlen
        omega
      | next s1 =>
        rw [hc] at h
        dsimp only at h
        have hs1 : s1.cost ≠ .nan := by
          rcases attempt_cases k c hxy d0 .random s with h1 | h1 | ⟨s', data', h1, _, h3⟩ | ⟨e, h1, _⟩
          · rw [hc] at h1; cases h1
          · rw [hc] at h1; cases h1; exact hs
          · rw [hc] at h1; cases h1; exact (PyFloat.not_nan_of_le _ _ h3.cost).1
          · rw [hc] at h1; cases h1
        intro d hd data tr m wt q1 q2 q3 q4 q5
        rcases List.mem_cons.1 hd with rfl | hd
        · have hle : fin.cost.le s1.cost = true := by
            have := (C61_best_wins k c hxy ds ts s1 hs1).2.1
            rw [h] at this
            exact this
          refine PyFloat.le_trans _ _ _ hle ?_
          unfold RansacCfg.attempt at hc
          rw [q1] at hc
          dsimp only at hc
          unfold RansacCfg.evaluate at hc
          rw [q2] at hc
          dsimp only at hc
          rw [q3] at hc
          split at hc
          · cases hc
          split at hc
          · cases hc
          cases m with
          | nil => cases hc
          | cons a l =>
            dsimp only at hc
            unfold RansacCfg.compare at hc
            rw [q4] at hc
            dsimp only at hc
            split at hc
            · unfold RansacCfg.consider at hc
              dsimp only at hc
              split at hc
              · cases hc
              split at hc
              · cases hc
              · cases hc
              unfold RansacCfg.judge at hc
              dsimp only at hc
              split at hc
              · cases hc
              split at hc
              · cases hc
              split at hc
              · cases hc
              split at hc
              · cases hc
                exact PyFloat.le_refl _ q5
              · cases hc
            · rename_i hnle
              cases hc
              rcases PyFloat.le_total _ _ hs q5 with h1 | h1
              · exact h1
              · exact absurd h1 hnle
        · simp only [List.length_cons] at hlen
          exact ih ts hts' s1 hs1 (by omega) h d hd data tr m wt q1 q2 q3 q4 q5

/-- Without `filter_close` another tolerance only changes the tolerance of the loop. -/
theorem enter_tol (F : FitEnv K) (c : Cal K) (lines : List K) (a : FitArgs K) (u : Nat → K)
    (L : LoopStart K) (t : K) (hfc : c.ransac.filterClose = false) (h : c.enter F lines a u = some L) :
    ∃ cal, ({ c with ransac := { c.ransac with tol := t } } : Cal K).enter F lines a u =
      some { L with cfg := { L.cfg with tol := t }, cal := cal } := by
  obtain ⟨peaks, arr, props, hough, ransac, atlas, ct, cp, pairs, ht, hl, hp, known, mp, ma, co, rms, res, pu, au⟩ :=
    c
  unfold Cal.enter at h ⊢
  dsimp only at h ⊢ hfc
  have hE := fun r : RansacSet K => ensureHough_ransac F ⟨peaks, arr, props, hough, ransac, atlas, ct, cp,
    pairs, ht, hl, hp, known, mp, ma, co, rms, res, pu, au⟩ r
  dsimp only at hE
  obtain ⟨ht', hl', hp', hfr⟩ := ensureHough_frame F (⟨peaks, arr, props, hough, ransac, atlas, ct, cp,
    pairs, ht, hl, hp, known, mp, ma, co, rms, res, pu, au⟩ : Cal K)
  rw [hE, hfr] at h
  rw [hE, hfr]
  dsimp only at h ⊢
  split at h
  · simp at h
  rename_i hok
  split at h
  · simp at h
  rename_i cands hc
  unfold Cal.candidates at hc ⊢
  dsimp only at hc ⊢
  rw [hc]
  dsimp only at h ⊢
  unfold Cal.candidateLists at h ⊢
  dsimp only at h ⊢
  rw [hfc] at h ⊢
  simp only [Bool.false_eq_true, if_false] at h ⊢
  split at h
  · simp at h
  rename_i hdeg
  rw [if_neg hdeg]
  unfold Cal.density at h ⊢
  dsimp only at h ⊢
  split at h
  · simp at h
  rename_i d hd
  split at h
  · simp at h
  rename_i cost err hsc
  simp only [Option.some.injEq] at h
  subst h
  exact ⟨_, rfl⟩

theorem setRansac_tol (w : World K) (t : K) :
    (w.setRansac { tol := some t }) =
      ({ w with cal := { w.cal with ransac := { w.cal.ransac with tol := t } } }, .ok ()) := by
  rfl

/-- C206, what holds: let `hough_weight` be 0, `filter_close` off, and let no line be a candidate of two peaks.  If the
same draws give a solution with a tolerance and with a larger one, and no trial is repeated, the larger tolerance
matches at least as many peaks.  What is missing: lines may be candidates of several peaks. -/
theorem C206_matches_partial (F : FitEnv K) (ha : IsArgsort F.argsortK) (w : World K) (a : FitArgs K) (u : Nat → K)
    (tape : List Draw) (t : K) (ht : w.cal.ransac.tol ≤ t) (r r' : FitReport K)
    (h : (w.fit F a ⟨u, tape⟩).2 = .done (.ok r))
    (h' : ((w.setRansac { tol := some t }).1.fit F a ⟨u, tape⟩).2 = .done (.ok r')) (hb : a.brute = false)
    (lines : List K) (L : LoopStart K) (hl : w.atlasLines = .ok lines)
    (he : (w.given a).enter F lines a u = some L)
    (hlen : ∀ xs ys co, (F.kern a.fitType).polyfit xs ys a.degree = .ok co → co.length = a.degree + 1)
    (hw : w.cal.ransac.houghWeight = .fin 0) (hfc : w.cal.ransac.filterClose = false)
    (hdis : ∀ p q v, (p, v) ∈ L.cfg.x.zip L.cfg.y → (q, v) ∈ L.cfg.x.zip L.cfg.y → p = q)
    (hrep : tape.length ≤ L.trials.length) :
    r.matchedPeaks.length ≤ r'.matchedPeaks.length ∧ r.peakUtil ≤ r'.peakUtil := by
  have hutil : r.matchedPeaks.length ≤ r'.matchedPeaks.length → r.peakUtil ≤ r'.peakUtil := by
    intro hle
    obtain ⟨_, _, _, _, _, _, S⟩ := fit_success F ha w a _ r h
    obtain ⟨_, _, _, _, _, _, S'⟩ := fit_success F ha _ a _ r' h'
    have e1 : r.peakUtil = (r.matchedPeaks.length : K) / (w.cal.peaks.length : K) := by
      rw [S.report]; dsimp only; rw [S.accepted.lengths.1]
    have e2 : r'.peakUtil = (r'.matchedPeaks.length : K) / (w.cal.peaks.length : K) := by
      rw [S'.report]; dsimp only; rw [S'.accepted.lengths.1]; rfl
    rw [e1, e2]
    have : (r.matchedPeaks.length : K) ≤ (r'.matchedPeaks.length : K) := by exact_mod_cast hle
    exact div_le_div_of_nonneg_right this (Nat.cast_nonneg _)
  suffices hmain : r.matchedPeaks.length ≤ r'.matchedPeaks.length from ⟨hmain, hutil hmain⟩
  rcases ht.eq_or_lt with heq | hlt
  · rw [setRansac_tol, ← heq] at h'
    rw [h] at h'
    cases CallRes.done.inj h'
    exact le_refl _
  obtain ⟨lines1, L1, s, co, data, prev, S⟩ := fit_success F ha w a _ r h
  obtain ⟨lines2, L2, s', co', data', prev', S'⟩ := fit_success F ha _ a _ r' h'
  have hl1 := S.atlas
  rw [hl] at hl1
  cases hl1
  have hl2 := S'.atlas
  change w.atlasLines = .ok lines2 at hl2
  rw [hl] at hl2
  cases hl2
  have he1 := S.enter
  change (w.given a).enter F lines a u = some L1 at he1
  rw [he] at he1
  cases he1
  obtain ⟨cal, hcal⟩ := enter_tol F (w.given a) lines a u L t hfc he
  have he2 := S'.enter
  change ({ w.given a with ransac := { (w.given a).ransac with tol := t } } : Cal K).enter F lines a u = some L2 at he2
  rw [hcal] at he2
  cases he2
  have hs := enter_spec F _ _ _ _ _ he
  have hxy := hs.aligned ha
  obtain ⟨hrandom, _⟩ := trials_random F _ _ _ _ hs hb
  have hnan := start_not_nan F _ _ _ _ hs
  obtain ⟨c0, hc0, hwt⟩ := weight_zero F _ lines a L hs hw
  have hclip : ∀ t e : K, clipErr t e = min e t := by
    intro t e
    unfold clipErr
    split
    · rename_i hc; exact (min_eq_right hc.le).symm
    · rename_i hc; exact (min_eq_left (not_lt.1 hc)).symm
  obtain ⟨tr1, m1, w1, f1, f2, f3, f4, f5⟩ := S.accepted.formula
  obtain ⟨tr2, m2, w2, g1, g2, g3, g4, g5⟩ := S'.accepted.formula
  dsimp only at g1 g2 g4 g5
  change L.cfg.weight (F.kern a.fitType) tr2 = .ok w2 at g3
  obtain ⟨d1, hd1, t1, ht1, hds1⟩ := S.sampled
  obtain ⟨d2, hd2, t2, ht2, hds2⟩ := S'.sampled
  rw [hrandom _ ht1] at hds1
  rw [hrandom _ ht2] at hds2
  change L.cfg.sample d2 .random = .ok (some data') at hds2
  have n1 := matching_length _ _ _ hdis m1 f2
  have n2 := matching_length _ _ _ hdis m2 g2
  have hdeg := hs.enough
  have l1 : tr1.length = a.degree + 1 := hlen _ _ _ (by rw [← hs.fitDeg]; exact f1)
  have l2 : tr2.length = a.degree + 1 := hlen _ _ _ (by rw [← hs.fitDeg]; exact g1)
  set n : K := ((npUnique L.cfg.x).length : K) with hnK
  have hpos : (0 : K) < n - ((a.degree + 1 : Nat) : K) + 1 := by
    have : ((a.degree : K)) < n := by rw [hnK]; exact_mod_cast hdeg
    push_cast
    linarith
  have hwpos : (0 : K) < c0 + 1 / 1000000000 := by positivity
  have hcost : ∀ (tol : K) (tr : List K) (m : List (K × K × K)), tr.length = a.degree + 1 →
      m.length = (npUnique L.cfg.x).length →
      trialCost (m.map (fun e => clipErr tol e.1)) tr.length c0 =
        .fin ((m.map (fun e => min e.1 tol)).sum / (n - ((a.degree + 1 : Nat) : K) + 1) / (c0 + 1 / 1000000000)) := by
    intro tol tr m h1 h2
    unfold trialCost
    rw [List.length_map, h1, h2]
    simp only [PyFloat.div, if_neg hpos.ne', if_neg hwpos.ne', hclip, ← hnK]
  -- the first search passed over the second solution's draw, and the other way round
  have k1 := run_cost_le (F.kern a.fitType) L.cfg hxy tape L.trials hrandom L.start s hnan hrep S.run d2 hd2 data' tr2
    m2 c0 hds2 g1 g2 (by rw [← hwt _ _ g3]; exact g3) (by rw [hcost _ _ _ l2 n2]; simp)
  have k2 := run_cost_le (F.kern a.fitType) { L.cfg with tol := t } hxy tape L.trials hrandom L.start s' hnan hrep
    S'.run d1 hd1 data tr1 m1 c0 hds1 f1 f2 (by rw [← hwt _ _ f3]; exact f3) (by rw [hcost _ _ _ l1 n1]; simp)
  rw [hcost _ _ _ l2 n2] at k1
  rw [hcost _ _ _ l1 n1] at k2
  rw [hwt _ _ f3, l1, n1, ← hnK] at f5
  rw [hwt _ _ g3, l2, n2, ← hnK] at g5
  simp only [PyFloat.div, if_neg hpos.ne', if_neg hwpos.ne'] at f5 g5
  rw [f5] at k1
  rw [g5] at k2
  simp only [PyFloat.le, decide_eq_true_eq] at k1 k2
  rw [div_le_div_iff_of_pos_right hwpos, div_le_div_iff_of_pos_right hpos, hs.tol] at k1
  rw [div_le_div_iff_of_pos_right hwpos, div_le_div_iff_of_pos_right hpos] at k2
  change (m1.map (fun e => min e.1 w.cal.ransac.tol)).sum ≤ (m2.map (fun e => min e.1 w.cal.ransac.tol)).sum at k1
  have hm1 : (m1.filter (fun e => decide (e.1 < w.cal.ransac.tol))).length = r.matchedPeaks.length := by
    have := congrArg List.length f4
    rw [List.length_zip, S.accepted.lengths.1, S.accepted.lengths.2, min_self, List.length_map, hs.tol] at this
    change s.inliers = (m1.filter (fun e => decide (e.1 < w.cal.ransac.tol))).length at this
    rw [← this, S.report]
    exact S.accepted.lengths.1.symm
  have hm2 : (m2.filter (fun e => decide (e.1 < t))).length = r'.matchedPeaks.length := by
    have := congrArg List.length g4
    rw [List.length_zip, S'.accepted.lengths.1, S'.accepted.lengths.2, min_self, List.length_map] at this
    rw [← this, S'.report]
    exact S'.accepted.lengths.1.symm
  have b1 := clipped_sum_grows_le m1 _ t hlt.le
  have b2 := le_clipped_sum_grows m2 _ t hlt.le
  rw [hm1, n1] at b1
  rw [hm2, n2] at b2
  have hd : (0 : K) < t - w.cal.ransac.tol := sub_pos.2 hlt
  have hfin : (n - (r'.matchedPeaks.length : K)) * (t - w.cal.ransac.tol) ≤
      (n - (r.matchedPeaks.length : K)) * (t - w.cal.ransac.tol) := by linarith
  have := le_of_mul_le_mul_right hfin hd
  exact_mod_cast (by linarith : (r.matchedPeaks.length : K) ≤ (r'.matchedPeaks.length : K))

end

/-! ### refutation and concrete cases -/

/-- The expected behaviour: without the Hough density and `filter_close`, if no trial is repeated, the same draws match
at least as many peaks with a larger tolerance. -/
def C206_Statement : Prop :=
  ∀ (F : FitEnv ℚ) (w : World ℚ) (a : FitArgs ℚ) (u : Nat → ℚ) (tape : List Draw) (t : ℚ) (r r' : FitReport ℚ),
    IsArgsort F.argsortK → w.cal.ransac.tol ≤ t → (w.fit F a ⟨u, tape⟩).2 = .done (.ok r) →
    ((w.setRansac { tol := some t }).1.fit F a ⟨u, tape⟩).2 = .done (.ok r') → a.brute = false →
    (∀ xs ys co, (F.kern a.fitType).polyfit xs ys a.degree = .ok co → co.length = a.degree + 1) →
    w.cal.ransac.houghWeight = .fin 0 → w.cal.ransac.filterClose = false → (tape.length : Int) ≤ a.maxTries →
    r.matchedPeaks.length ≤ r'.matchedPeaks.length

/-- Five peaks; four of them have a line on `3100 + 100 x`. -/
def Toy.fivePeaks : PyRes (World ℚ) :=
  match Cal.new (fun _ => .ok ()) [10, 20, 23, 40, 43] true none with
  | .error e => .error e
  | .ok c => .ok (World.steps Toy.calEnv
      ⟨[⟨[3802, 4100, 5100, 5400, 7100, 7420].map (fun v => ⟨v, "Xe", 1, none⟩), none, none, 0⟩], c⟩
      [.setHough { numSlopes := some 5, xbins := some 4, ybins := some 4 },
       .setRansac { sampleSize := some 2, minFitError := some 0, houghWeight := some (.fin 0), topN := some 10,
                    tol := some 1 },
       .setAtlas 0 10 false])

/-- Two draws: the first is on `3100 + 100 x`, the second on `2800 + 100 x`. -/
def Toy.fiveTape : List Draw := [⟨[0, 0], [1, 1]⟩, ⟨[2, 3], [2, 1]⟩]

/-- C206 is false: all lines are candidates of all five peaks.  With a tolerance of 1 the first draw wins, with four
matches and one peak off by 20.  With a tolerance of 15 that peak costs more; the second draw wins, with three
matches, because two peaks are nearest to lines of others and are dropped without cost. -/
theorem C206_refuted : ¬ C206_Statement := by
  intro h
  have hc : Toy.fivePeaks.toOption.bind (fun w =>
      (Toy.report (w.fit Toy.env (Toy.noHoughArgs 6000 2) ⟨fun _ => 0, Toy.fiveTape⟩)).bind (fun r =>
      (Toy.report ((w.setRansac { tol := some 15 }).1.fit Toy.env (Toy.noHoughArgs 6000 2)
        ⟨fun _ => 0, Toy.fiveTape⟩)).map (fun r' => (w.cal.ransac.tol, w.cal.ransac.houghWeight,
          w.cal.ransac.filterClose, r.matchedPeaks, r'.matchedPeaks)))) =
      some (1, .fin 0, false, [10, 20, 23, 40], [10, 23, 43]) := by
    decide +kernel
  cases hw : Toy.fivePeaks with
  | error e => rw [hw] at hc; simp [Except.toOption] at hc
  | ok w =>
    rw [hw] at hc
    simp only [Except.toOption, Option.bind_some, Option.bind_eq_some_iff, Option.map_eq_some_iff,
      Prod.mk.injEq] at hc
    obtain ⟨r, hr, r', hr', h1, h2, h3, h4, h5⟩ := hc
    have := h Toy.env w (Toy.noHoughArgs 6000 2) (fun _ => 0) Toy.fiveTape 15 r r' Toy.env_argsort
      (by rw [h1]; decide +kernel) (Toy.report_some _ _ hr) (Toy.report_some _ _ hr') rfl
      (fun xs ys co h => Toy.line_length xs ys co h) h2 h3 (by decide)
    rw [h4, h5] at this
    exact absurd this (by decide)

/-- A case for `C206_matches_partial`: with a small `candidate_tolerance` each line is a candidate of one peak; a
tolerance of one half matches three peaks, a tolerance of 5 all four. -/
example : ∃ (w : World ℚ) (r r' : FitReport ℚ), w.cal.ransac.tol = 1 / 2 ∧ r.matchedPeaks.length = 3 ∧
    r'.matchedPeaks.length = 4 ∧ r.matchedPeaks.length ≤ r'.matchedPeaks.length ∧ r.peakUtil ≤ r'.peakUtil := by
  have hc : Toy.noHough.toOption.bind (fun w0 =>
      ((w0.setRansac { tol := some (1 / 2) }).1.atlasLines).toOption.bind (fun lines =>
      (((w0.setRansac { tol := some (1 / 2) }).1.given (Toy.noHoughArgs 600 2)).enter Toy.env lines
        (Toy.noHoughArgs 600 2) (fun _ => 0)).bind (fun L =>
      (Toy.report ((w0.setRansac { tol := some (1 / 2) }).1.fit Toy.env (Toy.noHoughArgs 600 2)
        ⟨fun _ => 0, Toy.noHoughTape⟩)).bind (fun r =>
      (Toy.report (((w0.setRansac { tol := some (1 / 2) }).1.setRansac { tol := some 5 }).1.fit Toy.env
        (Toy.noHoughArgs 600 2) ⟨fun _ => 0, Toy.noHoughTape⟩)).map (fun r' =>
        (w0.cal.ransac.houghWeight, w0.cal.ransac.filterClose, r.matchedPeaks.length, r'.matchedPeaks.length,
          L.trials.length,
          decide (∀ e ∈ L.cfg.x.zip L.cfg.y, ∀ e' ∈ L.cfg.x.zip L.cfg.y, e.2 = e'.2 → e.1 = e'.1))))))) =
      some (.fin 0, false, 3, 4, 2, true) := by
    decide +kernel
  cases hw : Toy.noHough with
  | error e => rw [hw] at hc; simp [Except.toOption] at hc
  | ok w0 =>
    rw [hw] at hc
    simp only [Except.toOption, Option.bind_some] at hc
    cases hl : (w0.setRansac { tol := some (1 / 2) }).1.atlasLines with
    | error e => rw [hl] at hc; simp at hc
    | ok lines =>
      rw [hl] at hc
      simp only [Option.bind_some, Option.bind_eq_some_iff, Option.map_eq_some_iff, Prod.mk.injEq,
        decide_eq_true_eq] at hc
      obtain ⟨L, he, r, hr, r', hr', h1, h2, h3, h4, h5, h6⟩ := hc
      exact ⟨(w0.setRansac { tol := some (1 / 2) }).1, r, r', rfl, h3, h4,
        C206_matches_partial Toy.env Toy.env_argsort _ (Toy.noHoughArgs 600 2) (fun _ => 0) Toy.noHoughTape 5
          (show (1 / 2 : ℚ) ≤ 5 by decide +kernel) r r' (Toy.report_some _ _ hr) (Toy.report_some _ _ hr') rfl lines L hl he
          (fun xs ys co h => Toy.line_length xs ys co h) h1 h2
          (fun p q v a b => h6 (p, v) a (q, v) b rfl) (by rw [h5]; decide)⟩

end Rascal
