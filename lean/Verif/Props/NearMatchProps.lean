import Verif.Props.FairProps

/-!
Property theorem C172: how many peaks the returned solution matches, compared with the samples drawn.
-/

set_option linter.unusedSectionVars false

namespace Rascal

section
variable {K : Type _} [Field K] [LinearOrder K] [IsStrictOrderedRing K] [FloorRing K]

/-- The polynomial `tr` passes within `ε` of a candidate of every candidate peak. -/
def Spec.PassesNear (k : Kernels K) (tr x y : List K) (ε : K) : Prop :=
  ∀ p ∈ x, ∃ v, (p, v) ∈ x.zip y ∧ |k.polyval tr p - v| ≤ ε

theorem claims_candidate {f : K → K} {x y : List K} {p v : K} (h : Spec.Claims f (candTable x y) p v) :
    (p, v) ∈ x.zip y := by
  obtain ⟨ws, i, h1, h2, _⟩ := h
  exact (candTable_mem x y p ws h1 v).1 (List.mem_of_getElem? h2)

/-- If no wavelength is a candidate of two peaks, every candidate peak gets a wavelength. -/
theorem matching_length (f : K → K) (x y : List K)
    (hdis : ∀ p q v, (p, v) ∈ x.zip y → (q, v) ∈ x.zip y → p = q) (m : List (K × K × K))
    (h : matchBijective f (candTable x y) (npUnique x) = .ok m) : m.length = (npUnique x).length := by
  obtain ⟨h1, h2, h3, h4⟩ := C57_matching f _ _ m h
  have hp : (m.map (fun e => e.2.1)).Perm (npUnique x) := by
    refine (List.perm_ext_iff_of_nodup h1 ?_).2 (fun p => ⟨fun hp => ?_, fun hp => ?_⟩)
    · exact npUnique_nodup x
    · obtain ⟨e, he, rfl⟩ := List.mem_map.1 hp
      exact (h3 e he).1
    · obtain ⟨v, hv, hm⟩ := h4 p hp
      obtain ⟨e, he, rfl⟩ := List.mem_map.1 hm
      exact List.mem_map.2 ⟨e, he, (hdis _ _ _ (claims_candidate (h3 e he).2.1) (claims_candidate hv))⟩
  rw [← hp.length_eq, List.length_map]

theorem clipped_sum_le (m : List (K × K × K)) (tol ε : K) (h : ∀ e ∈ m, e.1 ≤ ε) :
    (m.map (fun e => min e.1 tol)).sum ≤ (m.length : K) * ε := by
  induction m with
  | nil => simp
  | cons e m ih =>
    have h1 := ih (fun e he => h e (List.mem_cons_of_mem _ he))
    have h2 : min e.1 tol ≤ ε := (min_le_left _ _).trans (h e (by simp))
    rw [List.map_cons, List.sum_cons, List.length_cons]
    push_cast
    linarith

theorem le_clipped_sum (m : List (K × K × K)) (tol : K) (ht : 0 ≤ tol) (h : ∀ e ∈ m, 0 ≤ e.1) :
    ((m.length : K) - ((m.filter (fun e => decide (e.1 < tol))).length : K)) * tol ≤
      (m.map (fun e => min e.1 tol)).sum := by
  induction m with
  | nil => simp
  | cons e m ih =>
    have h1 := ih (fun e he => h e (List.mem_cons_of_mem _ he))
    have h0 := h e (by simp)
    rw [List.map_cons, List.sum_cons, List.length_cons]
    by_cases hc : e.1 < tol
    · rw [List.filter_cons_of_pos (by simpa using hc), List.length_cons, min_eq_left hc.le]
      push_cast
      linarith
    · rw [List.filter_cons_of_neg (by simpa using hc), min_eq_right (not_lt.1 hc)]
      push_cast
      linarith

/-- With `hough_weight` 0 all trials have the same weight. -/
theorem weight_zero (F : FitEnv K) (c : Cal K) (lines : List K) (a : FitArgs K) (L : LoopStart K)
    (hs : EnterSpec F c lines a L) (hw : c.ransac.houghWeight = .fin 0) :
    ∃ c0 : K, 0 ≤ c0 ∧ ∀ tr wt, L.cfg.weight (F.kern a.fitType) tr = .ok wt → wt = c0 := by
  have hd := hs.density
  obtain ⟨s, m, hr⟩ := hs.frame.ransac
  unfold Cal.density at hd
  split at hd
  · cases hd' : L.cfg.density with
    | absent =>
      refine ⟨1, zero_le_one, fun tr wt h => ?_⟩
      unfold RansacCfg.weight at h
      rw [hd'] at h
      split at h
      · simp at h
      · exact (Except.ok.inj h).symm
    | unbound => rw [hd'] at hd; simp at hd
    | spline g f => rw [hd'] at hd; simp at hd
  · rw [hr, show ({ c.ransac with sampleSize := s, minMatches := m } : RansacSet K).houghWeight = .fin 0 from hw] at hd
    simp only [PyFloat.toFinite] at hd
    split at hd
    · simp at hd
    · refine ⟨0, le_refl _, fun tr wt h => ?_⟩
      unfold RansacCfg.weight at h
      rw [← Except.ok.inj hd] at h
      split at h
      · simp at h
      · rw [← Except.ok.inj h]
        simp

/-- C172, what holds: let `hough_weight` be 0 and let no line be a candidate of two peaks.  If one of the first draws
is acceptable and its polynomial passes within `ε` of a candidate of all `n` candidate peaks, then at most
`n * ε / ransac_tolerance` candidate peaks are left without a match.  If `n * ε` is less than `ransac_tolerance`, all
are matched.  What is missing: lines may be candidates of several peaks. -/
theorem C172_matches_partial (F : FitEnv K) (ha : IsArgsort F.argsortK) (w : World K) (a : FitArgs K) (u : Nat → K)
    (tape : List Draw) (r : FitReport K) (h : (w.fit F a ⟨u, tape⟩).2 = .done (.ok r)) (hb : a.brute = false)
    (lines : List K) (L : LoopStart K) (hl : w.atlasLines = .ok lines)
    (he : (w.given a).enter F lines a u = some L)
    (hlen : ∀ xs ys co, (F.kern a.fitType).polyfit xs ys a.degree = .ok co → co.length = a.degree + 1)
    (hw : w.cal.ransac.houghWeight = .fin 0) (htol : 0 < w.cal.ransac.tol)
    (hdis : ∀ p q v, (p, v) ∈ L.cfg.x.zip L.cfg.y → (q, v) ∈ L.cfg.x.zip L.cfg.y → p = q)
    (d : Draw) (hd : d ∈ tape.take L.trials.length) (data : List (PyFloat K) × List (PyFloat K))
    (hds : L.cfg.sample d .random = .ok (some data)) (prev : PyFloat K) (b : Best K)
    (hacc : AcceptedTrial (F.kern a.fitType) L.cfg data prev b) (tr : List K)
    (htr : (F.kern a.fitType).polyfit data.1 data.2 a.degree = .ok tr) (ε : K)
    (hε : Spec.PassesNear (F.kern a.fitType) tr L.cfg.x L.cfg.y ε) :
    ((L.cfg.x.dedup.length : K) - (r.matchedPeaks.length : K)) * w.cal.ransac.tol ≤ (L.cfg.x.dedup.length : K) * ε ∧
    ((L.cfg.x.dedup.length : K) * ε < w.cal.ransac.tol → ∀ p ∈ L.cfg.x, p ∈ r.matchedPeaks) := by
  obtain ⟨lines', L', s, co, data0, prev0, S⟩ := fit_success F ha w a _ r h
  have hl' := S.atlas
  rw [hl] at hl'
  cases hl'
  have he' := S.enter
  change (w.given a).enter F lines a u = some L' at he'
  rw [he] at he'
  cases he'
  have hs := enter_spec F _ _ _ _ _ he
  have hxy := hs.aligned ha
  obtain ⟨hrandom, _⟩ := trials_random F _ _ _ _ hs hb
  obtain ⟨b1, b2, b3⟩ := C61_best_wins (F.kern a.fitType) L.cfg hxy tape L.trials L.start
    (start_not_nan F _ _ _ _ hs)
  rw [show L.cfg.run (F.kern a.fitType) tape L.trials L.start = .finished s from S.run,
    show (RunState.finished s).best = s from rfl] at b1 b2 b3
  have hcost : s.cost.le b.cost = true := by
    have hp := (first_draws_used (F.kern a.fitType) L.cfg L.trials hrandom tape L.start s S.run).2 d hd
    refine b3 _ hp b ⟨?_, ?_⟩
    · unfold RansacCfg.attempt
      dsimp only
      rw [hds]
      dsimp only
      refine accepted_evaluate _ _ _ _ _ hacc noSolution ?_
      have hn := (PyFloat.not_nan_of_le _ _ hacc.cost).1
      unfold noSolution
      dsimp only
      cases hc : b.cost with
      | nan => exact absurd hc hn
      | _ => rfl
    · obtain ⟨co', _, hco', _⟩ := hacc.fit
      rw [hco']
      simp
  obtain ⟨c0, hc0, hwt⟩ := weight_zero F _ lines a L hs hw
  obtain ⟨tr1, m1, w1, f1, f2, f3, f4, f5⟩ := hacc.formula
  obtain ⟨tr2, m2, w2, g1, g2, g3, g4, g5⟩ := S.accepted.formula
  rw [hs.fitDeg] at f1 g1
  rw [htr] at f1
  cases f1
  have n1 := matching_length _ _ _ hdis m1 f2
  have n2 := matching_length _ _ _ hdis m2 g2
  have hn : (npUnique L.cfg.x).length = L.cfg.x.dedup.length := npUnique_length_eq_dedup _
  have hdeg := hs.enough
  rw [hwt _ _ f3, hlen _ _ _ htr, n1] at f5
  rw [hwt _ _ g3, hlen _ _ _ g1, n2] at g5
  rw [hn] at f5 g5 n1 n2 hdeg
  set n : K := (L.cfg.x.dedup.length : K) with hnK
  have hpos : (0 : K) < n - ((a.degree + 1 : Nat) : K) + 1 := by
    have : ((a.degree : K)) < n := by rw [hnK]; exact_mod_cast hdeg
    push_cast
    linarith
  have hwpos : (0 : K) < c0 + 1 / 1000000000 := by positivity
  simp only [PyFloat.div, if_neg hpos.ne', if_neg hwpos.ne'] at f5 g5
  rw [f5, g5] at hcost
  simp only [PyFloat.le, decide_eq_true_eq] at hcost
  rw [div_le_div_iff_of_pos_right hwpos, div_le_div_iff_of_pos_right hpos] at hcost
  rw [hs.tol] at hcost
  -- the errors of the sample are at most ε
  have hub : (m1.map (fun e => min e.1 (w.given a).ransac.tol)).sum ≤ n * ε := by
    have := clipped_sum_le m1 (w.given a).ransac.tol ε (by
      intro e he1
      obtain ⟨_, _, h3, _⟩ := C57_matching _ _ _ m1 f2
      obtain ⟨q1, q2, q3, _⟩ := h3 e he1
      obtain ⟨v, hv, hve⟩ := hε e.2.1 ((mem_npUnique _ _).1 q1)
      obtain ⟨m', hm', hnear⟩ := C57_candidate_pairs ((F.kern a.fitType).polyval tr) L.cfg.x L.cfg.y hxy
      rw [f2] at hm'
      cases hm'
      exact ((hnear e he1).2 v hv).trans hve)
    rwa [n1] at this
  have hlb := le_clipped_sum m2 (w.given a).ransac.tol htol.le (by
    intro e he2
    obtain ⟨_, _, h3, _⟩ := C57_matching _ _ _ m2 g2
    rw [(h3 e he2).2.2.1]
    exact abs_nonneg _)
  have hmatched : (m2.filter (fun e => decide (e.1 < (w.given a).ransac.tol))).length = r.matchedPeaks.length := by
    have := congrArg List.length g4
    rw [List.length_zip, S.accepted.lengths.1, S.accepted.lengths.2, min_self, List.length_map, hs.tol] at this
    rw [← this, S.report]
    exact S.accepted.lengths.1.symm
  rw [hmatched, n2] at hlb
  have main : (n - (r.matchedPeaks.length : K)) * w.cal.ransac.tol ≤ n * ε := (hlb.trans hcost).trans hub
  refine ⟨main, fun hlt p hp => ?_⟩
  have hall : L.cfg.x.dedup.length ≤ r.matchedPeaks.length := by
    by_contra hc
    push Not at hc
    have : (r.matchedPeaks.length : K) + 1 ≤ n := by rw [hnK]; exact_mod_cast hc
    nlinarith
  have hrs : r.matchedPeaks = s.matchedPeaks := by rw [S.report]
  have hsub : r.matchedPeaks.toFinset ⊆ L.cfg.x.toFinset := by
    intro q hq
    rw [List.mem_toFinset] at hq ⊢
    rw [hrs] at hq
    obtain ⟨i, hi, rfl⟩ := List.getElem_of_mem hq
    have hz : (s.matchedPeaks[i], s.matchedAtlas[i]'(by
        rw [S.accepted.lengths.2, ← S.accepted.lengths.1]; exact hi)) ∈ s.matchedPeaks.zip s.matchedAtlas := by
      rw [List.mem_iff_getElem?]
      refine ⟨i, ?_⟩
      rw [List.getElem?_zip_eq_some]
      exact ⟨List.getElem?_eq_getElem _, List.getElem?_eq_getElem _⟩
    exact (List.of_mem_zip (S.accepted.candidates _ hz)).1
  have hnd : r.matchedPeaks.Nodup := by rw [hrs]; exact S.accepted.distinct.1
  have heq := Finset.eq_of_subset_of_card_le hsub (by
    rw [List.toFinset_card_of_nodup hnd, List.card_toFinset]
    exact hall)
  rw [← List.mem_toFinset, heq, List.mem_toFinset]
  exact hp

end

/-! ### refutation and concrete cases -/

/-- The expected behaviour: without the Hough density, if a sample is drawn which is acceptable and passes within
`ransac_tolerance / n` of a candidate of each of the `n` candidate peaks, all candidate peaks are matched. -/
def C172_Statement : Prop :=
  ∀ (F : FitEnv ℚ) (w : World ℚ) (a : FitArgs ℚ) (u : Nat → ℚ) (tape : List Draw) (r : FitReport ℚ),
    IsArgsort F.argsortK → (w.fit F a ⟨u, tape⟩).2 = .done (.ok r) → a.brute = false →
    ∀ (lines : List ℚ) (L : LoopStart ℚ), w.atlasLines = .ok lines → (w.given a).enter F lines a u = some L →
    (∀ xs ys co, (F.kern a.fitType).polyfit xs ys a.degree = .ok co → co.length = a.degree + 1) →
    w.cal.ransac.houghWeight = .fin 0 → 0 < w.cal.ransac.tol →
    ∀ d ∈ tape.take L.trials.length, ∀ data, L.cfg.sample d .random = .ok (some data) → ∀ prev b,
    AcceptedTrial (F.kern a.fitType) L.cfg data prev b → ∀ tr,
    (F.kern a.fitType).polyfit data.1 data.2 a.degree = .ok tr → ∀ ε,
    Spec.PassesNear (F.kern a.fitType) tr L.cfg.x L.cfg.y ε →
    (L.cfg.x.dedup.length : ℚ) * ε < w.cal.ransac.tol → ∀ p ∈ L.cfg.x, p ∈ r.matchedPeaks

/-- Four peaks with lines near `3100 + 140 x`, the Hough density being switched off. -/
def Toy.noHough : PyRes (World ℚ) :=
  (Toy.fourPeaks [4500, 5900, 7440, 8841]).map
    (fun w => (w.setRansac { houghWeight := some (.fin 0) }).1)

/-- Straight lines, `n` tries, candidates within `tol`. -/
def Toy.noHoughArgs (tol : ℚ) (n : Int) : FitArgs ℚ := { fitDeg := 1, candTol := tol, maxTries := n }

/-- Two draws: the first is on `3100 + 140 x`. -/
def Toy.noHoughTape : List Draw := [⟨[0, 0], [0, 0]⟩, ⟨[1, 2], [0, 0]⟩]

theorem Toy.line_length (xs ys : List (PyFloat ℚ)) (co : List ℚ) (h : Toy.kern.polyfit xs ys 1 = .ok co) :
    co.length = 2 := by
  unfold Toy.kern at h
  simp only [if_true] at h
  unfold Toy.line at h
  dsimp only at h
  split at h
  · simp at h
  · rw [← Except.ok.inj h]; rfl

set_option synthInstance.maxHeartbeats 400000 in
set_option synthInstance.maxSize 2000 in
/-- What the refutation and the case below need. -/
theorem Toy.noHough_run (T : ℚ) (hT : T = 600 ∨ T = 6000) : ∃ w lines L r,
    Toy.noHough = .ok w ∧ w.atlasLines = .ok lines ∧
    (w.given (noHoughArgs T 2)).enter env lines (noHoughArgs T 2) (fun _ => 0) = some L ∧
    (w.fit env (noHoughArgs T 2) ⟨fun _ => 0, noHoughTape⟩).2 = .done (.ok r) ∧
    w.cal.ransac.houghWeight = .fin 0 ∧ w.cal.ransac.tol = 5 ∧ L.cfg.x.dedup.length = 4 ∧ L.trials.length = 2 ∧
    Spec.PassesNear kern [3100, 140] L.cfg.x L.cfg.y 1 ∧ 10 ∈ L.cfg.x ∧
    r.matchedPeaks = (if T = 600 then [10, 20, 31, 41] else [20, 41]) ∧
    (T = 600 → ∀ p q v, (p, v) ∈ L.cfg.x.zip L.cfg.y → (q, v) ∈ L.cfg.x.zip L.cfg.y → p = q) ∧
    ∃ data prev b, L.cfg.sample ⟨[0, 0], [0, 0]⟩ .random = .ok (some data) ∧
      kern.polyfit data.1 data.2 1 = .ok [3100, 140] ∧ AcceptedTrial kern L.cfg data prev b := by
  have hc : Toy.noHough.toOption.bind (fun w => w.atlasLines.toOption.bind (fun lines =>
      (Toy.report (w.fit env (noHoughArgs T 1) ⟨fun _ => 0, [⟨[0, 0], [0, 0]⟩]⟩)).bind (fun _ =>
      (Toy.report (w.fit env (noHoughArgs T 2) ⟨fun _ => 0, noHoughTape⟩)).bind (fun r =>
      ((w.given (noHoughArgs T 2)).enter env lines (noHoughArgs T 2) (fun _ => 0)).bind (fun L =>
      (L.cfg.sample ⟨[0, 0], [0, 0]⟩ .random).toOption.map (fun data => ((w.cal.ransac.houghWeight, w.cal.ransac.tol,
        L.cfg.x.dedup.length, L.trials.length),
        decide (∀ p ∈ L.cfg.x, ∃ e ∈ L.cfg.x.zip L.cfg.y, e.1 = p ∧ |kern.polyval [3100, 140] p - e.2| ≤ 1),
        decide (10 ∈ L.cfg.x), decide (r.matchedPeaks = (if T = 600 then [10, 20, 31, 41] else [20, 41])),
        decide (T = 600 → ∀ e ∈ L.cfg.x.zip L.cfg.y, ∀ e' ∈ L.cfg.x.zip L.cfg.y, e.2 = e'.2 → e.1 = e'.1),
        data))))))) = some ((.fin 0, 5, 4, 2), true, true, true, true,
          some ([.fin 10, .fin 20], [.fin 4500, .fin 5900])) := by
    rcases hT with rfl | rfl <;> decide +kernel
  cases hw : Toy.noHough with
  | error e => rw [hw] at hc; simp [Except.toOption] at hc
  | ok w =>
    rw [hw] at hc
    simp only [Except.toOption, Option.bind_some] at hc
    cases hl : w.atlasLines with
    | error e => rw [hl] at hc; simp at hc
    | ok lines =>
      rw [hl] at hc
      simp only [Option.bind_some, Option.bind_eq_some_iff] at hc
      obtain ⟨r1, hr1, r, hr, L, he, hc⟩ := hc
      cases hsm : L.cfg.sample ⟨[0, 0], [0, 0]⟩ .random with
      | error e => rw [hsm] at hc; simp at hc
      | ok data =>
        rw [hsm] at hc
        simp only [Option.map_some, Option.some.injEq, Prod.mk.injEq, decide_eq_true_eq] at hc
        obtain ⟨⟨c1, c2, c3, c4⟩, c5, c6, c7, c8, c9⟩ := hc
        obtain ⟨lines', L1, s, co, data1, prev, S⟩ := fit_success env env_argsort w _ _ _ (Toy.report_some _ _ hr1)
        have hl' := S.atlas
        rw [hl] at hl'
        cases hl'
        have hs1 := enter_spec env _ _ _ _ _ S.enter
        obtain ⟨hrandom, _⟩ := trials_random env _ _ _ _ hs1 rfl
        obtain ⟨d, hd, t, ht, hsd⟩ := S.sampled
        obtain ⟨ts, _, he'⟩ := enter_tries env _ lines (noHoughArgs T 1) _ L1 2 (by decide) S.enter
          (List.ne_nil_of_mem ht)
        change (w.given (noHoughArgs T 2)).enter env lines (noHoughArgs T 2) (fun _ => 0) = _ at he'
        rw [he] at he'
        have hcfg : L.cfg = L1.cfg := by rw [Option.some.inj he']
        rw [List.mem_singleton.1 hd, hrandom t ht, ← hcfg, hsm] at hsd
        have hsd := Except.ok.inj hsd
        subst hsd
        refine ⟨w, lines, L, r, rfl, hl, he, Toy.report_some _ _ hr, c1, c2, c3, c4, ?_, c6, c7, ?_,
          data1, prev, s, hsm, ?_, ?_⟩
        · intro p hp
          obtain ⟨e, h1, rfl, h2⟩ := c5 p hp
          exact ⟨e.2, h1, h2⟩
        · intro hT p q v h1 h2
          exact c8 hT (p, v) h1 (q, v) h2 rfl
        · rw [Option.some.inj c9]
          decide +kernel
        · rw [hcfg]
          exact S.accepted

/-- C172 is false: all lines are candidates of all four peaks.  The first draw passes within 1 of a line at each of
them.  The second draw passes exactly through two lines at two peaks; the other two peaks are nearest to the same two
lines and are dropped, which costs nothing, so the second draw wins. -/
theorem C172_refuted : ¬ C172_Statement := by
  intro h
  obtain ⟨w, lines, L, r, _, hl, he, hr, c1, c2, c3, c4, c5, c6, c7, _, data, prev, b, d1, d2, d3⟩ :=
    Toy.noHough_run 6000 (Or.inr rfl)
  have := h Toy.env w (Toy.noHoughArgs 6000 2) (fun _ => 0) Toy.noHoughTape r Toy.env_argsort hr rfl lines L hl he
    (fun xs ys co h => Toy.line_length xs ys co h) c1 (by rw [c2]; decide) ⟨[0, 0], [0, 0]⟩
    (by rw [c4]; simp [Toy.noHoughTape]) data d1 prev b d3 [3100, 140] d2 1 c5 (by rw [c2, c3]; decide +kernel) 10 c6
  rw [c7] at this
  revert this
  decide +kernel

/-- A case for `C172_matches_partial`: with a small `candidate_tolerance` each line is a candidate of one peak, and all
peaks are matched. -/
example : ∃ w L r, Toy.noHough = .ok w ∧
    (w.fit Toy.env (Toy.noHoughArgs 600 2) ⟨fun _ => 0, Toy.noHoughTape⟩).2 = .done (.ok r) ∧
    ((L : LoopStart ℚ).cfg.x.dedup.length = 4) ∧ (∀ p ∈ L.cfg.x, p ∈ r.matchedPeaks) := by
  obtain ⟨w, lines, L, r, h0, hl, he, hr, c1, c2, c3, c4, c5, c6, c7, c8, data, prev, b, d1, d2, d3⟩ :=
    Toy.noHough_run 600 (Or.inl rfl)
  exact ⟨w, L, r, h0, hr, c3, (C172_matches_partial Toy.env Toy.env_argsort w (Toy.noHoughArgs 600 2) (fun _ => 0)
    Toy.noHoughTape r hr rfl lines L hl he (fun xs ys co h => Toy.line_length xs ys co h) c1 (by rw [c2]; decide +kernel)
    (c8 rfl) ⟨[0, 0], [0, 0]⟩ (by rw [c4]; simp [Toy.noHoughTape]) data d1 prev b d3 [3100, 140] d2 1 c5).2
    (by rw [c2, c3]; decide +kernel)⟩

end Rascal
