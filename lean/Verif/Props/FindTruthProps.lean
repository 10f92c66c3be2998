import Verif.Props.NearMatchProps
import Verif.Props.RecoverProps

/-!
Property theorem C176: data without noise, with wrong candidates beside the true ones.  When is the true calibration
returned, and how likely is it?
-/

set_option linter.unusedSectionVars false

namespace Rascal

open MeasureTheory Filter

section
variable {K : Type _} [Field K] [LinearOrder K] [IsStrictOrderedRing K] [FloorRing K]

/-- Only the true calibration passes exactly through a candidate of each candidate peak. -/
def Spec.OnlyExact (k : Kernels K) (t : List K) (deg : Nat) (x y : List K) : Prop :=
  ∀ co : List K, co.length = deg + 1 → (∀ p ∈ x, (p, k.polyval co p) ∈ x.zip y) →
    ∀ p ∈ x, k.polyval co p = k.polyval t p

/-- Clipped errors with a sum that is not positive are zero. -/
theorem clipped_sum_zero (m : List (K × K × K)) (tol : K) (ht : 0 < tol) (h : ∀ e ∈ m, 0 ≤ e.1)
    (hs : (m.map (fun e => min e.1 tol)).sum ≤ 0) : ∀ e ∈ m, e.1 = 0 := by
  have h0 : ∀ v ∈ m.map (fun e => min e.1 tol), 0 ≤ v := by
    intro v hv
    obtain ⟨e, he, rfl⟩ := List.mem_map.1 hv
    exact le_min (h e he) ht.le
  intro e he
  have h1 : min e.1 tol ≤ (m.map (fun e => min e.1 tol)).sum :=
    List.single_le_sum h0 _ (List.mem_map.2 ⟨e, he, rfl⟩)
  rcases min_le_iff.1 (h1.trans hs) with h2 | h2
  · exact le_antisymm h2 (h e he)
  · exact absurd ht (not_lt.2 h2)

/-- C176, what holds: let the candidates contain the true line of every candidate peak beside wrong ones, let only the
true calibration pass through a candidate of each candidate peak, and let no line be a candidate of two peaks.  If one
of the first draws has found the true calibration, `fit` returns it, with every candidate peak matched to its true
line.  What is missing: lines may be candidates of several peaks. -/
theorem C176_found_partial (F : FitEnv K) (ha : IsArgsort F.argsortK) (w : World K) (a : FitArgs K)
    (u : Nat → K) (hb : a.brute = false) (lines : List K) (L : LoopStart K)
    (hl : w.atlasLines = .ok lines) (he : (w.given a).enter F lines a u = some L) (t : List K)
    (hT : Spec.Truth (F.kern a.fitType) t a.degree L.cfg.x L.cfg.y)
    (hE : Spec.FindsExact (F.kern a.fitType) t a.degree)
    (hA : Spec.Allows (F.kern a.fitType) w a L t)
    (hme : w.cal.ransac.minFitError ≤ 0)
    (hmm : adjustMinMatches w.cal.ransac.minMatches lines.length w.cal.peaks.length ≤ (L.cfg.x.dedup.length : Int))
    (hmu : w.cal.ransac.minUtil * (w.cal.peaks.length : K) ≤ (L.cfg.x.dedup.length : K))
    (hlen : ∀ xs ys co, (F.kern a.fitType).polyfit xs ys a.degree = .ok co → co.length = a.degree + 1)
    (honly : Spec.OnlyExact (F.kern a.fitType) t a.degree L.cfg.x L.cfg.y)
    (hdis : ∀ p q v, (p, v) ∈ L.cfg.x.zip L.cfg.y → (q, v) ∈ L.cfg.x.zip L.cfg.y → p = q)
    (tape : List Draw) (r : FitReport K) (h : (w.fit F a ⟨u, tape⟩).2 = .done (.ok r))
    (hd : ∃ d ∈ tape.take L.trials.length, ∃ data, L.cfg.sample d .random = .ok (some data) ∧
      (F.kern a.fitType).polyfit data.1 data.2 a.degree = .ok t) :
    r.coeffs = t ∧ r.rms = 0 ∧
    ∀ p ∈ L.cfg.x, (p, (F.kern a.fitType).polyval t p) ∈ r.matchedPeaks.zip r.matchedAtlas := by
  obtain ⟨lines', L', s, co, data0, prev0, S⟩ := fit_success F ha w a _ r h
  have hl' := S.atlas
  rw [hl] at hl'
  cases hl'
  have he' := S.enter
  change (w.given a).enter F lines a u = some L' at he'
  rw [he] at he'
  cases he'
  have hs := enter_spec F _ _ _ _ _ he
  have hxy := hs.aligned ha
  have hded : (npUnique L.cfg.x).length = L.cfg.x.dedup.length := npUnique_length_eq_dedup _
  have htol : 0 < L.cfg.tol := by rw [hs.tol]; exact hA.tol
  have hfd := hs.fitDeg
  obtain ⟨hrandom, _⟩ := trials_random F _ _ _ _ hs hb
  obtain ⟨b1, b2, b3⟩ := C61_best_wins (F.kern a.fitType) L.cfg hxy tape L.trials L.start
    (start_not_nan F _ _ _ _ hs)
  rw [show L.cfg.run (F.kern a.fitType) tape L.trials L.start = .finished s from S.run,
    show (RunState.finished s).best = s from rfl] at b1 b2 b3
  -- the pass that found the true calibration costs nothing
  obtain ⟨d, hdm, data, hds, hpf⟩ := hd
  have hcost : s.cost.le (.fin 0) = true := by
    have hn : L.cfg.fitDeg < (npUnique L.cfg.x).length := by rw [hfd]; exact hs.enough
    rw [← hfd] at hT hE hpf
    obtain ⟨mp, ma, m1, m2, m3, m4, m5, m6, hev⟩ := truth_evaluate _ _ _ hxy hT hE htol
      (by rw [hs.minIntercept, hs.maxIntercept]; exact hA.intercept) hA.density hn
    have hp := (first_draws_used (F.kern a.fitType) L.cfg L.trials hrandom tape L.start s S.run).2 d hdm
    have hj : L.cfg.judge (F.kern a.fitType) (.fin 0) mp ma t = .next ⟨.fin 0, 0, some t,
        some (fitResidual (F.kern a.fitType) L.cfg.tol t mp ma), mp.length, mp, ma⟩ := by
      unfold RansacCfg.judge
      dsimp only
      rw [m5, if_neg (not_lt.2 (by rw [hs.minFitError]; exact hme)),
        if_neg (not_lt.2 (by rw [hs.minMatches, m4, hded]; exact hmm)),
        if_neg (not_lt.2 (by rw [hs.minUtil, hs.nPeaks, m4, hded]; exact hmu))]
      have hone : oneToOne mp ma = true := by
        unfold oneToOne
        rw [npUnique_length_eq_dedup, npUnique_length_eq_dedup, m1.dedup, m2.dedup, m3]
        simp
      rw [if_pos hone]
    refine b3 _ hp ⟨.fin 0, 0, some t, some (fitResidual (F.kern a.fitType) L.cfg.tol t mp ma), mp.length, mp, ma⟩
      ⟨?_, ?_⟩
    · unfold RansacCfg.attempt
      dsimp only
      rw [hds]
      dsimp only
      rw [hev data hpf noSolution rfl]
      exact hj
    · simp
  -- so the best costs nothing, and passes through a candidate of each peak
  obtain ⟨tr, m, wt, g1, g2, g3, g4, g5⟩ := S.accepted.formula
  rw [hfd] at g1
  have n2 := matching_length _ _ _ hdis m g2
  rw [hlen _ _ _ g1, n2, hded] at g5
  have hdeg := hs.enough
  rw [hded] at hdeg
  have hpos : (0 : K) < (L.cfg.x.dedup.length : K) - ((a.degree + 1 : Nat) : K) + 1 := by
    have : ((a.degree : K)) < (L.cfg.x.dedup.length : K) := by exact_mod_cast hdeg
    push_cast
    linarith
  have hwt := weight_nonneg _ _ _ _ hA.density.2 g3
  have hwpos : (0 : K) < wt + 1 / 1000000000 := by positivity
  rw [cost_finite _ _ _ hpos hwt] at g5
  rw [g5] at hcost
  simp only [PyFloat.le, decide_eq_true_eq] at hcost
  have hsum : (m.map (fun e => min e.1 L.cfg.tol)).sum ≤ 0 := by
    by_contra hc
    push Not at hc
    exact absurd hcost (not_le.2 (by positivity))
  obtain ⟨c1, c2, c3, c4⟩ := C57_matching _ _ _ m g2
  have hzero := clipped_sum_zero m L.cfg.tol htol (fun e he2 => by
    rw [(c3 e he2).2.2.1]
    exact abs_nonneg _) hsum
  have hval : ∀ e ∈ m, (F.kern a.fitType).polyval tr e.2.1 = e.2.2 := by
    intro e he2
    have := (c3 e he2).2.2.1
    rw [hzero e he2] at this
    exact sub_eq_zero.1 (abs_eq_zero.1 this.symm)
  have hcov : ∀ p ∈ L.cfg.x, ∃ e ∈ m, e.2.1 = p := by
    intro p hp
    obtain ⟨v, hv, hm⟩ := c4 p ((mem_npUnique _ _).2 hp)
    obtain ⟨e, he2, rfl⟩ := List.mem_map.1 hm
    exact ⟨e, he2, hdis _ _ _ (claims_candidate (c3 e he2).2.1) (claims_candidate hv)⟩
  have hagree := honly tr (hlen _ _ _ g1) (by
    intro p hp
    obtain ⟨e, he2, rfl⟩ := hcov p hp
    rw [hval e he2]
    exact claims_candidate (c3 e he2).2.1)
  have hon : ∀ e ∈ m, e.2.2 = (F.kern a.fitType).polyval t e.2.1 := by
    intro e he2
    rw [← hval e he2]
    exact hagree _ ((mem_npUnique _ _).1 (c3 e he2).1)
  have hfil : m.filter (fun e => decide (e.1 < L.cfg.tol)) = m := by
    rw [List.filter_eq_self]
    intro e he2
    rw [hzero e he2]
    simpa using htol
  rw [hfil] at g4
  have hlens : s.matchedPeaks.length = s.matchedAtlas.length :=
    S.accepted.lengths.1.trans S.accepted.lengths.2.symm
  obtain ⟨u1, u2⟩ := unzip_eq _ _ _ hlens g4
  have hma : s.matchedAtlas = s.matchedPeaks.map ((F.kern a.fitType).polyval t) := by
    rw [u1, u2, List.map_map, List.map_map, List.map_map]
    exact List.map_congr_left (fun e he2 => hon e he2)
  have hrob := S.robust
  have hdm2 : a.degree < s.matchedPeaks.dedup.length := by
    rw [S.accepted.distinct.1.dedup, S.accepted.lengths.1, ← hfd]
    exact S.accepted.enough.1
  rw [hma, hE.robust _ hdm2] at hrob
  have hco : t = co := Except.ok.inj hrob
  subst hco
  refine ⟨by rw [S.report], ?_, ?_⟩
  · rw [S.report]
    dsimp only
    obtain ⟨co', q1, q2, _, q4, _⟩ := S.accepted.fit
    rw [S.coeffs] at q2
    cases q2
    rw [q4]
    refine exact_rms _ _ _ htol hE.sqrt _ _ ?_
    intro e he2
    rw [g4] at he2
    obtain ⟨e', he3, rfl⟩ := List.mem_map.1 he2
    exact hon e' he3
  · intro p hp
    rw [S.report]
    dsimp only
    rw [g4]
    obtain ⟨e, he2, rfl⟩ := hcov p hp
    exact List.mem_map.2 ⟨e, he2, by rw [hon e he2]⟩

/-- C176, the chance: with `n` trials, the chance that `fit` returns anything else than the true calibration is at most
`(1 - p) ^ n`, where `p` is the chance that one draw consists of true pairs.  What is missing: as above. -/
theorem C176_chance_partial (F : FitEnv K) (ha : IsArgsort F.argsortK) (w : World K) (a : FitArgs K)
    (u : Nat → K) (hb : a.brute = false) (lines : List K) (L : LoopStart K)
    (hl : w.atlasLines = .ok lines) (he : (w.given a).enter F lines a u = some L) (t : List K)
    (hT : Spec.Truth (F.kern a.fitType) t a.degree L.cfg.x L.cfg.y)
    (hE : Spec.FindsExact (F.kern a.fitType) t a.degree)
    (hA : Spec.Allows (F.kern a.fitType) w a L t)
    (hme : w.cal.ransac.minFitError ≤ 0)
    (hmm : adjustMinMatches w.cal.ransac.minMatches lines.length w.cal.peaks.length ≤ (L.cfg.x.dedup.length : Int))
    (hmu : w.cal.ransac.minUtil * (w.cal.peaks.length : K) ≤ (L.cfg.x.dedup.length : K))
    (hlen : ∀ xs ys co, (F.kern a.fitType).polyfit xs ys a.degree = .ok co → co.length = a.degree + 1)
    (honly : Spec.OnlyExact (F.kern a.fitType) t a.degree L.cfg.x L.cfg.y)
    (hdis : ∀ p q v, (p, v) ∈ L.cfg.x.zip L.cfg.y → (q, v) ∈ L.cfg.x.zip L.cfg.y → p = q)
    (ν : Measure Draw) [IsProbabilityMeasure ν] :
    Measure.infinitePi (fun _ : Nat => ν) {σ | ∃ (M : Nat) (r : FitReport K),
        (w.fit F a ⟨u, (List.range M).map σ⟩).2 = .done (.ok r) ∧ r.coeffs ≠ t} ≤
      (1 - ν {d | ∃ xs ys : List K, xs.Nodup ∧ a.degree < xs.length ∧ xs.length = ys.length ∧
        (∀ e ∈ xs.zip ys, e.2 = (F.kern a.fitType).polyval t e.1) ∧
        L.cfg.sample d .random = .ok (some (xs.map .fin ++ (w.cal.known.getD ([], [])).1,
          ys.map .fin ++ (w.cal.known.getD ([], [])).2))}) ^ L.trials.length := by
  set G : Set Draw := {d | ∃ xs ys : List K, xs.Nodup ∧ a.degree < xs.length ∧ xs.length = ys.length ∧
    (∀ e ∈ xs.zip ys, e.2 = (F.kern a.fitType).polyval t e.1) ∧
    L.cfg.sample d .random = .ok (some (xs.map .fin ++ (w.cal.known.getD ([], [])).1,
      ys.map .fin ++ (w.cal.known.getD ([], [])).2))} with hG
  have hGm : MeasurableSet G := trivial
  have hpi := Measure.infinitePi_pi (fun _ : Nat => ν) (s := Finset.range L.trials.length) (t := fun _ => Gᶜ)
    (fun _ _ => hGm.compl)
  rw [Finset.prod_const, Finset.card_range, prob_compl_eq_one_sub hGm] at hpi
  rw [← hpi]
  refine measure_mono ?_
  rintro σ ⟨M, r, h1, h2⟩ i hi
  rw [Finset.coe_range, Set.mem_Iio] at hi
  intro hσ
  apply h2
  obtain ⟨xs, ys, q1, q2, q3, q4, q5⟩ := hσ
  refine (C176_found_partial F ha w a u hb lines L hl he t hT hE hA hme hmm hmu hlen honly hdis _ r h1
    ⟨σ i, ?_, _, q5, ?_⟩).1
  · have hlen : L.trials.length ≤ ((List.range M).map σ).length := by
      obtain ⟨lines', L', s, co, data0, prev, S⟩ := fit_success F ha w a _ r h1
      have hl' := S.atlas
      rw [hl] at hl'
      cases hl'
      have he' := S.enter
      change (w.given a).enter F lines a u = some L' at he'
      rw [he] at he'
      cases he'
      exact (first_draws_used (F.kern a.fitType) L.cfg L.trials
        (trials_random F _ _ _ _ (enter_spec F _ _ _ _ _ he) hb).1 _ L.start s S.run).1
    rw [List.length_map, List.length_range] at hlen
    rw [← List.map_take, List.take_range, min_eq_left hlen]
    exact List.mem_map.2 ⟨i, List.mem_range.2 hi, rfl⟩
  · obtain ⟨ks, hk⟩ := hA.known
    rw [hk]
    exact truth_polyfit _ _ _ hE xs ys ks q1 q3 q2 q4

end

/-! ### refutation and concrete cases -/

namespace Toy

/-- Four peaks with lines on `3100 + 140 x`, and the line `v`, which is wrong. -/
def beside (v : ℚ) : PyRes (World ℚ) := Toy.fourPeaks [4500, 5900, 7440, 8840, v]

/-- What the search must look like for the theorems to apply. -/
def besideStart (T : ℚ) (w : World ℚ) (L : LoopStart ℚ) : Bool :=
  decide (L.trials.length = 2) && (sampleProb (npUnique L.cfg.x)).toOption.isSome &&
    (match L.cfg.density with | .spline g _ => decide (0 ≤ g) | _ => false) &&
    decide (w.cal.ransac.tol = 5) && decide (w.cal.hough.minIntercept ≤ 3100) &&
    decide (3100 ≤ w.cal.hough.maxIntercept) && w.cal.known.isNone && decide (w.cal.ransac.minMatches = 0) &&
    decide (w.cal.ransac.minUtil = 0) && decide (w.cal.ransac.minFitError = 0) &&
    decide (L.cfg.x.zip L.cfg.y = if T = 600
      then [(10, 4500), (20, 5900), (31, 7440), (31, 7600), (31, 7440), (41, 8840), (41, 8840), (41, 8840)]
      else [(10, 4500), (10, 5900), (10, 4500), (20, 4500), (20, 5900), (20, 7440), (20, 8840), (20, 8000), (31, 7440),
          (31, 8840), (31, 8000), (31, 5900), (31, 5900), (41, 8840), (41, 8000), (41, 7440), (41, 7440)]) && decide (L.cfg.x.dedup.length = 4) &&
    decide (∀ p ∈ L.cfg.x, p ∈ (L.cfg.x.zip L.cfg.y).map Prod.fst)

theorem besideStart_spec (T : ℚ) (w : World ℚ) (lines : List ℚ) (L : LoopStart ℚ)
    (he : (w.given (noHoughArgs T 2)).enter env lines (noHoughArgs T 2) (fun _ => 0) = some L)
    (h : besideStart T w L = true) :
    L.trials.length = 2 ∧ Spec.Allows kern w (noHoughArgs T 2) L [3100, 140] ∧ w.cal.ransac.minMatches = 0 ∧
      w.cal.ransac.minUtil = 0 ∧ w.cal.ransac.minFitError = 0 ∧
      (L.cfg.x.zip L.cfg.y = if T = 600
      then [(10, 4500), (20, 5900), (31, 7440), (31, 7600), (31, 7440), (41, 8840), (41, 8840), (41, 8840)]
      else [(10, 4500), (10, 5900), (10, 4500), (20, 4500), (20, 5900), (20, 7440), (20, 8840), (20, 8000), (31, 7440),
          (31, 8840), (31, 8000), (31, 5900), (31, 5900), (41, 8840), (41, 8000), (41, 7440), (41, 7440)]) ∧ L.cfg.x.dedup.length = 4 ∧
      ∀ p ∈ L.cfg.x, p ∈ (L.cfg.x.zip L.cfg.y).map Prod.fst := by
  unfold besideStart at h
  simp only [Bool.and_eq_true, decide_eq_true_eq] at h
  obtain ⟨⟨⟨⟨⟨⟨⟨⟨⟨⟨⟨⟨h3, h4⟩, h5⟩, h6⟩, h7⟩, h8⟩, h9⟩, h10⟩, h11⟩, h12⟩, h13⟩, h14⟩, h15⟩ := h
  refine ⟨h3, ⟨?_, ⟨h7, h8⟩, ?_, ?_, ?_, fun hc => by rw [hc] at h3; simp at h3, le_refl _⟩, h10, h11, h12, h13, h14, h15⟩
  · rw [h6]; decide
  · refine ⟨[], ?_⟩
    rw [Option.isNone_iff_eq_none] at h9
    rw [h9]
    rfl
  · have hd := (enter_spec env _ _ _ _ _ he).density
    refine ⟨fun hc => by rw [hc] at h5; simp at h5, ?_⟩
    intro g f hg
    rw [hg] at h5
    refine ⟨by simpa using h5, ?_⟩
    unfold Cal.density at hd
    rw [hg] at hd
    split at hd
    · cases hd
    split at hd
    · cases hd
    split at hd
    · cases hd
    · rename_i f' hf
      have hf' : f' = fun _ _ => 0 := by
        have : (Except.ok (fun _ _ => 0) : PyRes (ℚ → ℚ → ℚ)) = .ok f' := hf
        exact (Except.ok.inj this).symm
      have := Except.ok.inj hd
      rw [hf'] at this
      cases this
      intro _ _
      exact le_refl _
  · cases hp : sampleProb (npUnique L.cfg.x) with
    | error e => rw [hp] at h4; cases h4
    | ok v => exact ⟨v, rfl⟩

set_option synthInstance.maxHeartbeats 400000 in
set_option synthInstance.maxSize 2000 in
/-- What the refutation and the cases below need: the wrong line is a candidate of one peak, or makes room for a
wrong solution. -/
theorem beside_start (T v : ℚ) (hT : (T = 600 ∧ v = 7600) ∨ (T = 3000 ∧ v = 8000)) :
    ∃ w lines L, beside v = .ok w ∧ w.atlasLines = .ok lines ∧
      (w.given (noHoughArgs T 2)).enter env lines (noHoughArgs T 2) (fun _ => 0) = some L ∧
      besideStart T w L = true ∧
      L.cfg.sample ⟨[1, 2], [if T = 600 then 0 else 1, 0]⟩ .random =
        .ok (some ([.fin 20, .fin 41], [.fin 5900, .fin 8840])) ∧
      ∃ r, (w.fit env (noHoughArgs T 2)
        ⟨fun _ => 0, [⟨[1, 2], [if T = 600 then 0 else 1, 0]⟩, ⟨[0, 0], [1, 2]⟩]⟩).2 = .done (.ok r) ∧
        r.coeffs = if T = 600 then [3100, 140] else [2960, 294] := by
  have hc : (beside v).toOption.bind (fun w => w.atlasLines.toOption.bind (fun lines =>
      ((w.given (noHoughArgs T 2)).enter env lines (noHoughArgs T 2) (fun _ => 0)).bind (fun L =>
      (Toy.report (w.fit env (noHoughArgs T 2)
        ⟨fun _ => 0, [⟨[1, 2], [if T = 600 then 0 else 1, 0]⟩, ⟨[0, 0], [1, 2]⟩]⟩)).bind (fun r =>
      (L.cfg.sample ⟨[1, 2], [if T = 600 then 0 else 1, 0]⟩ .random).toOption.map (fun data =>
        (besideStart T w L, decide (r.coeffs = if T = 600 then [3100, 140] else [2960, 294]), data)))))) =
      some (true, true, some ([.fin 20, .fin 41], [.fin 5900, .fin 8840])) := by
    rcases hT with ⟨rfl, rfl⟩ | ⟨rfl, rfl⟩ <;> decide +kernel
  cases hw : beside v with
  | error e => rw [hw] at hc; simp [Except.toOption] at hc
  | ok w =>
    rw [hw] at hc
    simp only [Except.toOption, Option.bind_some] at hc
    cases hl : w.atlasLines with
    | error e => rw [hl] at hc; simp at hc
    | ok lines =>
      rw [hl] at hc
      simp only [Option.bind_some, Option.bind_eq_some_iff] at hc
      obtain ⟨L, he, r, hr, hc⟩ := hc
      cases hsm : L.cfg.sample ⟨[1, 2], [if T = 600 then 0 else 1, 0]⟩ .random with
      | error e => rw [hsm] at hc; simp at hc
      | ok data =>
        rw [hsm] at hc
        simp only [Option.map_some, Option.some.injEq, Prod.mk.injEq, decide_eq_true_eq] at hc
        obtain ⟨c1, c2, rfl⟩ := hc
        exact ⟨w, lines, L, rfl, hl, he, c1, hsm, r, Toy.report_some _ _ hr, c2⟩

/-- The true calibration and its uniqueness. -/
theorem beside_truth (T : ℚ) (x y : List ℚ) (hz : x.zip y = if T = 600
      then [(10, 4500), (20, 5900), (31, 7440), (31, 7600), (31, 7440), (41, 8840), (41, 8840), (41, 8840)]
      else [(10, 4500), (10, 5900), (10, 4500), (20, 4500), (20, 5900), (20, 7440), (20, 8840), (20, 8000), (31, 7440),
          (31, 8840), (31, 8000), (31, 5900), (31, 5900), (41, 8840), (41, 8000), (41, 7440), (41, 7440)])
    (hx : ∀ p ∈ x, p ∈ (x.zip y).map Prod.fst) :
    Spec.Truth kern [3100, 140] 1 x y ∧ Spec.OnlyExact kern [3100, 140] 1 x y := by
  have hp : ∀ p ∈ x, p = 10 ∨ p = 20 ∨ p = 31 ∨ p = 41 := by
    intro p hp
    have := hx p hp
    rw [hz] at this
    split at this <;> simp at this <;> tauto
  refine ⟨⟨⟨rfl, by decide⟩, ?_, ?_⟩, ?_⟩
  · intro p h
    rw [hz, polyval_two]
    rcases hp p h with rfl | rfl | rfl | rfl <;> split <;> norm_num
  · intro _ _ _ _ u v _ huv _
    rw [polyval_two, polyval_two]
    linarith
  · intro co hco hcand p h
    obtain ⟨b, c, rfl⟩ : ∃ b c, co = [b, c] := by
      match co, hco with
      | [b, c], _ => exact ⟨b, c, rfl⟩
    have hin : ∀ q : ℚ, q = 10 ∨ q = 20 ∨ q = 41 → q ∈ x := by
      intro q hq
      have : ∃ v, (q, v) ∈ x.zip y := by
        rw [hz]
        rcases hq with rfl | rfl | rfl
        · exact ⟨4500, by split <;> simp⟩
        · exact ⟨5900, by split <;> simp⟩
        · exact ⟨8840, by split <;> simp⟩
      obtain ⟨v, hv⟩ := this
      exact (List.of_mem_zip hv).1
    have e1 := hcand 10 (hin 10 (by norm_num))
    have e2 := hcand 20 (hin 20 (by norm_num))
    have e3 := hcand 41 (hin 41 (by norm_num))
    rw [polyval_two, hz] at e1 e2 e3
    have : b = 3100 ∧ c = 140 := by
      split at e1
      · rename_i hT
        rw [if_pos hT] at e2
        norm_num at e1 e2
        constructor <;> linarith
      · rename_i hT
        rw [if_neg hT] at e2 e3
        norm_num at e1 e2 e3
        rcases e1 with e1 | e1 | e1 <;> rcases e2 with e2 | e2 | e2 | e2 | e2 <;> rcases e3 with e3 | e3 | e3 <;>
          constructor <;> linarith
    rw [this.1, this.2]

end Toy

/-- The expected behaviour: if the candidates contain the true line of every peak, only the true calibration passes
through a candidate of each candidate peak, and one of the first draws has found it, `fit` returns it. -/
def C176_Statement : Prop :=
  ∀ (F : FitEnv ℚ), IsArgsort F.argsortK → ∀ (w : World ℚ) (a : FitArgs ℚ) (u : Nat → ℚ), a.brute = false →
    ∀ (lines : List ℚ) (L : LoopStart ℚ), w.atlasLines = .ok lines →
    (w.given a).enter F lines a u = some L → ∀ t : List ℚ,
    Spec.Truth (F.kern a.fitType) t a.degree L.cfg.x L.cfg.y → Spec.FindsExact (F.kern a.fitType) t a.degree →
    Spec.Allows (F.kern a.fitType) w a L t → w.cal.ransac.minFitError ≤ 0 →
    adjustMinMatches w.cal.ransac.minMatches lines.length w.cal.peaks.length ≤ (L.cfg.x.dedup.length : Int) →
    w.cal.ransac.minUtil * (w.cal.peaks.length : ℚ) ≤ (L.cfg.x.dedup.length : ℚ) →
    (∀ xs ys co, (F.kern a.fitType).polyfit xs ys a.degree = .ok co → co.length = a.degree + 1) →
    Spec.OnlyExact (F.kern a.fitType) t a.degree L.cfg.x L.cfg.y →
    ∀ (tape : List Draw) (r : FitReport ℚ), (w.fit F a ⟨u, tape⟩).2 = .done (.ok r) →
    (∃ d ∈ tape.take L.trials.length, ∃ data, L.cfg.sample d .random = .ok (some data) ∧
      (F.kern a.fitType).polyfit data.1 data.2 a.degree = .ok t) → r.coeffs = t

theorem Toy.beside_enough (n m : Nat) : adjustMinMatches 0 n m ≤ (4 : Int) := by
  unfold adjustMinMatches
  dsimp only
  split_ifs <;> omega

/-- C176 is false: the first draw is on the true calibration, which passes through a line at each of the four peaks.
The second draw passes through two lines at two peaks; the other two peaks are nearest to a line that fits better
elsewhere and are dropped, which costs nothing.  At equal cost the later solution is kept. -/
theorem C176_refuted : ¬ C176_Statement := by
  intro h
  obtain ⟨w, lines, L, _, hl, he, hs, hd, r, hr, hco⟩ := Toy.beside_start 3000 8000 (Or.inr ⟨rfl, rfl⟩)
  obtain ⟨s1, s2, s3, s4, s5, s6, s7, s8⟩ := Toy.besideStart_spec _ _ _ _ he hs
  obtain ⟨t1, t2⟩ := Toy.beside_truth 3000 L.cfg.x L.cfg.y s6 s8
  have := h Toy.env Toy.env_argsort w (Toy.noHoughArgs 3000 2) (fun _ => 0) rfl lines L hl he [3100, 140] t1
    (Toy.findsExact 3100 140) s2 s5.le (by rw [s3, s7]; exact Toy.beside_enough _ _)
    (by rw [s4, s7, zero_mul]; norm_num)
    (fun xs ys co h => Toy.line_length xs ys co h) t2 _ r hr
    ⟨_, by rw [s1]; exact List.mem_cons_self, _, hd, by decide +kernel⟩
  rw [hco] at this
  revert this
  decide +kernel

/-- A case for `C176_found_partial`: the third peak has a wrong candidate. -/
example : ∃ w, Toy.beside 7600 = .ok w ∧ ∃ r : FitReport ℚ, (w.fit Toy.env (Toy.noHoughArgs 600 2)
    ⟨fun _ => 0, [⟨[1, 2], [0, 0]⟩, ⟨[0, 0], [1, 2]⟩]⟩).2 = .done (.ok r) ∧ r.coeffs = [3100, 140] ∧ r.rms = 0 := by
  obtain ⟨w, lines, L, h0, hl, he, hs, hd, r, hr, hco⟩ := Toy.beside_start 600 7600 (Or.inl ⟨rfl, rfl⟩)
  obtain ⟨s1, s2, s3, s4, s5, s6, s7, s8⟩ := Toy.besideStart_spec _ _ _ _ he hs
  obtain ⟨t1, t2⟩ := Toy.beside_truth 600 L.cfg.x L.cfg.y s6 s8
  have := C176_found_partial Toy.env Toy.env_argsort w (Toy.noHoughArgs 600 2) (fun _ => 0) rfl lines L hl he
    [3100, 140] t1 (Toy.findsExact 3100 140) s2 s5.le (by rw [s3, s7]; exact Toy.beside_enough _ _)
    (by rw [s4, s7, zero_mul]; norm_num)
    (fun xs ys co h => Toy.line_length xs ys co h) t2 (by
      rw [s6, if_pos rfl]
      intro p q v h1 h2
      revert p q v
      have : ∀ e ∈ L.cfg.x.zip L.cfg.y, ∀ e' ∈ L.cfg.x.zip L.cfg.y, e.2 = e'.2 → e.1 = e'.1 := by
        rw [s6, if_pos rfl]
        decide +kernel
      rw [s6, if_pos rfl] at this
      exact fun p q v h1 h2 => this (p, v) h1 (q, v) h2 rfl) _ r hr
    ⟨_, by rw [s1]; exact List.mem_cons_self, _, hd, by decide +kernel⟩
  exact ⟨w, h0, r, hr, this.1, this.2.1⟩

/-- A case for `C176_chance_partial`: draws of which each has a chance find the true line in the end. -/
example : ∃ w, Toy.beside 7600 = .ok w ∧ ∃ (L : LoopStart ℚ) (ν : Measure Draw), IsProbabilityMeasure ν ∧
    L.trials.length = 2 ∧ ∃ q : ENNReal, q < 1 ∧
    Measure.infinitePi (fun _ : Nat => ν) {σ | ∃ (M : Nat) (r : FitReport ℚ),
      (w.fit Toy.env (Toy.noHoughArgs 600 2) ⟨fun _ => 0, (List.range M).map σ⟩).2 = .done (.ok r) ∧
      r.coeffs ≠ [3100, 140]} ≤ q ^ L.trials.length := by
  obtain ⟨w, lines, L, h0, hl, he, hs, hd, r, hr, hco⟩ := Toy.beside_start 600 7600 (Or.inl ⟨rfl, rfl⟩)
  obtain ⟨s1, s2, s3, s4, s5, s6, s7, s8⟩ := Toy.besideStart_spec _ _ _ _ he hs
  obtain ⟨t1, t2⟩ := Toy.beside_truth 600 L.cfg.x L.cfg.y s6 s8
  obtain ⟨ν, hν, hν1⟩ := Toy.every_draw
  have hdis : ∀ e ∈ L.cfg.x.zip L.cfg.y, ∀ e' ∈ L.cfg.x.zip L.cfg.y, e.2 = e'.2 → e.1 = e'.1 := by
    rw [s6, if_pos rfl]
    decide +kernel
  have := C176_chance_partial Toy.env Toy.env_argsort w (Toy.noHoughArgs 600 2) (fun _ => 0) rfl lines L hl he
    [3100, 140] t1 (Toy.findsExact 3100 140) s2 s5.le (by rw [s3, s7]; exact Toy.beside_enough _ _)
    (by rw [s4, s7, zero_mul]; norm_num)
    (fun xs ys co h => Toy.line_length xs ys co h) t2 (fun p q v h1 h2 => hdis (p, v) h1 (q, v) h2 rfl) ν
  refine ⟨w, h0, L, ν, hν, s1, _, ?_, this⟩
  refine ENNReal.sub_lt_self ENNReal.one_ne_top one_ne_zero (fun hz => ?_)
  refine hν1 ⟨[1, 2], [0, 0]⟩ (measure_mono_null ?_ hz)
  rintro d rfl
  refine ⟨[20, 41], [5900, 8840], by decide +kernel, by decide, rfl, ?_, ?_⟩
  · have : ∀ e ∈ ([20, 41] : List ℚ).zip [5900, 8840], e.2 = Toy.kern.polyval [3100, 140] e.1 := by decide +kernel
    exact this
  · have hk : w.cal.known = none := by
      unfold Toy.besideStart at hs
      simp only [Bool.and_eq_true, Option.isNone_iff_eq_none] at hs
      tauto
    rw [hk]
    exact hd

end Rascal
