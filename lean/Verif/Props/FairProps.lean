import Verif.Props.ReachProps
import Mathlib.Probability.BorelCantelli
import Mathlib.Probability.Independence.InfinitePi

/-!
Property theorems C170 and C171: with fair draws `fit` comes to an end whenever it can return anything, and the
chance that it misses the best solution.
-/

set_option linter.unusedSectionVars false

namespace Rascal

open MeasureTheory ProbabilityTheory Filter

section
variable {K : Type _} [Field K] [LinearOrder K] [IsStrictOrderedRing K] [FloorRing K]

/-- The loop has ended when every trial has been passed by a draw from which no pass is repeated. -/
theorem run_ends (k : Kernels K) (c : RansacCfg K) (good : Draw → Prop) (ts : List Trial)
    (hts : ∀ t ∈ ts, t = .random)
    (h : ∀ d, good d → ∀ s : Best K, ∃ s', c.attempt k d .random s = .next s')
    (tape sub : List Draw) (hsub : sub.Sublist tape) (hlen : ts.length ≤ sub.length)
    (hg : ∀ d ∈ sub, good d) (s : Best K) :
    ∀ s', c.run k tape ts s ≠ .running s' := by
  induction tape generalizing ts sub s with
  | nil =>
    cases ts with
    | nil => intro s' hc; simp [RansacCfg.run] at hc
    | cons t ts =>
      rw [List.sublist_nil.1 hsub] at hlen
      simp at hlen
  | cons d ds ih =>
    cases ts with
    | nil => intro s' hc; simp [RansacCfg.run] at hc
    | cons t ts =>
      intro s'
      rw [RansacCfg.run]
      have ht : t = .random := hts t (by simp)
      cases sub with
      | nil => simp at hlen
      | cons e sub =>
        cases hsub with
        | cons _ hsub =>
          cases ha : c.attempt k d t s with
          | retry => exact ih (t :: ts) hts (e :: sub) hsub hlen hg s s'
          | next s1 =>
            exact ih ts (fun t ht => hts t (List.mem_cons_of_mem _ ht)) (e :: sub) hsub
              (by simp only [List.length_cons] at hlen ⊢; omega) hg s1 s'
          | raised x s1 => intro hc; cases hc
        | cons_cons _ hsub =>
          obtain ⟨s1, h1⟩ := h d (hg d (by simp)) s
          rw [ht, h1]
          exact ih ts (fun t ht => hts t (List.mem_cons_of_mem _ ht)) sub hsub
            (by simp only [List.length_cons] at hlen; omega)
            (fun e he => hg e (List.mem_cons_of_mem _ he)) s1 s'

/-- `fit` has ended once an acceptable choice has been drawn as many times as there are trials. -/
theorem ends_of_accepted (F : FitEnv K) (w : World K) (a : FitArgs K) (u : Nat → K)
    (hb : a.brute = false) (lines : List K) (L : LoopStart K) (hl : w.atlasLines = .ok lines)
    (he : (w.given a).enter F lines a u = some L) (data : List (PyFloat K) × List (PyFloat K))
    (prev : PyFloat K) (b : Best K) (hacc : AcceptedTrial (F.kern a.fitType) L.cfg data prev b)
    (tape sub : List Draw) (hsub : sub.Sublist tape) (hlen : L.trials.length ≤ sub.length)
    (hg : ∀ d ∈ sub, L.cfg.sample d .random = .ok (some data)) : (w.fit F a ⟨u, tape⟩).2 ≠ .running := by
  have hs := enter_spec F _ _ _ _ _ he
  obtain ⟨hrandom, _⟩ := trials_random F _ _ _ _ hs hb
  have hend := run_ends (F.kern a.fitType) L.cfg (fun d => L.cfg.sample d .random = .ok (some data)) L.trials hrandom
    (by
      intro d hd s'
      unfold RansacCfg.attempt
      rw [hd]
      dsimp only
      rw [accepted_pass _ _ _ _ _ hacc s']
      split
      · exact ⟨_, rfl⟩
      · exact ⟨_, rfl⟩) tape sub hsub hlen hg L.start
  rcases fit_eq F w a ⟨u, tape⟩ with ⟨_, ⟨e, h1⟩, _⟩ | ⟨lines', _, hl', h1⟩
  · rw [h1]; simp
  rw [hl] at hl'
  cases hl'
  rw [h1]
  dsimp only
  rw [fitWith_enter F _ _ _ ⟨u, tape⟩ _ he]
  unfold LoopStart.finish
  dsimp only
  cases hrun : L.cfg.run (F.kern a.fitType) tape L.trials L.start with
  | running s' => exact absurd hrun (hend s')
  | finished s' =>
    dsimp only
    split <;> simp
  | raised e s' => simp

/-- C170: if `fit` can return a report at all, there is a choice of candidates which brings it to an end: it can
be drawn, and `fit` has ended once it has been drawn as many times as there are trials, whatever else is drawn
in between. -/
theorem C170_ends (F : FitEnv K) (ha : IsArgsort F.argsortK) (w : World K) (a : FitArgs K) (u : Nat → K)
    (hb : a.brute = false) (hr : ∃ tape r, (w.fit F a ⟨u, tape⟩).2 = .done (.ok r)) :
    ∃ (lines : List K) (L : LoopStart K) (data : List (PyFloat K) × List (PyFloat K)),
      w.atlasLines = .ok lines ∧ (w.given a).enter F lines a u = some L ∧
      (∃ d, L.cfg.sample d .random = .ok (some data)) ∧
      ∀ tape sub : List Draw, sub.Sublist tape → L.trials.length ≤ sub.length →
        (∀ d ∈ sub, L.cfg.sample d .random = .ok (some data)) → (w.fit F a ⟨u, tape⟩).2 ≠ .running := by
  obtain ⟨tape0, r, hr⟩ := hr
  obtain ⟨lines, L, s, co, data, prev, S⟩ := fit_success F ha w a _ r hr
  obtain ⟨hrandom, _⟩ := trials_random F _ _ _ _ (enter_spec F _ _ _ _ _ S.enter) hb
  obtain ⟨d0, _, t0, ht0, hd0⟩ := S.sampled
  rw [hrandom t0 ht0] at hd0
  exact ⟨lines, L, data, S.atlas, S.enter, ⟨d0, hd0⟩, fun tape sub h1 h2 h3 =>
    ends_of_accepted F w a u hb lines L S.atlas S.enter data prev s S.accepted tape sub h1 h2 h3⟩

/-- Infinitely many good draws contain any number of good ones from some point on. -/
theorem frequently_sublist (good : Draw → Prop) (σ : Nat → Draw) (h : ∃ᶠ n in atTop, good (σ n)) (m : Nat) :
    ∃ N : Nat, ∀ M, N ≤ M → ∃ sub : List Draw, sub.Sublist ((List.range M).map σ) ∧ m ≤ sub.length ∧
      ∀ d ∈ sub, good d := by
  induction m with
  | zero => exact ⟨0, fun M _ => ⟨[], by simp, by simp, by simp⟩⟩
  | succ m ih =>
    obtain ⟨N, hN⟩ := ih
    obtain ⟨n, hn, hg⟩ := frequently_atTop.1 h N
    refine ⟨n + 1, fun M hM => ?_⟩
    obtain ⟨sub, h1, h2, h3⟩ := hN n hn
    refine ⟨sub ++ [σ n], ?_, by simp; omega, ?_⟩
    · have hle : ((List.range (n + 1)).map σ).Sublist ((List.range M).map σ) :=
        (List.range_sublist.2 hM).map σ
      refine List.Sublist.trans ?_ hle
      rw [List.range_succ, List.map_append]
      exact h1.append (List.Sublist.refl _)
    · intro d hd
      rcases List.mem_append.1 hd with hd | hd
      · exact h3 d hd
      · rw [List.mem_singleton.1 hd]; exact hg

/-- All sets of draws are events. -/
instance : MeasurableSpace Draw := ⊤

/-- C170: let the draws be independent and equally distributed, each possible choice of candidates having a
positive chance.  If `fit` can return a report at all, then with probability one it comes to an end. -/
theorem C170_almost_surely (F : FitEnv K) (ha : IsArgsort F.argsortK) (w : World K) (a : FitArgs K) (u : Nat → K)
    (hb : a.brute = false) (hr : ∃ tape r, (w.fit F a ⟨u, tape⟩).2 = .done (.ok r))
    (ν : Measure Draw) [IsProbabilityMeasure ν]
    (hν : ∀ lines L, w.atlasLines = .ok lines → (w.given a).enter F lines a u = some L →
      ∀ data, (∃ d, L.cfg.sample d .random = .ok (some data)) →
        ν {d | L.cfg.sample d .random = .ok (some data)} ≠ 0) :
    ∀ᵐ σ ∂(Measure.infinitePi (fun _ : Nat => ν)), ∃ N : Nat, ∀ M, N ≤ M →
      (w.fit F a ⟨u, (List.range M).map σ⟩).2 ≠ .running := by
  obtain ⟨lines, L, data, hl, he, hd0, hend⟩ := C170_ends F ha w a u hb hr
  have hpos := hν lines L hl he data hd0
  set G : Set Draw := {d | L.cfg.sample d .random = .ok (some data)} with hG
  have hGm : MeasurableSet G := trivial
  have hm : ∀ n : Nat, MeasurableSet {σ : Nat → Draw | σ n ∈ G} := fun n => measurable_pi_apply n hGm
  have hμ : ∀ n : Nat, Measure.infinitePi (fun _ : Nat => ν) {σ : Nat → Draw | σ n ∈ G} = ν G := fun n =>
    (measurePreserving_eval_infinitePi (fun _ : Nat => ν) n).measure_preimage hGm.nullMeasurableSet
  have hind : iIndepSet (fun n : Nat => {σ : Nat → Draw | σ n ∈ G}) (Measure.infinitePi (fun _ : Nat => ν)) := by
    rw [iIndepSet_iff_meas_biInter hm]
    intro s
    exact (iIndepFun_infinitePi (P := fun _ : Nat => ν) (X := fun _ : Nat => (id : Draw → Draw))
      (fun _ => measurable_id)).measure_inter_preimage_eq_mul s (fun _ _ => hGm)
  have hone := measure_limsup_eq_one hm hind (by
    simp only [hμ]
    exact ENNReal.tsum_const_eq_top_of_ne_zero hpos)
  have hae : ∀ᵐ σ ∂(Measure.infinitePi (fun _ : Nat => ν)),
      σ ∈ limsup (fun n : Nat => {σ : Nat → Draw | σ n ∈ G}) atTop :=
    (mem_ae_iff_prob_eq_one (MeasurableSet.measurableSet_limsup hm)).2 hone
  filter_upwards [hae] with σ hσ
  rw [mem_limsup_iff_frequently_mem] at hσ
  obtain ⟨N, hN⟩ := frequently_sublist (· ∈ G) σ hσ L.trials.length
  refine ⟨N, fun M hM => ?_⟩
  obtain ⟨sub, h1, h2, h3⟩ := hN M hM
  exact hend _ sub h1 h2 h3

/-- In blocks of `m` draws each, a good one in every block. -/
theorem blocks_sublist (good : Draw → Prop) (σ : Nat → Draw) (m n : Nat)
    (h : ∀ j < n, ∃ i, j * m ≤ i ∧ i < (j + 1) * m ∧ good (σ i)) :
    ∃ sub : List Draw, sub.Sublist ((List.range (n * m)).map σ) ∧ n ≤ sub.length ∧ ∀ d ∈ sub, good d := by
  induction n with
  | zero => exact ⟨[], by simp, by simp, by simp⟩
  | succ n ih =>
    obtain ⟨sub, h1, h2, h3⟩ := ih (fun j hj => h j (by omega))
    obtain ⟨i, i1, i2, i3⟩ := h n (by omega)
    refine ⟨sub ++ [σ i], ?_, by simp; omega, ?_⟩
    · have hle : ((List.range (i + 1)).map σ).Sublist ((List.range ((n + 1) * m)).map σ) :=
        (List.range_sublist.2 i2).map σ
      refine List.Sublist.trans ?_ hle
      rw [List.range_succ, List.map_append]
      exact (h1.trans ((List.range_sublist.2 i1).map σ)).append (List.Sublist.refl _)
    · intro d hd
      rcases List.mem_append.1 hd with hd | hd
      · exact h3 d hd
      · rw [List.mem_singleton.1 hd]; exact i3

/-- C170: let an acceptable choice of candidates have the chance `p` in each draw.  The chance that `fit` with `n`
trials is still running after `n * m` draws is at most `n * (1 - p) ^ m`. -/
theorem C170_speed (F : FitEnv K) (w : World K) (a : FitArgs K) (u : Nat → K)
    (hb : a.brute = false) (lines : List K) (L : LoopStart K) (hl : w.atlasLines = .ok lines)
    (he : (w.given a).enter F lines a u = some L) (data : List (PyFloat K) × List (PyFloat K))
    (prev : PyFloat K) (b : Best K) (hacc : AcceptedTrial (F.kern a.fitType) L.cfg data prev b)
    (ν : Measure Draw) [IsProbabilityMeasure ν] (m : Nat) :
    Measure.infinitePi (fun _ : Nat => ν)
        {σ | (w.fit F a ⟨u, (List.range (L.trials.length * m)).map σ⟩).2 = .running} ≤
      L.trials.length * (1 - ν {d | L.cfg.sample d .random = .ok (some data)}) ^ m := by
  set G : Set Draw := {d | L.cfg.sample d .random = .ok (some data)} with hG
  have hGm : MeasurableSet G := trivial
  have hblock : ∀ j : Nat, Measure.infinitePi (fun _ : Nat => ν)
      (Set.pi (Finset.Ico (j * m) ((j + 1) * m) : Finset Nat) (fun _ => Gᶜ)) = (1 - ν G) ^ m := by
    intro j
    rw [Measure.infinitePi_pi (fun _ : Nat => ν) (fun _ _ => hGm.compl), Finset.prod_const, Nat.card_Ico,
      prob_compl_eq_one_sub hGm]
    congr 1
    rw [Nat.succ_mul]
    omega
  have hsub : {σ : Nat → Draw | (w.fit F a ⟨u, (List.range (L.trials.length * m)).map σ⟩).2 = .running} ⊆
      ⋃ j ∈ Finset.range L.trials.length,
        Set.pi (Finset.Ico (j * m) ((j + 1) * m) : Finset Nat) (fun _ => Gᶜ) := by
    intro σ hσ
    by_contra hcon
    have hall : ∀ j < L.trials.length, ∃ i, j * m ≤ i ∧ i < (j + 1) * m ∧ σ i ∈ G := by
      intro j hj
      by_contra hc
      push Not at hc
      refine hcon (Set.mem_iUnion₂.2 ⟨j, Finset.mem_range.2 hj, fun i hi => ?_⟩)
      rw [Finset.coe_Ico, Set.mem_Ico] at hi
      exact hc i hi.1 hi.2
    obtain ⟨sub, h1, h2, h3⟩ := blocks_sublist (· ∈ G) σ m L.trials.length hall
    exact ends_of_accepted F w a u hb lines L hl he data prev b hacc _ sub h1 h2 h3 hσ
  refine (measure_mono hsub).trans ((measure_biUnion_finset_le _ _).trans ?_)
  rw [Finset.sum_congr rfl (fun j _ => hblock j), Finset.sum_const, Finset.card_range, nsmul_eq_mul]

/-! ### C171 -/

/-- As `Spec.Outcome`, the solution costing at most `cost`. -/
def Spec.OutcomeWithin (F : FitEnv K) (w : World K) (a : FitArgs K) (u : Nat → K) (cost : PyFloat K)
    (r : FitReport K) : Prop :=
  ∃ lines L, w.atlasLines = .ok lines ∧ (w.given a).enter F lines a u = some L ∧
    ∃ (xs ys : List K) (b : Best K) (co : List K),
      xs.Nodup ∧ ys.Nodup ∧ xs.length = ys.length ∧ xs.length = L.cfg.sampleSize ∧
      (∀ e ∈ xs.zip ys, e ∈ L.cfg.x.zip L.cfg.y) ∧
      AcceptedTrial (F.kern a.fitType) L.cfg
        (xs.map .fin ++ (w.cal.known.getD ([], [])).1, ys.map .fin ++ (w.cal.known.getD ([], [])).2)
        L.start.cost b ∧
      b.cost.le cost = true ∧
      b.coeffs = some co ∧
      r = Spec.reportOf co b w.cal.peaks.length
        (if lines.length = 0 then .posInf else .fin ((b.matchedPeaks.length : K) / (lines.length : K)))

/-- A finished run has used each of the first draws, as many as there are trials, for a pass. -/
theorem first_draws_used (k : Kernels K) (c : RansacCfg K) (ts : List Trial) (hts : ∀ t ∈ ts, t = .random)
    (tape : List Draw) (s s' : Best K) (h : c.run k tape ts s = .finished s') :
    ts.length ≤ tape.length ∧ ∀ d ∈ tape.take ts.length, (d, Trial.random) ∈ c.passes k tape ts s := by
  induction tape generalizing ts s with
  | nil =>
    cases ts with
    | nil => simp
    | cons t ts => simp [RansacCfg.run] at h
  | cons d ds ih =>
    cases ts with
    | nil => simp
    | cons t ts =>
      have ht : t = .random := hts t (by simp)
      have hts' : ∀ t ∈ ts, t = .random := fun t ht => hts t (List.mem_cons_of_mem _ ht)
      rw [RansacCfg.run] at h
      rw [RansacCfg.passes, ht]
      rw [ht] at h
      cases hc : c.attempt k d .random s with
      | retry =>
        rw [hc] at h
        obtain ⟨h1, h2⟩ := ih (.random :: ts) (fun t ht => by
          rcases List.mem_cons.1 ht with rfl | ht
          · rfl
          · exact hts' t ht) s h
        refine ⟨by simp only [List.length_cons] at h1 ⊢; omega, ?_⟩
        intro e he
        rw [List.length_cons, List.take_succ_cons] at he
        rcases List.mem_cons.1 he with rfl | he
        · simp
        · refine List.mem_cons_of_mem _ (h2 e ?_)
          exact (List.take_sublist_take_left (by simp)).subset he
      | next s1 =>
        rw [hc] at h
        obtain ⟨h1, h2⟩ := ih ts hts' s1 h
        refine ⟨by simp only [List.length_cons]; omega, ?_⟩
        intro e he
        rw [List.length_cons, List.take_succ_cons] at he
        rcases List.mem_cons.1 he with rfl | he
        · simp
        · exact List.mem_cons_of_mem _ (h2 e he)
      | raised e s1 => rw [hc] at h; simp at h

/-- If one of the first draws gives an acceptable solution, the report is at least as cheap. -/
theorem fit_within (F : FitEnv K) (ha : IsArgsort F.argsortK) (w : World K) (a : FitArgs K) (u : Nat → K)
    (hb : a.brute = false) (lines : List K) (L : LoopStart K) (hl : w.atlasLines = .ok lines)
    (he : (w.given a).enter F lines a u = some L) (data : List (PyFloat K) × List (PyFloat K)) (b : Best K)
    (hacc : AcceptedTrial (F.kern a.fitType) L.cfg data L.start.cost b) (tape : List Draw) (r : FitReport K)
    (h : (w.fit F a ⟨u, tape⟩).2 = .done (.ok r))
    (hd : ∃ d ∈ tape.take L.trials.length, L.cfg.sample d .random = .ok (some data)) :
    Spec.OutcomeWithin F w a u b.cost r := by
  obtain ⟨lines', L', s, co, data0, prev, S⟩ := fit_success F ha w a _ r h
  have hl' := S.atlas
  rw [hl] at hl'
  cases hl'
  have he' := S.enter
  change (w.given a).enter F lines a u = some L' at he'
  rw [he] at he'
  cases he'
  have hs := enter_spec F _ _ _ _ _ he
  have hxy := hs.aligned ha
  obtain ⟨b1, b2, b3⟩ := C61_best_wins (F.kern a.fitType) L.cfg hxy tape L.trials L.start
    (start_not_nan F _ _ _ _ hs)
  rw [show L.cfg.run (F.kern a.fitType) tape L.trials L.start = .finished s from S.run,
    show (RunState.finished s).best = s from rfl] at b1 b2 b3
  obtain ⟨hrandom, hsize⟩ := trials_random F _ _ _ _ hs hb
  -- the solution of the draw is acceptable, so the best costs at most as much
  obtain ⟨d, hdm, hds⟩ := hd
  have hcost : s.cost.le b.cost = true := by
    have hp := (first_draws_used (F.kern a.fitType) L.cfg L.trials hrandom tape L.start s S.run).2 d hdm
    refine b3 _ hp b ⟨?_, ?_⟩
    · unfold RansacCfg.attempt
      dsimp only
      rw [hds]
      dsimp only
      refine accepted_evaluate _ _ _ _ _ hacc noSolution ?_
      have hn := (PyFloat.not_nan_of_le _ _ hacc.cost).1
      unfold noSolution
      dsimp only
      cases hc : b.cost with
      | nan => exact absurd hc hn
      | _ => rfl
    · obtain ⟨co', _, hco', _⟩ := hacc.fit
      rw [hco']
      simp
  rcases b1 with b1 | ⟨p, hp, hacc', _⟩
  · obtain ⟨cost, err, hst, _⟩ := hs.start
    have := S.coeffs
    rw [b1, hst] at this
    cases this
  have hp2 := passes_trial _ _ _ _ _ _ hp
  rw [hrandom _ hp2] at hacc'
  rcases attempt_cases (F.kern a.fitType) L.cfg hxy p.1 .random noSolution with
    h1 | h1 | ⟨s', data', h1, h2, h3⟩ | ⟨e, h1, _⟩
  · rw [hacc'] at h1; cases h1
  · rw [hacc'] at h1
    cases h1
    have := S.coeffs
    cases this
  · rw [hacc'] at h1
    cases h1
    obtain ⟨xs, ys, q1, q2, q3, q4, q5, q6⟩ := C59_distinct_samples L.cfg p.1 data' h2
    refine ⟨lines, L, hl, he, xs, ys, s, co, q1, q2, q3, ?_, q5, ?_, hcost, S.coeffs, ?_⟩
    · rw [q4, ← npUnique_length_eq_dedup, min_eq_left hsize]
    · rw [q6, hs.known] at h3
      exact { h3 with cost := b2 }
    · have hu := S.util
      have hin : 0 < s.inliers := by have := h3.enough.1; omega
      unfold utilisation at hu
      rw [S.report]
      unfold Spec.reportOf
      rw [h3.lengths.1]
      congr 1
      split at hu
      · rename_i hz
        rw [if_neg (by omega)] at hu
        rw [if_pos hz]
        exact (Except.ok.inj hu).symm
      · rename_i hz
        rw [if_neg hz]
        exact (Except.ok.inj hu).symm
  · rw [hacc'] at h1; cases h1

/-- C171: let a choice of candidates be acceptable and let it have the chance `p` in each draw.  With `n` trials
(`max_tries`, C64), the chance that `fit` returns a solution which costs more is at most `(1 - p) ^ n`. -/
theorem C171_chance (F : FitEnv K) (ha : IsArgsort F.argsortK) (w : World K) (a : FitArgs K) (u : Nat → K)
    (hb : a.brute = false) (lines : List K) (L : LoopStart K) (hl : w.atlasLines = .ok lines)
    (he : (w.given a).enter F lines a u = some L) (data : List (PyFloat K) × List (PyFloat K)) (b : Best K)
    (hacc : AcceptedTrial (F.kern a.fitType) L.cfg data L.start.cost b)
    (ν : Measure Draw) [IsProbabilityMeasure ν] :
    Measure.infinitePi (fun _ : Nat => ν) {σ | ∃ (M : Nat) (r : FitReport K),
        (w.fit F a ⟨u, (List.range M).map σ⟩).2 = .done (.ok r) ∧ ¬ Spec.OutcomeWithin F w a u b.cost r} ≤
      (1 - ν {d | L.cfg.sample d .random = .ok (some data)}) ^ L.trials.length := by
  set G : Set Draw := {d | L.cfg.sample d .random = .ok (some data)} with hG
  have hGm : MeasurableSet G := trivial
  have hpi := Measure.infinitePi_pi (fun _ : Nat => ν) (s := Finset.range L.trials.length) (t := fun _ => Gᶜ)
    (fun _ _ => hGm.compl)
  rw [Finset.prod_const, Finset.card_range, prob_compl_eq_one_sub hGm] at hpi
  rw [← hpi]
  refine measure_mono ?_
  rintro σ ⟨M, r, h1, h2⟩ i hi
  rw [Finset.coe_range, Set.mem_Iio] at hi
  intro hσ
  apply h2
  refine fit_within F ha w a u hb lines L hl he data b hacc _ r h1 ⟨σ i, ?_, hσ⟩
  have hlen : L.trials.length ≤ ((List.range M).map σ).length := by
    obtain ⟨lines', L', s, co, data0, prev, S⟩ := fit_success F ha w a _ r h1
    have hl' := S.atlas
    rw [hl] at hl'
    cases hl'
    have he' := S.enter
    change (w.given a).enter F lines a u = some L' at he'
    rw [he] at he'
    cases he'
    exact (first_draws_used (F.kern a.fitType) L.cfg L.trials
      (trials_random F _ _ _ _ (enter_spec F _ _ _ _ _ he) hb).1 _ L.start s S.run).1
  rw [List.length_map, List.length_range] at hlen
  rw [← List.map_take, List.take_range, min_eq_left hlen]
  exact List.mem_map.2 ⟨i, List.mem_range.2 hi, rfl⟩

/-- C171: if not all candidate peaks are in a sample, a large enough `max_tries` makes a solution which costs more than
that of a possible choice as unlikely as desired. -/
theorem C171_limit (F : FitEnv K) (ha : IsArgsort F.argsortK) (w : World K) (a : FitArgs K) (u : Nat → K)
    (hb : a.brute = false) (lines : List K) (L : LoopStart K) (hl : w.atlasLines = .ok lines)
    (he : (w.given a).enter F lines a u = some L) (hne : L.trials ≠ [])
    (hsize : L.cfg.sampleSize < L.cfg.x.dedup.length)
    (data : List (PyFloat K) × List (PyFloat K)) (b : Best K)
    (hacc : AcceptedTrial (F.kern a.fitType) L.cfg data L.start.cost b)
    (ν : Measure Draw) [IsProbabilityMeasure ν]
    (hν : ν {d | L.cfg.sample d .random = .ok (some data)} ≠ 0) (ε : ENNReal) (hε : 0 < ε) :
    ∃ m0 : Int, ∀ m : Int, m0 ≤ m →
      Measure.infinitePi (fun _ : Nat => ν) {σ | ∃ (M : Nat) (r : FitReport K),
        (w.fit F { a with maxTries := m } ⟨u, (List.range M).map σ⟩).2 = .done (.ok r) ∧
        ¬ Spec.OutcomeWithin F w { a with maxTries := m } u b.cost r} < ε := by
  have hlt : 1 - ν {d | L.cfg.sample d .random = .ok (some data)} < 1 :=
    ENNReal.sub_lt_self ENNReal.one_ne_top one_ne_zero hν
  obtain ⟨n, hn⟩ := (((ENNReal.tendsto_pow_atTop_nhds_zero_of_lt_one hlt).eventually (gt_mem_nhds hε)).and
    (eventually_gt_atTop 0)).exists_forall_of_atTop
  refine ⟨(n : Int) + 1, fun m hm => ?_⟩
  obtain ⟨ts, _, he'⟩ := enter_tries F _ lines a u L m (by omega) he hne
  have hlen : ts.length = m.toNat := by
    have hs' := enter_spec F _ _ _ _ _ he'
    have ht := hs'.trials
    unfold makeTrials at ht
    rw [show ({ a with maxTries := m } : FitArgs K).brute = false from hb] at ht
    simp only [Bool.false_eq_true, if_false] at ht
    split at ht
    · have := (Prod.mk.inj ht).2
      rw [npUnique_length_eq_dedup] at this
      exact absurd this (ne_of_lt hsize)
    · have := (Prod.mk.inj ht).1
      rw [this, List.length_replicate]
  have h := C171_chance F ha w { a with maxTries := m } u hb lines { L with trials := ts } hl he' data b hacc ν
  refine lt_of_le_of_lt h ?_
  dsimp only
  rw [hlen]
  exact (hn m.toNat (by omega)).1

end

/-! ### examples -/

/-- A case for `C170_ends`: the toy calibrator can return a report. -/
example : ∃ (lines : List ℚ) (L : LoopStart ℚ) (data : List (PyFloat ℚ) × List (PyFloat ℚ)),
    Toy.ready.atlasLines = .ok lines ∧
    (Toy.ready.given Toy.args).enter Toy.env lines Toy.args Toy.rnd.uniform = some L ∧
    (∃ d, L.cfg.sample d .random = .ok (some data)) ∧
    ∀ tape sub : List Draw, sub.Sublist tape → L.trials.length ≤ sub.length →
      (∀ d ∈ sub, L.cfg.sample d .random = .ok (some data)) →
        (Toy.ready.fit Toy.env Toy.args ⟨Toy.rnd.uniform, tape⟩).2 ≠ .running :=
  C170_ends Toy.env Toy.env_argsort Toy.ready Toy.args Toy.rnd.uniform rfl
    ⟨Toy.rnd.tape, Toy.found, Toy.ready_fit⟩

/-- The draws can be counted. -/
theorem Draw.countable : Countable Draw :=
  Function.Injective.countable (f := fun d : Draw => (d.peaks, d.waves)) (by
    rintro ⟨a, b⟩ ⟨c, d⟩ h
    simp only [Prod.mk.injEq] at h
    obtain ⟨rfl, rfl⟩ := h
    rfl)

/-- A distribution of draws in which every draw has a chance. -/
theorem Toy.every_draw : ∃ ν : Measure Draw, IsProbabilityMeasure ν ∧ ∀ d, ν {d} ≠ 0 := by
  have := Draw.countable
  have : Nonempty Draw := ⟨⟨[], []⟩⟩
  obtain ⟨f, hf⟩ := exists_surjective_nat Draw
  refine ⟨Measure.sum (fun n : Nat => (2⁻¹ : ENNReal) ^ (n + 1) • Measure.dirac (f n)), ⟨?_⟩, ?_⟩
  · rw [Measure.sum_apply _ MeasurableSet.univ]
    simp only [Measure.smul_apply, measure_univ, smul_eq_mul, mul_one]
    rw [ENNReal.tsum_geometric_add_one, ENNReal.one_sub_inv_two, inv_inv]
    exact ENNReal.inv_mul_cancel (by simp) (by simp)
  · intro d h0
    obtain ⟨n, rfl⟩ := hf d
    have hm : MeasurableSet ({f n} : Set Draw) := trivial
    rw [Measure.sum_apply _ hm, ENNReal.tsum_eq_zero] at h0
    have := h0 n
    rw [Measure.smul_apply, Measure.dirac_apply' _ hm] at this
    simp at this

/-- A case for `C170_almost_surely`: the toy calibrator, with independent draws of such a distribution. -/
example : ∃ ν : Measure Draw, IsProbabilityMeasure ν ∧
    ∀ᵐ σ ∂(Measure.infinitePi (fun _ : Nat => ν)), ∃ N : Nat, ∀ M, N ≤ M →
      (Toy.ready.fit Toy.env Toy.args ⟨Toy.rnd.uniform, (List.range M).map σ⟩).2 ≠ .running := by
  obtain ⟨ν, h1, h2⟩ := Toy.every_draw
  refine ⟨ν, h1, C170_almost_surely Toy.env Toy.env_argsort Toy.ready Toy.args Toy.rnd.uniform rfl
    ⟨Toy.rnd.tape, Toy.found, Toy.ready_fit⟩ ν ?_⟩
  rintro lines L _ _ data ⟨d, hd⟩ h0
  exact h2 d (measure_mono_null (Set.singleton_subset_iff.2 hd) h0)

/-- A case for `C171_chance`: the toy report comes from an acceptable choice of candidates, so that with draws of such
a distribution a worse solution is not certain. -/
example : ∃ (ν : Measure Draw) (b : Best ℚ), IsProbabilityMeasure ν ∧
    Spec.OutcomeWithin Toy.env Toy.ready Toy.args Toy.rnd.uniform b.cost Toy.found ∧
    Measure.infinitePi (fun _ : Nat => ν) {σ | ∃ (M : Nat) (r : FitReport ℚ),
      (Toy.ready.fit Toy.env Toy.args ⟨Toy.rnd.uniform, (List.range M).map σ⟩).2 = .done (.ok r) ∧
      ¬ Spec.OutcomeWithin Toy.env Toy.ready Toy.args Toy.rnd.uniform b.cost r} < 1 := by
  obtain ⟨ν, h1, h2⟩ := Toy.every_draw
  obtain ⟨lines, L, hl, he, hne, hprob, xs, ys, b, co, q1, q2, q3, q4, q5, hacc, hco, hrep⟩ :=
    (C148_outcomes Toy.env Toy.env_argsort Toy.ready Toy.args Toy.rnd.uniform (by decide) rfl Toy.found).1
      ⟨Toy.rnd.tape, Toy.ready_fit⟩
  have hs := enter_spec Toy.env _ _ _ _ _ he
  obtain ⟨d, hd⟩ := C59_every_sample_possible L.cfg hprob xs ys q1 q2 q3 q4 q5
  rw [addKnown_eq, hs.known] at hd
  refine ⟨ν, b, h1, ⟨lines, L, hl, he, xs, ys, b, co, q1, q2, q3, q4, q5, hacc,
    PyFloat.le_refl _ (PyFloat.not_nan_of_le _ _ hacc.cost).1, hco, hrep⟩, ?_⟩
  refine lt_of_le_of_lt (C171_chance Toy.env Toy.env_argsort Toy.ready Toy.args Toy.rnd.uniform rfl lines L hl he _ b
    hacc ν) ?_
  have hG : ν {d | L.cfg.sample d .random = .ok (some (xs.map .fin ++ (Toy.ready.cal.known.getD ([], [])).1,
      ys.map .fin ++ (Toy.ready.cal.known.getD ([], [])).2))} ≠ 0 := fun h0 =>
    h2 d (measure_mono_null (Set.singleton_subset_iff.2 hd) h0)
  refine pow_lt_one₀ zero_le (ENNReal.sub_lt_self ENNReal.one_ne_top one_ne_zero hG) ?_
  exact fun h0 => hne (List.length_eq_zero_iff.1 h0)

/-- A case for `C170_speed`: the toy report comes from an acceptable choice of candidates. -/
example : ∃ (ν : Measure Draw) (n : Nat) (p : ENNReal), IsProbabilityMeasure ν ∧ p ≠ 0 ∧ 0 < n ∧
    ∀ m : Nat, Measure.infinitePi (fun _ : Nat => ν)
      {σ | (Toy.ready.fit Toy.env Toy.args ⟨Toy.rnd.uniform, (List.range (n * m)).map σ⟩).2 = .running} ≤
        n * (1 - p) ^ m := by
  obtain ⟨ν, h1, h2⟩ := Toy.every_draw
  obtain ⟨lines, L, hl, he, hne, hprob, xs, ys, b, co, q1, q2, q3, q4, q5, hacc, hco, hrep⟩ :=
    (C148_outcomes Toy.env Toy.env_argsort Toy.ready Toy.args Toy.rnd.uniform (by decide) rfl Toy.found).1
      ⟨Toy.rnd.tape, Toy.ready_fit⟩
  have hs := enter_spec Toy.env _ _ _ _ _ he
  obtain ⟨d, hd⟩ := C59_every_sample_possible L.cfg hprob xs ys q1 q2 q3 q4 q5
  rw [addKnown_eq, hs.known] at hd
  exact ⟨ν, L.trials.length, _, h1, fun h0 => h2 d (measure_mono_null (Set.singleton_subset_iff.2 hd) h0),
    List.length_pos_iff.2 hne, fun m => C170_speed Toy.env Toy.ready Toy.args Toy.rnd.uniform rfl lines L hl he _ _ b
      hacc ν m⟩

/-- A case for `C171_limit`: four peaks, two of which are in a sample. -/
example : ∃ (w : World ℚ) (ν : Measure Draw) (b : Best ℚ) (r : FitReport ℚ),
    Toy.fourPeaks [4500, 5900, 7440, 8847] = .ok w ∧ IsProbabilityMeasure ν ∧
    Spec.OutcomeWithin Toy.env w (Toy.fourArgs 1) (fun _ => 0) b.cost r ∧
    ∀ ε : ENNReal, 0 < ε → ∃ m0 : Int, ∀ m : Int, m0 ≤ m →
      Measure.infinitePi (fun _ : Nat => ν) {σ | ∃ (M : Nat) (r : FitReport ℚ),
        (w.fit Toy.env (Toy.fourArgs m) ⟨fun _ => 0, (List.range M).map σ⟩).2 = .done (.ok r) ∧
        ¬ Spec.OutcomeWithin Toy.env w (Toy.fourArgs m) (fun _ => 0) b.cost r} < ε := by
  obtain ⟨ν, h1, h2⟩ := Toy.every_draw
  have hc : (Toy.fourPeaks [4500, 5900, 7440, 8847]).toOption.bind (fun w => w.atlasLines.toOption.bind (fun lines =>
      (Toy.report (w.fit Toy.env (Toy.fourArgs 1) ⟨fun _ => 0, [⟨[0, 0], [0, 0]⟩]⟩)).bind (fun _ =>
      ((w.given (Toy.fourArgs 1)).enter Toy.env lines (Toy.fourArgs 1) (fun _ => 0)).map
        (fun L => decide (L.cfg.sampleSize < L.cfg.x.dedup.length))))) = some true := by
    decide +kernel
  cases hw : Toy.fourPeaks [4500, 5900, 7440, 8847] with
  | error e => rw [hw] at hc; simp [Except.toOption] at hc
  | ok w =>
    rw [hw] at hc
    simp only [Except.toOption, Option.bind_some] at hc
    cases hl : w.atlasLines with
    | error e => rw [hl] at hc; simp at hc
    | ok lines =>
      rw [hl] at hc
      simp only [Option.bind_some, Option.bind_eq_some_iff, Option.map_eq_some_iff, decide_eq_true_eq] at hc
      obtain ⟨r, hr, L, he, hsize⟩ := hc
      obtain ⟨lines', L', hl', he', hne, hprob, xs, ys, b, co, q1, q2, q3, q4, q5, hacc, hco, hrep⟩ :=
        (C148_outcomes Toy.env Toy.env_argsort w (Toy.fourArgs 1) (fun _ => 0) (by decide) rfl r).1
          ⟨_, Toy.report_some _ _ hr⟩
      rw [hl] at hl'
      cases hl'
      rw [he] at he'
      cases he'
      have hs := enter_spec Toy.env _ _ _ _ _ he
      obtain ⟨d, hd⟩ := C59_every_sample_possible L.cfg hprob xs ys q1 q2 q3 q4 q5
      rw [addKnown_eq, hs.known] at hd
      refine ⟨w, ν, b, r, rfl, h1, ⟨lines, L, hl, he, xs, ys, b, co, q1, q2, q3, q4, q5, hacc,
        PyFloat.le_refl _ (PyFloat.not_nan_of_le _ _ hacc.cost).1, hco, hrep⟩, fun ε hε => ?_⟩
      exact C171_limit Toy.env Toy.env_argsort w (Toy.fourArgs 1) (fun _ => 0) rfl lines L hl he hne hsize _ b hacc ν
        (fun h0 => h2 d (measure_mono_null (Set.singleton_subset_iff.2 hd) h0)) ε hε

end Rascal
