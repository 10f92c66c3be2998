import Verif.Props.SearchProps
import Verif.Props.DensityProps

/-!
Property theorems C148 to C150: exactly which reports `fit` can return, over all random draws.
-/

set_option linter.unusedSectionVars false

namespace Rascal

section
variable {K : Type _} [Field K] [LinearOrder K] [IsStrictOrderedRing K] [FloorRing K]

theorem exists_least (l : List K) (h : l ≠ []) : ∃ p ∈ l, ∀ q ∈ l, p ≤ q := by
  induction l with
  | nil => exact absurd rfl h
  | cons a l ih =>
    by_cases hl : l = []
    · subst hl; exact ⟨a, by simp, by simp⟩
    · obtain ⟨p, hp, hq⟩ := ih hl
      rcases le_total a p with hap | hap
      · exact ⟨a, by simp, fun q hm => by
          rcases List.mem_cons.1 hm with rfl | hm
          · exact le_refl _
          · exact hap.trans (hq q hm)⟩
      · exact ⟨p, by simp [hp], fun q hm => by
          rcases List.mem_cons.1 hm with rfl | hm
          · exact hap
          · exact hq q hm⟩

theorem exists_greatest (l : List K) (h : l ≠ []) : ∃ p ∈ l, ∀ q ∈ l, q ≤ p := by
  obtain ⟨p, hp, hq⟩ := exists_least (l.map (fun v => -v)) (by simpa using h)
  obtain ⟨v, hv, rfl⟩ := List.mem_map.1 hp
  exact ⟨v, hv, fun q hm => neg_le_neg_iff.1 (hq (-q) (List.mem_map_of_mem hm))⟩

/-- The monotonicity check passes if the values on the grid increase. -/
theorem monotoneOk_of (k : Kernels K) (c : RansacCfg K) (co : List K) (p0 p1 : K) (h0 : p0 ∈ c.x)
    (h1 : p1 ∈ c.x) (hb : ∀ p ∈ c.x, p0 ≤ p ∧ p ≤ p1)
    (h : ∀ i : Nat, p0 - (p1 - p0) / 5 + (i : K) + 1 < p1 + (p1 - p0) / 5 →
      k.polyval co (p0 - (p1 - p0) / 5 + (i : K)) < k.polyval co (p0 - (p1 - p0) / 5 + (i : K) + 1)) :
    c.monotoneOk k co = true := by
  unfold RansacCfg.monotoneOk
  rw [increasing_iff]
  obtain ⟨e0, e1⟩ := head_last_npUnique c.x p0 p1 h0 h1 hb
  have hg : monotoneGrid (npUnique c.x) = arangeFrom (p0 - (p1 - p0) / 5) (p1 + (p1 - p0) / 5) := by
    unfold monotoneGrid
    dsimp only
    rw [e0, e1]
    congr 1 <;> ring
  rw [hg]
  intro i hi
  rw [List.length_map] at hi
  have hi' := hi
  rw [mem_range_arange] at hi'
  push_cast at hi'
  rw [List.getElem_map, List.getElem_map, arangeFrom_getElem, arangeFrom_getElem]
  push_cast
  rw [← add_assoc]
  exact h i (by linarith)

theorem unzip_eq {α β : Type _} (p : List α) (w : List β) (l : List (α × β)) (hp : p.length = w.length)
    (h : p.zip w = l) : p = l.map Prod.fst ∧ w = l.map Prod.snd := by
  subst h
  exact ⟨(List.map_fst_zip hp.le).symm, (List.map_snd_zip hp.ge).symm⟩

/-- The conditions listed in `AcceptedTrial` are sufficient: a pass on such data accepts the solution if it
costs at most as much as the best so far, and leaves the best alone otherwise. -/
theorem accepted_pass (k : Kernels K) (c : RansacCfg K) (data : List (PyFloat K) × List (PyFloat K))
    (prev : PyFloat K) (b : Best K) (h : AcceptedTrial k c data prev b) (s : Best K) :
    c.evaluate k data s = if b.cost.le s.cost = true then .next b else .next s := by
  obtain ⟨tr, a1, _, a3, a4, a5, _⟩ := h.trial
  obtain ⟨tr', m, wt, f1, f2, f3, f4, f5⟩ := h.formula
  obtain ⟨co, g1, g2, g3, g4, g5⟩ := h.fit
  obtain ⟨l1, l2⟩ := h.lengths
  obtain ⟨n1, n2, n3⟩ := h.enough
  obtain ⟨d1, d2⟩ := h.distinct
  rw [a1] at f1
  cases f1
  have hz : (b.matchedPeaks.zip b.matchedAtlas).length = b.inliers := by
    rw [List.length_zip, l1, l2, min_self]
  have hne : b.matchedPeaks.zip b.matchedAtlas ≠ [] := by
    intro hc
    rw [hc, List.length_nil] at hz
    omega
  have hx : c.x ≠ [] := by
    intro hc
    obtain ⟨e, he⟩ := List.exists_mem_of_ne_nil _ hne
    have := (List.of_mem_zip (h.candidates e he)).1
    rw [hc] at this
    cases this
  obtain ⟨p0, hp0, hq0⟩ := exists_least c.x hx
  obtain ⟨p1, hp1, hq1⟩ := exists_greatest c.x hx
  have hmon := monotoneOk_of k c tr p0 p1 hp0 hp1 (fun p hp => ⟨hq0 p hp, hq1 p hp⟩)
    (fun i hi => a5 p0 hp0 p1 hp1 (fun p hp => ⟨hq0 p hp, hq1 p hp⟩) i hi)
  have hio : c.interceptOk tr = true := by
    unfold RansacCfg.interceptOk
    simp only [Bool.not_eq_true', Bool.or_eq_false_iff, decide_eq_false_iff_not, not_lt, gt_iff_lt]
    exact ⟨a3, a4⟩
  have hclip : ∀ e : K, clipErr c.tol e = min e c.tol := by
    intro e
    unfold clipErr
    split
    · rename_i hc; exact (min_eq_right hc.le).symm
    · rename_i hc; exact (min_eq_left (not_lt.1 hc)).symm
  have hin : inlierList c.tol m = m.filter (fun e => decide (e.1 < c.tol)) := by
    unfold inlierList
    apply List.filter_congr
    intro e _
    rw [hclip, decide_eq_decide]
    constructor
    · intro hlt
      rcases min_lt_iff.1 hlt with hlt | hlt
      · exact hlt
      · exact absurd hlt (lt_irrefl _)
    · intro hlt
      exact lt_of_le_of_lt (min_le_left _ _) hlt
  obtain ⟨u1, u2⟩ := unzip_eq _ _ _ (by rw [l1, l2]) f4
  rw [List.map_map, ← hin] at u1 u2
  unfold RansacCfg.evaluate
  rw [a1]
  dsimp only
  rw [hio, hmon, f2]
  cases m with
  | nil =>
    rw [f4] at hne
    exact absurd rfl hne
  | cons e0 m =>
    simp only [Bool.not_true, Bool.false_eq_true, if_false]
    unfold RansacCfg.compare
    rw [f3]
    dsimp only
    have hcost : trialCost ((e0 :: m).map (fun e => clipErr c.tol e.1)) tr.length wt = b.cost := by
      rw [f5]
      unfold trialCost
      rw [List.length_map, show (fun e : K × K × K => clipErr c.tol e.1) = fun e => min e.1 c.tol from
        funext (fun e => hclip e.1)]
    rw [hcost]
    congr 1
    unfold RansacCfg.consider
    dsimp only
    rw [show (inlierList c.tol (e0 :: m)).map (fun e => e.2.1) = b.matchedPeaks from u1.symm,
      show (inlierList c.tol (e0 :: m)).map (fun e => e.2.2) = b.matchedAtlas from u2.symm,
      if_neg (by omega), g1]
    dsimp only
    unfold RansacCfg.judge
    dsimp only
    rw [← g4, if_neg (not_lt.2 g5), if_neg (by rw [l1]; omega), if_neg (by rw [l1]; exact not_lt.2 n3)]
    have hone : oneToOne b.matchedPeaks b.matchedAtlas = true := by
      unfold oneToOne
      rw [npUnique_length_eq_dedup, npUnique_length_eq_dedup, d1.dedup, d2.dedup, l1, l2]
      simp
    rw [if_pos hone, ← g3, ← g2, l1]

/-- A pass on such data accepts the solution unless it costs more than the best so far. -/
theorem accepted_evaluate (k : Kernels K) (c : RansacCfg K) (data : List (PyFloat K) × List (PyFloat K))
    (prev : PyFloat K) (b : Best K) (h : AcceptedTrial k c data prev b) (s : Best K)
    (hs : b.cost.le s.cost = true) : c.evaluate k data s = .next b := by
  rw [accepted_pass k c data prev b h s, if_pos hs]

/-- The report of a solution. -/
def Spec.reportOf (co : List K) (b : Best K) (nPeaks : Nat) (au : PyFloat K) : FitReport K :=
  ⟨co, b.matchedPeaks, b.matchedAtlas, b.err, b.residual, (b.matchedPeaks.length : K) / (nPeaks : K), au⟩

/-- The reports `fit` may give: choose `sample_size` distinct candidate peaks and a different candidate
wavelength for each of them, add the known pairs, and take the solution of this sample, provided that
it meets the requirements listed in `AcceptedTrial` and costs at most as much as the start. -/
def Spec.Outcome (F : FitEnv K) (w : World K) (a : FitArgs K) (u : Nat → K) (r : FitReport K) : Prop :=
  ∃ lines L, w.atlasLines = .ok lines ∧ (w.given a).enter F lines a u = some L ∧ L.trials ≠ [] ∧
    (∃ probs, sampleProb (npUnique L.cfg.x) = .ok probs) ∧
    ∃ (xs ys : List K) (b : Best K) (co : List K),
      xs.Nodup ∧ ys.Nodup ∧ xs.length = ys.length ∧ xs.length = L.cfg.sampleSize ∧
      (∀ e ∈ xs.zip ys, e ∈ L.cfg.x.zip L.cfg.y) ∧
      AcceptedTrial (F.kern a.fitType) L.cfg
        (xs.map .fin ++ (w.cal.known.getD ([], [])).1, ys.map .fin ++ (w.cal.known.getD ([], [])).2)
        L.start.cost b ∧
      b.coeffs = some co ∧
      r = Spec.reportOf co b w.cal.peaks.length
        (if lines.length = 0 then .posInf else .fin ((b.matchedPeaks.length : K) / (lines.length : K)))

theorem addKnown_eq (known : Option (List (PyFloat K) × List (PyFloat K))) (xs ys : List K) :
    addKnown known xs ys =
      (xs.map .fin ++ (known.getD ([], [])).1, ys.map .fin ++ (known.getD ([], [])).2) := by
  unfold addKnown
  cases known with
  | none => simp
  | some q => rfl

theorem passes_trial (k : Kernels K) (c : RansacCfg K) (tape : List Draw) (ts : List Trial) (s : Best K)
    (p : Draw × Trial) (h : p ∈ c.passes k tape ts s) : p.2 ∈ ts := by
  induction tape generalizing ts s with
  | nil => cases ts <;> simp [RansacCfg.passes] at h
  | cons d ds ih =>
    cases ts with
    | nil => simp [RansacCfg.passes] at h
    | cons t ts =>
      rw [RansacCfg.passes] at h
      rcases List.mem_cons.1 h with rfl | h
      · simp
      · cases hc : c.attempt k d t s with
        | retry => rw [hc] at h; exact ih _ _ h
        | next s' => rw [hc] at h; exact List.mem_cons_of_mem _ (ih _ _ h)
        | raised e s' => rw [hc] at h; cases h

/-- Without `brute_force` all trials are random and the sample is not larger than the set of peaks. -/
theorem trials_random (F : FitEnv K) (c : Cal K) (lines : List K) (a : FitArgs K) (L : LoopStart K)
    (hs : EnterSpec F c lines a L) (hb : a.brute = false) :
    (∀ t ∈ L.trials, t = .random) ∧ L.cfg.sampleSize ≤ (npUnique L.cfg.x).length := by
  have ht := hs.trials
  unfold makeTrials at ht
  rw [hb] at ht
  simp only [Bool.false_eq_true, if_false] at ht
  split at ht
  · obtain ⟨h1, h2⟩ := Prod.mk.inj ht
    rw [h1, h2]
    refine ⟨?_, le_refl _⟩
    intro t hm
    obtain ⟨_, _, rfl⟩ := List.mem_map.1 hm
    rfl
  · rename_i hlt
    obtain ⟨h1, h2⟩ := Prod.mk.inj ht
    rw [h1, h2]
    exact ⟨fun t hm => List.eq_of_mem_replicate hm, by omega⟩

theorem start_not_nan (F : FitEnv K) (c : Cal K) (lines : List K) (a : FitArgs K) (L : LoopStart K)
    (hs : EnterSpec F c lines a L) : L.start.cost ≠ .nan := by
  obtain ⟨cost, err, hst, hsc⟩ := hs.start
  rw [hst]
  dsimp only
  intro hcn
  subst hcn
  unfold startCost at hsc
  split at hsc
  · simp at hsc
  · simp at hsc
  · split at hsc <;> simp at hsc

/-- Repeating a draw that gives an acceptable solution. -/
theorem run_replicate (k : Kernels K) (c : RansacCfg K) (d : Draw) (b : Best K) (ts : List Trial)
    (hts : ∀ t ∈ ts, t = .random) (h : ∀ s : Best K, b.cost.le s.cost = true → c.attempt k d .random s = .next b)
    (s : Best K) (hs : b.cost.le s.cost = true) (hne : ts ≠ []) :
    c.run k (List.replicate ts.length d) ts s = .finished b := by
  induction ts generalizing s with
  | nil => exact absurd rfl hne
  | cons t ts ih =>
    rw [List.length_cons, List.replicate_succ, RansacCfg.run, hts t (by simp), h s hs]
    dsimp only
    by_cases hn : ts = []
    · subst hn; rfl
    · exact ih (fun t ht => hts t (List.mem_cons_of_mem _ ht)) b
        (PyFloat.le_refl _ (PyFloat.not_nan_of_le _ _ hs).1) hn

/-- C148: the reports that `fit` can return, over all random draws of the search, are exactly the outcomes:
nothing else can come out, and every outcome does for some draws. -/
theorem C148_outcomes (F : FitEnv K) (ha : IsArgsort F.argsortK) (w : World K) (a : FitArgs K) (u : Nat → K)
    (hf : a.fitType ≠ .other) (hb : a.brute = false) (r : FitReport K) :
    (∃ tape, (w.fit F a ⟨u, tape⟩).2 = .done (.ok r)) ↔ Spec.Outcome F w a u r := by
  constructor
  · rintro ⟨tape, h⟩
    obtain ⟨lines, L, s, co, data, prev, S⟩ := fit_success F ha w a _ r h
    have hs := enter_spec F _ _ _ _ _ S.enter
    have hxy := hs.aligned ha
    obtain ⟨b1, b2, _⟩ := C61_best_wins (F.kern a.fitType) L.cfg hxy tape L.trials L.start
      (start_not_nan F _ _ _ _ hs)
    rw [show L.cfg.run (F.kern a.fitType) tape L.trials L.start = .finished s from S.run,
      show (RunState.finished s).best = s from rfl] at b1 b2
    rcases b1 with b1 | ⟨p, hp, hacc, _⟩
    · obtain ⟨cost, err, hst, _⟩ := hs.start
      have := S.coeffs
      rw [b1, hst] at this
      cases this
    obtain ⟨hrandom, hsize⟩ := trials_random F _ _ _ _ hs hb
    have hp2 := passes_trial _ _ _ _ _ _ hp
    rw [hrandom _ hp2] at hacc
    rcases attempt_cases (F.kern a.fitType) L.cfg hxy p.1 .random noSolution with
      h1 | h1 | ⟨s', data', h1, h2, h3⟩ | ⟨e, h1, _⟩
    · rw [hacc] at h1; cases h1
    · rw [hacc] at h1
      cases h1
      have := S.coeffs
      cases this
    · rw [hacc] at h1
      cases h1
      obtain ⟨xs, ys, q1, q2, q3, q4, q5, q6⟩ := C59_distinct_samples L.cfg p.1 data' h2
      have hprob : ∃ probs, sampleProb (npUnique L.cfg.x) = .ok probs := by
        unfold RansacCfg.sample at h2
        cases hpr : sampleProb (npUnique L.cfg.x) with
        | error e => rw [hpr] at h2; simp at h2
        | ok v => exact ⟨v, rfl⟩
      refine ⟨lines, L, S.atlas, S.enter, List.ne_nil_of_mem hp2, hprob, xs, ys, s, co, q1, q2, q3, ?_, q5, ?_,
        S.coeffs, ?_⟩
      · rw [q4, ← npUnique_length_eq_dedup, min_eq_left hsize]
      · rw [q6, hs.known] at h3
        exact { h3 with cost := b2 }
      · have hu := S.util
        have hin : 0 < s.inliers := by have := h3.enough.1; omega
        unfold utilisation at hu
        rw [S.report]
        unfold Spec.reportOf
        rw [h3.lengths.1]
        congr 1
        split at hu
        · rename_i hz
          rw [if_neg (by omega)] at hu
          rw [if_pos hz]
          exact (Except.ok.inj hu).symm
        · rename_i hz
          rw [if_neg hz]
          exact (Except.ok.inj hu).symm
    · rw [hacc] at h1; cases h1
  · rintro ⟨lines, L, hl, he, hne, hprob, xs, ys, b, co, q1, q2, q3, q4, q5, hacc, hco, rfl⟩
    have hs := enter_spec F _ _ _ _ _ he
    obtain ⟨hrandom, _⟩ := trials_random F _ _ _ _ hs hb
    obtain ⟨d, hd⟩ := C59_every_sample_possible L.cfg hprob xs ys q1 q2 q3 q4 q5
    have hatt : ∀ s : Best K, b.cost.le s.cost = true →
        L.cfg.attempt (F.kern a.fitType) d .random s = .next b := by
      intro s hsc
      unfold RansacCfg.attempt
      rw [hd]
      dsimp only
      rw [addKnown_eq, hs.known]
      exact accepted_evaluate _ _ _ _ _ hacc s hsc
    have hrun := run_replicate _ _ d b L.trials hrandom hatt L.start hacc.cost hne
    refine ⟨List.replicate L.trials.length d, ?_⟩
    rcases fit_eq F w a ⟨u, List.replicate L.trials.length d⟩ with ⟨_, _, h1⟩ | ⟨lines', _, hl', h1⟩
    · rcases h1 with h1 | ⟨e, h1⟩
      · exact absurd h1 hf
      · rw [hl] at h1; cases h1
    rw [hl] at hl'
    cases hl'
    have hin : 0 < b.inliers := by have := hacc.enough.1; omega
    rw [h1]
    dsimp only
    rw [fitWith_enter F _ _ _ ⟨u, List.replicate L.trials.length d⟩ _ he]
    dsimp only
    rw [hrun]
    unfold LoopStart.finish
    dsimp only
    have hfin : finishSolve a.degree b =
        .ok ⟨some co, b.err, b.residual, b.inliers, !decide (b.inliers ≤ a.degree + 1)⟩ := by
      unfold finishSolve
      rw [if_pos ⟨hacc.lengths.1.symm, hacc.lengths.2.symm, hacc.distinct.2⟩, hco]
    rw [hfin]
    have hpk : (L.cal.setMatched b).peaks = w.cal.peaks := hs.frame.peaks
    have hu : ∀ n : Nat, (utilisation b.inliers n : PyRes (PyFloat K)) =
        .ok (if n = 0 then .posInf else .fin ((b.inliers : K) / (n : K))) := by
      intro n
      unfold utilisation
      split
      · rw [if_neg (by omega)]
      · rfl
    unfold Cal.finishFit
    dsimp only
    rw [hu, hu, hpk]
    dsimp only
    unfold Spec.reportOf
    rw [hacc.lengths.1]
    rfl

/-! ### C149 -/

/-- Another `max_tries` only changes the number of trials. -/
theorem enter_tries (F : FitEnv K) (c : Cal K) (lines : List K) (a : FitArgs K) (u : Nat → K)
    (L : LoopStart K) (m : Int) (hm : 0 < m) (h : c.enter F lines a u = some L) (hne : L.trials ≠ []) :
    ∃ ts, ts ≠ [] ∧ c.enter F lines { a with maxTries := m } u = some { L with trials := ts } := by
  have hmk : ∀ b n nx nu, (makeTrials b n nx nu m).2 = (makeTrials b n nx nu a.maxTries).2 ∧
      ((makeTrials b n nx nu a.maxTries).1 ≠ [] → (makeTrials b n nx nu m).1 ≠ []) := by
    intro b n nx nu
    unfold makeTrials
    split
    · exact ⟨rfl, id⟩
    split
    · exact ⟨rfl, id⟩
    · refine ⟨rfl, fun _ hc => ?_⟩
      have := congrArg List.length hc
      rw [List.length_replicate, List.length_nil] at this
      omega
  unfold Cal.enter at h ⊢
  dsimp only at h ⊢
  split at h
  · simp at h
  rename_i hok
  split at h
  · simp at h
  rename_i cands hc
  split at h
  · simp at h
  rename_i hdeg
  have hdeg' := hdeg
  change ¬ _ ≤ FitArgs.degree { a with maxTries := m } at hdeg'
  rw [if_neg hdeg']
  split at h
  · simp at h
  rename_i d hd
  split at h
  · simp at h
  rename_i cost err hsc
  simp only [Option.some.injEq] at h
  have h2 := fun b n nx nu => (hmk b n nx nu).1
  simp only [← h2] at hd h
  rw [hd]
  dsimp only
  subst h
  exact ⟨_, (hmk _ _ _ _).2 hne, rfl⟩

/-- C149: `max_tries` influences how likely a report is, not which reports are possible: any two positive
values admit the same ones. -/
theorem C149_max_tries (F : FitEnv K) (ha : IsArgsort F.argsortK) (w : World K) (a : FitArgs K) (u : Nat → K)
    (hf : a.fitType ≠ .other) (hb : a.brute = false) (m m' : Int) (hm : 0 < m) (hm' : 0 < m')
    (r : FitReport K) :
    (∃ tape, (w.fit F { a with maxTries := m } ⟨u, tape⟩).2 = .done (.ok r)) ↔
      ∃ tape, (w.fit F { a with maxTries := m' } ⟨u, tape⟩).2 = .done (.ok r) := by
  have key : ∀ m m' : Int, 0 < m' → Spec.Outcome F w { a with maxTries := m } u r →
      Spec.Outcome F w { a with maxTries := m' } u r := by
    rintro m m' h1 ⟨lines, L, hl, he, hne, hprob, rest⟩
    obtain ⟨ts, t1, t2⟩ := enter_tries F _ lines { a with maxTries := m } u L m' h1 he hne
    exact ⟨lines, { L with trials := ts }, hl, t2, t1, hprob, rest⟩
  rw [C148_outcomes F ha w { a with maxTries := m } u hf hb r,
    C148_outcomes F ha w { a with maxTries := m' } u hf hb r]
  exact ⟨key m m' hm', key m' m hm⟩

/-! ### C150 -/

/-- Other thresholds of acceptance only change the thresholds of the loop. -/
theorem enter_thresholds (F : FitEnv K) (c : Cal K) (lines : List K) (a : FitArgs K) (u : Nat → K)
    (L : LoopStart K) (m : Int) (v e : K) (h : c.enter F lines a u = some L) :
    ∃ cal, ({ c with ransac := { c.ransac with minMatches := m, minUtil := v, minFitError := e } } : Cal K).enter
      F lines a u = some { L with
        cfg := { L.cfg with minMatches := adjustMinMatches m lines.length c.peaks.length, minUtil := v,
                            minFitError := e }
        cal := cal } := by
  obtain ⟨peaks, arr, props, hough, ransac, atlas, ct, cp, pairs, ht, hl, hp, known, mp, ma, co, rms, res, pu, au⟩ :=
    c
  unfold Cal.enter at h ⊢
  dsimp only at h ⊢
  have hE := fun r : RansacSet K => ensureHough_ransac F ⟨peaks, arr, props, hough, ransac, atlas, ct, cp,
    pairs, ht, hl, hp, known, mp, ma, co, rms, res, pu, au⟩ r
  dsimp only at hE
  obtain ⟨ht', hl', hp', hfr⟩ := ensureHough_frame F (⟨peaks, arr, props, hough, ransac, atlas, ct, cp,
    pairs, ht, hl, hp, known, mp, ma, co, rms, res, pu, au⟩ : Cal K)
  rw [hE, hfr] at h
  rw [hE, hfr]
  dsimp only at h ⊢
  split at h
  · simp at h
  rename_i hok
  split at h
  · simp at h
  rename_i cands hc
  unfold Cal.candidates at hc ⊢
  dsimp only at hc ⊢
  rw [hc]
  dsimp only at h ⊢
  generalize hg : Cal.candidateLists F _ cands = xy at h
  generalize hg' : Cal.candidateLists F _ cands = xy'
  obtain rfl : xy' = xy := by rw [← hg, ← hg']; rfl
  split at h
  · simp at h
  rename_i hdeg
  rw [if_neg hdeg]
  unfold Cal.density at h ⊢
  dsimp only at h ⊢
  split at h
  · simp at h
  rename_i d hd
  split at h
  · simp at h
  rename_i cost err hsc
  simp only [Option.some.injEq] at h
  subst h
  exact ⟨_, rfl⟩

/-- C150: relaxing `minimum_matches`, `minimum_peak_utilisation` and `minimum_fit_error` never makes a report
impossible. -/
theorem C150_relaxed (F : FitEnv K) (ha : IsArgsort F.argsortK) (w : World K) (a : FitArgs K) (u : Nat → K)
    (hf : a.fitType ≠ .other) (hb : a.brute = false) (m : Option Int) (v e : Option K)
    (hok : (w.setRansac { minMatches := m, minUtil := v, minFitError := e }).2 = .ok ())
    (hm : ∀ x, m = some x → x ≤ w.cal.ransac.minMatches) (hv : ∀ x, v = some x → x ≤ w.cal.ransac.minUtil)
    (he : ∀ x, e = some x → x ≤ w.cal.ransac.minFitError) (r : FitReport K)
    (h : ∃ tape, (w.fit F a ⟨u, tape⟩).2 = .done (.ok r)) :
    ∃ tape, ((w.setRansac { minMatches := m, minUtil := v, minFitError := e }).1.fit F a ⟨u, tape⟩).2 =
      .done (.ok r) := by
  have hset : ∃ m' v' e', (w.setRansac { minMatches := m, minUtil := v, minFitError := e }).1 =
      { w with cal := { w.cal with ransac := { w.cal.ransac with
        minMatches := m', minUtil := v', minFitError := e' } } } ∧ m' ≤ w.cal.ransac.minMatches ∧
        v' ≤ w.cal.ransac.minUtil ∧ e' ≤ w.cal.ransac.minFitError := by
    refine ⟨m.getD w.cal.ransac.minMatches, v.getD w.cal.ransac.minUtil, e.getD w.cal.ransac.minFitError,
      ?_, ?_, ?_, ?_⟩
    · unfold World.setRansac RansacSet.set at hok ⊢
      dsimp only at hok ⊢
      split at hok
      · rename_i c1
        rw [if_pos c1]
        split at hok
        · rename_i c2
          rw [if_pos c2]
          split at hok
          · rename_i c3
            rw [if_pos c3]
            cases m <;> cases v <;> cases e <;> rfl
          · cases hok
        · cases hok
      · cases hok
    · cases m with
      | none => exact le_refl _
      | some x => exact hm x rfl
    · cases v with
      | none => exact le_refl _
      | some x => exact hv x rfl
    · cases e with
      | none => exact le_refl _
      | some x => exact he x rfl
  obtain ⟨m', v', e', hw, h1, h2, h3⟩ := hset
  rw [hw]
  rw [C148_outcomes F ha w a u hf hb r] at h
  rw [C148_outcomes F ha _ a u hf hb r]
  obtain ⟨lines, L, hl, hen, hne, hprob, xs, ys, b, co, q1, q2, q3, q4, q5, hacc, rest⟩ := h
  have hs := enter_spec F _ _ _ _ _ hen
  obtain ⟨cal, hcal⟩ := enter_thresholds F (w.given a) lines a u L m' v' e' hen
  refine ⟨lines, _, hl, hcal, hne, hprob, xs, ys, b, co, q1, q2, q3, q4, q5, ?_, rest⟩
  refine ⟨hacc.trial, hacc.candidates, hacc.lengths, hacc.distinct, ⟨hacc.enough.1, ?_, ?_⟩, ?_, hacc.cost,
    hacc.formula⟩
  · have := hacc.enough.2.1
    rw [hs.minMatches] at this
    refine le_trans ?_ this
    dsimp only
    have : m' ≤ (w.given a).ransac.minMatches := h1
    unfold adjustMinMatches
    dsimp only
    split_ifs <;> omega
  · have := hacc.enough.2.2
    rw [hs.minUtil] at this
    exact le_trans (mul_le_mul_of_nonneg_right h2 (Nat.cast_nonneg _)) this
  · obtain ⟨co', g1, g2, g3, g4, g5⟩ := hacc.fit
    rw [hs.minFitError] at g5
    exact ⟨co', g1, g2, g3, g4, le_trans h3 g5⟩

end

/-! ### examples -/

/-- A case for `C148_outcomes`, read from left to right: the toy fit has an outcome. -/
example : Spec.Outcome Toy.env Toy.ready Toy.args Toy.rnd.uniform Toy.found :=
  (C148_outcomes Toy.env Toy.env_argsort Toy.ready Toy.args Toy.rnd.uniform (by decide) rfl Toy.found).1
    ⟨Toy.rnd.tape, Toy.ready_fit⟩

/-- A case for `C149_max_tries`: the report of the toy fit is possible with a thousand tries. -/
example : ∃ tape, (Toy.ready.fit Toy.env { Toy.args with maxTries := 1000 } ⟨Toy.rnd.uniform, tape⟩).2 =
    .done (.ok Toy.found) :=
  (C149_max_tries Toy.env Toy.env_argsort Toy.ready Toy.args Toy.rnd.uniform (by decide) rfl Toy.args.maxTries
    1000 (by decide) (by decide) Toy.found).1 ⟨Toy.rnd.tape, Toy.ready_fit⟩

/-- The toy calibrator with strict thresholds. -/
def Toy.strict : World ℚ := (Toy.ready.setRansac { minMatches := some 2, minUtil := some 1 }).1

/-- A case for `C150_relaxed`: half of the peaks and one match are enough. -/
example : ∃ tape, ((Toy.strict.setRansac { minMatches := some 1, minUtil := some (1 / 2), minFitError := none }).1.fit
    Toy.env Toy.args ⟨Toy.rnd.uniform, tape⟩).2 = .done (.ok Toy.found) :=
  C150_relaxed Toy.env Toy.env_argsort Toy.strict Toy.args Toy.rnd.uniform (by decide) rfl (some 1)
    (some (1 / 2)) none (by decide +kernel)
    (fun x h => by cases h; decide +kernel) (fun x h => by cases h; decide +kernel) (fun x h => by cases h) Toy.found
    ⟨Toy.rnd.tape, Toy.report_some _ _ (by decide +kernel)⟩

end Rascal
