import Verif.Props.FitFailProps
import Mathlib.Data.Nat.Choose.Basic

/-!
Property theorems C64, C68, C92, C93 and C95: how long `fit` searches, where, and the atlas utilisation.
-/

set_option linter.unusedSectionVars false

namespace Rascal

section
variable {K : Type _} [Field K] [LinearOrder K] [IsStrictOrderedRing K]

/-! ### C64 and C92: the number of trials -/

theorem pyCombinations_length {α : Type _} (l : List α) (n : Nat) :
    (pyCombinations l n).length = l.length.choose n := by
  induction l generalizing n with
  | nil => cases n <;> simp [pyCombinations]
  | cons a l ih =>
    cases n with
    | zero => simp [pyCombinations]
    | succ n => simp [pyCombinations, ih, Nat.choose_succ_succ]

/-- The number of trials: `max_tries`, or the number of ways to choose `sample_size` of the candidates. -/
theorem makeTrials_length (brute : Bool) (size nx nu : Nat) (tries : Int) :
    (makeTrials brute size nx nu tries).1.length =
      if brute = true ∨ nu ≤ size then nx.choose size else tries.toNat := by
  unfold makeTrials
  cases brute with
  | true => simp [pyCombinations_length]
  | false =>
    by_cases h : nu ≤ size
    · simp [h, pyCombinations_length]
    · simp [h]

variable [FloorRing K]

/-- The number of passes that ended in `continue`. -/
def RansacCfg.retries (k : Kernels K) (c : RansacCfg K) : List Draw → List Trial → Best K → Nat
  | _, [], _ => 0
  | [], _ :: _, _ => 0
  | d :: ds, t :: ts, s =>
    match c.attempt k d t s with
    | .retry => c.retries k ds (t :: ts) s + 1
    | .next s' => c.retries k ds ts s'
    | .raised _ _ => 0

theorem run_running (k : Kernels K) (c : RansacCfg K) (tape : List Draw) (trials : List Trial)
    (s s' : Best K) (h : c.run k tape trials s = .running s') :
    tape.length < trials.length + c.retries k tape trials s := by
  induction tape generalizing trials s with
  | nil =>
    cases trials with
    | nil => simp [RansacCfg.run] at h
    | cons t ts => simp
  | cons d ds ih =>
    cases trials with
    | nil => simp [RansacCfg.run] at h
    | cons t ts =>
      simp only [RansacCfg.run] at h
      simp only [RansacCfg.retries]
      cases ha : c.attempt k d t s with
      | retry =>
        rw [ha] at h
        have := ih _ _ h
        simp only [List.length_cons] at this ⊢
        omega
      | next s1 =>
        rw [ha] at h
        have := ih _ _ h
        simp only [List.length_cons]
        omega
      | raised e s1 => rw [ha] at h; simp at h

/-- C64, what holds: if `fit` is still running, its passes so far are fewer than the number of trials
plus the number of rejected passes; there are `max_tries` trials, or one for each choice of `sample_size`
candidates if this is at least the number of candidate peaks or with `brute_force`.  What is missing: the
number of rejected passes is not bounded. -/
theorem C64_passes_partial (F : FitEnv K) (w : World K) (a : FitArgs K) (rnd : FitRandom K)
    (h : (w.fit F a rnd).2 = .running) :
    ∃ lines L, w.atlasLines = .ok lines ∧ (w.given a).enter F lines a rnd.uniform = some L ∧
      rnd.tape.length < L.trials.length + L.cfg.retries (F.kern a.fitType) rnd.tape L.trials L.start ∧
      L.trials.length =
        if a.brute = true ∨ L.cfg.x.dedup.length ≤
            (adjustSampleSize w.cal.ransac.sampleSize lines.length a.fitDeg).toNat
        then L.cfg.x.length.choose (adjustSampleSize w.cal.ransac.sampleSize lines.length a.fitDeg).toNat
        else a.maxTries.toNat := by
  rcases fit_eq F w a rnd with ⟨_, ⟨e, h1⟩, _⟩ | ⟨lines, _, hl, h1⟩
  · rw [h] at h1; simp at h1
  rw [h1] at h
  dsimp only at h
  cases he : (w.given a).enter F lines a rnd.uniform with
  | none =>
    obtain ⟨⟨e, h2⟩, _⟩ := fitWith_not_enter F _ _ _ _ he
    rw [h2] at h; simp at h
  | some L =>
    have hs := enter_spec F _ _ _ _ _ he
    rw [fitWith_enter F _ _ _ _ _ he] at h
    refine ⟨lines, L, hl, he, ?_, ?_⟩
    · cases hr : L.cfg.run (F.kern a.fitType) rnd.tape L.trials L.start with
      | running s => exact run_running _ _ _ _ _ _ hr
      | raised e s => rw [hr] at h; simp [LoopStart.finish] at h
      | finished s =>
        rw [hr] at h
        unfold LoopStart.finish at h
        dsimp only at h
        split at h <;> simp at h
    · have := hs.trials
      rw [Prod.ext_iff] at this
      dsimp only at this
      rw [this.1, makeTrials_length, npUnique_length_eq_dedup]
      rfl

theorem run_forever (k : Kernels K) (c : RansacCfg K) (t : Trial) (ts : List Trial) (s : Best K)
    (h : ∀ d, c.attempt k d t s = .retry) (tape : List Draw) :
    c.run k tape (t :: ts) s = .running s := by
  induction tape with
  | nil => rfl
  | cons d ds ih =>
    simp only [RansacCfg.run]
    rw [h d]
    exact ih

/-- C92, what holds: once there are enough candidate peaks, `fit` makes at least one trial if and only if
`max_tries` is positive or, where combinations are tried, `sample_size` is at most the number of
candidates.  What is missing: otherwise it makes none. -/
theorem C92_some_trial_partial (F : FitEnv K) (w : World K) (a : FitArgs K) (u : Nat → K) (lines : List K)
    (L : LoopStart K) (h : (w.given a).enter F lines a u = some L) :
    a.degree < L.cfg.x.dedup.length ∧
    (L.trials ≠ [] ↔
      if a.brute = true ∨ L.cfg.x.dedup.length ≤
          (adjustSampleSize w.cal.ransac.sampleSize lines.length a.fitDeg).toNat
      then (adjustSampleSize w.cal.ransac.sampleSize lines.length a.fitDeg).toNat ≤ L.cfg.x.length
      else 0 < a.maxTries) := by
  have hs := enter_spec F _ _ _ _ _ h
  refine ⟨by rw [← npUnique_length_eq_dedup]; exact hs.enough, ?_⟩
  have := hs.trials
  rw [Prod.ext_iff] at this
  dsimp only at this
  rw [← List.length_pos_iff, this.1, makeTrials_length, npUnique_length_eq_dedup]
  rw [show (w.given a).ransac.sampleSize = w.cal.ransac.sampleSize from rfl]
  generalize (adjustSampleSize w.cal.ransac.sampleSize lines.length a.fitDeg).toNat = n
  by_cases hc : a.brute = true ∨ L.cfg.x.dedup.length ≤ n
  · rw [if_pos hc, if_pos hc]
    refine ⟨fun h1 => ?_, fun h1 => Nat.choose_pos h1⟩
    by_contra hn
    rw [Nat.choose_eq_zero_of_lt (by omega)] at h1
    omega
  · rw [if_neg hc, if_neg hc]
    omega

/-- The hypothesis of `C92_some_trial_partial` met: the search of the toy calibrator is entered with one trial. -/
example : (Toy.ready.atlasLines.toOption.bind (fun lines =>
    ((Toy.ready.given Toy.args).enter Toy.env lines Toy.args (fun _ => 0)).map (fun L => L.trials.length))) =
    some 1 := by decide +kernel

/-! ### C68 -/

/-- C68, what holds: the weight is `hough_weight` times the sum, over the pixels, of the density at the
intercept and gradient of the tangent there.  What is missing: the density's first axis is the gradient. -/
theorem C68_weight_partial (k : Kernels K) (c : RansacCfg K) (hw : K) (f : K → K → K)
    (hd : c.density = .spline hw f) (a : K) (b : K) (l : List K) :
    c.weight k (a :: b :: l) = .ok (hw * (c.pixelList.map (fun p =>
      let gradient := k.polyval (derivativeCoeffs (a :: b :: l)) p
      f (k.polyval (a :: b :: l) p - gradient * p) gradient)).sum) := by
  unfold RansacCfg.weight
  rw [hd]
  have : derivativeCoeffs (a :: b :: l) ≠ [] := by
    rw [Ne, derivativeCoeffs_eq_nil]
    simp
  rw [if_neg this]

/-- The hypothesis of `C68_weight_partial` met by the toy search. -/
example := C68_weight_partial Toy.kern Toy.cfg 1 (fun x _ => x) rfl 3100 280 []

/-! ### C93 -/

/-- C93, what holds: in the linear mode every matched pair lies within the candidate tolerance of a line
of the Hough transform that the calibrator holds afterwards; if it held none before, the transform is
that of the current search space and settings.  What is missing: an old transform is not redone. -/
theorem C93_hough_lines_partial (F : FitEnv K) (ha : IsArgsort F.argsortK) (w : World K) (a : FitArgs K)
    (rnd : FitRandom K) (r : FitReport K) (h : (w.fit F a rnd).2 = .done (.ok r)) :
    (w.cal.ransac.linear = true → ∃ hl, (w.fit F a rnd).1.cal.houghLines = some hl ∧
      ∀ e ∈ r.matchedPeaks.zip r.matchedAtlas, ∃ l ∈ hl, |l.1 * e.1 + l.2 - e.2| ≤ a.candTol) ∧
    (w.cal.houghLines = none →
      (w.fit F a rnd).1.cal.houghLines = (w.cal.doHough F.argsortK F.argsortN false).1.houghLines) := by
  obtain ⟨lines, L, s, co, data, prev, S⟩ := fit_success F ha w a rnd r h
  have hs := enter_spec F _ _ _ _ _ S.enter
  have hmp : r.matchedPeaks = s.matchedPeaks := by rw [S.report]
  have hma : r.matchedAtlas = s.matchedAtlas := by rw [S.report]
  have hhl : (w.fit F a rnd).1.cal.houghLines = L.cal.houghLines := by rw [S.state]; rfl
  constructor
  · intro hlin
    have hpos : 0 < s.matchedPeaks.length := by
      have := S.accepted.enough.1
      rw [S.accepted.lengths.1]; omega
    have h2 : s.matchedAtlas.length = s.matchedPeaks.length :=
      S.accepted.lengths.2.trans S.accepted.lengths.1.symm
    have hz : (s.matchedPeaks[0]'hpos, s.matchedAtlas[0]'(by omega)) ∈
        s.matchedPeaks.zip s.matchedAtlas := by
      rw [List.mem_iff_getElem]
      exact ⟨0, by simp; omega, by simp⟩
    obtain ⟨_, hl, hl1, _⟩ := hs.linear ha hlin _ (S.accepted.candidates _ hz)
    refine ⟨hl, by rw [hhl, hl1], ?_⟩
    intro e he
    rw [hmp, hma] at he
    obtain ⟨_, hl', hl1', l, hlm, hle⟩ := hs.linear ha hlin _ (S.accepted.candidates _ he)
    rw [hl1] at hl1'
    simp only [Option.some.injEq] at hl1'
    subst hl1'
    exact ⟨l, hlm, hle⟩
  · intro hnone
    rw [hhl]
    rw [hs.transform hnone]
    exact doHough_congr w.cal _ _ _ w.cal.ransac a.fitCoeff

/-- The hypotheses of `C93_hough_lines_partial` met by the toy fit. -/
example := C93_hough_lines_partial Toy.env Toy.env_argsort Toy.ready Toy.args Toy.rnd Toy.found Toy.ready_fit

/-! ### C95 -/

/-- C95, what holds: if the search space only has lines of the current atlas (C78), the atlas utilisation
is the number of matches divided by the number of lines, and lies between 0 and 1.  What is missing: a
search space with other lines. -/
theorem C95_atlas_utilisation_partial (F : FitEnv K) (ha : IsArgsort F.argsortK) (w : World K)
    (hp : SearchSpaceCurrent w) (a : FitArgs K) (rnd : FitRandom K) (r : FitReport K)
    (h : (w.fit F a rnd).2 = .done (.ok r)) :
    ∃ lines u, w.atlasLines = .ok lines ∧ r.atlasUtil = .fin u ∧
      u = (r.matchedAtlas.length : K) / (lines.length : K) ∧ 0 < u ∧ u ≤ 1 := by
  obtain ⟨lines, L, s, co, data, prev, S⟩ := fit_success F ha w a rnd r h
  have hs := enter_spec F _ _ _ _ _ S.enter
  have hacc := S.accepted
  have hma : r.matchedAtlas = s.matchedAtlas := by rw [S.report]
  obtain ⟨l1, l2⟩ := hacc.lengths
  have hsub : ∀ v ∈ s.matchedAtlas, v ∈ lines := by
    intro v hv
    obtain ⟨i, hi, hiv⟩ := List.getElem_of_mem hv
    have hz : (s.matchedPeaks[i]'(by omega), v) ∈ s.matchedPeaks.zip s.matchedAtlas := by
      rw [List.mem_iff_getElem]
      exact ⟨i, by simp; omega, by simp [hiv]⟩
    have hx := hacc.candidates _ hz
    cases hlin : w.cal.ransac.linear with
    | true =>
      obtain ⟨_, lines', h1, h2⟩ := hp _ (hs.linear ha hlin _ hx).1
      rw [S.atlas] at h1
      simp only [Except.ok.injEq] at h1
      rw [h1]
      exact h2
    | false => exact (hs.poly ha hlin _ hx).2
  have hle : s.inliers ≤ lines.length := by
    rw [← l2]
    exact (List.subperm_of_subset hacc.distinct.2 hsub).length_le
  have hpos : 0 < s.inliers := by
    have := hacc.enough.1
    omega
  have hn : (0 : K) < (lines.length : K) := by exact_mod_cast lt_of_lt_of_le hpos hle
  have hu := S.util
  unfold utilisation at hu
  rw [if_neg (by omega)] at hu
  simp only [Except.ok.injEq] at hu
  refine ⟨lines, (s.inliers : K) / (lines.length : K), S.atlas, hu.symm, by rw [hma, l2], ?_, ?_⟩
  · exact div_pos (by exact_mod_cast hpos) hn
  · rw [div_le_one hn]
    exact_mod_cast hle

/-- The hypotheses of `C95_atlas_utilisation_partial` met by the toy fit. -/
example := C95_atlas_utilisation_partial Toy.env Toy.env_argsort Toy.ready (by
    intro e he
    have h : ∀ e ∈ Toy.ready.cal.pairList, e.1 ∈ Toy.ready.cal.peaks ∧
      e.2 ∈ ([5900, 8700, 20000, 21000, 22000] : List ℚ) := by decide +kernel
    exact ⟨(h e he).1, _, Toy.ready_lines, (h e he).2⟩) Toy.args Toy.rnd Toy.found Toy.ready_fit

end

/-! ### Refutations -/

/-- The expected behaviour: after `max_tries` passes `fit` has returned or raised. -/
def C64_Statement : Prop :=
  ∀ w : World ℚ, Toy.world 2 (1 / 10000) = .ok w → ∀ (a : FitArgs ℚ) (rnd : FitRandom ℚ),
    a.maxTries.toNat ≤ rnd.tape.length → (w.fit Toy.env a rnd).2 ≠ .running

/-- Whether a pass ended in `continue`. -/
def Toy.isRetry : Attempt ℚ → Bool
  | .retry => true
  | _ => false

theorem Toy.isRetry_iff (t : Attempt ℚ) : Toy.isRetry t = true ↔ t = .retry := by
  cases t <;> simp [Toy.isRetry]

/-- What the refutation needs to know about the start of the loop. -/
def Toy.stuck (L : LoopStart ℚ) : Bool :=
  decide (L.cfg.x = [10, 20]) && decide (L.cfg.y = [5900, 8700]) && decide (L.cfg.sampleSize = 2) &&
    L.cfg.known.isNone && (match L.trials with | [.random] => true | _ => false) &&
    Toy.isRetry (L.cfg.evaluate Toy.kern ([.fin 10, .fin 20], [.fin 5900, .fin 8700]) L.start) &&
    Toy.isRetry (L.cfg.evaluate Toy.kern ([.fin 20, .fin 10], [.fin 8700, .fin 5900]) L.start)

/-- The data of a random pass over the two candidate pairs. -/
theorem Toy.sample_two (c : RansacCfg ℚ) (hx : c.x = [10, 20]) (hy : c.y = [5900, 8700])
    (hn : c.sampleSize = 2) (hk : c.known = none) (d : Draw) :
    c.sample d .random = .ok (some ([.fin 10, .fin 20], [.fin 5900, .fin 8700])) ∨
    c.sample d .random = .ok (some ([.fin 20, .fin 10], [.fin 8700, .fin 5900])) := by
  have hu : npUnique ([10, 20] : List ℚ) = [10, 20] := by decide +kernel
  have hp : (sampleProb ([10, 20] : List ℚ)).toOption.isSome = true := by decide +kernel
  have ht1 : candTable ([10, 20] : List ℚ) [5900, 8700] 10 = some [5900] := by decide +kernel
  have ht2 : candTable ([10, 20] : List ℚ) [5900, 8700] 20 = some [8700] := by decide +kernel
  unfold RansacCfg.sample
  rw [hx, hy, hn, hk, hu]
  cases hs : sampleProb ([10, 20] : List ℚ) with
  | error e => rw [hs] at hp; simp [Except.toOption] at hp
  | ok pr =>
    dsimp only
    have hpick : pickDistinct ([10, 20] : List ℚ) 2 d.peaks = [10, 20] ∨
        pickDistinct ([10, 20] : List ℚ) 2 d.peaks = [20, 10] := by
      rcases Nat.mod_two_eq_zero_or_one (d.peaks.headD 0) with h | h
      · left
        simp only [pickDistinct, List.length_cons, List.length_nil, Nat.zero_add, Nat.reduceAdd, h]
        simp [pickDistinct, Nat.mod_one]
      · right
        simp only [pickDistinct, List.length_cons, List.length_nil, Nat.zero_add, Nat.reduceAdd, h]
        simp [pickDistinct, Nat.mod_one]
    rcases hpick with h | h
    · left
      rw [h]
      simp [pickWaves, ht1, ht2, Nat.mod_one, addKnown]
    · right
      rw [h]
      simp [pickWaves, ht1, ht2, Nat.mod_one, addKnown]

/-- With two peaks, the lines that fit them exactly and the default `minimum_fit_error`, `fit` never
comes to an end, whatever it draws. -/
theorem C64_never_returns (w : World ℚ) (hw : Toy.world 2 (1 / 10000) = .ok w) (tape : List Draw) :
    (w.fit Toy.env Toy.args ⟨fun _ => 0, tape⟩).2 = .running := by
  have hc : (Toy.world 2 (1 / 10000)).toOption.bind (fun w => w.atlasLines.toOption.bind (fun lines =>
      ((w.given Toy.args).enter Toy.env lines Toy.args (fun _ => 0)).map Toy.stuck)) = some true := by
    decide +kernel
  rw [hw] at hc
  simp only [Except.toOption, Option.bind_some] at hc
  rcases fit_eq Toy.env w Toy.args ⟨fun _ => 0, tape⟩ with ⟨_, _, h1⟩ | ⟨lines, _, hl, h1⟩
  · exfalso
    rcases h1 with h1 | ⟨e, h1⟩
    · simp [Toy.args] at h1
    · rw [h1] at hc; simp at hc
  · rw [hl] at hc
    simp only [Option.bind_some, Option.map_eq_some_iff] at hc
    obtain ⟨L, he, hsum⟩ := hc
    unfold Toy.stuck at hsum
    simp only [Bool.and_eq_true, decide_eq_true_eq, Toy.isRetry_iff, Option.isNone_iff_eq_none] at hsum
    obtain ⟨⟨⟨⟨⟨⟨hx, hy⟩, hn⟩, hk⟩, ht⟩, hr1⟩, hr2⟩ := hsum
    rw [h1]
    dsimp only
    rw [fitWith_enter Toy.env _ _ _ ⟨fun _ => 0, tape⟩ _ he]
    have htr : L.trials = [.random] := by
      split at ht
      · assumption
      · simp at ht
    have hrun := run_forever Toy.kern L.cfg .random [] L.start (by
      intro d
      unfold RansacCfg.attempt
      rcases Toy.sample_two L.cfg hx hy hn hk d with h | h
      · rw [h]; exact hr1
      · rw [h]; exact hr2) tape
    rw [htr]
    change (L.finish _ _ (L.cfg.run Toy.kern tape [.random] L.start)).2 = _
    rw [hrun]
    rfl

/-- The hypothesis of `C64_passes_partial` met by this fit, and that of `C64_never_returns` by this world. -/
example : ∃ w, Toy.world 2 (1 / 10000) = .ok w ∧ ∃ lines L, w.atlasLines = .ok lines ∧
    (w.given Toy.args).enter Toy.env lines Toy.args (fun _ => 0) = some L := by
  have hok : (Toy.world 2 (1 / 10000)).toOption.isSome = true := by decide +kernel
  cases hw : Toy.world 2 (1 / 10000) with
  | error e => rw [hw] at hok; simp [Except.toOption] at hok
  | ok w =>
    obtain ⟨lines, L, h1, h2, _⟩ := C64_passes_partial Toy.env w Toy.args ⟨fun _ => 0, [⟨[], []⟩, ⟨[], []⟩]⟩
      (C64_never_returns w hw _)
    exact ⟨w, rfl, lines, L, h1, h2⟩

/-- C64 is false. -/
theorem C64_refuted : ¬ C64_Statement := by
  intro h
  have hok : (Toy.world 2 (1 / 10000)).toOption.isSome = true := by decide +kernel
  cases hw : Toy.world 2 (1 / 10000) with
  | error e => rw [hw] at hok; simp [Except.toOption] at hok
  | ok w =>
    exact h w hw Toy.args ⟨fun _ => 0, List.replicate 500 ⟨[], []⟩⟩ (by rw [List.length_replicate]; decide)
      (C64_never_returns w hw _)

/-- The expected behaviour: a density whose first axis is the gradient (the histogram's `xedges`) is
looked up at gradient and intercept. -/
def C68_Statement : Prop :=
  ∀ (k : Kernels ℚ) (c : RansacCfg ℚ) (hw : ℚ) (f : ℚ → ℚ → ℚ) (a b : ℚ) (l : List ℚ),
    c.density = .spline hw f →
    c.weight k (a :: b :: l) = .ok (hw * (c.pixelList.map (fun p =>
      let gradient := k.polyval (derivativeCoeffs (a :: b :: l)) p
      f gradient (k.polyval (a :: b :: l) p - gradient * p))).sum)

/-- C68 is false: the gradient axis is looked up at the intercept. -/
theorem C68_refuted : ¬ C68_Statement := by
  intro h
  have h1 := h Toy.kern Toy.cfg 1 (fun x _ => x) 3100 280 [] rfl
  have h2 : (Toy.cfg.weight Toy.kern [3100, 280]).toOption = some 9300 := by decide +kernel
  have h3 : (1 * (Toy.cfg.pixelList.map (fun p =>
      Toy.kern.polyval (derivativeCoeffs [3100, 280]) p)).sum : ℚ) = 840 := by decide +kernel
  rw [h1] at h2
  dsimp only at h2
  rw [h3] at h2
  simp [Except.toOption] at h2

/-- The expected behaviour: with more candidate peaks than the degree and `max_tries` positive, at least
one trial is made. -/
def C92_Statement : Prop :=
  ∀ w : World ℚ, Toy.world 5 0 = .ok w → ∀ (a : FitArgs ℚ) (u : Nat → ℚ) (lines : List ℚ) (L : LoopStart ℚ),
    0 < a.maxTries → (w.given a).enter Toy.env lines a u = some L → L.trials ≠ []

/-- C92 is false: with the default `sample_size` of 5, five atlas lines and two candidates there is no
combination to try. -/
theorem C92_refuted : ¬ C92_Statement := by
  intro h
  have hc : (Toy.world 5 0).toOption.bind (fun w => w.atlasLines.toOption.bind (fun lines =>
      ((w.given Toy.args).enter Toy.env lines Toy.args (fun _ => 0)).map (fun L => L.trials.length))) =
      some 0 := by
    decide +kernel
  cases hw : Toy.world 5 0 with
  | error e => rw [hw] at hc; simp [Except.toOption] at hc
  | ok w =>
    rw [hw] at hc
    simp only [Except.toOption, Option.bind_some] at hc
    cases hl : w.atlasLines with
    | error e => rw [hl] at hc; simp at hc
    | ok lines =>
      rw [hl] at hc
      simp only [Option.bind_some, Option.map_eq_some_iff] at hc
      obtain ⟨L, he, hlen⟩ := hc
      exact h w hw Toy.args (fun _ => 0) lines L (by simp [Toy.args]) he (List.length_eq_zero_iff.1 hlen)

/-- The expected behaviour: the lines used by a successful fit are those of a transform with the current
settings. -/
def C93_Statement : Prop :=
  ∀ w : World ℚ, Toy.world 2 0 = .ok w → ∀ (cs : List (CalCall ℚ)) (a : FitArgs ℚ) (rnd : FitRandom ℚ)
    (r : FitReport ℚ), let w' := World.calls Toy.calEnv Toy.env w cs
    (w'.fit Toy.env a rnd).2 = .done (.ok r) →
    (w'.fit Toy.env a rnd).1.cal.houghLines =
      (w'.cal.doHough stableArgsort stableArgsort false).1.houghLines

/-- A fit, then other bin numbers. -/
def Toy.rebinned : List (CalCall ℚ) :=
  [.fit Toy.args Toy.rnd, .set (.setHough { numSlopes := some 2, xbins := some 5, ybins := some 5 })]

/-- C93 is false: after other settings the second fit uses the 16 lines of the first transform, not the
25 lines of the settings. -/
theorem C93_refuted : ¬ C93_Statement := by
  intro h
  have hc : (Toy.world 2 0).toOption.map (fun w =>
      let w' := World.calls Toy.calEnv Toy.env w Toy.rebinned
      ((Toy.report (w'.fit Toy.env Toy.args Toy.rnd)).isSome,
        (w'.fit Toy.env Toy.args Toy.rnd).1.cal.houghLines.map List.length,
        (w'.cal.doHough stableArgsort stableArgsort false).1.houghLines.map List.length)) =
      some (true, some 16, some 25) := by
    decide +kernel
  cases hw : Toy.world 2 0 with
  | error e => rw [hw] at hc; simp [Except.toOption] at hc
  | ok w =>
    rw [hw] at hc
    simp only [Except.toOption, Option.map_some, Option.some.injEq, Prod.mk.injEq] at hc
    obtain ⟨h1, h2, h3⟩ := hc
    have hr : ∃ r, ((World.calls Toy.calEnv Toy.env w Toy.rebinned).fit Toy.env Toy.args Toy.rnd).2 =
        .done (.ok r) := by
      generalize World.fit Toy.env (World.calls Toy.calEnv Toy.env w Toy.rebinned) Toy.args Toy.rnd = p at h1
      unfold Toy.report at h1
      split at h1
      · exact ⟨_, by assumption⟩
      · simp at h1
    obtain ⟨r, hr⟩ := hr
    have := h w hw Toy.rebinned Toy.args Toy.rnd r hr
    rw [this, h3] at h2
    simp at h2

/-- The expected behaviour: the atlas utilisation of a successful fit is a number between 0 and 1. -/
def C95_Statement : Prop :=
  ∀ w : World ℚ, Toy.world 2 0 = .ok w → ∀ (cs : List (CalCall ℚ)) (a : FitArgs ℚ) (rnd : FitRandom ℚ)
    (r : FitReport ℚ), ((World.calls Toy.calEnv Toy.env w cs).fit Toy.env a rnd).2 = .done (.ok r) →
    ∃ u, r.atlasUtil = .fin u ∧ 0 ≤ u ∧ u ≤ 1

/-- C95 is false: after `clear_atlas` it is infinite. -/
theorem C95_refuted : ¬ C95_Statement := by
  intro h
  have hc : (Toy.world 2 0).toOption.map (fun w =>
      (Toy.report ((World.calls Toy.calEnv Toy.env w [.set .clearAtlas]).fit Toy.env Toy.args Toy.rnd)).map
        FitReport.atlasUtil) = some (some .posInf) := by
    decide +kernel
  cases hw : Toy.world 2 0 with
  | error e => rw [hw] at hc; simp [Except.toOption] at hc
  | ok w =>
    rw [hw] at hc
    simp only [Except.toOption, Option.map_some, Option.some.injEq, Option.map_eq_some_iff] at hc
    obtain ⟨r, h1, h2⟩ := hc
    have hr : ((World.calls Toy.calEnv Toy.env w [.set .clearAtlas]).fit Toy.env Toy.args Toy.rnd).2 =
        .done (.ok r) := by
      generalize World.fit Toy.env (World.calls Toy.calEnv Toy.env w [.set .clearAtlas]) Toy.args Toy.rnd =
        p at h1
      unfold Toy.report at h1
      split at h1
      · rename_i q hq
        simp only [Option.some.injEq] at h1
        rw [hq, h1]
      · simp at h1
    obtain ⟨u, hu, _⟩ := h w hw _ _ _ r hr
    rw [h2] at hu
    simp at hu

end Rascal
