import Verif.Props.FitLoopProps

/-!
Property theorems C111: `fit(brute_force=True)`, documented as "solve all pixel-wavelength combinations".
-/

set_option linter.unusedSectionVars false

namespace Rascal

theorem mem_pyCombinations {α : Type _} (l s : List α) (n : Nat) :
    s ∈ pyCombinations l n ↔ s.Sublist l ∧ s.length = n := by
  induction l generalizing s n with
  | nil =>
    cases n with
    | zero => simp [pyCombinations]
    | succ n =>
      simp only [pyCombinations, List.not_mem_nil, false_iff, List.sublist_nil]
      rintro ⟨rfl, h⟩
      simp at h
  | cons a l ih =>
    cases n with
    | zero =>
      simp only [pyCombinations, List.mem_singleton, List.length_eq_zero_iff]
      exact ⟨fun h => ⟨h ▸ List.nil_sublist _, h⟩, fun h => h.2⟩
    | succ n =>
      simp only [pyCombinations, List.mem_append, List.mem_map, ih]
      constructor
      · rintro (⟨b, ⟨hb, hn⟩, rfl⟩ | ⟨hs, hn⟩)
        · exact ⟨hb.cons_cons a, by simp [hn]⟩
        · exact ⟨hs.cons a, hn⟩
      · rintro ⟨hs, hn⟩
        cases hs with
        | cons _ h => exact Or.inr ⟨h, hn⟩
        | cons_cons _ h => exact Or.inl ⟨_, ⟨h, by simpa using hn⟩, rfl⟩

/-- Every selection of entries is a selection of positions. -/
theorem exists_positions {α : Type _} (l s : List α) (h : s.Sublist l) :
    ∃ idx : List Nat, idx.Sublist (List.range l.length) ∧ idx.map (fun i => l[i]?) = s.map some := by
  induction h with
  | slnil => exact ⟨[], List.nil_sublist _, rfl⟩
  | @cons s l a _ ih =>
    obtain ⟨idx, h1, h2⟩ := ih
    refine ⟨idx.map Nat.succ, ?_, ?_⟩
    · rw [List.length_cons, List.range_succ_eq_map]
      exact (h1.map _).cons 0
    · rw [List.map_map, ← h2]
      apply List.map_congr_left
      intro i _
      simp
  | @cons_cons s l a _ ih =>
    obtain ⟨idx, h1, h2⟩ := ih
    refine ⟨0 :: idx.map Nat.succ, ?_, ?_⟩
    · rw [List.length_cons, List.range_succ_eq_map]
      exact (h1.map _).cons_cons 0
    · rw [List.map_cons, List.map_map, List.map_cons, ← h2]
      simp only [List.getElem?_cons_zero, List.cons.injEq, true_and]
      apply List.map_congr_left
      intro i _
      simp

theorem takeIdx_of_positions {α β : Type _} (l : List α) (m : List β) (idx : List Nat) (s : List (α × β))
    (h : idx.map (fun i => (l.zip m)[i]?) = s.map some) :
    takeIdx l idx = s.map Prod.fst ∧ takeIdx m idx = s.map Prod.snd := by
  induction idx generalizing s with
  | nil =>
    have : s = [] := by simpa using h.symm
    subst this
    exact ⟨rfl, rfl⟩
  | cons i idx ih =>
    cases s with
    | nil => simp at h
    | cons e s =>
      simp only [List.map_cons, List.cons.injEq] at h
      obtain ⟨h1, h2⟩ := ih s h.2
      have h3 := h.1
      rw [List.getElem?_zip_eq_some] at h3
      unfold takeIdx at h1 h2 ⊢
      rw [List.filterMap_cons_some h3.1, List.filterMap_cons_some h3.2, h1, h2]
      exact ⟨rfl, rfl⟩

section
variable {K : Type _} [Field K] [LinearOrder K] [IsStrictOrderedRing K] [FloorRing K]

/-- The data for the candidate pairs `s`: the pairs and then the known pairs. -/
def combinationData (known : Option (List (PyFloat K) × List (PyFloat K))) (s : List (K × K)) :
    List (PyFloat K) × List (PyFloat K) :=
  (s.map (fun e => .fin e.1) ++ (known.getD ([], [])).1, s.map (fun e => .fin e.2) ++ (known.getD ([], [])).2)

theorem sample_combination (c : RansacCfg K) (hd : c.oneDim = true) (d : Draw) (idx : List Nat)
    (s : List (K × K)) (h : idx.map (fun i => (c.x.zip c.y)[i]?) = s.map some) :
    c.sample d (.brute idx) = .ok (some (combinationData c.known s)) := by
  obtain ⟨h1, h2⟩ := takeIdx_of_positions _ _ _ _ h
  unfold RansacCfg.sample
  dsimp only
  rw [if_pos hd, h1, h2]
  unfold addKnown combinationData
  cases c.known with
  | none => simp [Function.comp_def]
  | some pv => simp [Function.comp_def]

/-- A run over combinations does not look at the tape, only at its length. -/
theorem run_brute (k : Kernels K) (c : RansacCfg K) (trials : List Trial)
    (hb : ∀ t ∈ trials, ∃ idx, t = .brute idx) (tape tape' : List Draw) (hl : tape.length = tape'.length)
    (s : Best K) : c.run k tape trials s = c.run k tape' trials s := by
  induction tape generalizing tape' trials s with
  | nil =>
    have : tape' = [] := List.length_eq_zero_iff.1 hl.symm
    rw [this]
  | cons d ds ih =>
    cases tape' with
    | nil => simp at hl
    | cons d' ds' =>
      cases trials with
      | nil => rfl
      | cons t ts =>
        have hatt : c.attempt k d t s = c.attempt k d' t s := by
          obtain ⟨idx, rfl⟩ := hb t List.mem_cons_self
          rfl
        have hl' : ds.length = ds'.length := by simpa using hl
        simp only [RansacCfg.run]
        rw [hatt]
        cases c.attempt k d' t s with
        | retry => exact ih _ hb _ hl' _
        | next s' => exact ih _ (fun t ht => hb t (List.mem_cons_of_mem _ ht)) _ hl' _
        | raised e s' => rfl

/-- A run over combinations that finishes has rejected none of them. -/
theorem run_brute_finished (k : Kernels K) (c : RansacCfg K) (trials : List Trial)
    (hb : ∀ t ∈ trials, ∃ idx, t = .brute idx) (tape : List Draw) (s f : Best K)
    (h : c.run k tape trials s = .finished f) :
    ∀ t ∈ trials, ∃ d s' s'', c.attempt k d t s' = .next s'' := by
  induction tape generalizing trials s with
  | nil =>
    cases trials with
    | nil => simp
    | cons t ts => simp [RansacCfg.run] at h
  | cons d ds ih =>
    cases trials with
    | nil => simp
    | cons t ts =>
      simp only [RansacCfg.run] at h
      cases ha : c.attempt k d t s with
      | retry =>
        rw [ha] at h
        exact ih _ hb _ h
      | next s1 =>
        rw [ha] at h
        intro t' ht'
        rcases List.mem_cons.1 ht' with rfl | ht'
        · exact ⟨d, s, s1, ha⟩
        · exact ih _ (fun t ht => hb t (List.mem_cons_of_mem _ ht)) _ h t' ht'
      | raised e s1 => rw [ha] at h; simp at h

theorem evaluate_tests (k : Kernels K) (c : RansacCfg K) (data : List (PyFloat K) × List (PyFloat K))
    (s s' : Best K) (h : c.evaluate k data s = .next s') :
    ∃ co, k.polyfit data.1 data.2 c.fitDeg = .ok co ∧ c.interceptOk co = true ∧ c.monotoneOk k co = true := by
  unfold RansacCfg.evaluate at h
  cases hp : k.polyfit data.1 data.2 c.fitDeg with
  | error e => rw [hp] at h; simp at h
  | ok co =>
    rw [hp] at h
    dsimp only at h
    cases hi : c.interceptOk co with
    | false => rw [hi] at h; simp at h
    | true =>
      cases hm : c.monotoneOk k co with
      | false => rw [hi, hm] at h; simp at h
      | true => exact ⟨co, rfl, hi, hm⟩

theorem enter_oneDim (F : FitEnv K) (c : Cal K) (lines : List K) (a : FitArgs K) (u : Nat → K)
    (L : LoopStart K) (h : c.enter F lines a u = some L) : L.cfg.oneDim = F.oneDim := by
  unfold Cal.enter at h
  dsimp only at h
  split at h
  · simp at h
  split at h
  · simp at h
  split at h
  · simp at h
  split at h
  · simp at h
  split at h
  · simp at h
  simp only [Option.some.injEq] at h
  subst h
  rfl

theorem brute_trials (F : FitEnv K) (w : World K) (a : FitArgs K) (u : Nat → K) (lines : List K)
    (L : LoopStart K) (h : (w.given a).enter F lines a u = some L) (hb : a.brute = true) :
    L.trials = (pyCombinations (List.range L.cfg.x.length)
      (adjustSampleSize w.cal.ransac.sampleSize lines.length a.fitDeg).toNat).map .brute := by
  have := (enter_spec F _ _ _ _ _ h).trials
  rw [Prod.ext_iff] at this
  have h1 := this.1
  dsimp only at h1
  rw [h1]
  unfold makeTrials
  rw [if_pos hb]
  rfl

/-- C111, what holds of the results: with `brute_force` nothing depends on the random draws of the loop;
two calls that make the same number of passes agree. -/
theorem C111_deterministic_partial (F : FitEnv K) (w : World K) (a : FitArgs K) (u : Nat → K)
    (tape tape' : List Draw) (hl : tape.length = tape'.length) (hb : a.brute = true) :
    w.fit F a ⟨u, tape⟩ = w.fit F a ⟨u, tape'⟩ := by
  unfold World.fit
  dsimp only
  split
  · rfl
  cases hlines : w.atlasLines with
  | error e => rfl
  | ok lines =>
    dsimp only
    have key : Cal.fitWith F (w.given a) lines a ⟨u, tape⟩ = Cal.fitWith F (w.given a) lines a ⟨u, tape'⟩ := by
      cases he : (w.given a).enter F lines a u with
      | some L =>
        rw [fitWith_enter F _ _ _ ⟨u, tape⟩ _ he, fitWith_enter F _ _ _ ⟨u, tape'⟩ _ he]
        have hbr : ∀ t ∈ L.trials, ∃ idx, t = .brute idx := by
          rw [brute_trials F w a u lines L he hb]
          intro t ht
          obtain ⟨idx, _, rfl⟩ := List.mem_map.1 ht
          exact ⟨idx, rfl⟩
        dsimp only
        rw [run_brute (F.kern a.fitType) L.cfg L.trials hbr tape tape' hl L.start]
      | none =>
        unfold Cal.enter at he
        unfold Cal.fitWith
        dsimp only at he ⊢
        split at he
        · rename_i hok; rw [hok]
        rename_i hok
        rw [hok]
        dsimp only
        unfold Cal.fitSearch Cal.solve
        dsimp only at he ⊢
        split at he
        · rename_i hc; rw [hc]
        rename_i cands hc
        rw [hc]
        dsimp only at he ⊢
        split at he
        · rename_i hdeg; simp only [if_pos hdeg]
        rename_i hdeg
        simp only [if_neg hdeg]
        unfold Cal.solveLists
        dsimp only
        split at he
        · rename_i hd; simp only [hd]
        rename_i d hd
        rw [hd]
        dsimp only at he ⊢
        split at he
        · rename_i hsc; simp only [hsc]
        · simp at he
    change ({ w with cal := (Cal.fitWith F (w.given a) lines a ⟨u, tape⟩).1 },
        (Cal.fitWith F (w.given a) lines a ⟨u, tape⟩).2) = ({ w with
          cal := (Cal.fitWith F (w.given a) lines a ⟨u, tape'⟩).1 },
        (Cal.fitWith F (w.given a) lines a ⟨u, tape'⟩).2)
    rw [key]

/-- C111, where the samples are one-dimensional (numpy before 1.23): if `fit(brute_force=True)` returns,
*every* choice of `sample_size` candidate pairs, together with the known pairs, gave a polynomial that
starts between the intercept bounds and increases over the peak range widened by a fifth.  What is missing: if a
single choice does not, the call does not return. -/
theorem C111_every_combination_partial (F : FitEnv K) (ha : IsArgsort F.argsortK) (w : World K)
    (a : FitArgs K) (rnd : FitRandom K) (r : FitReport K) (hd : F.oneDim = true) (hb : a.brute = true)
    (h : (w.fit F a rnd).2 = .done (.ok r)) :
    ∃ lines L, w.atlasLines = .ok lines ∧ (w.given a).enter F lines a rnd.uniform = some L ∧
      ∀ s : List (K × K), s.Sublist (L.cfg.x.zip L.cfg.y) →
        s.length = (adjustSampleSize w.cal.ransac.sampleSize lines.length a.fitDeg).toNat →
        ∃ co, (F.kern a.fitType).polyfit (combinationData w.cal.known s).1 (combinationData w.cal.known s).2
            a.degree = .ok co ∧
          w.cal.hough.minIntercept ≤ co.getD 0 0 ∧ co.getD 0 0 ≤ w.cal.hough.maxIntercept ∧
          ∀ p0 ∈ L.cfg.x, ∀ p1 ∈ L.cfg.x, (∀ p ∈ L.cfg.x, p0 ≤ p ∧ p ≤ p1) → ∀ i : Nat,
            p0 - (p1 - p0) / 5 + (i : K) + 1 < p1 + (p1 - p0) / 5 →
            (F.kern a.fitType).polyval co (p0 - (p1 - p0) / 5 + (i : K)) <
              (F.kern a.fitType).polyval co (p0 - (p1 - p0) / 5 + (i : K) + 1) := by
  obtain ⟨lines, L, f, co, data, prev, hs⟩ := fit_success F ha w a rnd r h
  have he := enter_spec F _ _ _ _ _ hs.enter
  refine ⟨lines, L, hs.atlas, hs.enter, ?_⟩
  intro s hsub hlen
  have htr := brute_trials F w a _ lines L hs.enter hb
  obtain ⟨idx, hi1, hi2⟩ := exists_positions _ _ hsub
  have hxy := he.aligned ha
  have hil : idx.length = s.length := by simpa using congrArg List.length hi2
  have hmem : Trial.brute idx ∈ L.trials := by
    rw [htr]
    apply List.mem_map_of_mem
    rw [mem_pyCombinations]
    refine ⟨?_, hil.trans hlen⟩
    rw [List.length_zip, ← hxy, min_self] at hi1
    exact hi1
  obtain ⟨d, s', s'', hatt⟩ := run_brute_finished _ _ _ (by
    rw [htr]
    intro t ht
    obtain ⟨idx, _, rfl⟩ := List.mem_map.1 ht
    exact ⟨idx, rfl⟩) _ _ _ hs.run _ hmem
  have hone : L.cfg.oneDim = true := by rw [enter_oneDim F _ _ _ _ _ hs.enter]; exact hd
  unfold RansacCfg.attempt at hatt
  rw [sample_combination L.cfg hone d idx s hi2] at hatt
  obtain ⟨co', hp, hint, hmon⟩ := evaluate_tests _ _ _ _ _ hatt
  rw [he.known, he.fitDeg] at hp
  unfold RansacCfg.interceptOk at hint
  rw [he.minIntercept, he.maxIntercept] at hint
  simp only [Bool.not_eq_true', Bool.or_eq_false_iff, decide_eq_false_iff_not, not_lt, gt_iff_lt] at hint
  exact ⟨co', hp, hint.1, hint.2, fun p0 h0 p1 h1 hbd i hi => monotoneOk_spec _ _ co' hmon p0 p1 h0 h1 hbd i hi⟩

/-- C111 with current numpy, where the samples are two-dimensional: `fit(brute_force=True)` raises at the
first combination, ValueError with known pairs and TypeError without, and finds nothing. -/
theorem C111_current_numpy_partial (F : FitEnv K) (w : World K) (a : FitArgs K) (rnd : FitRandom K)
    (lines : List K) (L : LoopStart K) (hd : F.oneDim = false) (hb : a.brute = true)
    (hft : a.fitType ≠ .other) (hl : w.atlasLines = .ok lines)
    (he : (w.given a).enter F lines a rnd.uniform = some L) (hp : rnd.tape ≠ [])
    (hn : (adjustSampleSize w.cal.ransac.sampleSize lines.length a.fitDeg).toNat ≤ L.cfg.x.length) :
    (w.fit F a rnd).2 = .done (.error (if w.cal.known.isSome then .valueError else .typeError)) ∧
      (w.fit F a rnd).1.cal.matchedPeaks = w.cal.matchedPeaks ∧
      (w.fit F a rnd).1.cal.matchedAtlas = w.cal.matchedAtlas := by
  have hs := enter_spec F _ _ _ _ _ he
  have htr := brute_trials F w a _ lines L he hb
  have hne : L.trials ≠ [] := by
    intro h
    rw [htr, List.map_eq_nil_iff, ← List.length_eq_zero_iff, pyCombinations_length, List.length_range,
      Nat.choose_eq_zero_iff] at h
    omega
  cases ht : L.trials with
  | nil => exact absurd ht hne
  | cons t ts =>
    cases htp : rnd.tape with
    | nil => exact absurd htp hp
    | cons d ds =>
      have htb : ∃ idx, t = .brute idx := by
        have : t ∈ L.trials := by rw [ht]; exact List.mem_cons_self
        rw [htr] at this
        obtain ⟨idx, _, rfl⟩ := List.mem_map.1 this
        exact ⟨idx, rfl⟩
      obtain ⟨idx, rfl⟩ := htb
      have hone : L.cfg.oneDim = false := by rw [enter_oneDim F _ _ _ _ _ he]; exact hd
      have hrun : L.cfg.run (F.kern a.fitType) rnd.tape L.trials L.start =
          .raised (if w.cal.known.isSome then .valueError else .typeError) L.start := by
        rw [ht, htp]
        simp only [RansacCfg.run, RansacCfg.attempt, RansacCfg.sample]
        rw [hone, hs.known]
        rfl
      have hfit : w.fit F a rnd = ({ w with cal := (Cal.fitWith F (w.given a) lines a rnd).1 },
          (Cal.fitWith F (w.given a) lines a rnd).2) := by
        unfold World.fit
        dsimp only
        rw [if_neg hft, hl]
        rfl
      obtain ⟨cost, err, hst, _⟩ := hs.start
      rw [hfit, fitWith_enter F _ _ _ _ _ he, hrun]
      refine ⟨rfl, ?_, ?_⟩
      · simp only [LoopStart.finish, Cal.setMatched, hst]; rfl
      · simp only [LoopStart.finish, Cal.setMatched, hst]; rfl

end

/-! ### Refutations and concrete cases -/

/-- The toy environment with one- or two-dimensional samples. -/
def Toy.numpy (oneDim : Bool) : FitEnv ℚ := { Toy.env with oneDim := oneDim }

/-- `fit(brute_force=True)` on the toy calibrator. -/
def Toy.bruteArgs : FitArgs ℚ := { Toy.args with brute := true }

/-- The documented behaviour, for two candidate pairs on an admissible line: whatever numpy, the single
combination is solved. -/
def C111_Statement : Prop :=
  ∀ w : World ℚ, Toy.world 2 0 = .ok w → ∀ (oneDim : Bool) (rnd : FitRandom ℚ), rnd.tape ≠ [] →
    ∃ r, (w.fit (Toy.numpy oneDim) Toy.bruteArgs rnd).2 = .done (.ok r)

/-- C111 is false: with current numpy the call raises TypeError. -/
theorem C111_refuted : ¬ C111_Statement := by
  intro h
  have hc : (Toy.world 2 0).toOption.bind (fun w =>
      Toy.exception (w.fit (Toy.numpy false) Toy.bruteArgs Toy.rnd)) = some .typeError := by
    decide +kernel
  cases hw : Toy.world 2 0 with
  | error e => rw [hw] at hc; simp [Except.toOption] at hc
  | ok w =>
    rw [hw] at hc
    simp only [Except.toOption, Option.bind_some] at hc
    obtain ⟨r, hr⟩ := h w hw false Toy.rnd (by simp [Toy.rnd])
    unfold Toy.exception at hc
    rw [hr] at hc
    simp at hc

/-- The expected behaviour: after some number of passes the call has returned or raised. -/
def C111_TerminationStatement : Prop :=
  ∀ w : World ℚ, Toy.world 2 (1 / 10000) = .ok w → ∃ n, ∀ rnd : FitRandom ℚ, n ≤ rnd.tape.length →
    (w.fit (Toy.numpy true) Toy.bruteArgs rnd).2 ≠ .running

/-- The first combination is rejected. -/
def Toy.firstRejected (L : LoopStart ℚ) : Bool :=
  (L.trials.head?.map (fun t => match t with
    | .brute idx => Toy.isRetry (L.cfg.attempt Toy.kern ⟨[], []⟩ (.brute idx) L.start)
    | .random => false)).getD false

/-- With older numpy and a combination that is rejected, here because it fits exactly, the same combination
is tried again for ever. -/
theorem C111_never_returns_refuted : ¬ C111_TerminationStatement := by
  intro h
  have hc : (Toy.world 2 (1 / 10000)).toOption.bind (fun w => w.atlasLines.toOption.bind (fun lines =>
      ((w.given Toy.bruteArgs).enter (Toy.numpy true) lines Toy.bruteArgs (fun _ => 0)).map
        Toy.firstRejected)) = some true := by
    decide +kernel
  cases hw : Toy.world 2 (1 / 10000) with
  | error e => rw [hw] at hc; simp [Except.toOption] at hc
  | ok w =>
    rw [hw] at hc
    simp only [Except.toOption, Option.bind_some] at hc
    obtain ⟨n, hn⟩ := h w hw
    refine hn ⟨fun _ => 0, List.replicate n ⟨[], []⟩⟩ (by simp) ?_
    rcases fit_eq (Toy.numpy true) w Toy.bruteArgs ⟨fun _ => 0, List.replicate n ⟨[], []⟩⟩ with
      ⟨_, _, h1⟩ | ⟨lines, _, hl, h1⟩
    · exfalso
      rcases h1 with h1 | ⟨e, h1⟩
      · simp [Toy.bruteArgs, Toy.args] at h1
      · rw [h1] at hc; simp at hc
    · rw [hl] at hc
      simp only [Option.bind_some, Option.map_eq_some_iff] at hc
      obtain ⟨L, he, hrej⟩ := hc
      rw [h1]
      dsimp only
      rw [fitWith_enter (Toy.numpy true) _ _ _ ⟨fun _ => 0, List.replicate n ⟨[], []⟩⟩ _ he]
      unfold Toy.firstRejected at hrej
      cases ht : L.trials with
      | nil => rw [ht] at hrej; simp at hrej
      | cons t ts =>
        rw [ht] at hrej
        cases t with
        | random => simp at hrej
        | brute idx =>
          simp only [List.head?_cons, Option.map_some, Option.getD_some, Toy.isRetry_iff] at hrej
          have hrun := run_forever Toy.kern L.cfg (.brute idx) ts L.start (fun _ => hrej)
            (List.replicate n ⟨[], []⟩)
          change (L.finish _ _ (L.cfg.run Toy.kern _ (.brute idx :: ts) L.start)).2 = _
          rw [hrun]
          rfl

/-- A case meeting the hypotheses of `C111_every_combination_partial`: older numpy, the exact solution
allowed. -/
example : IsArgsort (Toy.numpy true).argsortK ∧ (Toy.world 2 0).toOption.bind (fun w =>
    Toy.report (w.fit (Toy.numpy true) Toy.bruteArgs Toy.rnd)) =
    some ⟨[3100, 280], [10, 20], [5900, 8700], 0, some [0, 0], 1, .fin (2 / 5)⟩ :=
  ⟨stableArgsort_isArgsort, by decide +kernel⟩

/-- A case meeting the hypotheses of `C111_current_numpy_partial`. -/
example : (Toy.world 2 0).toOption.bind (fun w => w.atlasLines.toOption.bind (fun lines =>
    ((w.given Toy.bruteArgs).enter (Toy.numpy false) lines Toy.bruteArgs (fun _ => 0)).map (fun L =>
      decide ((adjustSampleSize w.cal.ransac.sampleSize lines.length 1).toNat ≤ L.cfg.x.length)))) =
    some true := by
  decide +kernel

/-- `C111_deterministic_partial`: two different tapes of one pass, the same report. -/
example : (Toy.world 2 0).toOption.map (fun w =>
    (Toy.report (w.fit (Toy.numpy true) Toy.bruteArgs ⟨fun _ => 0, [⟨[1, 0], [0]⟩]⟩)).isSome &&
    decide (Toy.report (w.fit (Toy.numpy true) Toy.bruteArgs ⟨fun _ => 0, [⟨[1, 0], [0]⟩]⟩) =
      Toy.report (w.fit (Toy.numpy true) Toy.bruteArgs ⟨fun _ => 0, [⟨[], []⟩]⟩))) = some true := by
  decide +kernel

end Rascal
