import Verif.Props.ReachProps

/-! Property theorems C210: the order in which the samples of a fit are drawn. -/

set_option linter.unusedSectionVars false

namespace Rascal

section
variable {K : Type _} [Field K] [LinearOrder K] [IsStrictOrderedRing K] [FloorRing K]

/-- The sample drawn with `d` gives the solution `b` if nothing has been found before. -/
def Spec.Gives (F : FitEnv K) (w : World K) (a : FitArgs K) (u : Nat → K) (d : Draw) (b : Best K) : Prop :=
  ∃ lines L, w.atlasLines = .ok lines ∧ (w.given a).enter F lines a u = some L ∧
    Acceptable (F.kern a.fitType) L.cfg d .random b

/-- The sample drawn with `d` fails before its cost is known, whatever has been found before: it is drawn again. -/
def Spec.DrawnAgain (F : FitEnv K) (w : World K) (a : FitArgs K) (u : Nat → K) (d : Draw) : Prop :=
  ∃ lines L, w.atlasLines = .ok lines ∧ (w.given a).enter F lines a u = some L ∧
    ∀ s, L.cfg.attempt (F.kern a.fitType) d .random s = .retry

/-- The sample drawn with `d` is given up, whatever has been found before, and uses up a try. -/
def Spec.GivenUp (F : FitEnv K) (w : World K) (a : FitArgs K) (u : Nat → K) (d : Draw) : Prop :=
  ∃ lines L, w.atlasLines = .ok lines ∧ (w.given a).enter F lines a u = some L ∧
    ∀ s, L.cfg.attempt (F.kern a.fitType) d .random s = .next s

/-- Samples of equal cost give the same solution. -/
def Spec.NoTies (F : FitEnv K) (w : World K) (a : FitArgs K) (u : Nat → K) (tape : List Draw) : Prop :=
  ∀ d ∈ tape, ∀ d' ∈ tape, ∀ b b', Spec.Gives F w a u d b → Spec.Gives F w a u d' b' → b.cost = b'.cost → b = b'

theorem PyFloat.le_antisymm' (a b : PyFloat K) (h1 : a.le b = true) (h2 : b.le a = true) : a = b := by
  cases a <;> cases b <;> simp_all [PyFloat.le]
  exact le_antisymm h1 h2

/-- What an acceptable solution of a pass means for the pass, whatever has been found before. -/
theorem acceptable_attempt (k : Kernels K) (c : RansacCfg K) (d : Draw) (t : Trial) (b s : Best K)
    (h : Acceptable k c d t b) :
    (c.attempt k d t s = if b.cost.le s.cost then .next b else .next s) ∧ b.cost ≠ .nan := by
  obtain ⟨hb, hbc⟩ := h
  unfold RansacCfg.attempt at hb ⊢
  cases hsm : c.sample d t with
  | error e => rw [hsm] at hb; simp at hb
  | ok o =>
    rw [hsm] at hb
    cases o with
    | none =>
      simp only [Attempt.next.injEq] at hb
      rw [← hb] at hbc
      exact absurd rfl hbc
    | some data =>
      refine ⟨evaluate_acceptable k c data b hbc hb s, ?_⟩
      rcases evaluate_next k c data _ _ hb with h | h
      · rw [h] at hbc; exact absurd rfl hbc
      · exact (PyFloat.not_nan_of_le _ _ h.2.2).1

theorem acceptable_unique (k : Kernels K) (c : RansacCfg K) (d : Draw) (t : Trial) (b b' : Best K)
    (h : Acceptable k c d t b) (h' : Acceptable k c d t b') : b = b' := by
  have := h.1.symm.trans h'.1
  exact Attempt.next.inj this

open Classical in
/-- A run in which what becomes of a sample does not depend on what was found before, ends with the cheapest acceptable
one. -/
theorem run_steady (k : Kernels K) (c : RansacCfg K) (tape : List Draw) (ts : List Trial) (s : Best K)
    (hts : ∀ t ∈ ts, t = .random)
    (hlen : ts.length = (tape.filter (fun d => decide (¬ ∀ s, c.attempt k d .random s = .retry))).length)
    (hs : s.cost ≠ .nan)
    (hall : ∀ d ∈ tape, (∃ b, Acceptable k c d .random b) ∨ (∀ s, c.attempt k d .random s = .next s) ∨
      ∀ s, c.attempt k d .random s = .retry) :
    ∃ fin, c.run k tape ts s = .finished fin ∧
      ((fin = s ∧ ∀ d ∈ tape, ∀ b, Acceptable k c d .random b → ¬ b.cost.le s.cost = true) ∨
        ∃ d ∈ tape, Acceptable k c d .random fin ∧ fin.cost.le s.cost = true) ∧
      ∀ d ∈ tape, ∀ b, Acceptable k c d .random b → fin.cost.le b.cost = true := by
  induction tape generalizing ts s with
  | nil =>
    cases ts with
    | nil => exact ⟨s, rfl, .inl ⟨rfl, by simp⟩, by simp⟩
    | cons t ts => cases hlen
  | cons d ds ih =>
    have hall' : ∀ d ∈ ds, (∃ b, Acceptable k c d .random b) ∨ (∀ s, c.attempt k d .random s = .next s) ∨
      ∀ s, c.attempt k d .random s = .retry := fun d hd => hall d (List.mem_cons_of_mem _ hd)
    -- a sample that is not acceptable adds nothing
    have skip : (∀ b, ¬ Acceptable k c d .random b) → ∀ ts' (s : Best K),
        (∃ fin, c.run k ds ts' s = .finished fin ∧
          ((fin = s ∧ ∀ d ∈ ds, ∀ b, Acceptable k c d .random b → ¬ b.cost.le s.cost = true) ∨
            ∃ d ∈ ds, Acceptable k c d .random fin ∧ fin.cost.le s.cost = true) ∧
          ∀ d ∈ ds, ∀ b, Acceptable k c d .random b → fin.cost.le b.cost = true) →
        ∃ fin, c.run k ds ts' s = .finished fin ∧
          ((fin = s ∧ ∀ d' ∈ d :: ds, ∀ b, Acceptable k c d' .random b → ¬ b.cost.le s.cost = true) ∨
            ∃ d' ∈ d :: ds, Acceptable k c d' .random fin ∧ fin.cost.le s.cost = true) ∧
          ∀ d' ∈ d :: ds, ∀ b, Acceptable k c d' .random b → fin.cost.le b.cost = true := by
      rintro hno ts' s ⟨fin, g1, g2, g3⟩
      refine ⟨fin, g1, ?_, fun d' hd' b hb => ?_⟩
      · rcases g2 with ⟨e1, e2⟩ | ⟨d', hd', e1, e2⟩
        · refine .inl ⟨e1, fun d' hd' b hb => ?_⟩
          rcases List.mem_cons.1 hd' with rfl | hd'
          · exact absurd hb (hno b)
          · exact e2 d' hd' b hb
        · exact .inr ⟨d', List.mem_cons_of_mem _ hd', e1, e2⟩
      · rcases List.mem_cons.1 hd' with rfl | hd'
        · exact absurd hb (hno b)
        · exact g3 d' hd' b hb
    rcases hall d List.mem_cons_self with ⟨b, hb⟩ | hnx | hre
    · obtain ⟨hat, hnn⟩ := acceptable_attempt k c d .random b s hb
      have hk : ¬ ∀ s, c.attempt k d .random s = .retry := by
        intro h
        have := hb.1.symm.trans (h noSolution)
        cases this
      rw [List.filter_cons_of_pos (by simpa using hk)] at hlen
      cases ts with
      | nil => cases hlen
      | cons t ts =>
        have ht : t = .random := hts t List.mem_cons_self
        subst ht
        have hl : ts.length = (ds.filter (fun d => decide (¬ ∀ s, c.attempt k d .random s = .retry))).length :=
          Nat.succ.inj hlen
        have hts' : ∀ t ∈ ts, t = .random := fun t ht => hts t (List.mem_cons_of_mem _ ht)
        rw [RansacCfg.run, hat]
        by_cases hle : b.cost.le s.cost = true
        · rw [if_pos hle]
          obtain ⟨fin, g1, g2, g3⟩ := ih ts b hts' hl hnn hall'
          refine ⟨fin, g1, .inr ?_, fun d' hd' b' hb' => ?_⟩
          · rcases g2 with ⟨rfl, _⟩ | ⟨d', hd', e1, e2⟩
            · exact ⟨d, List.mem_cons_self, hb, hle⟩
            · exact ⟨d', List.mem_cons_of_mem _ hd', e1, PyFloat.le_trans _ _ _ e2 hle⟩
          · rcases List.mem_cons.1 hd' with rfl | hd'
            · rw [← acceptable_unique k c _ _ _ _ hb hb']
              rcases g2 with ⟨rfl, _⟩ | ⟨_, _, _, e2⟩
              · exact PyFloat.le_refl _ hnn
              · exact e2
            · exact g3 d' hd' b' hb'
        · rw [if_neg hle]
          obtain ⟨fin, g1, g2, g3⟩ := ih ts s hts' hl hs hall'
          refine ⟨fin, g1, ?_, fun d' hd' b' hb' => ?_⟩
          · rcases g2 with ⟨e1, e2⟩ | ⟨d', hd', e1, e2⟩
            · refine .inl ⟨e1, fun d' hd' b' hb' => ?_⟩
              rcases List.mem_cons.1 hd' with rfl | hd'
              · rw [← acceptable_unique k c _ _ _ _ hb hb']
                exact hle
              · exact e2 d' hd' b' hb'
            · exact .inr ⟨d', List.mem_cons_of_mem _ hd', e1, e2⟩
          · rcases List.mem_cons.1 hd' with rfl | hd'
            · rw [← acceptable_unique k c _ _ _ _ hb hb']
              have hsb : s.cost.le b.cost = true := by
                rcases PyFloat.le_total _ _ hnn hs with h | h
                · exact absurd h hle
                · exact h
              rcases g2 with ⟨rfl, _⟩ | ⟨_, _, _, e2⟩
              · exact hsb
              · exact PyFloat.le_trans _ _ _ e2 hsb
            · exact g3 d' hd' b' hb'
    · have hk : ¬ ∀ s, c.attempt k d .random s = .retry := by
        intro h
        have := (hnx s).symm.trans (h s)
        cases this
      rw [List.filter_cons_of_pos (by simpa using hk)] at hlen
      cases ts with
      | nil => cases hlen
      | cons t ts =>
        have ht : t = .random := hts t List.mem_cons_self
        subst ht
        rw [RansacCfg.run, hnx s]
        refine skip (fun b hb => ?_) ts s (ih ts s (fun t ht => hts t (List.mem_cons_of_mem _ ht)) (Nat.succ.inj hlen) hs
          hall')
        have := Attempt.next.inj (hb.1.symm.trans (hnx noSolution))
        exact hb.2 (by rw [this]; rfl)
    · rw [List.filter_cons_of_neg (by simpa using hre)] at hlen
      have hrun : c.run k (d :: ds) ts s = c.run k ds ts s := by
        cases ts with
        | nil => cases ds <;> rfl
        | cons t ts =>
          have ht : t = .random := hts t List.mem_cons_self
          subst ht
          rw [RansacCfg.run, hre s]
      rw [hrun]
      refine skip (fun b hb => ?_) ts s (ih ts s hts hlen hs hall')
      have := hb.1.symm.trans (hre noSolution)
      cases this

open Classical in
/-- C210, what holds: if each of the samples is acceptable by itself, is given up, or fails before its cost is known, if
there is one for each try that is not drawn again, and no two acceptable ones cost the same, their order does not matter:
the call returns the same and leaves the same calibrator.  What is missing: samples that are rejected after their cost has
been compared. -/
theorem C210_order_partial (F : FitEnv K) (w : World K) (a : FitArgs K) (u : Nat → K) (tape tape' : List Draw)
    (hb : a.brute = false) (hp : tape.Perm tape')
    (hall : ∀ d ∈ tape, (∃ b, Spec.Gives F w a u d b) ∨ Spec.GivenUp F w a u d ∨ Spec.DrawnAgain F w a u d)
    (hlen : ∀ lines L, w.atlasLines = .ok lines → (w.given a).enter F lines a u = some L →
      L.trials.length = (tape.filter (fun d => decide (¬ Spec.DrawnAgain F w a u d))).length)
    (hties : Spec.NoTies F w a u tape) : w.fit F a ⟨u, tape⟩ = w.fit F a ⟨u, tape'⟩ := by
  cases tape with
  | nil => rw [List.nil_perm.1 hp]
  | cons d0 ds0 =>
    have hL0 : ∃ lines L, w.atlasLines = .ok lines ∧ (w.given a).enter F lines a u = some L := by
      rcases hall d0 List.mem_cons_self with ⟨_, lines, L, hl, he, _⟩ | ⟨lines, L, hl, he, _⟩ | ⟨lines, L, hl, he, _⟩ <;>
        exact ⟨lines, L, hl, he⟩
    obtain ⟨lines, L, hl, he⟩ := hL0
    generalize htp : d0 :: ds0 = tape at *
    by_cases hft : a.fitType = .other
    · unfold World.fit
      dsimp only
      rw [if_pos hft, if_pos hft]
    have hs := enter_spec F _ _ _ _ _ he
    obtain ⟨hrandom, _⟩ := trials_random F _ _ _ _ hs hb
    have huniq : ∀ {lines' L'}, w.atlasLines = .ok lines' → (w.given a).enter F lines' a u = some L' → L' = L := by
      intro lines' L' hl' he'
      rw [hl] at hl'
      cases Except.ok.inj hl'
      rw [he] at he'
      exact (Option.some.inj he').symm
    have hL : ∀ d b, Spec.Gives F w a u d b ↔ Acceptable (F.kern a.fitType) L.cfg d .random b := by
      intro d b
      constructor
      · rintro ⟨lines', L', hl', he', h⟩
        cases huniq hl' he'
        exact h
      · exact fun h => ⟨lines, L, hl, he, h⟩
    have hR : ∀ d, Spec.DrawnAgain F w a u d ↔ ∀ s, L.cfg.attempt (F.kern a.fitType) d .random s = .retry := by
      intro d
      constructor
      · rintro ⟨lines', L', hl', he', h⟩
        cases huniq hl' he'
        exact h
      · exact fun h => ⟨lines, L, hl, he, h⟩
    have hall1 : ∀ d ∈ tape, (∃ b, Acceptable (F.kern a.fitType) L.cfg d .random b) ∨
        (∀ s, L.cfg.attempt (F.kern a.fitType) d .random s = .next s) ∨
        ∀ s, L.cfg.attempt (F.kern a.fitType) d .random s = .retry := fun d hd => by
      rcases hall d hd with ⟨b, h⟩ | ⟨lines', L', hl', he', h⟩ | h
      · exact .inl ⟨b, (hL d b).1 h⟩
      · cases huniq hl' he'
        exact .inr (.inl h)
      · exact .inr (.inr ((hR d).1 h))
    have hnn := start_not_nan F _ _ _ _ hs
    have hln := hlen lines L hl he
    simp only [hR] at hln
    obtain ⟨f, g1, g2, g3⟩ := run_steady (F.kern a.fitType) L.cfg tape L.trials L.start hrandom hln hnn hall1
    obtain ⟨f', g1', g2', g3'⟩ := run_steady (F.kern a.fitType) L.cfg tape' L.trials L.start hrandom
      (hln.trans (hp.filter _).length_eq) hnn (fun d hd => hall1 d (hp.mem_iff.2 hd))
    have hff : f = f' := by
      rcases g2 with ⟨e1, e2⟩ | ⟨d, hd, e1, e2⟩
      · rcases g2' with ⟨e1', _⟩ | ⟨d', hd', e1', e2'⟩
        · rw [e1, e1']
        · exact absurd e2' (e2 d' (hp.mem_iff.2 hd') f' e1')
      · rcases g2' with ⟨e1', e2'⟩ | ⟨d', hd', e1', e2'⟩
        · exact absurd e2 (e2' d (hp.mem_iff.1 hd) f e1)
        · exact hties d hd d' (hp.mem_iff.2 hd') f f' ((hL _ _).2 e1) ((hL _ _).2 e1')
            (PyFloat.le_antisymm' _ _ (g3 d' (hp.mem_iff.2 hd') f' e1') (g3' d (hp.mem_iff.1 hd) f e1))
    have hrun : L.cfg.run (F.kern a.fitType) tape L.trials L.start =
        L.cfg.run (F.kern a.fitType) tape' L.trials L.start := by rw [g1, g1', hff]
    have hfit : ∀ tp, w.fit F a ⟨u, tp⟩ = ({ w with cal := (Cal.fitWith F (w.given a) lines a ⟨u, tp⟩).1 },
        (Cal.fitWith F (w.given a) lines a ⟨u, tp⟩).2) := by
      intro tp
      rcases fit_eq F w a ⟨u, tp⟩ with ⟨_, _, h1⟩ | ⟨lines', _, hl', h1⟩
      · rcases h1 with h1 | ⟨e, h1⟩
        · exact absurd h1 hft
        · rw [hl] at h1; cases h1
      · rw [hl] at hl'
        cases Except.ok.inj hl'
        exact h1
    rw [hfit, hfit, fitWith_enter F _ _ _ ⟨u, tape⟩ _ he, fitWith_enter F _ _ _ ⟨u, tape'⟩ _ he]
    dsimp only
    rw [hrun]

/-- C210, what holds: two searches that evaluate the same samples, in whatever order, return the same if samples of equal
cost give the same solution.  What is missing: with a limited number of tries the order of the draws decides which samples
are evaluated. -/
theorem C210_same_samples_partial (F : FitEnv K) (ha : IsArgsort F.argsortK) (w : World K) (a : FitArgs K) (u : Nat → K)
    (tape tape' : List Draw) (r r' : FitReport K) (h : (w.fit F a ⟨u, tape⟩).2 = .done (.ok r))
    (h' : (w.fit F a ⟨u, tape'⟩).2 = .done (.ok r')) (lines : List K) (L : LoopStart K) (hl : w.atlasLines = .ok lines)
    (he : (w.given a).enter F lines a u = some L)
    (hsame : ∀ p, p ∈ L.cfg.passes (F.kern a.fitType) tape L.trials L.start ↔
      p ∈ L.cfg.passes (F.kern a.fitType) tape' L.trials L.start)
    (hties : ∀ p ∈ L.cfg.passes (F.kern a.fitType) tape L.trials L.start,
      ∀ q ∈ L.cfg.passes (F.kern a.fitType) tape L.trials L.start, ∀ b b',
      Acceptable (F.kern a.fitType) L.cfg p.1 p.2 b → Acceptable (F.kern a.fitType) L.cfg q.1 q.2 b' →
      b.cost = b'.cost → b = b') : r = r' := by
  have key : ∀ tp r, (w.fit F a ⟨u, tp⟩).2 = .done (.ok r) → ∃ s co au,
      L.cfg.run (F.kern a.fitType) tp L.trials L.start = .finished s ∧ s.coeffs = some co ∧
      (utilisation s.inliers lines.length : PyRes (PyFloat K)) = .ok au ∧
      r = ⟨co, s.matchedPeaks, s.matchedAtlas, s.err, s.residual, (s.inliers : K) / (w.cal.peaks.length : K), au⟩ := by
    intro tp r h
    obtain ⟨lines', L', s, co, data, prev, S⟩ := fit_success F ha w a _ r h
    have e1 := S.atlas
    rw [hl] at e1
    cases Except.ok.inj e1
    have e2 := S.enter
    rw [show (w.given a).enter F lines a u = some L from he] at e2
    cases Option.some.inj e2
    exact ⟨s, co, r.atlasUtil, S.run, S.coeffs, S.util, S.report⟩
  obtain ⟨s, co, au, g1, g2, g3, g4⟩ := key tape r h
  obtain ⟨s', co', au', g1', g2', g3', g4'⟩ := key tape' r' h'
  have hs := enter_spec F _ _ _ _ _ he
  have hxy := hs.aligned ha
  have hnn := start_not_nan F _ _ _ _ hs
  obtain ⟨b1, _, b3⟩ := C61_best_wins (F.kern a.fitType) L.cfg hxy tape L.trials L.start hnn
  obtain ⟨b1', _, b3'⟩ := C61_best_wins (F.kern a.fitType) L.cfg hxy tape' L.trials L.start hnn
  rw [g1, show (RunState.finished s).best = s from rfl] at b1 b3
  rw [g1', show (RunState.finished s').best = s' from rfl] at b1' b3'
  obtain ⟨cost, err, hst, _⟩ := hs.start
  have hss : s = s' := by
    rcases b1 with b1 | ⟨p, hp, hacc⟩
    · rw [b1, hst] at g2; cases g2
    · rcases b1' with b1' | ⟨q, hq, hacc'⟩
      · rw [b1', hst] at g2'; cases g2'
      · exact hties p hp q ((hsame q).2 hq) s s' hacc hacc'
          (PyFloat.le_antisymm' _ _ (b3 q ((hsame q).2 hq) s' hacc') (b3' p ((hsame p).1 hp) s hacc))
  subst hss
  rw [g2] at g2'
  cases Option.some.inj g2'
  rw [g3] at g3'
  cases Except.ok.inj g3'
  rw [g4, g4']

end

/-! ### refutation and concrete cases -/

/-- The expected behaviour: the solution does not depend on the order in which the samples are drawn, unless there are
different solutions of equal cost. -/
def C210_Statement : Prop :=
  ∀ (F : FitEnv ℚ) (w : World ℚ) (a : FitArgs ℚ) (u : Nat → ℚ) (tape tape' : List Draw) (r r' : FitReport ℚ),
    IsArgsort F.argsortK → a.brute = false → tape.Perm tape' → Spec.NoTies F w a u tape →
    (w.fit F a ⟨u, tape⟩).2 = .done (.ok r) → (w.fit F a ⟨u, tape'⟩).2 = .done (.ok r') → r = r'

/-- Four peaks, five lines, at least three matches. -/
def Toy.threeMatches : PyRes (World ℚ) :=
  match Cal.new (fun _ => .ok ()) [10, 20, 31, 41] true none with
  | .error e => .error e
  | .ok c => .ok (World.steps Toy.calEnv
      ⟨[⟨[4500, 5900, 6200, 7440, 8847].map (fun v => ⟨v, "Xe", 1, none⟩), none, none, 0⟩], c⟩
      [.setHough { numSlopes := some 5, xbins := some 4, ybins := some 4 },
       .setRansac { sampleSize := some 2, minFitError := some 0, minMatches := some 3 },
       .setAtlas 0 10 false])

/-- The solution of one sample. -/
def Toy.solo (w : World ℚ) (a : FitArgs ℚ) (d : Draw) : Option (Best ℚ) :=
  match w.atlasLines with
  | .error _ => none
  | .ok lines =>
    match (w.given a).enter Toy.env lines a (fun _ => 0) with
    | none => none
    | some L =>
      match L.cfg.attempt (Toy.env.kern a.fitType) d .random noSolution with
      | .next b => some b
      | _ => none

theorem Toy.solo_some (w : World ℚ) (a : FitArgs ℚ) (d : Draw) (b : Best ℚ)
    (h : Spec.Gives Toy.env w a (fun _ => 0) d b) : Toy.solo w a d = some b := by
  obtain ⟨lines, L, h1, h2, h3, _⟩ := h
  unfold Toy.solo
  rw [h1]
  dsimp only
  rw [h2]
  dsimp only
  rw [h3]

theorem Toy.solo_gives (w : World ℚ) (a : FitArgs ℚ) (d : Draw) (b : Best ℚ) (h : Toy.solo w a d = some b)
    (hb : b.coeffs ≠ none) : Spec.Gives Toy.env w a (fun _ => 0) d b := by
  unfold Toy.solo at h
  split at h
  · cases h
  · rename_i lines h1
    split at h
    · cases h
    · rename_i L h2
      split at h
      · rename_i b' h3
        cases Option.some.inj h
        exact ⟨lines, L, h1, h2, h3, hb⟩
      · cases h

/-- A straight line through the outer peaks, and one through the first two. -/
def Toy.outer : Draw := ⟨[0, 2], [0, 0]⟩
/-- The cheaper one. -/
def Toy.inner : Draw := ⟨[0, 0], [0, 0]⟩
/-- A line with fewer than three matches. -/
def Toy.wrong : Draw := ⟨[0, 0], [0, 1]⟩

/-- `solo`, as something that can be compared. -/
def Toy.soloCost (w : World ℚ) (d : Draw) : Option (PyFloat ℚ × Bool) :=
  (Toy.solo w (Toy.fourArgs 2) d).map (fun b => (b.cost, b.coeffs.isSome))

theorem Toy.threeMatches_costs : Toy.threeMatches.toOption.map (fun w =>
      (Toy.soloCost w Toy.outer, Toy.soloCost w Toy.wrong, Toy.soloCost w Toy.inner)) =
    some (some (.fin (7000000000 / 3), true), none, some (.fin (5000000000 / 3), true)) := by decide +kernel

theorem Toy.threeMatches_ties (w : World ℚ) (hw : Toy.threeMatches = .ok w) (tape : List Draw)
    (ht : ∀ d ∈ tape, d = Toy.outer ∨ d = Toy.wrong ∨ d = Toy.inner) :
    Spec.NoTies Toy.env w (Toy.fourArgs 2) (fun _ => 0) tape := by
  have hc := Toy.threeMatches_costs
  rw [hw] at hc
  simp only [Except.toOption, Option.map_some, Option.some.injEq, Prod.mk.injEq] at hc
  obtain ⟨c1, c2, c3⟩ := hc
  intro d hd d' hd' b b' hb hb' hcost
  have e := Toy.solo_some _ _ _ _ hb
  have e' := Toy.solo_some _ _ _ _ hb'
  unfold Toy.soloCost at c1 c2 c3
  rcases ht d hd with rfl | rfl | rfl <;> rcases ht d' hd' with rfl | rfl | rfl
  · rw [e] at e'; exact Option.some.inj e'
  · rw [e'] at c2; cases c2
  · rw [e] at c1
    rw [e'] at c3
    have h1 := (Prod.mk.inj (Option.some.inj c1)).1
    have h3 := (Prod.mk.inj (Option.some.inj c3)).1
    rw [h1, h3, PyFloat.fin.injEq] at hcost
    norm_num at hcost
  · rw [e] at c2; cases c2
  · rw [e] at c2; cases c2
  · rw [e] at c2; cases c2
  · rw [e] at c3
    rw [e'] at c1
    have h1 := (Prod.mk.inj (Option.some.inj c1)).1
    have h3 := (Prod.mk.inj (Option.some.inj c3)).1
    rw [h1, h3, PyFloat.fin.injEq] at hcost
    norm_num at hcost
  · rw [e'] at c2; cases c2
  · rw [e] at e'; exact Option.some.inj e'

/-- C210 is false: a sample with too few matches is drawn again at no cost as long as it would be the cheapest so far, but
uses up a try after a better one.  With two tries the last sample is only evaluated if the wrong one comes first. -/
theorem C210_refuted : ¬ C210_Statement := by
  intro h
  have hc : Toy.threeMatches.toOption.bind (fun w =>
      (Toy.report (w.fit Toy.env (Toy.fourArgs 2) ⟨fun _ => 0, [Toy.outer, Toy.wrong, Toy.inner]⟩)).bind (fun r =>
      (Toy.report (w.fit Toy.env (Toy.fourArgs 2) ⟨fun _ => 0, [Toy.wrong, Toy.outer, Toy.inner]⟩)).map (fun r' =>
        (r.coeffs, r'.coeffs)))) = some ([1675280 / 541, 151697 / 1082], [3100, 140]) := by decide +kernel
  cases hw : Toy.threeMatches with
  | error e => rw [hw] at hc; simp [Except.toOption] at hc
  | ok w =>
    rw [hw] at hc
    simp only [Except.toOption, Option.bind_some, Option.bind_eq_some_iff, Option.map_eq_some_iff,
      Prod.mk.injEq] at hc
    obtain ⟨r, hr, r', hr', h1, h2⟩ := hc
    have := h Toy.env w (Toy.fourArgs 2) (fun _ => 0) _ _ r r' Toy.env_argsort rfl (List.Perm.swap _ _ _)
      (Toy.threeMatches_ties w hw _ (by simp)) (Toy.report_some _ _ hr) (Toy.report_some _ _ hr')
    rw [this, h2] at h1
    have h3 := (List.cons.inj h1).1
    norm_num at h3

/-- A case for `C210_order_partial`: the two acceptable samples with two tries. -/
example : ∃ w, Toy.threeMatches = .ok w ∧
    w.fit Toy.env (Toy.fourArgs 2) ⟨fun _ => 0, [Toy.outer, Toy.inner]⟩ =
      w.fit Toy.env (Toy.fourArgs 2) ⟨fun _ => 0, [Toy.inner, Toy.outer]⟩ := by
  have hc := Toy.threeMatches_costs
  have hn : Toy.threeMatches.toOption.bind (fun w => w.atlasLines.toOption.bind (fun lines =>
      ((w.given (Toy.fourArgs 2)).enter Toy.env lines (Toy.fourArgs 2) (fun _ => 0)).map (fun L => L.trials.length))) =
      some 2 := by decide +kernel
  cases hw : Toy.threeMatches with
  | error e => rw [hw] at hc; cases hc
  | ok w =>
    rw [hw] at hc hn
    simp only [Except.toOption, Option.map_some, Option.some.injEq, Prod.mk.injEq] at hc
    obtain ⟨c1, _, c3⟩ := hc
    refine ⟨w, rfl, C210_order_partial Toy.env w (Toy.fourArgs 2) (fun _ => 0) _ _ rfl (List.Perm.swap _ _ _) ?_ ?_
      (Toy.threeMatches_ties w hw _ (by simp))⟩
    · have gives : ∀ d c, Toy.soloCost w d = some (c, true) → ∃ b, Spec.Gives Toy.env w (Toy.fourArgs 2) (fun _ => 0) d b := by
        intro d c h
        unfold Toy.soloCost at h
        rw [Option.map_eq_some_iff] at h
        obtain ⟨b, hb, hb2⟩ := h
        refine ⟨b, Toy.solo_gives _ _ _ _ hb ?_⟩
        intro hnone
        rw [hnone] at hb2
        cases hb2
      intro d hd
      rcases List.mem_cons.1 hd with rfl | hd
      · exact .inl (gives _ _ c1)
      · rw [List.mem_singleton.1 hd]
        exact .inl (gives _ _ c3)
    · intro lines L hl he
      have keep : ∀ d c, Toy.soloCost w d = some (c, true) →
          ¬ Spec.DrawnAgain Toy.env w (Toy.fourArgs 2) (fun _ => 0) d := by
        rintro d c h ⟨lines', L', h1, h2, h3⟩
        unfold Toy.soloCost Toy.solo at h
        rw [h1] at h
        dsimp only at h
        rw [h2] at h
        dsimp only at h
        rw [h3] at h
        cases h
      simp only [Except.toOption, Option.bind_some, hl, he, Option.map_some, Option.some.injEq] at hn
      simp [hn, keep _ _ c1, keep _ _ c3]

deriving instance DecidableEq for Trial
deriving instance DecidableEq for Draw

/-- A case for `C210_same_samples_partial`: both searches evaluate the three samples, the wrong one first or last. -/
example : ∃ w r r', Toy.threeMatches = .ok w ∧
    (w.fit Toy.env (Toy.fourArgs 2) ⟨fun _ => 0, [Toy.wrong, Toy.outer, Toy.inner]⟩).2 = .done (.ok r) ∧
    (w.fit Toy.env (Toy.fourArgs 2) ⟨fun _ => 0, [Toy.wrong, Toy.inner, Toy.outer]⟩).2 = .done (.ok r') ∧ r = r' := by
  have hc : Toy.threeMatches.toOption.bind (fun w =>
      (Toy.report (w.fit Toy.env (Toy.fourArgs 2) ⟨fun _ => 0, [Toy.wrong, Toy.outer, Toy.inner]⟩)).bind (fun r =>
      (Toy.report (w.fit Toy.env (Toy.fourArgs 2) ⟨fun _ => 0, [Toy.wrong, Toy.inner, Toy.outer]⟩)).map (fun r' =>
        (r.coeffs, r'.coeffs)))) = some ([3100, 140], [3100, 140]) := by decide +kernel
  have hn : Toy.threeMatches.toOption.bind (fun w => w.atlasLines.toOption.bind (fun lines =>
      ((w.given (Toy.fourArgs 2)).enter Toy.env lines (Toy.fourArgs 2) (fun _ => 0)).map (fun L =>
        (L.cfg.passes (Toy.env.kern (Toy.fourArgs 2).fitType) [Toy.wrong, Toy.outer, Toy.inner] L.trials L.start,
         L.cfg.passes (Toy.env.kern (Toy.fourArgs 2).fitType) [Toy.wrong, Toy.inner, Toy.outer] L.trials L.start)))) =
      some ([(Toy.wrong, .random), (Toy.outer, .random), (Toy.inner, .random)],
        [(Toy.wrong, .random), (Toy.inner, .random), (Toy.outer, .random)]) := by decide +kernel
  cases hw : Toy.threeMatches with
  | error e => rw [hw] at hc; simp [Except.toOption] at hc
  | ok w =>
    rw [hw] at hc hn
    simp only [Except.toOption, Option.bind_some, Option.bind_eq_some_iff, Option.map_eq_some_iff,
      Prod.mk.injEq] at hc hn
    obtain ⟨r, hr, r', hr', -, -⟩ := hc
    obtain ⟨lines, hl, L, he, p1, p2⟩ := hn
    have hl' : w.atlasLines = .ok lines := by
      cases hq : w.atlasLines with
      | error e => rw [hq] at hl; cases hl
      | ok l => rw [hq] at hl; cases hl; rfl
    refine ⟨w, r, r', rfl, Toy.report_some _ _ hr, Toy.report_some _ _ hr',
      C210_same_samples_partial Toy.env Toy.env_argsort w (Toy.fourArgs 2) (fun _ => 0) _ _ r r' (Toy.report_some _ _ hr)
        (Toy.report_some _ _ hr') lines L hl' he (fun p => ?_) (fun p hp q hq b b' hb hb' hcost => ?_)⟩
    · rw [p1, p2]
      simp only [List.mem_cons, List.not_mem_nil, or_false]
      tauto
    · rw [p1] at hp hq
      have ht := Toy.threeMatches_ties w hw [Toy.outer, Toy.wrong, Toy.inner] (by simp)
      have e : ∀ p : Draw × Trial, p ∈ [(Toy.wrong, Trial.random), (Toy.outer, .random), (Toy.inner, .random)] →
          p.1 ∈ [Toy.outer, Toy.wrong, Toy.inner] ∧ p.2 = .random := by
        intro p hp
        simp only [List.mem_cons, List.not_mem_nil, or_false] at hp ⊢
        rcases hp with rfl | rfl | rfl <;> simp
      obtain ⟨e1, e2⟩ := e p hp
      obtain ⟨e3, e4⟩ := e q hq
      rw [e2] at hb
      rw [e4] at hb'
      exact ht p.1 e1 q.1 e3 b b' ⟨lines, L, hl', he, hb⟩ ⟨lines, L, hl', he, hb'⟩ hcost

end Rascal
