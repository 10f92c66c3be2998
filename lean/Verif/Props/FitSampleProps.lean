import Verif.Props.FitLoopProps

/-! Property theorems C56 for `fit` and C99: how many points a sample of `fit` has. -/

set_option linter.unusedSectionVars false

namespace Rascal

section
variable {K : Type _} [Field K] [LinearOrder K] [IsStrictOrderedRing K] [FloorRing K]

/-- The sample size after the adjustments is the setting, limited by the lines, but more than the
degree given. -/
theorem adjustSampleSize_eq (s : Int) (nLines fitDeg : Nat) :
    adjustSampleSize s nLines fitDeg = max (min s nLines) (fitDeg + 1) := by
  unfold adjustSampleSize
  dsimp only
  split <;> split <;> omega

/-- C99: the points of a random sample.  Their number is `sample_size`, limited by the atlas lines, at
least `fit_deg + 1`, and limited by the candidate peaks; this is also what `sample_size` becomes. -/
theorem C99_sample_size (F : FitEnv K) (w : World K) (a : FitArgs K) (u : Nat → K) (lines : List K)
    (L : LoopStart K) (h : (w.given a).enter F lines a u = some L) (hb : a.brute = false) :
    (L.cfg.sampleSize : Int) =
      min (max (min w.cal.ransac.sampleSize (lines.length : Int)) ((a.fitDeg : Int) + 1))
        (L.cfg.x.dedup.length : Int) ∧
    L.cal.ransac.sampleSize = L.cfg.sampleSize ∧
    ∀ d data, L.cfg.sample d .random = .ok (some data) →
      ∃ xs ys : List K, xs.Nodup ∧ ys.Nodup ∧ xs.length = L.cfg.sampleSize ∧
        ys.length = L.cfg.sampleSize ∧
        data = (xs.map .fin ++ (w.cal.known.getD ([], [])).1, ys.map .fin ++ (w.cal.known.getD ([], [])).2) := by
  have hs := enter_spec F _ _ _ _ _ h
  have ht := hs.trials
  rw [Prod.ext_iff] at ht
  dsimp only at ht
  have h2 := ht.2
  rw [show (w.given a).ransac.sampleSize = w.cal.ransac.sampleSize from rfl, adjustSampleSize_eq, hb,
    npUnique_length_eq_dedup] at h2
  have hsize : (L.cfg.sampleSize : Int) =
      min (max (min w.cal.ransac.sampleSize (lines.length : Int)) ((a.fitDeg : Int) + 1))
        (L.cfg.x.dedup.length : Int) := by
    unfold makeTrials at h2
    simp only [Bool.false_eq_true, if_false] at h2
    split at h2 <;> omega
  refine ⟨hsize, hs.sampleSize, ?_⟩
  intro d data hd
  obtain ⟨xs, ys, g1, g2, g3, g4, _, g6⟩ := C59_distinct_samples L.cfg d data hd
  have hk : L.cfg.known = w.cal.known := hs.known
  rw [hk] at g6
  exact ⟨xs, ys, g1, g2, by omega, by omega, g6⟩

/-- C99, what holds: without brute force, and if a baseline has no higher degree than `fit_deg`, every
sample has more distinct peaks than the degree.  What is missing: a baseline of a higher degree, and
brute force, whose samples may repeat a peak. -/
theorem C99_determined_partial (F : FitEnv K) (w : World K) (a : FitArgs K) (u : Nat → K)
    (lines : List K) (L : LoopStart K) (h : (w.given a).enter F lines a u = some L)
    (hb : a.brute = false) (hdeg : a.degree ≤ a.fitDeg) (d : Draw)
    (data : List (PyFloat K) × List (PyFloat K)) (hd : L.cfg.sample d .random = .ok (some data)) :
    ∃ xs : List K, xs.Nodup ∧ a.degree < xs.length ∧ xs.map .fin <+: data.1 := by
  obtain ⟨h1, _, h3⟩ := C99_sample_size F w a u lines L h hb
  obtain ⟨xs, ys, g1, _, g3, _, g5⟩ := h3 d data hd
  have hen := (enter_spec F _ _ _ _ _ h).enough
  rw [npUnique_length_eq_dedup] at hen
  refine ⟨xs, g1, by omega, ?_⟩
  rw [g5]
  exact List.prefix_append _ _

/-- C56 for `fit`: with `filter_close` any two matched wavelengths are at least `3 * ransac_tolerance`
apart. -/
theorem C56_fit_spacing (F : FitEnv K) (ha : IsArgsort F.argsortK) (w : World K) (a : FitArgs K)
    (rnd : FitRandom K) (r : FitReport K) (h : (w.fit F a rnd).2 = .done (.ok r))
    (hf : w.cal.ransac.filterClose = true) :
    r.matchedAtlas.Pairwise (fun v v' => 3 * w.cal.ransac.tol ≤ |v - v'|) := by
  obtain ⟨lines, L, s, co, data, prev, S⟩ := fit_success F ha w a rnd r h
  have hs := enter_spec F _ _ _ _ _ S.enter
  have hma : r.matchedAtlas = s.matchedAtlas := by rw [S.report]
  obtain ⟨l1, l2⟩ := S.accepted.lengths
  have hy : ∀ v ∈ s.matchedAtlas, v ∈ L.cfg.y := by
    intro v hv
    obtain ⟨i, hi, hiv⟩ := List.getElem_of_mem hv
    have hz : (s.matchedPeaks[i]'(by omega), v) ∈ s.matchedPeaks.zip s.matchedAtlas := by
      rw [List.mem_iff_getElem]
      exact ⟨i, by simp; omega, by simp [hiv]⟩
    exact (List.of_mem_zip (S.accepted.candidates _ hz)).2
  rw [hma]
  refine (S.accepted.distinct.2).imp_of_mem ?_
  intro v v' hv hv' hne
  rcases lt_or_gt_of_ne hne with hlt | hgt
  · have := hs.spaced ha hf v (hy v hv) v' (hy v' hv') hlt
    rw [abs_sub_comm, abs_of_pos (by linarith)]
    exact this
  · have := hs.spaced ha hf v' (hy v' hv') v (hy v hv) hgt
    rw [abs_of_pos (by linarith)]
    exact this

end

/-- Three peaks and three lines; no peak lies on an inner edge of the histogram, so samples are drawn. -/
def Toy.threePeaks : PyRes (World ℚ) :=
  match Cal.new (fun _ => .ok ()) [10, 20, 31] true none with
  | .error e => .error e
  | .ok c => .ok (World.steps Toy.calEnv
      ⟨[⟨[⟨5900, "Xe", 1, none⟩, ⟨8700, "Xe", 1, none⟩, ⟨11780, "Xe", 1, none⟩], none, none, 0⟩], c⟩
      [.setHough { numSlopes := some 2, xbins := some 4, ybins := some 4 },
       .setRansac { sampleSize := some 2, minFitError := some 0 },
       .setAtlas 0 10 false])

/-- The expected behaviour: a random sample has more points than the degree of the polynomial. -/
def C99_Statement : Prop :=
  ∀ (F : FitEnv ℚ) (w : World ℚ) (a : FitArgs ℚ) (u : Nat → ℚ) (lines : List ℚ) (L : LoopStart ℚ),
    w.atlasLines = .ok lines → (w.given a).enter F lines a u = some L → a.brute = false →
    w.cal.known = none →
    ∀ d data, L.cfg.sample d .random = .ok (some data) → a.degree < data.1.length

/-- A quadratic baseline with `fit_deg=1`. -/
def Toy.quadratic : FitArgs ℚ := { fitDeg := 1, fitCoeff := some [3100, 280, 0], candTol := 100000 }

/-- C99 is false: a quadratic is fitted to samples of two points. -/
theorem C99_refuted : ¬ C99_Statement := by
  intro h
  have hc : Toy.threePeaks.toOption.bind (fun w => w.atlasLines.toOption.bind (fun lines =>
      ((w.given Toy.quadratic).enter Toy.env lines Toy.quadratic (fun _ => 0)).bind
        (fun L => (L.cfg.sample ⟨[0, 0], [0, 0]⟩ .random).toOption.bind (fun o =>
          o.map (fun data => (data.1.length, w.cal.known.isNone)))))) = some (2, true) := by
    decide +kernel
  cases hw : Toy.threePeaks with
  | error e => rw [hw] at hc; simp [Except.toOption] at hc
  | ok w =>
    rw [hw] at hc
    simp only [Except.toOption, Option.bind_some] at hc
    cases hl : w.atlasLines with
    | error e => rw [hl] at hc; simp at hc
    | ok lines =>
      rw [hl] at hc
      simp only [Option.bind_some, Option.bind_eq_some_iff, Option.map_eq_some_iff,
        Prod.mk.injEq] at hc
      obtain ⟨L, he, o, ho, data, hdata, hlen, hk⟩ := hc
      cases hs : L.cfg.sample ⟨[0, 0], [0, 0]⟩ .random with
      | error e => rw [hs] at ho; simp at ho
      | ok o' =>
        rw [hs] at ho
        simp only [Option.some.injEq] at ho
        subst ho hdata
        have := h Toy.env w Toy.quadratic (fun _ => 0) lines L hl he rfl
          (by simpa using hk) _ data hs
        rw [hlen] at this
        exact absurd this (by decide)

/-- A case meeting the hypotheses of `C99_sample_size` and `C99_determined_partial`: a straight line
through two of three peaks. -/
example : Toy.threePeaks.toOption.bind (fun w => w.atlasLines.toOption.bind (fun lines =>
      ((w.given { fitDeg := 1, candTol := 100000 }).enter Toy.env lines { fitDeg := 1, candTol := 100000 }
        (fun _ => 0)).bind (fun L => (L.cfg.sample ⟨[0, 0], [0, 0]⟩ .random).toOption.bind (fun o =>
          o.map (fun data => (data.1.length, L.cfg.x.dedup.length)))))) = some (2, 3) := by
  decide +kernel

/-- A case meeting the hypotheses of `C56_fit_spacing`: a successful fit with `filter_close`. -/
example : IsArgsort Toy.env.argsortK ∧ (Toy.world 2 0).toOption.map (fun w =>
    let w' := World.steps Toy.calEnv w [.setRansac { filterClose := some true }]
    (w'.cal.ransac.filterClose, (Toy.report (w'.fit Toy.env Toy.args Toy.rnd)).map
      (fun r => r.matchedAtlas))) = some (true, some [5900, 8700]) :=
  ⟨stableArgsort_isArgsort, by decide +kernel⟩

end Rascal
