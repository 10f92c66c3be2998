import Verif.Props.RepeatFitProps
import Verif.Props.SearchProps

/-!
Property theorems C140: what `hough_weight` does.
-/

set_option linter.unusedSectionVars false

namespace Rascal

open Spec

section
variable {K : Type _} [Field K] [LinearOrder K]

/-- The midpoints of neighbouring edges (src/rascal/calibrator.py:498-505). -/
def Spec.midpoints (edges : List K) : List K := List.zipWith (fun a b => (a + b) / 2) edges edges.tail

variable [IsStrictOrderedRing K]

theorem binCentres_midpoints (l : List K) (n : Nat) (hn : n ≠ 0) :
    binCentres (binEdges l n) = midpoints (binEdges l n) := by
  have hlen := binEdges_length l n
  have e := binEdges_getD l n
  unfold binCentres midpoints
  apply List.ext_getElem?
  intro i
  rw [List.getElem?_map, List.getElem?_zipWith]
  by_cases hi : i < n
  · have h0 : (binEdges l n)[i]? = some ((outerEdges l).1 + i * binWidth l n) := by
      rw [List.getElem?_eq_getElem (by omega)]
      have := e i (by omega)
      rw [List.getD_eq_getElem?_getD, List.getElem?_eq_getElem (by omega)] at this
      rw [← this]; rfl
    have h1 : (binEdges l n).tail[i]? = some ((outerEdges l).1 + ((i + 1 : Nat) : K) * binWidth l n) := by
      rw [List.getElem?_tail, List.getElem?_eq_getElem (by omega)]
      have := e (i + 1) (by omega)
      rw [List.getD_eq_getElem?_getD, List.getElem?_eq_getElem (by omega)] at this
      rw [← this]; rfl
    rw [h0, h1, e 1 (by omega), e 0 (by omega)]
    simp only [Option.map_some, Option.some.injEq]
    push_cast
    ring
  · have h1 : (binEdges l n).tail[i]? = none := by
      rw [List.getElem?_eq_none]; rw [List.length_tail, hlen]; omega
    rw [h1]
    cases (binEdges l n)[i]? <;> rfl

/-- C140 (density): after `do_hough_transform` the density is the spline through the counts of the histogram at the
midpoints of its bins, and there are as many midpoints as bins, in increasing order. -/
theorem C140_density (ak : List K → List Nat) (an : List Nat → List Nat) (c : Cal K) (b : Bool) (k : Kernels K)
    (v : K) (hv : c.ransac.houghWeight = .fin v) (h : (c.doHough ak an b).2 = .ok ()) :
    ∃ xe ye hist, (c.doHough ak an b).1.ht.xedges = some xe ∧ (c.doHough ak an b).1.ht.yedges = some ye ∧
      (c.doHough ak an b).1.ht.hist = some hist ∧
      (c.doHough ak an b).1.density k = (k.spline (midpoints xe) (midpoints ye) hist).map (Density.spline v) ∧
      (midpoints xe).length = c.hough.xbins.toNat ∧ (midpoints ye).length = c.hough.ybins.toNat ∧
      (midpoints xe).Pairwise (· < ·) ∧ (midpoints ye).Pairwise (· < ·) := by
  have hs : ∀ (l : List K) (n : Nat), n ≠ 0 → (midpoints (binEdges l n)).length = n ∧
      (midpoints (binEdges l n)).Pairwise (· < ·) := by
    intro l n hn
    rw [← binCentres_midpoints l n hn]
    constructor
    · unfold binCentres
      rw [List.length_map, List.length_tail, binEdges_length]
      omega
    · unfold binCentres
      rw [List.pairwise_map]
      exact ((binEdges_sorted l n).tail).imp (fun h => by linarith)
  unfold Cal.doHough at h ⊢
  split at h
  · cases h
  rename_i store hst
  dsimp only at h ⊢
  split at h
  · cases h
  rename_i u hu
  split at h
  · cases h
  rename_i xy
  split at h
  · cases h
  rename_i u2 hu2
  split at h
  · cases h
  rename_i u3 hu3
  generalize (if b = true then Hough.generateBrute ak _ xy else Hough.generate _ xy c.hough.numSlopes.toNat) = r2
    at hu3 ⊢
  unfold Hough.bin at hu3 ⊢
  split at hu3
  · cases hu3
  · cases hu3
  · cases hu3
  rename_i pts hpts
  split at hu3
  · cases hu3
  rename_i hz
  rw [hpts]
  dsimp only
  rw [if_neg hz]
  dsimp only
  push Not at hz
  refine ⟨_, _, _, rfl, rfl, rfl, ?_, (hs _ _ hz.1).1, (hs _ _ hz.2).1, (hs _ _ hz.1).2, (hs _ _ hz.2).2⟩
  unfold Cal.density
  dsimp only
  rw [hv]
  simp only [PyFloat.toFinite, Option.getD_some]
  rw [binCentres_midpoints _ _ hz.1, binCentres_midpoints _ _ hz.2]
  cases k.spline _ _ _ <;> rfl


variable [FloorRing K]

/-- The search with another density (src/rascal/calibrator.py:497-509). -/
def RansacCfg.withDensity (c : RansacCfg K) (d : Density K) : RansacCfg K := { c with density := d }

/-- Without a spline a pass is the same as before or raises where the spline would be read. -/
theorem attempt_unbound (k : Kernels K) (c : RansacCfg K) (d : Draw) (t : Trial) (s : Best K) :
    (c.withDensity .unbound).attempt k d t s = .raised .unboundLocal s ∨
    ((c.withDensity .unbound).attempt k d t s = c.attempt k d t s ∧
      (c.attempt k d t s = .retry ∨ c.attempt k d t s = .next s ∨ ∃ e s', c.attempt k d t s = .raised e s')) := by
  unfold RansacCfg.attempt
  rw [show (c.withDensity .unbound).sample d t = c.sample d t from rfl]
  cases c.sample d t with
  | error e => exact Or.inr ⟨rfl, Or.inr (Or.inr ⟨e, s, rfl⟩)⟩
  | ok o =>
    cases o with
    | none => exact Or.inr ⟨rfl, Or.inr (Or.inl rfl)⟩
    | some data =>
      dsimp only
      unfold RansacCfg.evaluate
      rw [show (c.withDensity .unbound).fitDeg = c.fitDeg from rfl]
      cases k.polyfit data.1 data.2 c.fitDeg with
      | error e => exact Or.inr ⟨rfl, Or.inr (Or.inr ⟨e, s, rfl⟩)⟩
      | ok co =>
        dsimp only
        rw [show (c.withDensity .unbound).interceptOk co = c.interceptOk co from rfl,
          show (c.withDensity .unbound).monotoneOk k co = c.monotoneOk k co from rfl,
          show (c.withDensity .unbound).x = c.x from rfl, show (c.withDensity .unbound).y = c.y from rfl]
        split
        · exact Or.inr ⟨rfl, Or.inl rfl⟩
        split
        · exact Or.inr ⟨rfl, Or.inl rfl⟩
        cases matchBijective (k.polyval co) (candTable c.x c.y) (npUnique c.x) with
        | error e => exact Or.inr ⟨rfl, Or.inr (Or.inr ⟨e, s, rfl⟩)⟩
        | ok m =>
          cases m with
          | nil => exact Or.inr ⟨rfl, Or.inl rfl⟩
          | cons p m =>
            dsimp only
            unfold RansacCfg.compare RansacCfg.weight
            by_cases hd : derivativeCoeffs co = []
            · rw [if_pos hd, if_pos hd]
              exact Or.inr ⟨rfl, Or.inr (Or.inr ⟨_, s, rfl⟩)⟩
            · left
              rw [if_neg hd]
              rfl

/-- Without a spline a search that would have found something raises. -/
theorem run_unbound (k : Kernels K) (c : RansacCfg K) (tape : List Draw) : ∀ (ts : List Trial) (s s' : Best K),
    c.run k tape ts s = .finished s' → s' ≠ s →
    (c.withDensity .unbound).run k tape ts s = .raised .unboundLocal s := by
  induction tape with
  | nil =>
    intro ts s s' h hne
    cases ts with
    | nil => unfold RansacCfg.run at h; cases h; exact absurd rfl hne
    | cons t ts => unfold RansacCfg.run at h; cases h
  | cons d ds ih =>
    intro ts s s' h hne
    cases ts with
    | nil => unfold RansacCfg.run at h; cases h; exact absurd rfl hne
    | cons t ts =>
      unfold RansacCfg.run at h ⊢
      rcases attempt_unbound k c d t s with h1 | ⟨h1, h2⟩
      · rw [h1]
      · rw [h1]
        rcases h2 with h2 | h2 | ⟨e, s'', h2⟩
        · rw [h2] at h ⊢
          exact ih _ _ _ h hne
        · rw [h2] at h ⊢
          exact ih _ _ _ h hne
        · rw [h2] at h
          cases h

theorem ensureHough_ransac (F : FitEnv K) (c : Cal K) (r : RansacSet K) :
    ({ c with ransac := r } : Cal K).ensureHough F =
      ({ (c.ensureHough F).1 with ransac := r }, (c.ensureHough F).2) := by
  obtain ⟨peaks, arr, props, hough, ransac, atlas, ct, cp, pairs, ht, hl, hp, known, mp, ma, co, rms, res, pu, au⟩ :=
    c
  unfold Cal.ensureHough
  dsimp only
  split
  · unfold Cal.doHough
    dsimp only
    cases pairs with
    | none => rfl
    | some st =>
      dsimp only
      generalize ht.setConstraints _ _ _ _ = r1
      obtain ⟨h1, e1⟩ := r1
      cases e1 with
      | error e => rfl
      | ok _ =>
        cases st with
        | noColumns => rfl
        | array xy =>
          dsimp only
          generalize (if false = true then _ else _ : Hough K × PyRes Unit) = r2
          obtain ⟨h2, e2⟩ := r2
          cases e2 with
          | error e => rfl
          | ok _ =>
            dsimp only
            generalize Hough.bin (K := K) F.argsortN _ _ _ = r3
            obtain ⟨h3, e3⟩ := r3
            cases e3 <;> rfl
  · rfl

/-- The part before the search with another weight. -/
theorem enter_weight (F : FitEnv K) (c : Cal K) (lines : List K) (a : FitArgs K) (u : Nat → K) (L : LoopStart K)
    (v : PyFloat K) (hv : v.toFinite = none) (h : c.enter F lines a u = some L) (hx : L.cal.ht.xedges ≠ none) :
    ∃ L', ({ c with ransac := { c.ransac with houghWeight := v } } : Cal K).enter F lines a u = some L' ∧
      L'.cfg = L.cfg.withDensity .unbound ∧ L'.trials = L.trials ∧ L'.start = L.start := by
  unfold Cal.enter at h ⊢
  dsimp only at h ⊢
  have e1 := ensureHough_ransac F c { c.ransac with
    sampleSize := adjustSampleSize c.ransac.sampleSize lines.length a.fitDeg }
  have e2 := ensureHough_ransac F c { c.ransac with
    houghWeight := v, sampleSize := adjustSampleSize c.ransac.sampleSize lines.length a.fitDeg }
  rw [e1] at h
  rw [e2]
  generalize c.ensureHough F = q at h ⊢
  obtain ⟨c2, e⟩ := q
  cases e with
  | error e => cases h
  | ok _ =>
    dsimp only at h ⊢
    have hc : ∀ r : RansacSet K, r.linear = c.ransac.linear →
        ({ c2 with ransac := r } : Cal K).candidates F (F.kern a.fitType) lines a.candTol u =
        ({ c2 with ransac := c.ransac } : Cal K).candidates F (F.kern a.fitType) lines a.candTol u := by
      intro r hr
      unfold Cal.candidates
      dsimp only
      rw [hr]
    rw [hc _ (by rfl)] at h ⊢
    generalize ({ c2 with ransac := c.ransac } : Cal K).candidates F (F.kern a.fitType) lines a.candTol u = cd at h ⊢
    cases cd with
    | error e => cases h
    | ok cands =>
      dsimp only at h ⊢
      have hl : ∀ r : RansacSet K, r.topN = c.ransac.topN → r.weighted = c.ransac.weighted →
          r.filterClose = c.ransac.filterClose → r.tol = c.ransac.tol →
          ({ c2 with ransac := r } : Cal K).candidateLists F cands =
          ({ c2 with ransac := c.ransac } : Cal K).candidateLists F cands := by
        intro r h1 h2 h3 h4
        unfold Cal.candidateLists
        dsimp only
        rw [h1, h2, h3, h4]
      rw [hl _ (by rfl) (by rfl) (by rfl) (by rfl)] at h ⊢
      generalize ({ c2 with ransac := c.ransac } : Cal K).candidateLists F cands = xy at h ⊢
      split at h
      · cases h
      rename_i hdeg
      rw [if_neg hdeg]
      split at h
      · cases h
      rename_i d hd
      split at h
      · cases h
      rename_i cost err hsc
      cases h
      dsimp only at hx
      have hd' : ∀ r : RansacSet K, r.houghWeight = v → ({ c2 with ransac := r } : Cal K).density (F.kern a.fitType) =
          .ok .unbound := by
        intro r hr
        unfold Cal.density
        dsimp only
        cases hxe : c2.ht.xedges with
        | none => exact absurd hxe hx
        | some xe => dsimp only; rw [hr, hv]
      rw [hd' _ (by rfl)]
      exact ⟨_, rfl, rfl, rfl, rfl⟩

/-- C140: a fit that succeeds with a finite `hough_weight` raises UnboundLocalError when, with the same draws,
`hough_weight` is inf or nan. -/
theorem C140_nonfinite (F : FitEnv K) (ha : IsArgsort F.argsortK) (w : World K) (a : FitArgs K) (rnd : FitRandom K)
    (r : FitReport K) (h : (w.fit F a rnd).2 = .done (.ok r)) (hx : (w.fit F a rnd).1.cal.ht.xedges ≠ none)
    (v : PyFloat K) (hv : v.toFinite = none) :
    ((w.setRansac { houghWeight := some v }).1.fit F a rnd).2 = .done (.error .unboundLocal) := by
  obtain ⟨lines, L, b, co, data, prev, S⟩ := fit_success F ha w a rnd r h
  have hw : (w.setRansac { houghWeight := some v }).1 =
      { w with cal := { w.cal with ransac := { w.cal.ransac with houghWeight := v } } } := rfl
  have hx' : L.cal.ht.xedges ≠ none := by
    rw [S.state] at hx
    exact hx
  obtain ⟨L', e1, e2, e3, e4⟩ := enter_weight F (w.given a) lines a rnd.uniform L v hv S.enter hx'
  have hne : b ≠ L.start := by
    intro hb
    obtain ⟨cost, err, hs, -⟩ := (enter_spec F _ _ _ _ _ S.enter).start
    replace hs := congrArg Best.coeffs hs
    rw [← hb, S.coeffs] at hs
    cases hs
  have hrun := run_unbound (F.kern a.fitType) L.cfg rnd.tape L.trials L.start b S.run hne
  rw [hw]
  unfold World.fit
  dsimp only
  have hft : a.fitType ≠ .other := by
    intro hf
    unfold World.fit at h
    dsimp only at h
    rw [if_pos hf] at h
    cases h
  rw [if_neg hft]
  rw [show World.atlasLines { w with cal := { w.cal with ransac := { w.cal.ransac with houghWeight := v } } } =
    w.atlasLines from rfl, S.atlas]
  dsimp only
  have := fitWith_enter F _ lines a rnd L' e1
  rw [show ({ w.cal with ransac := { w.cal.ransac with houghWeight := v }, fitCoeff := a.fitCoeff } : Cal K) =
    { w.given a with ransac := { (w.given a).ransac with houghWeight := v } } from rfl, this, e2, e3, e4, hrun]
  rfl

/-- The routines with another spline (src/rascal/calibrator.py:501-506). -/
def Kernels.withSpline (k : Kernels K) (sp : List K → List K → List (List Nat) → PyRes (K → K → K)) : Kernels K :=
  { k with spline := sp }

/-- The environment with another spline (src/rascal/calibrator.py:501-506). -/
def FitEnv.withSpline (F : FitEnv K) (sp : List K → List K → List (List Nat) → PyRes (K → K → K)) : FitEnv K :=
  { F with kern := fun t => (F.kern t).withSpline sp }

theorem run_weight (k : Kernels K) (sp : List K → List K → List (List Nat) → PyRes (K → K → K)) (c : RansacCfg K)
    (d' : Density K) (hw : ∀ co, (c.withDensity d').weight (k.withSpline sp) co = c.weight k co)
    (tape : List Draw) :
    ∀ (ts : List Trial) (s : Best K), (c.withDensity d').run (k.withSpline sp) tape ts s = c.run k tape ts s := by
  have ha : ∀ d t s, (c.withDensity d').attempt (k.withSpline sp) d t s = c.attempt k d t s := by
    intro d t s
    unfold RansacCfg.attempt
    rw [show (c.withDensity d').sample d t = c.sample d t from rfl]
    cases c.sample d t with
    | error e => rfl
    | ok o =>
      cases o with
      | none => rfl
      | some data =>
        dsimp only
        unfold RansacCfg.evaluate
        rw [show (k.withSpline sp).polyfit data.1 data.2 (c.withDensity d').fitDeg =
          k.polyfit data.1 data.2 c.fitDeg from rfl]
        cases k.polyfit data.1 data.2 c.fitDeg with
        | error e => rfl
        | ok co =>
          dsimp only
          rw [show (c.withDensity d').interceptOk co = c.interceptOk co from rfl,
            show (c.withDensity d').monotoneOk (k.withSpline sp) co = c.monotoneOk k co from rfl,
            show (c.withDensity d').x = c.x from rfl,
            show (c.withDensity d').y = c.y from rfl,
            show (k.withSpline sp).polyval = k.polyval from rfl]
          split
          · rfl
          split
          · rfl
          cases matchBijective (k.polyval co) (candTable c.x c.y) (npUnique c.x) with
          | error e => rfl
          | ok m =>
            cases m with
            | nil => rfl
            | cons p m =>
              dsimp only
              unfold RansacCfg.compare
              rw [hw]
              rfl
  induction tape with
  | nil => intro ts s; cases ts <;> rfl
  | cons d ds ih =>
    intro ts s
    cases ts with
    | nil => rfl
    | cons t ts =>
      unfold RansacCfg.run
      rw [ha]
      cases c.attempt k d t s with
      | retry => exact ih _ _
      | next s' => exact ih _ _
      | raised e s' => rfl

theorem solve_zero (F : FitEnv K) (k : Kernels K) (sp : List K → List K → List (List Nat) → PyRes (K → K → K))
    (hk : ∀ x y h, ∃ f, k.spline x y h = .ok f) (hsp : ∀ x y h, ∃ f, sp x y h = .ok f) (c : Cal K)
    (hw : c.ransac.houghWeight = .fin 0) (lines : List K) (a : FitArgs K) (deg : Nat) (rnd : FitRandom K) :
    c.solve (F.withSpline sp) (k.withSpline sp) lines a deg rnd = c.solve F k lines a deg rnd := by
  unfold Cal.solve
  rw [show c.candidates (F.withSpline sp) (k.withSpline sp) lines a.candTol rnd.uniform =
    c.candidates F k lines a.candTol rnd.uniform from rfl]
  cases c.candidates F k lines a.candTol rnd.uniform with
  | error e => rfl
  | ok cands =>
    dsimp only
    rw [show c.candidateLists (F.withSpline sp) cands = c.candidateLists F cands from rfl]
    generalize c.candidateLists F cands = xy
    split
    · rfl
    · unfold Cal.solveLists
      dsimp only
      generalize makeTrials a.brute c.ransac.sampleSize.toNat xy.1.length (npUnique xy.1).length a.maxTries = t
      rw [show startCost (k.withSpline sp) xy.1 xy.2 a.fitCoeff = startCost k xy.1 xy.2 a.fitCoeff by
        unfold startCost; rfl]
      have key : ∀ c1 : Cal K, c1.ransac.houghWeight = .fin 0 → ∃ d d', c1.density k = .ok d ∧
          c1.density (k.withSpline sp) = .ok d' ∧ ∀ (g : RansacCfg K) (co : List K), g.density = d →
            (g.withDensity d').weight (k.withSpline sp) co = g.weight k co := by
        intro c1 h1
        unfold Cal.density
        rw [h1]
        cases c1.ht.xedges with
        | none =>
          refine ⟨.absent, .absent, rfl, rfl, ?_⟩
          intro g co hg
          unfold RansacCfg.weight
          rw [hg]
          rfl
        | some xe =>
          dsimp only [PyFloat.toFinite]
          obtain ⟨f, hf⟩ := hk (binCentres xe) (binCentres (c1.ht.yedges.getD [])) (c1.ht.hist.getD [])
          obtain ⟨f', hf'⟩ := hsp (binCentres xe) (binCentres (c1.ht.yedges.getD [])) (c1.ht.hist.getD [])
          rw [hf, show (k.withSpline sp).spline = sp from rfl, hf']
          refine ⟨_, _, rfl, rfl, ?_⟩
          intro g co hg
          unfold RansacCfg.weight
          rw [hg]
          split
          · rfl
          · simp only [RansacCfg.withDensity, zero_mul]
      have hc1 : ({ c with ransac := { c.ransac with sampleSize := t.2 } } : Cal K).ransac.houghWeight = .fin 0 := hw
      generalize ({ c with ransac := { c.ransac with sampleSize := t.2 } } : Cal K) = c1 at hc1 ⊢
      obtain ⟨d, d', e1, e2, e3⟩ := key c1 hc1
      rw [e1, e2]
      dsimp only
      cases startCost k xy.1 xy.2 a.fitCoeff with
      | error e => rfl
      | ok p =>
        dsimp only
        have h := run_weight k sp (c1.ransacCfg deg t.2 xy.1 xy.2 d F.oneDim) d' (fun co => e3 _ co rfl) rnd.tape t.1
        rw [show c1.ransacCfg deg t.2 xy.1 xy.2 d' (F.withSpline sp).oneDim =
          (c1.ransacCfg deg t.2 xy.1 xy.2 d F.oneDim).withDensity d' from rfl, h]

/-- C140: with `hough_weight=0` the density has no influence: whatever spline is used, the fit is the same. -/
theorem C140_zero (F : FitEnv K) (sp : List K → List K → List (List Nat) → PyRes (K → K → K)) (w : World K)
    (a : FitArgs K) (rnd : FitRandom K) (hw : w.cal.ransac.houghWeight = .fin 0)
    (hk : ∀ x y h, ∃ f, (F.kern a.fitType).spline x y h = .ok f) (hsp : ∀ x y h, ∃ f, sp x y h = .ok f) :
    w.fit (F.withSpline sp) a rnd = w.fit F a rnd := by
  unfold World.fit
  dsimp only
  split
  · rfl
  · cases w.atlasLines with
    | error e => rfl
    | ok lines =>
      dsimp only
      unfold Cal.fitWith
      have he : ∀ c : Cal K, c.ensureHough (F.withSpline sp) = c.ensureHough F := fun _ => rfl
      dsimp only
      rw [he]
      obtain ⟨h, l, p, hfr⟩ := ensureHough_frame F { w.cal with fitCoeff := a.fitCoeff, ransac := { w.cal.ransac with
        sampleSize := adjustSampleSize w.cal.ransac.sampleSize lines.length a.fitDeg } }
      generalize Cal.ensureHough F { w.cal with fitCoeff := a.fitCoeff, ransac := { w.cal.ransac with
        sampleSize := adjustSampleSize w.cal.ransac.sampleSize lines.length a.fitDeg } } = r at hfr ⊢
      obtain ⟨c1, e⟩ := r
      cases e with
      | error e => rfl
      | ok _ =>
        dsimp only at hfr ⊢
        subst hfr
        unfold Cal.fitSearch
        dsimp only
        rw [show (F.withSpline sp).kern a.fitType = (F.kern a.fitType).withSpline sp from rfl,
          solve_zero F (F.kern a.fitType) sp hk hsp]
        exact hw

end

/-! ### Concrete cases -/

/-- A case for `C140_density`: the calibrator of the toy fit. -/
example := C140_density stableArgsort stableArgsort Toy.ready.cal false Toy.kern 1 (by decide +kernel)
  (by decide +kernel)

example : Spec.midpoints ([0, 1, 3] : List ℚ) = [1 / 2, 2] := by decide +kernel

/-- A case for `C140_nonfinite`: the toy fit with `hough_weight=inf`. -/
example := C140_nonfinite Toy.env Toy.env_argsort Toy.ready Toy.args Toy.rnd Toy.found Toy.ready_fit
  (by decide +kernel) .posInf rfl

/-- A case for `C140_zero`: the toy fit with another spline. -/
example := C140_zero Toy.env (fun _ _ _ => .ok (fun x y => x + y))
  (Toy.ready.setRansac { houghWeight := some (.fin 0) }).1 Toy.args Toy.rnd (by decide +kernel)
  (fun _ _ _ => ⟨_, rfl⟩) (fun _ _ _ => ⟨_, rfl⟩)

end Rascal
