import Verif.Props.HistoryProps
import Verif.Props.HoughIOProps

/-!
C134: whether `fit` uses a Hough transform loaded with `load_hough_transform`.
-/

set_option linter.unusedSectionVars false

namespace Rascal

variable {K : Type _} [Field K] [LinearOrder K] [IsStrictOrderedRing K]

/-- The calibrator with another transform object. -/
def Cal.withHt (c : Cal K) (g : Hough K) : Cal K := { c with ht := g }

theorem doHough_withHt (argsortK : List K → List Nat) (argsortN : List Nat → List Nat) (c : Cal K) (g : Hough K)
    (b : Bool) :
    (∃ g', ((c.withHt g).doHough argsortK argsortN b).1 = (c.doHough argsortK argsortN b).1.withHt g') ∧
    ((c.withHt g).doHough argsortK argsortN b).2 = (c.doHough argsortK argsortN b).2 ∧
    ((c.doHough argsortK argsortN b).2 = .ok () →
      (c.withHt g).doHough argsortK argsortN b = c.doHough argsortK argsortN b) := by
  obtain ⟨peaks, arr, props, ⟨n, xb, yb, w1, w2, rt, lt, i1, i2, s1, s2⟩, ransac, atlas, ct, cp, pairs, ht, hl, hp,
    known, mp, ma, co, rms, res, pu, au⟩ := c
  cases pairs with
  | none => exact ⟨⟨g, rfl⟩, rfl, fun h => by cases h⟩
  | some store =>
    cases s1 with
    | posInf => exact ⟨⟨g, rfl⟩, rfl, fun h => by cases h⟩
    | negInf => exact ⟨⟨g, rfl⟩, rfl, fun h => by cases h⟩
    | nan => exact ⟨⟨g, rfl⟩, rfl, fun h => by cases h⟩
    | fin x1 =>
      cases s2 with
      | posInf => exact ⟨⟨g, rfl⟩, rfl, fun h => by cases h⟩
      | negInf => exact ⟨⟨g, rfl⟩, rfl, fun h => by cases h⟩
      | nan => exact ⟨⟨g, rfl⟩, rfl, fun h => by cases h⟩
      | fin x2 =>
        cases store with
        | noColumns => exact ⟨⟨_, rfl⟩, rfl, fun h => by cases h⟩
        | array xy =>
          cases b with
          | true =>
            by_cases hxy : xy.length < 2
            · simp only [Cal.doHough, Cal.withHt, Hough.setConstraints, PyFloat.toFinite, if_true,
                Hough.generateBrute, if_pos hxy]
              exact ⟨⟨_, rfl⟩, trivial, fun h => by cases h⟩
            · by_cases hb : xb.toNat = 0 ∨ yb.toNat = 0
              · simp only [Cal.doHough, Cal.withHt, Hough.setConstraints, PyFloat.toFinite, if_true,
                  Hough.generateBrute, if_neg hxy, Hough.bin, if_pos hb]
                exact ⟨⟨_, rfl⟩, trivial, fun h => by cases h⟩
              · simp only [Cal.doHough, Cal.withHt, Hough.setConstraints, PyFloat.toFinite, if_true,
                  Hough.generateBrute, if_neg hxy, Hough.bin, if_neg hb]
                exact ⟨⟨_, rfl⟩, trivial, fun _ => trivial⟩
          | false =>
            by_cases hxy : n.toNat = 0 ∨ xy = []
            · have e : ∀ q : Hough K, q.minSlope = some x1 → q.maxSlope = some x2 → q.minIntercept = some i1 →
                  q.maxIntercept = some i2 → q.generate xy n.toNat = (q, .error .valueError) := by
                intro q h1 h2 h3 h4
                unfold Hough.generate
                rw [h1, h2, h3, h4]
                exact if_pos hxy
              unfold Cal.doHough Cal.withHt
              simp only [Hough.setConstraints, PyFloat.toFinite, Bool.false_eq_true, if_false]
              rw [e _ rfl rfl rfl rfl, e _ rfl rfl rfl rfl]
              exact ⟨⟨_, rfl⟩, rfl, fun h => by cases h⟩
            · have e : ∀ q : Hough K, q.minSlope = some x1 → q.maxSlope = some x2 → q.minIntercept = some i1 →
                  q.maxIntercept = some i2 → q.generate xy n.toNat =
                    ({ q with points := some (.array (houghGrid x1 x2 i1 i2 xy n.toNat)) }, .ok ()) := by
                intro q h1 h2 h3 h4
                unfold Hough.generate
                rw [h1, h2, h3, h4]
                exact if_neg hxy
              unfold Cal.doHough Cal.withHt
              simp only [Hough.setConstraints, PyFloat.toFinite, Bool.false_eq_true, if_false]
              rw [e _ rfl rfl rfl rfl, e _ rfl rfl rfl rfl]
              by_cases hb : xb.toNat = 0 ∨ yb.toNat = 0
              · simp only [Hough.bin, if_pos hb]
                exact ⟨⟨_, rfl⟩, trivial, fun h => by cases h⟩
              · simp only [Hough.bin, if_neg hb]
                exact ⟨⟨_, rfl⟩, trivial, fun _ => trivial⟩

variable [FloorRing K]

/-- The state with another transform object. -/
def World.withHt (w : World K) (g : Hough K) : World K := { w with cal := w.cal.withHt g }

/-- The same state, transform object aside. -/
def EqualButHt (w v : World K) : Prop := ∃ g, v = w.withHt g

theorem EqualButHt.of_eq {x y : World K × PyRes Unit} {g : Hough K} {P : Prop} (h : y = (x.1.withHt g, x.2)) :
    EqualButHt x.1 y.1 ∧ (P → y.2 = x.2) := by
  subst h
  exact ⟨⟨g, rfl⟩, fun _ => rfl⟩

theorem generate_withHt (w : World K) (g : Hough K) :
    (w.withHt g).generatePairs = (w.generatePairs.1.withHt g, w.generatePairs.2) := by
  unfold World.generatePairs
  rw [show World.atlasLines (w.withHt g) = w.atlasLines from rfl]
  cases w.atlasLines with
  | error e => rfl
  | ok lines =>
    dsimp only
    have : (w.withHt g).cal.generatePairs lines =
        ((w.cal.generatePairs lines).1.withHt g, (w.cal.generatePairs lines).2) := by
      obtain ⟨atl, c⟩ := w
      show (c.withHt g).generatePairs lines = _
      obtain ⟨peaks, arr, props, hough, ransac, atlas, ct, cp, pairs, ht, hl, hp, known, mp, ma, co, rms, res, pu,
        au⟩ := c
      cases cp with
      | false => rfl
      | true =>
        cases ct with
        | none => rfl
        | some t =>
          obtain ⟨np, pl, a1, a2, a3⟩ := props
          cases pl with
          | nil => rfl
          | cons x l =>
            unfold Cal.generatePairs Cal.withHt
            simp only [if_true]
            have hpoly : ∀ q : Hough K, Cal.polygon (K := K) ⟨peaks, arr, ⟨np, x :: l, a1, a2, a3⟩, hough, ransac, atlas,
                some t, true, pairs, q, hl, hp, known, mp, ma, co, rms, res, pu, au⟩ t (listMax x l) =
                Cal.polygon (K := K) ⟨peaks, arr, ⟨np, x :: l, a1, a2, a3⟩, hough, ransac, atlas,
                some t, true, pairs, ht, hl, hp, known, mp, ma, co, rms, res, pu, au⟩ t (listMax x l) := fun _ => rfl
            rw [hpoly g]
            generalize Rascal.generatePairs peaks lines _ = r
            cases r <;> rfl
    rw [this]
    rfl

theorem setAtlas_withHt (w : World K) (g : Hough K) (i : Nat) (t : K) (b : Bool) :
    (w.withHt g).setAtlas i t b = ((w.setAtlas i t b).1.withHt g, (w.setAtlas i t b).2) :=
  generate_withHt
    { w with cal := { w.cal with atlas := some i, candTol := some t, constrainPoly := b } } g

theorem ensureAtlas_withHt (w : World K) (g : Hough K) (e : Atlas K) :
    (w.withHt g).ensureAtlas e = (w.ensureAtlas e).withHt g := by
  unfold World.ensureAtlas
  rw [show (w.withHt g).cal.atlas = w.cal.atlas from rfl]
  cases w.cal.atlas <;> rfl

theorem EqualButHt.step (E : CalEnv K) {w v : World K} (h : EqualButHt w v) (op : SetOp K) :
    EqualButHt (w.step E op).1 (v.step E op).1 ∧
      ((∀ d f t, op ≠ .loadHough d f t) → (v.step E op).2 = (w.step E op).2) := by
  obtain ⟨g, rfl⟩ := h
  have hat : (w.withHt g).cal.atlas = w.cal.atlas := rfl
  have hho : (w.withHt g).cal.hough = w.cal.hough := rfl
  have hlist : (w.withHt g).atlases = w.atlases := rfl
  cases op with
  | setCalibrator a b c => exact ⟨⟨g, rfl⟩, fun _ => rfl⟩
  | useMatplotlib => exact ⟨⟨g, rfl⟩, fun _ => rfl⟩
  | usePlotly => exact ⟨⟨g, rfl⟩, fun _ => rfl⟩
  | setHough a =>
    simp only [World.step]
    unfold World.setHough
    dsimp only
    rw [hho, show (w.withHt g).cal.props = w.cal.props from rfl, hat]
    generalize HoughSet.apply (some w.cal.hough) a w.cal.props.pixelList = r
    cases r.2 with
    | error e => exact ⟨⟨g, rfl⟩, fun _ => rfl⟩
    | ok u =>
      cases hA : w.cal.atlas with
      | none => exact ⟨⟨g, rfl⟩, fun _ => rfl⟩
      | some i =>
        dsimp only
        rw [← hA]
        have := generate_withHt ({ w with cal := { w.cal with hough := r.1 } } : World K) g
        exact EqualButHt.of_eq this
  | setRansac a => exact ⟨⟨g, rfl⟩, fun _ => rfl⟩
  | setAtlas i t b =>
    have := setAtlas_withHt w g i t b
    exact EqualButHt.of_eq this
  | addAtlas a t b =>
    simp only [World.step]
    unfold World.addAtlas
    dsimp only
    rw [hat, hho, hlist]
    cases w.cal.atlas with
    | none =>
      dsimp only
      cases Atlas.new E.env (w.cal.hough.fillLimits a) w.cal.hough.rangeTol with
      | error e => exact ⟨⟨g, rfl⟩, fun _ => rfl⟩
      | ok at_ =>
        have := setAtlas_withHt ({ w with atlases := w.atlases ++ [at_] } : World K) g w.atlases.length t b
        exact EqualButHt.of_eq this
    | some i =>
      dsimp only
      cases w.atlases[i]? with
      | none => exact ⟨⟨g, rfl⟩, fun _ => rfl⟩
      | some at_ =>
        dsimp only
        cases (Atlas.add E.env at_ (w.cal.hough.fillLimits a)).2 with
        | error e => exact ⟨⟨g, rfl⟩, fun _ => rfl⟩
        | ok u =>
          have := setAtlas_withHt
            (w.modifyAtlas i (fun _ => (Atlas.add E.env at_ (w.cal.hough.fillLimits a)).1)) g i t b
          exact EqualButHt.of_eq this
  | addUserAtlas f t b =>
    simp only [World.step]
    unfold World.addUserAtlas
    dsimp only
    rw [ensureAtlas_withHt, show ((w.ensureAtlas E.emptyAtlas).withHt g).cal.atlas =
        (w.ensureAtlas E.emptyAtlas).cal.atlas from rfl,
      show ((w.ensureAtlas E.emptyAtlas).withHt g).atlases = (w.ensureAtlas E.emptyAtlas).atlases from rfl]
    generalize w.ensureAtlas E.emptyAtlas = w0
    cases w0.cal.atlas with
    | none => exact ⟨⟨g, rfl⟩, fun _ => rfl⟩
    | some i =>
      dsimp only
      cases w0.atlases[i]? with
      | none => exact ⟨⟨g, rfl⟩, fun _ => rfl⟩
      | some at_ =>
        dsimp only
        cases (f at_).2 with
        | error e => exact ⟨⟨g, rfl⟩, fun _ => rfl⟩
        | ok u =>
          have := setAtlas_withHt (w0.modifyAtlas i (fun _ => (f at_).1)) g i t b
          exact EqualButHt.of_eq this
  | removeRange x t =>
    simp only [World.step]
    unfold World.removeRange
    rw [hat]
    cases w.cal.atlas <;> exact ⟨⟨g, rfl⟩, fun _ => rfl⟩
  | clearAtlas =>
    simp only [World.step]
    unfold World.clearAtlas
    rw [hat]
    cases w.cal.atlas <;> exact ⟨⟨g, rfl⟩, fun _ => rfl⟩
  | editAtlas i f => exact ⟨⟨g, rfl⟩, fun _ => rfl⟩
  | doHough b =>
    obtain ⟨⟨g', h1⟩, h2, _⟩ := doHough_withHt E.argsortK E.argsortN w.cal g b
    exact ⟨⟨g', congrArg (fun c => (⟨w.atlases, c⟩ : World K)) h1⟩, fun _ => h2⟩
  | loadHough d f t => exact ⟨⟨_, rfl⟩, fun h => absurd rfl (h d f t)⟩
  | setKnown p q =>
    simp only [World.step]
    unfold Cal.setKnown
    repeat' split
    all_goals exact ⟨⟨g, rfl⟩, fun _ => rfl⟩

/-- Is the call one of `load_hough_transform`? -/
def SetOp.loads : SetOp K → Bool
  | .loadHough _ _ _ => true
  | _ => false

theorem EqualButHt.drop_loads (E : CalEnv K) (ops : List (SetOp K)) : ∀ {w v : World K}, EqualButHt w v →
    EqualButHt (w.steps E (ops.filter (fun o => !o.loads))) (v.steps E ops) := by
  induction ops with
  | nil => exact fun h => h
  | cons op ops ih =>
    intro w v h
    cases hop : op.loads with
    | false =>
      rw [List.filter_cons_of_pos (by simp [hop])]
      exact ih (h.step E op).1
    | true =>
      rw [List.filter_cons_of_neg (by simp [hop])]
      refine ih ?_
      cases op with
      | loadHough d f t =>
        obtain ⟨g, rfl⟩ := h
        exact ⟨_, rfl⟩
      | _ => cases hop

/-- C134 (partial).  In every history of configuration calls and Hough transforms the calls of
`load_hough_transform` can be left out: the transform object aside, the calibrator is the same, in particular the
Hough lines and points that a later search uses, and every other call raises the same.  Missing: the search
should use what was loaded. -/
theorem C134_dropped_partial (E : CalEnv K) (w : World K) (ops : List (SetOp K)) :
    let v := w.steps E ops
    let u := w.steps E (ops.filter (fun o => !o.loads))
    v.atlases = u.atlases ∧ v.cal.houghLines = u.cal.houghLines ∧ v.cal.houghPoints = u.cal.houghPoints ∧
    v.cal.pairs = u.cal.pairs ∧ { v.cal with ht := u.cal.ht } = u.cal ∧
    ∀ op : SetOp K, op.loads = false → (v.step E op).2 = (u.step E op).2 := by
  dsimp only
  have h := EqualButHt.drop_loads E ops (w := w) (v := w) ⟨w.cal.ht, rfl⟩
  have h' := fun (op : SetOp K) (ho : op.loads = false) =>
    (h.step E op).2 (by rintro d f t rfl; cases ho)
  obtain ⟨g, hg⟩ := h
  refine ⟨?_, ?_, ?_, ?_, ?_, h'⟩ <;> rw [hg] <;> rfl

/-- C134 (partial), no transform so far: `fit` then makes its own, so a fit after `load_hough_transform` is the
same as without it.  Missing: it should use what was loaded. -/
theorem C134_ignored_partial (E : CalEnv K) (F : FitEnv K) (w : World K)
    (hn : w.cal.houghLines = none ∨ w.cal.houghPoints = none) (d : Disk K) (f t : List Char) (a : FitArgs K)
    (rnd : FitRandom K) :
    let v := (w.step E (.loadHough d f t)).1
    (v.fit F a rnd).2 = (w.fit F a rnd).2 ∧
    (∀ r, (w.fit F a rnd).2 = .done (.ok r) → (v.fit F a rnd).1 = (w.fit F a rnd).1) ∧
    ∃ g, (v.fit F a rnd).1 = { (w.fit F a rnd).1 with cal := (w.fit F a rnd).1.cal.withHt g } := by
  intro v
  obtain ⟨g, hv⟩ : ∃ g, v = ⟨w.atlases, w.cal.withHt g⟩ := ⟨_, rfl⟩
  rw [hv]
  unfold World.fit
  dsimp only
  have hl : World.atlasLines (⟨w.atlases, w.cal.withHt g⟩ : World K) = w.atlasLines := rfl
  by_cases hft : a.fitType = .other
  · rw [if_pos hft, if_pos hft]
    exact ⟨rfl, fun r h => (by cases h), g, rfl⟩
  · rw [if_neg hft, if_neg hft, hl]
    cases w.atlasLines with
    | error e => exact ⟨rfl, fun r h => (by cases h), g, rfl⟩
    | ok lines =>
      dsimp only
      have key : ∀ c : Cal K, (c.houghLines = none ∨ c.houghPoints = none) →
          (((c.withHt g).fitWith F lines a rnd).2 = (c.fitWith F lines a rnd).2 ∧
          (∀ r, (c.fitWith F lines a rnd).2 = .done (.ok r) →
            ((c.withHt g).fitWith F lines a rnd).1 = (c.fitWith F lines a rnd).1) ∧
          ∃ g', ((c.withHt g).fitWith F lines a rnd).1 = (c.fitWith F lines a rnd).1.withHt g') := by
        intro c hc
        unfold Cal.fitWith
        dsimp only
        have hen : ∀ c : Cal K, (c.houghLines = none ∨ c.houghPoints = none) →
            c.ensureHough F = c.doHough F.argsortK F.argsortN false := by
          intro c hc
          unfold Cal.ensureHough
          rw [if_pos]
          rcases hc with h | h <;> simp [h]
        generalize hc1 : ({ c with ransac := { c.ransac with
            sampleSize := adjustSampleSize c.ransac.sampleSize lines.length a.fitDeg } } : Cal K) = c1
        have e1 : ({ c.withHt g with ransac := { (c.withHt g).ransac with
            sampleSize := adjustSampleSize (c.withHt g).ransac.sampleSize lines.length a.fitDeg } } : Cal K) =
            c1.withHt g := by rw [← hc1]; rfl
        have hn1 : c1.houghLines = none ∨ c1.houghPoints = none := by rw [← hc1]; exact hc
        rw [e1, hen c1 hn1, hen (c1.withHt g) hn1]
        obtain ⟨⟨g', h1⟩, h2, h3⟩ := doHough_withHt F.argsortK F.argsortN c1 g false
        cases hr : (c1.doHough F.argsortK F.argsortN false).2 with
        | error e =>
          rw [h2, hr]
          dsimp only
          exact ⟨rfl, fun r h => (by cases h), g', h1⟩
        | ok u =>
          rw [h3 hr, hr]
          exact ⟨rfl, fun _ _ => rfl, _, rfl⟩
      obtain ⟨k1, k2, g', k3⟩ := key { w.cal with fitCoeff := a.fitCoeff } hn
      refine ⟨k1, fun r hr => ?_, g', ?_⟩
      · exact congrArg (fun c => (⟨w.atlases, c⟩ : World K)) (k2 r hr)
      · exact congrArg (fun c => (⟨w.atlases, c⟩ : World K)) k3

/-- The same surface is fitted to the two histograms. -/
def SameSurface (k : Kernels K) (g g' : Hough K) : Prop :=
  (g'.xedges = none ↔ g.xedges = none) ∧ ∀ xe xe', g.xedges = some xe → g'.xedges = some xe' →
    k.spline (binCentres xe') (binCentres (g'.yedges.getD [])) (g'.hist.getD []) =
      k.spline (binCentres xe) (binCentres (g.yedges.getD [])) (g.hist.getD [])

theorem density_surface (k : Kernels K) (c : Cal K) (g : Hough K) (h : SameSurface k c.ht g) :
    (c.withHt g).density k = c.density k := by
  unfold Cal.density
  rw [show (c.withHt g).ht = g from rfl, show (c.withHt g).ransac = c.ransac from rfl]
  obtain ⟨h1, h2⟩ := h
  cases hx : c.ht.xedges with
  | none => rw [h1.2 hx]
  | some xe =>
    cases hx' : g.xedges with
    | none => rw [h1.1 hx'] at hx; cases hx
    | some xe' =>
      dsimp only
      rw [h2 xe xe' hx hx']

/-- C134 (partial), a transform was done before: the search goes along its lines, not along the loaded ones; the
loaded histogram only enters through the surface that weighs the trials, so with the same surface the fit is the
same as without `load_hough_transform`. -/
theorem C134_weights_only_partial (E : CalEnv K) (F : FitEnv K) (w : World K)
    (hn : w.cal.houghLines ≠ none ∧ w.cal.houghPoints ≠ none) (d : Disk K) (f t : List Char) (a : FitArgs K)
    (rnd : FitRandom K) (hs : SameSurface (F.kern a.fitType) w.cal.ht (w.step E (.loadHough d f t)).1.cal.ht) :
    let v := (w.step E (.loadHough d f t)).1
    (v.fit F a rnd).2 = (w.fit F a rnd).2 ∧
    (v.fit F a rnd).1 = { (w.fit F a rnd).1 with cal := (w.fit F a rnd).1.cal.withHt v.cal.ht } := by
  intro v
  generalize hg : (w.step E (.loadHough d f t)).1.cal.ht = g at hs
  have hv : v = ⟨w.atlases, w.cal.withHt g⟩ := by rw [← hg]; rfl
  suffices hsuf : ((⟨w.atlases, w.cal.withHt g⟩ : World K).fit F a rnd).2 = (w.fit F a rnd).2 ∧
      ((⟨w.atlases, w.cal.withHt g⟩ : World K).fit F a rnd).1 =
        { (w.fit F a rnd).1 with cal := (w.fit F a rnd).1.cal.withHt g } by
    rw [← hv] at hsuf
    exact hsuf
  unfold World.fit
  dsimp only
  have hl : World.atlasLines (⟨w.atlases, w.cal.withHt g⟩ : World K) = w.atlasLines := rfl
  by_cases hft : a.fitType = .other
  · rw [if_pos hft, if_pos hft]; exact ⟨rfl, rfl⟩
  · rw [if_neg hft, if_neg hft, hl]
    cases w.atlasLines with
    | error e => exact ⟨rfl, rfl⟩
    | ok lines =>
      dsimp only
      have hlist : ∀ (c : Cal K), SameSurface (F.kern a.fitType) c.ht g → ∀ x y,
          (c.withHt g).solveLists F (F.kern a.fitType) a a.degree rnd x y =
            ((c.solveLists F (F.kern a.fitType) a a.degree rnd x y).1.withHt g,
             (c.solveLists F (F.kern a.fitType) a a.degree rnd x y).2) := by
        intro c hc x y
        unfold Cal.solveLists
        dsimp only
        rw [show (c.withHt g).ransac = c.ransac from rfl]
        generalize makeTrials a.brute c.ransac.sampleSize.toNat x.length (npUnique x).length a.maxTries = tr
        generalize hc1 : ({ c with ransac := { c.ransac with sampleSize := (tr.2 : Int) } } : Cal K) = c1
        have e1 : ({ c.withHt g with ransac := { c.ransac with sampleSize := (tr.2 : Int) } } : Cal K) =
            c1.withHt g := by rw [← hc1]; rfl
        rw [e1, density_surface _ c1 g (by rw [← hc1]; exact hc)]
        cases c1.density (F.kern a.fitType) with
        | error e => rfl
        | ok de =>
          dsimp only
          cases startCost (F.kern a.fitType) x y a.fitCoeff with
          | error e => rfl
          | ok ce =>
            obtain ⟨cost, err⟩ := ce
            dsimp only
            have e2 : (c1.withHt g).ransacCfg a.degree tr.2 x y de F.oneDim =
                c1.ransacCfg a.degree tr.2 x y de F.oneDim := rfl
            rw [e2, show (c.withHt g).matchedPeaks = c.matchedPeaks from rfl,
              show (c.withHt g).matchedAtlas = c.matchedAtlas from rfl]
            cases (c1.ransacCfg a.degree tr.2 x y de F.oneDim).run (F.kern a.fitType) rnd.tape tr.1
                ⟨cost, err, none, none, 0, c.matchedPeaks, c.matchedAtlas⟩ <;> rfl
      have hsolve : ∀ (c : Cal K), SameSurface (F.kern a.fitType) c.ht g →
          (c.withHt g).solve F (F.kern a.fitType) lines a a.degree rnd =
            ((c.solve F (F.kern a.fitType) lines a a.degree rnd).1.withHt g,
             (c.solve F (F.kern a.fitType) lines a a.degree rnd).2) := by
        intro c hc
        unfold Cal.solve
        rw [show (c.withHt g).candidates F (F.kern a.fitType) lines a.candTol rnd.uniform =
          c.candidates F (F.kern a.fitType) lines a.candTol rnd.uniform from rfl]
        cases c.candidates F (F.kern a.fitType) lines a.candTol rnd.uniform with
        | error e => rfl
        | ok cs =>
          dsimp only
          rw [show (c.withHt g).candidateLists F cs = c.candidateLists F cs from rfl]
          split
          · rfl
          · exact hlist c hc _ _
      have hsearch : ∀ (c : Cal K), SameSurface (F.kern a.fitType) c.ht g →
          (c.withHt g).fitSearch F lines a rnd = ((c.fitSearch F lines a rnd).1.withHt g, (c.fitSearch F lines a rnd).2) := by
        intro c hc
        unfold Cal.fitSearch
        dsimp only
        generalize hc1 : ({ c with ransac := { c.ransac with
          minMatches := adjustMinMatches c.ransac.minMatches lines.length c.peaks.length } } : Cal K) = c1
        have e1 : ({ c.withHt g with ransac := { (c.withHt g).ransac with
          minMatches := adjustMinMatches (c.withHt g).ransac.minMatches lines.length
            (c.withHt g).peaks.length } } : Cal K) = c1.withHt g := by rw [← hc1]; rfl
        rw [e1, hsolve c1 (by rw [← hc1]; exact hc)]
        generalize c1.solve F (F.kern a.fitType) lines a a.degree rnd = r
        obtain ⟨r1, r2⟩ := r
        cases r2 with
        | running => rfl
        | done o =>
          cases o with
          | error e => rfl
          | ok out =>
            dsimp only
            unfold Cal.finishFit
            rw [show (r1.withHt g).peaks = r1.peaks from rfl]
            cases (utilisation out.inliers r1.peaks.length : PyRes (PyFloat K)) with
            | error e => rfl
            | ok u =>
              dsimp only
              cases (utilisation out.inliers lines.length : PyRes (PyFloat K)) with
              | error e => rfl
              | ok u2 =>
                dsimp only
                cases out.coeffs with
                | none => rfl
                | some co => rfl
      have hfit : ∀ (c : Cal K), c.houghLines ≠ none → c.houghPoints ≠ none → SameSurface (F.kern a.fitType) c.ht g →
          (c.withHt g).fitWith F lines a rnd = ((c.fitWith F lines a rnd).1.withHt g, (c.fitWith F lines a rnd).2) := by
        intro c h1 h2 hc
        unfold Cal.fitWith
        dsimp only
        generalize hc1 : ({ c with ransac := { c.ransac with
            sampleSize := adjustSampleSize c.ransac.sampleSize lines.length a.fitDeg } } : Cal K) = c1
        have e1 : ({ c.withHt g with ransac := { (c.withHt g).ransac with
            sampleSize := adjustSampleSize (c.withHt g).ransac.sampleSize lines.length a.fitDeg } } : Cal K) =
            c1.withHt g := by rw [← hc1]; rfl
        have hen : ∀ c : Cal K, c.houghLines ≠ none → c.houghPoints ≠ none → c.ensureHough F = (c, .ok ()) := by
          intro c h1 h2
          unfold Cal.ensureHough
          rw [if_neg]
          rw [Bool.or_eq_true, Option.isNone_iff_eq_none, Option.isNone_iff_eq_none]
          exact fun h => h.elim h1 h2
        have hl1 : c1.houghLines ≠ none := by rw [← hc1]; exact h1
        have hp1 : c1.houghPoints ≠ none := by rw [← hc1]; exact h2
        rw [e1, hen c1 hl1 hp1, hen (c1.withHt g) hl1 hp1]
        exact hsearch c1 (by rw [← hc1]; exact hc)
      have := hfit { w.cal with fitCoeff := a.fitCoeff } hn.1 hn.2 hs
      have e2 : ({ w.cal.withHt g with fitCoeff := a.fitCoeff } : Cal K) =
        ({ w.cal with fitCoeff := a.fitCoeff } : Cal K).withHt g := rfl
      rw [e2, this]
      exact ⟨rfl, rfl⟩

/-- Another range of wavelengths, far from the lines. -/
def Toy.farHough : HoughArgs ℚ := { minW := some 100000, maxW := some 106000 }

/-- The transform another calibrator with these settings makes and saves as `far.npy`. -/
def Toy.farDisk (w : World ℚ) : Disk ℚ :=
  ((w.steps Toy.calEnv [.setHough Toy.farHough, .doHough false]).cal.saveHough (fun _ => none) "far".toList
    "npy".toList "+".toList true).1

/-- The full property: a fit after `load_hough_transform` searches along the lines of the saved transform, as it
does for the calibrator that made it. -/
def C134_Statement : Prop :=
  ∀ (E : CalEnv ℚ) (F : FitEnv ℚ) (w : World ℚ) (h : HoughArgs ℚ) (f : List Char) (a : FitArgs ℚ)
    (rnd : FitRandom ℚ),
    let o := w.steps E [.setHough h, .doHough false]
    let d := (o.cal.saveHough (fun _ => none) f "npy".toList "+".toList true).1
    (w.step E (.loadHough d f "npy".toList)).2 = .ok () →
    ((w.step E (.loadHough d f "npy".toList)).1.fit F a rnd).2 =
      (World.fit F { w with cal := { w.cal with
        ht := o.cal.ht, houghLines := o.cal.houghLines, houghPoints := o.cal.houghPoints } } a rnd).2

/-- The fit after loading `far.npy`, and with the saved transform put in place by hand. -/
def Toy.farRun : Option (FitReport ℚ) × Option PyErr :=
  let w := Toy.ready
  let o := w.steps Toy.calEnv [.setHough Toy.farHough, .doHough false]
  (Toy.report ((w.step Toy.calEnv (.loadHough (Toy.farDisk w) "far".toList "npy".toList)).1.fit Toy.env Toy.args
      Toy.rnd),
   Toy.exception (World.fit Toy.env { w with cal := { w.cal with
      ht := o.cal.ht, houghLines := o.cal.houghLines, houghPoints := o.cal.houghPoints } } Toy.args Toy.rnd))

set_option synthInstance.maxHeartbeats 400000 in
set_option synthInstance.maxSize 2000 in
theorem Toy.farRun_eq : Toy.farRun = (some Toy.found, some .assertionError) := by
  decide +kernel

theorem Toy.farLoad : (Toy.ready.step Toy.calEnv
    (.loadHough (Toy.farDisk Toy.ready) "far".toList "npy".toList)).2 = .ok () := by
  have h : (Toy.ready.step Toy.calEnv
    (.loadHough (Toy.farDisk Toy.ready) "far".toList "npy".toList)).2.toOption = some () := by decide +kernel
  cases hr : (Toy.ready.step Toy.calEnv (.loadHough (Toy.farDisk Toy.ready) "far".toList "npy".toList)).2 with
  | error e => rw [hr] at h; cases h
  | ok u => rfl

/-- C134 (refutation).  A transform for 100000 to 106000 is saved and loaded into the calibrator of `Toy`; a search
along its lines finds no candidates, but the fit replaces the loaded transform by its own and succeeds. -/
theorem C134_refuted : ¬ C134_Statement := by
  intro h
  have e := h Toy.calEnv Toy.env Toy.ready Toy.farHough "far".toList Toy.args Toy.rnd Toy.farLoad
  have h1 := congrArg Prod.fst Toy.farRun_eq
  have h2 := congrArg Prod.snd Toy.farRun_eq
  unfold Toy.farRun at h1 h2
  dsimp only at h1 h2 e
  unfold Toy.report at h1
  unfold Toy.farDisk at h1
  rw [e] at h1
  unfold Toy.exception at h2
  split at h2
  · next x hx => rw [hx] at h1; cases h1
  · cases h2

/-- The hypothesis of `C134_ignored_partial` met: `far.npy` is loaded before any transform was made. -/
example := C134_ignored_partial Toy.calEnv Toy.env Toy.ready (.inl (by decide +kernel)) (Toy.farDisk Toy.ready)
  "far".toList "npy".toList Toy.args Toy.rnd

/-- `C134_dropped_partial` for a history with a transform, a load and new settings. -/
example := C134_dropped_partial Toy.calEnv Toy.ready
  [.doHough false, .loadHough (Toy.farDisk Toy.ready) "far".toList "npy".toList, .setHough { xbins := some 3 },
   .doHough true]

/-- The hypotheses of `C134_weights_only_partial` met: the transform is made, saved, binned anew by hand and loaded
back; the surface of `Toy.env` is the same for all histograms. -/
example := C134_weights_only_partial Toy.calEnv Toy.env (Toy.ready.steps Toy.calEnv [.doHough false])
  ⟨by decide +kernel, by decide +kernel⟩ (Toy.farDisk Toy.ready) "far".toList "npy".toList Toy.args Toy.rnd
  ⟨by
    have h1 : ((Toy.ready.steps Toy.calEnv [.doHough false]).step Toy.calEnv
      (.loadHough (Toy.farDisk Toy.ready) "far".toList "npy".toList)).1.cal.ht.xedges ≠ none := by decide +kernel
    have h2 : (Toy.ready.steps Toy.calEnv [.doHough false]).cal.ht.xedges ≠ none := by decide +kernel
    exact ⟨fun h => absurd h h1, fun h => absurd h h2⟩, fun _ _ _ _ => rfl⟩

/-- There the loaded histogram differs from the present one. -/
example : ((Toy.ready.steps Toy.calEnv [.doHough false]).step Toy.calEnv
    (.loadHough (Toy.farDisk Toy.ready) "far".toList "npy".toList)).1.cal.ht.yedges ≠
    (Toy.ready.steps Toy.calEnv [.doHough false]).cal.ht.yedges := by
  decide +kernel

end Rascal
