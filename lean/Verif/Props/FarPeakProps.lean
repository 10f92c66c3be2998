import Verif.Props.FarLineProps
import Verif.Props.InputsProps

/-! Property theorem C200: peaks that no line of the atlas can reach. -/

set_option linter.unusedSectionVars false

namespace Rascal

section
variable {K : Type _} [Field K] [LinearOrder K] [IsStrictOrderedRing K] [FloorRing K]

/-- The peak `p` can reach one of the lines inside the search space: `P` is the last pixel, the corners are those given in
the documentation of `constrain_poly`. -/
def Spec.CanReach (c : Cal K) (lines : List K) (candTol P p : K) : Prop :=
  ∃ v ∈ lines, Spec.InHull (0, c.hough.maxIntercept + candTol) (0, c.hough.minIntercept - candTol)
    (P, c.hough.maxW - c.hough.rangeTol - candTol) (P, c.hough.maxW + c.hough.rangeTol + candTol) (p, v)

/-- The same calibrator for other peaks. -/
def Cal.withPeaks (c : Cal K) (ps : List K) : Cal K := { c with peaks := ps }

/-- The same calibrator for other peaks, with its atlases. -/
def World.withPeaks (w : World K) (ps : List K) : World K := ⟨w.atlases, w.cal.withPeaks ps⟩

/-- The same outcome but for the peak utilisation, which is counted in `n` peaks. -/
def Spec.SameButPeakUtil (n : Nat) (x x' : CallRes (FitReport K)) : Prop :=
  match x with
  | .running => x' = .running
  | .done (.error e) => x' = .done (.error e)
  | .done (.ok r) => x' = .done (.ok { r with peakUtil := (r.matchedPeaks.length : K) / (n : K) })

open Spec

theorem flatMap_reach {α : Type _} (g : K → List α) (reach : K → Bool) (l : List K) (h : ∀ p ∈ l, reach p = false → g p = []) :
    l.flatMap g = (l.filter reach).flatMap g := by
  induction l with
  | nil => rfl
  | cons p l ih =>
    have ih := ih (fun q hq => h q (List.mem_cons_of_mem _ hq))
    cases hp : reach p with
    | true => rw [List.filter_cons_of_pos hp, List.flatMap_cons, List.flatMap_cons, ih]
    | false => rw [List.filter_cons_of_neg (by simp [hp]), List.flatMap_cons, h p (by simp) hp, List.nil_append, ih]

open Classical in
/-- C200, the combinations: peaks that reach no line make no difference to them. -/
theorem C200_same_pairs (w : World K) (ps : List K) (i : Nat) (t P : K) (at_ : Atlas K)
    (hi : w.atlases[i]? = some at_) (hp : w.cal.peaks ≠ []) (hp' : ps ≠ [])
    (hP : IsGreatest {p | p ∈ w.cal.props.pixelList} P)
    (h : w.cal.peaks.filter (fun p => decide (CanReach w.cal at_.getLines t P p)) =
      ps.filter (fun p => decide (CanReach w.cal at_.getLines t P p))) :
    ((w.withPeaks ps).setAtlas i t true).1 = (w.setAtlas i t true).1.withPeaks ps ∧
    ((w.withPeaks ps).setAtlas i t true).2 = (w.setAtlas i t true).2 := by
  unfold World.setAtlas World.generatePairs World.atlasLines World.withPeaks Cal.withPeaks
  simp only [hi]
  unfold Cal.generatePairs
  simp only [if_true]
  cases hx : w.cal.props.pixelList with
  | nil => exact ⟨rfl, rfl⟩
  | cons a l =>
    have hPe : listMax a l = P := by
      rw [hx] at hP
      refine le_antisymm (hP.2 (listMax_mem a l)) ?_
      rcases List.mem_cons.1 hP.1 with h1 | h1
      · rw [h1]; exact (le_listMax a l).1
      · exact (le_listMax a l).2 _ h1
    simp only [hPe]
    unfold Rascal.generatePairs
    simp only
    have hpoly : Cal.polygon { w.cal with peaks := ps, atlas := some i, candTol := some t, constrainPoly := true } t P =
        Cal.polygon { w.cal with atlas := some i, candTol := some t, constrainPoly := true } t P := rfl
    rw [hpoly]
    by_cases hf : Polygon.flat (Cal.polygon { w.cal with atlas := some i, candTol := some t, constrainPoly := true } t P) = true
    · simp only [hf, if_true, and_self]
    · have hP0 : P ≠ 0 := by
        intro h0
        apply hf
        unfold Polygon.flat Cal.polygon
        simp [h0]
      simp only [hf]
      by_cases hl : at_.getLines = []
      · have : ∀ l : List K, allPairs l ([] : List K) = [] := fun l => by simp [allPairs]
        simp only [hl, this, if_true]
        exact ⟨rfl, rfl⟩
      · have hne : ∀ qs : List K, qs ≠ [] → allPairs qs at_.getLines ≠ [] := by
          intro qs hqs
          obtain ⟨a, t, ht⟩ := List.exists_cons_of_ne_nil hqs
          obtain ⟨b, s, hb⟩ := List.exists_cons_of_ne_nil hl
          rw [ht, hb]
          simp [allPairs]
        simp only [hne _ hp, hne _ hp', if_false]
        have heq : (allPairs ps at_.getLines).filter
            (Polygon.inside (Cal.polygon { w.cal with atlas := some i, candTol := some t, constrainPoly := true } t P)) =
            (allPairs w.cal.peaks at_.getLines).filter
            (Polygon.inside (Cal.polygon { w.cal with atlas := some i, candTol := some t, constrainPoly := true } t P)) := by
          rw [filter_allPairs, filter_allPairs]
          have key : ∀ qs : List K, ∀ p ∈ qs, decide (CanReach w.cal at_.getLines t P p) = false →
              (at_.getLines.filter (fun v => Polygon.inside (Cal.polygon { w.cal with atlas := some i, candTol := some t, constrainPoly := true } t P) (p, v))).map (fun v => (p, v)) = [] := by
            intro qs p _ hr
            rw [decide_eq_false_iff_not] at hr
            rw [List.map_eq_nil_iff, List.filter_eq_nil_iff]
            intro v hv hin
            exact hr ⟨v, hv, (inside_iff_hull _ hP0 _).1 hin⟩
          rw [flatMap_reach _ _ ps (key ps), flatMap_reach _ _ w.cal.peaks (key w.cal.peaks), h]
        rw [boolMask_map_pred, boolMask_map_pred, heq]
        exact ⟨rfl, rfl⟩

theorem doHough_withPeaks (ak : List K → List Nat) (an : List Nat → List Nat) (b : Bool) (c : Cal K) (ps : List K) :
    (c.withPeaks ps).doHough ak an b = ((c.doHough ak an b).1.withPeaks ps, (c.doHough ak an b).2) := by
  obtain ⟨peaks, arr, props, hough, ransac, atlas, ct, cp, pairs, ht, hl, hp, known, mp, ma, co, rms, res, pu, au⟩ := c
  cases pairs with
  | none => rfl
  | some store =>
    unfold Cal.doHough
    dsimp only [Cal.withPeaks]
    cases (ht.setConstraints hough.minSlope hough.maxSlope (.fin hough.minIntercept) (.fin hough.maxIntercept)).2 with
    | error e => rfl
    | ok u =>
      cases store with
      | noColumns => rfl
      | array xy =>
        dsimp only
        generalize (if b = true then _ else _ : Hough K × PyRes Unit) = r2
        cases r2.2 with
        | error e => rfl
        | ok u =>
          dsimp only
          cases (r2.1.bin an hough.xbins.toNat hough.ybins.toNat).2 <;> rfl

/-- Further calls do not look at the peaks. -/
theorem keepsPairs_withPeaks (E : CalEnv K) (w : World K) (ps : List K) (op : SetOp K) (ho : op.keepsPairs) :
    ((w.withPeaks ps).step E op).1 = (w.step E op).1.withPeaks ps ∧ (w.step E op).1.atlases = w.atlases ∧
    (w.step E op).1.cal.atlas = w.cal.atlas := by
  refine ⟨?_, (keepsPairs_step E w w rfl op ho).2.2⟩
  cases op <;> simp only [SetOp.keepsPairs] at ho <;> unfold World.step
  case doHough b =>
    have := doHough_withPeaks E.argsortK E.argsortN b w.cal ps
    unfold World.withPeaks
    dsimp only
    rw [this]
  case setKnown p v =>
    unfold World.withPeaks Cal.setKnown
    dsimp only
    split_ifs <;> rfl
  all_goals rfl

theorem keepsPairs_steps_withPeaks (E : CalEnv K) (ops : List (SetOp K)) (ho : ∀ op ∈ ops, op.keepsPairs) (w : World K) (ps : List K) :
    (w.withPeaks ps).steps E ops = (w.steps E ops).withPeaks ps := by
  induction ops generalizing w with
  | nil => rfl
  | cons op ops ih =>
    unfold World.steps
    rw [List.foldl_cons, List.foldl_cons, (keepsPairs_withPeaks E w ps op (ho op (by simp))).1]
    exact ih (fun o hm => ho o (List.mem_cons_of_mem _ hm)) _

/-- Without a minimum utilisation the number of peaks has no influence on the loop. -/
theorem attempt_nPeaks (k : Kernels K) (c : RansacCfg K) (n : Nat) (hu : c.minUtil = 0) (d : Draw) (t : Trial) (s : Best K) :
    RansacCfg.attempt k { c with nPeaks := n } d t s = c.attempt k d t s := by
  have h1 : ∀ cost mp ma co, RansacCfg.judge k { c with nPeaks := n } cost mp ma co = c.judge k cost mp ma co := by
    intro cost mp ma co
    unfold RansacCfg.judge
    dsimp only
    rw [hu, zero_mul, zero_mul]
  have h2 : ∀ cost m s, RansacCfg.consider k { c with nPeaks := n } cost m s = c.consider k cost m s := by
    intro cost m s
    unfold RansacCfg.consider
    simp only [h1]
  have h3 : ∀ co m s, RansacCfg.compare k { c with nPeaks := n } co m s = c.compare k co m s := by
    intro co m s
    unfold RansacCfg.compare
    simp only [h2]
    rfl
  have h4 : ∀ data s, RansacCfg.evaluate k { c with nPeaks := n } data s = c.evaluate k data s := by
    intro data s
    unfold RansacCfg.evaluate
    simp only [h3]
    rfl
  unfold RansacCfg.attempt
  simp only [h4]
  rfl

theorem run_nPeaks (k : Kernels K) (c : RansacCfg K) (n : Nat) (hu : c.minUtil = 0) (ds : List Draw) (ts : List Trial) (s : Best K) :
    RansacCfg.run k { c with nPeaks := n } ds ts s = c.run k ds ts s := by
  induction ds generalizing ts s with
  | nil => cases ts <;> rfl
  | cons d ds ih =>
    cases ts with
    | nil => rfl
    | cons t ts =>
      unfold RansacCfg.run
      rw [attempt_nPeaks k c n hu]
      cases c.attempt k d t s with
      | retry => exact ih _ _
      | next s' => exact ih _ _
      | raised e s' => rfl

theorem solve_withPeaks (F : FitEnv K) (k : Kernels K) (c : Cal K) (ps lines : List K) (a : FitArgs K) (deg : Nat)
    (rnd : FitRandom K) (hlin : c.ransac.linear = true) (hu : c.ransac.minUtil = 0) :
    (c.withPeaks ps).solve F k lines a deg rnd =
      ((c.solve F k lines a deg rnd).1.withPeaks ps, (c.solve F k lines a deg rnd).2) := by
  have hcand : (c.withPeaks ps).candidates F k lines a.candTol rnd.uniform = c.candidates F k lines a.candTol rnd.uniform := by
    unfold Cal.candidates
    rw [show (c.withPeaks ps).ransac.linear = true from hlin, hlin]
    rfl
  unfold Cal.solve
  rw [hcand]
  cases c.candidates F k lines a.candTol rnd.uniform with
  | error e => rfl
  | ok cands =>
    dsimp only
    have hl : (c.withPeaks ps).candidateLists F cands = c.candidateLists F cands := rfl
    rw [hl]
    generalize c.candidateLists F cands = xy
    by_cases hd : (npUnique xy.1).length ≤ deg
    · rw [if_pos hd, if_pos hd]
    · rw [if_neg hd, if_neg hd]
      unfold Cal.solveLists
      dsimp only [Cal.withPeaks]
      generalize makeTrials a.brute c.ransac.sampleSize.toNat xy.1.length (npUnique xy.1).length a.maxTries = t
      have hden : Cal.density { c with peaks := ps, ransac := { c.ransac with sampleSize := (t.2 : Int) } } k =
          Cal.density { c with ransac := { c.ransac with sampleSize := (t.2 : Int) } } k := rfl
      rw [hden]
      cases Cal.density { c with ransac := { c.ransac with sampleSize := (t.2 : Int) } } k with
      | error e => rfl
      | ok d =>
        dsimp only
        cases startCost k xy.1 xy.2 a.fitCoeff with
        | error e => rfl
        | ok ce =>
          dsimp only
          have hrun := run_nPeaks k (Cal.ransacCfg { c with ransac := { c.ransac with sampleSize := (t.2 : Int) } } deg t.2
            xy.1 xy.2 d F.oneDim) ps.length hu rnd.tape t.1 ⟨ce.1, ce.2, none, none, 0, c.matchedPeaks, c.matchedAtlas⟩
          have hcfg : (Cal.ransacCfg { c with peaks := ps, ransac := { c.ransac with sampleSize := (t.2 : Int) } } deg t.2
              xy.1 xy.2 d F.oneDim) = { (Cal.ransacCfg { c with ransac := { c.ransac with sampleSize := (t.2 : Int) } } deg t.2
              xy.1 xy.2 d F.oneDim) with nPeaks := ps.length } := rfl
          rw [hcfg, hrun]
          cases (Cal.ransacCfg { c with ransac := { c.ransac with sampleSize := (t.2 : Int) } } deg t.2
            xy.1 xy.2 d F.oneDim).run k rnd.tape t.1 ⟨ce.1, ce.2, none, none, 0, c.matchedPeaks, c.matchedAtlas⟩ <;> rfl

theorem solve_peaks (F : FitEnv K) (k : Kernels K) (c : Cal K) (lines : List K) (a : FitArgs K) (deg : Nat) (rnd : FitRandom K) :
    (c.solve F k lines a deg rnd).1.peaks = c.peaks := by
  unfold Cal.solve
  split
  · rfl
  · dsimp only
    split
    · rfl
    · unfold Cal.solveLists
      dsimp only
      split
      · rfl
      · split
        · rfl
        · split <;> rfl

/-- C200, the fit: two calibrators that are the same but for the peaks give the same results, with the same random draws, if
candidates are linear, no minimum utilisation of the peaks is asked for and `minimum_matches` is at most the number of peaks
of both. -/
theorem C200_fit (F : FitEnv K) (w : World K) (ps : List K) (hlin : w.cal.ransac.linear = true) (hu : w.cal.ransac.minUtil = 0)
    (hp : w.cal.peaks ≠ []) (hp' : ps ≠ []) (hm : w.cal.ransac.minMatches ≤ (w.cal.peaks.length : Int))
    (hm' : w.cal.ransac.minMatches ≤ (ps.length : Int)) (a : FitArgs K) (rnd : FitRandom K) :
    SameButPeakUtil ps.length (w.fit F a rnd).2 ((w.withPeaks ps).fit F a rnd).2 := by
  unfold World.fit
  dsimp only
  by_cases hf : a.fitType = .other
  · rw [if_pos hf, if_pos hf]; rfl
  rw [if_neg hf, if_neg hf]
  have hl : (w.withPeaks ps).atlasLines = w.atlasLines := rfl
  rw [hl]
  cases w.atlasLines with
  | error e => rfl
  | ok lines =>
    dsimp only
    unfold Cal.fitWith
    dsimp only
    generalize hc1 : ({ w.cal with fitCoeff := a.fitCoeff, ransac := { w.cal.ransac with
      sampleSize := adjustSampleSize w.cal.ransac.sampleSize lines.length a.fitDeg } } : Cal K) = c1
    have hc1' : ({ (w.withPeaks ps).cal with fitCoeff := a.fitCoeff, ransac := { (w.withPeaks ps).cal.ransac with
        sampleSize := adjustSampleSize (w.withPeaks ps).cal.ransac.sampleSize lines.length a.fitDeg } } : Cal K) =
        c1.withPeaks ps := by rw [← hc1]; rfl
    rw [hc1']
    have hens : (c1.withPeaks ps).ensureHough F = ((c1.ensureHough F).1.withPeaks ps, (c1.ensureHough F).2) := by
      unfold Cal.ensureHough
      have h : ((c1.withPeaks ps).houghLines.isNone || (c1.withPeaks ps).houghPoints.isNone) =
          (c1.houghLines.isNone || c1.houghPoints.isNone) := rfl
      rw [h]
      by_cases hn : (c1.houghLines.isNone || c1.houghPoints.isNone) = true
      · rw [if_pos hn, if_pos hn]; exact doHough_withPeaks _ _ false c1 ps
      · rw [if_neg hn, if_neg hn]
    rw [hens]
    obtain ⟨h, l, p, hfr⟩ := ensureHough_frame F c1
    cases he : (c1.ensureHough F).2 with
    | error e => rfl
    | ok u =>
      dsimp only
      generalize hc2 : (c1.ensureHough F).1 = c2
      rw [hc2] at hfr
      have e1 : c2.ransac.linear = true := by rw [hfr, ← hc1]; exact hlin
      have e2 : c2.ransac.minUtil = 0 := by rw [hfr, ← hc1]; exact hu
      have e3 : c2.peaks = w.cal.peaks := by rw [hfr, ← hc1]
      have e4 : c2.ransac.minMatches = w.cal.ransac.minMatches := by rw [hfr, ← hc1]
      unfold Cal.fitSearch
      dsimp only
      have hadj : adjustMinMatches (c2.withPeaks ps).ransac.minMatches lines.length (c2.withPeaks ps).peaks.length =
          adjustMinMatches c2.ransac.minMatches lines.length c2.peaks.length := by
        change adjustMinMatches c2.ransac.minMatches lines.length ps.length = _
        rw [e3, e4]
        unfold adjustMinMatches
        dsimp only
        split_ifs <;> omega
      rw [hadj]
      generalize hc3 : ({ c2 with ransac := { c2.ransac with
        minMatches := adjustMinMatches c2.ransac.minMatches lines.length c2.peaks.length } } : Cal K) = c3
      have hc3' : ({ c2.withPeaks ps with ransac := { (c2.withPeaks ps).ransac with
          minMatches := adjustMinMatches c2.ransac.minMatches lines.length c2.peaks.length } } : Cal K) = c3.withPeaks ps := by
        rw [← hc3]; rfl
      rw [hc3']
      have e5 : c3.ransac.linear = true := by rw [← hc3]; exact e1
      have e6 : c3.ransac.minUtil = 0 := by rw [← hc3]; exact e2
      have e7 : c3.peaks = w.cal.peaks := by rw [← hc3]; exact e3
      rw [solve_withPeaks F _ c3 ps lines a a.degree rnd e5 e6]
      have hinl := solve_inliers F (F.kern a.fitType) c3 lines a a.degree rnd
      have hpk : (c3.solve F (F.kern a.fitType) lines a a.degree rnd).1.peaks = w.cal.peaks := by rw [solve_peaks, e7]
      generalize c3.solve F (F.kern a.fitType) lines a a.degree rnd = z at hinl hpk
      obtain ⟨c4, res⟩ := z
      dsimp only at hinl hpk ⊢
      cases res with
      | running => rfl
      | done res =>
        cases res with
        | error e => rfl
        | ok out =>
          dsimp only
          have hin := hinl out rfl
          have n1 : c4.peaks.length ≠ 0 := by rw [hpk]; simpa using hp
          have n2 : ps.length ≠ 0 := by simpa using hp'
          unfold Cal.finishFit
          change SameButPeakUtil ps.length _ (.done (match (utilisation out.inliers ps.length : PyRes (PyFloat K)) with
            | .error e => _ | .ok _ => _ : Cal K × PyRes (FitReport K)).2)
          unfold utilisation
          rw [if_neg n1, if_neg n2]
          dsimp only
          cases (if lines.length = 0 then (if out.inliers = 0 then .error .zeroDivision else .ok .posInf)
              else .ok (.fin ((out.inliers : K) / (lines.length : K))) : PyRes (PyFloat K)) with
          | error e => rfl
          | ok au =>
            dsimp only
            cases hco : out.coeffs with
            | none => rfl
            | some co =>
              rcases hin with hin | hin
              · dsimp only [SameButPeakUtil]
                rw [hin]
                rfl
              · rw [hco] at hin; cases hin

open Classical in
/-- C200.  Two calibrators differ by peaks that reach no line of the atlas inside the search space.  They are given the atlas
with `constrain_poly` and then the same further calls: all their attributes are the same but for the peaks, and `fit` with
linear candidates does the same in both, apart from the peak utilisation, if no minimum of it is asked for and
`minimum_matches` is at most the number of peaks. -/
theorem C200_far_peaks (F : FitEnv K) (E : CalEnv K) (w : World K) (ps : List K) (i : Nat) (t P : K) (at_ : Atlas K)
    (hi : w.atlases[i]? = some at_) (hp : w.cal.peaks ≠ []) (hp' : ps ≠ [])
    (hP : IsGreatest {p | p ∈ w.cal.props.pixelList} P)
    (h : w.cal.peaks.filter (fun p => decide (CanReach w.cal at_.getLines t P p)) =
      ps.filter (fun p => decide (CanReach w.cal at_.getLines t P p)))
    (ops : List (SetOp K)) (ho : ∀ op ∈ ops, op.keepsPairs) :
    let w1 := World.steps E (w.setAtlas i t true).1 ops
    let w1' := World.steps E ((w.withPeaks ps).setAtlas i t true).1 ops
    w1' = w1.withPeaks ps ∧
    (w1.cal.ransac.linear = true → w1.cal.ransac.minUtil = 0 → w1.cal.ransac.minMatches ≤ (w1.cal.peaks.length : Int) →
      w1.cal.ransac.minMatches ≤ (ps.length : Int) → ∀ (a : FitArgs K) (rnd : FitRandom K),
        SameButPeakUtil ps.length (w1.fit F a rnd).2 (w1'.fit F a rnd).2) := by
  intro w1 w1'
  have h1 : w1' = w1.withPeaks ps := by
    change World.steps E ((w.withPeaks ps).setAtlas i t true).1 ops = _
    rw [(C200_same_pairs w ps i t P at_ hi hp hp' hP h).1]
    exact keepsPairs_steps_withPeaks E ops ho _ ps
  have h2 : w1.cal.peaks = w.cal.peaks := by
    have hs : ∀ (ops : List (SetOp K)) (_ : ∀ op ∈ ops, op.keepsPairs) (v : World K), (v.steps E ops).cal.peaks = v.cal.peaks := by
      intro ops ho
      induction ops with
      | nil => intro v; rfl
      | cons op ops ih =>
        intro v
        have e := ih (fun o hm => ho o (List.mem_cons_of_mem _ hm)) (v.step E op).1
        have e2 := (keepsPairs_withPeaks E v v.cal.peaks op (ho op (by simp))).1
        have e3 : v.withPeaks v.cal.peaks = v := rfl
        rw [e3] at e2
        unfold World.steps at e ⊢
        rw [List.foldl_cons, e, e2]
        rfl
    change (World.steps E (w.setAtlas i t true).1 ops).cal.peaks = _
    rw [hs ops ho]
    obtain ⟨p, hset⟩ := World.setAtlas_frame w i t true
    rw [hset]
  refine ⟨h1, fun hlin hu g1 g2 a rnd => ?_⟩
  rw [h1]
  exact C200_fit F w1 ps hlin hu (by rw [h2]; exact hp) hp' g1 g2 a rnd

/-- The calls made before there is an atlas. -/
def SetOp.beforeAtlas : SetOp K → Prop
  | .setCalibrator _ _ _ | .useMatplotlib | .usePlotly | .setHough _ | .setRansac _ | .setKnown _ _ => True
  | _ => False

theorem beforeAtlas_steps (E : CalEnv K) (ops : List (SetOp K)) (ho : ∀ op ∈ ops, op.beforeAtlas) (w : World K) (ps : List K)
    (ha : w.cal.atlas = none) :
    (w.withPeaks ps).steps E ops = (w.steps E ops).withPeaks ps ∧ (w.steps E ops).atlases = w.atlases ∧
    (w.steps E ops).cal.peaks = w.cal.peaks := by
  induction ops generalizing w with
  | nil => exact ⟨rfl, rfl, rfl⟩
  | cons op ops ih =>
    have key : ((w.withPeaks ps).step E op).1 = (w.step E op).1.withPeaks ps ∧ (w.step E op).1.atlases = w.atlases ∧
        (w.step E op).1.cal.peaks = w.cal.peaks ∧ (w.step E op).1.cal.atlas = none := by
      have hop := ho op (by simp)
      cases op <;> simp only [SetOp.beforeAtlas] at hop <;> unfold World.step
      case setHough a =>
        unfold World.setHough World.withPeaks Cal.withPeaks
        dsimp only
        rw [ha]
        cases (HoughSet.apply (some w.cal.hough) a w.cal.props.pixelList).2 with
        | error e => exact ⟨rfl, rfl, rfl, rfl⟩
        | ok u => exact ⟨rfl, rfl, rfl, rfl⟩
      case setKnown p v =>
        unfold World.withPeaks Cal.setKnown
        dsimp only
        split_ifs <;> exact ⟨rfl, rfl, rfl, ha⟩
      all_goals exact ⟨rfl, rfl, rfl, ha⟩
    obtain ⟨k1, k2, k3, k4⟩ := key
    obtain ⟨g1, g2, g3⟩ := ih (fun o hm => ho o (List.mem_cons_of_mem _ hm)) (w.step E op).1 k4
    unfold World.steps at g1 g2 g3 ⊢
    rw [List.foldl_cons, List.foldl_cons, k1]
    exact ⟨g1, g2.trans k2, g3.trans k3⟩

/-- New calibrators for peaks with the same largest one, or with the same spectrum, only differ in the peaks. -/
theorem new_withPeaks (interp : List K → PyRes Unit) (peaks ps : List K) (arr : Bool) (spectrum : Option (List K)) (c : Cal K)
    (h : spectrum ≠ none ∨ ∃ m, IsGreatest {p | p ∈ peaks} m ∧ IsGreatest {p | p ∈ ps} m)
    (hc : Cal.new interp peaks arr spectrum = .ok c) : Cal.new interp ps arr spectrum = .ok (c.withPeaks ps) := by
  have hd : defaultNumPix ps spectrum = defaultNumPix peaks spectrum := by
    unfold defaultNumPix
    cases spectrum with
    | some s => rfl
    | none =>
      rcases h with h | ⟨m, h1, h2⟩
      · exact absurd rfl h
      · have key : ∀ (a : K) (l : List K), IsGreatest {p | p ∈ a :: l} m → listMax a l = m := by
          intro a l hg
          refine le_antisymm (hg.2 (listMax_mem a l)) ?_
          rcases List.mem_cons.1 hg.1 with e | e
          · rw [e]; exact (le_listMax a l).1
          · exact (le_listMax a l).2 _ e
        cases peaks with
        | nil => simp [IsGreatest] at h1
        | cons a l =>
          cases ps with
          | nil => simp [IsGreatest] at h2
          | cons b l' =>
            dsimp only
            rw [key a l h1, key b l' h2]
  unfold Cal.new CalProps.init at hc ⊢
  rw [hd]
  cases hn : defaultNumPix peaks spectrum with
  | error e => rw [hn] at hc; cases hc
  | ok n =>
    rw [hn] at hc
    dsimp only at hc ⊢
    cases hi : interp (arangeTo n) with
    | error e => rw [hi] at hc; cases hc
    | ok u =>
      rw [hi] at hc
      dsimp only at hc ⊢
      split at hc
      · cases hc
      · rw [← Except.ok.inj hc]; rfl

open Classical in
/-- C200, a whole calibration: two calibrators are made for peaks that differ by some that reach no line, are configured
alike, given the same atlas with `constrain_poly`, and configured further; then `fit` does the same in both. -/
theorem C200_calibration (F : FitEnv K) (E : CalEnv K) (interp : List K → PyRes Unit) (peaks ps : List K) (arr : Bool)
    (spectrum : Option (List K)) (c : Cal K)
    (hg : spectrum ≠ none ∨ ∃ m, IsGreatest {p | p ∈ peaks} m ∧ IsGreatest {p | p ∈ ps} m) (hp : peaks ≠ []) (hp' : ps ≠ [])
    (hc : Cal.new interp peaks arr spectrum = .ok c) (atlases : List (Atlas K)) (before after : List (SetOp K))
    (hb : ∀ op ∈ before, op.beforeAtlas) (ha : ∀ op ∈ after, op.keepsPairs) (i : Nat) (t P : K) (at_ : Atlas K)
    (hi : atlases[i]? = some at_) :
    let w0 := World.steps E ⟨atlases, c⟩ before
    let w1 := World.steps E (w0.setAtlas i t true).1 after
    IsGreatest {p | p ∈ w0.cal.props.pixelList} P →
    peaks.filter (fun p => decide (CanReach w0.cal at_.getLines t P p)) =
      ps.filter (fun p => decide (CanReach w0.cal at_.getLines t P p)) →
    ∃ c', Cal.new interp ps arr spectrum = .ok c' ∧
      let w1' := World.steps E (World.setAtlas (World.steps E ⟨atlases, c'⟩ before) i t true).1 after
      w1' = w1.withPeaks ps ∧
      (w1.cal.ransac.linear = true → w1.cal.ransac.minUtil = 0 → w1.cal.ransac.minMatches ≤ (w1.cal.peaks.length : Int) →
        w1.cal.ransac.minMatches ≤ (ps.length : Int) → ∀ (a : FitArgs K) (rnd : FitRandom K),
          SameButPeakUtil ps.length (w1.fit F a rnd).2 (w1'.fit F a rnd).2) := by
  intro w0 w1 hP h
  have hatlas : c.atlas = none ∧ c.peaks = peaks := by
    unfold Cal.new at hc
    split at hc
    · cases hc
    · split at hc
      · cases hc
      · rw [← Except.ok.inj hc]; exact ⟨rfl, rfl⟩
  refine ⟨c.withPeaks ps, new_withPeaks interp peaks ps arr spectrum c hg hc, ?_⟩
  obtain ⟨b1, b2, b3⟩ := beforeAtlas_steps E before hb ⟨atlases, c⟩ ps hatlas.1
  have e0 : w0.cal.peaks = peaks := b3.trans hatlas.2
  have b1' : World.steps E ⟨atlases, c.withPeaks ps⟩ before = w0.withPeaks ps := b1
  rw [b1']
  exact C200_far_peaks F E w0 ps i t P at_ (by rw [show w0.atlases = atlases from b2]; exact hi) (by rw [e0]; exact hp) hp' hP
    (by rw [e0]; exact h) after ha

end

/-! ### a concrete case -/

open Spec

/-- What is set before the atlas. -/
def Toy.farBefore : List (SetOp ℚ) :=
  [.setHough { numSlopes := some 5, xbins := some 4, ybins := some 4 }, .setRansac { sampleSize := some 2, minFitError := some 0 }]

/-- Three matches are required. -/
def Toy.farAfter : List (SetOp ℚ) := [.setRansac { minMatches := some 3 }]

set_option synthInstance.maxHeartbeats 400000 in
set_option synthInstance.maxSize 2000 in
/-- Four peaks and a fifth one at pixel 16, where the search space holds the wavelengths between about 4600 and 5700: the
result is the same, with peak utilisation 4/5 instead of 1. -/
example : ∃ (c c' : Cal ℚ) (r : FitReport ℚ), Cal.new (fun _ => .ok ()) [10, 20, 31, 41] true none = .ok c ∧
    Cal.new (fun _ => .ok ()) [10, 16, 20, 31, 41] true none = .ok c' ∧
    (World.fit Toy.env (World.steps Toy.calEnv (World.setAtlas (World.steps Toy.calEnv
      ⟨[Toy.atlasOf [4500, 5900, 7440, 8840]], c⟩ Toy.farBefore) 0 10 true).1 Toy.farAfter) (Toy.fourArgs 1) Toy.farRnd).2 =
        .done (.ok r) ∧ r.coeffs = [3100, 140] ∧ r.peakUtil = 1 ∧
    (World.fit Toy.env (World.steps Toy.calEnv (World.setAtlas (World.steps Toy.calEnv
      ⟨[Toy.atlasOf [4500, 5900, 7440, 8840]], c'⟩ Toy.farBefore) 0 10 true).1 Toy.farAfter) (Toy.fourArgs 1) Toy.farRnd).2 =
        .done (.ok { r with peakUtil := 4 / 5 }) := by
  have hcalc : (Cal.new (fun _ => .ok ()) ([10, 20, 31, 41] : List ℚ) true none).toOption.bind (fun c =>
      let w0 := World.steps Toy.calEnv ⟨[Toy.atlasOf [4500, 5900, 7440, 8840]], c⟩ Toy.farBefore
      let w1 := World.steps Toy.calEnv (w0.setAtlas 0 10 true).1 Toy.farAfter
      (Toy.report (w1.fit Toy.env (Toy.fourArgs 1) Toy.farRnd)).map (fun r => ((r.coeffs, r.peakUtil, r.matchedPeaks.length),
        (w0.cal.props.pixelList.all (fun p => decide (p ≤ 45)), decide ((45 : ℚ) ∈ w0.cal.props.pixelList)),
        (w0.cal.hough.maxIntercept, w0.cal.hough.minIntercept, w0.cal.hough.maxW, w0.cal.hough.rangeTol),
        (w1.cal.ransac.linear, w1.cal.ransac.minUtil, w1.cal.ransac.minMatches, w1.cal.peaks.length)))) =
      some (([3100, 140], 1, 4), (true, true), (3500, 2500, 9000, 500), (true, 0, 3, 4)) := by
    decide +kernel
  cases hc : Cal.new (fun _ => .ok ()) ([10, 20, 31, 41] : List ℚ) true none with
  | error e => rw [hc] at hcalc; simp [Except.toOption] at hcalc
  | ok c =>
    rw [hc] at hcalc
    simp only [Except.toOption, Option.bind_some, Option.map_eq_some_iff, Prod.mk.injEq, decide_eq_true_eq,
      List.all_eq_true] at hcalc
    obtain ⟨r, hr, ⟨c1, c2, c3⟩, ⟨c4, c5⟩, ⟨c6, c7, c8, c9⟩, c10, c11, c12, c13⟩ := hcalc
    have hgr : IsGreatest {p | p ∈ ([10, 20, 31, 41] : List ℚ)} 41 ∧ IsGreatest {p | p ∈ ([10, 16, 20, 31, 41] : List ℚ)} 41 := by
      refine ⟨⟨by simp, fun p hp => ?_⟩, ⟨by simp, fun p hp => ?_⟩⟩ <;>
        simp only [Set.mem_setOf_eq, List.mem_cons, List.not_mem_nil, or_false] at hp
      · rcases hp with rfl | rfl | rfl | rfl <;> norm_num
      · rcases hp with rfl | rfl | rfl | rfl | rfl <;> norm_num
    have hfar : ¬ CanReach (World.steps Toy.calEnv ⟨[Toy.atlasOf [4500, 5900, 7440, 8840]], c⟩ Toy.farBefore).cal
        (Toy.atlasOf [4500, 5900, 7440, 8840]).getLines 10 45 16 := by
      rintro ⟨v, hv, wa, wb, wc, wd, h1, h2, h3, h4, h5, h6, h7⟩
      dsimp only at h6 h7
      rw [c6, c7, c8, c9] at h7
      have hv : v = 4500 ∨ v = 5900 ∨ v = 7440 ∨ v = 8840 := by
        simpa [Toy.atlasOf, Atlas.getLines] using hv
      rcases hv with rfl | rfl | rfl | rfl <;> linarith
    obtain ⟨c', n1, n2, n3⟩ := C200_calibration Toy.env Toy.calEnv (fun _ => .ok ()) [10, 20, 31, 41] [10, 16, 20, 31, 41] true none c
      (Or.inr ⟨41, hgr⟩) (by simp) (by simp) hc [Toy.atlasOf [4500, 5900, 7440, 8840]] Toy.farBefore Toy.farAfter
      (by intro op ho; simp only [Toy.farBefore, List.mem_cons, List.not_mem_nil, or_false] at ho; rcases ho with rfl | rfl <;> trivial)
      (by intro op ho; rw [List.mem_singleton.1 ho]; trivial) 0 10 45 _ rfl ⟨c5, fun p hp => c4 p hp⟩ (by
        classical
        simp [List.filter_cons, hfar])
    have := n3 c10 c11 (by rw [c12, c13]; decide) (by rw [c12]; decide) (Toy.fourArgs 1) Toy.farRnd
    rw [Toy.report_some _ _ hr] at this
    refine ⟨c, c', r, rfl, n1, Toy.report_some _ _ hr, c1, c2, ?_⟩
    rw [this, c3]
    norm_num

end Rascal
