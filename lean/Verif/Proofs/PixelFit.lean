import Verif.Proofs.PixelRansac

/-! Effect of a change of the pixel scale on `fit`. -/

set_option linter.unusedSectionVars false

namespace Rascal

open Spec

variable {K : Type _} [Field K] [LinearOrder K] [IsStrictOrderedRing K]

/-- The density on the new pixel scale (src/rascal/calibrator.py:497-509). -/
def Spec.pixDensity (s : K) : Density K → Density K
  | .absent => .absent
  | .unbound => .unbound
  | .spline w f => .spline w (fun x y => f (s * x) y)

/-- The result of the search on the new pixel scale (src/rascal/calibrator.py:752). -/
def Spec.pixSolve (s : K) (o : SolveOut K) : SolveOut K := { o with coeffs := o.coeffs.map (pixCoeffs s) }

/-- The outcome of the search on the new pixel scale (src/rascal/calibrator.py:382-752). -/
def Spec.pixSolveCall (s : K) : CallRes (SolveOut K) → CallRes (SolveOut K)
  | .running => .running
  | .done (.error e) => .done (.error e)
  | .done (.ok o) => .done (.ok (pixSolve s o))

section
variable {s : K} (hs : 0 < s)
include hs

theorem candidates_pix (F : FitEnv K) (c : Cal K) (k : Kernels K) (hk : PixelKernels k s) (lines : List K) (tol : K)
    (u : Nat → K) :
    (pixCal s c).candidates F k lines tol u = (c.candidates F k lines tol u).map (List.map (pixCand s)) := by
  unfold Cal.candidates
  simp only [show (pixCal s c).houghLines = c.houghLines.map (fun l => l.map (pixLine s)) from rfl,
    show (pixCal s c).pairs = c.pairs.map (pixPairStore s) from rfl,
    show (pixCal s c).fitCoeff = c.fitCoeff.map (pixCoeffs s) from rfl,
    show (pixCal s c).ransac.linear = c.ransac.linear from rfl,
    show (pixCal s c).hough.rangeTol = c.hough.rangeTol from rfl,
    show (pixCal s c).hough.linTol = c.hough.linTol from rfl,
    show (pixCal s c).peaks = c.peaks.map (fun v => s * v) from rfl,
    show (pixCal s c).peaksAreArray = c.peaksAreArray from rfl]
  cases c.houghLines with
  | none => rfl
  | some hl =>
    simp only [Option.map_some]
    split
    · cases c.pairs with
      | none => rfl
      | some st =>
        cases st with
        | noColumns =>
          simp only [Option.map_some, pixPairStore, List.map_eq_nil_iff]
          split <;> rfl
        | array pairs =>
          simp only [Option.map_some, pixPairStore, Except.map, candidatesLinear_pix hs]
    · cases c.fitCoeff with
      | none => rfl
      | some co =>
        simp only [Option.map_some, List.length_map]
        exact candidatesPoly_pix hs _ tol _ _ _ (k.polyval co) _ (hk.polyval co) _

theorem candidateLists_pix (F : FitEnv K) (c : Cal K) (cands : List (Cand K)) :
    (pixCal s c).candidateLists F (cands.map (pixCand s)) =
      ((c.candidateLists F cands).1.map (fun v => s * v), (c.candidateLists F cands).2) := by
  unfold Cal.candidateLists
  simp only [show (pixCal s c).ransac = c.ransac from rfl, mostCommon_pix hs, filterClose_pix hs]
  split <;> rfl

theorem density_pix (k : Kernels K) (hk : PixelKernels k s) (c : Cal K) :
    (pixCal s c).density k = (c.density k).map (pixDensity s) := by
  unfold Cal.density
  simp only [show (pixCal s c).ht.xedges = c.ht.xedges.map (fun l => l.map (fun v => v / s)) from rfl,
    show (pixCal s c).ht.yedges = c.ht.yedges from rfl,
    show (pixCal s c).ht.hist = c.ht.hist from rfl,
    show (pixCal s c).ransac.houghWeight = c.ransac.houghWeight from rfl]
  cases c.ht.xedges with
  | none => rfl
  | some xe =>
    simp only [Option.map_some]
    cases c.ransac.houghWeight.toFinite with
    | none => rfl
    | some w =>
      dsimp only
      rw [binCentres_map (s := s⁻¹) (inv_pos.2 hs) (fun v => v / s) 0
        (fun v => by rw [div_eq_inv_mul, add_zero]), hk.spline]
      cases k.spline (binCentres xe) (binCentres (c.ht.yedges.getD [])) (c.ht.hist.getD []) <;> rfl

theorem weight_pix (k : Kernels K) (c : RansacCfg K) (hd : ∀ w f, c.density = .spline w f → w = 0) (co : List K) :
    (pixCfg s c (pixDensity s c.density)).weight k (pixCoeffs s co) = c.weight k co := by
  unfold RansacCfg.weight
  have hnil : derivativeCoeffs (pixCoeffs s co) = [] ↔ derivativeCoeffs co = [] := by
    unfold derivativeCoeffs
    simp only [List.map_eq_nil_iff, pixCoeffs_length hs]
  simp only [hnil, show (pixCfg s c (pixDensity s c.density)).density = pixDensity s c.density from rfl]
  split
  · rfl
  · cases hcd : c.density with
    | absent => rfl
    | unbound => rfl
    | spline w f => simp only [pixDensity, hd w f hcd, zero_mul]

theorem startCost_pix (k : Kernels K) (hk : PixelKernels k s) (x y : List K) (fc : Option (List K)) :
    startCost k (x.map (fun v => s * v)) y (fc.map (pixCoeffs s)) = startCost k x y fc := by
  cases fc with
  | none => rfl
  | some co =>
    cases co with
    | nil => rfl
    | cons a l =>
      have hm := matchBijective_pix hs (k.polyval (a :: l)) (k.polyval (pixCoeffs s (a :: l)))
        (hk.polyval (a :: l)) (candTable x y) (candTable (x.map (fun v => s * v)) y)
        (candTable_pix hs x y) (npUnique x)
      simp only [Option.map_some, pixCoeffs] at hm ⊢
      unfold startCost
      dsimp only
      rw [npUnique_pix hs, hm]
      cases matchBijective (k.polyval (a :: l)) (candTable x y) (npUnique x) with
      | error e => rfl
      | ok m =>
        have : (m.map (pixMatch s)).map (fun e => e.1) = m.map (fun e => e.1) := by rw [List.map_map]; rfl
        simp only [Except.map, this]

theorem finishSolve_pix (deg : Nat) (b : Best K) :
    CallRes.done (finishSolve deg (pixBest s b)) = pixSolveCall s (.done (finishSolve deg b)) := by
  unfold finishSolve pixBest
  simp only [List.length_map]
  split <;> rfl

theorem solveLists_pix [FloorRing K] (F : FitEnv K) (k : Kernels K) (hk : PixelKernels k s)
    (c : Cal K) (a : FitArgs K) (deg : Nat) (rnd : FitRandom K) (x y pixels : List K) (hx : ∀ p ∈ x, p ∈ pixels)
    (hmon : SameMonotone k s deg pixels) (h1 : 1 ≤ deg)
    (hb : a.brute = false) (h2 : deg < c.ransac.sampleSize.toNat) (h3 : deg < (npUnique x).length)
    (hd : NoWeight c) :
    (pixCal s c).solveLists F k (pixArgs s a) deg rnd (x.map (fun v => s * v)) y =
      (pixCal s (c.solveLists F k a deg rnd x y).1, pixSolveCall s (c.solveLists F k a deg rnd x y).2) := by
  unfold Cal.solveLists
  rw [npUnique_pix hs, List.length_map, List.length_map]
  simp only [show (pixCal s c).ransac = c.ransac from rfl,
    show (pixArgs s a).brute = a.brute from rfl, show (pixArgs s a).maxTries = a.maxTries from rfl,
    show (pixArgs s a).fitCoeff = a.fitCoeff.map (pixCoeffs s) from rfl]
  have hdet : ∀ (c1 : RansacCfg K), c1.x = x → c1.fitDeg = deg →
      c1.sampleSize = (makeTrials a.brute c.ransac.sampleSize.toNat x.length (npUnique x).length a.maxTries).2 →
      ∀ tr ∈ (makeTrials a.brute c.ransac.sampleSize.toNat x.length (npUnique x).length a.maxTries).1, ∀ d data,
        c1.sample d tr = .ok (some data) → Determined data.1 c1.fitDeg := by
    rintro c1 rfl rfl hn
    exact random_determined c1 _ _ _ _ hb h2 h3 hn
  generalize makeTrials a.brute c.ransac.sampleSize.toNat x.length (npUnique x).length a.maxTries = tr at hdet ⊢
  have hc1 : ({ pixCal s c with ransac := { c.ransac with sampleSize := (tr.2 : Int) } } : Cal K) =
      pixCal s { c with ransac := { c.ransac with sampleSize := (tr.2 : Int) } } := rfl
  rw [hc1, density_pix hs k hk]
  have hden : Cal.density { c with ransac := { c.ransac with sampleSize := (tr.2 : Int) } } k = c.density k := rfl
  rw [hden]
  cases hdc : c.density k with
  | error e => rfl
  | ok d =>
    simp only [Except.map]
    rw [startCost_pix hs k hk]
    cases startCost k x y a.fitCoeff with
    | error e => rfl
    | ok q =>
      dsimp only
      have hcfg : (pixCal s { c with ransac := { c.ransac with sampleSize := (tr.2 : Int) } }).ransacCfg deg tr.2
          (x.map (fun v => s * v)) y (pixDensity s d) F.oneDim =
          pixCfg s (Cal.ransacCfg { c with ransac := { c.ransac with sampleSize := (tr.2 : Int) } } deg tr.2 x y d
            F.oneDim) (pixDensity s d) := by
        simp only [Cal.ransacCfg, pixCfg, pixCal, pixProps, pixHoughSet, List.length_map]
      rw [hcfg]
      have hr := run_pix hs k hk
        (Cal.ransacCfg { c with ransac := { c.ransac with sampleSize := (tr.2 : Int) } } deg tr.2 x y d F.oneDim)
        (show 2 ≤ (npUnique x).length by omega) (pixDensity s d)
        (fun co => weight_pix hs k (Cal.ransacCfg { c with ransac := { c.ransac with sampleSize := (tr.2 : Int) } }
          deg tr.2 x y d F.oneDim) (density_noWeight c k hd d hdc) co)
        (fun xs ys co hco => by
          have := hmon (npUnique x) (npUnique_sorted x) h3 (fun p hp => hx p ((mem_npUnique _ _).1 hp)) xs ys co hco
          unfold RansacCfg.monotoneOk
          rw [show (pixCfg s (Cal.ransacCfg { c with ransac := { c.ransac with sampleSize := (tr.2 : Int) } } deg
            tr.2 x y d F.oneDim) (pixDensity s d)).x = x.map (fun v => s * v) from rfl, npUnique_pix hs]
          exact this) rnd.tape tr.1
        ⟨q.1, q.2, none, none, 0, c.matchedPeaks, c.matchedAtlas⟩ (hdet _ rfl rfl rfl)
      have hb0 : (⟨q.1, q.2, none, none, 0, (pixCal s c).matchedPeaks, (pixCal s c).matchedAtlas⟩ : Best K) =
          pixBest s ⟨q.1, q.2, none, none, 0, c.matchedPeaks, c.matchedAtlas⟩ := rfl
      rw [hb0, hr]
      generalize (Cal.ransacCfg { c with ransac := { c.ransac with sampleSize := (tr.2 : Int) } } deg tr.2
        x y d F.oneDim).run k rnd.tape tr.1 ⟨q.1, q.2, none, none, 0, c.matchedPeaks, c.matchedAtlas⟩ = r
      cases r with
      | running b => rfl
      | raised e b => rfl
      | finished b =>
        simp only [pixRun]
        rw [finishSolve_pix hs]
        rfl

theorem solve_pix [FloorRing K] (F : FitEnv K) (k : Kernels K) (hk : PixelKernels k s)
    (c : Cal K) (lines : List K) (a : FitArgs K) (deg : Nat) (rnd : FitRandom K)
    (hmon : SameMonotone k s deg (c.peaks ++ c.pairList.map Prod.fst)) (h1 : 1 ≤ deg)
    (hb : a.brute = false) (h2 : deg < c.ransac.sampleSize.toNat) (hd : NoWeight c) :
    (pixCal s c).solve F k lines (pixArgs s a) deg rnd =
      (pixCal s (c.solve F k lines a deg rnd).1, pixSolveCall s (c.solve F k lines a deg rnd).2) := by
  unfold Cal.solve
  rw [show (pixArgs s a).candTol = a.candTol from rfl, candidates_pix hs F c k hk]
  cases hcs : c.candidates F k lines a.candTol rnd.uniform with
  | error e => rfl
  | ok cands =>
    simp only [Except.map, candidateLists_pix hs F]
    rw [npUnique_pix hs, List.length_map]
    split
    · rfl
    · rename_i hlen
      exact solveLists_pix hs F k hk c a deg rnd _ _ _
        (fun p hp => candidates_peaks F c k lines _ _ cands hcs p (candidateLists_peaks F c cands p hp))
        hmon h1 hb h2 (Nat.lt_of_not_le hlen) hd

theorem finishFit_pix (c : Cal K) (n : Nat) (o : SolveOut K) :
    ((pixCal s c).finishFit n (pixSolve s o)).1 = pixCal s (c.finishFit n o).1 ∧
    CallRes.done ((pixCal s c).finishFit n (pixSolve s o)).2 = pixOutcome s (.done (c.finishFit n o).2) := by
  unfold Cal.finishFit
  rw [show (pixSolve s o).inliers = o.inliers from rfl,
    show (pixCal s c).peaks.length = c.peaks.length from List.length_map ..,
    show (pixSolve s o).coeffs = o.coeffs.map (pixCoeffs s) from rfl]
  cases (utilisation o.inliers c.peaks.length : PyRes (PyFloat K)) with
  | error e => exact ⟨rfl, rfl⟩
  | ok _ =>
    dsimp only
    cases (utilisation o.inliers n : PyRes (PyFloat K)) with
    | error e => exact ⟨rfl, rfl⟩
    | ok au => cases o.coeffs <;> exact ⟨rfl, rfl⟩

theorem fitSearch_pix [FloorRing K] (F : FitEnv K) (c : Cal K) (lines : List K) (a : FitArgs K) (rnd : FitRandom K)
    (hk : PixelKernels (F.kern a.fitType) s)
    (hmon : SameMonotone (F.kern a.fitType) s a.degree (c.peaks ++ c.pairList.map Prod.fst)) (h1 : 1 ≤ a.degree)
    (hb : a.brute = false) (h2 : a.degree < c.ransac.sampleSize.toNat) (hd : NoWeight c) :
    (pixCal s c).fitSearch F lines (pixArgs s a) rnd =
      (pixCal s (c.fitSearch F lines a rnd).1, pixOutcome s (c.fitSearch F lines a rnd).2) := by
  unfold Cal.fitSearch
  have hdeg : (pixArgs s a).degree = a.degree := by
    unfold FitArgs.degree pixArgs
    cases a.fitCoeff with
    | none => rfl
    | some co => simp [pixCoeffs_length hs]
  simp only [hdeg, show (pixArgs s a).fitType = a.fitType from rfl]
  rw [show (pixCal s c).peaks.length = c.peaks.length from List.length_map ..,
    show (pixCal s c).ransac = c.ransac from rfl]
  generalize adjustMinMatches c.ransac.minMatches lines.length c.peaks.length = m
  have h := solve_pix hs F (F.kern a.fitType) hk { c with ransac := { c.ransac with minMatches := m } } lines a
    a.degree rnd hmon h1 hb h2 hd
  rw [show ({ pixCal s c with ransac := { c.ransac with minMatches := m } } : Cal K) =
    pixCal s { c with ransac := { c.ransac with minMatches := m } } from rfl, h]
  generalize Cal.solve F (F.kern a.fitType) { c with ransac := { c.ransac with minMatches := m } } lines a
    a.degree rnd = r
  obtain ⟨c2, o⟩ := r
  cases o with
  | running => rfl
  | done r =>
    cases r with
    | error e => rfl
    | ok o =>
      obtain ⟨g1, g2⟩ := finishFit_pix hs c2 lines.length o
      simp only [pixSolveCall]
      rw [g1, g2]

theorem ensureHough_pix (F : FitEnv K) (ha : ScaleFreeSort s F.argsortK) (c : Cal K)
    (hp : ∀ pts, (c.ensureHough F).1.ht.points = some (.array pts) → SpreadSlopes pts) :
    (pixCal s c).ensureHough F = (pixCal s (c.ensureHough F).1, (c.ensureHough F).2) := by
  unfold Cal.ensureHough at hp ⊢
  have h1 : ((pixCal s c).houghLines.isNone || (pixCal s c).houghPoints.isNone) =
      (c.houghLines.isNone || c.houghPoints.isNone) := by
    simp only [pixCal, Option.isNone_map]
  rw [h1]
  split at hp
  · rename_i h
    simp only [h, if_true]
    exact doHough_pix hs c F.argsortK ha F.argsortN false hp
  · rename_i h
    simp only [h]
    rfl

theorem fitWith_pix [FloorRing K] (F : FitEnv K) (ha : ScaleFreeSort s F.argsortK)
    (c : Cal K) (lines : List K) (a : FitArgs K) (rnd : FitRandom K)
    (hk : PixelKernels (F.kern a.fitType) s)
    (hmon : SameMonotone (F.kern a.fitType) s a.degree (c.peaks ++ c.pairList.map Prod.fst)) (h1 : 1 ≤ a.degree)
    (hb : a.brute = false) (h2 : a.degree ≤ a.fitDeg)
    (hp : ∀ pts, (c.fitWith F lines a rnd).1.ht.points = some (.array pts) → SpreadSlopes pts)
    (hd : NoWeight c) :
    (pixCal s c).fitWith F lines (pixArgs s a) rnd =
      (pixCal s (c.fitWith F lines a rnd).1, pixOutcome s (c.fitWith F lines a rnd).2) := by
  unfold Cal.fitWith at hp ⊢
  rw [show (pixArgs s a).fitDeg = a.fitDeg from rfl, show (pixCal s c).ransac = c.ransac from rfl]
  have h2' : a.degree < (adjustSampleSize c.ransac.sampleSize lines.length a.fitDeg).toNat := by
    unfold adjustSampleSize
    dsimp only
    split <;> split <;> omega
  generalize adjustSampleSize c.ransac.sampleSize lines.length a.fitDeg = n at hp h2' ⊢
  rw [show ({ pixCal s c with ransac := { c.ransac with sampleSize := n } } : Cal K) =
    pixCal s { c with ransac := { c.ransac with sampleSize := n } } from rfl]
  dsimp only at hp ⊢
  have hp' : ∀ pts, (Cal.ensureHough F { c with ransac := { c.ransac with sampleSize := n } }).1.ht.points =
      some (.array pts) → SpreadSlopes pts := by
    intro pts hpt
    apply hp pts
    split
    · exact hpt
    · rw [fitSearch_ht]
      exact hpt
  rw [ensureHough_pix hs F ha _ hp']
  obtain ⟨h, l, p, hfr⟩ := ensureHough_frame F { c with ransac := { c.ransac with sampleSize := n } }
  cases (Cal.ensureHough F { c with ransac := { c.ransac with sampleSize := n } }).2 with
  | error e => rfl
  | ok _ =>
    dsimp only
    rw [hfr]
    exact fitSearch_pix hs F _ lines a rnd hk hmon h1 hb h2' hd

/-- `fit` on the new pixel scale. -/
theorem fit_pix [FloorRing K] (F : FitEnv K) (ha : ScaleFreeSort s F.argsortK)
    (w : World K) (a : FitArgs K) (rnd : FitRandom K)
    (hk : PixelKernels (F.kern a.fitType) s)
    (hmon : SameMonotone (F.kern a.fitType) s a.degree (w.cal.peaks ++ w.cal.pairList.map Prod.fst))
    (h1 : 1 ≤ a.degree) (hb : a.brute = false) (h2 : a.degree ≤ a.fitDeg)
    (hp : ∀ pts, (w.fit F a rnd).1.cal.ht.points = some (.array pts) → SpreadSlopes pts)
    (hd : NoWeight w.cal) :
    (pixWorld s w).fit F (pixArgs s a) rnd =
      (pixWorld s (w.fit F a rnd).1, pixOutcome s (w.fit F a rnd).2) := by
  unfold World.fit at hp ⊢
  simp only [show (pixWorld s w).atlasLines = w.atlasLines from rfl, show (pixArgs s a).fitType = a.fitType from rfl,
    show (pixArgs s a).fitCoeff = a.fitCoeff.map (pixCoeffs s) from rfl]
  split
  · rfl
  · rename_i hft
    rw [if_neg hft] at hp
    cases hl : w.atlasLines with
    | error e => rfl
    | ok lines =>
      rw [hl] at hp
      dsimp only at hp ⊢
      rw [show ({ (pixWorld s w).cal with fitCoeff := a.fitCoeff.map (pixCoeffs s) } : Cal K) =
        pixCal s { w.cal with fitCoeff := a.fitCoeff } from rfl,
        fitWith_pix hs F ha { w.cal with fitCoeff := a.fitCoeff } lines a rnd hk hmon h1 hb h2 hp hd]
      rfl

end

end Rascal
