import Verif.Proofs.AffineRansac
import Verif.Props.RepeatFitProps

/-! Effect of a change of the wavelength scale on `fit`. -/

set_option linter.unusedSectionVars false

namespace Rascal

open Spec

variable {K : Type _} [Field K] [LinearOrder K] [IsStrictOrderedRing K]

/-- No trial is so bad that it could be beaten by the cost `1e50` at the start of the search, on either scale
(src/rascal/calibrator.py:444, 629-636). -/
def Spec.ModestErrors (s : K) (c : Cal K) : Prop :=
  ((c.peaks.length + c.pairList.length : Nat) : K) * |c.ransac.tol| * 10 ^ 9 ≤ 10 ^ 50 ∧
  s * (((c.peaks.length + c.pairList.length : Nat) : K) * |c.ransac.tol| * 10 ^ 9) ≤ 10 ^ 50

/-- The density on the new scale (src/rascal/calibrator.py:497-509). -/
def Spec.affDensity (s t : K) : Density K → Density K
  | .absent => .absent
  | .unbound => .unbound
  | .spline w f => .spline w (fun x y => f (x / s) ((y - t) / s))

/-- Results of the search on both scales (src/rascal/calibrator.py:752). -/
structure SolveRel (s t : K) (o o' : SolveOut K) : Prop where
  coeffs : o'.coeffs = o.coeffs.map (affCoeffs s t)
  err : o.coeffs ≠ none → o'.err = s * o.err
  residual : o'.residual = o.residual.map (fun l => l.map (fun v => s * v))
  inliers : o'.inliers = o.inliers

/-- Outcomes of the search on both scales (src/rascal/calibrator.py:382-752). -/
def SolveCallRel (s t : K) : CallRes (SolveOut K) → CallRes (SolveOut K) → Prop
  | .running, .running => True
  | .done (.error e), .done (.error e') => e = e'
  | .done (.ok o), .done (.ok o') => SolveRel s t o o'
  | _, _ => False

section
variable {s t : K} (hs : 0 < s)
include hs

theorem candidates_aff (F : FitEnv K) (g' : K → K → K → K)
    (hg : ∀ a p σ, g' (aff s t a) (aff s t p) (s * σ) = F.gauss a p σ) (c : Cal K) (hc : c.fitCoeff ≠ some [])
    (k : Kernels K) (hk : AffineKernels k s t) (lines : List K) (tol : K) (u : Nat → K) :
    (affCal s t c).candidates { F with gauss := g' } k (lines.map (aff s t)) (s * tol) u =
      (c.candidates F k lines tol u).map (List.map (affCand s t)) := by
  unfold Cal.candidates
  simp only [show (affCal s t c).houghLines = c.houghLines.map (fun l => l.map (affLine s t)) from rfl,
    show (affCal s t c).pairs = c.pairs.map (affPairStore s t) from rfl,
    show (affCal s t c).fitCoeff = c.fitCoeff.map (affCoeffs s t) from rfl,
    show (affCal s t c).ransac.linear = c.ransac.linear from rfl,
    show (affCal s t c).hough.rangeTol = s * c.hough.rangeTol from rfl,
    show (affCal s t c).hough.linTol = s * c.hough.linTol from rfl,
    show (affCal s t c).peaks = c.peaks from rfl,
    show (affCal s t c).peaksAreArray = c.peaksAreArray from rfl]
  cases c.houghLines with
  | none => rfl
  | some hl =>
    simp only [Option.map_some]
    split
    · cases c.pairs with
      | none => rfl
      | some st =>
        cases st with
        | noColumns =>
          simp only [Option.map_some, affPairStore, List.map_eq_nil_iff]
          split <;> rfl
        | array pairs =>
          simp only [Option.map_some, affPairStore, Except.map]
          rw [← candidatesLinear_aff hs]
          intro a p
          rw [← hg]
          congr 1
          ring
    · cases hfc : c.fitCoeff with
      | none => rfl
      | some co =>
        have hco : co ≠ [] := by
          rintro rfl
          exact hc hfc
        simp only [Option.map_some, List.length_map]
        have hd : (List.range hl.length).map (fun i => u i * (s * c.hough.rangeTol) * 2 - s * c.hough.rangeTol) =
            ((List.range hl.length).map (fun i => u i * c.hough.rangeTol * 2 - c.hough.rangeTol)).map
              (fun v => s * v) := by
          rw [List.map_map]
          apply List.map_congr_left
          intro i _
          simp only [Function.comp]
          ring
        rw [hd]
        exact candidatesPoly_aff hs _ _ (fun a p => hg a p _) tol _ _ _ (k.polyval co) _
          (fun x => hk.polyval co x hco) _

theorem candidateLists_aff (F : FitEnv K) (g' : K → K → K → K) (c : Cal K) (cands : List (Cand K)) :
    (affCal s t c).candidateLists { F with gauss := g' } (cands.map (affCand s t)) =
      ((c.candidateLists F cands).1, (c.candidateLists F cands).2.map (aff s t)) := by
  unfold Cal.candidateLists
  simp only [show (affCal s t c).ransac.topN = c.ransac.topN from rfl,
    show (affCal s t c).ransac.weighted = c.ransac.weighted from rfl,
    show (affCal s t c).ransac.filterClose = c.ransac.filterClose from rfl,
    show (affCal s t c).ransac.tol = s * c.ransac.tol from rfl, mostCommon_aff hs, filterClose_aff hs]
  split <;> rfl

theorem binCentres_map (f : K → K) (u : K) (hf : ∀ v, f v = s * v + u) (l : List K) :
    binCentres (l.map f) = (binCentres l).map f := by
  unfold binCentres
  rw [← List.map_tail, List.map_map, List.map_map]
  cases l with
  | nil => rfl
  | cons a l =>
    cases l with
    | nil => rfl
    | cons b l =>
      apply List.map_congr_left
      intro e _
      simp only [Function.comp, List.map_cons, List.getD_cons_zero, List.getD_cons_succ, hf]
      ring

theorem density_aff (k : Kernels K) (hk : AffineKernels k s t) (c : Cal K) :
    (affCal s t c).density k = (c.density k).map (affDensity s t) := by
  unfold Cal.density
  simp only [show (affCal s t c).ht.xedges = c.ht.xedges.map (fun l => l.map (fun v => s * v)) from rfl,
    show (affCal s t c).ht.yedges = c.ht.yedges.map (fun l => l.map (aff s t)) from rfl,
    show (affCal s t c).ht.hist = c.ht.hist from rfl,
    show (affCal s t c).ransac.houghWeight = c.ransac.houghWeight from rfl]
  cases c.ht.xedges with
  | none => rfl
  | some xe =>
    simp only [Option.map_some]
    cases c.ransac.houghWeight.toFinite with
    | none => rfl
    | some w =>
      have hy : binCentres ((c.ht.yedges.map (fun l => l.map (aff s t))).getD []) =
          (binCentres (c.ht.yedges.getD [])).map (aff s t) := by
        cases c.ht.yedges with
        | none => rfl
        | some l => exact binCentres_map hs (aff s t) t (fun v => rfl) l
      simp only [hy]
      rw [binCentres_map hs (fun v => s * v) 0 (fun v => by ring), hk.spline]
      cases k.spline (binCentres xe) (binCentres (c.ht.yedges.getD [])) (c.ht.hist.getD []) <;> rfl

theorem derivativeCoeffs_aff (co : List K) :
    derivativeCoeffs (affCoeffs s t co) = (derivativeCoeffs co).map (fun v => s * v) := by
  unfold derivativeCoeffs
  rw [affCoeffs_length hs, List.map_map]
  apply List.map_congr_left
  intro i hi
  rw [List.mem_range'_1] at hi
  cases co with
  | nil => simp [affCoeffs]
  | cons a l =>
    obtain ⟨j, rfl⟩ : ∃ j : Nat, i = j + 1 := ⟨i - 1, by omega⟩
    have e1 : (affCoeffs s t (a :: l)).getD (j + 1) 0 = s * (a :: l).getD (j + 1) 0 := by
      simp only [affCoeffs, List.getD_cons_succ]
      rw [List.getD_eq_getElem?_getD, List.getD_eq_getElem?_getD, List.getElem?_map]
      cases l[j]? with
      | none => simp
      | some v => rfl
    simp only [Function.comp, e1]
    ring

/-- The density is evaluated with the axes exchanged, so that the zero point must not move
or the weight must be zero. -/
def PlainWeight (t : K) (d : Density K) : Prop := t = 0 ∨ ∀ w f, d = .spline w f → w = 0

theorem weight_aff (k : Kernels K) (hk : AffineKernels k s t) (c : RansacCfg K) (hd : PlainWeight t c.density)
    (co : List K) (hco : co ≠ []) :
    (affCfg s t c (affDensity s t c.density)).weight k (affCoeffs s t co) = c.weight k co := by
  unfold RansacCfg.weight
  rw [derivativeCoeffs_aff hs]
  simp only [List.map_eq_nil_iff, show (affCfg s t c (affDensity s t c.density)).density =
    affDensity s t c.density from rfl, show (affCfg s t c (affDensity s t c.density)).pixelList = c.pixelList from rfl]
  split
  · rfl
  · rename_i hne
    cases hcd : c.density with
    | absent => rfl
    | unbound => rfl
    | spline w f =>
      simp only [affDensity]
      rcases hd with rfl | hw
      · congr 3
        apply List.map_congr_left
        intro p _
        have h1 : k.polyval ((derivativeCoeffs co).map (fun v => s * v)) p =
            s * k.polyval (derivativeCoeffs co) p := by
          have := hk.polyval (derivativeCoeffs co) p hne
          have e : affCoeffs s 0 (derivativeCoeffs co) = (derivativeCoeffs co).map (fun v => s * v) := by
            cases derivativeCoeffs co <;> simp [affCoeffs, aff]
          rw [e] at this
          rw [this]
          simp [aff]
        rw [h1, hk.polyval co p hco]
        congr 1
        · unfold aff
          field_simp
          ring
        · field_simp
          ring
      · rw [hw w f hcd]
        simp

theorem startCost_aff (k : Kernels K) (hk : AffineKernels k s t) (x y co : List K) :
    startCost k x (y.map (aff s t)) (some (affCoeffs s t co)) =
      (startCost k x y (some co)).map (fun r => (mapFin (fun v => s * v) r.1, s * r.2)) := by
  cases co with
  | nil => rfl
  | cons a l =>
    have hm := matchBijective_aff hs (k.polyval (a :: l)) (k.polyval (affCoeffs s t (a :: l)))
      (fun x => hk.polyval (a :: l) x (by simp)) (candTable x y) (candTable x (y.map (aff s t)))
      (candTable_aff hs x y) (npUnique x)
    simp only [affCoeffs] at hm ⊢
    unfold startCost
    dsimp only
    rw [hm]
    cases matchBijective (k.polyval (a :: l)) (candTable x y) (npUnique x) with
    | error e => rfl
    | ok m =>
      have : (m.map (affMatch s t)).map (fun e => e.1) = (m.map (fun e => e.1)).map (fun v => s * v) := by
        rw [List.map_map, List.map_map]; rfl
      simp only [Except.map, this, sum_scale hs, rmsOf_scale hs k hk, mapFin]

theorem finishSolve_aff (P : PyFloat K → Prop) (deg : Nat) (b b' : Best K) (hb : BestRel s t P b b') :
    SolveCallRel s t (.done (finishSolve deg b)) (.done (finishSolve deg b')) := by
  unfold finishSolve
  rw [hb.inliers, hb.peaks, hb.atlas, List.length_map]
  have hn : (b.matchedAtlas.map (aff s t)).Nodup ↔ b.matchedAtlas.Nodup :=
    List.nodup_map_iff (aff_injective hs)
  simp only [hn]
  split
  · exact ⟨hb.coeffs, hb.err, hb.residual, rfl⟩
  · rfl

theorem setMatched_aff (P : PyFloat K → Prop) (c : Cal K) (b b' : Best K) (hb : BestRel s t P b b') :
    (affCal s t c).setMatched b' = affCal s t (c.setMatched b) := by
  unfold Cal.setMatched affCal
  dsimp only
  rw [hb.peaks, hb.atlas]

/-- The start of the search on both scales (src/rascal/calibrator.py:444-450, 512-515). -/
theorem start_rel (k : Kernels K) (hk : AffineKernels k s t) (P : PyFloat K → Prop) (x y mp ma : List K)
    (fc : Option (List K)) (h : s = 1 ∨ fc ≠ none ∨ ∀ q, P q → (mapFin (fun v => s * v) q).le (.fin (10 ^ 50)) =
      q.le (.fin (10 ^ 50))) :
    (∃ e, startCost k x (y.map (aff s t)) (fc.map (affCoeffs s t)) = .error e ∧ startCost k x y fc = .error e) ∨
    ∃ cost err cost' err', startCost k x (y.map (aff s t)) (fc.map (affCoeffs s t)) = .ok (cost', err') ∧
      startCost k x y fc = .ok (cost, err) ∧
      BestRel s t P ⟨cost, err, none, none, 0, mp, ma⟩ ⟨cost', err', none, none, 0, mp, ma.map (aff s t)⟩ := by
  cases fc with
  | none =>
    right
    refine ⟨_, _, _, _, rfl, rfl, ?_, rfl, fun h => absurd rfl h, rfl, rfl, rfl, rfl⟩
    rcases h with rfl | h | h
    · intro q _
      have : mapFin (fun v : K => 1 * v) q = q := by cases q <;> simp [mapFin]
      rw [this]
    · exact absurd rfl h
    · exact h
  | some co =>
    rw [Option.map_some, startCost_aff hs k hk]
    cases startCost k x y (some co) with
    | error e => exact Or.inl ⟨e, rfl, rfl⟩
    | ok r =>
      right
      refine ⟨r.1, r.2, mapFin (fun v => s * v) r.1, s * r.2, rfl, rfl, ?_, rfl, fun h => absurd rfl h, rfl, rfl, rfl, rfl⟩
      intro q _
      exact le_scale hs q r.1

omit hs in
/-- The samples drawn at random determine the polynomial. -/
theorem random_determined (c : RansacCfg K) (deg : Nat) (brute : Bool) (ss : Nat) (mt : Int)
    (hb : brute = false) (h1 : deg < ss) (h2 : deg < (npUnique c.x).length)
    (hn : c.sampleSize = (makeTrials brute ss c.x.length (npUnique c.x).length mt).2) :
    ∀ tr ∈ (makeTrials brute ss c.x.length (npUnique c.x).length mt).1, ∀ d data,
      c.sample d tr = .ok (some data) → Determined data.1 deg := by
  subst hb
  intro tr htr d data hdata
  have hr : tr = .random := by
    unfold makeTrials at htr
    simp only [Bool.false_eq_true, if_false] at htr
    split at htr
    · obtain ⟨_, _, rfl⟩ := List.mem_map.1 htr
      rfl
    · exact (List.mem_replicate.1 htr).2
  subst hr
  obtain ⟨xs, ys, g1, _, g3, _, _, g6⟩ := C59_distinct_samples c d data hdata
  have hss : deg < c.sampleSize := by
    rw [hn]
    unfold makeTrials
    simp only [Bool.false_eq_true, if_false]
    split
    · exact h2
    · exact h1
  rw [npUnique_length_eq_dedup] at h2
  refine ⟨xs, g1, by omega, ?_⟩
  intro v hv
  rw [g6]
  exact List.mem_append_left _ (List.mem_map_of_mem hv)

theorem solveLists_aff [FloorRing K] (F : FitEnv K) (g' : K → K → K → K) (k : Kernels K) (hk : AffineKernels k s t)
    (P : PyFloat K → Prop) (c : Cal K) (a : FitArgs K) (deg : Nat) (rnd : FitRandom K) (x y : List K)
    (hdet : t = 0 ∨ (a.brute = false ∧ deg < c.ransac.sampleSize.toNat ∧ deg < (npUnique x).length))
    (hd : ∀ d, c.density k = .ok d → PlainWeight t d)
    (hP : ∀ d n, c.density k = .ok d → TrialCosts k (c.ransacCfg deg n x y d F.oneDim) P)
    (h0 : s = 1 ∨ a.fitCoeff ≠ none ∨ ∀ q, P q → (mapFin (fun v => s * v) q).le (.fin (10 ^ 50)) =
      q.le (.fin (10 ^ 50))) :
    ((affCal s t c).solveLists { F with gauss := g' } k (affArgs s t a) deg rnd x (y.map (aff s t))).1 =
      affCal s t (c.solveLists F k a deg rnd x y).1 ∧
    SolveCallRel s t (c.solveLists F k a deg rnd x y).2
      ((affCal s t c).solveLists { F with gauss := g' } k (affArgs s t a) deg rnd x (y.map (aff s t))).2 := by
  unfold Cal.solveLists
  simp only [show (affCal s t c).ransac.sampleSize = c.ransac.sampleSize from rfl,
    show (affArgs s t a).brute = a.brute from rfl, show (affArgs s t a).maxTries = a.maxTries from rfl,
    show (affArgs s t a).fitCoeff = a.fitCoeff.map (affCoeffs s t) from rfl]
  have hdet' : t = 0 ∨ ∀ (c1 : RansacCfg K), c1.x = x → c1.fitDeg = deg →
      c1.sampleSize = (makeTrials a.brute c.ransac.sampleSize.toNat x.length (npUnique x).length a.maxTries).2 →
      ∀ tr ∈ (makeTrials a.brute c.ransac.sampleSize.toNat x.length (npUnique x).length a.maxTries).1, ∀ d data,
        c1.sample d tr = .ok (some data) → Determined data.1 c1.fitDeg := by
    refine hdet.imp id ?_
    rintro ⟨hb, h1, h2⟩ c1 rfl rfl hn
    exact random_determined c1 _ _ _ _ hb h1 h2 hn
  generalize makeTrials a.brute c.ransac.sampleSize.toNat x.length (npUnique x).length a.maxTries = tr at hdet' ⊢
  have hc1 : ({ affCal s t c with ransac := { (affCal s t c).ransac with sampleSize := (tr.2 : Int) } } : Cal K) =
      affCal s t { c with ransac := { c.ransac with sampleSize := (tr.2 : Int) } } := rfl
  rw [hc1, density_aff hs k hk]
  have hden : Cal.density { c with ransac := { c.ransac with sampleSize := (tr.2 : Int) } } k = c.density k := rfl
  rw [hden]
  cases hdc : c.density k with
  | error e => exact ⟨rfl, rfl⟩
  | ok d =>
    simp only [Except.map]
    rcases start_rel hs k hk P x y c.matchedPeaks c.matchedAtlas a.fitCoeff h0 with ⟨e, h1, h2⟩ |
      ⟨cost, err, cost', err', h1, h2, hb⟩
    · rw [h1, h2]
      exact ⟨rfl, rfl⟩
    · rw [h1, h2]
      dsimp only
      have hcfg : (affCal s t { c with ransac := { c.ransac with sampleSize := (tr.2 : Int) } }).ransacCfg deg tr.2 x
          (y.map (aff s t)) (affDensity s t d) F.oneDim =
          affCfg s t (Cal.ransacCfg { c with ransac := { c.ransac with sampleSize := (tr.2 : Int) } } deg tr.2 x y d
            F.oneDim) (affDensity s t d) := rfl
      rw [hcfg]
      have hr := run_aff hs k hk P
        (Cal.ransacCfg { c with ransac := { c.ransac with sampleSize := (tr.2 : Int) } } deg tr.2 x y d F.oneDim)
        (affDensity s t d)
        (fun co hco => weight_aff hs k hk (Cal.ransacCfg { c with ransac := { c.ransac with sampleSize := (tr.2 : Int) } }
          deg tr.2 x y d F.oneDim) (hd d hdc) co hco) (hP d tr.2 hdc) rnd.tape tr.1 _ _
        (hdet'.imp id (fun h => h _ rfl rfl rfl)) hb
      rw [show (affCal s t c).matchedPeaks = c.matchedPeaks from rfl,
        show (affCal s t c).matchedAtlas = c.matchedAtlas.map (aff s t) from rfl]
      revert hr
      generalize (affCfg s t (Cal.ransacCfg { c with ransac := { c.ransac with sampleSize := (tr.2 : Int) } } deg tr.2
        x y d F.oneDim) (affDensity s t d)).run k rnd.tape tr.1
          ⟨cost', err', none, none, 0, c.matchedPeaks, c.matchedAtlas.map (aff s t)⟩ = r'
      generalize (Cal.ransacCfg { c with ransac := { c.ransac with sampleSize := (tr.2 : Int) } } deg tr.2
        x y d F.oneDim).run k rnd.tape tr.1 ⟨cost, err, none, none, 0, c.matchedPeaks, c.matchedAtlas⟩ = r
      intro hr
      cases r <;> cases r' <;> first | exact hr.elim | skip
      · exact ⟨setMatched_aff hs P _ _ _ hr, finishSolve_aff hs P deg _ _ hr⟩
      · exact ⟨setMatched_aff hs P _ _ _ hr, trivial⟩
      · exact ⟨setMatched_aff hs P _ _ _ hr.2, hr.1⟩

theorem solve_aff [FloorRing K] (F : FitEnv K) (g' : K → K → K → K)
    (hg : ∀ a p σ, g' (aff s t a) (aff s t p) (s * σ) = F.gauss a p σ) (k : Kernels K) (hk : AffineKernels k s t)
    (P : PyFloat K → Prop) (c : Cal K) (lines : List K) (a : FitArgs K) (deg : Nat) (rnd : FitRandom K)
    (hc : c.fitCoeff ≠ some []) (hdet : t = 0 ∨ (a.brute = false ∧ deg < c.ransac.sampleSize.toNat))
    (hd : ∀ d, c.density k = .ok d → PlainWeight t d)
    (hP : ∀ cands d n, c.candidates F k lines a.candTol rnd.uniform = .ok cands → c.density k = .ok d →
      TrialCosts k (c.ransacCfg deg n (c.candidateLists F cands).1 (c.candidateLists F cands).2 d F.oneDim) P)
    (h0 : s = 1 ∨ a.fitCoeff ≠ none ∨ ∀ q, P q → (mapFin (fun v => s * v) q).le (.fin (10 ^ 50)) =
      q.le (.fin (10 ^ 50))) :
    ((affCal s t c).solve { F with gauss := g' } k (lines.map (aff s t)) (affArgs s t a) deg rnd).1 =
      affCal s t (c.solve F k lines a deg rnd).1 ∧
    SolveCallRel s t (c.solve F k lines a deg rnd).2
      ((affCal s t c).solve { F with gauss := g' } k (lines.map (aff s t)) (affArgs s t a) deg rnd).2 := by
  unfold Cal.solve
  rw [show (affArgs s t a).candTol = s * a.candTol from rfl, candidates_aff hs F g' hg c hc k hk]
  cases hcs : c.candidates F k lines a.candTol rnd.uniform with
  | error e => exact ⟨rfl, rfl⟩
  | ok cands =>
    simp only [Except.map, candidateLists_aff hs F g']
    split
    · exact ⟨rfl, rfl, fun h => absurd rfl h, rfl, rfl⟩
    · rename_i hlen
      exact solveLists_aff hs F g' k hk P c a deg rnd _ _
        (hdet.imp id (fun h => ⟨h.1, h.2, Nat.lt_of_not_le hlen⟩)) hd (fun d n h => hP cands d n hcs h) h0

theorem finishFit_aff (c : Cal K) (n : Nat) (o o' : SolveOut K) (ho : SolveRel s t o o') :
    ((affCal s t c).finishFit n o').1 = affCal s t (c.finishFit n o).1 ∧
    CallRes.done ((affCal s t c).finishFit n o').2 = affOutcome s t (.done (c.finishFit n o).2) := by
  unfold Cal.finishFit
  rw [ho.inliers, show (affCal s t c).peaks = c.peaks from rfl, ho.coeffs, ho.residual]
  cases (utilisation o.inliers c.peaks.length : PyRes (PyFloat K)) with
  | error e => exact ⟨rfl, rfl⟩
  | ok _ =>
    dsimp only
    cases (utilisation o.inliers n : PyRes (PyFloat K)) with
    | error e => exact ⟨rfl, rfl⟩
    | ok au =>
      have he := ho.err
      cases hco : o.coeffs with
      | none => exact ⟨rfl, rfl⟩
      | some co =>
        simp only [Option.map_some]
        rw [he (by simp [hco])]
        exact ⟨rfl, rfl⟩

theorem fitSearch_aff [FloorRing K] (F : FitEnv K) (g' : K → K → K → K)
    (hg : ∀ a p σ, g' (aff s t a) (aff s t p) (s * σ) = F.gauss a p σ)
    (P : PyFloat K → Prop) (c : Cal K) (lines : List K) (a : FitArgs K) (rnd : FitRandom K)
    (hk : AffineKernels (F.kern a.fitType) s t) (hc : c.fitCoeff ≠ some [])
    (hdet : t = 0 ∨ (a.brute = false ∧ a.degree < c.ransac.sampleSize.toNat))
    (hd : ∀ d, c.density (F.kern a.fitType) = .ok d → PlainWeight t d)
    (hP : ∀ cands d n m, c.candidates F (F.kern a.fitType) lines a.candTol rnd.uniform = .ok cands →
      c.density (F.kern a.fitType) = .ok d →
      TrialCosts (F.kern a.fitType) (Cal.ransacCfg { c with ransac := { c.ransac with minMatches := m } } a.degree n
        (c.candidateLists F cands).1 (c.candidateLists F cands).2 d F.oneDim) P)
    (h0 : s = 1 ∨ a.fitCoeff ≠ none ∨ ∀ q, P q → (mapFin (fun v => s * v) q).le (.fin (10 ^ 50)) =
      q.le (.fin (10 ^ 50))) :
    (affCal s t c).fitSearch { F with gauss := g' } (lines.map (aff s t)) (affArgs s t a) rnd =
      (affCal s t (c.fitSearch F lines a rnd).1, affOutcome s t (c.fitSearch F lines a rnd).2) := by
  unfold Cal.fitSearch
  have hdeg : (affArgs s t a).degree = a.degree := by
    unfold FitArgs.degree affArgs
    cases a.fitCoeff with
    | none => rfl
    | some co => simp [affCoeffs_length hs]
  simp only [List.length_map, hdeg, show (affArgs s t a).fitType = a.fitType from rfl]
  generalize hm : adjustMinMatches c.ransac.minMatches lines.length c.peaks.length = m
  have hm' : adjustMinMatches (affCal s t c).ransac.minMatches lines.length (affCal s t c).peaks.length = m := hm
  rw [hm']
  have h := solve_aff hs F g' hg (F.kern a.fitType) hk P { c with ransac := { c.ransac with minMatches := m } } lines a
    a.degree rnd hc hdet hd (fun cands d n h1 h2 => hP cands d n m h1 h2) h0
  rw [show ({ affCal s t c with ransac := { (affCal s t c).ransac with minMatches := m } } : Cal K) =
    affCal s t { c with ransac := { c.ransac with minMatches := m } } from rfl]
  revert h
  generalize (affCal s t { c with ransac := { c.ransac with minMatches := m } }).solve { F with gauss := g' }
    (F.kern a.fitType) (lines.map (aff s t)) (affArgs s t a) a.degree rnd = r'
  generalize Cal.solve F (F.kern a.fitType) { c with ransac := { c.ransac with minMatches := m } } lines a
    a.degree rnd = r
  obtain ⟨c', o'⟩ := r'
  obtain ⟨c2, o⟩ := r
  rintro ⟨h1, h2⟩
  dsimp only at h1 h2
  subst h1
  cases o with
  | running =>
    cases o' with
    | running => rfl
    | done _ => exact h2.elim
  | done r =>
    cases o' with
    | running => cases r <;> exact h2.elim
    | done r' =>
      cases r with
      | error e =>
        cases r' with
        | error e' =>
          have : e = e' := h2
          subst this
          rfl
        | ok _ => exact h2.elim
      | ok o =>
        cases r' with
        | error e' => exact h2.elim
        | ok o' =>
          obtain ⟨g1, g2⟩ := finishFit_aff hs c2 lines.length o o' h2
          dsimp only
          rw [g1, g2]


/-- The cost is not large (src/rascal/calibrator.py:629-633). -/
def SmallCost (B : K) : PyFloat K → Prop
  | .fin v => |v| ≤ B
  | _ => True

theorem smallCost_start (B : K) (h1 : B ≤ 10 ^ 50) (h2 : s * B ≤ 10 ^ 50) (q : PyFloat K) (hq : SmallCost B q) :
    (mapFin (fun v => s * v) q).le (.fin (10 ^ 50)) = q.le (.fin (10 ^ 50)) := by
  cases q with
  | fin v =>
    have hv : v ≤ B := (le_abs_self v).trans hq
    have : s * v ≤ 10 ^ 50 := ((mul_le_mul_iff_right₀ hs).2 hv).trans h2
    simp only [mapFin, PyFloat.le, decide_eq_true this, decide_eq_true (hv.trans h1)]
  | posInf => rfl
  | negInf => rfl
  | nan => rfl

omit hs in
theorem sum_abs_le (l : List K) (b : K) (h : ∀ v ∈ l, |v| ≤ b) : |l.sum| ≤ l.length * b := by
  induction l with
  | nil => simp
  | cons a l ih =>
    rw [List.sum_cons, List.length_cons]
    have h1 := h a (by simp)
    have h2 := ih (fun v hv => h v (by simp [hv]))
    have h3 := abs_add_le a l.sum
    push_cast
    linarith

omit hs in
theorem trialCost_small (errs : List K) (b : K) (hb : ∀ v ∈ errs, |v| ≤ b) (N : Nat) (hN : errs.length ≤ N)
    (hb0 : 0 ≤ b) (n : Nat) (w : K) (hw : 0 ≤ w) :
    SmallCost ((N : K) * b * 10 ^ 9) (trialCost errs n w) := by
  have hS := sum_abs_le errs b hb
  have hS' : |errs.sum| ≤ N * b := hS.trans (mul_le_mul_of_nonneg_right (by exact_mod_cast hN) hb0)
  unfold trialCost
  generalize errs.sum = S at *
  have hd : ((errs.length : K) - (n : K) + 1) = (((errs.length : Int) - (n : Int) + 1 : Int) : K) := by push_cast; rfl
  rw [hd]
  generalize (errs.length : Int) - (n : Int) + 1 = D
  have hw1 : (1 : K) / 1000000000 ≤ w + 1 / 1000000000 := by linarith
  have hw0 : (0 : K) < w + 1 / 1000000000 := lt_of_lt_of_le (by norm_num) hw1
  simp only [PyFloat.div]
  by_cases hD : (D : K) = 0
  · simp only [hD, if_true]
    by_cases hS0 : S = 0
    · simp only [hS0, if_true]
      trivial
    · by_cases hS1 : 0 < S
      · simp only [hS0, hS1, if_true, if_false, hw0.le]
        trivial
      · simp only [hS0, hS1, if_true, if_false, hw0.le]
        trivial
  · simp only [hD, if_false, hw0.ne']
    show |S / (D : K) / (w + 1 / 1000000000)| ≤ _
    have hD1 : (1 : K) ≤ |(D : K)| := by
      have h : D ≠ 0 := by
        rintro rfl
        exact hD (by simp)
      have : (1 : Int) ≤ |D| := Int.one_le_abs h
      have h2 : ((1 : Int) : K) ≤ ((|D| : Int) : K) := by exact_mod_cast this
      simpa using h2
    rw [abs_div, abs_div, abs_of_pos hw0]
    have e1 : |S| / |(D : K)| ≤ |S| := div_le_self (abs_nonneg S) hD1
    have e2 : |S| / |(D : K)| / (w + 1 / 1000000000) ≤ |S| / (1 / 1000000000) := by
      apply div_le_div₀ (abs_nonneg S) e1 (by norm_num) hw1
    calc |S| / |(D : K)| / (w + 1 / 1000000000) ≤ |S| / (1 / 1000000000) := e2
      _ = |S| * 10 ^ 9 := by rw [one_div, div_inv_eq_mul]; norm_num
      _ ≤ N * b * 10 ^ 9 := mul_le_mul_of_nonneg_right hS' (by norm_num)

omit hs in
theorem clipErr_abs (tol e : K) (he : 0 ≤ e) : |clipErr tol e| ≤ |tol| := by
  unfold clipErr
  split
  · exact le_rfl
  · rename_i h
    rw [gt_iff_lt, not_lt] at h
    rw [abs_of_nonneg he]
    exact h.trans (le_abs_self tol)

omit hs in
theorem mostCommon_peaks (argsort : List K → List Nat) (cs : List (Cand K)) (n : Int) (wt : Bool) (p : K)
    (hp : p ∈ (mostCommon argsort cs n wt).1) : p ∈ cs.flatMap Cand.peaks := by
  unfold mostCommon at hp
  simp only [List.mem_flatMap, List.mem_map] at hp
  obtain ⟨_, ⟨q, hq, rfl⟩, hp⟩ := hp
  have hpq : p = q := by
    unfold mostCommonOf at hp
    simp only [List.mem_replicate] at hp
    exact hp.2
  subst hpq
  exact (mem_npUnique _ _).1 hq

omit hs in
theorem candidateLists_peaks (F : FitEnv K) (c : Cal K) (cs : List (Cand K)) (p : K)
    (hp : p ∈ (c.candidateLists F cs).1) : p ∈ cs.flatMap Cand.peaks := by
  unfold Cal.candidateLists at hp
  dsimp only at hp
  split at hp
  · unfold filterClose at hp
    dsimp only at hp
    exact mostCommon_peaks _ _ _ _ _ ((boolMask_sublist _ _).subset hp)
  · exact mostCommon_peaks _ _ _ _ _ hp

omit hs in
theorem candidates_peaks (F : FitEnv K) (c : Cal K) (k : Kernels K) (lines : List K) (tol : K)
    (u : Nat → K) (cs : List (Cand K)) (h : c.candidates F k lines tol u = .ok cs) (p : K)
    (hp : p ∈ cs.flatMap Cand.peaks) : p ∈ c.peaks ++ c.pairList.map Prod.fst := by
  obtain ⟨h1, h2, h3⟩ := candidates_spec F c k lines tol u cs h
  obtain ⟨cd, hcd, hp⟩ := List.mem_flatMap.1 hp
  obtain ⟨i, hi, rfl⟩ := List.mem_iff_getElem.1 hp
  have hlen := (h1 cd hcd).1
  have hz : (cd.peaks[i], cd.wls[i]'(by omega)) ∈ cd.peaks.zip cd.wls := by
    rw [List.mem_iff_getElem]
    exact ⟨i, by simp; omega, by simp⟩
  rw [List.mem_append]
  cases hl : c.ransac.linear with
  | true => exact Or.inr (List.mem_map.2 ⟨_, (h2 hl cd hcd _ hz).1, rfl⟩)
  | false => exact Or.inl (h3 hl cd hcd _ hz).1

/-- The weight of the density is zero or not finite (src/rascal/calibrator.py:1198, 500). -/
def NoWeight (c : Cal K) : Prop := ∀ w, c.ransac.houghWeight.toFinite = some w → w = 0

omit hs in
theorem density_noWeight (c : Cal K) (k : Kernels K) (h : NoWeight c) (d : Density K) (hd : c.density k = .ok d) :
    ∀ w f, d = .spline w f → w = 0 := by
  rintro w f rfl
  unfold Cal.density at hd
  split at hd
  · cases hd
  · split at hd
    · cases hd
    · rename_i w' hw'
      split at hd
      · cases hd
      · simp only [Except.ok.injEq, Density.spline.injEq] at hd
        rw [← hd.1]
        exact h _ hw'

omit hs in
theorem trialCosts_small (F : FitEnv K) (c : Cal K) (k : Kernels K) (lines : List K) (tol : K)
    (u : Nat → K) (cs : List (Cand K)) (h : c.candidates F k lines tol u = .ok cs) (d : Density K)
    (hd : ∀ w f, d = .spline w f → w = 0) (cfg : RansacCfg K) (hx : cfg.x = (c.candidateLists F cs).1)
    (hcd : cfg.density = d) (ht : cfg.tol = c.ransac.tol) :
    TrialCosts k cfg (SmallCost (((c.peaks.length + c.pairList.length : Nat) : K) * |c.ransac.tol| * 10 ^ 9)) := by
  intro co m w hco hm hw
  have hw0 : 0 ≤ w := by
    unfold RansacCfg.weight at hw
    split at hw
    · cases hw
    · rw [hcd] at hw
      cases hdd : d with
      | absent => rw [hdd] at hw; simp only [Except.ok.injEq] at hw; rw [← hw]; exact zero_le_one
      | unbound => rw [hdd] at hw; cases hw
      | spline w' f =>
        have := hd w' f hdd
        subst this
        rw [hdd] at hw
        simp only [zero_mul, Except.ok.injEq] at hw
        exact hw.le
  rcases matchBijective_spec (k.polyval co) (candTable cfg.x cfg.y) (npUnique cfg.x) with
    ⟨r, hr, hnd, _, hr2, _⟩ | ⟨he, _⟩ | ⟨he, _⟩
  · rw [hm] at hr
    cases hr
    apply trialCost_small
    · intro v hv
      obtain ⟨e, he, rfl⟩ := List.mem_map.1 hv
      rw [ht]
      apply clipErr_abs
      rw [(hr2 e he).2.2.1]
      exact abs_nonneg _
    · rw [List.length_map]
      have hsub : (m.map (fun e => e.2.1)) ⊆ c.peaks ++ c.pairList.map Prod.fst := by
        intro p hp
        obtain ⟨e, he, rfl⟩ := List.mem_map.1 hp
        have h1 := (mem_npUnique _ _).1 (hr2 e he).1
        rw [hx] at h1
        exact candidates_peaks F c k lines tol u cs h _ (candidateLists_peaks F c cs _ h1)
      have := (hnd.subperm hsub).length_le
      simpa using this
    · exact abs_nonneg _
    · exact hw0
  · rw [hm] at he; cases he
  · rw [hm] at he; cases he

omit hs in
theorem fitSearch_ht [FloorRing K] (F : FitEnv K) (c : Cal K) (lines : List K) (a : FitArgs K) (rnd : FitRandom K) :
    (c.fitSearch F lines a rnd).1.ht = c.ht := by
  rw [fitSearch_eq]
  obtain ⟨n, hk⟩ := solve_kept F (F.kern a.fitType) { c with ransac := { c.ransac with
      minMatches := adjustMinMatches c.ransac.minMatches lines.length c.peaks.length } } lines a a.degree rnd
  generalize Cal.solve F (F.kern a.fitType) _ lines a a.degree rnd = s at hk ⊢
  obtain ⟨co, rms, res, pu, au, h1, _⟩ := afterSolve_again lines.length s
  rw [h1, hk]
  rfl

theorem ensureHough_aff (F : FitEnv K) (g' : K → K → K → K) (c : Cal K)
    (hp : ∀ pts, (c.ensureHough F).1.ht.points = some (.array pts) → SpreadPoints s pts) :
    (affCal s t c).ensureHough { F with gauss := g' } =
      (affCal s t (c.ensureHough F).1, (c.ensureHough F).2) := by
  unfold Cal.ensureHough at hp ⊢
  have h1 : ((affCal s t c).houghLines.isNone || (affCal s t c).houghPoints.isNone) =
      (c.houghLines.isNone || c.houghPoints.isNone) := by
    simp only [affCal, Option.isNone_map]
  rw [h1]
  split at hp
  · rename_i h
    simp only [h, if_true]
    exact doHough_aff hs c F.argsortK F.argsortN false hp
  · rename_i h
    simp only [h]
    rfl

theorem fitWith_aff [FloorRing K] (F : FitEnv K) (g' : K → K → K → K)
    (hg : ∀ a p σ, g' (aff s t a) (aff s t p) (s * σ) = F.gauss a p σ)
    (c : Cal K) (lines : List K) (a : FitArgs K) (rnd : FitRandom K)
    (hk : AffineKernels (F.kern a.fitType) s t) (hc : c.fitCoeff ≠ some [])
    (hdet : t = 0 ∨ (a.brute = false ∧ a.degree ≤ a.fitDeg))
    (hp : ∀ pts, (c.fitWith F lines a rnd).1.ht.points = some (.array pts) → SpreadPoints s pts)
    (hd : t = 0 ∨ NoWeight c)
    (h0 : s = 1 ∨ a.fitCoeff ≠ none ∨ (NoWeight c ∧ ModestErrors s c)) :
    (affCal s t c).fitWith { F with gauss := g' } (lines.map (aff s t)) (affArgs s t a) rnd =
      (affCal s t (c.fitWith F lines a rnd).1, affOutcome s t (c.fitWith F lines a rnd).2) := by
  unfold Cal.fitWith at hp ⊢
  rw [List.length_map, show (affArgs s t a).fitDeg = a.fitDeg from rfl,
    show (affCal s t c).ransac.sampleSize = c.ransac.sampleSize from rfl]
  have hdet' : t = 0 ∨ (a.brute = false ∧
      a.degree < (adjustSampleSize c.ransac.sampleSize lines.length a.fitDeg).toNat) := by
    refine hdet.imp id (fun h => ⟨h.1, ?_⟩)
    have h2 := h.2
    unfold adjustSampleSize
    dsimp only
    split <;> split <;> omega
  generalize adjustSampleSize c.ransac.sampleSize lines.length a.fitDeg = n at hp hdet' ⊢
  rw [show ({ affCal s t c with ransac := { (affCal s t c).ransac with sampleSize := n } } : Cal K) =
    affCal s t { c with ransac := { c.ransac with sampleSize := n } } from rfl]
  dsimp only at hp ⊢
  have hp' : ∀ pts, (Cal.ensureHough F { c with ransac := { c.ransac with sampleSize := n } }).1.ht.points =
      some (.array pts) → SpreadPoints s pts := by
    intro pts hpt
    apply hp pts
    split
    · exact hpt
    · rw [fitSearch_ht]
      exact hpt
  rw [ensureHough_aff hs F g' _ hp']
  obtain ⟨h, l, p, hfr⟩ := ensureHough_frame F { c with ransac := { c.ransac with sampleSize := n } }
  cases (Cal.ensureHough F { c with ransac := { c.ransac with sampleSize := n } }).2 with
  | error e => rfl
  | ok _ =>
    dsimp only
    rw [hfr]
    have hnw : ∀ d, NoWeight c → Cal.density { c with
        ransac := { c.ransac with sampleSize := n }, ht := h, houghLines := l, houghPoints := p } (F.kern a.fitType) =
          .ok d → ∀ w f, d = .spline w f → w = 0 :=
      fun d hn hd => density_noWeight _ _ (by exact hn) d hd
    by_cases hmode : s = 1 ∨ a.fitCoeff ≠ none
    · refine fitSearch_aff hs F g' hg (fun _ => True) _ lines a rnd hk ?_ hdet' ?_ ?_ ?_
      · exact hc
      · intro d hdd
        rcases hd with h | h
        · exact Or.inl h
        · exact Or.inr (hnw d h hdd)
      · intro _ _ _ _ _ _ _ _ _ _ _ _
        trivial
      · rcases hmode with h | h
        · exact Or.inl h
        · exact Or.inr (Or.inl h)
    · have hm : NoWeight c ∧ ModestErrors s c := by
        rcases h0 with h | h | h
        · exact absurd (Or.inl h) hmode
        · exact absurd (Or.inr h) hmode
        · exact h
      refine fitSearch_aff hs F g' hg
        (SmallCost (((c.peaks.length + c.pairList.length : Nat) : K) * |c.ransac.tol| * 10 ^ 9)) _ lines a rnd hk
        ?_ hdet' ?_ ?_ ?_
      · exact hc
      · intro d hdd
        rcases hd with h | h
        · exact Or.inl h
        · exact Or.inr (hnw d h hdd)
      · intro cands d n' m hcs hdd
        exact trialCosts_small F _ _ lines _ _ cands hcs d (hnw d hm.1 hdd) _ rfl rfl rfl
      · exact Or.inr (Or.inr (fun q hq => smallCost_start hs _ hm.2.1 hm.2.2 q hq))

theorem atlasLines_aff (w : World K) :
    (affWorld s t w).atlasLines = w.atlasLines.map (List.map (aff s t)) := by
  unfold World.atlasLines affWorld
  simp only [show (affCal s t w.cal).atlas = w.cal.atlas from rfl]
  cases w.cal.atlas with
  | none => rfl
  | some i =>
    dsimp only
    rw [List.getElem?_map]
    cases w.atlases[i]? with
    | none => rfl
    | some a =>
      simp only [Option.map_some, Except.map, Atlas.getLines, affAtlas, List.map_map]
      rfl

/-- `fit` on the new scale, with the weights of the candidates on the new scale. -/
theorem fit_aff [FloorRing K] (F : FitEnv K) (g' : K → K → K → K)
    (hg : ∀ a p σ, g' (aff s t a) (aff s t p) (s * σ) = F.gauss a p σ)
    (w : World K) (a : FitArgs K) (rnd : FitRandom K)
    (hk : AffineKernels (F.kern a.fitType) s t) (hc : a.fitCoeff ≠ some [])
    (hdet : t = 0 ∨ (a.brute = false ∧ a.degree ≤ a.fitDeg))
    (hp : ∀ pts, (w.fit F a rnd).1.cal.ht.points = some (.array pts) → SpreadPoints s pts)
    (hd : t = 0 ∨ NoWeight w.cal)
    (h0 : s = 1 ∨ a.fitCoeff ≠ none ∨ (NoWeight w.cal ∧ ModestErrors s w.cal)) :
    (affWorld s t w).fit { F with gauss := g' } (affArgs s t a) rnd =
      (affWorld s t (w.fit F a rnd).1, affOutcome s t (w.fit F a rnd).2) := by
  unfold World.fit at hp ⊢
  simp only [atlasLines_aff hs, show (affArgs s t a).fitType = a.fitType from rfl,
    show (affArgs s t a).fitCoeff = a.fitCoeff.map (affCoeffs s t) from rfl]
  split
  · rfl
  · rename_i hft
    rw [if_neg hft] at hp
    cases hl : w.atlasLines with
    | error e => rfl
    | ok lines =>
      rw [hl] at hp
      dsimp only at hp
      simp only [Except.map]
      rw [show ({ (affWorld s t w).cal with fitCoeff := a.fitCoeff.map (affCoeffs s t) } : Cal K) =
        affCal s t { w.cal with fitCoeff := a.fitCoeff } from rfl,
        fitWith_aff hs F g' hg { w.cal with fitCoeff := a.fitCoeff } lines a rnd hk hc hdet hp hd h0]
      rfl

end

/-! ### Without weighting the candidates the Gaussian does not matter -/

/-- The candidate set with unit weights (src/rascal/calibrator.py:330-334). -/
def Cand.plain (c : Cand K) : Cand K := { c with weights := c.weights.map (fun _ => 1) }

theorem mostCommon_plain (argsort : List K → List Nat) (cs : List (Cand K)) (n : Int) :
    mostCommon argsort (cs.map Cand.plain) n false = mostCommon argsort cs n false := by
  unfold mostCommon
  have h1 : (cs.map Cand.plain).flatMap Cand.peaks = cs.flatMap Cand.peaks := by rw [List.flatMap_map]; rfl
  have h2 : (cs.map Cand.plain).flatMap Cand.wls = cs.flatMap Cand.wls := by rw [List.flatMap_map]; rfl
  have h3 : (cs.map Cand.plain).flatMap Cand.weights = (cs.flatMap Cand.weights).map (fun _ => 1) := by
    rw [List.flatMap_map, List.map_flatMap]; rfl
  rw [h1, h2, h3]
  simp only [Bool.false_eq_true, if_false, boolMask_map, List.map_map]
  rfl

theorem candidatesLinear_plain (wt : K → K → K) (tol : K) (lines pairs : List (K × K)) :
    (candidatesLinear wt tol lines pairs).map Cand.plain = candidatesLinear (fun _ _ => 1) tol lines pairs := by
  rw [candidatesLinear_eq, candidatesLinear_eq, List.map_map]
  apply List.map_congr_left
  intro l _
  simp only [Function.comp, Cand.plain, List.map_map]
  rfl

theorem polyCandidate_plain (wt : K → K → K) (tol : K) (arr : Bool) (peaks actual predicted : List K) :
    (polyCandidate wt tol arr peaks actual predicted).map (Option.map Cand.plain) =
      polyCandidate (fun _ _ => 1) tol arr peaks actual predicted := by
  unfold polyCandidate
  dsimp only
  split
  · split
    · split
      · simp only [Except.map, Option.map_some, Cand.plain, List.map_zipWith]
      · rfl
    · rfl
  · split
    · split <;> rfl
    · rfl

theorem candidatesPoly_plain (wt : K → K → K) (tol : K) (arr : Bool) (peaks actual : List K) (f : K → K)
    (ds : List K) :
    (candidatesPoly wt tol arr peaks actual f ds).map (List.map Cand.plain) =
      candidatesPoly (fun _ _ => 1) tol arr peaks actual f ds := by
  induction ds with
  | nil => rfl
  | cons d ds ih =>
    unfold candidatesPoly
    rw [← polyCandidate_plain wt, ← ih]
    cases polyCandidate wt tol arr peaks actual (peaks.map (fun p => f p + d)) with
    | error e => rfl
    | ok c =>
      cases candidatesPoly wt tol arr peaks actual f ds with
      | error e => rfl
      | ok cs => cases c <;> simp [Except.map]

theorem candidates_plain (F : FitEnv K) (c : Cal K) (k : Kernels K) (lines : List K) (tol : K) (u : Nat → K) :
    (c.candidates F k lines tol u).map (List.map Cand.plain) =
      c.candidates { F with gauss := fun _ _ _ => 1 } k lines tol u := by
  unfold Cal.candidates
  cases c.houghLines with
  | none => rfl
  | some hl =>
    dsimp only
    split
    · cases c.pairs with
      | none => rfl
      | some st =>
        cases st with
        | noColumns => dsimp only; split <;> rfl
        | array pairs => simp only [Except.map, candidatesLinear_plain]
    · cases c.fitCoeff with
      | none => rfl
      | some co => exact candidatesPoly_plain _ _ _ _ _ _ _

theorem solve_gauss [FloorRing K] (F : FitEnv K) (g : K → K → K → K) (k : Kernels K) (c : Cal K) (lines : List K)
    (a : FitArgs K) (deg : Nat) (rnd : FitRandom K) (hw : c.ransac.weighted = false) :
    c.solve { F with gauss := g } k lines a deg rnd = c.solve F k lines a deg rnd := by
  have key : ∀ g' : K → K → K → K, c.solve { F with gauss := g' } k lines a deg rnd =
      c.solve { F with gauss := fun _ _ _ => 1 } k lines a deg rnd := by
    intro g'
    unfold Cal.solve
    rw [show c.candidates { F with gauss := fun _ _ _ => 1 } k lines a.candTol rnd.uniform = _ from
      (candidates_plain { F with gauss := g' } c k lines a.candTol rnd.uniform).symm]
    cases c.candidates { F with gauss := g' } k lines a.candTol rnd.uniform with
    | error e => rfl
    | ok cs =>
      have hl : c.candidateLists { F with gauss := fun _ _ _ => 1 } (cs.map Cand.plain) =
          c.candidateLists { F with gauss := g' } cs := by
        unfold Cal.candidateLists
        rw [hw, mostCommon_plain]
      simp only [Except.map, hl]
      rfl
  exact (key g).trans (key F.gauss).symm

theorem fit_gauss [FloorRing K] (F : FitEnv K) (g : K → K → K → K) (w : World K)
    (a : FitArgs K) (rnd : FitRandom K) (hw : w.cal.ransac.weighted = false) :
    w.fit { F with gauss := g } a rnd = w.fit F a rnd := by
  unfold World.fit
  dsimp only
  split
  · rfl
  · cases w.atlasLines with
    | error e => rfl
    | ok lines =>
      dsimp only
      unfold Cal.fitWith
      have he : ∀ c : Cal K, c.ensureHough { F with gauss := g } = c.ensureHough F := fun _ => rfl
      dsimp only
      rw [he]
      obtain ⟨h, l, p, hfr⟩ := ensureHough_frame F { w.cal with fitCoeff := a.fitCoeff, ransac := { w.cal.ransac with
        sampleSize := adjustSampleSize w.cal.ransac.sampleSize lines.length a.fitDeg } }
      generalize Cal.ensureHough F { w.cal with fitCoeff := a.fitCoeff, ransac := { w.cal.ransac with
        sampleSize := adjustSampleSize w.cal.ransac.sampleSize lines.length a.fitDeg } } = r at hfr ⊢
      obtain ⟨c1, e⟩ := r
      cases e with
      | error e => rfl
      | ok _ =>
        dsimp only at hfr ⊢
        subst hfr
        unfold Cal.fitSearch
        dsimp only
        rw [solve_gauss F g]
        exact hw

end Rascal
