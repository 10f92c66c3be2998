import Verif.Model.PlotSearch
import Verif.Props.PlotFitProps
import Verif.Props.SearchProps

/-! Property theorems C118 to C121: what `plot_search_space` shows. -/

set_option linter.unusedSectionVars false

namespace Rascal

open Spec

section
variable {K : Type _} [Field K] [LinearOrder K] [IsStrictOrderedRing K]

/-- What a drawn figure consists of. -/
theorem searchFig_ok (argsort : List K → List Nat) (plotly : Bool) (polyval : Option (List K → K → K)) (c : Cal K)
    (cands : Option (List (Cand K))) (co : Option (List K)) (n : Int) (wt : Bool) (fig : SearchFig K)
    (h : c.searchFig argsort plotly polyval cands co n wt = .ok fig) :
    ∃ cs a l pairs, cands = some cs ∧ c.props.pixelList = a :: l ∧ c.pairs = some (.array pairs) ∧
      (co.isSome = true → polyval.isSome = true) ∧
      fig.allPairs = pairs ∧ fig.candidatePairs = (mergeCandidates cs).map rowPoint ∧
      fig.bestPairs = (mostCommon argsort cs n wt).1.zip (mostCommon argsort cs n wt).2 ∧
      fig.levels = [c.hough.minW, c.hough.minW + c.hough.rangeTol, c.hough.minW - c.hough.rangeTol,
                c.hough.maxW, c.hough.maxW + c.hough.rangeTol, c.hough.maxW - c.hough.rangeTol] ∧
      fig.right = listMax a l ∧
      fig.centre = inclined (a :: l) (listMax a l) (c.hough.maxW - c.hough.minW) c.hough.minW ∧
      fig.upper = inclined (a :: l) (listMax a l) (c.hough.maxW - c.hough.minW) (c.hough.minW + c.hough.rangeTol) ∧
      fig.lower = inclined (a :: l) (listMax a l) (c.hough.maxW - c.hough.minW) (c.hough.minW - c.hough.rangeTol) ∧
      fig.solution = co.bind (fun k => polyval.map (fun f => c.peaks.map (fun p => (p, f k p)))) ∧
      fig.xlim = (0, listMax a l) ∧
      fig.ylim = (c.hough.minW - (if plotly then c.hough.rangeTol * (11 / 10) else c.hough.rangeTol),
        c.hough.maxW + (if plotly then c.hough.rangeTol * (11 / 10) else c.hough.rangeTol)) := by
  unfold Cal.searchFig at h
  cases cands with
  | none => simp at h
  | some cs =>
    dsimp only at h
    cases hpl : c.props.pixelList with
    | nil => rw [hpl] at h; simp at h
    | cons a l =>
      rw [hpl] at h
      dsimp only at h
      cases hp : c.pairs with
      | none => rw [hp] at h; simp at h
      | some st =>
        cases st with
        | noColumns => rw [hp] at h; simp at h
        | array pairs =>
          rw [hp] at h
          dsimp only at h
          split at h
          · simp at h
          split at h
          · simp at h
          rename_i hco
          simp only [Except.ok.injEq] at h
          subst h
          refine ⟨cs, a, l, pairs, rfl, rfl, rfl, ?_, rfl, rfl, rfl, rfl, rfl, rfl, ?_, ?_, rfl, rfl, rfl⟩
          · intro hs
            cases polyval with
            | none => simp [hs] at hco
            | some f => rfl
          · dsimp only
            congr 1
            ring
          · dsimp only
            congr 1
            ring

/-- The effects are those of `plotSearchSpace`. -/
theorem drawSearchSpace_effects (F : FitEnv K) (s : Session K) (cands : Option (List (Cand K)))
    (a : SearchPlotArgs K) (ev : List PlotEvent) (out : PlotOut) (fig : Option (SearchFig K))
    (h : s.drawSearchSpace F cands a = .ok (ev, out, fig)) :
    s.plotSearchSpace cands a.opts = .ok (ev, out) := by
  unfold Session.drawSearchSpace at h
  unfold Session.plotSearchSpace
  dsimp only at h
  cases cands with
  | none =>
    split at h
    · simp [Cal.searchFig] at h
    · split at h
      · simp [Cal.searchFig] at h
      · simp at h
  | some cs =>
    dsimp only
    split at h
    · rename_i hm
      rw [if_pos hm]
      split at h
      · simp at h
      · simp only [Except.ok.injEq, Prod.mk.injEq] at h
        obtain ⟨rfl, rfl, _⟩ := h
        rfl
    · rename_i hm
      rw [if_neg hm]
      split at h
      · rename_i hp
        rw [if_pos hp]
        split at h
        · simp at h
        · simp only [Except.ok.injEq, Prod.mk.injEq] at h
          obtain ⟨rfl, rfl, _⟩ := h
          rfl
      · rename_i hp
        rw [if_neg hp]
        split at h
        · simp at h
        · split at h
          · simp at h
          · simp only [Except.ok.injEq, Prod.mk.injEq] at h
            obtain ⟨rfl, rfl, _⟩ := h
            rfl

/-- A figure comes from `searchFig`. -/
theorem drawSearchSpace_fig (F : FitEnv K) (s : Session K) (cands : Option (List (Cand K)))
    (a : SearchPlotArgs K) (ev : List PlotEvent) (out : PlotOut) (fig : SearchFig K)
    (h : s.drawSearchSpace F cands a = .ok (ev, out, some fig)) :
    ∃ pl, s.world.cal.searchFig F.argsortK pl (s.basis.map (fun t => (F.kern t).polyval)) cands a.fitCoeff a.topN
      a.weighted = .ok fig ∧ pl = !s.world.cal.props.plotMatplotlib := by
  unfold Session.drawSearchSpace at h
  dsimp only at h
  split at h
  · rename_i hm
    refine ⟨false, ?_, by simp [hm]⟩
    split at h
    · simp at h
    · rename_i hf
      simp only [Except.ok.injEq, Prod.mk.injEq, Option.some.injEq] at h
      rw [hf, h.2.2]
  · rename_i hm
    split at h
    · refine ⟨true, ?_, by simpa using hm⟩
      split at h
      · simp at h
      · rename_i hf
        simp only [Except.ok.injEq, Prod.mk.injEq, Option.some.injEq] at h
        rw [hf, h.2.2]
    · split at h
      · simp at h
      · split at h
        · simp at h
        · simp at h

/-! ### C118 -/

theorem sort3_low (p w v : K) (h1 : v ≤ p) (h2 : p ≤ w) :
    [p, w, v].mergeSort (fun a b => decide (a ≤ b)) = [v, p, w] := by
  have hs : ([p, w, v].mergeSort (fun a b => decide (a ≤ b))).Pairwise (· ≤ ·) := by
    have := List.pairwise_mergeSort (le := fun a b : K => decide (a ≤ b))
      (fun a b c h1 h2 => by
        simp only [decide_eq_true_eq] at *; exact le_trans h1 h2)
      (fun a b => by simpa using le_total a b) [p, w, v]
    simpa using this
  refine List.Perm.eq_of_pairwise (fun a b _ _ h h' => le_antisymm h h') hs ?_
    ((List.mergeSort_perm _ _).trans
      (List.Perm.trans (List.Perm.cons p (List.Perm.swap v w [])) (List.Perm.swap v p [w])))
  simp [h1, h2, le_trans h1 h2]

theorem sort3_up (p w v : K) (h1 : p ≤ w) (h2 : w ≤ v) :
    [p, w, v].mergeSort (fun a b => decide (a ≤ b)) = [p, w, v] := by
  have hs : ([p, w, v].mergeSort (fun a b => decide (a ≤ b))).Pairwise (· ≤ ·) := by
    have := List.pairwise_mergeSort (le := fun a b : K => decide (a ≤ b))
      (fun a b c h1 h2 => by
        simp only [decide_eq_true_eq] at *; exact le_trans h1 h2)
      (fun a b => by simpa using le_total a b) [p, w, v]
    simpa using this
  refine List.Perm.eq_of_pairwise (fun a b _ _ h h' => le_antisymm h h') hs ?_ (List.mergeSort_perm _ _)
  simp [h1, h2, le_trans h1 h2]

theorem mergeCandidates_rows (cs : List (Cand K)) : mergeCandidates cs =
    (candRows cs).map (fun t => [t.1, t.2.1, t.2.2].mergeSort (fun a b => decide (a ≤ b))) := by
  unfold mergeCandidates candRows
  rw [← List.map_flatMap, List.map_map]
  rfl

/-- C118, what holds: there is one marker per candidate, in order; a candidate whose weight is at most its pixel,
which is at most its wavelength, is drawn at (weight, pixel), and it is drawn at (pixel, wavelength) if the weight
is the largest of the three.  What is missing: markers at (pixel, wavelength) for weights of at most 1. -/
theorem C118_markers_partial (F : FitEnv K) (s : Session K) (cs : List (Cand K)) (a : SearchPlotArgs K)
    (ev : List PlotEvent) (out : PlotOut) (fig : SearchFig K)
    (h : s.drawSearchSpace F (some cs) a = .ok (ev, out, some fig)) :
    List.Forall₂ (fun (t : K × K × K) (q : K × K) =>
      (t.2.2 ≤ t.1 → t.1 ≤ t.2.1 → q = (t.2.2, t.1)) ∧ (t.1 ≤ t.2.1 → t.2.1 ≤ t.2.2 → q = (t.1, t.2.1)))
      (candRows cs) fig.candidatePairs := by
  obtain ⟨pl, hf, -⟩ := drawSearchSpace_fig F s _ a ev out fig h
  obtain ⟨cs', b, l, pairs, hcs, -, -, -, -, hc, -⟩ := searchFig_ok _ _ _ _ _ _ _ _ _ hf
  cases hcs
  rw [hc, mergeCandidates_rows, List.map_map, List.forall₂_map_right_iff]
  rw [List.forall₂_same]
  intro t _
  refine ⟨fun h1 h2 => ?_, fun h1 h2 => ?_⟩
  · simp only [Function.comp, sort3_low _ _ _ h1 h2, rowPoint]
    rfl
  · simp only [Function.comp, sort3_up _ _ _ h1 h2, rowPoint]
    rfl

/-- The weights of the polynomial candidates. -/
theorem candidatesPoly_weights (weight : K → K → K) (tol : K) (arr : Bool) (peaks actual : List K)
    (f : K → K) (ds : List K) (cs : List (Cand K))
    (h : candidatesPoly weight tol arr peaks actual f ds = .ok cs) :
    ∀ c ∈ cs, ∀ v ∈ c.weights, ∃ x y, v = weight x y := by
  have hz : ∀ l m : List K, ∀ v ∈ List.zipWith weight l m, ∃ x y, v = weight x y := by
    intro l m v hv
    rw [← List.map_uncurry_zip_eq_zipWith] at hv
    obtain ⟨e, -, rfl⟩ := List.mem_map.1 hv
    exact ⟨e.1, e.2, rfl⟩
  induction ds generalizing cs with
  | nil => simp only [candidatesPoly, Except.ok.injEq] at h; subst h; simp
  | cons d ds ih =>
    unfold candidatesPoly at h
    cases hp : polyCandidate weight tol arr peaks actual (peaks.map (fun p => f p + d)) with
    | error e => rw [hp] at h; simp at h
    | ok c =>
      rw [hp] at h
      dsimp only at h
      cases hr : candidatesPoly weight tol arr peaks actual f ds with
      | error e => rw [hr] at h; simp at h
      | ok r =>
        rw [hr] at h
        simp only [Except.ok.injEq] at h
        subst h
        intro c' hc'
        rcases List.mem_append.1 hc' with hc' | hc'
        · unfold polyCandidate at hp
          split at hp
          · dsimp only at hp
            split at hp
            · split at hp
              · simp only [Except.ok.injEq] at hp
                subst hp
                simp only [Option.toList_some, List.mem_singleton] at hc'
                subst hc'
                exact hz _ _
              · simp at hp
            · simp only [Except.ok.injEq] at hp
              subst hp
              simp at hc'
          · split at hp
            · dsimp only at hp
              split at hp
              · simp at hp
              · simp only [Except.ok.injEq] at hp
                subst hp
                simp at hc'
            · simp at hp
        · exact ih r hr c' hc'

/-- Every weight is a value of the Gaussian. -/
theorem candidates_weights (F : FitEnv K) (c : Cal K) (k : Kernels K) (lines : List K) (candTol : K)
    (u : Nat → K) (cs : List (Cand K)) (h : c.candidates F k lines candTol u = .ok cs) :
    ∀ cd ∈ cs, ∀ v ∈ cd.weights, ∃ x y σ, v = F.gauss x y σ := by
  unfold Cal.candidates at h
  cases hh : c.houghLines with
  | none => rw [hh] at h; simp at h
  | some hl =>
    rw [hh] at h
    dsimp only at h
    split at h
    · cases hp : c.pairs with
      | none => rw [hp] at h; simp at h
      | some st =>
        rw [hp] at h
        cases st with
        | noColumns =>
          dsimp only at h
          split at h
          · simp only [Except.ok.injEq] at h
            subst h
            simp
          · simp at h
        | array pairs =>
          simp only [Except.ok.injEq] at h
          rw [candidatesLinear_eq] at h
          subst h
          intro cd hcd v hv
          obtain ⟨l, _, rfl⟩ := List.mem_map.1 hcd
          obtain ⟨e, _, rfl⟩ := List.mem_map.1 hv
          exact ⟨_, _, _, rfl⟩
    · cases hf : c.fitCoeff with
      | none => rw [hf] at h; simp at h
      | some co =>
        rw [hf] at h
        dsimp only at h
        intro cd hcd v hv
        obtain ⟨x, y, hxy⟩ := candidatesPoly_weights _ _ _ _ _ _ _ _ h cd hcd v hv
        exact ⟨x, y, _, hxy⟩

/-- The candidates left by a fit are aligned and their weights are values of the Gaussian. -/
theorem fitCandidates_spec (F : FitEnv K) (w : World K) (a : FitArgs K) (u : Nat → K) (cs : List (Cand K))
    (h : w.fitCandidates F a u = some cs) :
    Aligned cs ∧ ∀ cd ∈ cs, ∀ v ∈ cd.weights, ∃ x y σ, v = F.gauss x y σ := by
  unfold World.fitCandidates at h
  split at h
  · simp at h
  · cases hl : w.atlasLines with
    | error e => rw [hl] at h; simp at h
    | ok lines =>
      rw [hl] at h
      dsimp only at h
      split at h
      · simp at h
      · cases hc : Cal.candidates F _ (F.kern a.fitType) lines a.candTol u with
        | error e => rw [hc] at h; simp [Except.toOption] at h
        | ok cs' =>
          rw [hc] at h
          simp only [Except.toOption, Option.some.injEq] at h
          subst h
          exact ⟨(candidates_spec F _ _ _ _ _ _ hc).1, candidates_weights F _ _ _ _ _ _ hc⟩

/-- The best candidate pairs are candidates. -/
theorem best_candidates {argsort : List K → List Nat} (ha : IsArgsort argsort) (cs : List (Cand K))
    (hal : Aligned cs) (n : Int) (wt : Bool) (e : K × K)
    (he : e ∈ (mostCommon argsort cs n wt).1.zip (mostCommon argsort cs n wt).2) :
    ∃ t ∈ candRows cs, t.1 = e.1 ∧ t.2.1 = e.2 := by
  by_cases hn : 0 ≤ n
  · have hr : e.2 ∈ returnedFor (mostCommon argsort cs n wt) e.1 := by
      unfold returnedFor
      exact List.mem_map.2 ⟨e, List.mem_filter.2 ⟨he, by simp⟩, rfl⟩
    have := ((C55_most_common_partial argsort ha cs hal n hn wt).2 e.1).2.1 e.2 hr
    unfold Spec.wavelengthsOf at this
    obtain ⟨t, ht, hte⟩ := List.mem_map.1 this
    rw [List.mem_filter] at ht
    exact ⟨t, ht.1, by simpa using ht.2, hte⟩
  · exfalso
    have h0 : (mostCommon argsort cs n wt).1 = [] := by
      rw [mostCommon_eq argsort cs _ _ hal]
      simp only [List.flatMap_eq_nil_iff]
      intro b hb
      obtain ⟨p, _, rfl⟩ := List.mem_map.1 hb
      simp only [List.replicate_eq_nil_iff]
      omega
    rw [h0] at he
    simp at he

/-- C118, how far the markers are off: if the Gaussian is at most 1 and the candidates have pixels above 1 and
wavelengths (in Å) not below the pixel number, no "Best Candidate Pairs" point is among the "Candidate Pairs", and
all these have an abscissa of at most 1.  What is missing: see `C118_refuted`. -/
theorem C118_disjoint_partial (F : FitEnv K) (ha : IsArgsort F.argsortK) (hg : ∀ x y σ, F.gauss x y σ ≤ 1)
    (w : World K) (a : FitArgs K) (u : Nat → K) (cs : List (Cand K)) (hcs : w.fitCandidates F a u = some cs)
    (hpix : ∀ c ∈ cs, ∀ e ∈ c.peaks.zip c.wls, 1 < e.1 ∧ e.1 ≤ e.2)
    (s : Session K) (pa : SearchPlotArgs K) (ev : List PlotEvent) (out : PlotOut) (fig : SearchFig K)
    (h : s.drawSearchSpace F (some cs) pa = .ok (ev, out, some fig)) :
    (∀ q ∈ fig.candidatePairs, q.1 ≤ 1) ∧ ∀ e ∈ fig.bestPairs, e ∉ fig.candidatePairs := by
  obtain ⟨hal, hw⟩ := fitCandidates_spec F w a u cs hcs
  have hrow : ∀ t ∈ candRows cs, t.2.2 ≤ 1 ∧ 1 < t.1 ∧ t.1 ≤ t.2.1 := by
    intro t ht
    unfold candRows at ht
    obtain ⟨cd, hcd, htm⟩ := List.mem_flatMap.1 ht
    have h2 := (List.of_mem_zip (List.of_mem_zip (show (t.1, t.2) ∈ _ from htm)).2).2
    obtain ⟨x, y, σ, hv⟩ := hw cd hcd t.2.2 h2
    refine ⟨hv ▸ hg x y σ, ?_⟩
    apply hpix cd hcd (t.1, t.2.1)
    rw [List.mem_iff_getElem?] at htm
    obtain ⟨i, hi⟩ := htm
    rw [show t = (t.1, t.2.1, t.2.2) from rfl, List.getElem?_zip_eq_some,
      List.getElem?_zip_eq_some] at hi
    rw [List.mem_iff_getElem?]
    exact ⟨i, by rw [List.getElem?_zip_eq_some]; exact ⟨hi.1, hi.2.1⟩⟩
  have hm := C118_markers_partial F s cs pa ev out fig h
  have h1 : ∀ q ∈ fig.candidatePairs, q.1 ≤ 1 := by
    intro q hq
    rw [List.mem_iff_getElem] at hq
    obtain ⟨i, hi, rfl⟩ := hq
    have hl : i < (candRows cs).length := by rw [hm.length_eq]; exact hi
    have := (List.forall₂_iff_get.1 hm).2 i hl hi
    simp only [List.get_eq_getElem] at this
    obtain ⟨g1, g2, g3⟩ := hrow _ (List.getElem_mem hl)
    rw [this.1 (le_trans g1 g2.le) g3]
    exact g1
  refine ⟨h1, fun e he hc => ?_⟩
  obtain ⟨pl, hf, -⟩ := drawSearchSpace_fig F s _ pa ev out fig h
  obtain ⟨cs', b, l, pairs, hcs', -, -, -, -, -, hb, -⟩ := searchFig_ok _ _ _ _ _ _ _ _ _ hf
  cases hcs'
  rw [hb] at he
  obtain ⟨t, ht, ht1, -⟩ := best_candidates ha cs hal _ _ e he
  have := (hrow t ht).2.1
  rw [ht1] at this
  exact absurd (h1 e hc) (not_le.2 this)

/-! ### C119 -/

theorem mem_inclined (pl : List K) (last rise start : K) (pts : List (K × K))
    (h : inclined pl last rise start = some pts) (q : K × K) :
    q ∈ pts ↔ q.1 ∈ pl ∧ q.2 = start + rise * q.1 / last := by
  unfold inclined at h
  split at h
  · simp at h
  · simp only [Option.some.injEq] at h
    subst h
    rw [List.mem_map]
    constructor
    · rintro ⟨x, hx, rfl⟩
      exact ⟨hx, by ring⟩
    · rintro ⟨h1, h2⟩
      refine ⟨q.1, h1, ?_⟩
      ext
      · rfl
      · rw [h2]; ring

/-- C119, what holds: after `set_atlas(constrain_poly=True)` and any fits, with settings whose last pixel is
positive, the inclined lines are drawn at the expected wavelength of each pixel and `range_tolerance` above and
below it, and "All pairs" are exactly the combinations of a peak between pixel 0 and the last pixel with a line
whose distance from the expected wavelength is at most `range_tolerance + candidate_tolerance`.  What is missing:
the drawn region itself ends at `range_tolerance`. -/
theorem C119_region_partial (w : World K) (i : Nat) (t : K) (at_ : Atlas K) (hat : w.atlases[i]? = some at_)
    (hset : (w.setAtlas i t true).2 = .ok ()) (hp : w.cal.peaks ≠ []) (hl : at_.getLines ≠ [])
    (hint : InterceptsMatch w.cal.hough) (hr : 0 ≤ w.cal.hough.rangeTol) (ht : 0 ≤ t)
    (hpos : ∃ q ∈ w.cal.props.pixelList, 0 < q)
    (c : Cal K) (hc : FitFrame (w.setAtlas i t true).1.cal c)
    (argsort : List K → List Nat) (plotly : Bool) (polyval : Option (List K → K → K))
    (cands : Option (List (Cand K))) (co : Option (List K)) (n : Int) (wt : Bool) (fig : SearchFig K)
    (h : c.searchFig argsort plotly polyval cands co n wt = .ok fig) :
    ∃ P ∈ w.cal.props.pixelList, (∀ q ∈ w.cal.props.pixelList, q ≤ P) ∧
      let expected := fun x : K => w.cal.hough.minW + (w.cal.hough.maxW - w.cal.hough.minW) * x / P
      (∃ ce up lo, fig.centre = some ce ∧ fig.upper = some up ∧ fig.lower = some lo ∧
        ∀ q : K × K, (q ∈ ce ↔ q.1 ∈ w.cal.props.pixelList ∧ q.2 = expected q.1) ∧
          (q ∈ up ↔ q.1 ∈ w.cal.props.pixelList ∧ q.2 = expected q.1 + w.cal.hough.rangeTol) ∧
          (q ∈ lo ↔ q.1 ∈ w.cal.props.pixelList ∧ q.2 = expected q.1 - w.cal.hough.rangeTol)) ∧
      ∀ p v, (p, v) ∈ fig.allPairs ↔ p ∈ w.cal.peaks ∧ v ∈ at_.getLines ∧ 0 ≤ p ∧ p ≤ P ∧
        |v - expected p| ≤ w.cal.hough.rangeTol + t := by
  obtain ⟨cs, b, l, pairs, -, hpl, hpr, -, hall, -, -, -, -, hce, hup, hlo, -⟩ :=
    searchFig_ok _ _ _ _ _ _ _ _ _ h
  unfold World.setAtlas World.generatePairs World.atlasLines at hset hc
  simp only [hat] at hset hc
  unfold Cal.generatePairs at hset hc
  simp only [if_true] at hset hc
  have hne : allPairs w.cal.peaks at_.getLines ≠ [] := by
    cases hpk : w.cal.peaks with
    | nil => exact absurd hpk hp
    | cons a tl =>
      cases hln : at_.getLines with
      | nil => exact absurd hln hl
      | cons b l => simp [allPairs]
  cases hpw : w.cal.props.pixelList with
  | nil => rw [hpw] at hset; simp at hset
  | cons b' l' =>
    rw [hpw] at hset hc hpos
    dsimp only at hset hc
    cases hg : Rascal.generatePairs w.cal.peaks at_.getLines
        (some (Cal.polygon { w.cal with atlas := some i, candTol := some t, constrainPoly := true } t
          (listMax b' l'))) with
    | error e => rw [hg] at hset; simp at hset
    | ok r =>
      rw [hg] at hc
      dsimp only at hc
      have hprops := hc.props
      have hhough := hc.hough
      have hpairs := hc.pairs
      dsimp only at hprops hhough hpairs
      rw [hprops, hpw] at hpl
      injection hpl with hb hl'
      subst hb hl'
      rw [hpr] at hpairs
      simp only [Option.some.injEq, PairStore.array.injEq] at hpairs
      rw [hhough] at hce hup hlo
      have hP : 0 < listMax b' l' := by
        obtain ⟨q, hq, h0⟩ := hpos
        rcases List.mem_cons.1 hq with rfl | hq
        · exact lt_of_lt_of_le h0 (le_listMax _ _).1
        · exact lt_of_lt_of_le h0 ((le_listMax _ _).2 q hq)
      have hflat : (Cal.polygon { w.cal with atlas := some i, candTol := some t, constrainPoly := true } t
          (listMax b' l')).flat = false := by
        by_contra hcc
        rw [Bool.not_eq_false] at hcc
        simp only [Rascal.generatePairs, hcc, if_true] at hg
        simp at hg
      simp only [Rascal.generatePairs, hflat, Bool.false_eq_true, if_false, if_neg hne,
        Except.ok.injEq] at hg
      refine ⟨listMax b' l', listMax_mem _ _, ?_, ?_, ?_⟩
      · intro q hq
        rcases List.mem_cons.1 hq with rfl | hq
        · exact (le_listMax _ _).1
        · exact (le_listMax _ _).2 q hq
      · have hs : ∀ rise start, ∃ pts, inclined (b' :: l') (listMax b' l') rise start = some pts := by
          intro rise start
          unfold inclined
          rw [if_neg hP.ne']
          exact ⟨_, rfl⟩
        obtain ⟨ce, h1⟩ := hs (w.cal.hough.maxW - w.cal.hough.minW) w.cal.hough.minW
        obtain ⟨up, h2⟩ := hs (w.cal.hough.maxW - w.cal.hough.minW) (w.cal.hough.minW + w.cal.hough.rangeTol)
        obtain ⟨lo, h3⟩ := hs (w.cal.hough.maxW - w.cal.hough.minW) (w.cal.hough.minW - w.cal.hough.rangeTol)
        refine ⟨ce, up, lo, hce.trans h1, hup.trans h2, hlo.trans h3, fun q => ⟨mem_inclined _ _ _ _ _ h1 q, ?_, ?_⟩⟩
        · rw [mem_inclined _ _ _ _ _ h2 q]
          refine and_congr_right (fun _ => ?_)
          rw [add_right_comm]
        · rw [mem_inclined _ _ _ _ _ h3 q]
          refine and_congr_right (fun _ => ?_)
          rw [sub_add_eq_add_sub]
      · intro p v
        rw [hall, hpairs, ← hg, boolMask_map_pred, List.mem_filter]
        unfold allPairs Polygon.inside
        simp only [List.mem_flatMap, List.mem_map, Prod.mk.injEq, Bool.and_eq_true, decide_eq_true_eq,
          Cal.polygon, hint.1, hint.2]
        have e1 : min (w.cal.hough.minW - w.cal.hough.rangeTol - t) (w.cal.hough.minW + w.cal.hough.rangeTol + t) =
            w.cal.hough.minW - w.cal.hough.rangeTol - t := min_eq_left (by linarith)
        have e2 : max (w.cal.hough.minW - w.cal.hough.rangeTol - t) (w.cal.hough.minW + w.cal.hough.rangeTol + t) =
            w.cal.hough.minW + w.cal.hough.rangeTol + t := max_eq_right (by linarith)
        have e3 : min (w.cal.hough.maxW - w.cal.hough.rangeTol - t) (w.cal.hough.maxW + w.cal.hough.rangeTol + t) =
            w.cal.hough.maxW - w.cal.hough.rangeTol - t := min_eq_left (by linarith)
        have e4 : max (w.cal.hough.maxW - w.cal.hough.rangeTol - t) (w.cal.hough.maxW + w.cal.hough.rangeTol + t) =
            w.cal.hough.maxW + w.cal.hough.rangeTol + t := max_eq_right (by linarith)
        rw [e1, e2, e3, e4, abs_le]
        have hx : (w.cal.hough.maxW - w.cal.hough.minW) * p / listMax b' l' =
            (w.cal.hough.maxW - w.cal.hough.minW) * (p / listMax b' l') := by ring
        rw [hx]
        have h0 : 0 ≤ p / listMax b' l' ↔ 0 ≤ p := by
          constructor
          · intro hh
            have := mul_nonneg hh hP.le
            rwa [div_mul_cancel₀ _ hP.ne'] at this
          · exact fun hh => div_nonneg hh hP.le
        rw [h0, div_le_one hP]
        generalize p / listMax b' l' = z
        constructor
        · rintro ⟨⟨p', hp', v', hv', rfl, rfl⟩, ⟨⟨g1, g2⟩, g3⟩, g4⟩
          exact ⟨hp', hv', g1, g2, by linarith, by linarith⟩
        · rintro ⟨hp', hv', g1, g2, g3, g4⟩
          exact ⟨⟨p, hp', v, hv', rfl, rfl⟩, ⟨⟨g1, g2⟩, by linarith⟩, by linarith⟩

/-! ### C120 -/

/-- The candidate lists of the search come from the attribute `candidates`. -/
theorem enter_candidates (F : FitEnv K) (w : World K) (a : FitArgs K) (u : Nat → K) (lines : List K)
    (L : LoopStart K) (hft : a.fitType ≠ .other) (hl : w.atlasLines = .ok lines)
    (h : (w.given a).enter F lines a u = some L) :
    ∃ cs, w.fitCandidates F a u = some cs ∧
      (L.cfg.x, L.cfg.y) = w.cal.candidateLists F cs := by
  unfold Cal.enter at h
  unfold World.fitCandidates
  rw [if_neg hft, hl]
  dsimp only at h ⊢
  have hg : ({ w.given a with ransac := { (w.given a).ransac with
      sampleSize := adjustSampleSize (w.given a).ransac.sampleSize lines.length a.fitDeg } } : Cal K) =
    { w.cal with
        fitCoeff := a.fitCoeff
        ransac := { w.cal.ransac with
          sampleSize := adjustSampleSize w.cal.ransac.sampleSize lines.length a.fitDeg } } := rfl
  rw [hg] at h
  obtain ⟨ht, hl', hp, hfr⟩ := ensureHough_frame F
    { w.cal with
        fitCoeff := a.fitCoeff
        ransac := { w.cal.ransac with
          sampleSize := adjustSampleSize w.cal.ransac.sampleSize lines.length a.fitDeg } }
  rw [hfr] at h ⊢
  dsimp only at h ⊢
  split at h
  · simp at h
  rename_i hok
  rw [hok]
  dsimp only
  split at h
  · simp at h
  rename_i cands hc
  split at h
  · simp at h
  split at h
  · simp at h
  split at h
  · simp at h
  simp only [Option.some.injEq] at h
  subst h
  refine ⟨cands, ?_, rfl⟩
  exact congrArg Except.toOption hc

theorem peakBlock_mono (argsort : List K → List Nat) {n n' : Int} (hn : 0 ≤ n) (hnn : n ≤ n') (wt : Bool)
    (t : List (K × K × K)) (p : K) : peakBlock argsort n wt t p ⊆ peakBlock argsort n' wt t p := by
  unfold peakBlock
  intro v hv
  obtain ⟨i, hi, hiv⟩ := (mem_takeIdx _ _ _).1 hv
  refine (mem_takeIdx _ _ _).2 ⟨i, ?_, hiv⟩
  unfold pyTake at hi ⊢
  refine (List.take_sublist_take_left ?_).subset hi
  unfold pyBound
  rw [if_neg (by omega), if_neg (by omega)]
  omega

/-- With a larger `top_n_candidate` no pair is lost. -/
theorem mostCommon_mono {argsort : List K → List Nat} (ha : IsArgsort argsort) (cs : List (Cand K))
    (hal : Aligned cs) {n n' : Int} (hnn : n ≤ n') (wt : Bool) (e : K × K)
    (he : e ∈ (mostCommon argsort cs n wt).1.zip (mostCommon argsort cs n wt).2) :
    e ∈ (mostCommon argsort cs n' wt).1.zip (mostCommon argsort cs n' wt).2 := by
  by_cases hn : 0 ≤ n
  · have key : ∀ m : Int, 0 ≤ m → (e ∈ (mostCommon argsort cs m wt).1.zip (mostCommon argsort cs m wt).2 ↔
        e.1 ∈ (candRows cs).map (fun e => e.1) ∧ e.2 ∈ peakBlock argsort m wt (candRows cs) e.1) := by
      intro m hm
      have hr := (mostCommon_returnedFor ha cs hm wt hal e.1).2
      have h1 : e ∈ (mostCommon argsort cs m wt).1.zip (mostCommon argsort cs m wt).2 ↔
          e.2 ∈ returnedFor (mostCommon argsort cs m wt) e.1 := by
        unfold returnedFor
        rw [List.mem_map]
        constructor
        · intro h
          exact ⟨e, List.mem_filter.2 ⟨h, by simp⟩, rfl⟩
        · rintro ⟨q, hq, hq2⟩
          rw [List.mem_filter] at hq
          have : q = e := Prod.ext (by simpa using hq.2) hq2
          exact this ▸ hq.1
      rw [h1, hr]
      split
      · rename_i hm; simp [hm]
      · rename_i hm; simp only [List.not_mem_nil, false_iff]; exact fun hc => hm hc.1
    rw [key n hn] at he
    rw [key n' (by omega)]
    exact ⟨he.1, peakBlock_mono argsort hn hnn wt _ _ he.2⟩
  · exfalso
    have h0 : (mostCommon argsort cs n wt).1 = [] := by
      rw [mostCommon_eq argsort cs _ _ hal]
      simp only [List.flatMap_eq_nil_iff]
      intro b hb
      obtain ⟨p, _, rfl⟩ := List.mem_map.1 hb
      simp only [List.replicate_eq_nil_iff]
      omega
    rw [h0] at he
    simp at he

/-- C120, what holds: called with the `candidate_weighted` of the RANSAC properties and at least their
`top_n_candidate`, and before another fit, `plot_search_space` shows every matched pair of a successful fit among
the "Best Candidate Pairs"; with exactly their `top_n_candidate` and without `filter_close` these are exactly the
pairs the search draws from.  What is missing: the default arguments, and `filter_close`. -/
theorem C120_best_pairs_partial [FloorRing K] (F : FitEnv K) (ha : IsArgsort F.argsortK) (w : World K)
    (a : FitArgs K) (rnd : FitRandom K) (r : FitReport K) (hr : (w.fit F a rnd).2 = .done (.ok r))
    (s : Session K) (pa : SearchPlotArgs K) (ev : List PlotEvent) (out : PlotOut) (fig : SearchFig K)
    (h : s.drawSearchSpace F (w.fitCandidates F a rnd.uniform) pa = .ok (ev, out, some fig))
    (hw : pa.weighted = w.cal.ransac.weighted) :
    (w.cal.ransac.topN ≤ pa.topN → ∀ e ∈ r.matchedPeaks.zip r.matchedAtlas, e ∈ fig.bestPairs) ∧
    (w.cal.ransac.topN = pa.topN → w.cal.ransac.filterClose = false →
      ∃ lines L, w.atlasLines = .ok lines ∧ (w.given a).enter F lines a rnd.uniform = some L ∧
        fig.bestPairs = L.cfg.x.zip L.cfg.y) := by
  obtain ⟨lines, L, b, co, data, prev, S⟩ := fit_success F ha w a rnd r hr
  have hft : a.fitType ≠ .other := by
    intro hc
    unfold World.fit at hr
    simp [hc] at hr
  obtain ⟨cs, hcs, hxy⟩ := enter_candidates F w a rnd.uniform lines L hft S.atlas S.enter
  obtain ⟨hal, -⟩ := fitCandidates_spec F w a _ cs hcs
  rw [hcs] at h
  obtain ⟨pl, hf, -⟩ := drawSearchSpace_fig F s _ pa ev out fig h
  obtain ⟨cs', b', l', pairs, hcs', -, -, -, -, -, hb, -⟩ := searchFig_ok _ _ _ _ _ _ _ _ _ hf
  cases hcs'
  have hx : L.cfg.x = (w.cal.candidateLists F cs).1 := congrArg Prod.fst hxy
  have hy : L.cfg.y = (w.cal.candidateLists F cs).2 := congrArg Prod.snd hxy
  have hlen : (mostCommon F.argsortK cs w.cal.ransac.topN w.cal.ransac.weighted).1.length =
      (mostCommon F.argsortK cs w.cal.ransac.topN w.cal.ransac.weighted).2.length ∨
      (mostCommon F.argsortK cs w.cal.ransac.topN w.cal.ransac.weighted).1 = [] := by
    by_cases hn : 0 ≤ w.cal.ransac.topN
    · exact .inl (mostCommon_returnedFor ha cs hn _ hal 0).1
    · right
      rw [mostCommon_eq F.argsortK cs _ _ hal]
      simp only [List.flatMap_eq_nil_iff]
      intro b hb
      obtain ⟨p, _, rfl⟩ := List.mem_map.1 hb
      simp only [List.replicate_eq_nil_iff]
      omega
  refine ⟨fun hn e he => ?_, fun hn hfc => ⟨lines, L, S.atlas, S.enter, ?_⟩⟩
  · have hmp : s.world.cal = s.world.cal := rfl
    have he' : e ∈ b.matchedPeaks.zip b.matchedAtlas := by
      have h1 := congrArg FitReport.matchedPeaks S.report
      have h2 := congrArg FitReport.matchedAtlas S.report
      dsimp only at h1 h2
      rwa [h1, h2] at he
    have hcand := S.accepted.candidates e he'
    rw [hx, hy] at hcand
    rw [hb, hw]
    apply mostCommon_mono ha cs hal hn
    unfold Cal.candidateLists at hcand
    dsimp only at hcand
    split at hcand
    · rcases hlen with hlen | hlen
      · exact (C56_filter_close _ _ _ hlen).2.1.subset hcand
      · unfold filterClose at hcand
        dsimp only at hcand
        rw [hlen, boolMask_nil] at hcand
        simp at hcand
    · exact hcand
  · rw [hb, hx, hy, hw, ← hn]
    unfold Cal.candidateLists
    dsimp only
    rw [if_neg (by simp [hfc])]

/-! ### C121 -/

/-- C121: after a successful fit, plotting its coefficients shows every peak at the wavelength given by the fitted
polynomial in the basis of that fit. -/
theorem C121_solution [FloorRing K] (F : FitEnv K) (s : Session K) (a : FitArgs K) (arr : Bool)
    (rnd : FitRandom K) (r : FitReport K) (hr : (s.fit F a arr rnd).2 = .done (.ok r))
    (cands : Option (List (Cand K))) (pa : SearchPlotArgs K) (hco : pa.fitCoeff = some r.coeffs)
    (ev : List PlotEvent) (out : PlotOut) (fig : SearchFig K)
    (h : (s.fit F a arr rnd).1.drawSearchSpace F cands pa = .ok (ev, out, some fig)) :
    fig.solution = some (s.world.cal.peaks.map (fun p => (p, (F.kern a.fitType).polyval r.coeffs p))) := by
  obtain ⟨pl, hf, -⟩ := drawSearchSpace_fig F _ _ pa ev out fig h
  obtain ⟨cs', b', l', pairs, -, -, -, -, -, -, -, -, -, -, -, -, hsol, -⟩ := searchFig_ok _ _ _ _ _ _ _ _ _ hf
  have hft : a.fitType ≠ .other := by
    intro hc
    have hr' : (s.world.fit F a rnd).2 = .done (.ok r) := hr
    unfold World.fit at hr'
    simp [hc] at hr'
  have hb : (s.fit F a arr rnd).1.basis = some a.fitType := by
    change (if a.fitType = .other then s.basis else some a.fitType) = _
    rw [if_neg hft]
  have hpk : (s.fit F a arr rnd).1.world.cal.peaks = s.world.cal.peaks := (fit_frame F s.world a rnd).1.peaks
  rw [hsol, hb, hco, hpk]
  rfl

/-- C121: without a fit there is nothing to draw, which is an AttributeError; right after a successful fit, with a
library selected, a search space and a pixel list, the figure is drawn whatever the arguments. -/
theorem C121_draws [FloorRing K] (F : FitEnv K) (ha : IsArgsort F.argsortK) (s : Session K) (pl : Bool)
    (hlib : UsesLibrary s pl) (pa : SearchPlotArgs K) :
    s.drawSearchSpace F none pa = .error .attributeError ∧
    ∀ (a : FitArgs K) (arr : Bool) (rnd : FitRandom K) (r : FitReport K),
      (s.fit F a arr rnd).2 = .done (.ok r) → s.world.cal.props.pixelList ≠ [] →
      (∃ pairs, s.world.cal.pairs = some (.array pairs)) →
      ∃ ev out fig, (s.fit F a arr rnd).1.drawSearchSpace F (s.world.fitCandidates F a rnd.uniform) pa =
        .ok (ev, out, some fig) := by
  obtain ⟨hm, hpl⟩ := usesLibrary_flags s pl hlib
  constructor
  · unfold Session.drawSearchSpace
    dsimp only
    cases pl with
    | false => simp [hm, Cal.searchFig]
    | true => simp [hm, hpl, Cal.searchFig]
  · intro a arr rnd r hr hpx hprs
    have hr' : (s.world.fit F a rnd).2 = .done (.ok r) := hr
    obtain ⟨lines, L, b, co, data, prev, S⟩ := fit_success F ha s.world a rnd r hr'
    have hft : a.fitType ≠ .other := by
      intro hc
      unfold World.fit at hr'
      simp [hc] at hr'
    obtain ⟨cs, hcs, hxy⟩ := enter_candidates F s.world a rnd.uniform lines L hft S.atlas S.enter
    obtain ⟨hal, -⟩ := fitCandidates_spec F s.world a _ cs hcs
    have hfr := (fit_frame F s.world a rnd).1
    have hprops : (s.fit F a arr rnd).1.world.cal.props = s.world.cal.props := hfr.props
    have hpairs : (s.fit F a arr rnd).1.world.cal.pairs = s.world.cal.pairs := hfr.pairs
    have hb : (s.fit F a arr rnd).1.basis = some a.fitType := by
      change (if a.fitType = .other then s.basis else some a.fitType) = _
      rw [if_neg hft]
    have hne : mergeCandidates cs ≠ [] := by
      rw [mergeCandidates_rows]
      intro hc
      rw [List.map_eq_nil_iff] at hc
      have hx : L.cfg.x = (s.world.cal.candidateLists F cs).1 := congrArg Prod.fst hxy
      have h0 : (mostCommon F.argsortK cs s.world.cal.ransac.topN s.world.cal.ransac.weighted).1 = [] := by
        rw [mostCommon_eq F.argsortK cs _ _ hal, hc]
        rfl
      have h1 : L.cfg.x = [] := by
        rw [hx]
        unfold Cal.candidateLists
        dsimp only
        split
        · unfold filterClose
          dsimp only
          rw [h0, boolMask_nil]
        · exact h0
      have := (enter_spec F _ _ _ _ _ S.enter).enough
      rw [h1, show npUnique ([] : List K) = [] from rfl] at this
      simp at this
    rw [hcs]
    have key : ∀ q, ∃ fig, (s.fit F a arr rnd).1.world.cal.searchFig F.argsortK q
        ((s.fit F a arr rnd).1.basis.map (fun t => (F.kern t).polyval)) (some cs) pa.fitCoeff pa.topN pa.weighted =
          .ok fig := by
      intro q
      obtain ⟨pairs, hp⟩ := hprs
      unfold Cal.searchFig
      rw [hprops, hpairs, hp, hb]
      cases hpl' : s.world.cal.props.pixelList with
      | nil => exact absurd hpl' hpx
      | cons a l =>
        dsimp only
        rw [if_neg hne, if_neg (by simp)]
        exact ⟨_, rfl⟩
    unfold Session.drawSearchSpace
    dsimp only
    rw [hprops]
    cases pl with
    | false =>
      obtain ⟨fig, hf⟩ := key false
      rw [if_pos (by simpa using hm), hf]
      exact ⟨_, _, _, rfl⟩
    | true =>
      obtain ⟨fig, hf⟩ := key true
      rw [if_neg (by simp [hm]), if_pos (hpl rfl), hf]
      exact ⟨_, _, _, rfl⟩

/-- C121: with ordered limits and a tolerance of at least zero, the axes show the whole tolerance region: every
drawn point of the three inclined lines at a pixel that is not negative, and all six horizontal lines. -/
theorem C121_window (F : FitEnv K) (s : Session K) (cands : Option (List (Cand K))) (pa : SearchPlotArgs K)
    (ev : List PlotEvent) (out : PlotOut) (fig : SearchFig K)
    (h : s.drawSearchSpace F cands pa = .ok (ev, out, some fig))
    (hw : s.world.cal.hough.minW ≤ s.world.cal.hough.maxW) (ht : 0 ≤ s.world.cal.hough.rangeTol) :
    (∀ v ∈ fig.levels, fig.ylim.1 ≤ v ∧ v ≤ fig.ylim.2) ∧ fig.xlim = (0, fig.right) ∧
    ∀ pts, fig.centre = some pts ∨ fig.upper = some pts ∨ fig.lower = some pts → ∀ q ∈ pts, 0 ≤ q.1 →
      q.1 ≤ fig.xlim.2 ∧ fig.ylim.1 ≤ q.2 ∧ q.2 ≤ fig.ylim.2 := by
  obtain ⟨pl, hf, -⟩ := drawSearchSpace_fig F s _ pa ev out fig h
  obtain ⟨cs', b, l, pairs, -, hpl, -, -, -, -, -, hlev, hri, hce, hup, hlo, -, hx, hy⟩ :=
    searchFig_ok _ _ _ _ _ _ _ _ _ hf
  have hm : s.world.cal.hough.rangeTol ≤
      (if pl then s.world.cal.hough.rangeTol * (11 / 10) else s.world.cal.hough.rangeTol) := by
    split
    · linarith
    · exact le_refl _
  rw [hy]
  generalize (if pl then s.world.cal.hough.rangeTol * (11 / 10) else s.world.cal.hough.rangeTol) = m at hm
  refine ⟨?_, by rw [hx, hri], ?_⟩
  · intro v hv
    rw [hlev] at hv
    simp only [List.mem_cons, List.not_mem_nil, or_false] at hv
    dsimp only
    rcases hv with rfl | rfl | rfl | rfl | rfl | rfl <;> constructor <;> linarith
  · have key : ∀ start pts, s.world.cal.hough.minW - s.world.cal.hough.rangeTol ≤ start →
        start ≤ s.world.cal.hough.minW + s.world.cal.hough.rangeTol →
        inclined (b :: l) (listMax b l) (s.world.cal.hough.maxW - s.world.cal.hough.minW) start = some pts →
        ∀ q ∈ pts, 0 ≤ q.1 → q.1 ≤ listMax b l ∧ s.world.cal.hough.minW - m ≤ q.2 ∧
          q.2 ≤ s.world.cal.hough.maxW + m := by
      intro start pts h1 h2 hpts q hq h0
      have hne : listMax b l ≠ 0 := by
        intro hc
        unfold inclined at hpts
        simp [hc] at hpts
      obtain ⟨hq1, hq2⟩ := (mem_inclined _ _ _ _ _ hpts q).1 hq
      have hle : q.1 ≤ listMax b l := by
        rcases List.mem_cons.1 hq1 with hq1 | hq1
        · rw [hq1]; exact (le_listMax _ _).1
        · exact (le_listMax _ _).2 _ hq1
      have hpos : 0 < listMax b l := lt_of_le_of_ne (le_trans h0 hle) (Ne.symm hne)
      have hz0 : 0 ≤ (s.world.cal.hough.maxW - s.world.cal.hough.minW) * q.1 / listMax b l :=
        div_nonneg (mul_nonneg (by linarith) h0) hpos.le
      have hz1 : (s.world.cal.hough.maxW - s.world.cal.hough.minW) * q.1 / listMax b l ≤
          s.world.cal.hough.maxW - s.world.cal.hough.minW := by
        rw [div_le_iff₀ hpos]
        exact mul_le_mul_of_nonneg_left hle (by linarith)
      exact ⟨hle, by linarith, by linarith⟩
    intro pts hpts q hq h0
    rw [hx]
    rcases hpts with hp | hp | hp
    · rw [hce] at hp; exact key _ _ (by linarith) (by linarith) hp q hq h0
    · rw [hup] at hp; exact key _ _ (by linarith) (by linarith) hp q hq h0
    · rw [hlo] at hp; exact key _ _ (by linarith) (by linarith) hp q hq h0

end

/-- The Gaussian of rascal is at most 1. -/
theorem gaussFn_le_one (x y σ : ℝ) : gaussFn x 1 y σ ≤ 1 := by
  unfold gaussFn
  rw [one_mul, Real.exp_le_one_iff]
  apply div_nonpos_of_nonpos_of_nonneg
  · nlinarith [sq_nonneg (x - y)]
  · positivity

set_option synthInstance.maxSize 2000
set_option synthInstance.maxHeartbeats 400000

/-- The figure drawn right after a fit, with the report of the fit. -/
def Toy.drawn (s : Session ℚ) (a : FitArgs ℚ) (rnd : FitRandom ℚ) (pa : SearchPlotArgs ℚ) :
    Option (FitReport ℚ × SearchFig ℚ) :=
  (Toy.sessionReport (s.fit Toy.env a false rnd)).bind (fun r =>
    ((s.fit Toy.env a false rnd).1.drawSearchSpace Toy.env (s.world.fitCandidates Toy.env a rnd.uniform)
      pa).toOption.bind (fun f => f.2.2.map (fun fig => (r, fig))))

theorem Toy.drawn_some (s : Session ℚ) (a : FitArgs ℚ) (rnd : FitRandom ℚ) (pa : SearchPlotArgs ℚ)
    (r : FitReport ℚ) (fig : SearchFig ℚ) (h : Toy.drawn s a rnd pa = some (r, fig)) :
    (s.fit Toy.env a false rnd).2 = .done (.ok r) ∧ ∃ ev out,
      (s.fit Toy.env a false rnd).1.drawSearchSpace Toy.env (s.world.fitCandidates Toy.env a rnd.uniform) pa =
        .ok (ev, out, some fig) := by
  unfold Toy.drawn at h
  simp only [Option.bind_eq_some_iff, Option.map_eq_some_iff, Prod.mk.injEq] at h
  obtain ⟨r', hr, f, hf, g, hg, rfl, rfl⟩ := h
  refine ⟨Toy.sessionReport_some hr, f.1, f.2.1, ?_⟩
  cases hd : (s.fit Toy.env a false rnd).1.drawSearchSpace Toy.env (s.world.fitCandidates Toy.env a rnd.uniform)
      pa with
  | error e => rw [hd] at hf; cases hf
  | ok f' =>
    rw [hd] at hf
    cases hf
    rw [← hg]

/-- Four peaks and the given lines, with either choice for `constrain_poly`. -/
def Toy.fourSession (lines : List ℚ) (constrain : Bool) : Option (Session ℚ) :=
  (Toy.fourPeaks lines).toOption.map (fun w => Session.new (w.setAtlas 0 10 constrain).1 false)

/-- One draw. -/
def Toy.oneDraw : FitRandom ℚ := ⟨fun _ => 0, [⟨[0, 2], [0, 0]⟩]⟩

/-- The expected behaviour: the best candidate pairs are among the candidate pairs. -/
def C118_Statement : Prop :=
  ∀ (F : FitEnv ℚ) (s : Session ℚ) (a : FitArgs ℚ) (arr : Bool) (rnd : FitRandom ℚ) (r : FitReport ℚ)
    (pa : SearchPlotArgs ℚ) (ev : List PlotEvent) (out : PlotOut) (fig : SearchFig ℚ),
    IsArgsort F.argsortK → (s.fit F a arr rnd).2 = .done (.ok r) →
    (s.fit F a arr rnd).1.drawSearchSpace F (s.world.fitCandidates F a rnd.uniform) pa = .ok (ev, out, some fig) →
    ∀ e ∈ fig.bestPairs, e ∈ fig.candidatePairs

/-- A small fit has (10, 4500) among its best pairs; the candidate pairs are drawn at abscissa 1. -/
theorem C118_refuted : ¬ C118_Statement := by
  intro h
  have hc : (Toy.fourSession [4500, 5900, 7440, 8847] false).bind (fun s =>
      (s.world.fitCandidates Toy.env (Toy.fourArgs 1) Toy.oneDraw.uniform).bind (fun cs =>
      (Toy.drawn s (Toy.fourArgs 1) Toy.oneDraw {}).map (fun x =>
        (decide ((10, 4500) ∈ x.2.bestPairs),
          decide (∀ c ∈ cs, ∀ e ∈ c.peaks.zip c.wls, 1 < e.1 ∧ e.1 ≤ e.2))))) = some (true, true) := by
    decide +kernel
  rw [Option.bind_eq_some_iff] at hc
  obtain ⟨s, -, hs⟩ := hc
  rw [Option.bind_eq_some_iff] at hs
  obtain ⟨cs, hcs, hs⟩ := hs
  rw [Option.map_eq_some_iff] at hs
  obtain ⟨⟨r, fig⟩, hd, hx⟩ := hs
  simp only [Prod.mk.injEq, decide_eq_true_eq] at hx
  obtain ⟨hr, ev, out, hf⟩ := Toy.drawn_some _ _ _ _ _ _ hd
  refine (C118_disjoint_partial Toy.env stableArgsort_isArgsort (fun _ _ _ => le_refl _) s.world (Toy.fourArgs 1)
    Toy.oneDraw.uniform cs hcs hx.2 _ {} ev out fig (hcs ▸ hf)).2 _ hx.1 ?_
  exact h _ _ _ _ _ r _ ev out fig stableArgsort_isArgsort hr hf _ hx.1

/-- A case for the C118 theorems: the first rows of the candidates; their markers are at (1, 10), (1, 20), .... -/
example : (Toy.fourSession [4500, 5900, 7440, 8847] false).bind (fun s =>
      (s.world.fitCandidates Toy.env (Toy.fourArgs 1) Toy.oneDraw.uniform).map (fun cs => (candRows cs).take 4)) =
    some [(10, 4500, 1), (20, 5900, 1), (31, 7440, 1), (41, 8847, 1)] := by
  decide +kernel

/-- The expected behaviour: with `constrain_poly` the pairs shown lie in the tolerance region shown. -/
def C119_Statement : Prop :=
  ∀ (F : FitEnv ℚ) (s : Session ℚ) (a : FitArgs ℚ) (arr : Bool) (rnd : FitRandom ℚ) (r : FitReport ℚ)
    (pa : SearchPlotArgs ℚ) (ev : List PlotEvent) (out : PlotOut) (fig : SearchFig ℚ) (up : List (ℚ × ℚ)),
    IsArgsort F.argsortK → s.world.cal.constrainPoly = true → (s.fit F a arr rnd).2 = .done (.ok r) →
    (s.fit F a arr rnd).1.drawSearchSpace F (s.world.fitCandidates F a rnd.uniform) pa = .ok (ev, out, some fig) →
    fig.upper = some up → ∀ e ∈ fig.allPairs, ∀ q ∈ up, q.1 = e.1 → e.2 ≤ q.2

/-- At pixel 10 the drawn region ends at 29000/6 = 4833.3, but with a candidate tolerance of 10 the line at 4840
belongs to the search space. -/
theorem C119_refuted : ¬ C119_Statement := by
  intro h
  have hc : (Toy.fourSession [4500, 4840, 5900, 7440, 8847] true).bind (fun s =>
      (Toy.drawn s (Toy.fourArgs 1) Toy.oneDraw {}).map (fun x =>
        (s.world.cal.constrainPoly, decide ((10, 4840) ∈ x.2.allPairs),
          x.2.upper.map (fun u => decide ((10, 29000 / 6) ∈ u))))) = some (true, true, some true) := by
    decide +kernel
  rw [Option.bind_eq_some_iff] at hc
  obtain ⟨s, -, hs⟩ := hc
  rw [Option.map_eq_some_iff] at hs
  obtain ⟨⟨r, fig⟩, hd, hx⟩ := hs
  simp only [Prod.mk.injEq, decide_eq_true_eq, Option.map_eq_some_iff] at hx
  obtain ⟨h1, h2, up, hup, h3⟩ := hx
  obtain ⟨hr, ev, out, hf⟩ := Toy.drawn_some _ _ _ _ _ _ hd
  have := h _ _ _ _ _ r _ ev out fig up stableArgsort_isArgsort h1 hr hf hup _ h2 _ h3 rfl
  norm_num at this

/-- A case for C119: of the combinations of the first peak two are near the expected wavelength 4333.3. -/
example : (Toy.fourSession [3823, 4500, 4840, 4844, 5900, 7440, 8847] true).bind (fun s =>
      (Toy.drawn s (Toy.fourArgs 1) Toy.oneDraw {}).map (fun x =>
        (x.2.allPairs.filter (fun e => decide (e.1 = 10)), x.2.right, s.world.cal.hough.rangeTol))) =
    some ([(10, 4500), (10, 4840)], 45, 500) := by
  decide +kernel

/-- The expected behaviour: right after a successful fit the matched pairs are among the best candidate pairs that
`plot_search_space()` shows by default. -/
def C120_Statement : Prop :=
  ∀ (F : FitEnv ℚ) (s : Session ℚ) (a : FitArgs ℚ) (arr : Bool) (rnd : FitRandom ℚ) (r : FitReport ℚ)
    (ev : List PlotEvent) (out : PlotOut) (fig : SearchFig ℚ),
    IsArgsort F.argsortK → (s.fit F a arr rnd).2 = .done (.ok r) →
    (s.fit F a arr rnd).1.drawSearchSpace F (s.world.fitCandidates F a rnd.uniform) {} = .ok (ev, out, some fig) →
    ∀ e ∈ r.matchedPeaks.zip r.matchedAtlas, e ∈ fig.bestPairs

/-- The peak at 20 has four candidates; the fit uses the fourth, the plot shows three. -/
theorem C120_refuted : ¬ C120_Statement := by
  intro h
  have hc : (Toy.fourSession [4500, 5890, 5895, 5898, 5900, 7440, 8847] false).bind (fun s =>
      (Toy.drawn s (Toy.fourArgs 1) Toy.oneDraw {}).map (fun x =>
        (decide ((20, 5900) ∈ x.1.matchedPeaks.zip x.1.matchedAtlas), x.2.bestPairs))) =
      some (true, [(10, 4500), (20, 5890), (20, 5895), (20, 5898), (31, 7440), (31, 7440), (41, 8847),
        (41, 8847)]) := by
    decide +kernel
  rw [Option.bind_eq_some_iff] at hc
  obtain ⟨s, -, hs⟩ := hc
  rw [Option.map_eq_some_iff] at hs
  obtain ⟨⟨r, fig⟩, hd, hx⟩ := hs
  simp only [Prod.mk.injEq, decide_eq_true_eq] at hx
  obtain ⟨hr, ev, out, hf⟩ := Toy.drawn_some _ _ _ _ _ _ hd
  have := h _ _ _ _ _ r ev out fig stableArgsort_isArgsort hr hf _ hx.1
  rw [hx.2] at this
  exact absurd this (by decide +kernel)

/-- A case for C120: with the `top_n_candidate` of the RANSAC properties the matched pair is shown. -/
example : (Toy.fourSession [4500, 5890, 5895, 5898, 5900, 7440, 8847] false).bind (fun s =>
      (Toy.drawn s (Toy.fourArgs 1) Toy.oneDraw { topN := 5 }).map (fun x =>
        (s.world.cal.ransac.topN, s.world.cal.ransac.weighted, s.world.cal.ransac.filterClose,
          decide (∀ e ∈ x.1.matchedPeaks.zip x.1.matchedAtlas, e ∈ x.2.bestPairs)))) =
    some (5, true, false, true) := by
  decide +kernel

/-- A case for C121, with plotly: the solution at the four peaks and the ranges of the axes. -/
example : (Toy.fourSession [4500, 5900, 7440, 8847] false).bind (fun s =>
      (Toy.drawn (s.step Toy.calEnv .usePlotly).1 (Toy.fourArgs 1) Toy.oneDraw { fitCoeff := some [3100, 140] }).map
        (fun x => (x.2.solution, x.2.xlim, x.2.ylim))) =
    some (some [(10, 4500), (20, 5900), (31, 7440), (41, 8840)], (0, 45), (2450, 9550)) := by
  decide +kernel

end Rascal
