import Verif.Props.PlotSearchProps
import Verif.Props.HoughProps
import Verif.Props.BruteProps

/-!
What the Hough transform contributes to the candidates of a fit (C122, C123, C124).
-/

set_option linter.unusedSectionVars false

namespace Rascal

variable {K : Type _} [Field K] [LinearOrder K] [IsStrictOrderedRing K]

/-! ### A successful transform -/

/-- The inputs with which `do_hough_transform` succeeds, and the Hough points it then generates. -/
structure HoughInputs (c : Cal K) (argsortK : List K → List Nat) (brute : Bool) (xy pts : List (K × K))
    (a b : K) : Prop where
  pairs : c.pairs = some (.array xy)
  minSlope : c.hough.minSlope = .fin a
  maxSlope : c.hough.maxSlope = .fin b
  slopes : brute = false → 0 < c.hough.numSlopes.toNat ∧ xy ≠ []
  xbins : 0 < c.hough.xbins.toNat
  ybins : 0 < c.hough.ybins.toNat
  points : pts = if brute then bruteLines argsortK a b c.hough.minIntercept c.hough.maxIntercept xy
    else houghGrid a b c.hough.minIntercept c.hough.maxIntercept xy c.hough.numSlopes.toNat

/-- What a successful `do_hough_transform` leaves. -/
structure HoughDone (c : Cal K) (argsortK : List K → List Nat) (argsortN : List Nat → List Nat)
    (brute : Bool) (xy pts : List (K × K)) (a b : K) : Prop
    extends HoughInputs c argsortK brute xy pts a b where
  state : (c.doHough argsortK argsortN brute).1 = { c with
    ht := ⟨some (.array pts),
      some (houghLines (binEdges (pts.map Prod.fst) c.hough.xbins.toNat)
        (binEdges (pts.map Prod.snd) c.hough.ybins.toNat)
        (histSortedArg argsortN (histogram2d pts c.hough.xbins.toNat c.hough.ybins.toNat)
          c.hough.ybins.toNat)),
      some (histogram2d pts c.hough.xbins.toNat c.hough.ybins.toNat),
      some (binEdges (pts.map Prod.fst) c.hough.xbins.toNat),
      some (binEdges (pts.map Prod.snd) c.hough.ybins.toNat), some a, some b,
      some c.hough.minIntercept, some c.hough.maxIntercept⟩
    houghPoints := some (.array pts)
    houghLines := some (houghLines (binEdges (pts.map Prod.fst) c.hough.xbins.toNat)
        (binEdges (pts.map Prod.snd) c.hough.ybins.toNat)
        (histSortedArg argsortN (histogram2d pts c.hough.xbins.toNat c.hough.ybins.toNat)
          c.hough.ybins.toNat)) }

theorem toFinite_some {x : PyFloat K} {v : K} (h : x.toFinite = some v) : x = .fin v := by
  cases x <;> simp_all [PyFloat.toFinite]

theorem doHough_ok (c : Cal K) (argsortK : List K → List Nat) (argsortN : List Nat → List Nat)
    (brute : Bool) (h : (c.doHough argsortK argsortN brute).2 = .ok ()) :
    ∃ xy pts a b, HoughDone c argsortK argsortN brute xy pts a b := by
  unfold Cal.doHough at h
  cases hp : c.pairs with
  | none => rw [hp] at h; simp at h
  | some st =>
    rw [hp] at h
    dsimp only at h
    unfold Hough.setConstraints at h
    cases ha : c.hough.minSlope.toFinite with
    | none => rw [ha] at h; simp at h
    | some a =>
      cases hb : c.hough.maxSlope.toFinite with
      | none => rw [ha, hb] at h; simp at h
      | some b =>
        cases st with
        | noColumns => rw [ha, hb] at h; simp [PyFloat.toFinite] at h
        | array xy =>
          rw [ha, hb] at h
          have hft : ∀ x : K, (PyFloat.fin x).toFinite = some x := fun _ => rfl
          simp only [hft] at h
          have hsa := toFinite_some ha
          have hsb := toFinite_some hb
          cases brute with
          | true =>
            simp only [if_true] at h
            unfold Hough.generateBrute at h
            by_cases hlen : xy.length < 2
            · rw [if_pos hlen] at h; simp at h
            · rw [if_neg hlen] at h
              dsimp only at h
              unfold Hough.bin at h
              dsimp only at h
              by_cases hz : c.hough.xbins.toNat = 0 ∨ c.hough.ybins.toNat = 0
              · rw [if_pos hz] at h; simp at h
              · refine ⟨xy, _, a, b, ⟨hp, hsa, hsb, by simp, by omega, by omega, rfl⟩, ?_⟩
                unfold Cal.doHough Hough.setConstraints
                rw [hp, ha, hb]
                simp only [hft, if_true]
                unfold Hough.generateBrute
                rw [if_neg hlen]
                dsimp only
                unfold Hough.bin
                dsimp only
                rw [if_neg hz]
          | false =>
            simp only [Bool.false_eq_true, if_false] at h
            unfold Hough.generate at h
            dsimp only at h
            by_cases hlen : c.hough.numSlopes.toNat = 0 ∨ xy = []
            · rw [if_pos hlen] at h; simp at h
            · rw [if_neg hlen] at h
              dsimp only at h
              unfold Hough.bin at h
              dsimp only at h
              by_cases hz : c.hough.xbins.toNat = 0 ∨ c.hough.ybins.toNat = 0
              · rw [if_pos hz] at h; simp at h
              · push Not at hlen
                refine ⟨xy, _, a, b, ⟨hp, hsa, hsb, fun _ => ⟨by omega, hlen.2⟩, by omega, by omega, rfl⟩, ?_⟩
                unfold Cal.doHough Hough.setConstraints
                rw [hp, ha, hb]
                simp only [hft, Bool.false_eq_true, if_false]
                unfold Hough.generate
                dsimp only
                rw [if_neg (by push Not; exact hlen)]
                dsimp only
                unfold Hough.bin
                dsimp only
                rw [if_neg hz]

/-- All bins of a table, row by row. -/
def allBins (m n : Nat) : List (Nat × Nat) :=
  (List.range m).flatMap fun i => (List.range n).map fun j => (i, j)

theorem mem_allBins (m n : Nat) (b : Nat × Nat) : b ∈ allBins m n ↔ b.1 < m ∧ b.2 < n := by
  unfold allBins
  simp only [List.mem_flatMap, List.mem_range, List.mem_map]
  constructor
  · rintro ⟨i, hi, j, hj, rfl⟩; exact ⟨hi, hj⟩
  · rintro ⟨h1, h2⟩; exact ⟨b.1, h1, b.2, h2, rfl⟩

theorem nodup_allBins (m n : Nat) : (allBins m n).Nodup := by
  unfold allBins
  rw [List.nodup_flatMap]
  refine ⟨fun i _ => (List.nodup_range).map fun _ _ h => (Prod.mk.inj h).2, ?_⟩
  refine List.Pairwise.imp_of_mem ?_ (List.nodup_range (n := m))
  intro i j _ _ hij b hb hb'
  obtain ⟨_, _, rfl⟩ := List.mem_map.1 hb
  obtain ⟨_, _, h⟩ := List.mem_map.1 hb'
  exact hij (Prod.mk.inj h).1.symm

theorem ranking_perm (hist : List (List Nat)) (m n : Nat) (args : List (Nat × Nat))
    (h : IsRanking hist m n args) : args.Perm (allBins m n) :=
  (List.perm_ext_iff_of_nodup h.1 (nodup_allBins m n)).2 fun b => by rw [h.2.1, mem_allBins]

/-- The Hough lines are the centres of all bins. -/
theorem houghLines_perm (argsort : List Nat → List Nat) (hs : IsArgsort argsort) (pts : List (K × K))
    (m n : Nat) (hn : 0 < n) :
    (houghLines (binEdges (pts.map Prod.fst) m) (binEdges (pts.map Prod.snd) n)
      (histSortedArg argsort (histogram2d pts m n) n)).Perm
      ((allBins m n).map fun b =>
        (Spec.binCentre (outerEdges (pts.map Prod.fst)).1 (outerEdges (pts.map Prod.fst)).2 m b.1,
         Spec.binCentre (outerEdges (pts.map Prod.snd)).1 (outerEdges (pts.map Prod.snd)).2 n b.2)) := by
  have hr := histSortedArg_ranking argsort hs pts m n hn
  refine List.Perm.trans (List.Perm.of_eq ?_) ((ranking_perm _ _ _ _ hr).map _)
  unfold houghLines
  dsimp only
  apply List.map_congr_left
  intro b hb
  have hb := (hr.2.1 b).1 hb
  rw [centre_eq _ _ _ hb.1, centre_eq _ _ _ hb.2]

/-- A sample inside an interval has a binning range not longer than the interval, or of length one. -/
theorem range_width (s : List K) (lo hi c d : K) (h : Spec.SampleRange s lo hi) (hne : s ≠ [])
    (hs : ∀ x ∈ s, c ≤ x ∧ x ≤ d) : hi - lo ≤ max (d - c) 1 := by
  rcases h.tight hne with ⟨h1, h2⟩ | ⟨m, _, h2, h3⟩
  · exact le_trans (by linarith [(hs _ h1).1, (hs _ h2).2]) (le_max_left _ _)
  · refine le_trans (le_of_eq ?_) (le_max_right _ _)
    rw [h2, h3]; ring

theorem linspace_between (a b : K) (n : Nat) (i : Nat) (hi : i < n) :
    min a b ≤ a + (i : K) * ((b - a) / ((n : K) - 1)) ∧
      a + (i : K) * ((b - a) / ((n : K) - 1)) ≤ max a b := by
  by_cases hn : n = 1
  · subst hn
    obtain rfl : i = 0 := by omega
    simp
  · have hpos : (0 : K) < (n : K) - 1 := cast_pred_pos n (by omega)
    have hi' : (i : K) ≤ (n : K) - 1 := by
      have : (i : K) + 1 ≤ n := by exact_mod_cast hi
      linarith
    have h0 : (0 : K) ≤ i := Nat.cast_nonneg i
    have ht0 : 0 ≤ (i : K) / ((n : K) - 1) := div_nonneg h0 hpos.le
    have ht1 : (i : K) / ((n : K) - 1) ≤ 1 := (div_le_one hpos).2 hi'
    have he : a + (i : K) * ((b - a) / ((n : K) - 1)) = a + (i : K) / ((n : K) - 1) * (b - a) := by ring
    rw [he]
    generalize (i : K) / ((n : K) - 1) = t at *
    rcases le_total a b with hab | hab
    · rw [min_eq_left hab, max_eq_right hab]
      constructor <;> nlinarith
    · rw [min_eq_right hab, max_eq_left hab]
      constructor <;> nlinarith

theorem mem_houghGrid (a b c d : K) (xy : List (K × K)) (n : Nat) (q : K × K) :
    q ∈ houghGrid a b c d xy n ↔ ∃ p ∈ xy, ∃ i : Nat, i < n ∧
      q = (a + (i : K) * ((b - a) / ((n : K) - 1)),
        p.2 - (a + (i : K) * ((b - a) / ((n : K) - 1))) * p.1) ∧ c ≤ q.2 ∧ q.2 ≤ d := by
  rw [houghGrid_eq]
  simp only [List.mem_flatMap, List.mem_filter, List.mem_map, Bool.and_eq_true, decide_eq_true_eq]
  constructor
  · rintro ⟨s, hs, ⟨p, hp, rfl⟩, h1, h2⟩
    obtain ⟨i, hi⟩ := List.getElem?_of_mem hs
    have hlt : i < n := by
      have := (List.getElem?_eq_some_iff.1 hi).1
      rwa [linspace_length] at this
    rw [linspace_getElem? a b n i hlt] at hi
    simp only [Option.some.injEq] at hi
    subst hi
    exact ⟨p, hp, i, hlt, rfl, h1, h2⟩
  · rintro ⟨p, hp, i, hi, rfl, h1, h2⟩
    exact ⟨_, List.mem_of_getElem? (linspace_getElem? a b n i hi), ⟨p, hp, rfl⟩, h1, h2⟩

/-- Each sample value is within half a bin of the centre of some bin. -/
theorem inBin_exists (s : List K) (n : Nat) (hn : 0 < n) (x : K) (hx : x ∈ s) :
    ∃ i : Nat, i < n ∧ |x - Spec.binCentre (outerEdges s).1 (outerEdges s).2 n i| ≤
      ((outerEdges s).2 - (outerEdges s).1) / n / 2 := by
  obtain ⟨i, hi, hb⟩ := binNumber_total s n hn x hx
  exact ⟨i, hi, inBin_half _ _ _ _ hn _ ((binNumber_inBin s n i hi x).1 hb)⟩

/-- Every Hough point has a Hough line within half a bin. -/
theorem line_near (argsort : List Nat → List Nat) (hs : IsArgsort argsort) (pts : List (K × K))
    (m n : Nat) (hm : 0 < m) (hn : 0 < n) (q : K × K) (hq : q ∈ pts) :
    ∃ l ∈ houghLines (binEdges (pts.map Prod.fst) m) (binEdges (pts.map Prod.snd) n)
      (histSortedArg argsort (histogram2d pts m n) n),
      |q.1 - l.1| ≤ ((outerEdges (pts.map Prod.fst)).2 - (outerEdges (pts.map Prod.fst)).1) / m / 2 ∧
      |q.2 - l.2| ≤ ((outerEdges (pts.map Prod.snd)).2 - (outerEdges (pts.map Prod.snd)).1) / n / 2 := by
  obtain ⟨i, hi, h1⟩ := inBin_exists (pts.map Prod.fst) m hm q.1 (List.mem_map_of_mem hq)
  obtain ⟨j, hj, h2⟩ := inBin_exists (pts.map Prod.snd) n hn q.2 (List.mem_map_of_mem hq)
  refine ⟨_, (houghLines_perm argsort hs pts m n hn).mem_iff.2
    (List.mem_map_of_mem ((mem_allBins m n (i, j)).2 ⟨hi, hj⟩)), h1, h2⟩

/-- The candidates of a fit that does the transform itself, in the linear mode. -/
theorem fitCandidates_fresh (F : FitEnv K) (w : World K) (a : FitArgs K) (u : Nat → K)
    (cs : List (Cand K)) (hlin : w.cal.ransac.linear = true)
    (hnew : w.cal.houghLines = none ∨ w.cal.houghPoints = none)
    (h : w.fitCandidates F a u = some cs) :
    ∃ xy pts s t, HoughInputs w.cal F.argsortK false xy pts s t ∧
      ∃ wt : K → K → K, cs = candidatesLinear wt a.candTol
        (houghLines (binEdges (pts.map Prod.fst) w.cal.hough.xbins.toNat)
          (binEdges (pts.map Prod.snd) w.cal.hough.ybins.toNat)
          (histSortedArg F.argsortN (histogram2d pts w.cal.hough.xbins.toNat w.cal.hough.ybins.toNat)
            w.cal.hough.ybins.toNat)) xy := by
  unfold World.fitCandidates at h
  split at h
  · simp at h
  cases hl : w.atlasLines with
  | error e => rw [hl] at h; simp at h
  | ok lines =>
    rw [hl] at h
    dsimp only at h
    unfold Cal.ensureHough at h
    rw [if_pos (by
      dsimp only
      rcases hnew with hnew | hnew <;> rw [hnew] <;> simp)] at h
    generalize hc : ({ w.cal with
      fitCoeff := a.fitCoeff
      ransac := { w.cal.ransac with
        sampleSize := adjustSampleSize w.cal.ransac.sampleSize lines.length a.fitDeg } } : Cal K) = c at h
    cases hok : (c.doHough F.argsortK F.argsortN false).2 with
    | error e => rw [hok] at h; simp at h
    | ok v =>
      rw [hok] at h
      obtain ⟨xy, pts, s, t, hd⟩ := doHough_ok c F.argsortK F.argsortN false hok
      dsimp only at h
      rw [hd.state] at h
      have hd' : HoughInputs w.cal F.argsortK false xy pts s t := by
        subst hc
        exact ⟨hd.pairs, hd.minSlope, hd.maxSlope, hd.slopes, hd.xbins, hd.ybins, hd.points⟩
      refine ⟨xy, pts, s, t, hd', ?_⟩
      unfold Cal.candidates at h
      dsimp only at h
      rw [if_pos (by subst hc; exact hlin), hd.pairs] at h
      simp only [Except.toOption, Option.some.injEq] at h
      subst hc
      exact ⟨_, h.symm⟩

theorem mem_candidatesLinear (wt : K → K → K) (tol : K) (lines pairs : List (K × K)) (e : K × K) :
    (∃ cd ∈ candidatesLinear wt tol lines pairs, e ∈ cd.peaks.zip cd.wls) ↔
      e ∈ pairs ∧ ∃ l ∈ lines, |l.1 * e.1 + l.2 - e.2| ≤ tol := by
  have hz : ∀ t : List (K × K), (t.map Prod.fst).zip (t.map Prod.snd) = t := by
    intro t
    induction t with
    | nil => rfl
    | cons x t ih => simp [ih]
  rw [candidatesLinear_eq]
  simp only [List.mem_map]
  constructor
  · rintro ⟨cd, ⟨l, hl, rfl⟩, he⟩
    simp only [hz, List.mem_filter, decide_eq_true_eq] at he
    exact ⟨he.1, l, hl, he.2⟩
  · rintro ⟨he, l, hl, hle⟩
    refine ⟨_, ⟨l, hl, rfl⟩, ?_⟩
    simp only [hz, List.mem_filter, decide_eq_true_eq]
    exact ⟨he, hle⟩

/-! ### C122 -/

/-- The slopes `num_slopes` equally spaced values between the two bounds. -/
def gridSlope (lo hi : K) (n i : Nat) : K := lo + (i : K) * ((hi - lo) / ((n : K) - 1))

/-- How far a Hough line may be, at pixel `x`, from the straight line of a Hough point: half a slope bin
times the pixel plus half an intercept bin (bins of a range not longer than the one allowed, but of length
one if there is only one value). -/
def binReach (h : HoughSet K) (lo hi : K) (x : K) : K :=
  |x| * (max |hi - lo| 1 / h.xbins.toNat / 2) +
    max (h.maxIntercept - h.minIntercept) 1 / h.ybins.toNat / 2

/-- C122 (partial).  A combination of the search space through which a line of the slope grid passes, with
an intercept within the limits, is a candidate of the fit, provided `candidate_tolerance` is at least the
distance that binning can produce.  Missing: smaller tolerances, for which it is false. -/
theorem C122_grid_partial (F : FitEnv K) (hN : IsArgsort F.argsortN) (w : World K) (a : FitArgs K)
    (u : Nat → K) (cs : List (Cand K)) (hlin : w.cal.ransac.linear = true)
    (hnew : w.cal.houghLines = none ∨ w.cal.houghPoints = none)
    (h : w.fitCandidates F a u = some cs) (lo hi : K) (hlo : w.cal.hough.minSlope = .fin lo)
    (hhi : w.cal.hough.maxSlope = .fin hi) (e : K × K) (he : e ∈ w.cal.pairList) (i : Nat)
    (hi' : (i : Int) < w.cal.hough.numSlopes) (c : K)
    (hc : e.2 = gridSlope lo hi w.cal.hough.numSlopes.toNat i * e.1 + c)
    (hc1 : w.cal.hough.minIntercept ≤ c) (hc2 : c ≤ w.cal.hough.maxIntercept)
    (htol : binReach w.cal.hough lo hi e.1 ≤ a.candTol) :
    ∃ cd ∈ cs, e ∈ cd.peaks.zip cd.wls := by
  obtain ⟨xy, pts, s, t, hd, wt, rfl⟩ := fitCandidates_fresh F w a u cs hlin hnew h
  obtain rfl : lo = s := by
    have := hd.minSlope; rw [hlo] at this; exact PyFloat.fin.inj this
  obtain rfl : hi = t := by
    have := hd.maxSlope; rw [hhi] at this; exact PyFloat.fin.inj this
  have hxy : e ∈ xy := by
    unfold Cal.pairList at he
    rw [hd.pairs] at he
    exact he
  have hpts := hd.points
  simp only [Bool.false_eq_true, if_false] at hpts
  generalize hs : gridSlope lo hi w.cal.hough.numSlopes.toNat i = s at hc
  have hq : (s, c) ∈ pts := by
    rw [hpts, mem_houghGrid]
    refine ⟨e, hxy, i, by omega, ?_, hc1, hc2⟩
    unfold gridSlope at hs
    rw [hs]
    refine Prod.ext rfl ?_
    simp only
    rw [hc]; ring
  have hne1 : pts.map Prod.fst ≠ [] := fun h => by
    rw [List.map_eq_nil_iff] at h; rw [h] at hq; simp at hq
  have hne2 : pts.map Prod.snd ≠ [] := fun h => by
    rw [List.map_eq_nil_iff] at h; rw [h] at hq; simp at hq
  obtain ⟨l, hl, h1, h2⟩ := line_near F.argsortN hN pts _ _ hd.xbins hd.ybins (s, c) hq
  have hr1 := range_width (pts.map Prod.fst) _ _ (min lo hi) (max lo hi) (sampleRange_outer _) hne1 (by
    intro x hx
    obtain ⟨q, hq, rfl⟩ := List.mem_map.1 hx
    rw [hpts, mem_houghGrid] at hq
    obtain ⟨p, _, j, hj, rfl, _, _⟩ := hq
    exact linspace_between lo hi _ j hj)
  have hr2 := range_width (pts.map Prod.snd) _ _ w.cal.hough.minIntercept w.cal.hough.maxIntercept
    (sampleRange_outer _) hne2 (by
    intro x hx
    obtain ⟨q, hq, rfl⟩ := List.mem_map.1 hx
    rw [hpts, mem_houghGrid] at hq
    obtain ⟨p, _, j, hj, _, g1, g2⟩ := hq
    exact ⟨g1, g2⟩)
  rw [max_sub_min_eq_abs'] at hr1
  rw [mem_candidatesLinear]
  refine ⟨hxy, l, hl, ?_⟩
  have hx0 : (0 : K) < w.cal.hough.xbins.toNat := by exact_mod_cast hd.xbins
  have hy0 : (0 : K) < w.cal.hough.ybins.toNat := by exact_mod_cast hd.ybins
  have b1 : |s - l.1| ≤ max |hi - lo| 1 / w.cal.hough.xbins.toNat / 2 := by
    refine h1.trans ?_
    rw [abs_sub_comm lo hi] at hr1
    gcongr
  have b2 : |c - l.2| ≤ max (w.cal.hough.maxIntercept - w.cal.hough.minIntercept) 1 /
      w.cal.hough.ybins.toNat / 2 := by
    refine h2.trans ?_
    gcongr
  refine le_trans ?_ htol
  unfold binReach
  have : l.1 * e.1 + l.2 - e.2 = -(e.1 * (s - l.1) + (c - l.2)) := by rw [hc]; ring
  rw [this, abs_neg]
  refine (abs_add_le _ _).trans ?_
  rw [abs_mul]
  gcongr

/-- Between two values of an arithmetic progression, one of its members is within half a step. -/
theorem nearest_step (lo d x : K) (hd : 0 ≤ d) (k : Nat) (h1 : lo ≤ x) (h2 : x ≤ lo + (k : K) * d) :
    ∃ i : Nat, i ≤ k ∧ |x - (lo + (i : K) * d)| ≤ d / 2 := by
  induction k with
  | zero =>
    refine ⟨0, le_rfl, ?_⟩
    simp only [Nat.cast_zero, zero_mul, add_zero] at h2 ⊢
    rw [le_antisymm h2 h1, sub_self, abs_zero]
    linarith
  | succ k ih =>
    push_cast at h2
    rcases le_or_gt x (lo + (k : K) * d) with hx | hx
    · obtain ⟨i, hi, hb⟩ := ih hx
      exact ⟨i, by omega, hb⟩
    · rcases le_total (x - (lo + (k : K) * d)) (d / 2) with hh | hh
      · exact ⟨k, by omega, by rw [abs_of_pos (by linarith)]; exact hh⟩
      · refine ⟨k + 1, le_rfl, ?_⟩
        push_cast
        rw [abs_le]
        constructor <;> linarith

/-- C122 (partial).  The same for a line of any slope between the bounds, if its intercept stays half a
slope step, seen at the pixel, away from the limits. -/
theorem C122_any_slope_partial (F : FitEnv K) (hN : IsArgsort F.argsortN) (w : World K) (a : FitArgs K)
    (u : Nat → K) (cs : List (Cand K)) (hlin : w.cal.ransac.linear = true)
    (hnew : w.cal.houghLines = none ∨ w.cal.houghPoints = none)
    (h : w.fitCandidates F a u = some cs) (lo hi : K) (hlo : w.cal.hough.minSlope = .fin lo)
    (hhi : w.cal.hough.maxSlope = .fin hi) (hn : 2 ≤ w.cal.hough.numSlopes)
    (e : K × K) (he : e ∈ w.cal.pairList) (s c : K) (hs1 : lo ≤ s) (hs2 : s ≤ hi) (hc : e.2 = s * e.1 + c)
    (hc1 : w.cal.hough.minIntercept + |e.1| * ((hi - lo) / (w.cal.hough.numSlopes - 1) / 2) ≤ c)
    (hc2 : c ≤ w.cal.hough.maxIntercept - |e.1| * ((hi - lo) / (w.cal.hough.numSlopes - 1) / 2))
    (htol : binReach w.cal.hough lo hi e.1 ≤ a.candTol) :
    ∃ cd ∈ cs, e ∈ cd.peaks.zip cd.wls := by
  obtain ⟨k, hk⟩ : ∃ k : Nat, w.cal.hough.numSlopes = ((k + 1 : Nat) : Int) ∧ 1 ≤ k :=
    ⟨w.cal.hough.numSlopes.toNat - 1, by omega, by omega⟩
  have hcast : (w.cal.hough.numSlopes : K) - 1 = (k : K) := by
    rw [hk.1]; push_cast; ring
  rw [hcast] at hc1 hc2
  have hk0 : (0 : K) < k := by exact_mod_cast hk.2
  have hd : 0 ≤ (hi - lo) / (k : K) := div_nonneg (by linarith) hk0.le
  obtain ⟨i, hi', hb⟩ := nearest_step lo ((hi - lo) / (k : K)) s hd k hs1 (by
    rw [mul_div_cancel₀ _ hk0.ne']; linarith)
  have hg : gridSlope lo hi w.cal.hough.numSlopes.toNat i = lo + (i : K) * ((hi - lo) / (k : K)) := by
    unfold gridSlope
    rw [hk.1]
    simp
  have hm : |(s - (lo + (i : K) * ((hi - lo) / (k : K)))) * e.1| ≤ |e.1| * ((hi - lo) / (k : K) / 2) := by
    rw [abs_mul, mul_comm]
    gcongr
  rw [abs_le] at hm
  refine C122_grid_partial F hN w a u cs hlin hnew h lo hi hlo hhi e he i (by rw [hk.1]; push_cast; omega)
    (c + (s - (lo + (i : K) * ((hi - lo) / (k : K)))) * e.1) ?_ (by linarith [hm.1]) (by linarith [hm.2]) htol
  rw [hg, hc]; ring

/-- C122 (partial).  Then the peak also has an entry in the lists that the search draws from (without the
close-line filter, and with `top_n_candidate` at least one); this need not be the combination itself (C55). -/
theorem C122_peak_partial (F : FitEnv K) (hN : IsArgsort F.argsortN) (hK : IsArgsort F.argsortK) (w : World K)
    (a : FitArgs K) (u : Nat → K) (lines : List K) (L : LoopStart K) (hft : a.fitType ≠ .other)
    (hat : w.atlasLines = .ok lines) (h : (w.given a).enter F lines a u = some L)
    (hlin : w.cal.ransac.linear = true) (hfc : w.cal.ransac.filterClose = false)
    (htop : 1 ≤ w.cal.ransac.topN)
    (hnew : w.cal.houghLines = none ∨ w.cal.houghPoints = none)
    (lo hi : K) (hlo : w.cal.hough.minSlope = .fin lo)
    (hhi : w.cal.hough.maxSlope = .fin hi) (e : K × K) (he : e ∈ w.cal.pairList) (i : Nat)
    (hi' : (i : Int) < w.cal.hough.numSlopes) (c : K)
    (hc : e.2 = gridSlope lo hi w.cal.hough.numSlopes.toNat i * e.1 + c)
    (hc1 : w.cal.hough.minIntercept ≤ c) (hc2 : c ≤ w.cal.hough.maxIntercept)
    (htol : binReach w.cal.hough lo hi e.1 ≤ a.candTol) : e.1 ∈ L.cfg.x := by
  obtain ⟨cs, hcs, hxy⟩ := enter_candidates F w a u lines L hft hat h
  obtain ⟨cd, hcd, hm⟩ := C122_grid_partial F hN w a u cs hlin hnew hcs lo hi hlo hhi e he i hi' c hc hc1 hc2 htol
  have hal := (fitCandidates_spec F w a u cs hcs).1
  have hx : L.cfg.x = (mostCommon F.argsortK cs w.cal.ransac.topN w.cal.ransac.weighted).1 := by
    have := congrArg Prod.fst hxy
    unfold Cal.candidateLists at this
    rw [hfc] at this
    simpa using this
  have hrow : ∃ v, (e.1, e.2, v) ∈ candRows cs := by
    obtain ⟨j, hj⟩ := List.getElem?_of_mem hm
    rw [List.getElem?_zip_eq_some] at hj
    have hlt := (List.getElem?_eq_some_iff.1 hj.2).1
    obtain ⟨v, hv⟩ : ∃ v, cd.weights[j]? = some v :=
      ⟨_, List.getElem?_eq_getElem (by rw [(hal cd hcd).2]; exact hlt)⟩
    refine ⟨v, List.mem_flatMap.2 ⟨cd, hcd, List.mem_of_getElem? (i := j) ?_⟩⟩
    rw [List.getElem?_zip_eq_some]
    exact ⟨hj.1, List.getElem?_zip_eq_some.2 ⟨hj.2, hv⟩⟩
  obtain ⟨v, hv⟩ := hrow
  obtain ⟨hl, hsel⟩ := C55_most_common_partial F.argsortK hK cs hal w.cal.ransac.topN (by omega)
    w.cal.ransac.weighted
  have hw : e.2 ∈ Spec.wavelengthsOf (candRows cs) e.1 := by
    unfold Spec.wavelengthsOf
    exact List.mem_map.2 ⟨_, List.mem_filter.2 ⟨hv, by simp⟩, rfl⟩
  have hpos : 0 < (Spec.wavelengthsOf (candRows cs) e.1).dedup.length :=
    List.length_pos_of_mem (List.mem_dedup.2 hw)
  have hlen := (hsel e.1).1
  have hne : 0 < (returnedFor (mostCommon F.argsortK cs w.cal.ransac.topN w.cal.ransac.weighted) e.1).length := by
    omega
  obtain ⟨z, hz⟩ := List.exists_mem_of_length_pos hne
  unfold returnedFor at hz
  obtain ⟨q, hq, rfl⟩ := List.mem_map.1 hz
  rw [List.mem_filter] at hq
  have hq1 : q.1 = e.1 := by simpa using hq.2
  rw [hx, ← hq1]
  exact (List.of_mem_zip (show (q.1, q.2) ∈ _ from hq.1)).1

/-- The full property: every combination of the search space through which an admissible line passes is a
candidate of the fit. -/
def C122_Statement : Prop :=
  ∀ (w : World ℚ) (a : FitArgs ℚ) (u : Nat → ℚ) (cs : List (Cand ℚ)) (lo hi s c : ℚ) (e : ℚ × ℚ),
    w.cal.ransac.linear = true → w.cal.houghLines = none → w.fitCandidates Toy.env a u = some cs →
    w.cal.hough.minSlope = .fin lo → w.cal.hough.maxSlope = .fin hi → 2 ≤ w.cal.hough.numSlopes →
    e ∈ w.cal.pairList → lo ≤ s → s ≤ hi → w.cal.hough.minIntercept ≤ c → c ≤ w.cal.hough.maxIntercept →
    e.2 = s * e.1 + c → ∃ cd ∈ cs, e ∈ cd.peaks.zip cd.wls

set_option synthInstance.maxSize 2000 in
set_option synthInstance.maxHeartbeats 400000 in
/-- Peaks at 10 and 20 with four bins in both directions: no Hough line comes within the candidate tolerance
(10 Angstrom) of peak 20 and line 8700, although slope 280 and intercept 3100 are within the limits. -/
theorem C122_refuted : ¬ C122_Statement := by
  intro h
  have hc : (Toy.world 2 0).toOption.map (fun w =>
      (w.cal.ransac.linear, w.cal.houghLines.isNone, w.cal.hough.minSlope, w.cal.hough.maxSlope,
        w.cal.hough.minIntercept, w.cal.hough.maxIntercept, w.cal.hough.numSlopes,
        decide ((20, 8700) ∈ w.cal.pairList),
        (w.fitCandidates Toy.env { fitDeg := 1, candTol := 10 } (fun _ => 0)).map
          (fun cs => decide ((20, 8700) ∈ cs.flatMap (fun cd => cd.peaks.zip cd.wls))))) =
      some (true, true, .fin (5300 / 21), .fin (1100 / 3), 2500, 3500, 2, true, some false) := by
    decide +kernel
  rw [Option.map_eq_some_iff] at hc
  obtain ⟨w, _, hc⟩ := hc
  simp only [Prod.mk.injEq] at hc
  obtain ⟨h1, h2, h3, h4, h5, h6, h7, h8, h9⟩ := hc
  rw [Option.map_eq_some_iff] at h9
  obtain ⟨cs, hcs, h9⟩ := h9
  obtain ⟨cd, hcd, hm⟩ := h w { fitDeg := 1, candTol := 10 } (fun _ => 0) cs (5300 / 21) (1100 / 3) 280 3100
    (20, 8700) h1 (Option.isNone_iff_eq_none.1 h2) hcs h3 h4 (by rw [h7]) (by simpa using h8) (by norm_num)
    (by norm_num) (by rw [h5]; norm_num) (by rw [h6]; norm_num) (by norm_num)
  have : ((20, 8700) : ℚ × ℚ) ∈ cs.flatMap (fun cd => cd.peaks.zip cd.wls) := List.mem_flatMap.2 ⟨cd, hcd, hm⟩
  exact (decide_eq_false_iff_not.1 h9) this

set_option synthInstance.maxSize 2000 in
set_option synthInstance.maxHeartbeats 400000 in
/-- The hypotheses of `C122_grid_partial` are met by peak 10 and line 5900 on the first slope of the grid,
with candidate tolerance 420. -/
example : (Toy.world 2 0).toOption.map (fun w =>
      (w.cal.ransac.linear, w.cal.houghLines.isNone, w.cal.hough.minSlope, w.cal.hough.maxSlope,
        decide ((10, 5900) ∈ w.cal.pairList),
        decide (w.cal.hough.minIntercept ≤ 5900 - gridSlope (5300 / 21) (1100 / 3) w.cal.hough.numSlopes.toNat 0 * 10 ∧
          5900 - gridSlope (5300 / 21) (1100 / 3) w.cal.hough.numSlopes.toNat 0 * 10 ≤ w.cal.hough.maxIntercept),
        decide (binReach w.cal.hough (5300 / 21) (1100 / 3) 10 ≤ 420),
        (w.fitCandidates Toy.env { fitDeg := 1, candTol := 420 } (fun _ => 0)).isSome)) =
      some (true, true, .fin (5300 / 21), .fin (1100 / 3), true, true, true, true) := by
  decide +kernel

set_option synthInstance.maxSize 2000 in
set_option synthInstance.maxHeartbeats 400000 in
/-- Those of `C122_any_slope_partial` by a grid of 21 slopes, for slope 300 and intercept 2900. -/
example : (Toy.world 2 0).toOption.map (fun w0 =>
      let w := World.steps Toy.calEnv w0 [.setHough { numSlopes := some 21 }]
      (w.cal.ransac.linear, w.cal.houghLines.isNone, w.cal.hough.minSlope, w.cal.hough.maxSlope,
        decide ((10, 5900) ∈ w.cal.pairList),
        decide (w.cal.hough.minIntercept + 10 * ((1100 / 3 - 5300 / 21) / (21 - 1) / 2) ≤ 2900 ∧
          2900 ≤ w.cal.hough.maxIntercept - 10 * ((1100 / 3 - 5300 / 21) / (21 - 1) / 2)),
        decide (binReach w.cal.hough (5300 / 21) (1100 / 3) 10 ≤ 420),
        (w.fitCandidates Toy.env { fitDeg := 1, candTol := 420 } (fun _ => 0)).isSome)) =
      some (true, true, .fin (5300 / 21), .fin (1100 / 3), true, true, true, true) := by
  decide +kernel

end Rascal
