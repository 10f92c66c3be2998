import Verif.Props.RecoverProps
import Verif.Props.HoughVoteProps
import Verif.Props.WeightProps

/-!
Property theorems C158 and C159: which candidates take part in the search when `top_n_candidate` is large, and
what this means for finding the true calibration.
-/

set_option linter.unusedSectionVars false

namespace Rascal

section
variable {K : Type _} [Field K] [LinearOrder K] [IsStrictOrderedRing K] [FloorRing K]

/-- The candidate lines of peak `p`: for each Hough line in turn, the lines paired with `p` in the search space that
are within the tolerance of it. -/
def Spec.nearLines (pairs hough : List (K × K)) (tol p : K) : List K :=
  hough.flatMap (fun l =>
    (pairs.filter (fun e => decide (e.1 = p) && decide (|l.1 * e.1 + l.2 - e.2| ≤ tol))).map Prod.snd)

/-- In the linear mode the lists of the search come from the pairs near the Hough lines. -/
theorem enter_linear (F : FitEnv K) (w : World K) (a : FitArgs K) (u : Nat → K) (lines : List K)
    (L : LoopStart K) (h : (w.given a).enter F lines a u = some L) (hlin : w.cal.ransac.linear = true)
    (hfc : w.cal.ransac.filterClose = false) :
    ∃ hl wt, L.cal.houghLines = some hl ∧
      (L.cfg.x, L.cfg.y) = mostCommon F.argsortK (candidatesLinear wt a.candTol hl w.cal.pairList)
        w.cal.ransac.topN w.cal.ransac.weighted := by
  unfold Cal.enter at h
  dsimp only at h
  obtain ⟨ht, hl, hp, hfr⟩ := ensureHough_frame F
    { w.given a with ransac := { (w.given a).ransac with
      sampleSize := adjustSampleSize (w.given a).ransac.sampleSize lines.length a.fitDeg } }
  rw [hfr] at h
  dsimp only at h
  split at h
  · simp at h
  split at h
  · simp at h
  rename_i cands hc
  split at h
  · simp at h
  split at h
  · simp at h
  split at h
  · simp at h
  simp only [Option.some.injEq] at h
  subst h
  dsimp only [Cal.ransacCfg]
  unfold Cal.candidates at hc
  dsimp only at hc
  rw [show (w.given a).ransac.linear = true from hlin] at hc
  cases hl with
  | none => simp at hc
  | some hl =>
    dsimp only at hc
    rw [if_pos rfl] at hc
    unfold Cal.candidateLists
    dsimp only
    rw [show (w.given a).ransac.filterClose = false from hfc]
    unfold Cal.pairList
    rw [show (w.given a).pairs = w.cal.pairs from rfl] at hc
    cases hpr : w.cal.pairs with
    | none => rw [hpr] at hc; simp at hc
    | some pr =>
      rw [hpr] at hc
      cases pr with
      | noColumns =>
        dsimp only at hc
        split at hc
        · rename_i hnil
          subst hnil
          cases hc
          exact ⟨[], fun _ _ => 1, rfl, rfl⟩
        · simp at hc
      | array pairs =>
        cases hc
        exact ⟨hl, _, rfl, rfl⟩

theorem wavelengthsOf_linear (wt : K → K → K) (tol : K) (hl pairs : List (K × K)) (p : K) :
    Spec.wavelengthsOf (candRows (candidatesLinear wt tol hl pairs)) p = Spec.nearLines pairs hl tol p := by
  rw [candidatesLinear_rows]
  unfold Spec.wavelengthsOf Spec.nearLines
  rw [List.filter_flatMap, List.map_flatMap]
  congr 1
  funext l
  rw [List.filter_map, List.map_map, List.filter_filter]
  rfl

/-- With room for all distinct lines the block of a peak consists of the first entries of its list. -/
theorem peakBlock_all {argsort : List K → List Nat} (ha : IsArgsort argsort) (topN : Int) (weighted : Bool)
    (t : List (K × K × K)) (p : K) (hn : ((Spec.wavelengthsOf t p).dedup.length : Int) ≤ topN) :
    (peakBlock argsort topN weighted t p).Perm
      ((Spec.wavelengthsOf t p).take (Spec.wavelengthsOf t p).dedup.length) := by
  unfold peakBlock
  have hu := npUnique_length_eq_dedup (Spec.wavelengthsOf t p)
  have hle : (npUnique (Spec.wavelengthsOf t p)).length ≤ (Spec.wavelengthsOf t p).length := by
    rw [hu]; exact (List.dedup_sublist _).length_le
  rw [← hu] at hn ⊢
  rw [min_eq_right hn]
  generalize npUnique (Spec.wavelengthsOf t p) = v at hle
  generalize Spec.wavelengthsOf t p = l at hle
  have hp := (ha (v.map (fun w => -(candScore weighted t p w)))).1
  generalize argsort (v.map (fun w => -(candScore weighted t p w))) = idx at hp
  rw [List.length_map] at hp
  have hlen : idx.length = v.length := by rw [hp.length_eq, List.length_range]
  have htake : pyTake idx (v.length : Int) = idx := by
    unfold pyTake pyBound
    rw [if_neg (by omega), hlen]
    simp [← hlen]
  rw [htake]
  have h1 : (takeIdx l idx).Perm (takeIdx l (List.range v.length)) := hp.filterMap _
  have h2 : takeIdx l (List.range v.length) = l.take v.length := by
    have h3 := takeIdx_range (l.take v.length)
    rw [List.length_take, min_eq_left hle] at h3
    rw [← h3]
    unfold takeIdx
    apply List.filterMap_congr
    intro i hi
    rw [List.getElem?_take, if_pos (List.mem_range.1 hi)]
  rwa [h2] at h1

/-- C158, what holds exactly: if `top_n_candidate` is at least the number of different candidate lines of a peak, the
lines tried for this peak are the first entries of its list of candidates, as many as there are different lines.
What is missing: with repetitions these are not all lines. -/
theorem C158_first_entries_partial (F : FitEnv K) (ha : IsArgsort F.argsortK) (w : World K) (a : FitArgs K)
    (u : Nat → K) (lines : List K) (L : LoopStart K) (h : (w.given a).enter F lines a u = some L)
    (hlin : w.cal.ransac.linear = true) (hfc : w.cal.ransac.filterClose = false) :
    ∃ hl, L.cal.houghLines = some hl ∧ ∀ p,
      ((Spec.nearLines w.cal.pairList hl a.candTol p).dedup.length : Int) ≤ w.cal.ransac.topN →
      (((L.cfg.x.zip L.cfg.y).filter (fun e => decide (e.1 = p))).map Prod.snd).Perm
        ((Spec.nearLines w.cal.pairList hl a.candTol p).take
          (Spec.nearLines w.cal.pairList hl a.candTol p).dedup.length) := by
  obtain ⟨hl, wt, h1, h2⟩ := enter_linear F w a u lines L h hlin hfc
  refine ⟨hl, h1, fun p hn => ?_⟩
  have hal : Aligned (candidatesLinear wt a.candTol hl w.cal.pairList) := by
    intro cd hcd
    rw [candidatesLinear_eq] at hcd
    obtain ⟨l, _, rfl⟩ := List.mem_map.1 hcd
    simp
  rw [← wavelengthsOf_linear wt] at hn ⊢
  have h0 : (0 : Int) ≤ w.cal.ransac.topN := le_trans (Int.natCast_nonneg _) hn
  have h3 := (mostCommon_returnedFor ha _ h0 w.cal.ransac.weighted hal p).2
  rw [← h2] at h3
  show (returnedFor (L.cfg.x, L.cfg.y) p).Perm _
  rw [h3]
  by_cases hm : p ∈ (candRows (candidatesLinear wt a.candTol hl w.cal.pairList)).map (fun e => e.1)
  · rw [if_pos hm]
    exact peakBlock_all ha _ _ _ _ hn
  · rw [if_neg hm]
    have : Spec.wavelengthsOf (candRows (candidatesLinear wt a.candTol hl w.cal.pairList)) p = [] := by
      unfold Spec.wavelengthsOf
      rw [List.map_eq_nil_iff, List.filter_eq_nil_iff]
      intro e he hc
      apply hm
      rw [List.mem_map]
      exact ⟨e, he, by simpa using hc⟩
    rw [this]
    simp

/-- C158, what holds in particular: with such a `top_n_candidate`, a pair of the search space within the candidate
tolerance of the most voted Hough line takes part in the search (no pair being listed twice). -/
theorem C158_best_line_partial (F : FitEnv K) (ha : IsArgsort F.argsortK) (w : World K) (a : FitArgs K)
    (u : Nat → K) (lines : List K) (L : LoopStart K) (h : (w.given a).enter F lines a u = some L)
    (hlin : w.cal.ransac.linear = true) (hfc : w.cal.ransac.filterClose = false) (hnd : w.cal.pairList.Nodup)
    (l : K × K) (rest : List (K × K)) (hl : L.cal.houghLines = some (l :: rest)) (e : K × K)
    (he : e ∈ w.cal.pairList) (hd : |l.1 * e.1 + l.2 - e.2| ≤ a.candTol)
    (hn : ((Spec.nearLines w.cal.pairList (l :: rest) a.candTol e.1).dedup.length : Int) ≤ w.cal.ransac.topN) :
    e ∈ L.cfg.x.zip L.cfg.y := by
  obtain ⟨hl', h1, h2⟩ := C158_first_entries_partial F ha w a u lines L h hlin hfc
  rw [hl] at h1
  cases h1
  have hp := h2 e.1 hn
  -- the entries of the best line come first and are distinct
  let first := (w.cal.pairList.filter (fun q => decide (q.1 = e.1) &&
    decide (|l.1 * q.1 + l.2 - q.2| ≤ a.candTol))).map Prod.snd
  have hsplit : ∃ r, Spec.nearLines w.cal.pairList (l :: rest) a.candTol e.1 = first ++ r := by
    unfold Spec.nearLines
    rw [List.flatMap_cons]
    exact ⟨_, rfl⟩
  have hmem : e.2 ∈ first := by
    refine List.mem_map.2 ⟨e, List.mem_filter.2 ⟨he, ?_⟩, rfl⟩
    simp [hd]
  have hfn : first.Nodup := by
    refine List.Nodup.map_on ?_ (hnd.filter _)
    intro q hq q' hq' hqq
    rw [List.mem_filter, Bool.and_eq_true, decide_eq_true_eq] at hq hq'
    exact Prod.ext (hq.2.1.trans hq'.2.1.symm) hqq
  obtain ⟨r, hr⟩ := hsplit
  have hfl : first.length ≤ (Spec.nearLines w.cal.pairList (l :: rest) a.candTol e.1).dedup.length := by
    refine (List.subperm_of_subset hfn (fun v hv => List.mem_dedup.2 ?_)).length_le
    rw [hr]
    exact List.mem_append_left _ hv
  have hin : e.2 ∈ (Spec.nearLines w.cal.pairList (l :: rest) a.candTol e.1).take
      (Spec.nearLines w.cal.pairList (l :: rest) a.candTol e.1).dedup.length := by
    generalize (Spec.nearLines w.cal.pairList (l :: rest) a.candTol e.1).dedup.length = n at hfl
    rw [hr, List.take_append]
    refine List.mem_append_left _ ?_
    rw [List.take_of_length_le hfl]
    exact hmem
  have hin' := (hp.mem_iff).2 hin
  obtain ⟨q, hq, hq2⟩ := List.mem_map.1 hin'
  rw [List.mem_filter, decide_eq_true_eq] at hq
  have : q = e := Prod.ext hq.2 hq2
  rw [← this]
  exact hq.1

/-- C159, what holds: let the true lines of all peaks be within the candidate tolerance of the most voted Hough line,
let `top_n_candidate` be at least the number of candidate lines of each peak, and let the settings not exclude the true
calibration.  Then some draws make `fit` return the true calibration with all peaks matched to their true lines if and
only if `minimum_fit_error` is not positive. -/
theorem C159_instrument_partial (F : FitEnv K) (ha : IsArgsort F.argsortK) (w : World K) (a : FitArgs K)
    (u : Nat → K) (hf : a.fitType ≠ .other) (hb : a.brute = false) (lines : List K) (L : LoopStart K)
    (hl : w.atlasLines = .ok lines) (he : (w.given a).enter F lines a u = some L)
    (hlin : w.cal.ransac.linear = true) (hfc : w.cal.ransac.filterClose = false) (hnd : w.cal.pairList.Nodup)
    (hpp : ∀ e ∈ w.cal.pairList, e.1 ∈ w.cal.peaks)
    (best : K × K) (rest : List (K × K)) (hh : L.cal.houghLines = some (best :: rest)) (t : List K)
    (hdeg : t.length = a.degree + 1 ∧ 0 < a.degree)
    (hline : ∀ p ∈ w.cal.peaks, (p, (F.kern a.fitType).polyval t p) ∈ w.cal.pairList ∧
      |best.1 * p + best.2 - (F.kern a.fitType).polyval t p| ≤ a.candTol)
    (hrise : ∀ p0 ∈ w.cal.peaks, ∀ p1 ∈ w.cal.peaks, ∀ x y, p0 - (p1 - p0) / 5 ≤ x → x < y →
      y ≤ p1 + (p1 - p0) / 5 → (F.kern a.fitType).polyval t x < (F.kern a.fitType).polyval t y)
    (htop : ∀ p ∈ w.cal.peaks,
      ((Spec.nearLines w.cal.pairList (best :: rest) a.candTol p).dedup.length : Int) ≤ w.cal.ransac.topN)
    (hE : Spec.FindsExact (F.kern a.fitType) t a.degree) (hA : Spec.Allows (F.kern a.fitType) w a L t)
    (hmm : w.cal.ransac.minMatches ≤ (w.cal.peaks.dedup.length : Int))
    (hmu : w.cal.ransac.minUtil * (w.cal.peaks.length : K) ≤ (w.cal.peaks.dedup.length : K)) :
    (∃ tape r, (w.fit F a ⟨u, tape⟩).2 = .done (.ok r) ∧ r.coeffs = t ∧
      (∀ p ∈ w.cal.peaks, (p, (F.kern a.fitType).polyval t p) ∈ r.matchedPeaks.zip r.matchedAtlas) ∧
      r.matchedPeaks.length = w.cal.peaks.dedup.length ∧ r.rms = 0) ↔
    w.cal.ransac.minFitError ≤ 0 := by
  have hs := enter_spec F _ _ _ _ _ he
  have hxy := hs.aligned ha
  have hxp : ∀ p, p ∈ L.cfg.x ↔ p ∈ w.cal.peaks := by
    intro p
    constructor
    · intro hp
      obtain ⟨i, hi⟩ := List.getElem?_of_mem hp
      obtain ⟨v, hv⟩ : ∃ v, L.cfg.y[i]? = some v :=
        ⟨_, List.getElem?_eq_getElem (by have := (List.getElem?_eq_some_iff.1 hi).1; omega)⟩
      have hz : (p, v) ∈ L.cfg.x.zip L.cfg.y :=
        List.mem_of_getElem? (List.getElem?_zip_eq_some.2 ⟨hi, hv⟩)
      exact hpp _ (hs.linear ha hlin _ hz).1
    · intro hp
      obtain ⟨h1, h2⟩ := hline p hp
      exact (List.of_mem_zip (C158_best_line_partial F ha w a u lines L he hlin hfc hnd best rest hh _ h1 h2
        (htop p hp))).1
  have hded : L.cfg.x.dedup.length = w.cal.peaks.dedup.length := by
    apply List.Perm.length_eq
    rw [List.perm_ext_iff_of_nodup (List.nodup_dedup _) (List.nodup_dedup _)]
    intro p
    rw [List.mem_dedup, List.mem_dedup, hxp]
  have hT : Spec.Truth (F.kern a.fitType) t a.degree L.cfg.x L.cfg.y := by
    refine ⟨hdeg, ?_, ?_⟩
    · intro p hp
      obtain ⟨h1, h2⟩ := hline p ((hxp p).1 hp)
      exact C158_best_line_partial F ha w a u lines L he hlin hfc hnd best rest hh _ h1 h2
        (htop p ((hxp p).1 hp))
    · intro p0 h0 p1 h1
      exact hrise p0 ((hxp p0).1 h0) p1 ((hxp p1).1 h1)
  have key := C156_recoverable_partial F ha w a u hf hb lines L hl he t hT hE hA (by rw [hded]; exact hmm)
    (by rw [hded]; exact hmu)
  rw [hded] at key
  rw [← key]
  constructor
  · rintro ⟨tape, r, q1, q2, q3, q4⟩
    exact ⟨tape, r, q1, q2, fun p hp => q3 p ((hxp p).1 hp), q4⟩
  · rintro ⟨tape, r, q1, q2, q3, q4⟩
    exact ⟨tape, r, q1, q2, fun p hp => q3 p ((hxp p).2 hp), q4⟩

end

/-! ### Examples and refutations -/

namespace Toy

/-- Six lines, three of which are candidates of the first peak. -/
def crowded : Atlas ℚ :=
  ⟨[⟨5900, "Xe", 1, none⟩, ⟨6100, "Xe", 1, none⟩, ⟨6300, "Xe", 1, none⟩, ⟨8700, "Xe", 1, none⟩,
    ⟨9000, "Xe", 1, none⟩, ⟨21000, "Xe", 1, none⟩], none, none, 0⟩

/-- The arguments of the toy fit with a candidate tolerance of 100. -/
def crowdedArgs : FitArgs ℚ := { args with candTol := 100 }

/-- A decidable fact about the start of the search, taken out of the computation. -/
theorem start_of (A : Atlas ℚ) (err : ℚ) (a : FitArgs ℚ) (P : World ℚ → LoopStart ℚ → Bool)
    (h : (withAtlas A err).toOption.bind (fun w => w.atlasLines.toOption.bind (fun lines =>
      ((w.given a).enter env lines a (fun _ => 0)).map (P w))) = some true) :
    ∃ w lines L, withAtlas A err = .ok w ∧ w.atlasLines = .ok lines ∧
      (w.given a).enter env lines a (fun _ => 0) = some L ∧ P w L = true := by
  cases hw : withAtlas A err with
  | error e => rw [hw] at h; cases h
  | ok w =>
    rw [hw] at h
    change w.atlasLines.toOption.bind _ = _ at h
    cases hl : w.atlasLines with
    | error e => rw [hl] at h; cases h
    | ok lines =>
      rw [hl] at h
      change ((w.given a).enter env lines a (fun _ => 0)).map (P w) = _ at h
      cases he : (w.given a).enter env lines a (fun _ => 0) with
      | none => rw [he] at h; cases h
      | some L =>
        rw [he] at h
        exact ⟨w, lines, L, rfl, hl, he, Option.some.inj h⟩

/-- The settings the theorems below need. -/
def plain (w : World ℚ) : Bool :=
  w.cal.ransac.linear && !w.cal.ransac.filterClose && decide w.cal.pairList.Nodup &&
    decide (w.cal.ransac.topN = 5)

/-- The crowded search: the first peak has three candidate lines, 6100 among them, and the lists of the search are
those given. -/
def crowdedIs (w : World ℚ) (L : LoopStart ℚ) : Bool :=
  plain w && decide (L.cfg.x = [10, 10, 10, 20, 20]) && decide (L.cfg.y = [6300, 6300, 5900, 8700, 9000]) &&
    decide ((10, 6100) ∈ w.cal.pairList) && decide ((10, 6300) ∈ w.cal.pairList) &&
    (match L.cal.houghLines with
      | some (l :: rest) =>
        decide ((Spec.nearLines w.cal.pairList (l :: rest) 100 10).dedup.length = 3) &&
          decide (∃ k ∈ rest, |k.1 * 10 + k.2 - 6100| ≤ 100) && decide (|l.1 * 10 + l.2 - 6300| ≤ 100)
      | _ => false)

theorem crowded_start : ∃ w lines L l rest, withAtlas crowded 0 = .ok w ∧ w.atlasLines = .ok lines ∧
    (w.given crowdedArgs).enter env lines crowdedArgs (fun _ => 0) = some L ∧
    (w.cal.ransac.linear = true ∧ w.cal.ransac.filterClose = false ∧ w.cal.pairList.Nodup ∧
      w.cal.ransac.topN = 5) ∧ L.cfg.x = [10, 10, 10, 20, 20] ∧ L.cfg.y = [6300, 6300, 5900, 8700, 9000] ∧
    (10, 6100) ∈ w.cal.pairList ∧ (10, 6300) ∈ w.cal.pairList ∧ L.cal.houghLines = some (l :: rest) ∧
    (Spec.nearLines w.cal.pairList (l :: rest) 100 10).dedup.length = 3 ∧
    (∃ k ∈ rest, |k.1 * 10 + k.2 - 6100| ≤ 100) ∧ |l.1 * 10 + l.2 - 6300| ≤ 100 := by
  obtain ⟨w, lines, L, h1, h2, h3, h4⟩ := start_of crowded 0 crowdedArgs crowdedIs (by decide +kernel)
  unfold crowdedIs plain at h4
  simp only [Bool.and_eq_true, decide_eq_true_eq, Bool.not_eq_true'] at h4
  obtain ⟨⟨⟨⟨⟨⟨⟨⟨a1, a2⟩, a3⟩, a4⟩, a5⟩, a6⟩, a7⟩, a8⟩, a9⟩ := h4
  cases hh : L.cal.houghLines with
  | none => rw [hh] at a9; cases a9
  | some hl =>
    rw [hh] at a9
    cases hl with
    | nil => cases a9
    | cons l rest =>
      simp only [Bool.and_eq_true, decide_eq_true_eq] at a9
      exact ⟨w, lines, L, l, rest, h1, h2, h3, ⟨a1, a2, a3, a4⟩, a5, a6, a7, a8, hh, a9.1.1, a9.1.2, a9.2⟩

end Toy

/-- The expected behaviour: if `top_n_candidate` is at least the number of different candidate lines of a peak, all
of them take part in the search. -/
def C158_Statement : Prop :=
  ∀ (F : FitEnv ℚ), IsArgsort F.argsortK → ∀ (w : World ℚ) (a : FitArgs ℚ) (u : Nat → ℚ) (lines : List ℚ)
    (L : LoopStart ℚ), w.atlasLines = .ok lines → (w.given a).enter F lines a u = some L →
    w.cal.ransac.linear = true → w.cal.ransac.filterClose = false → w.cal.pairList.Nodup →
    ∀ hl, L.cal.houghLines = some hl → ∀ e ∈ w.cal.pairList, (∃ l ∈ hl, |l.1 * e.1 + l.2 - e.2| ≤ a.candTol) →
    ((Spec.nearLines w.cal.pairList hl a.candTol e.1).dedup.length : Int) ≤ w.cal.ransac.topN →
    e ∈ L.cfg.x.zip L.cfg.y

/-- C158 is false: the first peak of the crowded search has three candidate lines and `top_n_candidate` is 5, but the
line 6100 does not take part, because the line 6300 is listed twice. -/
theorem C158_refuted : ¬ C158_Statement := by
  intro h
  obtain ⟨w, lines, L, l, rest, h1, h2, h3, ⟨s1, s2, s3, s4⟩, hx, hy, m1, m2, hh, hn, ⟨k, hk, hkd⟩, hd⟩ :=
    Toy.crowded_start
  have := h Toy.env Toy.env_argsort w Toy.crowdedArgs (fun _ => 0) lines L h2 h3 s1 s2 s3 _ hh (10, 6100) m1
    ⟨k, List.mem_cons_of_mem _ hk, hkd⟩ (by
      rw [s4, show Toy.crowdedArgs.candTol = 100 from rfl]
      dsimp only
      rw [hn]
      decide)
  rw [hx, hy] at this
  revert this
  decide +kernel

/-- A case for `C158_first_entries_partial` and `C158_best_line_partial`: in the crowded search three lines are tried
for the first peak, and 6300, which is near the most voted Hough line, is among them. -/
example : ∃ w lines L, Toy.withAtlas Toy.crowded 0 = .ok w ∧
    (w.given Toy.crowdedArgs).enter Toy.env lines Toy.crowdedArgs (fun _ => 0) = some L ∧
    (((L.cfg.x.zip L.cfg.y).filter (fun e => decide (e.1 = 10))).map Prod.snd).length = 3 ∧
    (10, 6300) ∈ L.cfg.x.zip L.cfg.y := by
  obtain ⟨w, lines, L, l, rest, h1, h2, h3, ⟨s1, s2, s3, s4⟩, hx, hy, m1, m2, hh, hn, ⟨k, hk, hkd⟩, hd⟩ :=
    Toy.crowded_start
  have hn' : ((Spec.nearLines w.cal.pairList (l :: rest) Toy.crowdedArgs.candTol 10).dedup.length : Int) ≤
      w.cal.ransac.topN := by
    rw [s4, show Toy.crowdedArgs.candTol = 100 from rfl, hn]
    decide
  refine ⟨w, lines, L, h1, h3, ?_, C158_best_line_partial Toy.env Toy.env_argsort w Toy.crowdedArgs _ lines L h3 s1 s2
    s3 l rest hh (10, 6300) m2 hd hn'⟩
  obtain ⟨hl, q1, q2⟩ := C158_first_entries_partial Toy.env Toy.env_argsort w Toy.crowdedArgs _ lines L h3 s1 s2
  rw [hh] at q1
  cases q1
  rw [(q2 10 hn').length_eq, List.length_take, show Toy.crowdedArgs.candTol = 100 from rfl, hn]
  have : (Spec.nearLines w.cal.pairList (l :: rest) 100 10).dedup.length ≤
      (Spec.nearLines w.cal.pairList (l :: rest) 100 10).length := (List.dedup_sublist _).length_le
  omega

namespace Toy

/-- The ambiguous search: the true lines of both peaks are near the most voted Hough line. -/
def instrumentIs (err : ℚ) (w : World ℚ) (L : LoopStart ℚ) : Bool :=
  plain w && decide (w.cal.ransac.minFitError = err) && exactStart [10, 10, 20] [5900, 6100, 8700] w L &&
    decide (w.cal.peaks = [10, 20]) && decide (∀ e ∈ w.cal.pairList, e.1 ∈ w.cal.peaks) &&
    decide ((10, 5900) ∈ w.cal.pairList) && decide ((20, 8700) ∈ w.cal.pairList) &&
    (match L.cal.houghLines with
      | some (l :: rest) =>
        decide (∀ p ∈ w.cal.peaks, (Spec.nearLines w.cal.pairList (l :: rest) 300 p).dedup.length ≤ 5) &&
          decide (|l.1 * 10 + l.2 - 5900| ≤ 300) && decide (|l.1 * 20 + l.2 - 8700| ≤ 300)
      | _ => false)

theorem instrument_start (err : ℚ) (herr : err = 0 ∨ err = 1 / 10000) :
    ∃ w lines L l rest, withAtlas ambiguous err = .ok w ∧ w.atlasLines = .ok lines ∧
    (w.given args).enter env lines args (fun _ => 0) = some L ∧
    (w.cal.ransac.linear = true ∧ w.cal.ransac.filterClose = false ∧ w.cal.pairList.Nodup ∧
      w.cal.ransac.topN = 5 ∧ w.cal.ransac.minFitError = err) ∧ exactStart [10, 10, 20] [5900, 6100, 8700] w L = true ∧
    w.cal.peaks = [10, 20] ∧ (∀ e ∈ w.cal.pairList, e.1 ∈ w.cal.peaks) ∧
    (10, 5900) ∈ w.cal.pairList ∧ (20, 8700) ∈ w.cal.pairList ∧ L.cal.houghLines = some (l :: rest) ∧
    (∀ p ∈ w.cal.peaks, (Spec.nearLines w.cal.pairList (l :: rest) 300 p).dedup.length ≤ 5) ∧
    |l.1 * 10 + l.2 - 5900| ≤ 300 ∧ |l.1 * 20 + l.2 - 8700| ≤ 300 := by
  have h : ∀ err : ℚ, err = 0 ∨ err = 1 / 10000 → (withAtlas ambiguous err).toOption.bind (fun w =>
      w.atlasLines.toOption.bind (fun lines =>
      ((w.given args).enter env lines args (fun _ => 0)).map (instrumentIs err w))) = some true := by
    rintro err (rfl | rfl)
    · decide +kernel
    · decide +kernel
  obtain ⟨w, lines, L, h1, h2, h3, h4⟩ := start_of ambiguous err args (instrumentIs err) (h err herr)
  unfold instrumentIs plain at h4
  simp only [Bool.and_eq_true, decide_eq_true_eq, Bool.not_eq_true'] at h4
  obtain ⟨⟨⟨⟨⟨⟨⟨⟨⟨⟨a1, a2⟩, a3⟩, a4⟩, a5⟩, a6⟩, a7⟩, a8⟩, a9⟩, a10⟩, a11⟩ := h4
  cases hh : L.cal.houghLines with
  | none => rw [hh] at a11; cases a11
  | some hl =>
    rw [hh] at a11
    cases hl with
    | nil => cases a11
    | cons l rest =>
      simp only [Bool.and_eq_true, decide_eq_true_eq] at a11
      exact ⟨w, lines, L, l, rest, h1, h2, h3, ⟨a1, a2, a3, a4, a5⟩, a6, a7, a8, a9, a10, hh, a11.1.1, a11.1.2,
        a11.2⟩

end Toy

/-- The expected behaviour: if the true lines of all peaks are near the most voted Hough line, the number of
candidates is large enough and the settings do not exclude the true calibration, some draws make `fit` return it. -/
def C159_Statement : Prop :=
  ∀ (F : FitEnv ℚ), IsArgsort F.argsortK → ∀ (w : World ℚ) (a : FitArgs ℚ) (u : Nat → ℚ), a.fitType ≠ .other →
    a.brute = false → ∀ (lines : List ℚ) (L : LoopStart ℚ), w.atlasLines = .ok lines →
    (w.given a).enter F lines a u = some L → w.cal.ransac.linear = true → w.cal.ransac.filterClose = false →
    w.cal.pairList.Nodup → (∀ e ∈ w.cal.pairList, e.1 ∈ w.cal.peaks) →
    ∀ (best : ℚ × ℚ) (rest : List (ℚ × ℚ)), L.cal.houghLines = some (best :: rest) → ∀ t : List ℚ,
    (t.length = a.degree + 1 ∧ 0 < a.degree) →
    (∀ p ∈ w.cal.peaks, (p, (F.kern a.fitType).polyval t p) ∈ w.cal.pairList ∧
      |best.1 * p + best.2 - (F.kern a.fitType).polyval t p| ≤ a.candTol) →
    (∀ p0 ∈ w.cal.peaks, ∀ p1 ∈ w.cal.peaks, ∀ x y, p0 - (p1 - p0) / 5 ≤ x → x < y →
      y ≤ p1 + (p1 - p0) / 5 → (F.kern a.fitType).polyval t x < (F.kern a.fitType).polyval t y) →
    (∀ p ∈ w.cal.peaks,
      ((Spec.nearLines w.cal.pairList (best :: rest) a.candTol p).dedup.length : Int) ≤ w.cal.ransac.topN) →
    Spec.FindsExact (F.kern a.fitType) t a.degree → Spec.Allows (F.kern a.fitType) w a L t →
    w.cal.ransac.minMatches ≤ (w.cal.peaks.dedup.length : Int) →
    w.cal.ransac.minUtil * (w.cal.peaks.length : ℚ) ≤ (w.cal.peaks.dedup.length : ℚ) →
    ∃ tape r, (w.fit F a ⟨u, tape⟩).2 = .done (.ok r) ∧ r.coeffs = t ∧
      (∀ p ∈ w.cal.peaks, (p, (F.kern a.fitType).polyval t p) ∈ r.matchedPeaks.zip r.matchedAtlas) ∧
      r.matchedPeaks.length = w.cal.peaks.dedup.length ∧ r.rms = 0

/-- All that `C159_instrument_partial` needs holds for the ambiguous search. -/
theorem Toy.instrument (err : ℚ) (herr : err = 0 ∨ err = 1 / 10000) :
    ∃ w, withAtlas ambiguous err = .ok w ∧ w.cal.ransac.minFitError = err ∧ w.cal.peaks = [10, 20] ∧
    ∃ lines L, w.atlasLines = .ok lines ∧
    (w.given args).enter env lines args (fun _ => 0) = some L ∧ w.cal.ransac.linear = true ∧
    w.cal.ransac.filterClose = false ∧ w.cal.pairList.Nodup ∧ (∀ e ∈ w.cal.pairList, e.1 ∈ w.cal.peaks) ∧
    ∃ best rest, L.cal.houghLines = some (best :: rest) ∧
    (∀ p ∈ w.cal.peaks, (p, kern.polyval [3100, 280] p) ∈ w.cal.pairList ∧
      |best.1 * p + best.2 - kern.polyval [3100, 280] p| ≤ args.candTol) ∧
    (∀ p0 ∈ w.cal.peaks, ∀ p1 ∈ w.cal.peaks, ∀ x y, p0 - (p1 - p0) / 5 ≤ x → x < y →
      y ≤ p1 + (p1 - p0) / 5 → kern.polyval [3100, 280] x < kern.polyval [3100, 280] y) ∧
    (∀ p ∈ w.cal.peaks,
      ((Spec.nearLines w.cal.pairList (best :: rest) args.candTol p).dedup.length : Int) ≤ w.cal.ransac.topN) ∧
    Spec.Allows kern w args L [3100, 280] ∧ w.cal.ransac.minMatches ≤ (w.cal.peaks.dedup.length : Int) ∧
    w.cal.ransac.minUtil * (w.cal.peaks.length : ℚ) ≤ (w.cal.peaks.dedup.length : ℚ) := by
  obtain ⟨w, lines, L, l, rest, h1, h2, h3, ⟨s1, s2, s3, s4, s5⟩, hex, hp, hpp, m1, m2, hh, hn, d1, d2⟩ :=
    instrument_start err herr
  obtain ⟨_, _, hA, hm, hu⟩ := exactStart_spec w lines _ _ L h3 hex
  have v1 : kern.polyval [3100, 280] 10 = 5900 := by rw [polyval_two]; decide +kernel
  have v2 : kern.polyval [3100, 280] 20 = 8700 := by rw [polyval_two]; decide +kernel
  refine ⟨w, h1, s5, hp, lines, L, h2, h3, s1, s2, s3, hpp, l, rest, hh, ?_, ?_, ?_, hA, ?_, ?_⟩
  · intro p hpm
    rw [hp] at hpm
    simp only [List.mem_cons, List.not_mem_nil, or_false] at hpm
    rcases hpm with rfl | rfl
    · rw [v1]; exact ⟨m1, d1⟩
    · rw [v2]; exact ⟨m2, d2⟩
  · intro _ _ _ _ x y _ hxy _
    rw [polyval_two, polyval_two]
    linarith
  · intro p hpm
    rw [s4]
    exact_mod_cast hn p hpm
  · rw [hm, hp]; decide +kernel
  · rw [hu, hp, zero_mul]; decide +kernel

/-- C159 is false: with the default `minimum_fit_error` the toy calibrator never returns the true line. -/
theorem C159_refuted : ¬ C159_Statement := by
  intro h
  obtain ⟨w, h1, h2, hp, lines, L, h3, h4, h5, h6, h7, h8, best, rest, h9, h10, h11, h12, h13, h14, h15⟩ :=
    Toy.instrument (1 / 10000) (Or.inr rfl)
  have q := h Toy.env Toy.env_argsort w Toy.args (fun _ => 0) (by decide) rfl lines L h3 h4 h5 h6 h7 h8 best rest h9
    [3100, 280] ⟨rfl, by decide⟩ h10 h11 h12 (Toy.findsExact 3100 280) h13 h14 h15
  have := (C159_instrument_partial Toy.env Toy.env_argsort w Toy.args (fun _ => 0) (by decide) rfl lines L h3 h4 h5 h6
    h7 h8 best rest h9 [3100, 280] ⟨rfl, by decide⟩ h10 h11 h12 (Toy.findsExact 3100 280) h13 h14 h15).1 q
  rw [h2] at this
  exact absurd this (by decide +kernel)

/-- A case for `C159_instrument_partial`: with `minimum_fit_error` 0 some draws return the true line. -/
example : ∃ w, Toy.withAtlas Toy.ambiguous 0 = .ok w ∧ ∃ tape r,
    (w.fit Toy.env Toy.args ⟨fun _ => 0, tape⟩).2 = .done (.ok r) ∧ r.coeffs = [3100, 280] ∧
      r.matchedPeaks.length = 2 := by
  obtain ⟨w, h1, h2, hp, lines, L, h3, h4, h5, h6, h7, h8, best, rest, h9, h10, h11, h12, h13, h14, h15⟩ :=
    Toy.instrument 0 (Or.inl rfl)
  obtain ⟨tape, r, q1, q2, _, q3, _⟩ := (C159_instrument_partial Toy.env Toy.env_argsort w Toy.args (fun _ => 0)
    (by decide) rfl lines L h3 h4 h5 h6
    h7 h8 best rest h9 [3100, 280] ⟨rfl, by decide⟩ h10 h11 h12 (Toy.findsExact 3100 280) h13 h14 h15).2 h2.le
  refine ⟨w, h1, tape, r, q1, q2, ?_⟩
  rw [q3, hp]
  decide +kernel

end Rascal
