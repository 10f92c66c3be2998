import Verif.Props.TopCandProps
import Verif.Props.RepeatFitProps

/-!
Property theorems C160 and C161: how the candidates of the search depend on `top_n_candidate` and
`candidate_tolerance`.
-/

set_option linter.unusedSectionVars false

namespace Rascal

section
variable {K : Type _} [Field K] [LinearOrder K] [IsStrictOrderedRing K] [FloorRing K]

theorem setTopN (w : World K) (n : Int) :
    (w.setRansac { topN := some n }).1 = { w with cal := { w.cal with ransac := { w.cal.ransac with topN := n } } } := by
  rfl

theorem fitCandidates_topN (F : FitEnv K) (w : World K) (a : FitArgs K) (u : Nat → K) (n : Int) :
    (w.setRansac { topN := some n }).1.fitCandidates F a u = w.fitCandidates F a u := by
  rw [setTopN]
  unfold World.fitCandidates
  dsimp only
  by_cases hf : a.fitType = .other
  · rw [if_pos hf, if_pos hf]
  rw [if_neg hf, if_neg hf]
  have hl : World.atlasLines { w with cal := { w.cal with ransac := { w.cal.ransac with topN := n } } } =
      w.atlasLines := rfl
  rw [hl]
  cases w.atlasLines with
  | error e => rfl
  | ok lines =>
    dsimp only
    have e := fun r => ensureHough_settings F w.cal r a.fitCoeff
    rw [e, e]
    dsimp only
    cases (w.cal.ensureHough F).2 with
    | error e => rfl
    | ok _ => rfl

/-- The Hough lines of a search do not depend on the settings of the search. -/
theorem enter_houghLines (F : FitEnv K) (w : World K) (a : FitArgs K) (u : Nat → K) (lines : List K)
    (L : LoopStart K) (h : (w.given a).enter F lines a u = some L) :
    L.cal.houghLines = (w.cal.ensureHough F).1.houghLines := by
  unfold Cal.enter at h
  dsimp only at h
  have hg : ({ w.given a with ransac := { (w.given a).ransac with
      sampleSize := adjustSampleSize (w.given a).ransac.sampleSize lines.length a.fitDeg } } : Cal K) =
    { w.cal with
        ransac := { w.cal.ransac with
          sampleSize := adjustSampleSize w.cal.ransac.sampleSize lines.length a.fitDeg }
        fitCoeff := a.fitCoeff } := rfl
  rw [hg, ensureHough_settings F w.cal _ a.fitCoeff] at h
  dsimp only at h
  split at h
  · simp at h
  split at h
  · simp at h
  split at h
  · simp at h
  split at h
  · simp at h
  split at h
  · simp at h
  simp only [Option.some.injEq] at h
  subst h
  rfl

/-- The block of a peak for a smaller number of candidates is the start of that for a larger number. -/
theorem peakBlock_prefix {argsort : List K → List Nat} (ha : IsArgsort argsort) (n n' : Int) (h0 : 0 ≤ n)
    (hn : n ≤ n') (weighted : Bool) (t : List (K × K × K)) (p : K) :
    peakBlock argsort n weighted t p <+: peakBlock argsort n' weighted t p := by
  unfold peakBlock takeIdx
  apply List.IsPrefix.filterMap
  generalize hv : npUnique (Spec.wavelengthsOf t p) = v
  have hp := (ha (v.map (fun w => -(candScore weighted t p w)))).1.length_eq
  generalize argsort (v.map (fun w => -(candScore weighted t p w))) = idx at hp
  have hb : ∀ m : Int, 0 ≤ m → pyTake idx m = idx.take m.toNat := by
    intro m hm
    unfold pyTake pyBound
    rw [if_neg (by omega)]
    by_cases hc : m ≤ idx.length
    · rw [min_eq_left (by omega)]
    · rw [min_eq_right (by omega), List.take_length, List.take_of_length_le (by omega)]
  rw [hb _ (by omega), hb _ (by omega)]
  exact List.take_prefix_take_left (by omega)

/-- C160: raising `top_n_candidate` only adds candidates at the end of each peak's list, if `filter_close` is off.
What is missing: with `filter_close` candidates can be lost. -/
theorem C160_top_n_partial (F : FitEnv K) (ha : IsArgsort F.argsortK) (w : World K) (a : FitArgs K) (u : Nat → K)
    (lines : List K) (n n' : Int) (hn : n ≤ n') (hft : a.fitType ≠ .other)
    (hl : w.atlasLines = .ok lines) (hfc : w.cal.ransac.filterClose = false) (L L' : LoopStart K)
    (h : ((w.setRansac { topN := some n }).1.given a).enter F lines a u = some L)
    (h' : ((w.setRansac { topN := some n' }).1.given a).enter F lines a u = some L') :
    (∀ p, ((L.cfg.x.zip L.cfg.y).filter (fun e => decide (e.1 = p))).map Prod.snd <+:
      ((L'.cfg.x.zip L'.cfg.y).filter (fun e => decide (e.1 = p))).map Prod.snd) ∧
    ∀ e ∈ L.cfg.x.zip L.cfg.y, e ∈ L'.cfg.x.zip L'.cfg.y := by
  obtain ⟨cs, h1, h2⟩ := enter_candidates F (w.setRansac { topN := some n }).1 a u lines L hft hl h
  obtain ⟨cs', h1', h2'⟩ := enter_candidates F (w.setRansac { topN := some n' }).1 a u lines L' hft hl h'
  rw [fitCandidates_topN] at h1 h1'
  rw [h1] at h1'
  cases h1'
  obtain ⟨hal, _⟩ := fitCandidates_spec F w a u cs h1
  have e1 : (L.cfg.x, L.cfg.y) = mostCommon F.argsortK cs n w.cal.ransac.weighted := by
    rw [h2, setTopN]
    unfold Cal.candidateLists
    dsimp only
    rw [hfc]
    rfl
  have e2 : (L'.cfg.x, L'.cfg.y) = mostCommon F.argsortK cs n' w.cal.ransac.weighted := by
    rw [h2', setTopN]
    unfold Cal.candidateLists
    dsimp only
    rw [hfc]
    rfl
  have key : ∀ p, returnedFor (L.cfg.x, L.cfg.y) p <+: returnedFor (L'.cfg.x, L'.cfg.y) p := by
    intro p
    by_cases h0 : 0 ≤ n
    · rw [e1, e2, (mostCommon_returnedFor ha cs h0 _ hal p).2,
        (mostCommon_returnedFor ha cs (h0.trans hn) _ hal p).2]
      split
      · exact peakBlock_prefix ha n n' h0 hn _ _ _
      · exact List.prefix_rfl
    · have hx : L.cfg.x = [] := by
        rw [show L.cfg.x = (L.cfg.x, L.cfg.y).1 from rfl, e1, mostCommon_eq F.argsortK cs _ _ hal]
        simp only [List.flatMap_eq_nil_iff]
        intro b hb
        obtain ⟨q, _, rfl⟩ := List.mem_map.1 hb
        simp only [List.replicate_eq_nil_iff]
        omega
      unfold returnedFor
      dsimp only
      rw [hx]
      exact List.nil_prefix
  refine ⟨key, fun e he => ?_⟩
  have hm : e.2 ∈ returnedFor (L'.cfg.x, L'.cfg.y) e.1 := by
    apply (key e.1).subset
    exact List.mem_map.2 ⟨e, List.mem_filter.2 ⟨he, by simp⟩, rfl⟩
  obtain ⟨q, hq, hq2⟩ := List.mem_map.1 hm
  rw [List.mem_filter, decide_eq_true_eq] at hq
  have : q = e := Prod.ext hq.2 hq2
  rw [← this]
  exact hq.1

/-- A larger tolerance keeps all near lines. -/
theorem nearLines_mono (pairs hough : List (K × K)) {tol tol' : K} (h : tol ≤ tol') (p : K) :
    Spec.nearLines pairs hough tol p ⊆ Spec.nearLines pairs hough tol' p := by
  intro v hv
  unfold Spec.nearLines at hv ⊢
  obtain ⟨l, hl, hv⟩ := List.mem_flatMap.1 hv
  obtain ⟨q, hq, rfl⟩ := List.mem_map.1 hv
  refine List.mem_flatMap.2 ⟨l, hl, List.mem_map.2 ⟨q, ?_, rfl⟩⟩
  rw [List.mem_filter, Bool.and_eq_true, decide_eq_true_eq, decide_eq_true_eq] at hq ⊢
  exact ⟨hq.1, hq.2.1, hq.2.2.trans h⟩

/-- C161: raising `candidate_tolerance` loses no candidate of a peak if, with the larger tolerance, none of its lines
is near two Hough lines and `top_n_candidate` is at least their number.  What is missing: with lines near several
Hough lines candidates can be lost. -/
theorem C161_tolerance_partial (F : FitEnv K) (ha : IsArgsort F.argsortK) (w : World K) (a : FitArgs K) (tol' : K)
    (htol : a.candTol ≤ tol') (u : Nat → K) (lines : List K) (hlin : w.cal.ransac.linear = true)
    (hfc : w.cal.ransac.filterClose = false) (L L' : LoopStart K)
    (h : (w.given a).enter F lines a u = some L)
    (h' : (w.given { a with candTol := tol' }).enter F lines { a with candTol := tol' } u = some L') :
    ∃ hl, L.cal.houghLines = some hl ∧ L'.cal.houghLines = some hl ∧
      ∀ e ∈ L.cfg.x.zip L.cfg.y, (Spec.nearLines w.cal.pairList hl tol' e.1).Nodup →
        ((Spec.nearLines w.cal.pairList hl tol' e.1).length : Int) ≤ w.cal.ransac.topN →
        e ∈ L'.cfg.x.zip L'.cfg.y := by
  obtain ⟨hl, wt, h1, h2⟩ := enter_linear F w a u lines L h hlin hfc
  obtain ⟨hl', h1', h2'⟩ := C158_first_entries_partial F ha w { a with candTol := tol' } u lines L' h' hlin hfc
  have hh : L.cal.houghLines = L'.cal.houghLines := by
    rw [enter_houghLines F w a u lines L h, enter_houghLines F w _ u lines L' h']
  have : hl' = hl := by
    rw [h1, h1'] at hh
    exact (Option.some.inj hh).symm
  subst this
  refine ⟨hl', h1, h1', fun e he hnd hlen => ?_⟩
  have hal : Aligned (candidatesLinear wt a.candTol hl' w.cal.pairList) := by
    intro cd hcd
    rw [candidatesLinear_eq] at hcd
    obtain ⟨l, _, rfl⟩ := List.mem_map.1 hcd
    simp
  have hded : (Spec.nearLines w.cal.pairList hl' tol' e.1).dedup = Spec.nearLines w.cal.pairList hl' tol' e.1 :=
    hnd.dedup
  have hp := h2' e.1 (by dsimp only; rw [hded]; exact hlen)
  dsimp only at hp
  rw [hded, List.take_length] at hp
  have hm : e.2 ∈ Spec.nearLines w.cal.pairList hl' a.candTol e.1 := by
    have hx := he
    rw [show L.cfg.x.zip L.cfg.y = ((L.cfg.x, L.cfg.y).1.zip (L.cfg.x, L.cfg.y).2) from rfl, h2] at hx
    rw [← wavelengthsOf_linear wt]
    refine ((C55_most_common_partial F.argsortK ha _ hal w.cal.ransac.topN (by omega) w.cal.ransac.weighted).2 e.1).2.1
      e.2 ?_
    exact List.mem_map.2 ⟨e, List.mem_filter.2 ⟨hx, by simp⟩, rfl⟩
  have hin := hp.mem_iff.2 (nearLines_mono _ _ htol _ hm)
  obtain ⟨q, hq, hq2⟩ := List.mem_map.1 hin
  rw [List.mem_filter, decide_eq_true_eq] at hq
  have : q = e := Prod.ext hq.2 hq2
  rw [← this]
  exact hq.1

end

/-! ### Examples and refutations -/

namespace Toy

theorem toOption_ok {α : Type _} {r : PyRes α} {v : α} (h : r.toOption = some v) : r = .ok v := by
  cases r with
  | error e => cases h
  | ok a => exact congrArg _ (Option.some.inj h)

/-- The toy calibrator with two lines 10 apart for the first peak, and `filter_close` as given. -/
def close (fc : Bool) : PyRes (World ℚ) :=
  (withAtlas ⟨[⟨5900, "Xe", 1, none⟩, ⟨5910, "Xe", 1, none⟩, ⟨8700, "Xe", 1, none⟩, ⟨20000, "Xe", 1, none⟩,
    ⟨21000, "Xe", 1, none⟩], none, none, 0⟩ 0).map (fun w => (w.setRansac { filterClose := some fc }).1)

/-- The search of the toy calibrator with close lines. -/
theorem close_start (fc : Bool) : ∃ w lines L L', close fc = .ok w ∧ w.cal.ransac.filterClose = fc ∧
    w.atlasLines = .ok lines ∧
    ((w.setRansac { topN := some 1 }).1.given args).enter env lines args (fun _ => 0) = some L ∧
    ((w.setRansac { topN := some 2 }).1.given args).enter env lines args (fun _ => 0) = some L' ∧
    L.cfg.x.zip L.cfg.y = [(10, 5900), (20, 8700)] ∧
    L'.cfg.x.zip L'.cfg.y = if fc then [(10, 5910), (20, 8700)] else [(10, 5900), (10, 5910), (20, 8700)] := by
  have h : ∀ fc, (close fc).toOption.bind (fun w => w.atlasLines.toOption.bind (fun lines =>
      (((w.setRansac { topN := some 1 }).1.given args).enter env lines args (fun _ => 0)).bind (fun L =>
        (((w.setRansac { topN := some 2 }).1.given args).enter env lines args (fun _ => 0)).map (fun L' =>
          decide (w.cal.ransac.filterClose = fc) && decide (L.cfg.x.zip L.cfg.y = [(10, 5900), (20, 8700)]) &&
          decide (L'.cfg.x.zip L'.cfg.y =
            if fc then [(10, 5910), (20, 8700)] else [(10, 5900), (10, 5910), (20, 8700)]))))) = some true := by
    intro fc
    cases fc
    · decide +kernel
    · decide +kernel
  have h := h fc
  obtain ⟨w, hw, h⟩ := Option.bind_eq_some_iff.1 h
  obtain ⟨lines, hl, h⟩ := Option.bind_eq_some_iff.1 h
  have hw := toOption_ok hw
  have hl := toOption_ok hl
  obtain ⟨L, hL, h⟩ := Option.bind_eq_some_iff.1 h
  obtain ⟨L', hL', h⟩ := Option.map_eq_some_iff.1 h
  simp only [Bool.and_eq_true, decide_eq_true_eq] at h
  exact ⟨w, lines, L, L', hw, h.1.1, hl, hL, hL', h.1.2, h.2⟩

/-- Six lines: with the tolerance 80 the line 5900 is tried for the first peak, with 100 it is not. -/
def lossy : Atlas ℚ :=
  ⟨[⟨5900, "Xe", 1, none⟩, ⟨6000, "Xe", 1, none⟩, ⟨6300, "Xe", 1, none⟩, ⟨8700, "Xe", 1, none⟩,
    ⟨9000, "Xe", 1, none⟩, ⟨21000, "Xe", 1, none⟩], none, none, 0⟩

/-- The two searches with these lines. -/
theorem lossy_start : ∃ w lines L L', withAtlas lossy 0 = .ok w ∧ w.atlasLines = .ok lines ∧
    (w.given { args with candTol := 80 }).enter env lines { args with candTol := 80 } (fun _ => 0) = some L ∧
    (w.given { args with candTol := 100 }).enter env lines { args with candTol := 100 } (fun _ => 0) = some L' ∧
    (w.cal.ransac.linear = true ∧ w.cal.ransac.filterClose = false) ∧
    (∀ hl, L'.cal.houghLines = some hl → ((Spec.nearLines w.cal.pairList hl 100 10).dedup.length : Int) ≤
      w.cal.ransac.topN) ∧
    (10, 5900) ∈ L.cfg.x.zip L.cfg.y ∧ (10, 5900) ∉ L'.cfg.x.zip L'.cfg.y := by
  have h : (withAtlas lossy 0).toOption.bind (fun w => w.atlasLines.toOption.bind (fun lines =>
      ((w.given { args with candTol := 80 }).enter env lines { args with candTol := 80 } (fun _ => 0)).bind (fun L =>
        ((w.given { args with candTol := 100 }).enter env lines { args with candTol := 100 } (fun _ => 0)).map
        (fun L' => w.cal.ransac.linear && !w.cal.ransac.filterClose && decide (w.cal.ransac.topN = 5) &&
          decide ((Spec.nearLines w.cal.pairList (L'.cal.houghLines.getD []) 100 10).dedup.length ≤ 5) &&
          decide ((10, 5900) ∈ L.cfg.x.zip L.cfg.y) && decide ((10, 5900) ∉ L'.cfg.x.zip L'.cfg.y))))) =
        some true := by
    decide +kernel
  obtain ⟨w, hw, h⟩ := Option.bind_eq_some_iff.1 h
  obtain ⟨lines, hl, h⟩ := Option.bind_eq_some_iff.1 h
  have hw := toOption_ok hw
  have hl := toOption_ok hl
  obtain ⟨L, hL, h⟩ := Option.bind_eq_some_iff.1 h
  obtain ⟨L', hL', h⟩ := Option.map_eq_some_iff.1 h
  simp only [Bool.and_eq_true, decide_eq_true_eq, Bool.not_eq_true'] at h
  obtain ⟨⟨⟨⟨⟨h1, h2⟩, h3⟩, h4⟩, h5⟩, h6⟩ := h
  refine ⟨w, lines, L, L', hw, hl, hL, hL', ⟨h1, h2⟩, ?_, h5, h6⟩
  intro hg hh
  rw [hh] at h4
  rw [h3]
  exact_mod_cast h4

end Toy

/-- The expected behaviour: raising `top_n_candidate` never loses a candidate. -/
def C160_Statement : Prop :=
  ∀ (F : FitEnv ℚ), IsArgsort F.argsortK → ∀ (w : World ℚ) (a : FitArgs ℚ) (u : Nat → ℚ) (lines : List ℚ)
    (n n' : Int), 0 ≤ n → n ≤ n' → a.fitType ≠ .other → w.atlasLines = .ok lines → ∀ L L' : LoopStart ℚ,
    ((w.setRansac { topN := some n }).1.given a).enter F lines a u = some L →
    ((w.setRansac { topN := some n' }).1.given a).enter F lines a u = some L' →
    ∀ e ∈ L.cfg.x.zip L.cfg.y, e ∈ L'.cfg.x.zip L'.cfg.y

/-- C160 is false: with `filter_close` a second line close to the first one removes it. -/
theorem C160_refuted : ¬ C160_Statement := by
  intro h
  obtain ⟨w, lines, L, L', _, _, h2, h3, h4, h5, h6⟩ := Toy.close_start true
  have := h Toy.env Toy.env_argsort w Toy.args (fun _ => 0) lines 1 2 (by decide) (by decide) (by decide) h2 L L' h3
    h4 (10, 5900) (by rw [h5]; simp)
  rw [h6] at this
  revert this
  decide +kernel

/-- A case for `C160_top_n_partial`: without `filter_close` raising `top_n_candidate` from 1 to 2 adds the line 5910
to the list of the first peak. -/
example : ∃ w lines, ∃ L L' : LoopStart ℚ, Toy.close false = .ok w ∧
    ((w.setRansac { topN := some 1 }).1.given Toy.args).enter Toy.env lines Toy.args (fun _ => 0) = some L ∧
    ((w.setRansac { topN := some 2 }).1.given Toy.args).enter Toy.env lines Toy.args (fun _ => 0) = some L' ∧
    (∀ e ∈ L.cfg.x.zip L.cfg.y, e ∈ L'.cfg.x.zip L'.cfg.y) ∧ (10, 5910) ∈ L'.cfg.x.zip L'.cfg.y ∧
    (10, 5910) ∉ L.cfg.x.zip L.cfg.y := by
  obtain ⟨w, lines, L, L', h0, h1, h2, h3, h4, h5, h6⟩ := Toy.close_start false
  exact ⟨w, lines, L, L', h0, h3, h4, (C160_top_n_partial Toy.env Toy.env_argsort w Toy.args (fun _ => 0) lines 1 2
    (by decide) (by decide) h2 h1 L L' h3 h4).2, by rw [h6]; decide +kernel, by rw [h5]; decide +kernel⟩

/-- The expected behaviour: if there is room for all candidates of a peak, raising `candidate_tolerance` loses none
of them. -/
def C161_Statement : Prop :=
  ∀ (F : FitEnv ℚ), IsArgsort F.argsortK → ∀ (w : World ℚ) (a : FitArgs ℚ) (tol' : ℚ), a.candTol ≤ tol' →
    ∀ (u : Nat → ℚ) (lines : List ℚ), w.atlasLines = .ok lines → w.cal.ransac.linear = true →
    w.cal.ransac.filterClose = false → ∀ L L' : LoopStart ℚ, (w.given a).enter F lines a u = some L →
    (w.given { a with candTol := tol' }).enter F lines { a with candTol := tol' } u = some L' →
    ∀ e ∈ L.cfg.x.zip L.cfg.y,
    (∀ hl, L'.cal.houghLines = some hl →
      ((Spec.nearLines w.cal.pairList hl tol' e.1).dedup.length : Int) ≤ w.cal.ransac.topN) →
    e ∈ L'.cfg.x.zip L'.cfg.y

/-- C161 is false: with the tolerance 100 instead of 80 the line 5900 is not tried any more for the first peak. -/
theorem C161_refuted : ¬ C161_Statement := by
  intro h
  obtain ⟨w, lines, L, L', _, h2, h3, h4, ⟨h5, h6⟩, h7, h8, h9⟩ := Toy.lossy_start
  exact h9 (h Toy.env Toy.env_argsort w { Toy.args with candTol := 80 } 100 (by decide +kernel) (fun _ => 0) lines h2
    h5 h6 L L' h3 h4 (10, 5900) h8 h7)

/-- A case for `C161_tolerance_partial`: from the tolerance 20 to 30 the lines 6000 and 6300 are added for the first
peak, and the line 5900 is kept. -/
example : ∃ w lines, ∃ L L' : LoopStart ℚ, Toy.withAtlas Toy.lossy 0 = .ok w ∧
    (w.given { Toy.args with candTol := 20 }).enter Toy.env lines { Toy.args with candTol := 20 } (fun _ => 0) =
      some L ∧
    (w.given { Toy.args with candTol := 30 }).enter Toy.env lines { Toy.args with candTol := 30 } (fun _ => 0) =
      some L' ∧
    (10, 6000) ∉ L.cfg.x.zip L.cfg.y ∧ (10, 6000) ∈ L'.cfg.x.zip L'.cfg.y ∧ (10, 5900) ∈ L.cfg.x.zip L.cfg.y ∧
    (10, 5900) ∈ L'.cfg.x.zip L'.cfg.y := by
  have h : (Toy.withAtlas Toy.lossy 0).toOption.bind (fun w => w.atlasLines.toOption.bind (fun lines =>
      ((w.given { Toy.args with candTol := 20 }).enter Toy.env lines { Toy.args with candTol := 20 }
        (fun _ => 0)).bind (fun L =>
        ((w.given { Toy.args with candTol := 30 }).enter Toy.env lines { Toy.args with candTol := 30 }
          (fun _ => 0)).map
        (fun L' => w.cal.ransac.linear && !w.cal.ransac.filterClose && decide (w.cal.ransac.topN = 5) &&
          decide ((Spec.nearLines w.cal.pairList (L'.cal.houghLines.getD []) 30 10) = [6000, 6300, 5900]) &&
          decide ((10, 6000) ∉ L.cfg.x.zip L.cfg.y) && decide ((10, 6000) ∈ L'.cfg.x.zip L'.cfg.y) &&
          decide ((10, 5900) ∈ L.cfg.x.zip L.cfg.y))))) = some true := by
    decide +kernel
  obtain ⟨w, hw, h⟩ := Option.bind_eq_some_iff.1 h
  obtain ⟨lines, hl, h⟩ := Option.bind_eq_some_iff.1 h
  have hw := Toy.toOption_ok hw
  obtain ⟨L, hL, h⟩ := Option.bind_eq_some_iff.1 h
  obtain ⟨L', hL', h⟩ := Option.map_eq_some_iff.1 h
  simp only [Bool.and_eq_true, decide_eq_true_eq, Bool.not_eq_true'] at h
  obtain ⟨⟨⟨⟨⟨⟨h1, h2⟩, h3⟩, h4⟩, h5⟩, h6⟩, h7⟩ := h
  obtain ⟨hg, _, g2, g3⟩ := C161_tolerance_partial Toy.env Toy.env_argsort w { Toy.args with candTol := 20 } 30
    (by decide +kernel) (fun _ => 0) lines h1 h2 L L' hL hL'
  rw [g2, Option.getD_some] at h4
  exact ⟨w, lines, L, L', hw, hL, hL', h5, h6, h7, g3 _ h7 (by dsimp only; rw [h4]; decide +kernel)
    (by dsimp only; rw [h4, h3]; decide)⟩

end Rascal
