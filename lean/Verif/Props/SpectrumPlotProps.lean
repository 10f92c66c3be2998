import Verif.Props.PlotFitProps
import Verif.Props.SettingsBounds

/-! Property theorems C182: `plot_fit` with a spectrum. -/

set_option linter.unusedSectionVars false

namespace Rascal

open Spec

section
variable {K : Type _} [Field K] [LinearOrder K] [IsStrictOrderedRing K] [FloorRing K]

theorem pyInt_lt (x : K) (n : Nat) (hn : 0 < n) : pyInt x < (n : Int) ↔ x < (n : K) := by
  unfold pyInt
  split
  · rw [Int.floor_lt]; simp
  · rename_i h
    have h0 : (0 : K) < n := by exact_mod_cast hn
    have h1 : ⌈x⌉ ≤ 0 := by rw [Int.ceil_le]; push_cast; exact (not_le.1 h).le
    constructor
    · intro _; exact (not_le.1 h).trans h0
    · intro _; omega

theorem le_pyInt (x : K) (n : Nat) : -(n : Int) ≤ pyInt x ↔ -((n : K) + 1) < x := by
  unfold pyInt
  split
  · rename_i h
    have h1 : 0 ≤ ⌊x⌋ := Int.floor_nonneg.2 h
    have h2 : (0 : K) ≤ n := Nat.cast_nonneg n
    constructor
    · intro _; linarith
    · intro _; omega
  · rw [← Int.sub_one_lt_iff, Int.lt_ceil]
    push_cast
    constructor <;> intro h <;> linarith

/-- The peak can be looked up in the spectrum exactly if it lies less than one spectrum length to either
side of the first pixel. -/
theorem readable_iff (l : List K) (n : Nat) (hn : 0 < n) (p : K) :
    readable l (some n) p = true ↔ -((n : K) + 1) < rawPixel l p ∧ rawPixel l p < n := by
  unfold readable
  simp only [Bool.and_eq_true, decide_eq_true_eq]
  rw [le_pyInt, pyInt_lt _ _ hn]

/-- C182, the lookup: `plot_fit` can look up a peak exactly if a value is found for its marker. -/
theorem C182_lookup_partial (l : List K) (spec : List (PyFloat K)) (hs : spec ≠ []) (p : K) :
    (∃ v, markerHeight l spec p = .ok v) ↔
      -((spec.length : K) + 1) < rawPixel l p ∧ rawPixel l p < spec.length := by
  rw [← readable_iff l spec.length (List.length_pos_of_ne_nil hs)]
  unfold readable markerHeight
  dsimp only
  generalize pyInt (rawPixel l p) = i
  simp only [Bool.and_eq_true, decide_eq_true_eq]
  by_cases h : 0 ≤ i
  · rw [if_pos h]
    by_cases hi : i.toNat < spec.length
    · rw [List.getElem?_eq_getElem hi]
      exact ⟨fun _ => by omega, fun _ => ⟨_, rfl⟩⟩
    · rw [List.getElem?_eq_none (by omega)]
      exact ⟨fun ⟨v, hv⟩ => (by cases hv), fun h => (by omega)⟩
  · rw [if_neg h]
    by_cases h2 : 0 ≤ i + (spec.length : Int)
    · rw [if_pos h2, List.getElem?_eq_getElem (by omega)]
      exact ⟨fun _ => by omega, fun _ => ⟨_, rfl⟩⟩
    · rw [if_neg h2]
      exact ⟨fun ⟨v, hv⟩ => (by cases hv), fun h => (by omega)⟩

/-- The default pixel list of `n` pixels. -/
def Spec.pixels (K : Type _) [NatCast K] (n : Nat) : List K := (List.range n).map (fun i : Nat => (i : K))

theorem pixels_sorted (n : Nat) : (Spec.pixels K n).Pairwise (· < ·) := by
  unfold Spec.pixels
  rw [List.pairwise_map]
  exact List.pairwise_lt_range.imp (fun h => by exact_mod_cast h)

theorem rawPixel_pixels (n : Nat) (hn : 2 ≤ n) (v : K) : rawPixel (Spec.pixels K n) v = v := by
  obtain ⟨lo, h, e, -, -, -⟩ := rawPixel_segment (Spec.pixels K n) (pixels_sorted n)
    (by simpa [Spec.pixels] using hn) v
  rw [e]
  simp [Spec.pixels]

/-- C182, the markers inside the detector: the marker of a peak starts at the value of the spectrum in the
last pixel that is not to the right of the peak. -/
theorem C182_marker_partial (l : List K) (hs : l.Pairwise (· < ·)) (hn : 2 ≤ l.length)
    (spec : List (PyFloat K)) (hl : spec.length = l.length) (p : K) (i : Nat) (hi : i < l.length)
    (h1 : l[i] ≤ p) (h2 : ∀ h : i + 1 < l.length, p < l[i + 1]) (h3 : i + 1 = l.length → p = l[i]) :
    markerHeight l spec p = .ok spec[i] := by
  obtain ⟨ha, hb⟩ := C80_raw_pixel l hs hn
  have e1 : (i : K) ≤ rawPixel l p := by
    rw [← ha i hi]
    rcases h1.lt_or_eq with h | h
    · exact (hb _ _ h).le
    · rw [h]
  have e2 : rawPixel l p < (i : K) + 1 := by
    rcases (by omega : i + 1 < l.length ∨ i + 1 = l.length) with h | h
    · have := hb _ _ (h2 h)
      rw [ha (i + 1) h] at this
      push_cast at this
      exact this
    · rw [h3 h, ha i hi]; linarith
  have e3 : pyInt (rawPixel l p) = i := by
    unfold pyInt
    have h0 : (0 : K) ≤ i := Nat.cast_nonneg i
    rw [if_pos (h0.trans e1), Int.floor_eq_iff]
    exact ⟨by exact_mod_cast e1, by exact_mod_cast e2⟩
  unfold markerHeight
  dsimp only
  rw [e3, if_pos (by omega)]
  simp only [Int.toNat_natCast]
  rw [List.getElem?_eq_getElem (by omega)]

/-- C182, the markers to the left of the detector: `k` pixels or more (but less than `k + 1`) before the
first pixel, the value is that of the `k`-th pixel from the end. -/
theorem C182_wrapped_partial (l : List K) (hs : l.Pairwise (· < ·)) (hn : 2 ≤ l.length)
    (spec : List (PyFloat K)) (t : K) (k : Nat) (hk : 1 ≤ k) (hkn : k ≤ spec.length)
    (h1 : (k : K) ≤ t) (h2 : t < (k : K) + 1) :
    markerHeight l spec (l[0] - t * (l[1] - l[0])) = .ok spec[spec.length - k] := by
  have hgap : (0 : K) < l[1] - l[0] := by
    have := (List.pairwise_iff_getElem.1 hs) 0 1 (by omega) (by omega) (by omega)
    linarith
  have ht : 0 < t := by
    have : (1 : K) ≤ k := by exact_mod_cast hk
    linarith
  have e1 : rawPixel l (l[0] - t * (l[1] - l[0])) = -t := by
    obtain ⟨lo, h, e, -, hlo, -⟩ := rawPixel_segment l hs hn (l[0] - t * (l[1] - l[0]))
    have h0 : lo = 0 := by
      by_contra hc
      have h3 := hlo hc
      have h4 := (List.pairwise_iff_getElem.1 hs) 0 lo (by omega) (by omega) (by omega)
      have : (0 : K) < t * (l[1] - l[0]) := mul_pos ht hgap
      linarith
    subst h0
    rw [e]
    have : l[0] - t * (l[1] - l[0]) - l[0] = -t * (l[1] - l[0]) := by ring
    simp only [Nat.zero_add]
    rw [this, mul_div_assoc, div_self hgap.ne']
    simp
  have e2 : pyInt (-t) = -(k : Int) := by
    unfold pyInt
    rw [if_neg (by linarith), Int.ceil_eq_iff]
    push_cast
    exact ⟨by linarith, by linarith⟩
  unfold markerHeight
  dsimp only
  rw [e1, e2, if_neg (by omega), if_pos (by omega)]
  have e3 : (-(k : Int) + (spec.length : Int)).toNat = spec.length - k := by omega
  rw [e3, List.getElem?_eq_getElem (by omega)]

theorem matplotlibPoints_some (f : K → K) (lines : List K) (hl : lines ≠ []) (ok : K → Bool) (ms : List (K × K))
    (hok : ∀ e ∈ ms, ok e.1 = true) :
    ∃ pts, matplotlibPoints f lines ok ms = .ok pts ∧ pts.length = ms.length := by
  induction ms with
  | nil => exact ⟨[], rfl, rfl⟩
  | cons e t ih =>
    obtain ⟨p, x⟩ := e
    obtain ⟨r, hr, hlen⟩ := ih (fun e he => hok e (List.mem_cons_of_mem _ he))
    obtain ⟨d, hd⟩ := plotResidual_ok lines x hl
    refine ⟨(f p, d) :: r, ?_, by simp [hlen]⟩
    rw [matplotlibPoints, hd, hr]
    dsimp only
    rw [if_pos (hok (p, x) List.mem_cons_self)]

/-- C182, what holds: straight after a successful fit, a spectrum given to `plot_fit` as an array is drawn
by matplotlib, with all matches, exactly if it is as long as the pixel list and every peak can be looked up
in it; a different length gives ValueError, a peak too far away IndexError. -/
theorem C182_drawn_partial (F : FitEnv K) (ha : IsArgsort F.argsortK) (s : Session K)
    (hp : SearchSpaceCurrent s.world) (a : FitArgs K) (arr : Bool) (rnd : FitRandom K) (r : FitReport K)
    (h : (s.fit F a arr rnd).2 = .done (.ok r)) (hco : r.coeffs ≠ []) (hlib : UsesLibrary s false)
    (heap : Heap K) (own : Option Nat) (pa : FitPlotArgs K) (hc : pa.coeff = none) (i : Nat)
    (hi : pa.spectrum = some i) (hk : (heap i).kind ≠ .pyList) (hv : (heap i).vals ≠ []) :
    let n := (heap i).vals.length
    let px := s.world.cal.props.pixelList
    let res := ((s.fit F a arr rnd).1.plotFit F heap own pa).2
    (n ≠ px.length → res = .error .valueError) ∧
    (n = px.length → (∀ p ∈ s.world.cal.peaks, -((n : K) + 1) < rawPixel px p ∧ rawPixel px p < n) →
      ∃ fig, res = .ok fig ∧
        fig.points.map Prod.fst = r.matchedPeaks.map ((F.kern a.fitType).polyval r.coeffs)) ∧
    (n = px.length → (¬ ∀ p ∈ s.world.cal.peaks, -((n : K) + 1) < rawPixel px p ∧ rawPixel px p < n) →
      res = .error .indexError) := by
  intro n px res
  have hw : (s.world.fit F a rnd).2 = .done (.ok r) := h
  obtain ⟨lines, hat0, hat, hon⟩ := fit_on_lines F ha s.world hp a rnd r hw
  obtain ⟨p1, p2, p3, p4, p5⟩ := fit_pairs F ha s a arr rnd r h
  obtain ⟨_, t2, t3, t4, _⟩ := fit_types F ha s a arr rnd r h
  obtain ⟨_, _, _, hmp, _⟩ := C62_report F ha s.world (fun e he => (hp e he).1) a rnd r hw
  have hprops : (s.fit F a arr rnd).1.world.cal.props = s.world.cal.props :=
    (fit_frame F s.world a rnd).1.props
  have hpk : (s.fit F a arr rnd).1.world.cal.peaks = s.world.cal.peaks :=
    (fit_frame F s.world a rnd).1.peaks
  have hat' : (s.fit F a arr rnd).1.world.atlasLines = .ok lines := hat
  have hlines : lines ≠ [] := by
    intro he
    have hlen : 0 < r.matchedAtlas.length := by omega
    have := hon _ (List.getElem_mem hlen)
    rw [he] at this
    cases this
  have hn0 : 0 < n := List.length_pos_of_ne_nil hv
  obtain ⟨h1, _⟩ := usesLibrary_flags s false hlib
  rw [← hprops] at h1
  have hpx : (s.fit F a arr rnd).1.world.cal.props.pixelList = px := by rw [hprops]
  have hres : res = ((s.fit F a arr rnd).1.plotFit F heap own pa).2 := rfl
  clear_value res
  generalize (s.fit F a arr rnd).1 = s' at *
  have hdraw : res = s'.drawFit F (some n) pa := by
    rw [hres]
    unfold Session.plotFit prepareSpectrum
    rw [hi]
    dsimp only [Option.isSome, if_true]
    cases pa.log <;> simp [hk, hv, n]
  have hcoeff : s'.plotCoeff pa = .ok (r.coeffs, false) := by
    unfold Session.plotCoeff
    rw [hc, p3, t3]
    rfl
  have hd2 : res = s'.drawMatplotlib (F.kern a.fitType) r.coeffs false (some n) pa := by
    rw [hdraw]
    unfold Session.drawFit
    rw [t4, hcoeff]
    dsimp only
    rw [if_neg hco, if_pos (by simpa using h1)]
  unfold Session.drawMatplotlib at hd2
  dsimp only at hd2
  rw [hpx, hpk] at hd2
  have hall : s.world.cal.peaks.all (readable px (some n)) = true ↔
      ∀ p ∈ s.world.cal.peaks, -((n : K) + 1) < rawPixel px p ∧ rawPixel px p < n := by
    rw [List.all_eq_true]
    exact forall₂_congr (fun p _ => readable_iff px n hn0 p)
  refine ⟨?_, ?_, ?_⟩
  · intro hne
    rw [hd2, if_pos (by simpa using hne)]
  · intro he hin
    have hok := hall.2 hin
    obtain ⟨pts, hpts, hlen⟩ := matplotlibPoints_some ((F.kern a.fitType).polyval r.coeffs) lines hlines
      (readable px (some n)) (r.matchedPeaks.zip r.matchedAtlas)
      (fun e hm => List.all_eq_true.1 hok _ (hmp _ (List.of_mem_zip (a := e.1) (b := e.2) hm).1))
    have hne : pts ≠ [] := by
      intro he
      rw [he, List.length_zip] at hlen
      simp at hlen
      omega
    refine ⟨⟨pts, rmsOf (F.kern a.fitType) (pts.map Prod.snd),
      (finishMatplotlib "rascal_solution".toList pa.opts).1,
      (finishMatplotlib "rascal_solution".toList pa.opts).2⟩, ?_, ?_⟩
    · rw [hd2, if_neg (by simpa using he), if_neg (by simpa using hok), if_neg (by rw [t2]; decide), hat', p1, p2]
      dsimp only
      rw [hpts]
      dsimp only
      rw [if_neg (by simp)]
      unfold figureOf
      rw [if_neg hne]
    · have hf := matplotlibPoints_spec _ _ _ _ _ hpts
      have : ∀ (ms pts : List (K × K)), List.Forall₂ (fun e q => q.1 = (F.kern a.fitType).polyval r.coeffs e.1 ∧
          NearestOffset lines e.2 q.2) ms pts →
          pts.map Prod.fst = (ms.map Prod.fst).map ((F.kern a.fitType).polyval r.coeffs) := by
        intro ms pts h
        induction h with
        | nil => rfl
        | cons h1 _ ih => simp only [List.map_cons, h1.1, ih]
      show pts.map Prod.fst = _
      rw [this _ _ hf, List.map_fst_zip (by omega)]
  · intro he hout
    have hbad : ¬ s.world.cal.peaks.all (readable px (some n)) = true := fun hc => hout (hall.1 hc)
    rw [hd2, if_neg (by simpa using he), if_pos (by simpa using hbad)]

theorem plotlyPoints_cases (g : K → K) (lines : List K) (tol : K) (hl : lines ≠ []) (ok : K → Bool) (ps : List K) :
    ((∀ p ∈ ps, (∃ l ∈ lines, |l - g p| < tol) → ok p = true) →
      ∃ pts, plotlyPoints (some g) lines tol ok ps = .ok pts) ∧
    ((¬ ∀ p ∈ ps, (∃ l ∈ lines, |l - g p| < tol) → ok p = true) →
      plotlyPoints (some g) lines tol ok ps = .error .indexError) := by
  induction ps with
  | nil => exact ⟨fun _ => ⟨[], rfl⟩, fun h => absurd (fun _ hp => (by cases hp)) h⟩
  | cons p t ih =>
    obtain ⟨d, hd⟩ := plotResidual_ok lines (g p) hl
    obtain ⟨l, h1, h2, h3⟩ := plotResidual_spec _ _ _ hd
    have hnear : (∃ l ∈ lines, |l - g p| < tol) ↔ |d| < tol :=
      ⟨fun ⟨l', hl', hlt⟩ => (h3 l' hl').trans_lt hlt, fun ht => ⟨l, h1, by rw [← h2]; exact ht⟩⟩
    simp only [List.forall_mem_cons, hnear]
    rw [plotlyPoints, hd]
    dsimp only
    by_cases ht : |d| < tol
    · rw [if_pos ht]
      by_cases hok : ok p = true
      · rw [if_pos hok]
        constructor
        · rintro ⟨_, h⟩
          obtain ⟨r, hr⟩ := ih.1 h
          rw [hr]
          exact ⟨_, rfl⟩
        · intro h
          rw [ih.2 (fun hc => h ⟨fun _ => hok, hc⟩)]
      · rw [if_neg hok]
        exact ⟨fun h => absurd (h.1 ht) hok, fun _ => rfl⟩
    · rw [if_neg ht]
      exact ⟨fun h => ih.1 h.2, fun h => ih.2 (fun hc => h ⟨fun hn => absurd hn ht, hc⟩)⟩

/-- C182 with plotly: straight after a successful fit the length of the spectrum is not compared with anything; the
figure is drawn exactly if some peak comes within `tolerance` of an atlas line and all such peaks can be looked up; a
peak of these too far away gives IndexError, no such peak ValueError. -/
theorem C182_plotly_partial (F : FitEnv K) (ha : IsArgsort F.argsortK) (s : Session K)
    (hp : SearchSpaceCurrent s.world) (a : FitArgs K) (arr : Bool) (rnd : FitRandom K) (r : FitReport K)
    (h : (s.fit F a arr rnd).2 = .done (.ok r)) (hco : r.coeffs ≠ []) (hlib : UsesLibrary s true)
    (heap : Heap K) (own : Option Nat) (pa : FitPlotArgs K) (hc : pa.coeff = none) (i : Nat)
    (hi : pa.spectrum = some i) (hk : (heap i).kind ≠ .pyList) (hv : (heap i).vals ≠ []) :
    let n := (heap i).vals.length
    let px := s.world.cal.props.pixelList
    let res := ((s.fit F a arr rnd).1.plotFit F heap own pa).2
    ∃ lines, s.world.atlasLines = .ok lines ∧
      let near := fun p => ∃ l ∈ lines, |l - (F.kern a.fitType).polyval r.coeffs p| < pa.tolerance
      let fits := ∀ p ∈ s.world.cal.peaks, near p → -((n : K) + 1) < rawPixel px p ∧ rawPixel px p < n
      (fits → (∃ p ∈ s.world.cal.peaks, near p) → ∃ fig, res = .ok fig ∧ ∃ kept : List K,
        kept.Sublist s.world.cal.peaks ∧ (∀ p ∈ s.world.cal.peaks, p ∈ kept ↔ near p) ∧
        fig.points.map Prod.fst = kept.map ((F.kern a.fitType).polyval r.coeffs)) ∧
      (fits → (¬ ∃ p ∈ s.world.cal.peaks, near p) → res = .error .valueError) ∧
      (¬ fits → res = .error .indexError) := by
  intro n px res
  have hw : (s.world.fit F a rnd).2 = .done (.ok r) := h
  obtain ⟨lines, hat0, hat, hon⟩ := fit_on_lines F ha s.world hp a rnd r hw
  obtain ⟨p1, p2, p3, p4, p5⟩ := fit_pairs F ha s a arr rnd r h
  obtain ⟨_, t2, t3, t4, _⟩ := fit_types F ha s a arr rnd r h
  have hprops : (s.fit F a arr rnd).1.world.cal.props = s.world.cal.props :=
    (fit_frame F s.world a rnd).1.props
  have hpk : (s.fit F a arr rnd).1.world.cal.peaks = s.world.cal.peaks :=
    (fit_frame F s.world a rnd).1.peaks
  have hat' : (s.fit F a arr rnd).1.world.atlasLines = .ok lines := hat
  have hlines : lines ≠ [] := by
    intro he
    have hlen : 0 < r.matchedAtlas.length := by omega
    have := hon _ (List.getElem_mem hlen)
    rw [he] at this
    cases this
  have hn0 : 0 < n := List.length_pos_of_ne_nil hv
  obtain ⟨h1, h2⟩ := usesLibrary_flags s true hlib
  rw [← hprops] at h1 h2
  have hpx : (s.fit F a arr rnd).1.world.cal.props.pixelList = px := by rw [hprops]
  have hres : res = ((s.fit F a arr rnd).1.plotFit F heap own pa).2 := rfl
  clear_value res
  generalize (s.fit F a arr rnd).1 = s' at *
  have hdraw : res = s'.drawFit F (some n) pa := by
    rw [hres]
    unfold Session.plotFit prepareSpectrum
    rw [hi]
    dsimp only [Option.isSome, if_true]
    cases pa.log <;> simp [hk, hv, n]
  have hcoeff : s'.plotCoeff pa = .ok (r.coeffs, false) := by
    unfold Session.plotCoeff
    rw [hc, p3, t3]
    rfl
  have hd2 : res = s'.drawPlotly (F.kern a.fitType) r.coeffs false (some n) pa := by
    rw [hdraw]
    unfold Session.drawFit
    rw [t4, hcoeff]
    dsimp only
    rw [if_neg hco, if_neg (by simpa using h1), if_pos (h2 rfl)]
  unfold Session.drawPlotly at hd2
  dsimp only at hd2
  rw [hpx, hpk, hat'] at hd2
  dsimp only at hd2
  rw [if_neg (by simp)] at hd2
  refine ⟨lines, hat0, ?_⟩
  intro near fits
  have hall : (∀ p ∈ s.world.cal.peaks, near p → readable px (some n) p = true) ↔ fits :=
    forall₂_congr (fun p _ => by rw [readable_iff px n hn0 p])
  obtain ⟨c1, c2⟩ := plotlyPoints_cases ((F.kern a.fitType).polyval r.coeffs) lines pa.tolerance hlines
    (readable px (some n)) s.world.cal.peaks
  refine ⟨?_, ?_, ?_⟩
  · rintro hf ⟨p, hp, hl⟩
    obtain ⟨pts, hpts⟩ := c1 (hall.2 hf)
    obtain ⟨kept, k1, k2, k3⟩ := plotlyPoints_spec _ _ _ _ _ _ hpts
    have hne : pts ≠ [] := by
      intro he
      rw [he] at k3
      have := (k2 p hp).2 hl
      cases k3
      cases this
    rw [hpts] at hd2
    dsimp only at hd2
    unfold figureOf at hd2
    rw [if_neg hne] at hd2
    refine ⟨_, hd2, kept, k1, k2, ?_⟩
    show pts.map Prod.fst = _
    clear hd2 hpts hne k1 k2
    induction k3 with
    | nil => rfl
    | cons h1 _ ih => simp only [List.map_cons, h1.1, ih]
  · intro hf hn
    obtain ⟨pts, hpts⟩ := c1 (hall.2 hf)
    obtain ⟨kept, k1, k2, k3⟩ := plotlyPoints_spec _ _ _ _ _ _ hpts
    have hk : kept = [] := by
      cases kept with
      | nil => rfl
      | cons p t =>
        have hm := k1.subset (List.mem_cons_self (a := p) (l := t))
        exact absurd ⟨p, hm, (k2 p hm).1 List.mem_cons_self⟩ hn
    rw [hk] at k3
    cases k3
    rw [hd2, hpts]
    rfl
  · intro hf
    rw [hd2, c2 (fun hc => hf (hall.1 hc))]

/-- C182 with the default pixel list of `n` pixels: the condition on the peaks is that they lie between
`-(n + 1)` and `n`. -/
theorem C182_default_partial (n : Nat) (hn : 2 ≤ n) (p : K) :
    rawPixel (Spec.pixels K n) p = p ∧
    (readable (Spec.pixels K n) (some n) p = true ↔ -((n : K) + 1) < p ∧ p < n) := by
  refine ⟨rawPixel_pixels n hn p, ?_⟩
  rw [readable_iff _ n (by omega), rawPixel_pixels n hn]

end

/-! ### refutations and examples -/

set_option synthInstance.maxSize 2000
set_option synthInstance.maxHeartbeats 400000

/-- The expected behaviour: after a fit, a spectrum of `num_pix` values that holds all peaks is drawn. -/
def C182_Statement : Prop :=
  ∀ (F : FitEnv ℚ) (s : Session ℚ) (a : FitArgs ℚ) (arr : Bool) (rnd : FitRandom ℚ) (r : FitReport ℚ),
    IsArgsort F.argsortK → (s.fit F a arr rnd).2 = .done (.ok r) → UsesLibrary s false →
    ∀ (heap : Heap ℚ) (own : Option Nat) (pa : FitPlotArgs ℚ) (i : Nat), pa.coeff = none →
      pa.spectrum = some i → (heap i).kind = .floatArray →
      (((heap i).vals.length : Nat) : ℚ) = s.world.cal.props.numPix →
      (∀ p ∈ s.world.cal.peaks, 0 ≤ p ∧ p < s.world.cal.props.numPix) →
      ∃ fig, ((s.fit F a arr rnd).1.plotFit F heap own pa).2 = .ok fig

/-- The session of six peaks, told that the detector has `n` pixels; the pixel list made from the peaks has
66. -/
def Toy.sixPix (n : ℚ) : Option (Session ℚ) :=
  Toy.sixSession.map (fun s => (s.step Toy.calEnv (.setCalibrator (some n) none none)).1)

/-- A spectrum of `n` values. -/
def Toy.flat (n : Nat) : Heap ℚ := fun _ => ⟨.floatArray, List.replicate n (.fin 1)⟩

/-- `set_calibrator_properties(num_pix=100)` leaves the pixel list at 66 pixels, so that a spectrum of 100
values cannot be plotted. -/
theorem C182_refuted : ¬ C182_Statement := by
  intro h
  have hc : (Toy.sixPix 100).map (fun s =>
      let t := s.fit Toy.env Toy.sixArgs false Toy.sixRnd
      (((Toy.sessionReport t).isSome,
        (t.1.plotFit Toy.env (Toy.flat 100) none { tolerance := 5, spectrum := some 0 }).2.toOption.isSome),
       (decide (s.world.cal.props.whichLibrary = some .matplotlib), decide (s.world.cal.props.numPix = 100)),
       s.world.cal.peaks.all (fun p => decide (0 ≤ p ∧ p < 100)))) =
      some ((true, false), (true, true), true) := by
    decide +kernel
  cases hs : Toy.sixPix 100 with
  | none => rw [hs] at hc; simp at hc
  | some s =>
    rw [hs] at hc
    simp only [Option.map_some, Option.some.injEq, Prod.mk.injEq, decide_eq_true_eq] at hc
    obtain ⟨⟨h1, h2⟩, ⟨h3, h4⟩, h5⟩ := hc
    obtain ⟨r, hr⟩ := Option.isSome_iff_exists.1 h1
    obtain ⟨fig, hf⟩ := h Toy.env s Toy.sixArgs false Toy.sixRnd r stableArgsort_isArgsort
      (Toy.sessionReport_some hr) h3 (Toy.flat 100) none { tolerance := 5, spectrum := some 0 } 0 rfl rfl rfl
      (by rw [h4]; simp [Toy.flat])
      (by rw [h4]; intro p hp; exact of_decide_eq_true (List.all_eq_true.1 h5 p hp))
    rw [hf] at h2
    cases h2

/-- Cases for `C182_drawn_partial`: 66 values are drawn, 100 raise; with a pixel list that ends before the
last peak the lookup raises IndexError. -/
example : Toy.sixSession.map (fun s =>
    let t := (s.fit Toy.env Toy.sixArgs false Toy.sixRnd).1
    let u := ((s.step Toy.calEnv (.setCalibrator none (some ((List.range 60).map (fun i : Nat => (i : ℚ)))) none)).1.fit
      Toy.env Toy.sixArgs false Toy.sixRnd).1
    let err := fun r : PyRes (FitFigure ℚ) => match r with | .ok _ => none | .error e => some e
    ((t.plotFit Toy.env (Toy.flat 66) none { tolerance := 5, spectrum := some 0 }).2.toOption.map
      (fun f => f.points.length),
     err (t.plotFit Toy.env (Toy.flat 100) none { tolerance := 5, spectrum := some 0 }).2,
     err (u.plotFit Toy.env (Toy.flat 60) none { tolerance := 5, spectrum := some 0 }).2)) =
    some (some 6, some .valueError, some .indexError) := by
  decide +kernel

/-- Cases for `C182_plotly_partial`: 66 values are drawn, and so are 100, at the wavelengths of the first 66 pixels; 12
raise IndexError; with a tolerance too small for every peak there is nothing to draw. -/
example : Toy.sixSession.map (fun s =>
    let t := ((s.step Toy.calEnv .usePlotly).1.fit Toy.env Toy.sixArgs false Toy.sixRnd).1
    let err := fun r : PyRes (FitFigure ℚ) => match r with | .ok _ => none | .error e => some e
    ((t.plotFit Toy.env (Toy.flat 66) none { tolerance := 5, spectrum := some 0 }).2.toOption.map
      (fun f => f.points.length),
     (t.plotFit Toy.env (Toy.flat 100) none { tolerance := 5, spectrum := some 0 }).2.toOption.map
      (fun f => f.points.length),
     err (t.plotFit Toy.env (Toy.flat 12) none { tolerance := 5, spectrum := some 0 }).2,
     err (t.plotFit Toy.env (Toy.flat 66) none { tolerance := 1 / 10, spectrum := some 0 }).2)) =
    some (some 4, some 4, some .indexError, some .valueError) := by
  decide +kernel

/-- The expected behaviour: a peak before the first pixel is marked at the height of the first pixel, or
not at all. -/
def C182_marker_Statement : Prop :=
  ∀ (l : List ℚ) (spec : List (PyFloat ℚ)) (p : ℚ) (v : PyFloat ℚ), l.Pairwise (· < ·) → 2 ≤ l.length →
    spec.length = l.length → (∀ x ∈ l, p < x) → markerHeight l spec p = .ok v → spec[0]? = some v

/-- With pixels 100, 101 and 102 the marker of a peak at 99 has the height of pixel 102. -/
theorem C182_marker_refuted : ¬ C182_marker_Statement := by
  intro h
  have := h [100, 101, 102] [.fin 1, .fin 2, .fin 3] 99 (.fin 3) (by decide) (by decide) rfl (by decide)
    (by decide +kernel)
  revert this
  decide

/-- Cases for `C182_marker_partial`, `C182_wrapped_partial`, `C182_lookup_partial` and
`C182_default_partial`: two peaks on a detector with a gap, one left of it by a pixel and a half, one by four
pixels, one just outside to the right. -/
example : markerHeight (K := ℚ) [100, 101, 110] [.fin 1, .fin 2, .fin 3] (1007 / 10) = .ok (.fin 1) ∧
    markerHeight (K := ℚ) [100, 101, 110] [.fin 1, .fin 2, .fin 3] 109 = .ok (.fin 2) ∧
    markerHeight (K := ℚ) [100, 101, 110] [.fin 1, .fin 2, .fin 3] (100 - 3 / 2 * (101 - 100)) = .ok (.fin 3) ∧
    markerHeight (K := ℚ) [100, 101, 110] [.fin 1, .fin 2, .fin 3] 96 = .error .indexError ∧
    markerHeight (K := ℚ) [100, 101, 110] [.fin 1, .fin 2, .fin 3] 120 = .error .indexError ∧
    readable (Spec.pixels ℚ 3) (some 3) (-7 / 2) = true ∧ readable (Spec.pixels ℚ 3) (some 3) 3 = false := by
  decide +kernel

end Rascal
