import Verif.Props.PlotProps
import Verif.Props.FitLoopProps
import Verif.Proofs.MatchLemmas

/-! Property theorems C84, C105, C106 and C107, and refutations for C83: what the figures show. -/

set_option linter.unusedSectionVars false

namespace Rascal

open Spec

section
variable {K : Type _} [Field K] [LinearOrder K] [IsStrictOrderedRing K] [FloorRing K]

/-! ### C84 -/

/-- `d` is the signed distance from `x` to a nearest line. -/
def NearestOffset (lines : List K) (x d : K) : Prop :=
  ∃ l ∈ lines, d = l - x ∧ ∀ l' ∈ lines, |d| ≤ |l' - x|

theorem plotResidual_spec (lines : List K) (x d : K) (h : plotResidual lines x = .ok d) :
    NearestOffset lines x d := by
  unfold plotResidual at h
  cases hn : nearestLine x lines with
  | none => rw [hn] at h; cases h
  | some l =>
    rw [hn] at h
    cases h
    obtain ⟨h1, h2⟩ := nearestLine_spec x lines l hn
    exact ⟨l, h1, rfl, h2⟩

theorem plotResidual_ok (lines : List K) (x : K) (h : lines ≠ []) : ∃ d, plotResidual lines x = .ok d := by
  obtain ⟨l, hl⟩ := nearestLine_isSome x lines h
  exact ⟨l - x, by unfold plotResidual; rw [hl]⟩

theorem matplotlibPoints_spec (f : K → K) (lines : List K) (ok : K → Bool) (ms pts : List (K × K))
    (h : matplotlibPoints f lines ok ms = .ok pts) :
    List.Forall₂ (fun e q => q.1 = f e.1 ∧ NearestOffset lines e.2 q.2) ms pts := by
  induction ms generalizing pts with
  | nil => cases h; exact .nil
  | cons e t ih =>
    obtain ⟨p, x⟩ := e
    rw [matplotlibPoints] at h
    cases hd : plotResidual lines x with
    | error e => rw [hd] at h; cases h
    | ok d =>
      rw [hd] at h
      dsimp only at h
      split at h
      · cases hr : matplotlibPoints f lines ok t with
        | error e => rw [hr] at h; cases h
        | ok r =>
          rw [hr] at h
          cases h
          exact .cons ⟨rfl, plotResidual_spec _ _ _ hd⟩ (ih r hr)
      · cases h

theorem matplotlibPoints_blind (f g : K → K) (lines : List K) (ok ok' : K → Bool) (ms pts pts' : List (K × K))
    (h : matplotlibPoints f lines ok ms = .ok pts) (h' : matplotlibPoints g lines ok' ms = .ok pts') :
    pts.map Prod.snd = pts'.map Prod.snd := by
  induction ms generalizing pts pts' with
  | nil => cases h; cases h'; rfl
  | cons e t ih =>
    obtain ⟨p, x⟩ := e
    rw [matplotlibPoints] at h h'
    cases hd : plotResidual lines x with
    | error e => rw [hd] at h; cases h
    | ok d =>
      rw [hd] at h h'
      dsimp only at h h'
      split at h
      · split at h'
        · cases hr : matplotlibPoints f lines ok t with
          | error e => rw [hr] at h; cases h
          | ok r =>
            cases hr' : matplotlibPoints g lines ok' t with
            | error e => rw [hr'] at h'; cases h'
            | ok r' =>
              rw [hr] at h
              rw [hr'] at h'
              cases h; cases h'
              simp only [List.map_cons, ih r r' hr hr']
        · cases h'
      · cases h

theorem matplotlibPoints_total (f : K → K) (lines : List K) (hl : lines ≠ []) (ms : List (K × K)) :
    ∃ pts, matplotlibPoints f lines (fun _ => true) ms = .ok pts ∧ pts.length = ms.length := by
  induction ms with
  | nil => exact ⟨[], rfl, rfl⟩
  | cons e t ih =>
    obtain ⟨p, x⟩ := e
    obtain ⟨r, hr, hlen⟩ := ih
    obtain ⟨d, hd⟩ := plotResidual_ok lines x hl
    refine ⟨(f p, d) :: r, ?_, by simp [hlen]⟩
    rw [matplotlibPoints, hd, hr]
    rfl

theorem plotlyPoints_spec (g : K → K) (lines : List K) (tol : K) (ok : K → Bool) (ps : List K)
    (pts : List (K × K)) (h : plotlyPoints (some g) lines tol ok ps = .ok pts) :
    ∃ kept : List K, kept.Sublist ps ∧
      (∀ p ∈ ps, p ∈ kept ↔ ∃ l ∈ lines, |l - g p| < tol) ∧
      List.Forall₂ (fun p q => q.1 = g p ∧ NearestOffset lines (g p) q.2) kept pts := by
  have key : ∃ kept : List K, kept.Sublist ps ∧
      (∀ p ∈ ps, (∃ l ∈ lines, |l - g p| < tol) → p ∈ kept) ∧
      (∀ p ∈ kept, ∃ l ∈ lines, |l - g p| < tol) ∧
      List.Forall₂ (fun p q => q.1 = g p ∧ NearestOffset lines (g p) q.2) kept pts := by
    induction ps generalizing pts with
    | nil => cases h; exact ⟨[], .slnil, by simp, by simp, .nil⟩
    | cons p t ih =>
      rw [plotlyPoints] at h
      cases hd : plotResidual lines (g p) with
      | error e => rw [hd] at h; cases h
      | ok d =>
        rw [hd] at h
        dsimp only at h
        obtain ⟨l, h1, h2, h3⟩ := plotResidual_spec _ _ _ hd
        by_cases ht : |d| < tol
        · rw [if_pos ht] at h
          split at h
          · cases hr : plotlyPoints (some g) lines tol ok t with
            | error e => rw [hr] at h; cases h
            | ok r =>
              rw [hr] at h
              cases h
              obtain ⟨kept, k1, k2, k3, k4⟩ := ih r hr
              refine ⟨p :: kept, k1.cons_cons p, ?_, ?_, .cons ⟨rfl, l, h1, h2, h3⟩ k4⟩
              · intro q hq hl
                rcases List.mem_cons.1 hq with rfl | hq
                · exact List.mem_cons_self
                · exact List.mem_cons_of_mem _ (k2 q hq hl)
              · intro q hq
                rcases List.mem_cons.1 hq with rfl | hq
                · exact ⟨l, h1, by rw [← h2]; exact ht⟩
                · exact k3 q hq
          · cases h
        · rw [if_neg ht] at h
          obtain ⟨kept, k1, k2, k3, k4⟩ := ih pts h
          refine ⟨kept, k1.cons p, ?_, k3, k4⟩
          intro q hq hl
          rcases List.mem_cons.1 hq with rfl | hq
          · obtain ⟨l', hl', hlt⟩ := hl
            exact absurd ((h3 l' hl').trans_lt hlt) ht
          · exact k2 q hq hl
  obtain ⟨kept, k1, k2, k3, k4⟩ := key
  exact ⟨kept, k1, fun p hp => ⟨k3 p, k2 p hp⟩, k4⟩

theorem plotlyPoints_total (g : K → K) (lines : List K) (tol : K) (hl : lines ≠ []) (ps : List K) :
    ∃ pts, plotlyPoints (some g) lines tol (fun _ => true) ps = .ok pts := by
  induction ps with
  | nil => exact ⟨[], rfl⟩
  | cons p t ih =>
    obtain ⟨r, hr⟩ := ih
    obtain ⟨d, hd⟩ := plotResidual_ok lines (g p) hl
    rw [plotlyPoints]
    rw [hd, hr]
    dsimp only
    split
    · exact ⟨_, rfl⟩
    · exact ⟨_, rfl⟩

/-- C84 with matplotlib, what is shown: one point per match, at the wavelength the plotted solution gives
the peak, and as residual the distance from the matched wavelength to the nearest atlas line; the rms line
is that of these values.  The solution does not enter into the residuals. -/
theorem C84_matplotlib_partial (F : FitEnv K) (s : Session K) (hl : UsesLibrary s false) (h : Heap K)
    (own : Option Nat) (a : FitPlotArgs K) (fig : FitFigure K) (hf : (s.plotFit F h own a).2 = .ok fig) :
    ∃ b co lines, s.basis = some b ∧ (∀ c, a.coeff = some c → co = c) ∧
      (a.coeff = none → s.world.cal.fitCoeff = some co) ∧ s.world.atlasLines = .ok lines ∧
      List.Forall₂ (fun e q => q.1 = (F.kern b).polyval co e.1 ∧ NearestOffset lines e.2 q.2)
        (s.world.cal.matchedPeaks.zip s.world.cal.matchedAtlas) fig.points ∧
      fig.rms = (F.kern b).sqrt (((fig.points.map Prod.snd).map (fun d => d ^ 2)).sum /
        (fig.points.length : K)) := by
  obtain ⟨h1, _⟩ := usesLibrary_flags s false hl
  obtain ⟨b, co, nan, n, hb, hc, hm, _⟩ := plotFit_ok F h own s a fig hf
  obtain ⟨lines, pts, hat, _, _, hp, _, rfl⟩ := drawMatplotlib_ok _ _ _ _ _ _ _ (hm h1)
  unfold Session.plotCoeff at hc
  refine ⟨b, co, lines, hb, ?_, ?_, hat, matplotlibPoints_spec _ _ _ _ _ hp, ?_⟩
  · intro c hac
    rw [hac] at hc
    cases hc; rfl
  · intro hac
    rw [hac] at hc
    dsimp only at hc
    cases hfc : s.world.cal.fitCoeff with
    | none => rw [hfc] at hc; cases hc
    | some c => rw [hfc] at hc; cases hc; rfl
  · unfold rmsOf
    simp

/-- C84 with matplotlib: whatever coefficients are plotted, the residuals shown are the same. -/
theorem C84_blind_partial (F : FitEnv K) (s : Session K) (hl : UsesLibrary s false) (h h' : Heap K)
    (own own' : Option Nat) (a a' : FitPlotArgs K) (fig fig' : FitFigure K)
    (hf : (s.plotFit F h own a).2 = .ok fig) (hf' : (s.plotFit F h' own' a').2 = .ok fig') :
    fig.points.map Prod.snd = fig'.points.map Prod.snd ∧ fig.rms = fig'.rms := by
  obtain ⟨h1, _⟩ := usesLibrary_flags s false hl
  obtain ⟨b, co, nan, n, hb, hc, hm, _⟩ := plotFit_ok F h own s a fig hf
  obtain ⟨b', co', nan', n', hb', hc', hm', _⟩ := plotFit_ok F h' own' s a' fig' hf'
  obtain ⟨lines, pts, hat, _, _, hp, _, rfl⟩ := drawMatplotlib_ok _ _ _ _ _ _ _ (hm h1)
  obtain ⟨lines', pts', hat', _, _, hp', _, rfl⟩ := drawMatplotlib_ok _ _ _ _ _ _ _ (hm' h1)
  rw [hb] at hb'
  cases hb'
  rw [hat] at hat'
  cases hat'
  have := matplotlibPoints_blind _ _ _ _ _ _ _ _ hp hp'
  exact ⟨this, by rw [this]⟩

theorem nearestOffset_zero (lines : List K) (x d : K) (h : NearestOffset lines x d) (hx : x ∈ lines) :
    d = 0 := by
  obtain ⟨l, _, _, h3⟩ := h
  have := h3 x hx
  rw [sub_self, abs_zero] at this
  exact abs_eq_zero.1 (le_antisymm this (abs_nonneg _))

/-- C84 with matplotlib: if the matched wavelengths are atlas lines, all residuals shown are zero and the
rms line is at the square root of zero. -/
theorem C84_zero_partial (F : FitEnv K) (s : Session K) (hl : UsesLibrary s false) (h : Heap K)
    (own : Option Nat) (a : FitPlotArgs K) (fig : FitFigure K) (hf : (s.plotFit F h own a).2 = .ok fig)
    (lines : List K) (hlines : s.world.atlasLines = .ok lines)
    (hon : ∀ v ∈ s.world.cal.matchedAtlas, v ∈ lines) :
    (∀ q ∈ fig.points, q.2 = 0) ∧ ∃ b, s.basis = some b ∧ fig.rms = (F.kern b).sqrt 0 := by
  obtain ⟨b, co, lines', hb, _, _, hat, hp, hr⟩ := C84_matplotlib_partial F s hl h own a fig hf
  rw [hlines] at hat
  cases hat
  have hz : ∀ q ∈ fig.points, q.2 = 0 := by
    intro q hq
    obtain ⟨i, hi, rfl⟩ := List.getElem_of_mem hq
    have hi' : i < (s.world.cal.matchedPeaks.zip s.world.cal.matchedAtlas).length := by
      rw [hp.length_eq]; exact hi
    have he := (List.forall₂_iff_get.1 hp).2 i hi' hi
    refine nearestOffset_zero lines _ _ he.2 (hon _ ?_)
    have hm := List.get_mem (s.world.cal.matchedPeaks.zip s.world.cal.matchedAtlas) ⟨i, hi'⟩
    exact (List.of_mem_zip (a := _) (b := _) hm).2
  refine ⟨hz, b, hb, ?_⟩
  rw [hr]
  have hsum : ((fig.points.map Prod.snd).map (fun d => d ^ 2)).sum = 0 := by
    apply List.sum_eq_zero
    intro v hv
    simp only [List.map_map, List.mem_map, Function.comp_apply] at hv
    obtain ⟨q, hq, rfl⟩ := hv
    rw [hz q hq]; ring
  rw [hsum, zero_div]

/-- The matched wavelengths of a successful fit are lines of the atlas, if the search space is. -/
theorem fit_on_lines (F : FitEnv K) (ha : IsArgsort F.argsortK) (w : World K) (hp : SearchSpaceCurrent w)
    (a : FitArgs K) (rnd : FitRandom K) (r : FitReport K) (h : (w.fit F a rnd).2 = .done (.ok r)) :
    ∃ lines, w.atlasLines = .ok lines ∧ (w.fit F a rnd).1.atlasLines = .ok lines ∧
      ∀ v ∈ r.matchedAtlas, v ∈ lines := by
  obtain ⟨lines, L, s, co, data, prev, S⟩ := fit_success F ha w a rnd r h
  have hs := enter_spec F _ _ _ _ _ S.enter
  have hacc := S.accepted
  have hma : r.matchedAtlas = s.matchedAtlas := by rw [S.report]
  obtain ⟨l1, l2⟩ := hacc.lengths
  obtain ⟨fr, hat⟩ := fit_frame F w a rnd
  refine ⟨lines, S.atlas, ?_, ?_⟩
  · rw [← S.atlas]
    unfold World.atlasLines
    rw [fr.atlas, hat]
  · rw [hma]
    intro v hv
    obtain ⟨i, hi, hiv⟩ := List.getElem_of_mem hv
    have hz : (s.matchedPeaks[i]'(by omega), v) ∈ s.matchedPeaks.zip s.matchedAtlas := by
      rw [List.mem_iff_getElem]
      exact ⟨i, by simp; omega, by simp [hiv]⟩
    have hx := hacc.candidates _ hz
    cases hlin : w.cal.ransac.linear with
    | true =>
      obtain ⟨_, lines', h1, h2⟩ := hp _ (hs.linear ha hlin _ hx).1
      rw [S.atlas] at h1
      simp only [Except.ok.injEq] at h1
      rw [h1]
      exact h2
    | false => exact (hs.poly ha hlin _ hx).2

/-- C84 with matplotlib, after a fit: every residual shown is zero, however good or bad the solution. -/
theorem C84_after_fit_partial (F : FitEnv K) (ha : IsArgsort F.argsortK) (s : Session K)
    (hp : SearchSpaceCurrent s.world) (a : FitArgs K) (arr : Bool) (rnd : FitRandom K) (r : FitReport K)
    (h : (s.fit F a arr rnd).2 = .done (.ok r)) (hl : UsesLibrary s false)
    (heap : Heap K) (own : Option Nat) (pa : FitPlotArgs K) (fig : FitFigure K)
    (hf : ((s.fit F a arr rnd).1.plotFit F heap own pa).2 = .ok fig) :
    (∀ q ∈ fig.points, q.2 = 0) ∧ fig.rms = (F.kern a.fitType).sqrt 0 ∧
      fig.points.length = r.matchedPeaks.length := by
  have hw : (s.world.fit F a rnd).2 = .done (.ok r) := h
  obtain ⟨lines, _, hat, hon⟩ := fit_on_lines F ha s.world hp a rnd r hw
  obtain ⟨p1, p2, _, p4, _⟩ := fit_pairs F ha s a arr rnd r h
  obtain ⟨_, _, _, t4, _⟩ := fit_types F ha s a arr rnd r h
  have hl' : UsesLibrary (s.fit F a arr rnd).1 false := by
    unfold UsesLibrary
    rw [show (s.fit F a arr rnd).1.world.cal.props = s.world.cal.props from
      (fit_frame F s.world a rnd).1.props]
    exact hl
  obtain ⟨h1, b, hb, h2⟩ := C84_zero_partial F _ hl' heap own pa fig hf lines hat (by rw [p2]; exact hon)
  rw [t4] at hb
  cases hb
  refine ⟨h1, h2, ?_⟩
  obtain ⟨_, _, _, _, _, _, _, hz, _⟩ := C84_matplotlib_partial F _ hl' heap own pa fig hf
  rw [← hz.length_eq, p1, p2, List.length_zip, p4, min_self]

/-- C84 with plotly, what is shown: one point for each peak that the plotted solution brings within the
tolerance of an atlas line, matched or not, with the distance from the solution to the nearest line; this is
the residual of a match exactly if no line is nearer to the solution than the matched one. -/
theorem C84_plotly_partial (F : FitEnv K) (s : Session K) (hl : UsesLibrary s true) (h : Heap K)
    (own : Option Nat) (a : FitPlotArgs K) (fig : FitFigure K) (hf : (s.plotFit F h own a).2 = .ok fig) :
    ∃ b co lines, s.basis = some b ∧ (∀ c, a.coeff = some c → co = c) ∧
      (a.coeff = none → s.world.cal.fitCoeff = some co) ∧ s.world.atlasLines = .ok lines ∧
      (∃ kept : List K, kept.Sublist s.world.cal.peaks ∧
        (∀ p ∈ s.world.cal.peaks, p ∈ kept ↔ ∃ l ∈ lines, |l - (F.kern b).polyval co p| < a.tolerance) ∧
        List.Forall₂ (fun p q => q.1 = (F.kern b).polyval co p ∧
          NearestOffset lines ((F.kern b).polyval co p) q.2 ∧
          ∀ v ∈ lines, (∀ l ∈ lines, l ≠ v →
              |v - (F.kern b).polyval co p| < |l - (F.kern b).polyval co p|) →
            q.2 = v - (F.kern b).polyval co p) kept fig.points) ∧
      fig.rms = (F.kern b).sqrt (((fig.points.map Prod.snd).map (fun d => d ^ 2)).sum /
        (fig.points.length : K)) := by
  obtain ⟨h1, _⟩ := usesLibrary_flags s true hl
  obtain ⟨b, co, nan, n, hb, hc, _, hm⟩ := plotFit_ok F h own s a fig hf
  obtain ⟨lines, pts, hat, hp, hne, rfl⟩ := drawPlotly_ok _ _ _ _ _ _ _ (hm h1)
  unfold Session.plotCoeff at hc
  have hnan : nan = false := by
    cases nan with
    | false => rfl
    | true =>
      exfalso
      rw [if_pos rfl] at hp
      have : ∀ ps pts, plotlyPoints (K := K) none lines a.tolerance
          (readable s.world.cal.props.pixelList n) ps = .ok pts → pts = [] := by
        intro ps
        induction ps with
        | nil => intro pts h; cases h; rfl
        | cons p t ih =>
          intro pts h
          rw [plotlyPoints] at h
          split at h
          · cases h
          · exact ih pts h
      exact hne (this _ _ hp)
  subst hnan
  refine ⟨b, co, lines, hb, ?_, ?_, hat, ?_, ?_⟩
  · intro c hac
    rw [hac] at hc
    cases hc; rfl
  · intro hac
    rw [hac] at hc
    dsimp only at hc
    cases hfc : s.world.cal.fitCoeff with
    | none => rw [hfc] at hc; cases hc
    | some c =>
      rw [hfc] at hc
      simp only [Except.ok.injEq, Prod.mk.injEq] at hc
      rw [hc.1]
  · obtain ⟨kept, k1, k2, k3⟩ := plotlyPoints_spec _ _ _ _ _ _ hp
    refine ⟨kept, k1, k2, k3.imp ?_⟩
    rintro p q ⟨e1, e2⟩
    refine ⟨e1, e2, ?_⟩
    intro v hv hnear
    obtain ⟨l, hl, hd, hmin⟩ := e2
    by_contra hne
    have hlv : l ≠ v := by
      rintro rfl
      exact hne hd
    have h4 := hnear l hl hlv
    have h5 := hmin v hv
    rw [hd] at h5
    exact absurd h4 (not_lt.2 h5)
  · unfold rmsOf
    simp

/-! ### C105 -/

/-- C105, what holds: a plotting call that returns has written its files first and then shown the figure,
once and exactly if `display` is set (whatever `return_jsonstring` says), with the renderer named unless it
is `default`; matplotlib returns the figure, plotly a json string if asked and None otherwise. -/
theorem C105_effects_partial (F : FitEnv K) (s : Session K) (plotly : Bool) (hl : UsesLibrary s plotly)
    (o : FigOpts) (ev : List PlotEvent) (out : PlotOut)
    (h : (∃ sp px, s.plotArc sp px o = .ok (ev, out)) ∨ (∃ cands, s.plotSearchSpace cands o = .ok (ev, out)) ∨
      (∃ heap own a fig, a.opts = o ∧ (s.plotFit F heap own a).2 = .ok fig ∧ fig.events = ev ∧ fig.out = out)) :
    (∃ names : List (List Char), ev = names.map .file ++ (if o.display then [.shown (if plotly = true ∧
        o.renderer ≠ "default".toList then some o.renderer else none)] else [])) ∧
    (plotly = false → out = .figure) ∧ (plotly = true → o.returnJson = true → out = .json) ∧
    (plotly = true → o.returnJson = false → out = .none) := by
  obtain ⟨h1, h2⟩ := usesLibrary_flags s plotly hl
  have key : ∃ base, (ev, out) = if plotly then finishPlotly base o else finishMatplotlib base o := by
    rcases h with ⟨sp, px, h⟩ | ⟨cands, h⟩ | ⟨heap, own, a, fig, ho, hf, rfl, rfl⟩
    · refine ⟨"rascal_arc".toList, ?_⟩
      unfold Session.plotArc at h
      split at h
      · cases h
      cases plotly with
      | false =>
        rw [if_pos (by simpa using h1)] at h
        split at h
        · split at h <;> cases h; rfl
        · split at h
          · cases h
          · split at h <;> cases h; rfl
      | true =>
        rw [if_neg (by simpa using h1), if_pos (h2 rfl)] at h
        split at h <;> cases h; rfl
    · refine ⟨"rascal_hough_search_space".toList, ?_⟩
      unfold Session.plotSearchSpace at h
      split at h
      · cases h
      cases plotly with
      | false => rw [if_pos (by simpa using h1)] at h; cases h; rfl
      | true => rw [if_neg (by simpa using h1), if_pos (h2 rfl)] at h; cases h; rfl
    · refine ⟨"rascal_solution".toList, ?_⟩
      obtain ⟨b, co, nan, n, _, _, hm, hp⟩ := plotFit_ok F heap own s a fig hf
      cases plotly with
      | false =>
        obtain ⟨_, _, _, _, _, _, _, rfl⟩ := drawMatplotlib_ok _ _ _ _ _ _ _ (hm h1)
        rw [ho]; rfl
      | true =>
        obtain ⟨_, _, _, _, _, rfl⟩ := drawPlotly_ok _ _ _ _ _ _ _ (hp h1)
        rw [ho]; rfl
  obtain ⟨base, hb⟩ := key
  cases plotly with
  | false =>
    have e1 : ev = (finishMatplotlib base o).1 := congrArg Prod.fst hb
    have e2 : out = (finishMatplotlib base o).2 := congrArg Prod.snd hb
    refine ⟨⟨savedFiles false base o, ?_⟩, fun _ => e2, fun h => (by cases h), fun h => (by cases h)⟩
    rw [e1]
    rfl
  | true =>
    have e1 : ev = (finishPlotly base o).1 := congrArg Prod.fst hb
    have e2 : out = (finishPlotly base o).2 := congrArg Prod.snd hb
    refine ⟨⟨savedFiles true base o, ?_⟩, fun h => (by cases h), ?_, ?_⟩
    · rw [e1]
      unfold finishPlotly
      by_cases hr : o.renderer = "default".toList <;> simp [hr]
    · intro _ hj; rw [e2]; unfold finishPlotly; rw [hj]; rfl
    · intro _ hj; rw [e2]; unfold finishPlotly; rw [hj]; rfl

/-! ### C106 -/

/-- C106, what holds: when `plot_arc` returns.  With matplotlib: without a spectrum if a pixel list is given
and there are peaks, otherwise if the spectrum is a non-empty numpy array as long as the pixel list given, if
one is.  With plotly: if the spectrum is a non-empty numpy array. -/
theorem C106_returns_partial (s : Session K) (plotly : Bool) (hl : UsesLibrary s plotly)
    (sp : Option (SpecArr K)) (px : Option (List K)) (o : FigOpts) :
    (∃ r, s.plotArc sp px o = .ok r) ↔
      (plotly = false ∧ sp = none ∧ px ≠ none ∧ s.world.cal.peaks ≠ []) ∨
      ∃ a, sp = some a ∧ a.kind ≠ .pyList ∧ a.vals ≠ [] ∧
        (plotly = false → ∀ l, px = some l → l.length = a.vals.length) := by
  obtain ⟨h1, h2⟩ := usesLibrary_flags s plotly hl
  unfold Session.plotArc
  cases sp with
  | none =>
    cases px with
    | none => simp
    | some l =>
      cases plotly with
      | false =>
        rw [if_neg (by simp), if_pos (by simpa using h1)]
        dsimp only
        by_cases hp : s.world.cal.peaks = [] <;> simp [hp]
      | true =>
        rw [if_neg (by simp), if_neg (by simpa using h1), if_pos (h2 rfl)]
        simp [normalisable]
  | some a =>
    rw [if_neg (by simp)]
    cases plotly with
    | false =>
      rw [if_pos (by simpa using h1)]
      unfold normalisable
      by_cases hk : a.kind = .pyList
      · simp [hk]
      · by_cases hv : a.vals = []
        · simp [hk, hv]
        · cases px with
          | none => simp [hk, hv]
          | some l =>
            by_cases hlen : l.length = a.vals.length <;> simp [hk, hv, hlen]
    | true =>
      rw [if_neg (by simpa using h1), if_pos (h2 rfl)]
      unfold normalisable
      by_cases hk : a.kind = .pyList
      · simp [hk]
      · by_cases hv : a.vals = [] <;> simp [hk, hv]

/-! ### C107 -/

/-- C107: straight after a successful fit `plot_fit()` without a spectrum draws the figure with matplotlib,
showing every match; with plotly it does so exactly if the solution brings some peak within `tolerance` of
an atlas line, and raises ValueError otherwise. -/
theorem C107_plot_after_fit (F : FitEnv K) (ha : IsArgsort F.argsortK) (s : Session K)
    (hp : SearchSpaceCurrent s.world) (a : FitArgs K) (arr : Bool) (rnd : FitRandom K) (r : FitReport K)
    (h : (s.fit F a arr rnd).2 = .done (.ok r)) (hco : r.coeffs ≠ [])
    (heap : Heap K) (pa : FitPlotArgs K) (hc : pa.coeff = none) (hs : pa.spectrum = none) :
    (UsesLibrary s false → ∃ fig, (s.fit F a arr rnd).1.plotFit F heap none pa = (heap, .ok fig) ∧
      fig.points.map Prod.fst = r.matchedPeaks.map ((F.kern a.fitType).polyval r.coeffs)) ∧
    (UsesLibrary s true → ∃ lines, s.world.atlasLines = .ok lines ∧
      ((∃ p ∈ s.world.cal.peaks, ∃ l ∈ lines,
          |l - (F.kern a.fitType).polyval r.coeffs p| < pa.tolerance) →
        ∃ fig, (s.fit F a arr rnd).1.plotFit F heap none pa = (heap, .ok fig)) ∧
      ((¬ ∃ p ∈ s.world.cal.peaks, ∃ l ∈ lines,
          |l - (F.kern a.fitType).polyval r.coeffs p| < pa.tolerance) →
        (s.fit F a arr rnd).1.plotFit F heap none pa = (heap, .error .valueError))) := by
  have hw : (s.world.fit F a rnd).2 = .done (.ok r) := h
  obtain ⟨lines, hat0, hat, hon⟩ := fit_on_lines F ha s.world hp a rnd r hw
  obtain ⟨p1, p2, p3, p4, p5⟩ := fit_pairs F ha s a arr rnd r h
  obtain ⟨_, t2, t3, t4, _⟩ := fit_types F ha s a arr rnd r h
  have hprops : (s.fit F a arr rnd).1.world.cal.props = s.world.cal.props :=
    (fit_frame F s.world a rnd).1.props
  have hpk : (s.fit F a arr rnd).1.world.cal.peaks = s.world.cal.peaks :=
    (fit_frame F s.world a rnd).1.peaks
  have hat' : (s.fit F a arr rnd).1.world.atlasLines = .ok lines := hat
  have hlines : lines ≠ [] := by
    intro he
    have hlen : 0 < r.matchedAtlas.length := by omega
    have := hon _ (List.getElem_mem hlen)
    rw [he] at this
    cases this
  generalize (s.fit F a arr rnd).1 = s' at *
  have hdraw : s'.plotFit F heap none pa = (heap, s'.drawFit F none pa) := by
    unfold Session.plotFit
    rw [hs]
    rfl
  have hcoeff : s'.plotCoeff pa = .ok (r.coeffs, false) := by
    unfold Session.plotCoeff
    rw [hc, p3, t3]
    rfl
  have hread : readable s'.world.cal.props.pixelList none = fun _ => true := rfl
  constructor
  · intro hl
    obtain ⟨h1, _⟩ := usesLibrary_flags s false hl
    rw [← hprops] at h1
    obtain ⟨pts, hpts, hlen⟩ := matplotlibPoints_total ((F.kern a.fitType).polyval r.coeffs) lines hlines
      (r.matchedPeaks.zip r.matchedAtlas)
    have hne : pts ≠ [] := by
      intro he
      rw [he, List.length_zip] at hlen
      simp at hlen
      omega
    refine ⟨⟨pts, rmsOf (F.kern a.fitType) (pts.map Prod.snd),
      (finishMatplotlib "rascal_solution".toList pa.opts).1,
      (finishMatplotlib "rascal_solution".toList pa.opts).2⟩, ?_, ?_⟩
    · rw [hdraw]
      unfold Session.drawFit
      rw [t4, hcoeff]
      dsimp only
      rw [if_neg hco, if_pos (by simpa using h1)]
      unfold Session.drawMatplotlib
      dsimp only
      rw [hread, if_neg (by simp), if_neg (by simp), if_neg (by rw [t2]; decide), hat', p1, p2]
      dsimp only
      rw [hpts]
      dsimp only
      rw [if_neg (by simp)]
      unfold figureOf
      rw [if_neg hne]
    · have hf := matplotlibPoints_spec _ _ _ _ _ hpts
      have : ∀ (ms pts : List (K × K)), List.Forall₂ (fun e q => q.1 = (F.kern a.fitType).polyval r.coeffs e.1 ∧
          NearestOffset lines e.2 q.2) ms pts →
          pts.map Prod.fst = (ms.map Prod.fst).map ((F.kern a.fitType).polyval r.coeffs) := by
        intro ms pts h
        induction h with
        | nil => rfl
        | cons h1 _ ih => simp only [List.map_cons, h1.1, ih]
      show pts.map Prod.fst = _
      rw [this _ _ hf, List.map_fst_zip (by omega)]
  · intro hl
    obtain ⟨h1, h2⟩ := usesLibrary_flags s true hl
    rw [← hprops] at h1 h2
    refine ⟨lines, hat0, ?_⟩
    obtain ⟨pts, hpts⟩ := plotlyPoints_total ((F.kern a.fitType).polyval r.coeffs) lines pa.tolerance hlines
      s.world.cal.peaks
    have hd : s'.drawFit F none pa = figureOf (F.kern a.fitType) pts
        (finishPlotly "rascal_solution".toList pa.opts) := by
      unfold Session.drawFit
      rw [t4, hcoeff]
      dsimp only
      rw [if_neg hco, if_neg (by simpa using h1), if_pos (h2 rfl)]
      unfold Session.drawPlotly
      dsimp only
      rw [hread, hat', hpk]
      dsimp only
      rw [if_neg (by simp), hpts]
    obtain ⟨kept, k1, k2, k3⟩ := plotlyPoints_spec _ _ _ _ _ _ hpts
    rw [hdraw, hd]
    unfold figureOf
    constructor
    · rintro ⟨p, hp, hl⟩
      have := (k2 p hp).2 hl
      have hne : pts ≠ [] := by
        intro he
        rw [he] at k3
        cases k3
        cases this
      rw [if_neg hne]
      exact ⟨_, rfl⟩
    · intro hn
      have hk : kept = [] := by
        cases kept with
        | nil => rfl
        | cons p t =>
          have hm := k1.subset (List.mem_cons_self (a := p) (l := t))
          exact absurd ⟨p, hm, (k2 p hm).1 List.mem_cons_self⟩ hn
      rw [hk] at k3
      cases k3
      rfl

end

/-! ### refutations and examples -/

set_option synthInstance.maxSize 2000
set_option synthInstance.maxHeartbeats 400000

/-- The expected behaviour: plotting changes no data. -/
def C83_Statement : Prop :=
  ∀ (F : FitEnv ℚ) (h : Heap ℚ) (own : Option Nat) (s : Session ℚ) (a : FitPlotArgs ℚ),
    (s.plotFit F h own a).1 = h

/-- The small calibrator of `Toy` with either library. -/
def Toy.plotSession (plotly : Bool) : Option (Session ℚ) :=
  (Toy.twoSession false).map (fun s => if plotly then (s.step Toy.calEnv .usePlotly).1 else s)

theorem Toy.plotSession_some (pl : Bool) : ∃ s, Toy.plotSession pl = some s ∧ UsesLibrary s pl := by
  have hc : (Toy.plotSession pl).map (fun s => decide (s.world.cal.props.whichLibrary =
      some (if pl then .plotly else .matplotlib))) = some true := by
    cases pl <;> decide +kernel
  cases hs : Toy.plotSession pl with
  | none => rw [hs] at hc; simp at hc
  | some s =>
    rw [hs] at hc
    simp only [Option.map_some, Option.some.injEq, decide_eq_true_eq] at hc
    exact ⟨s, rfl, hc⟩

/-- Plotting on a logarithmic scale replaces the count -1 in the calibrator's spectrum. -/
theorem C83_refuted : ¬ C83_Statement := by
  intro h
  obtain ⟨s, -, -⟩ := Toy.plotSession_some false
  have h1 := h Toy.env (fun _ => ⟨.floatArray, [.fin (-1), .fin 2]⟩) (some 0) s { tolerance := 5, log := true }
  have h2 := (C83_only_negatives_partial Toy.env (fun _ => ⟨.floatArray, [.fin (-1), .fin 2]⟩) (some 0) s
    { tolerance := 5, log := true }).2.2.2 0 (by decide) rfl (.inr ⟨rfl, rfl⟩)
  rw [h1] at h2
  have h3 := ((List.forall₂_cons).1 h2.2).1.1 (.inr ⟨-1, rfl, by norm_num⟩)
  rw [PyFloat.fin.injEq, if_neg (by decide)] at h3
  norm_num at h3

/-- A case for `C83_only_negatives_partial`: an integer array given as argument loses its negative count although the
call raises (there has been no fit); the calibrator's own spectrum stays. -/
example : (Toy.plotSession false).map (fun s =>
    let h : Heap ℚ := fun i => if i = 0 then ⟨.floatArray, [.fin (-1)]⟩ else ⟨.intArray, [.fin (-3), .fin 7]⟩
    let r := s.plotFit Toy.env h (some 0) { tolerance := 5, log := true, spectrum := some 1 }
    ((r.1 0).vals, (r.1 1).vals, r.2.toOption.isSome)) =
    some ([.fin (-1)], [.fin 0, .fin 7], false) := by
  decide +kernel

/-- A case for `C83_nonnegative_partial`: zero and positive counts stay. -/
example : (Toy.plotSession false).map (fun s =>
    ((s.plotFit Toy.env (fun _ => ⟨.floatArray, [.fin 0, .fin 2, .nan]⟩) (some 0) { tolerance := 5, log := true }).1 0).vals) =
    some [.fin 0, .fin 2, .nan] := by
  decide +kernel

/-- A case for `C83_constructor_copy_partial`. -/
example : (Toy.plotSession false).map (fun s =>
    let h : Heap ℚ := fun _ => ⟨.floatArray, [.fin (-1), .fin 2]⟩
    let c := h.copySpectrum (some 0) 1
    let r := s.plotFit Toy.env c.1 c.2 { tolerance := 5, log := true }
    ((r.1 0).vals, (r.1 1).vals)) =
    some ([.fin (-1), .fin 2], [.fin (1 / 10 ^ 100), .fin 2]) := by
  decide +kernel

/-- The expected behaviour: the residual panel shows the residuals of the matches. -/
def C84_Statement : Prop :=
  ∀ (F : FitEnv ℚ) (s : Session ℚ) (a : FitArgs ℚ) (arr : Bool) (rnd : FitRandom ℚ) (r : FitReport ℚ),
    IsArgsort F.argsortK → (s.fit F a arr rnd).2 = .done (.ok r) → UsesLibrary s false →
    ∀ (heap : Heap ℚ) (own : Option Nat) (pa : FitPlotArgs ℚ) (fig : FitFigure ℚ), pa.coeff = none →
      ((s.fit F a arr rnd).1.plotFit F heap own pa).2 = .ok fig →
      fig.points.map Prod.snd = List.zipWith (fun p l => l - (F.kern a.fitType).polyval r.coeffs p)
        r.matchedPeaks r.matchedAtlas

/-- The six peaks of C104 as a session. -/
def Toy.sixSession : Option (Session ℚ) := Toy.sixPeaks.toOption.map (fun w => Session.new w false)

/-- Plotting the fit of six peaks, whose residuals reach 5.7, shows six zeros. -/
theorem C84_refuted : ¬ C84_Statement := by
  intro h
  have hc : Toy.sixSession.map (fun s =>
      let t := s.fit Toy.env Toy.sixArgs false Toy.sixRnd
      ((Toy.sessionReport t).map (fun r => List.zipWith (fun p l => l - Toy.kern.polyval r.coeffs p)
        r.matchedPeaks r.matchedAtlas),
       (t.1.plotFit Toy.env (fun _ => ⟨.pyList, []⟩) none { tolerance := 5 }).2.toOption.map
        (fun fig => fig.points.map Prod.snd), decide (s.world.cal.props.whichLibrary = some .matplotlib))) =
      some (some [-3136 / 887, 100891 / 17740, 931 / 4435, -931 / 3548, -50911 / 8870, 32291 / 8870],
        some [0, 0, 0, 0, 0, 0], true) := by
    decide +kernel
  cases hs : Toy.sixSession with
  | none => rw [hs] at hc; simp at hc
  | some s =>
    rw [hs] at hc
    simp only [Option.map_some, Option.some.injEq, Prod.mk.injEq, Option.map_eq_some_iff,
      decide_eq_true_eq] at hc
    obtain ⟨⟨r, hr, h1⟩, ⟨fig, hfig, h2⟩, h3⟩ := hc
    have hok : ((s.fit Toy.env Toy.sixArgs false Toy.sixRnd).1.plotFit Toy.env
        (fun _ => ⟨.pyList, []⟩) none { tolerance := 5 }).2 = .ok fig := by
      cases he : ((s.fit Toy.env Toy.sixArgs false Toy.sixRnd).1.plotFit Toy.env
        (fun _ => ⟨.pyList, []⟩) none { tolerance := 5 }).2 with
      | error e => rw [he] at hfig; cases hfig
      | ok f => rw [he] at hfig; cases hfig; rfl
    have h4 := h _ s _ _ _ r stableArgsort_isArgsort (Toy.sessionReport_some hr) h3 _ _ _ fig rfl hok
    have h5 : List.zipWith (fun p l => l - (Toy.env.kern Toy.sixArgs.fitType).polyval r.coeffs p)
        r.matchedPeaks r.matchedAtlas =
      [-3136 / 887, 100891 / 17740, 931 / 4435, -931 / 3548, -50911 / 8870, 32291 / 8870] := h1
    rw [h5, h2] at h4
    exact absurd h4 (by decide +kernel)

/-- A case for the C84 and C107 theorems, `C105_effects_partial` and `C82_files` with plotly: the two peaks beyond the tolerance are left out, with
a small tolerance nothing is left and the call raises; the figure is saved in two formats and shown. -/
example : Toy.sixSession.map (fun s =>
    let t := ((s.step Toy.calEnv .usePlotly).1.fit Toy.env Toy.sixArgs false Toy.sixRnd).1
    let o : FigOpts := { saveFig := true, figType := "png+gif+iframe".toList, returnJson := true }
    ((t.plotFit Toy.env (fun _ => ⟨.pyList, []⟩) none { tolerance := 5, opts := o }).2.toOption.map
      (fun fig => (fig.points.map Prod.snd, fig.events, fig.out)),
     (t.plotFit Toy.env (fun _ => ⟨.pyList, []⟩) none { tolerance := 1 / 10 }).2.toOption.isSome)) =
    some (some ([-3136 / 887, 931 / 4435, -931 / 3548, 32291 / 8870],
      [.file "rascal_solution.png".toList, .file "rascal_solution.iframe".toList, .shown none], .json),
      false) := by
  decide +kernel

/-- The expected behaviour: every documented format is written. -/
def C105_formats_Statement : Prop :=
  ∀ (s : Session ℚ) (pl : Bool), UsesLibrary s pl → ∀ (o : FigOpts) sp px r, s.plotArc sp px o = .ok r →
    o.saveFig = true → ∀ t, FieldOf '+' t o.figType → Documented t →
    (o.filename.getD "rascal_arc".toList ++ '.' :: t) ∈ filesOf r.1

/-- With matplotlib no iframe is written. -/
theorem C105_formats_refuted : ¬ C105_formats_Statement := by
  intro h
  obtain ⟨s, -, hl⟩ := Toy.plotSession_some false
  let o : FigOpts := { saveFig := true, figType := "iframe".toList }
  obtain ⟨r, hr⟩ := (C106_returns_partial s false hl (some ⟨.floatArray, [.fin 1]⟩) none o).2
    (.inr ⟨_, rfl, by decide, by simp, by simp⟩)
  have hf : FieldOf '+' "iframe".toList o.figType := (mem_pySplit _ _ _).1 (by decide)
  have h1 := h s false hl o _ _ r hr rfl _ hf (.inr (.inr (.inr (.inr ⟨rfl, rfl⟩))))
  have h2 := (((C82_files Toy.env s false hl o).1 _ _ r hr).1 _).1 h1
  obtain ⟨-, t, ht, hsup, hname⟩ := h2
  have ht' : t = "iframe".toList := by
    have := List.append_cancel_left hname
    simpa using this.symm
  subst ht'
  rcases hsup with h | h | h | h | ⟨h, -⟩
  · revert h; decide
  · revert h; decide
  · revert h; decide
  · revert h; decide
  · cases h

/-- The expected behaviour: a filename that has the extension is used as it is. -/
def C105_extension_Statement : Prop :=
  ∀ (s : Session ℚ) (pl : Bool), UsesLibrary s pl → ∀ (o : FigOpts) sp px r, s.plotArc sp px o = .ok r →
    o.saveFig = true → o.figType = "png".toList → ∀ n, o.filename = some (n ++ ".png".toList) →
    (n ++ ".png".toList) ∈ filesOf r.1

/-- The name `arc.png` becomes `arc.png.png`. -/
theorem C105_extension_refuted : ¬ C105_extension_Statement := by
  intro h
  obtain ⟨s, -, hl⟩ := Toy.plotSession_some false
  let o : FigOpts := { saveFig := true, filename := some ("arc".toList ++ ".png".toList) }
  obtain ⟨r, hr⟩ := (C106_returns_partial s false hl (some ⟨.floatArray, [.fin 1]⟩) none o).2
    (.inr ⟨_, rfl, by decide, by simp, by simp⟩)
  have h1 := h s false hl o _ _ r hr rfl rfl _ rfl
  obtain ⟨-, t, -, -, hname⟩ := (((C82_files Toy.env s false hl o).1 _ _ r hr).1 _).1 h1
  have := congrArg List.length hname
  simp [o] at this

/-- The expected behaviour: with `return_jsonstring` nothing is displayed. -/
def C105_json_Statement : Prop :=
  ∀ (s : Session ℚ), UsesLibrary s true → ∀ (o : FigOpts) sp px r, s.plotArc sp px o = .ok r →
    o.returnJson = true → ∀ e ∈ r.1, ∃ n, e = .file n

/-- With the default `display` the figure is shown as well. -/
theorem C105_json_refuted : ¬ C105_json_Statement := by
  intro h
  obtain ⟨s, -, hl⟩ := Toy.plotSession_some true
  let o : FigOpts := { returnJson := true }
  obtain ⟨r, hr⟩ := (C106_returns_partial s true hl (some ⟨.floatArray, [.fin 1]⟩) none o).2
    (.inr ⟨_, rfl, by decide, by simp, by simp⟩)
  have h1 := h s hl o _ _ r hr rfl
  obtain ⟨⟨names, hn⟩, -⟩ := C105_effects_partial Toy.env s true hl o r.1 r.2 (.inl ⟨_, _, hr⟩)
  obtain ⟨n, hn'⟩ := h1 (.shown none) (by rw [hn]; simp [o])
  cases hn'

/-- The expected behaviour: a spectrum may be given as a list, as documented. -/
def C106_Statement : Prop :=
  ∀ (s : Session ℚ) (pl : Bool), UsesLibrary s pl → ∀ (sp : SpecArr ℚ), sp.vals ≠ [] →
    ∃ r, s.plotArc (some sp) none {} = .ok r

/-- A list has no maximum. -/
theorem C106_refuted : ¬ C106_Statement := by
  intro h
  obtain ⟨s, -, hl⟩ := Toy.plotSession_some false
  rcases (C106_returns_partial s false hl _ _ _).1 (h s false hl ⟨.pyList, [.fin 1]⟩ (by simp)) with
    ⟨-, h1, -⟩ | ⟨a, h1, h2, -⟩
  · cases h1
  · cases h1; exact h2 rfl

/-- Cases for C106: both libraries plot an array, only matplotlib plots peaks alone, and only with a pixel
list. -/
example : (Toy.plotSession false).bind (fun s => (Toy.plotSession true).map (fun t =>
    ((s.plotArc (some ⟨.intArray, [.fin 1, .fin 2]⟩) none {}).toOption,
     (t.plotArc (some ⟨.intArray, [.fin 1, .fin 2]⟩) none {}).toOption,
     (s.plotArc none (some [0, 1]) { display := false }).toOption,
     (t.plotArc none (some [0, 1]) {}).toOption, (s.plotArc none none {}).toOption))) =
    some (some ([.shown none], .figure), some ([.shown none], .none), some ([], .figure), none, none) := by
  decide +kernel

end Rascal
