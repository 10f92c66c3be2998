import Verif.Model.Plot
import Verif.Spec.Plot
import Verif.Props.HoughIOProps
import Verif.Props.AfterFitProps

/-! Property theorems C82, C83, C84, C105, C106 and C107: plotting.

Concrete cases for the theorems of this file are in `Verif.Props.PlotFitProps`, after the toy session.
-/

set_option linter.unusedSectionVars false

namespace Rascal

open Spec

/-! ### fields of a string -/

theorem pySplitGo_clean (c : Char) (s cur : List Char) (h : c ∉ cur) :
    ∀ q ∈ pySplitGo [c] 0 cur s, c ∉ q := by
  induction s generalizing cur with
  | nil => intro q hq; simp [pySplitGo] at hq; subst hq; exact h
  | cons x t ih =>
    intro q hq
    rw [pySplitGo] at hq
    split at hq
    · simp only [List.length_singleton, Nat.sub_self, List.mem_cons] at hq
      rcases hq with rfl | hq
      · exact h
      · exact ih [] (by simp) q hq
    · rename_i hx
      refine ih _ ?_ q hq
      simp only [List.isPrefixOf, Bool.and_true, beq_iff_eq] at hx
      simp only [List.mem_append, List.mem_singleton, not_or]
      exact ⟨h, hx⟩

theorem joinWith_append {α : Type _} (d : List α) (a b : List (List α)) (ha : a ≠ []) (hb : b ≠ []) :
    joinWith d (a ++ b) = joinWith d a ++ d ++ joinWith d b := by
  induction a with
  | nil => exact absurd rfl ha
  | cons p a ih =>
    cases a with
    | nil =>
      obtain ⟨q, t, rfl⟩ := List.exists_cons_of_ne_nil hb
      rfl
    | cons r a =>
      have := ih (by simp)
      simp only [List.cons_append, joinWith] at this ⊢
      rw [this]
      simp

/-- The parts of a string split at a character are its fields. -/
theorem mem_pySplit (c : Char) (s t : List Char) : t ∈ pySplitGo [c] 0 [] s ↔ FieldOf c t s := by
  have hj := pySplitGo_joinWith [c] (by simp) s [] 0
  rw [List.drop_zero, List.nil_append] at hj
  constructor
  · intro ht
    refine ⟨pySplitGo_clean c s [] (by simp) t ht, ?_⟩
    obtain ⟨a, b, hab⟩ := List.append_of_mem ht
    rw [hab] at hj
    rw [← hj]
    by_cases ha : a = []
    · subst ha
      by_cases hb : b = []
      · subst hb; exact ⟨[], [], by simp [joinWith], .inl rfl, .inl rfl⟩
      · refine ⟨[], c :: joinWith [c] b, ?_, .inl rfl, .inr ⟨_, rfl⟩⟩
        have := joinWith_append [c] [t] b (by simp) hb
        simp only [List.cons_append, List.nil_append] at this ⊢
        rw [this]; simp [joinWith]
    · have h1 := joinWith_append [c] a (t :: b) ha (by simp)
      by_cases hb : b = []
      · subst hb
        refine ⟨joinWith [c] a ++ [c], [], ?_, .inr ⟨_, rfl⟩, .inl rfl⟩
        rw [h1]; simp [joinWith]
      · refine ⟨joinWith [c] a ++ [c], c :: joinWith [c] b, ?_, .inr ⟨_, rfl⟩, .inr ⟨_, rfl⟩⟩
        have h2 := joinWith_append [c] [t] b (by simp) hb
        simp only [List.cons_append, List.nil_append] at h2
        rw [h1, h2]; simp [joinWith]
  · rintro ⟨hc, pre, post, hs, hpre, hpost⟩
    have hpa : ∃ a : List (List Char), (∀ q ∈ a, c ∉ q) ∧ ∀ b, b ≠ [] →
        joinWith [c] (a ++ b) = pre ++ joinWith [c] b := by
      rcases hpre with rfl | ⟨p, rfl⟩
      · exact ⟨[], by simp, by simp⟩
      · refine ⟨pySplitGo [c] 0 [] p, pySplitGo_clean c p [] (by simp), ?_⟩
        intro b hb
        rw [joinWith_append _ _ _ (pySplitGo_ne_nil _ _ _ _) hb, pySplitGo_joinWith [c] (by simp)]
        simp
    have hpb : ∃ b : List (List Char), (∀ q ∈ b, c ∉ q) ∧ joinWith [c] (t :: b) = t ++ post := by
      rcases hpost with rfl | ⟨q, rfl⟩
      · exact ⟨[], by simp, by simp [joinWith]⟩
      · refine ⟨pySplitGo [c] 0 [] q, pySplitGo_clean c q [] (by simp), ?_⟩
        have h2 := joinWith_append [c] [t] _ (by simp) (pySplitGo_ne_nil [c] 0 [] q)
        simp only [List.cons_append, List.nil_append] at h2
        rw [h2, pySplitGo_joinWith [c] (by simp)]
        simp [joinWith]
    obtain ⟨a, ha, haj⟩ := hpa
    obtain ⟨b, hb, hbj⟩ := hpb
    have hall : joinWith [c] (a ++ t :: b) = s := by rw [haj _ (by simp), hbj, hs]; simp
    have hsp := pySplit_join c (a ++ t :: b) (by simp) (by
      intro q hq
      simp only [List.mem_append, List.mem_cons] at hq
      rcases hq with hq | rfl | hq
      · exact ha q hq
      · exact hc
      · exact hb q hq)
    rw [hall] at hsp
    unfold pySplit at hsp
    rw [if_neg (by simp)] at hsp
    rw [Except.ok.inj hsp]
    simp

/-! ### C82 -/

/-- The files among the effects of a call. -/
def filesOf (ev : List PlotEvent) : List (List Char) :=
  ev.filterMap (fun e => match e with
    | .file n => some n
    | .shown _ => none)

theorem filesOf_events (l : List (List Char)) (r : Option (Option (List Char))) :
    filesOf (l.map PlotEvent.file ++ r.toList.map PlotEvent.shown) = l := by
  induction l with
  | nil => cases r <;> rfl
  | cons x l ih => simp only [filesOf, List.map_cons, List.cons_append, List.filterMap_cons] at ih ⊢; rw [ih]

theorem filesOf_matplotlib (base : List Char) (o : FigOpts) :
    filesOf (finishMatplotlib base o).1 = savedFiles false base o := by
  have := filesOf_events (savedFiles false base o) (if o.display then some none else none)
  unfold finishMatplotlib
  generalize savedFiles false base o = l at this ⊢
  cases hd : o.display <;> rw [hd] at this <;> exact this

theorem filesOf_plotly (base : List Char) (o : FigOpts) :
    filesOf (finishPlotly base o).1 = savedFiles true base o := by
  have := filesOf_events (savedFiles true base o)
    (if o.display then some (if o.renderer = "default".toList then none else some o.renderer) else none)
  unfold finishPlotly
  generalize savedFiles true base o = l at this ⊢
  cases hd : o.display <;> rw [hd] at this <;> exact this

/-- The files a call with these options has to write. -/
def RightFiles (plotly : Bool) (base : List Char) (o : FigOpts) (ev : List PlotEvent) : Prop :=
  (∀ name, name ∈ filesOf ev ↔ o.saveFig = true ∧ ∃ t, FieldOf '+' t o.figType ∧ Supported plotly t ∧
    name = o.filename.getD base ++ '.' :: t) ∧
  (o.saveFig = true → ∀ parts, parts ≠ [] → (∀ q ∈ parts, '+' ∉ q) → o.figType = joinWith ['+'] parts →
    ∃ kept : List (List Char), kept.Sublist parts ∧ (∀ t ∈ parts, t ∈ kept ↔ Supported plotly t) ∧
      filesOf ev = kept.map (fun t => o.filename.getD base ++ '.' :: t))

theorem supported_iff (plotly : Bool) (t : List Char) :
    ((plotly && decide (t = "iframe".toList)) || decide (t ∈ imageFormats)) = true ↔
      Supported plotly t := by
  simp only [Bool.or_eq_true, Bool.and_eq_true, decide_eq_true_eq, imageFormats, List.mem_cons,
    List.not_mem_nil, or_false, Supported]
  constructor
  · rintro (⟨h1, h2⟩ | h | h | h | h)
    · exact .inr (.inr (.inr (.inr ⟨h1, h2⟩)))
    · exact .inl h
    · exact .inr (.inl h)
    · exact .inr (.inr (.inl h))
    · exact .inr (.inr (.inr (.inl h)))
  · rintro (h | h | h | h | ⟨h1, h2⟩)
    · exact .inr (.inl h)
    · exact .inr (.inr (.inl h))
    · exact .inr (.inr (.inr (.inl h)))
    · exact .inr (.inr (.inr (.inr h)))
    · exact .inl ⟨h1, h2⟩

theorem savedFiles_right (plotly : Bool) (base : List Char) (o : FigOpts) (ev : List PlotEvent)
    (h : filesOf ev = savedFiles plotly base o) : RightFiles plotly base o ev := by
  unfold RightFiles
  rw [h]
  unfold savedFiles
  constructor
  · intro name
    cases hs : o.saveFig with
    | false => simp
    | true =>
      have hsp : pySplit o.figType "+".toList = .ok (pySplitGo ['+'] 0 [] o.figType) := rfl
      rw [hsp]
      simp only [if_true, List.mem_map, List.mem_filter, supported_iff, true_and]
      constructor
      · rintro ⟨t, ⟨h1, h2⟩, rfl⟩
        exact ⟨t, (mem_pySplit _ _ _).1 h1, h2, by simp⟩
      · rintro ⟨t, h1, h2, rfl⟩
        exact ⟨t, ⟨(mem_pySplit _ _ _).2 h1, h2⟩, by simp⟩
  · intro hs parts hne hq hp
    have hsp : pySplit o.figType "+".toList = .ok parts := by
      rw [hp]; exact pySplit_join '+' parts hne hq
    rw [if_pos hs, hsp]
    refine ⟨parts.filter (fun t => (plotly && decide (t = "iframe".toList)) || decide (t ∈ imageFormats)),
      List.filter_sublist, ?_, ?_⟩
    · intro t ht
      rw [List.mem_filter, supported_iff]
      simp [ht]
    · simp

section
variable {K : Type _} [Field K] [LinearOrder K] [IsStrictOrderedRing K] [FloorRing K]

/-- The library in use, as `which_plotting_library` reports it: matplotlib (`false`) or plotly (`true`). -/
def UsesLibrary (s : Session K) (plotly : Bool) : Prop :=
  s.world.cal.props.whichLibrary = some (if plotly then .plotly else .matplotlib)

theorem usesLibrary_flags (s : Session K) (pl : Bool) (h : UsesLibrary s pl) :
    s.world.cal.props.plotMatplotlib = !pl ∧ (pl = true → s.world.cal.props.plotPlotly = true) := by
  unfold UsesLibrary CalProps.whichLibrary at h
  cases pl <;> cases h1 : s.world.cal.props.plotMatplotlib <;> cases h2 : s.world.cal.props.plotPlotly <;>
    simp_all

theorem drawMatplotlib_ok (k : Kernels K) (s : Session K) (co : List K) (nan : Bool) (n : Option Nat)
    (a : FitPlotArgs K) (fig : FitFigure K) (h : s.drawMatplotlib k co nan n a = .ok fig) :
    ∃ lines pts, s.world.atlasLines = .ok lines ∧ s.atlasKind ≠ .absent ∧ nan = false ∧
      matplotlibPoints (k.polyval co) lines (readable s.world.cal.props.pixelList n)
        (s.world.cal.matchedPeaks.zip s.world.cal.matchedAtlas) = .ok pts ∧ pts ≠ [] ∧
      fig = ⟨pts, rmsOf k (pts.map Prod.snd), (finishMatplotlib "rascal_solution".toList a.opts).1,
        (finishMatplotlib "rascal_solution".toList a.opts).2⟩ := by
  unfold Session.drawMatplotlib at h
  dsimp only at h
  split at h
  · cases h
  split at h
  · cases h
  split at h
  · split at h
    · split at h <;> cases h
    · cases h
  · rename_i hk
    split at h
    · split at h <;> cases h
    · rename_i lines hl
      split at h
      · cases h
      · rename_i pts hp
        split at h
        · cases h
        · rename_i hn
          unfold figureOf at h
          split at h
          · cases h
          · rename_i hpt
            cases h
            exact ⟨lines, pts, hl, hk, by simpa using hn, hp, hpt, rfl⟩

theorem drawPlotly_ok (k : Kernels K) (s : Session K) (co : List K) (nan : Bool) (n : Option Nat)
    (a : FitPlotArgs K) (fig : FitFigure K) (h : s.drawPlotly k co nan n a = .ok fig) :
    ∃ lines pts, s.world.atlasLines = .ok lines ∧
      plotlyPoints (if nan then none else some (k.polyval co)) lines a.tolerance
        (readable s.world.cal.props.pixelList n) s.world.cal.peaks = .ok pts ∧ pts ≠ [] ∧
      fig = ⟨pts, rmsOf k (pts.map Prod.snd), (finishPlotly "rascal_solution".toList a.opts).1,
        (finishPlotly "rascal_solution".toList a.opts).2⟩ := by
  unfold Session.drawPlotly at h
  dsimp only at h
  split at h
  · split at h <;> cases h
  · rename_i lines hl
    split at h
    · cases h
    · rename_i pts hp
      unfold figureOf at h
      split at h
      · cases h
      · rename_i hpt
        cases h
        exact ⟨lines, pts, hl, hp, hpt, rfl⟩

/-- What a successful `plot_fit` has passed. -/
theorem plotFit_ok (F : FitEnv K) (h : Heap K) (own : Option Nat) (s : Session K) (a : FitPlotArgs K)
    (fig : FitFigure K) (hf : (s.plotFit F h own a).2 = .ok fig) :
    ∃ b co nan n, s.basis = some b ∧ s.plotCoeff a = .ok (co, nan) ∧
      (s.world.cal.props.plotMatplotlib = true → s.drawMatplotlib (F.kern b) co nan n a = .ok fig) ∧
      (s.world.cal.props.plotMatplotlib = false → s.drawPlotly (F.kern b) co nan n a = .ok fig) := by
  unfold Session.plotFit at hf
  dsimp only at hf
  cases hp : (prepareSpectrum h (if a.spectrum.isSome = true then a.spectrum else own) a.log).2 with
  | error e => rw [hp] at hf; cases hf
  | ok u =>
    rw [hp] at hf
    dsimp only at hf
    generalize Option.map (fun i => (h i).vals.length) (if a.spectrum.isSome = true then a.spectrum else own)
      = n at hf
    unfold Session.drawFit at hf
    cases hb : s.basis with
    | none => rw [hb] at hf; cases hf
    | some b =>
      rw [hb] at hf
      dsimp only at hf
      cases hc : s.plotCoeff a with
      | error e => rw [hc] at hf; cases hf
      | ok cn =>
        obtain ⟨co, nan⟩ := cn
        rw [hc] at hf
        dsimp only at hf
        by_cases hco : co = []
        · rw [if_pos hco] at hf; cases hf
        · rw [if_neg hco] at hf
          refine ⟨b, co, nan, n, rfl, rfl, ?_, ?_⟩
          · intro hm; rw [if_pos hm] at hf; exact hf
          · intro hm
            rw [if_neg (by simp [hm])] at hf
            by_cases hq : s.world.cal.props.plotPlotly = true
            · rw [if_pos hq] at hf; exact hf
            · rw [if_neg hq] at hf; cases hf

/-- C82.  Whichever library is in use, a plotting call that returns has written exactly the files
`filename.t` for the fields `t` of `fig_type` that the library supports, in that order, and nothing
without `save_fig`; without `filename` the name is `rascal_arc`, `rascal_hough_search_space` or
`rascal_solution`. -/
theorem C82_files (F : FitEnv K) (s : Session K) (plotly : Bool) (hl : UsesLibrary s plotly) (o : FigOpts) :
    (∀ sp px r, s.plotArc sp px o = .ok r → RightFiles plotly "rascal_arc".toList o r.1) ∧
    (∀ cands r, s.plotSearchSpace cands o = .ok r →
      RightFiles plotly "rascal_hough_search_space".toList o r.1) ∧
    (∀ h own a fig, a.opts = o → (s.plotFit F h own a).2 = .ok fig →
      RightFiles plotly "rascal_solution".toList o fig.events) := by
  obtain ⟨h1, h2⟩ := usesLibrary_flags s plotly hl
  refine ⟨?_, ?_, ?_⟩
  · intro sp px r hr
    apply savedFiles_right
    unfold Session.plotArc at hr
    split at hr
    · cases hr
    cases plotly with
    | false =>
      rw [if_pos (by simpa using h1)] at hr
      rw [← filesOf_matplotlib]
      split at hr
      · split at hr <;> cases hr; rfl
      · split at hr
        · cases hr
        · split at hr <;> cases hr; rfl
    | true =>
      rw [if_neg (by simpa using h1), if_pos (h2 rfl)] at hr
      rw [← filesOf_plotly]
      split at hr <;> cases hr; rfl
  · intro cands r hr
    apply savedFiles_right
    unfold Session.plotSearchSpace at hr
    split at hr
    · cases hr
    cases plotly with
    | false =>
      rw [if_pos (by simpa using h1)] at hr
      rw [← filesOf_matplotlib]
      cases hr; rfl
    | true =>
      rw [if_neg (by simpa using h1), if_pos (h2 rfl)] at hr
      rw [← filesOf_plotly]
      cases hr; rfl
  · intro h own a fig ho hf
    apply savedFiles_right
    obtain ⟨b, co, nan, n, _, _, hm, hp⟩ := plotFit_ok F h own s a fig hf
    cases plotly with
    | false =>
      obtain ⟨_, _, _, _, _, _, _, rfl⟩ := drawMatplotlib_ok _ _ _ _ _ _ _ (hm h1)
      rw [ho, filesOf_matplotlib]
    | true =>
      obtain ⟨_, _, _, _, _, rfl⟩ := drawPlotly_ok _ _ _ _ _ _ _ (hp h1)
      rw [ho, filesOf_plotly]

/-! ### C83 -/

/-- What the assignment does to one spectrum: the same kind and length, negative entries become
`1e-100` (0 in an integer array), all others stay. -/
def NegativesReplaced (old new : SpecArr K) : Prop :=
  new.kind = old.kind ∧ List.Forall₂ (fun v w =>
    ((v = .negInf ∨ ∃ x, v = .fin x ∧ x < 0) →
      w = .fin (if old.kind = .intArray then 0 else 1 / 10 ^ 100)) ∧
    ((v = .posInf ∨ v = .nan ∨ ∃ x, v = .fin x ∧ 0 ≤ x) → w = v)) old.vals new.vals

theorem clip_replaced (a : SpecArr K) : NegativesReplaced a a.clip := by
  refine ⟨rfl, ?_⟩
  have ht : (a.kind.tiny : K) = if a.kind = .intArray then 0 else 1 / 10 ^ 100 := by
    cases a.kind <;> rfl
  show List.Forall₂ _ a.vals (a.vals.map _)
  rw [List.forall₂_map_right_iff, List.forall₂_same]
  intro v _
  rw [← ht]
  constructor
  · rintro (rfl | ⟨x, rfl, hx⟩)
    · rfl
    · simp [PyFloat.isNeg, hx]
  · rintro (rfl | rfl | ⟨x, rfl, hx⟩)
    · rfl
    · rfl
    · simp [PyFloat.isNeg, not_lt.2 hx]

theorem prepareSpectrum_heap (h : Heap K) (ref : Option Nat) (log : Bool) :
    (prepareSpectrum h ref log).1 = h ∨
    log = true ∧ ∃ i, ref = some i ∧ (h i).kind ≠ .pyList ∧
      (prepareSpectrum h ref log).1 = Function.update h i (h i).clip := by
  unfold prepareSpectrum
  cases ref with
  | none => exact .inl rfl
  | some i =>
    cases log with
    | false => exact .inl rfl
    | true =>
      simp only [if_true]
      split
      · exact .inl rfl
      · rename_i hk; exact .inr ⟨trivial, i, rfl, hk, rfl⟩

theorem plotFit_heap (F : FitEnv K) (h : Heap K) (own : Option Nat) (s : Session K) (a : FitPlotArgs K) :
    (s.plotFit F h own a).1 =
      (prepareSpectrum h (if a.spectrum.isSome then a.spectrum else own) a.log).1 := by
  unfold Session.plotFit
  dsimp only
  split <;> rfl

/-- C83, what holds: `plot_fit` changes nothing without `log_spectrum`; with it only the array plotted
(the argument, or else the calibrator's own) can change, and in it only the negative entries.
What is missing: those entries. -/
theorem C83_only_negatives_partial (F : FitEnv K) (h : Heap K) (own : Option Nat) (s : Session K)
    (a : FitPlotArgs K) :
    (a.log = false → (s.plotFit F h own a).1 = h) ∧
    (∀ j, ¬ (a.spectrum = some j ∨ a.spectrum = none ∧ own = some j) → (s.plotFit F h own a).1 j = h j) ∧
    (∀ j, (s.plotFit F h own a).1 j = h j ∨ NegativesReplaced (h j) ((s.plotFit F h own a).1 j)) ∧
    (∀ j, (h j).kind ≠ .pyList → a.log = true → (a.spectrum = some j ∨ a.spectrum = none ∧ own = some j) →
      NegativesReplaced (h j) ((s.plotFit F h own a).1 j)) := by
  rw [plotFit_heap]
  have href : ∀ j, (if a.spectrum.isSome then a.spectrum else own) = some j ↔
      (a.spectrum = some j ∨ a.spectrum = none ∧ own = some j) := by
    intro j; cases a.spectrum <;> simp
  generalize (if a.spectrum.isSome then a.spectrum else own) = ref at href
  rcases prepareSpectrum_heap h ref a.log with hh | ⟨hlog, i, hi, hk, hh⟩
  · rw [hh]
    refine ⟨fun _ => rfl, fun _ _ => rfl, fun _ => .inl rfl, ?_⟩
    intro j hj hl hr
    have hr' := (href j).2 hr
    unfold prepareSpectrum at hh
    rw [hr', hl] at hh
    dsimp only at hh
    rw [if_pos rfl, if_neg hj] at hh
    have := congrFun hh j
    simp only [Function.update_self] at this
    have hc := clip_replaced (h j)
    rw [this] at hc
    exact hc
  · rw [hh]
    refine ⟨fun hl => (by rw [hl] at hlog; cases hlog), ?_, ?_, ?_⟩
    · intro j hj
      rw [← href, hi] at hj
      exact Function.update_of_ne (fun e => hj (by rw [e])) _ _
    · intro j
      by_cases hj : j = i
      · subst hj; rw [Function.update_self]; exact .inr (clip_replaced _)
      · exact .inl (Function.update_of_ne hj _ _)
    · intro j _ _ hr
      rw [← href, hi] at hr
      cases hr
      rw [Function.update_self]; exact clip_replaced _

/-- C83, spectra without negative entries are never modified. -/
theorem C83_nonnegative_partial (F : FitEnv K) (h : Heap K) (own : Option Nat) (s : Session K)
    (a : FitPlotArgs K) (hn : ∀ j, ∀ v ∈ (h j).vals, v ≠ .negInf ∧ ∀ x, v = .fin x → 0 ≤ x) :
    (s.plotFit F h own a).1 = h := by
  funext j
  rcases (C83_only_negatives_partial F h own s a).2.2.1 j with hh | ⟨hk, hv⟩
  · exact hh
  · have hvals : ((s.plotFit F h own a).1 j).vals = (h j).vals := by
      have : ∀ l l' : List (PyFloat K), (∀ v ∈ l, v ≠ .negInf ∧ ∀ x, v = .fin x → 0 ≤ x) →
          List.Forall₂ (fun v w =>
            ((v = .negInf ∨ ∃ x, v = .fin x ∧ x < 0) →
              w = .fin (if (h j).kind = .intArray then 0 else 1 / 10 ^ 100)) ∧
            ((v = .posInf ∨ v = .nan ∨ ∃ x, v = .fin x ∧ 0 ≤ x) → w = v)) l l' → l' = l := by
        intro l l' hl hf
        induction hf with
        | nil => rfl
        | @cons v w l l' h1 _ ih =>
          have h2 : w = v := by
            apply h1.2
            have := hl v (by simp)
            cases v with
            | fin x => exact .inr (.inr ⟨x, rfl, this.2 x rfl⟩)
            | posInf => exact .inl rfl
            | negInf => exact absurd rfl this.1
            | nan => exact .inr (.inl rfl)
          rw [h2, ih (fun u hu => hl u (by simp [hu]))]
      exact this _ _ (hn j) hv
    cases h1 : (s.plotFit F h own a).1 j with
    | mk k v =>
      rw [h1] at hk hvals
      cases h2 : h j with
      | mk k' v' =>
        rw [h2] at hk hvals
        simp only at hk hvals
        rw [hk, hvals]

/-- C83, the data given to the constructor: `Calibrator(peaks, spectrum)` keeps a copy, so plotting the
calibrator's spectrum does not change the caller's. -/
theorem C83_constructor_copy_partial (F : FitEnv K) (h : Heap K) (given : Option Nat) (fresh : Nat)
    (hf : ∀ i, given = some i → i ≠ fresh) (s : Session K) (a : FitPlotArgs K) (ha : a.spectrum = none)
    (i : Nat) (hi : given = some i) :
    (s.plotFit F (h.copySpectrum given fresh).1 (h.copySpectrum given fresh).2 a).1 i = h i := by
  subst hi
  have hne := hf i rfl
  unfold Heap.copySpectrum
  rw [(C83_only_negatives_partial F _ _ s a).2.1 i]
  · exact Function.update_of_ne hne _ _
  · rintro (h1 | ⟨_, h1⟩)
    · rw [ha] at h1; cases h1
    · cases h1; exact hne rfl

end

end Rascal
