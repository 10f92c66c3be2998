import Verif.Props.HistoryProps
import Verif.Props.SearchProps

/-!
Property theorem C208: peaks that are given twice, and a `minimum_peak_utilisation` that cannot be reached.
-/

set_option linter.unusedSectionVars false

namespace Rascal

section
variable {K : Type _} [Field K] [LinearOrder K] [IsStrictOrderedRing K] [FloorRing K]

/-- Entries without repetition, all from a list, are at most as many as that list has different entries. -/
theorem length_le_distinct {l m : List K} (hn : l.Nodup) (hs : ∀ v ∈ l, v ∈ m) : l.length ≤ m.dedup.length :=
  (List.subperm_of_subset hn (fun v hv => List.mem_dedup.2 (hs v hv))).length_le

/-- C208, what can be matched: in every state a calibrator can get into, a fit matches at most as many peaks as there are
different peaks, at most as many as there are different wavelengths in the combinations (or, with `linear` off, in the
atlas), and the peak utilisation is out of all peaks given. -/
theorem C208_bound_partial (E : CalEnv K) (F : FitEnv K) (M : MatchKernels K) (ha : IsArgsort F.argsortK)
    (interp : List K → PyRes Unit) (peaks : List K) (arr int : Bool) (spectrum : Option (List K))
    (atlases : List (Atlas K)) (c : Cal K) (hc : Cal.new interp peaks arr spectrum = .ok c)
    (h : List (SessionCall K)) (a : FitArgs K) (isArr : Bool) (rnd : FitRandom K) (r : FitReport K)
    (hr : (((Session.new ⟨atlases, c⟩ int).calls E F M h).fit F a isArr rnd).2 = .done (.ok r)) :
    let w := ((Session.new ⟨atlases, c⟩ int).calls E F M h).world
    r.matchedPeaks.length ≤ peaks.dedup.length ∧
    (w.cal.ransac.linear = true → r.matchedPeaks.length ≤ (w.cal.pairList.map Prod.snd).dedup.length) ∧
    (w.cal.ransac.linear = false → ∃ lines, w.atlasLines = .ok lines ∧ r.matchedPeaks.length ≤ lines.dedup.length) ∧
    r.peakUtil = (r.matchedPeaks.length : K) / (peaks.length : K) := by
  obtain ⟨hn, hpk⟩ := new_pairs interp peaks arr spectrum c hc
  have h0 : PairsOnPeaks (Session.new ⟨atlases, c⟩ int).world.cal := by
    intro e he
    have : (Session.new ⟨atlases, c⟩ int).world.cal.pairList = [] := by
      change c.pairList = []
      unfold Cal.pairList
      rw [hn]
    rw [this] at he
    cases he
  have hp := session_onPeaks E F M _ h0 h
  obtain ⟨a1, a2, a3, a4, a5, a6, _, _, _, a7, _⟩ := C62_report F ha _ hp a rnd r hr
  have hpeaks : ((Session.new ⟨atlases, c⟩ int).calls E F M h).world.cal.peaks = peaks :=
    (C101_peaks_forever E F M _ h).trans hpk
  rw [hpeaks] at a4 a7
  refine ⟨length_le_distinct a2 a4, ?_, ?_, a7⟩
  · intro hl
    rw [a1]
    refine length_le_distinct a3 (fun v hv => ?_)
    obtain ⟨i, hi, rfl⟩ := List.mem_iff_getElem.1 hv
    refine List.mem_map.2 ⟨(r.matchedPeaks[i]'(a1 ▸ hi), r.matchedAtlas[i]), a5 hl _ ?_, rfl⟩
    rw [← List.getElem_zip (h := by rw [List.length_zip, a1, min_self]; exact hi)]
    exact List.getElem_mem _
  · intro hl
    obtain ⟨lines, h1, h2⟩ := a6 hl
    exact ⟨lines, h1, by rw [a1]; exact length_le_distinct a3 h2⟩

/-- C208, what cannot be reached: if `minimum_peak_utilisation` asks for more peaks than there are different ones, or than
there are different wavelengths in the combinations, no fit returns, whatever it draws and however long it tries. -/
theorem C208_never (E : CalEnv K) (F : FitEnv K) (M : MatchKernels K) (ha : IsArgsort F.argsortK)
    (interp : List K → PyRes Unit) (peaks : List K) (arr int : Bool) (spectrum : Option (List K))
    (atlases : List (Atlas K)) (c : Cal K) (hc : Cal.new interp peaks arr spectrum = .ok c)
    (h : List (SessionCall K)) (a : FitArgs K) (isArr : Bool) (rnd : FitRandom K)
    (hu : let w := ((Session.new ⟨atlases, c⟩ int).calls E F M h).world
      ((peaks.dedup.length : Nat) : K) < w.cal.ransac.minUtil * (peaks.length : K) ∨
      w.cal.ransac.linear = true ∧
        (((w.cal.pairList.map Prod.snd).dedup.length : Nat) : K) < w.cal.ransac.minUtil * (peaks.length : K)) :
    ∀ r, (((Session.new ⟨atlases, c⟩ int).calls E F M h).fit F a isArr rnd).2 ≠ .done (.ok r) := by
  intro r hr
  obtain ⟨h1, h2, _⟩ := C208_bound_partial E F M ha interp peaks arr int spectrum atlases c hc h a isArr rnd r hr
  obtain ⟨_, _, _, _, h3, _⟩ := C60_fit_constraints F ha _ a rnd r hr
  rw [C101_peaks_forever E F M _ h, show (Session.new ⟨atlases, c⟩ int).world.cal.peaks = peaks from
    (new_pairs interp peaks arr spectrum c hc).2] at h3
  rcases hu with hu | ⟨hl, hu⟩
  · have : ((r.matchedPeaks.length : Nat) : K) ≤ (peaks.dedup.length : K) := by exact_mod_cast h1
    exact absurd (lt_of_lt_of_le hu h3) (not_lt.2 this)
  · have : ((r.matchedPeaks.length : Nat) : K) ≤
        ((((Session.new ⟨atlases, c⟩ int).calls E F M h).world.cal.pairList.map Prod.snd).dedup.length : K) := by
      exact_mod_cast h2 hl
    exact absurd (lt_of_lt_of_le hu h3) (not_lt.2 this)

end

/-- C208, as expected: if a fit matches every peak, then it is also possible when all peaks are required. -/
def C208_Statement : Prop :=
  ∀ (F : FitEnv ℚ) (w : World ℚ) (a : FitArgs ℚ) (rnd : FitRandom ℚ) (r : FitReport ℚ), IsArgsort F.argsortK →
    PairsOnPeaks w.cal → (w.fit F a rnd).2 = .done (.ok r) → (∀ p ∈ w.cal.peaks, p ∈ r.matchedPeaks) →
    ∃ rnd' r', ((w.setRansac { minUtil := some 1 }).1.fit F a rnd').2 = .done (.ok r')

/-- The four peaks with one of them given twice. -/
def Toy.doublePeak : PyRes (World ℚ) :=
  match Cal.new (fun _ => .ok ()) [10, 20, 20, 31, 41] true none with
  | .error e => .error e
  | .ok c => .ok (World.steps Toy.calEnv
      ⟨[⟨[4500, 5900, 7440, 8847].map (fun v => ⟨v, "Xe", 1, none⟩), none, none, 0⟩], c⟩
      [.setHough { numSlopes := some 5, xbins := some 4, ybins := some 4 },
       .setRansac { sampleSize := some 2, minFitError := some 0 },
       .setAtlas 0 10 false])

/-- A fit of a world matches at most as many peaks as there are different ones. -/
theorem world_bound {K : Type _} [Field K] [LinearOrder K] [IsStrictOrderedRing K] [FloorRing K] (F : FitEnv K)
    (ha : IsArgsort F.argsortK) (w : World K) (hp : PairsOnPeaks w.cal) (a : FitArgs K) (rnd : FitRandom K)
    (r : FitReport K) (hr : (w.fit F a rnd).2 = .done (.ok r)) :
    w.cal.ransac.minUtil * (w.cal.peaks.length : K) ≤ ((w.cal.peaks.dedup.length : Nat) : K) := by
  obtain ⟨_, a2, _, a4, _⟩ := C62_report F ha w hp a rnd r hr
  obtain ⟨_, _, _, _, h3, _⟩ := C60_fit_constraints F ha w a rnd r hr
  have : ((r.matchedPeaks.length : Nat) : K) ≤ (w.cal.peaks.dedup.length : K) := by
    exact_mod_cast length_le_distinct a2 a4
  exact le_trans h3 this

set_option synthInstance.maxSize 2000 in
set_option synthInstance.maxHeartbeats 400000 in
/-- The fit with the doubled peak matches all four different peaks; four of five entries are used. -/
theorem Toy.doublePeak_spec :
    (Toy.doublePeak.toOption.map (fun w => (w.cal.peaks, decide (∀ e ∈ w.cal.pairList, e.1 ∈ w.cal.peaks),
      ((w.setRansac { minUtil := some 1 }).1.cal.peaks, (w.setRansac { minUtil := some 1 }).1.cal.ransac.minUtil,
        decide (∀ e ∈ (w.setRansac { minUtil := some 1 }).1.cal.pairList,
          e.1 ∈ (w.setRansac { minUtil := some 1 }).1.cal.peaks)),
      (Toy.report (w.fit Toy.env (Toy.fourArgs 1) ⟨fun _ => 0, [⟨[0, 2], [0, 0]⟩]⟩)).map
        (fun r => (r.matchedPeaks, r.matchedAtlas, r.peakUtil))))) =
    some ([10, 20, 20, 31, 41], true, ([10, 20, 20, 31, 41], 1, true),
      some ([10, 20, 31, 41], [4500, 5900, 7440, 8847], 4 / 5)) := by
  decide +kernel

/-- C208: a peak that is given twice makes a `minimum_peak_utilisation` of 1 unreachable. -/
theorem C208_refuted : ¬ C208_Statement := by
  intro hall
  have h := Toy.doublePeak_spec
  cases hd : Toy.doublePeak with
  | error e => rw [hd] at h; cases h
  | ok w =>
    rw [hd] at h
    have h := Option.some.inj h
    simp only [Prod.mk.injEq] at h
    obtain ⟨h1, h2, ⟨h3, h4, h5⟩, h6⟩ := h
    obtain ⟨r, hr0, hr'⟩ := Option.map_eq_some_iff.1 h6
    have hr := Toy.report_some _ r hr0
    rw [Prod.mk.injEq] at hr'
    obtain ⟨rnd', r', hf⟩ := hall Toy.env w (Toy.fourArgs 1) _ r Toy.env_argsort (by have := of_decide_eq_true h2; exact this) hr (by
      rw [h1, hr'.1]; decide +kernel)
    have hb := world_bound Toy.env Toy.env_argsort _ (by have := of_decide_eq_true h5; exact this) _ _ _ hf
    rw [h3, h4] at hb
    exact absurd hb (by decide +kernel)

/-- A case for `C208_never`: five peaks, two of them equal, all of them required; and with three lines instead of four the
utilisation 0.7 is out of reach already. -/
example : (Cal.new (fun _ => .ok ()) [(10 : ℚ), 20, 20, 31, 41] true none).toOption.map (fun c =>
    let s := fun (lines : List ℚ) (u : ℚ) => ((Session.new
      ⟨[⟨lines.map (fun v => ⟨v, "Xe", 1, none⟩), none, none, 0⟩], c⟩ false).calls Toy.calEnv Toy.env Toy.mkern
      [.set (.setHough { numSlopes := some 5, xbins := some 4, ybins := some 4 }),
       .set (.setRansac { sampleSize := some 2, minUtil := some u }), .set (.setAtlas 0 10 false)]).world
    let need := fun (w : World ℚ) => w.cal.ransac.minUtil * ([10, 20, 20, 31, 41] : List ℚ).length
    (decide (((([10, 20, 20, 31, 41] : List ℚ).dedup.length : Nat) : ℚ) < need (s [4500, 5900, 7440, 8847] 1)),
     (s [4500, 5900, 7440] (7 / 10)).cal.ransac.linear,
     ((s [4500, 5900, 7440] (7 / 10)).cal.pairList.map Prod.snd).dedup.length,
     decide (((((s [4500, 5900, 7440] (7 / 10)).cal.pairList.map Prod.snd).dedup.length : Nat) : ℚ) <
       need (s [4500, 5900, 7440] (7 / 10))))) = some (true, true, 3, true) := by
  decide +kernel

end Rascal
