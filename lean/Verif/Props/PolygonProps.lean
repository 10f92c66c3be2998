import Verif.Props.SettingsBounds
import Verif.Proofs.Toy

/-!
Property theorems C165: wider tolerances keep the combinations of peaks and lines.
-/

set_option linter.unusedSectionVars false

namespace Rascal

variable {K : Type _} [Field K] [LinearOrder K] [IsStrictOrderedRing K] [FloorRing K]

/-- A polygon over the same pixels whose edges are longer at both ends. -/
def Polygon.Wider (g g' : Polygon K) : Prop :=
  g'.lastPix = g.lastPix ∧ g.lo0 ≤ g.hi0 ∧ g.loP ≤ g.hiP ∧
    g'.lo0 ≤ g.lo0 ∧ g.hi0 ≤ g'.hi0 ∧ g'.loP ≤ g.loP ∧ g.hiP ≤ g'.hiP

theorem Polygon.Wider.inside {g g' : Polygon K} (h : g.Wider g') (pt : K × K) (hi : g.inside pt = true) :
    g'.inside pt = true := by
  obtain ⟨hl, h1, h2, h3, h4, h5, h6⟩ := h
  unfold Polygon.inside at hi ⊢
  rw [hl]
  rw [min_eq_left h1, min_eq_left h2, max_eq_right h1, max_eq_right h2] at hi
  rw [min_eq_left (by linarith), min_eq_left (by linarith), max_eq_right (by linarith),
    max_eq_right (by linarith)]
  simp only [Bool.and_eq_true, decide_eq_true_eq] at hi ⊢
  obtain ⟨⟨⟨t0, t1⟩, lo⟩, hi⟩ := hi
  refine ⟨⟨⟨t0, t1⟩, le_trans ?_ lo⟩, le_trans hi ?_⟩
  · exact add_le_add (mul_le_mul_of_nonneg_left h3 (by linarith)) (mul_le_mul_of_nonneg_left h5 t0)
  · exact add_le_add (mul_le_mul_of_nonneg_left h4 (by linarith)) (mul_le_mul_of_nonneg_left h6 t0)

theorem Polygon.Wider.pairs {g g' : Polygon K} (h : g.Wider g') (peaks lines : List K) (l : List (K × K))
    (hg : Rascal.generatePairs peaks lines (some g) = .ok l) :
    ∃ l', Rascal.generatePairs peaks lines (some g') = .ok l' ∧ l.Sublist l' := by
  have hflat : g'.flat = false := by
    by_contra hc
    rw [Bool.not_eq_false] at hc
    obtain ⟨hl, h1, h2, h3, h4, h5, h6⟩ := h
    have : g.flat = true := by
      unfold Polygon.flat at hc ⊢
      simp only [Bool.or_eq_true, Bool.and_eq_true, decide_eq_true_eq] at hc ⊢
      rcases hc with hc | ⟨ha, hb⟩
      · left; rw [← hl]; exact hc
      · right; constructor <;> linarith
    simp [Rascal.generatePairs, this] at hg
  have hgf : g.flat = false := by
    by_contra hc
    rw [Bool.not_eq_false] at hc
    simp [Rascal.generatePairs, hc] at hg
  unfold Rascal.generatePairs at hg ⊢
  simp only [hgf, hflat, Bool.false_eq_true, if_false] at hg ⊢
  split at hg
  · simp at hg
  · rename_i hne
    rw [if_neg hne]
    refine ⟨_, rfl, ?_⟩
    have hg := Except.ok.inj hg
    subst hg
    rw [boolMask_map_pred, boolMask_map_pred]
    exact List.monotone_filter_right _ (fun pt => h.inside pt)

/-- The pairs of a calibrator with the constraint. -/
theorem generatePairs_wider (c c' : Cal K) (lines : List K) (t t' : K) (hc : c.constrainPoly = true)
    (hc' : c'.constrainPoly = true) (ht : c.candTol = some t) (ht' : c'.candTol = some t')
    (hpk : c'.peaks = c.peaks) (hpl : c'.props.pixelList = c.props.pixelList)
    (hw : ∀ P, (c.polygon t P).Wider (c'.polygon t' P)) (hok : (c.generatePairs lines).2 = .ok ()) :
    (c'.generatePairs lines).2 = .ok () ∧ ∃ l l', (c.generatePairs lines).1.pairs = some (.array l) ∧
      (c'.generatePairs lines).1.pairs = some (.array l') ∧ l.Sublist l' := by
  unfold Cal.generatePairs at hok ⊢
  rw [hc, ht] at hok
  rw [hc, hc', ht, ht', hpk, hpl]
  simp only [if_true] at hok ⊢
  cases hx : c.props.pixelList with
  | nil => rw [hx] at hok; simp at hok
  | cons a pl =>
    rw [hx] at hok
    simp only at hok ⊢
    cases hg : Rascal.generatePairs c.peaks lines (some (c.polygon t (listMax a pl))) with
    | error e => rw [hg] at hok; simp at hok
    | ok l =>
      obtain ⟨l', hl', hs⟩ := (hw (listMax a pl)).pairs _ _ _ hg
      rw [hl']
      exact ⟨rfl, l, l', rfl, rfl, hs⟩

/-- C165, candidate tolerance: if `set_atlas` with the polygon constraint succeeds, it succeeds with every larger
`candidate_tolerance`, and no combination of a peak and a line is lost.  What is missing: wider wavelength
limits, see `C165_refuted`. -/
theorem C165_candidate_partial (w : World K) (i : Nat) (t t' : K) (hint : InterceptsMatch w.cal.hough)
    (h0 : 0 ≤ w.cal.hough.rangeTol + t) (hle : t ≤ t') (h : (w.setAtlas i t true).2 = .ok ()) :
    (w.setAtlas i t' true).2 = .ok () ∧ ∃ l l', (w.setAtlas i t true).1.cal.pairs = some (.array l) ∧
      (w.setAtlas i t' true).1.cal.pairs = some (.array l') ∧ l.Sublist l' := by
  unfold World.setAtlas World.generatePairs World.atlasLines at h ⊢
  simp only at h ⊢
  cases hat : w.atlases[i]? with
  | none => rw [hat] at h; simp at h
  | some at_ =>
    rw [hat] at h
    simp only at h ⊢
    obtain ⟨e1, e2⟩ := hint
    refine generatePairs_wider _ _ at_.getLines t t' rfl rfl rfl rfl rfl rfl (fun P => ?_) h
    unfold Polygon.Wider Cal.polygon
    simp only [e1, e2]
    refine ⟨trivial, ?_, ?_, ?_, ?_, ?_, ?_⟩ <;> linarith

/-- C165, range tolerance: after a successful `set_atlas` with the polygon constraint a call of
`set_hough_properties` with a `range_tolerance` that is not smaller, with any other arguments but the wavelength
limits, succeeds and rebuilds the combinations without losing one.  What is missing: wider wavelength limits, see
`C165_refuted`. -/
theorem C165_range_partial (w : World K) (i : Nat) (t r : K) (hint : InterceptsMatch w.cal.hough)
    (h0 : 0 ≤ w.cal.hough.rangeTol + t) (hle : w.cal.hough.rangeTol ≤ r) (h : (w.setAtlas i t true).2 = .ok ())
    (a : HoughArgs K) (ha : a.minW = none) (hb : a.maxW = none) (hr : a.rangeTol = some r) :
    let w1 := (w.setAtlas i t true).1
    (w1.setHough a).2 = .ok () ∧ ∃ l l', w1.cal.pairs = some (.array l) ∧
      (w1.setHough a).1.cal.pairs = some (.array l') ∧ l.Sublist l' := by
  intro w1
  cases hat : w.atlases[i]? with
  | none =>
    unfold World.setAtlas World.generatePairs World.atlasLines at h
    simp [hat] at h
  | some at_ =>
    have hw1 : w1 = { w with cal := (Cal.generatePairs { w.cal with atlas := some i, candTol := some t, constrainPoly := true }
        at_.getLines).1 } := by
      simp only [w1]
      unfold World.setAtlas World.generatePairs World.atlasLines
      simp only [hat]
    have hok : (Cal.generatePairs { w.cal with atlas := some i, candTol := some t, constrainPoly := true }
        at_.getLines).2 = .ok () := by
      unfold World.setAtlas World.generatePairs World.atlasLines at h
      simpa only [hat] using h
    have hfr : ∃ q, w1.cal = { w.cal with atlas := some i, candTol := some t, constrainPoly := true, pairs := q } := by
      rw [hw1]
      unfold Cal.generatePairs
      simp only [if_true]
      split
      · split
        · exact ⟨_, rfl⟩
        · exact ⟨_, rfl⟩
      · exact ⟨_, rfl⟩
      · exact ⟨_, rfl⟩
    have hne : ∃ a l, w.cal.props.pixelList = a :: l := by
      cases hx : w.cal.props.pixelList with
      | nil => simp [Cal.generatePairs, hx] at hok
      | cons a l => exact ⟨a, l, rfl⟩
    obtain ⟨q, hq⟩ := hfr
    obtain ⟨pa, pl, hpl⟩ := hne
    have hatl : w1.atlases = w.atlases := by rw [hw1]
    obtain ⟨e1, e2⟩ := hint
    unfold World.setHough
    have happ : (HoughSet.apply (some w1.cal.hough) a w1.cal.props.pixelList).2 = .ok () := by
      rw [hq]
      simp only [HoughSet.apply, ptp, hpl]
    have hmin : (HoughSet.apply (some w1.cal.hough) a w1.cal.props.pixelList).1.minW = w.cal.hough.minW ∧
        (HoughSet.apply (some w1.cal.hough) a w1.cal.props.pixelList).1.maxW = w.cal.hough.maxW ∧
        (HoughSet.apply (some w1.cal.hough) a w1.cal.props.pixelList).1.rangeTol = r := by
      rw [hq]
      simp [HoughSet.apply, ptp, hpl, HoughSet.setSlopes, HoughSet.setIntercepts, ha, hb, hr, keepOr]
    have hint' := HoughSet.apply_intercepts (some w1.cal.hough) a w1.cal.props.pixelList
    dsimp only
    rw [happ]
    generalize (HoughSet.apply (some w1.cal.hough) a w1.cal.props.pixelList).1 = hn at *
    have hatom : w1.cal.atlas = some i := by rw [hq]
    rw [hatom]
    dsimp only
    unfold World.generatePairs World.atlasLines
    simp only [hatl, hat]
    have := generatePairs_wider { w.cal with atlas := some i, candTol := some t, constrainPoly := true }
      { w1.cal with hough := hn, atlas := some i } at_.getLines t t rfl (by rw [hq]) rfl (by rw [hq]) (by rw [hq])
      (by rw [hq]) (fun P => ?_) hok
    · refine ⟨this.1, ?_⟩
      obtain ⟨l, l', h1, h2, h3⟩ := this.2
      refine ⟨l, l', ?_, h2, h3⟩
      rw [hw1]; exact h1
    · obtain ⟨m1, m2, m3⟩ := hmin
      obtain ⟨i1, i2⟩ := hint'
      unfold Polygon.Wider Cal.polygon
      simp only [e1, e2, i1, i2, m1, m2, m3]
      refine ⟨trivial, ?_, ?_, ?_, ?_, ?_, ?_⟩ <;> linarith

/-- C165, no constraint: without the constraint every combination with the constraint is there as well.  What is
missing: wider wavelength limits, see `C165_refuted`. -/
theorem C165_unconstrained_partial (w : World K) (i : Nat) (t t' : K) (l : List (K × K))
    (hl : (w.setAtlas i t true).1.cal.pairs = some (.array l)) (h : (w.setAtlas i t true).2 = .ok ()) :
    (w.setAtlas i t' false).2 = .ok () ∧ ∃ l', (w.setAtlas i t' false).1.cal.pairs = some (.array l') ∧
      l.Sublist l' := by
  unfold World.setAtlas World.generatePairs World.atlasLines at h hl ⊢
  simp only at h hl ⊢
  cases hat : w.atlases[i]? with
  | none => rw [hat] at h; simp at h
  | some at_ =>
    rw [hat] at h hl
    simp only at h hl ⊢
    unfold Cal.generatePairs at h hl ⊢
    simp only [if_true, Bool.false_eq_true, if_false] at h hl ⊢
    cases hx : w.cal.props.pixelList with
    | nil => rw [hx] at h; simp at h
    | cons a pl =>
      rw [hx] at h hl
      simp only at h hl ⊢
      cases hg : Rascal.generatePairs w.cal.peaks at_.getLines
          (some (Cal.polygon { w.cal with atlas := some i, candTol := some t, constrainPoly := true } t
            (listMax a pl))) with
      | error e => rw [hg] at h; simp at h
      | ok r =>
        rw [hg] at hl
        simp only [Option.some.injEq, PairStore.array.injEq] at hl
        subst hl
        unfold Rascal.generatePairs at hg
        simp only at hg
        split at hg
        · simp at hg
        · split at hg
          · simp at hg
          · rename_i hne
            have hg := Except.ok.inj hg
            refine ⟨trivial, _, by rw [if_neg hne], ?_⟩
            rw [← hg, boolMask_map_pred]
            exact List.filter_sublist

/-- The documented reading of the limits as a range: wider limits allow more. -/
def C165_Statement : Prop :=
  ∀ (w : World ℚ) (i : Nat) (t lo hi : ℚ), InterceptsMatch w.cal.hough → 0 ≤ w.cal.hough.rangeTol → 0 ≤ t →
    lo ≤ w.cal.hough.minW → w.cal.hough.minW ≤ w.cal.hough.maxW → w.cal.hough.maxW ≤ hi →
    (w.setAtlas i t true).2 = .ok () →
    let w1 := (w.setAtlas i t true).1
    ∀ l l', w1.cal.pairs = some (.array l) →
      (w1.setHough { minW := some lo, maxW := some hi }).1.cal.pairs = some (.array l') → l.Sublist l'

/-- The pairs of a calibrator as a list. -/
def Toy.pairsOf (w : World ℚ) : Option (List (ℚ × ℚ)) :=
  match w.cal.pairs with
  | some (.array l) => some l
  | _ => none

/-- The toy calibrator with a range tolerance of 10. -/
def Toy.tight : World ℚ := (Toy.ready.setHough { rangeTol := some 10 }).1

/-- The hypotheses of the theorems hold for it. -/
theorem Toy.tight_ok : InterceptsMatch Toy.tight.cal.hough ∧ (Toy.tight.setAtlas 0 10 true).2 = .ok () := by
  unfold InterceptsMatch
  decide +kernel

/-- Of the ten combinations one is inside the polygon with the tolerances 10 and 10; a larger tolerance gives one
more. -/
example : Toy.pairsOf (Toy.tight.setAtlas 0 10 true).1 = some [(20, 8700)] ∧
    Toy.pairsOf (Toy.tight.setAtlas 0 100 true).1 = some [(10, 5900), (20, 8700)] ∧
    Toy.pairsOf ((Toy.tight.setAtlas 0 10 true).1.setHough { rangeTol := some 60 }).1 =
      some [(10, 5900), (20, 8700)] := by decide +kernel

example := C165_candidate_partial Toy.tight 0 10 100 Toy.tight_ok.1 (by decide +kernel) (by norm_num) Toy.tight_ok.2

example := C165_range_partial Toy.tight 0 10 60 Toy.tight_ok.1 (by decide +kernel) (by decide +kernel) Toy.tight_ok.2
  { rangeTol := some 60, xbins := some 5 } rfl rfl rfl

example := C165_unconstrained_partial Toy.tight 0 10 5 [(20, 8700)] (by decide +kernel) Toy.tight_ok.2

/-- C165 is false: the limits are the wavelengths at the two ends of the detector, and moving the upper one from
9000 to 11000 moves the polygon away from both combinations. -/
theorem C165_refuted : ¬ C165_Statement := by
  intro h
  have := h Toy.ready 0 10 3000 11000 (by unfold InterceptsMatch; decide +kernel) (by decide +kernel) (by norm_num)
    (by decide +kernel) (by decide +kernel) (by decide +kernel) (by decide +kernel) [(10, 5900), (20, 8700)] []
    (by decide +kernel) (by decide +kernel)
  simp at this

end Rascal
