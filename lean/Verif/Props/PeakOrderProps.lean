import Verif.Props.HoughVoteProps
import Verif.Props.HistoryProps

/-!
C123: the order in which the peaks are given.
-/

set_option linter.unusedSectionVars false

namespace Rascal

variable {K : Type _} [Field K] [LinearOrder K] [IsStrictOrderedRing K]

/-! ### Lists of combinations that agree peak by peak -/

/-- The two lists have, for every peak, the same combinations in the same order. -/
def SameByPeak (l l' : List (K × K)) : Prop :=
  ∀ p : K, l.filter (fun e => decide (e.1 = p)) = l'.filter (fun e => decide (e.1 = p))

theorem SameByPeak.refl (l : List (K × K)) : SameByPeak l l := fun _ => rfl

theorem SameByPeak.perm {l l' : List (K × K)} (h : SameByPeak l l') : l.Perm l' := by
  classical
  rw [List.perm_iff_count]
  intro e
  have hc : ∀ t : List (K × K), t.count e = (t.filter (fun x => decide (x.1 = e.1))).count e := by
    intro t
    rw [List.count_filter]
    simp
  rw [hc l, hc l', h e.1]

theorem SameByPeak.filter {l l' : List (K × K)} (h : SameByPeak l l') (f : K × K → Bool) :
    SameByPeak (l.filter f) (l'.filter f) := by
  intro p
  have hc : ∀ t : List (K × K), (t.filter f).filter (fun e => decide (e.1 = p)) =
      (t.filter (fun e => decide (e.1 = p))).filter f := by
    intro t
    rw [List.filter_filter, List.filter_filter]
    congr 1
    funext e
    exact Bool.and_comm _ _
  rw [hc, hc, h p]

theorem SameByPeak.nil {l : List (K × K)} (h : SameByPeak [] l) : l = [] :=
  List.Perm.nil_eq h.perm |>.symm

theorem allPairs_same {p p' : List K} (h : p'.Perm p) (lines : List K) :
    SameByPeak (allPairs p lines) (allPairs p' lines) := by
  intro x
  have key : ∀ l : List K, (allPairs l lines).filter (fun e => decide (e.1 = x)) =
      (List.replicate (l.count x) x).flatMap (fun q => lines.map (fun v => (q, v))) := by
    intro l
    unfold allPairs
    induction l with
    | nil => rfl
    | cons a t ih =>
      rw [List.flatMap_cons, List.filter_append, ih, List.count_cons]
      by_cases hax : a = x
      · subst hax
        rw [if_pos (by simp), List.replicate_succ, List.flatMap_cons]
        congr 1
        rw [List.filter_eq_self]
        intro e he
        obtain ⟨v, _, rfl⟩ := List.mem_map.1 he
        simp
      · rw [if_neg (by simpa using hax), Nat.add_zero]
        have : (lines.map (fun v => (a, v))).filter (fun e => decide (e.1 = x)) = [] := by
          rw [List.filter_eq_nil_iff]
          intro e he
          obtain ⟨v, _, rfl⟩ := List.mem_map.1 he
          simpa using hax
        rw [this, List.nil_append]
  rw [key, key, h.count_eq]

theorem generatePairs_same {p p' : List K} (h : p'.Perm p) (lines : List K) (g : Option (Polygon K)) :
    (∃ e, generatePairs p lines g = .error e ∧ generatePairs p' lines g = .error e) ∨
    ∃ r r', generatePairs p lines g = .ok r ∧ generatePairs p' lines g = .ok r' ∧ SameByPeak r r' := by
  have hs := allPairs_same h lines
  unfold generatePairs
  cases g with
  | none => exact .inr ⟨_, _, rfl, rfl, hs⟩
  | some g =>
    dsimp only
    by_cases hf : g.flat = true
    · rw [if_pos hf, if_pos hf]; exact .inl ⟨_, rfl, rfl⟩
    · rw [if_neg hf, if_neg hf]
      have hn : allPairs p lines = [] ↔ allPairs p' lines = [] := by
        constructor <;> intro hh
        · rw [hh] at hs; exact hs.nil
        · have := hs.perm; rw [hh] at this; exact this.eq_nil
      by_cases he : allPairs p lines = []
      · rw [if_pos he, if_pos (hn.1 he)]; exact .inl ⟨_, rfl, rfl⟩
      · rw [if_neg he, if_neg (fun hh => he (hn.2 hh)), boolMask_map_pred, boolMask_map_pred]
        exact .inr ⟨_, _, rfl, rfl, hs.filter _⟩

/-! ### The transform of permuted points -/

theorem listMax_perm {a a' : K} {l l' : List K} (h : (a :: l).Perm (a' :: l')) : listMax a l = listMax a' l' := by
  apply le_antisymm
  · have := h.mem_iff.1 (listMax_mem a l)
    rcases List.mem_cons.1 this with hh | hh
    · rw [hh]; exact (le_listMax a' l').1
    · exact (le_listMax a' l').2 _ hh
  · have := h.mem_iff.2 (listMax_mem a' l')
    rcases List.mem_cons.1 this with hh | hh
    · rw [hh]; exact (le_listMax a l).1
    · exact (le_listMax a l).2 _ hh

theorem listMin_perm {a a' : K} {l l' : List K} (h : (a :: l).Perm (a' :: l')) : listMin a l = listMin a' l' := by
  apply le_antisymm
  · have := h.mem_iff.2 (listMin_mem a' l')
    rcases List.mem_cons.1 this with hh | hh
    · rw [hh]; exact (listMin_le a l).1
    · exact (listMin_le a l).2 _ hh
  · have := h.mem_iff.1 (listMin_mem a l)
    rcases List.mem_cons.1 this with hh | hh
    · rw [hh]; exact (listMin_le a' l').1
    · exact (listMin_le a' l').2 _ hh

theorem outerEdges_perm {s s' : List K} (h : s.Perm s') : outerEdges s = outerEdges s' := by
  cases s with
  | nil => rw [h.nil_eq]
  | cons a l =>
    cases s' with
    | nil => exact absurd h.eq_nil (by simp)
    | cons a' l' =>
      unfold outerEdges
      dsimp only
      rw [listMax_perm h, listMin_perm h]

theorem binEdges_perm {s s' : List K} (h : s.Perm s') (n : Nat) : binEdges s n = binEdges s' n := by
  unfold binEdges
  rw [outerEdges_perm h]

theorem histogram2d_perm {pts pts' : List (K × K)} (h : pts.Perm pts') (m n : Nat) :
    histogram2d pts m n = histogram2d pts' m n := by
  unfold histogram2d
  rw [binEdges_perm (h.map _), binEdges_perm (h.map _)]
  simp only [h.countP_eq]

theorem houghGrid_perm (a b c d : K) {xy xy' : List (K × K)} (h : xy.Perm xy') (n : Nat) :
    (houghGrid a b c d xy n).Perm (houghGrid a b c d xy' n) := by
  rw [houghGrid_eq, houghGrid_eq]
  exact List.Perm.flatMap_left _ fun s _ => (h.map _).filter _

theorem bruteLines_perm {argsort : List K → List Nat} (hs : IsArgsort argsort) (a b c d : K)
    {xy xy' : List (K × K)} (h : xy.Perm xy') :
    (bruteLines argsort a b c d xy).Perm (bruteLines argsort a b c d xy') := by
  unfold bruteLines
  apply List.Perm.filter
  rw [pairLines_eq, pairLines_eq]
  refine twoOf_map_perm (fun p q => (lineThrough p q).toList) (fun p q => by rw [lineThrough_comm]) ?_
  exact (takeIdx_argsort_perm argsort hs xy).trans (h.trans (takeIdx_argsort_perm argsort hs xy').symm)

/-! ### Calibrators that differ in the order of their peaks -/

/-- The stored combinations agree peak by peak. -/
inductive PairRel : Option (PairStore K) → Option (PairStore K) → Prop
  | none : PairRel none none
  | noColumns : PairRel (some .noColumns) (some .noColumns)
  | array (l l' : List (K × K)) (h : SameByPeak l l') : PairRel (some (.array l)) (some (.array l'))

/-- The stored Hough points are the same up to order. -/
inductive PointRel : Option (PointStore K) → Option (PointStore K) → Prop
  | same (t : Option (PointStore K)) : PointRel t t
  | array (l l' : List (K × K)) (h : l.Perm l') : PointRel (some (.array l)) (some (.array l'))

/-- The calibrator with other peaks, combinations and Hough points. -/
def Cal.reorder (c : Cal K) (p : List K) (q : Option (PairStore K)) (t s : Option (PointStore K)) : Cal K :=
  { c with peaks := p, pairs := q, ht := { c.ht with points := t }, houghPoints := s }

/-- The calibrators differ only in the order of the peaks and of what is generated from them. -/
def CalOrder (c c' : Cal K) : Prop :=
  ∃ p q t s, c' = c.reorder p q t s ∧ p.Perm c.peaks ∧ PairRel c.pairs q ∧ PointRel c.ht.points t ∧
    PointRel c.houghPoints s

theorem generate_order {c c' : Cal K} (h : CalOrder c c') (lines : List K) :
    CalOrder (c.generatePairs lines).1 (c'.generatePairs lines).1 ∧
      (c'.generatePairs lines).2 = (c.generatePairs lines).2 := by
  obtain ⟨p, q, t, s, rfl, hp, hq, ht, hs⟩ := id h
  unfold Cal.generatePairs
  rw [show (c.reorder p q t s).constrainPoly = c.constrainPoly from rfl]
  split
  · rw [show (c.reorder p q t s).candTol = c.candTol from rfl,
      show (c.reorder p q t s).props = c.props from rfl,
      show (c.reorder p q t s).peaks = p from rfl]
    cases c.candTol with
    | none => exact ⟨h, rfl⟩
    | some tol =>
      cases c.props.pixelList with
      | nil => exact ⟨h, rfl⟩
      | cons a l =>
        dsimp only
        rw [show (c.reorder p q t s).polygon tol (listMax a l) = c.polygon tol (listMax a l) from rfl]
        rcases generatePairs_same hp lines (some (c.polygon tol (listMax a l))) with
          ⟨e, h1, h2⟩ | ⟨r, r', h1, h2, hr⟩
        · rw [h1, h2]; exact ⟨h, rfl⟩
        · rw [h1, h2]
          exact ⟨⟨p, some (.array r'), t, s, rfl, hp, .array r r' hr, ht, hs⟩, rfl⟩
  · refine ⟨⟨p, _, t, s, rfl, hp, ?_, ht, hs⟩, rfl⟩
    have hsame := allPairs_same hp lines
    change PairRel (some (if allPairs c.peaks lines = [] then .noColumns else .array (allPairs c.peaks lines)))
      (some (if allPairs p lines = [] then .noColumns else .array (allPairs p lines)))
    by_cases hn : allPairs c.peaks lines = []
    · rw [if_pos hn]
      rw [hn] at hsame
      rw [if_pos hsame.nil]
      exact .noColumns
    · rw [if_neg hn, if_neg]
      · exact .array _ _ hsame
      · intro hh
        have := hsame.perm
        rw [hh] at this
        exact hn this.eq_nil

theorem PairRel.inv {a b : Option (PairStore K)} (h : PairRel a b) :
    (a = Option.none ∧ b = Option.none) ∨ (a = some .noColumns ∧ b = some .noColumns) ∨
      ∃ l l', a = some (.array l) ∧ b = some (.array l') ∧ SameByPeak l l' := by
  cases h with
  | none => exact .inl ⟨rfl, rfl⟩
  | noColumns => exact .inr (.inl ⟨rfl, rfl⟩)
  | array l l' h => exact .inr (.inr ⟨l, l', rfl, rfl, h⟩)

theorem PointRel.isNone {a b : Option (PointStore K)} (h : PointRel a b) : b.isNone = a.isNone := by
  cases h <;> rfl

/-- The stored combinations are the same up to order. -/
inductive PairPerm : Option (PairStore K) → Option (PairStore K) → Prop
  | none : PairPerm none none
  | noColumns : PairPerm (some .noColumns) (some .noColumns)
  | array (l l' : List (K × K)) (h : l.Perm l') : PairPerm (some (.array l)) (some (.array l'))

theorem PairPerm.inv {a b : Option (PairStore K)} (h : PairPerm a b) :
    (a = Option.none ∧ b = Option.none) ∨ (a = some .noColumns ∧ b = some .noColumns) ∨
      ∃ l l', a = some (.array l) ∧ b = some (.array l') ∧ l.Perm l' := by
  cases h with
  | none => exact .inl ⟨rfl, rfl⟩
  | noColumns => exact .inr (.inl ⟨rfl, rfl⟩)
  | array l l' h => exact .inr (.inr ⟨l, l', rfl, rfl, h⟩)

theorem PairRel.perm {a b : Option (PairStore K)} (h : PairRel a b) : PairPerm a b := by
  cases h with
  | none => exact .none
  | noColumns => exact .noColumns
  | array l l' h => exact .array l l' h.perm

/-- The transform does not depend on the order of the combinations: only the order of the Hough points does. -/
theorem doHough_perm (c : Cal K) (p : List K) {q : Option (PairStore K)} {t s : Option (PointStore K)}
    (hq : PairPerm c.pairs q) (ht : PointRel c.ht.points t) (hs : PointRel c.houghPoints s)
    {ak : List K → List Nat} (hk : IsArgsort ak) (an : List Nat → List Nat) (b : Bool) :
    ∃ t' s', ((c.reorder p q t s).doHough ak an b).1 = (c.doHough ak an b).1.reorder p q t' s' ∧
      PointRel (c.doHough ak an b).1.ht.points t' ∧ PointRel (c.doHough ak an b).1.houghPoints s' ∧
      ((c.reorder p q t s).doHough ak an b).2 = (c.doHough ak an b).2 := by
  have e1 : (c.reorder p q t s).pairs = q := rfl
  have e2 : (c.reorder p q t s).hough = c.hough := rfl
  have e3 : (c.reorder p q t s).ht = { c.ht with points := t } := rfl
  unfold Cal.doHough
  rw [e1, e2, e3]
  have hft : ∀ x : K, (PyFloat.fin x).toFinite = some x := fun _ => rfl
  rcases hq.inv with ⟨h1, h2⟩ | ⟨h1, h2⟩ | ⟨l, l', h1, h2, hl⟩
  · subst h2
    rw [h1]
    exact ⟨t, s, rfl, ht, hs, rfl⟩
  · subst h2
    rw [h1]
    dsimp only
    unfold Hough.setConstraints
    cases c.hough.minSlope.toFinite with
    | none => exact ⟨t, s, rfl, ht, hs, rfl⟩
    | some a =>
      cases c.hough.maxSlope.toFinite with
      | none => exact ⟨t, s, rfl, ht, hs, rfl⟩
      | some b => exact ⟨t, s, rfl, ht, hs, rfl⟩
  · subst h2
    rw [h1]
    dsimp only
    unfold Hough.setConstraints
    cases c.hough.minSlope.toFinite with
    | none => exact ⟨t, s, rfl, ht, hs, rfl⟩
    | some a1 =>
      cases c.hough.maxSlope.toFinite with
      | none => exact ⟨t, s, rfl, ht, hs, rfl⟩
      | some a2 =>
        simp only [hft]
        have hperm := hl
        cases b with
        | true =>
          simp only [if_true]
          unfold Hough.generateBrute
          rw [hperm.length_eq]
          by_cases hlen : l'.length < 2
          · simp only [if_pos hlen]
            exact ⟨t, s, by simp [Cal.reorder], ht, hs, by simp⟩
          · simp only [if_neg hlen]
            have hb := bruteLines_perm hk a1 a2 c.hough.minIntercept c.hough.maxIntercept hperm
            generalize bruteLines ak a1 a2 c.hough.minIntercept c.hough.maxIntercept l = pts at hb
            generalize bruteLines ak a1 a2 c.hough.minIntercept c.hough.maxIntercept l' = pts' at hb
            unfold Hough.bin
            dsimp only
            rw [histogram2d_perm hb, binEdges_perm (hb.map Prod.fst), binEdges_perm (hb.map Prod.snd)]
            by_cases hz : c.hough.xbins.toNat = 0 ∨ c.hough.ybins.toNat = 0
            · simp only [if_pos hz]
              exact ⟨some (.array pts'), s, by simp [Cal.reorder], .array pts pts' hb, hs, by simp⟩
            · simp only [if_neg hz]
              exact ⟨some (.array pts'), some (.array pts'), by simp [Cal.reorder], .array pts pts' hb,
                .array pts pts' hb, by simp⟩
        | false =>
          simp only [Bool.false_eq_true, if_false]
          unfold Hough.generate
          dsimp only
          have hnil : l = [] ↔ l' = [] := by
            constructor <;> intro hh
            · subst hh; exact hperm.nil_eq.symm
            · subst hh; exact hperm.eq_nil
          by_cases hlen : c.hough.numSlopes.toNat = 0 ∨ l' = []
          · have hlen' : c.hough.numSlopes.toNat = 0 ∨ l = [] := by rw [hnil]; exact hlen
            simp only [if_pos hlen, if_pos hlen']
            exact ⟨t, s, by simp [Cal.reorder], ht, hs, by simp⟩
          · have hlen' : ¬ (c.hough.numSlopes.toNat = 0 ∨ l = []) := by rw [hnil]; exact hlen
            simp only [if_neg hlen, if_neg hlen']
            have hb := houghGrid_perm a1 a2 c.hough.minIntercept c.hough.maxIntercept hperm c.hough.numSlopes.toNat
            generalize houghGrid a1 a2 c.hough.minIntercept c.hough.maxIntercept l c.hough.numSlopes.toNat = pts at hb
            generalize houghGrid a1 a2 c.hough.minIntercept c.hough.maxIntercept l' c.hough.numSlopes.toNat = pts' at hb
            unfold Hough.bin
            dsimp only
            rw [histogram2d_perm hb, binEdges_perm (hb.map Prod.fst), binEdges_perm (hb.map Prod.snd)]
            by_cases hz : c.hough.xbins.toNat = 0 ∨ c.hough.ybins.toNat = 0
            · simp only [if_pos hz]
              exact ⟨some (.array pts'), s, by simp [Cal.reorder], .array pts pts' hb, hs, by simp⟩
            · simp only [if_neg hz]
              exact ⟨some (.array pts'), some (.array pts'), by simp [Cal.reorder], .array pts pts' hb,
                .array pts pts' hb, by simp⟩

theorem hough_order {c c' : Cal K} (h : CalOrder c c') {ak : List K → List Nat} (hk : IsArgsort ak)
    (an : List Nat → List Nat) (b : Bool) :
    CalOrder (c.doHough ak an b).1 (c'.doHough ak an b).1 ∧ (c'.doHough ak an b).2 = (c.doHough ak an b).2 := by
  obtain ⟨p, q, t, s, rfl, hp, hq, ht, hs⟩ := h
  obtain ⟨t', s', h1, h2, h3, h4⟩ := doHough_perm c p hq.perm ht hs hk an b
  obtain ⟨a1, a2, a3, hf⟩ := c.doHough_frame ak an b
  exact ⟨⟨p, q, t', s', h1, by rw [hf]; exact hp, by rw [hf]; exact hq, h2, h3⟩, h4⟩

/-- The worlds differ only in the order of the peaks and of what is generated from them. -/
def PeakOrder (w w' : World K) : Prop := CalOrder w.cal w'.cal ∧ w'.atlases = w.atlases

theorem PeakOrder.generate {w w' : World K} (h : PeakOrder w w') :
    PeakOrder w.generatePairs.1 w'.generatePairs.1 ∧ w'.generatePairs.2 = w.generatePairs.2 := by
  have hl : w'.atlasLines = w.atlasLines := by
    obtain ⟨⟨p, q, t, s, hc, _⟩, ha⟩ := h
    unfold World.atlasLines
    rw [ha, hc]
    rfl
  unfold World.generatePairs
  rw [hl]
  cases w.atlasLines with
  | error e => exact ⟨h, rfl⟩
  | ok lines =>
    obtain ⟨h1, h2⟩ := generate_order h.1 lines
    exact ⟨⟨h1, h.2⟩, h2⟩

theorem PeakOrder.setAtlas {w w' : World K} (h : PeakOrder w w') (i : Nat) (tol : K) (b : Bool) :
    PeakOrder (w.setAtlas i tol b).1 (w'.setAtlas i tol b).1 ∧ (w'.setAtlas i tol b).2 = (w.setAtlas i tol b).2 := by
  obtain ⟨⟨p, q, t, s, hc, hp, hq, ht, hs⟩, ha⟩ := h
  unfold World.setAtlas
  refine PeakOrder.generate ⟨⟨p, q, t, s, ?_, hp, hq, ht, hs⟩, ha⟩
  rw [hc]
  rfl

theorem PeakOrder.modify {w w' : World K} (h : PeakOrder w w') (i : Nat) (f : Atlas K → Atlas K) :
    PeakOrder (w.modifyAtlas i f) (w'.modifyAtlas i f) := by
  refine ⟨h.1, ?_⟩
  change w'.atlases.modify i f = w.atlases.modify i f
  rw [h.2]

theorem load_order (h : Hough K) (t : Option (PointStore K)) (ht : PointRel h.points t) (d : Disk K)
    (f ty : List Char) : ∃ t', (({ h with points := t } : Hough K).load d f ty).1 =
      { (h.load d f ty).1 with points := t' } ∧ PointRel (h.load d f ty).1.points t' := by
  have ha : ∀ x, ∃ t', (({ h with points := t } : Hough K).assign x).1 = { (h.assign x).1 with points := t' } ∧
      PointRel (h.assign x).1.points t' := by
    intro x
    refine ⟨(h.assign x).1.points, ?_, .same _⟩
    unfold Hough.assign
    repeat' split
    all_goals simp_all
  unfold Hough.load
  split
  · split
    · exact ⟨t, rfl, ht⟩
    · exact ha _
    · exact ⟨t, rfl, ht⟩
  · split
    · split
      · exact ⟨t, rfl, ht⟩
      · exact ha _
      · exact ⟨t, rfl, ht⟩
    · exact ⟨t, rfl, ht⟩

theorem PeakOrder.step (E : CalEnv K) (hE : IsArgsort E.argsortK) {w w' : World K} (h : PeakOrder w w')
    (op : SetOp K) : PeakOrder (w.step E op).1 (w'.step E op).1 ∧ (w'.step E op).2 = (w.step E op).2 := by
  obtain ⟨⟨p, q, t, s, hc, hp, hq, ht, hs⟩, ha⟩ := id h
  obtain ⟨atl', c'⟩ := w'
  dsimp only at hc ha
  subst hc
  subst ha
  have hat : (w.cal.reorder p q t s).atlas = w.cal.atlas := rfl
  have hho : (w.cal.reorder p q t s).hough = w.cal.hough := rfl
  have hpr : (w.cal.reorder p q t s).props = w.cal.props := rfl
  cases op with
  | setCalibrator a b c => exact ⟨⟨⟨p, q, t, s, rfl, hp, hq, ht, hs⟩, rfl⟩, rfl⟩
  | useMatplotlib => exact ⟨⟨⟨p, q, t, s, rfl, hp, hq, ht, hs⟩, rfl⟩, rfl⟩
  | usePlotly => exact ⟨⟨⟨p, q, t, s, rfl, hp, hq, ht, hs⟩, rfl⟩, rfl⟩
  | setHough a =>
    simp only [World.step]
    unfold World.setHough
    dsimp only
    rw [hho, hpr, hat]
    generalize HoughSet.apply (some w.cal.hough) a w.cal.props.pixelList = r
    cases r.2 with
    | error e => exact ⟨⟨⟨p, q, t, s, rfl, hp, hq, ht, hs⟩, rfl⟩, rfl⟩
    | ok u =>
      cases hal : w.cal.atlas with
      | none => exact ⟨⟨⟨p, q, t, s, rfl, hp, hq, ht, hs⟩, rfl⟩, rfl⟩
      | some i =>
        dsimp only
        exact PeakOrder.generate ⟨⟨p, q, t, s, rfl, hp, hq, ht, hs⟩, rfl⟩
  | setRansac a => exact ⟨⟨⟨p, q, t, s, rfl, hp, hq, ht, hs⟩, rfl⟩, rfl⟩
  | setAtlas i tol b => exact h.setAtlas i tol b
  | addAtlas a tol b =>
    simp only [World.step]
    unfold World.addAtlas
    dsimp only
    rw [hat, hho]
    cases w.cal.atlas with
    | none =>
      dsimp only
      cases Atlas.new E.env (w.cal.hough.fillLimits a) w.cal.hough.rangeTol with
      | error e => exact ⟨h, rfl⟩
      | ok at_ =>
        have h' : PeakOrder { w with atlases := w.atlases ++ [at_] }
            ⟨w.atlases ++ [at_], w.cal.reorder p q t s⟩ := ⟨h.1, rfl⟩
        exact h'.setAtlas _ tol b
    | some i =>
      dsimp only
      cases w.atlases[i]? with
      | none => exact ⟨h, rfl⟩
      | some at_ =>
        dsimp only
        have h' := h.modify i (fun _ => (Atlas.add E.env at_ (w.cal.hough.fillLimits a)).1)
        cases (Atlas.add E.env at_ (w.cal.hough.fillLimits a)).2 with
        | error e => exact ⟨h', rfl⟩
        | ok u => exact h'.setAtlas i tol b
  | addUserAtlas f tol b =>
    simp only [World.step]
    unfold World.addUserAtlas
    have he : PeakOrder (w.ensureAtlas E.emptyAtlas)
        (World.ensureAtlas E.emptyAtlas ⟨w.atlases, w.cal.reorder p q t s⟩) := by
      unfold World.ensureAtlas
      dsimp only
      rw [hat]
      cases w.cal.atlas with
      | none => exact ⟨⟨p, q, t, s, rfl, hp, hq, ht, hs⟩, rfl⟩
      | some i => exact h
    generalize w.ensureAtlas E.emptyAtlas = v at he
    generalize World.ensureAtlas E.emptyAtlas ⟨w.atlases, w.cal.reorder p q t s⟩ = v' at he
    dsimp only
    have hva : v'.cal.atlas = v.cal.atlas := by
      obtain ⟨⟨_, _, _, _, hcc, _⟩, _⟩ := he
      rw [hcc]; rfl
    rw [hva, he.2]
    cases v.cal.atlas with
    | none => exact ⟨he, rfl⟩
    | some i =>
      dsimp only
      cases v.atlases[i]? with
      | none => exact ⟨he, rfl⟩
      | some at_ =>
        dsimp only
        have h' := he.modify i (fun _ => (f at_).1)
        cases (f at_).2 with
        | error e => exact ⟨h', rfl⟩
        | ok u => exact h'.setAtlas i tol b
  | removeRange v tol =>
    simp only [World.step]
    unfold World.removeRange
    dsimp only
    rw [hat]
    cases w.cal.atlas with
    | none => exact ⟨h, rfl⟩
    | some i => exact ⟨h.modify i _, rfl⟩
  | clearAtlas =>
    simp only [World.step]
    unfold World.clearAtlas
    dsimp only
    rw [hat]
    cases w.cal.atlas with
    | none => exact ⟨h, rfl⟩
    | some i => exact ⟨h.modify i _, rfl⟩
  | editAtlas i f => exact ⟨h.modify i f, rfl⟩
  | doHough b =>
    obtain ⟨h1, h2⟩ := hough_order h.1 hE E.argsortN b
    exact ⟨⟨h1, rfl⟩, h2⟩
  | loadHough d f ty =>
    obtain ⟨t', h1, h2⟩ := load_order w.cal.ht t ht d f ty
    refine ⟨⟨⟨p, q, t', s, ?_, hp, hq, h2, hs⟩, rfl⟩, load_outcome _ _ _ _ _⟩
    simp only [World.step, Cal.loadHough]
    rw [show (w.cal.reorder p q t s).ht = { w.cal.ht with points := t } from rfl, h1]
    rfl
  | setKnown a v =>
    simp only [World.step]
    unfold Cal.setKnown
    split
    · split
      · split
        · exact ⟨⟨⟨p, q, t, s, rfl, hp, hq, ht, hs⟩, rfl⟩, rfl⟩
        · exact ⟨h, rfl⟩
      · exact ⟨h, rfl⟩
    · exact ⟨h, rfl⟩

/-! ### The search -/

theorem npUnique_congr {l l' : List K} (h : ∀ x, x ∈ l ↔ x ∈ l') : npUnique l = npUnique l' := by
  refine List.Perm.eq_of_pairwise (le := (· ≤ ·)) (fun a b _ _ h1 h2 => le_antisymm h1 h2)
    ((npUnique_sorted l).imp fun h => h.le) ((npUnique_sorted l').imp fun h => h.le) ?_
  rw [List.perm_ext_iff_of_nodup (npUnique_nodup l) (npUnique_nodup l')]
  intro a
  rw [mem_npUnique, mem_npUnique, h]

theorem mostCommon_same (argsort : List K → List Nat) {cs cs' : List (Cand K)} (h : Aligned cs) (h' : Aligned cs')
    (hr : ∀ p : K, (candRows cs).filter (fun e => decide (e.1 = p)) =
      (candRows cs').filter (fun e => decide (e.1 = p))) (n : Int) (wt : Bool) :
    mostCommon argsort cs n wt = mostCommon argsort cs' n wt := by
  rw [mostCommon_eq argsort cs n wt h, mostCommon_eq argsort cs' n wt h']
  generalize candRows cs = r at *
  generalize candRows cs' = r' at *
  have hmem : ∀ x, x ∈ r.map (fun e => e.1) ↔ x ∈ r'.map (fun e => e.1) := by
    have one : ∀ (u : List (K × K × K)) (x : K), x ∈ u.map (fun e => e.1) ↔
        u.filter (fun e => decide (e.1 = x)) ≠ [] := by
      intro u x
      rw [List.mem_map, Ne, List.filter_eq_nil_iff]
      push Not
      simp
    intro x
    rw [one, one, hr]
  have hw : ∀ p, Spec.wavelengthsOf r p = Spec.wavelengthsOf r' p := by
    intro p; unfold Spec.wavelengthsOf; rw [hr]
  have h2 : ∀ p v, r.filter (fun e => decide (e.1 = p) && decide (e.2.1 = v)) =
      r'.filter (fun e => decide (e.1 = p) && decide (e.2.1 = v)) := by
    intro p v
    have : ∀ u : List (K × K × K), u.filter (fun e => decide (e.1 = p) && decide (e.2.1 = v)) =
        (u.filter (fun e => decide (e.1 = p))).filter (fun e => decide (e.2.1 = v)) := by
      intro u
      rw [List.filter_filter]
      congr 1; funext e; exact Bool.and_comm _ _
    rw [this, this, hr]
  have hsc : ∀ p v, candScore wt r p v = candScore wt r' p v := by
    intro p v
    unfold candScore Spec.totalWeight Spec.multiplicity
    rw [h2]
  have hpb : ∀ p, peakBlock argsort n wt r p = peakBlock argsort n wt r' p := by
    intro p
    unfold peakBlock
    simp only [hw, hsc]
  rw [npUnique_congr hmem]
  simp only [hw, hpb]

theorem candRows_linear (wt : K → K → K) (tol : K) (lines pairs : List (K × K)) (p : K) :
    (candRows (candidatesLinear wt tol lines pairs)).filter (fun e => decide (e.1 = p)) =
      lines.flatMap (fun l => ((pairs.filter (fun e => decide (e.1 = p))).filter
        (fun e => decide (|l.1 * e.1 + l.2 - e.2| ≤ tol))).map
          (fun e => (e.1, e.2, wt e.2 (l.1 * e.1 + l.2)))) := by
  rw [candidatesLinear_eq]
  unfold candRows
  rw [List.flatMap_map, List.filter_flatMap]
  apply List.flatMap_congr
  intro l _
  dsimp only
  have hz : ∀ t : List (K × K), (t.map Prod.fst).zip ((t.map Prod.snd).zip
      (t.map (fun e => wt e.2 (l.1 * e.1 + l.2)))) = t.map (fun e => (e.1, e.2, wt e.2 (l.1 * e.1 + l.2))) := by
    intro t
    induction t with
    | nil => rfl
    | cons x t ih => simp [ih]
  rw [hz, List.filter_map, List.filter_filter, List.filter_filter]
  congr 2
  funext e
  exact Bool.and_comm _ _

theorem candidates_order {c c' : Cal K} (h : CalOrder c c') (hlin : c.ransac.linear = true) (F : FitEnv K)
    (k : Kernels K) (lines : List K) (tol : K) (u : Nat → K) :
    (∃ e, c.candidates F k lines tol u = .error e ∧ c'.candidates F k lines tol u = .error e) ∨
    ∃ cs cs', c.candidates F k lines tol u = .ok cs ∧ c'.candidates F k lines tol u = .ok cs' ∧
      c.candidateLists F cs = c'.candidateLists F cs' := by
  obtain ⟨p, q, t, s, rfl, hp, hq, ht, hs⟩ := id h
  have hcl : ∀ cs cs' : List (Cand K), mostCommon F.argsortK cs c.ransac.topN c.ransac.weighted =
      mostCommon F.argsortK cs' c.ransac.topN c.ransac.weighted →
      c.candidateLists F cs = (c.reorder p q t s).candidateLists F cs' := by
    intro cs cs' he
    unfold Cal.candidateLists
    rw [show (c.reorder p q t s).ransac = c.ransac from rfl, he]
  have e1 : (c.reorder p q t s).houghLines = c.houghLines := rfl
  have e2 : (c.reorder p q t s).ransac = c.ransac := rfl
  have e3 : (c.reorder p q t s).pairs = q := rfl
  have e4 : (c.reorder p q t s).hough = c.hough := rfl
  unfold Cal.candidates
  rw [e1, e2, e3, e4]
  cases c.houghLines with
  | none => exact .inl ⟨_, rfl, rfl⟩
  | some hl =>
    simp only [if_pos hlin]
    rcases hq.inv with ⟨h1, h2⟩ | ⟨h1, h2⟩ | ⟨l, l', h1, h2, hll⟩
    · rw [h1, h2]; exact .inl ⟨_, rfl, rfl⟩
    · rw [h1, h2]
      dsimp only
      by_cases hn : hl = []
      · rw [if_pos hn]; exact .inr ⟨_, _, rfl, rfl, hcl _ _ rfl⟩
      · rw [if_neg hn]; exact .inl ⟨_, rfl, rfl⟩
    · rw [h1, h2]
      refine .inr ⟨_, _, rfl, rfl, hcl _ _ ?_⟩
      apply mostCommon_same
      · intro cd hcd
        rw [candidatesLinear_eq] at hcd
        obtain ⟨_, _, rfl⟩ := List.mem_map.1 hcd
        simp
      · intro cd hcd
        rw [candidatesLinear_eq] at hcd
        obtain ⟨_, _, rfl⟩ := List.mem_map.1 hcd
        simp
      · intro x
        rw [candRows_linear, candRows_linear, hll x]

variable [FloorRing K]

theorem solveLists_order {c c' : Cal K} (h : CalOrder c c') (F : FitEnv K) (k : Kernels K) (a : FitArgs K)
    (deg : Nat) (rnd : FitRandom K) (x y : List K) :
    CalOrder (c.solveLists F k a deg rnd x y).1 (c'.solveLists F k a deg rnd x y).1 ∧
      (c'.solveLists F k a deg rnd x y).2 = (c.solveLists F k a deg rnd x y).2 := by
  obtain ⟨p, q, t, s, rfl, hp, hq, ht, hs⟩ := id h
  unfold Cal.solveLists
  dsimp only
  have e1 : (c.reorder p q t s).ransac = c.ransac := rfl
  rw [e1]
  generalize makeTrials a.brute c.ransac.sampleSize.toNat x.length (npUnique x).length a.maxTries = tr
  have ed : ({ c.reorder p q t s with ransac := { c.ransac with sampleSize := tr.2 } } : Cal K).density k =
      ({ c with ransac := { c.ransac with sampleSize := tr.2 } } : Cal K).density k := rfl
  rw [ed]
  cases ({ c with ransac := { c.ransac with sampleSize := tr.2 } } : Cal K).density k with
  | error e => exact ⟨⟨p, q, t, s, rfl, hp, hq, ht, hs⟩, rfl⟩
  | ok d =>
    dsimp only
    cases startCost k x y a.fitCoeff with
    | error e => exact ⟨⟨p, q, t, s, rfl, hp, hq, ht, hs⟩, rfl⟩
    | ok ce =>
      obtain ⟨cost, err⟩ := ce
      dsimp only
      have ec : ({ c.reorder p q t s with ransac := { c.ransac with sampleSize := tr.2 } } : Cal K).ransacCfg
          deg tr.2 x y d F.oneDim =
          ({ c with ransac := { c.ransac with sampleSize := tr.2 } } : Cal K).ransacCfg deg tr.2 x y d F.oneDim := by
        unfold Cal.ransacCfg
        dsimp only [Cal.reorder]
        rw [hp.length_eq]
      rw [ec, show (c.reorder p q t s).matchedPeaks = c.matchedPeaks from rfl,
        show (c.reorder p q t s).matchedAtlas = c.matchedAtlas from rfl]
      cases RansacCfg.run k (({ c with ransac := { c.ransac with sampleSize := tr.2 } } : Cal K).ransacCfg
          deg tr.2 x y d F.oneDim) rnd.tape tr.1
          ⟨cost, err, none, none, 0, c.matchedPeaks, c.matchedAtlas⟩ with
      | running b => exact ⟨⟨p, q, t, s, rfl, hp, hq, ht, hs⟩, rfl⟩
      | raised e b => exact ⟨⟨p, q, t, s, rfl, hp, hq, ht, hs⟩, rfl⟩
      | finished b => exact ⟨⟨p, q, t, s, rfl, hp, hq, ht, hs⟩, rfl⟩

theorem solve_order {c c' : Cal K} (h : CalOrder c c') (hlin : c.ransac.linear = true) (F : FitEnv K)
    (k : Kernels K) (lines : List K) (a : FitArgs K) (deg : Nat) (rnd : FitRandom K) :
    CalOrder (c.solve F k lines a deg rnd).1 (c'.solve F k lines a deg rnd).1 ∧
      (c'.solve F k lines a deg rnd).2 = (c.solve F k lines a deg rnd).2 := by
  unfold Cal.solve
  rcases candidates_order h hlin F k lines a.candTol rnd.uniform with ⟨e, h1, h2⟩ | ⟨cs, cs', h1, h2, h3⟩
  · rw [h1, h2]; exact ⟨h, rfl⟩
  · rw [h1, h2]
    dsimp only
    rw [← h3]
    by_cases hd : (npUnique (c.candidateLists F cs).1).length ≤ deg
    · rw [if_pos hd, if_pos hd]; exact ⟨h, rfl⟩
    · rw [if_neg hd, if_neg hd]
      exact solveLists_order h F k a deg rnd _ _

theorem finishFit_order {c c' : Cal K} (h : CalOrder c c') (n : Nat) (out : SolveOut K) :
    CalOrder (c.finishFit n out).1 (c'.finishFit n out).1 ∧ (c'.finishFit n out).2 = (c.finishFit n out).2 := by
  obtain ⟨p, q, t, s, rfl, hp, hq, ht, hs⟩ := id h
  unfold Cal.finishFit
  rw [show (c.reorder p q t s).peaks = p from rfl, hp.length_eq]
  cases (utilisation out.inliers c.peaks.length : PyRes (PyFloat K)) with
  | error e => exact ⟨h, rfl⟩
  | ok v =>
    dsimp only
    cases (utilisation out.inliers n : PyRes (PyFloat K)) with
    | error e => exact ⟨h, rfl⟩
    | ok au =>
      dsimp only
      cases out.coeffs with
      | none => exact ⟨h, rfl⟩
      | some co => exact ⟨⟨p, q, t, s, rfl, hp, hq, ht, hs⟩, rfl⟩

theorem PeakOrder.fit {w w' : World K} (h : PeakOrder w w') (hlin : w.cal.ransac.linear = true) (F : FitEnv K)
    (hF : IsArgsort F.argsortK) (a : FitArgs K) (rnd : FitRandom K) :
    PeakOrder (w.fit F a rnd).1 (w'.fit F a rnd).1 ∧ (w'.fit F a rnd).2 = (w.fit F a rnd).2 := by
  obtain ⟨⟨p, q, t, s, hc, hp, hq, ht, hs⟩, ha⟩ := id h
  have hl : w'.atlasLines = w.atlasLines := by
    unfold World.atlasLines
    rw [ha, hc]
    rfl
  have h0 : CalOrder { w.cal with fitCoeff := a.fitCoeff } { w'.cal with fitCoeff := a.fitCoeff } :=
    ⟨p, q, t, s, by rw [hc]; rfl, hp, hq, ht, hs⟩
  unfold World.fit
  dsimp only
  by_cases hft : a.fitType = .other
  · rw [if_pos hft, if_pos hft]
    exact ⟨⟨h0, ha⟩, rfl⟩
  · rw [if_neg hft, if_neg hft, hl]
    cases w.atlasLines with
    | error e => exact ⟨⟨h0, ha⟩, rfl⟩
    | ok lines =>
      dsimp only
      have hlin0 : ({ w.cal with fitCoeff := a.fitCoeff } : Cal K).ransac.linear = true := hlin
      generalize ({ w.cal with fitCoeff := a.fitCoeff } : Cal K) = c at h0 hlin0
      generalize ({ w'.cal with fitCoeff := a.fitCoeff } : Cal K) = c' at h0
      have key : CalOrder (c.fitWith F lines a rnd).1 (c'.fitWith F lines a rnd).1 ∧
          (c'.fitWith F lines a rnd).2 = (c.fitWith F lines a rnd).2 := by
        obtain ⟨p, q, t, s, rfl, hp, hq, ht, hs⟩ := id h0
        unfold Cal.fitWith
        dsimp only
        rw [show (c.reorder p q t s).ransac = c.ransac from rfl]
        have h1 : CalOrder { c with ransac := { c.ransac with
              sampleSize := adjustSampleSize c.ransac.sampleSize lines.length a.fitDeg } }
            { c.reorder p q t s with ransac := { c.ransac with
              sampleSize := adjustSampleSize c.ransac.sampleSize lines.length a.fitDeg } } :=
          ⟨p, q, t, s, rfl, hp, hq, ht, hs⟩
        have hlin1 : ({ c with ransac := { c.ransac with
              sampleSize := adjustSampleSize c.ransac.sampleSize lines.length a.fitDeg } } : Cal K).ransac.linear =
            true := hlin0
        generalize ({ c with ransac := { c.ransac with
              sampleSize := adjustSampleSize c.ransac.sampleSize lines.length a.fitDeg } } : Cal K) = d at h1 hlin1
        generalize ({ c.reorder p q t s with ransac := { c.ransac with
              sampleSize := adjustSampleSize c.ransac.sampleSize lines.length a.fitDeg } } : Cal K) = d' at h1
        have h2 : CalOrder (d.ensureHough F).1 (d'.ensureHough F).1 ∧ (d'.ensureHough F).2 = (d.ensureHough F).2 := by
          obtain ⟨p, q, t, s, rfl, hp, hq, ht, hs⟩ := id h1
          unfold Cal.ensureHough
          rw [show (d.reorder p q t s).houghLines = d.houghLines from rfl,
            show (d.reorder p q t s).houghPoints = s from rfl, hs.isNone]
          split
          · exact hough_order h1 hF F.argsortN false
          · exact ⟨h1, rfl⟩
        have hlin2 : (d.ensureHough F).1.ransac.linear = true := by
          obtain ⟨_, _, _, hfr⟩ := ensureHough_frame F d
          rw [hfr]; exact hlin1
        rw [h2.2]
        have h2' := h2.1
        generalize (d'.ensureHough F).1 = g' at h2'
        generalize (d.ensureHough F) = g at h2' hlin2
        cases g.2 with
        | error e => exact ⟨h2', rfl⟩
        | ok v =>
          dsimp only
          generalize g.1 = g1 at h2' hlin2
          obtain ⟨p, q, t, s, rfl, hp, hq, ht, hs⟩ := id h2'
          unfold Cal.fitSearch
          dsimp only
          rw [show (g1.reorder p q t s).ransac = g1.ransac from rfl,
            show (g1.reorder p q t s).peaks.length = g1.peaks.length from hp.length_eq]
          have h3 : CalOrder { g1 with ransac := { g1.ransac with
                minMatches := adjustMinMatches g1.ransac.minMatches lines.length g1.peaks.length } }
              { g1.reorder p q t s with ransac := { g1.ransac with
                minMatches := adjustMinMatches g1.ransac.minMatches lines.length g1.peaks.length } } :=
            ⟨p, q, t, s, rfl, hp, hq, ht, hs⟩
          obtain ⟨h4, h5⟩ := solve_order h3 hlin2 F (F.kern a.fitType) lines a a.degree rnd
          rw [h5]
          generalize (Cal.solve F (F.kern a.fitType) { g1 with ransac := { g1.ransac with
                minMatches := adjustMinMatches g1.ransac.minMatches lines.length g1.peaks.length } } lines a
                a.degree rnd) = r at h4
          cases r.2 with
          | running => exact ⟨h4, rfl⟩
          | done o =>
            cases o with
            | error e => exact ⟨h4, rfl⟩
            | ok out =>
              obtain ⟨h6, h7⟩ := finishFit_order h4 lines.length out
              exact ⟨h6, by dsimp only; rw [h7]⟩
      exact ⟨⟨key.1, ha⟩, key.2⟩

/-! ### C123 -/

/-- No call in the history switches `linear` off (it is on in a new calibrator). -/
def StaysLinear (calls : List (CalCall K)) : Prop :=
  ∀ a : RansacArgs K, CalCall.set (.setRansac a) ∈ calls → a.linear ≠ some false

theorem generate_linear (w : World K) : w.generatePairs.1.cal.ransac = w.cal.ransac := by
  unfold World.generatePairs
  cases w.atlasLines with
  | error e => rfl
  | ok lines =>
    dsimp only
    unfold Cal.generatePairs
    split
    · cases w.cal.candTol with
      | none => rfl
      | some t =>
        cases w.cal.props.pixelList with
        | nil => rfl
        | cons a l =>
          dsimp only
          cases Rascal.generatePairs w.cal.peaks lines (some (w.cal.polygon t (listMax a l))) with
          | error e => rfl
          | ok r => rfl
    · rfl

theorem step_linear (E : CalEnv K) (w : World K) (op : SetOp K)
    (hop : ∀ a, op = .setRansac a → a.linear ≠ some false) (hw : w.cal.ransac.linear = true) :
    (w.step E op).1.cal.ransac.linear = true := by
  have hs : ∀ (v : World K) (i : Nat) (t : K) (b : Bool), v.cal.ransac.linear = true →
      (v.setAtlas i t b).1.cal.ransac.linear = true := by
    intro v i t b hv
    unfold World.setAtlas
    rw [generate_linear]
    exact hv
  cases op with
  | setCalibrator a b c => exact hw
  | useMatplotlib => exact hw
  | usePlotly => exact hw
  | setHough a =>
    simp only [World.step]
    unfold World.setHough
    dsimp only
    cases (HoughSet.apply (some w.cal.hough) a w.cal.props.pixelList).2 with
    | error e => exact hw
    | ok u =>
      cases w.cal.atlas with
      | none => exact hw
      | some i => dsimp only; rw [generate_linear]; exact hw
  | setRansac a =>
    have hl := hop a rfl
    simp only [World.step, World.setRansac]
    have hk : keepOr (some w.cal.ransac.linear) a.linear true = true := by
      unfold keepOr
      cases hal : a.linear with
      | none => exact hw
      | some b =>
        cases b with
        | true => rfl
        | false => exact absurd hal hl
    unfold RansacSet.set
    dsimp only
    split
    · split
      · split <;> exact hk
      · exact hk
    · exact hk
  | setAtlas i t b => exact hs w i t b hw
  | addAtlas a t b =>
    simp only [World.step]
    unfold World.addAtlas
    cases w.cal.atlas with
    | none =>
      dsimp only
      cases Atlas.new E.env (w.cal.hough.fillLimits a) w.cal.hough.rangeTol with
      | error e => exact hw
      | ok at_ => exact hs _ _ t b hw
    | some i =>
      dsimp only
      cases w.atlases[i]? with
      | none => exact hw
      | some at_ =>
        dsimp only
        cases (Atlas.add E.env at_ (w.cal.hough.fillLimits a)).2 with
        | error e => exact hw
        | ok u => exact hs _ _ t b hw
  | addUserAtlas f t b =>
    simp only [World.step]
    unfold World.addUserAtlas
    have he : (w.ensureAtlas E.emptyAtlas).cal.ransac.linear = true := by
      unfold World.ensureAtlas
      cases w.cal.atlas with
      | none => exact hw
      | some i => exact hw
    generalize w.ensureAtlas E.emptyAtlas = v at he
    dsimp only
    cases v.cal.atlas with
    | none => exact he
    | some i =>
      dsimp only
      cases v.atlases[i]? with
      | none => exact he
      | some at_ =>
        dsimp only
        cases (f at_).2 with
        | error e => exact he
        | ok u => exact hs _ _ t b he
  | removeRange v t =>
    simp only [World.step]
    unfold World.removeRange
    cases w.cal.atlas with
    | none => exact hw
    | some i => exact hw
  | clearAtlas =>
    simp only [World.step]
    unfold World.clearAtlas
    cases w.cal.atlas with
    | none => exact hw
    | some i => exact hw
  | editAtlas i f => exact hw
  | doHough b =>
    simp only [World.step]
    obtain ⟨a1, a2, a3, ha⟩ := w.cal.doHough_frame E.argsortK E.argsortN b
    rw [ha]
    exact hw
  | loadHough d f t => exact hw
  | setKnown p v =>
    simp only [World.step]
    unfold Cal.setKnown
    split
    · split
      · split <;> exact hw
      · exact hw
    · exact hw

theorem calls_order (E : CalEnv K) (F : FitEnv K) (hE : IsArgsort E.argsortK) (hF : IsArgsort F.argsortK)
    (calls : List (CalCall K)) (hlin : StaysLinear calls) :
    ∀ w w' : World K, PeakOrder w w' → w.cal.ransac.linear = true →
      PeakOrder (w.calls E F calls) (w'.calls E F calls) ∧ (w.calls E F calls).cal.ransac.linear = true := by
  induction calls with
  | nil => exact fun w w' h hl => ⟨h, hl⟩
  | cons x t ih =>
    intro w w' h hl
    have ih' := ih (fun a ha => hlin a (List.mem_cons_of_mem _ ha))
    cases x with
    | set op =>
      refine ih' _ _ (h.step E hE op).1 (step_linear E w op ?_ hl)
      intro a ha
      exact hlin a (by rw [ha]; exact List.mem_cons_self)
    | fit a rnd =>
      refine ih' _ _ (h.fit hl F hF a rnd).1 ?_
      have hfr := fit_frame F w a rnd
      obtain ⟨n, m, hr⟩ := hfr.1.ransac
      change (w.fit F a rnd).1.cal.ransac.linear = true
      rw [hr]
      exact hl

theorem new_order (interp : List K → PyRes Unit) {peaks peaks' : List K} (h : peaks'.Perm peaks) (arr : Bool)
    (spectrum : Option (List K)) :
    (∃ e, Cal.new interp peaks arr spectrum = .error e ∧ Cal.new interp peaks' arr spectrum = .error e) ∨
    ∃ c c', Cal.new interp peaks arr spectrum = .ok c ∧ Cal.new interp peaks' arr spectrum = .ok c' ∧
      CalOrder c c' ∧ c.ransac.linear = true := by
  have hd : defaultNumPix peaks' spectrum = defaultNumPix peaks spectrum := by
    unfold defaultNumPix
    cases spectrum with
    | some s => rfl
    | none =>
      cases peaks with
      | nil => rw [h.eq_nil]
      | cons a l =>
        cases peaks' with
        | nil => exact absurd h.nil_eq (by simp)
        | cons a' l' => dsimp only; rw [listMax_perm h]
  unfold Cal.new CalProps.init
  rw [hd]
  cases defaultNumPix peaks spectrum with
  | error e => exact .inl ⟨_, rfl, rfl⟩
  | ok n =>
    dsimp only
    cases interp (arangeTo n) with
    | error e => exact .inl ⟨_, rfl, rfl⟩
    | ok u =>
      dsimp only
      cases hh : HoughSet.apply none {} (CalProps.applyLibrary ⟨n, arangeTo n, .matplotlib, false, false⟩).pixelList with
      | mk hs res =>
        cases res with
        | error e => exact .inl ⟨_, rfl, rfl⟩
        | ok v => exact .inr ⟨_, _, rfl, rfl, ⟨peaks', none, none, none, rfl, h, .none, .same _, .same _⟩, rfl⟩

/-- C123 (partial).  The order in which the peaks are given has no effect: the same calls on calibrators made
from the same peaks in another order raise or return the same, and leave the same Hough lines, histogram and
results.  Missing: the polynomial mode (`linear=False`), for which it is false. -/
theorem C123_peak_order_partial (E : CalEnv K) (F : FitEnv K) (hE : IsArgsort E.argsortK)
    (hF : IsArgsort F.argsortK) (peaks peaks' : List K) (h : peaks'.Perm peaks) (arr : Bool)
    (spectrum : Option (List K)) (atlases : List (Atlas K)) (calls : List (CalCall K)) (hlin : StaysLinear calls) :
    (∃ e, Cal.new E.interp peaks arr spectrum = .error e ∧ Cal.new E.interp peaks' arr spectrum = .error e) ∨
    ∃ c c', Cal.new E.interp peaks arr spectrum = .ok c ∧ Cal.new E.interp peaks' arr spectrum = .ok c' ∧
      let w := World.calls E F ⟨atlases, c⟩ calls
      let w' := World.calls E F ⟨atlases, c'⟩ calls
      w'.atlases = w.atlases ∧ w'.cal.hough = w.cal.hough ∧ w'.cal.ransac = w.cal.ransac ∧
      w'.cal.houghLines = w.cal.houghLines ∧ w'.cal.ht.hist = w.cal.ht.hist ∧
      w'.cal.fitCoeff = w.cal.fitCoeff ∧ w'.cal.rms = w.cal.rms ∧ w'.cal.residual = w.cal.residual ∧
      w'.cal.matchedPeaks = w.cal.matchedPeaks ∧ w'.cal.matchedAtlas = w.cal.matchedAtlas ∧
      w'.cal.peakUtil = w.cal.peakUtil ∧ w'.cal.atlasUtil = w.cal.atlasUtil ∧
      w'.cal.pairList.Perm w.cal.pairList ∧
      (∀ op : SetOp K, (w'.step E op).2 = (w.step E op).2) ∧
      ∀ (a : FitArgs K) (rnd : FitRandom K), (w'.fit F a rnd).2 = (w.fit F a rnd).2 := by
  rcases new_order E.interp h arr spectrum with he | ⟨c, c', h1, h2, h3, h4⟩
  · exact .inl he
  · refine .inr ⟨c, c', h1, h2, ?_⟩
    obtain ⟨ho, hl⟩ := calls_order E F hE hF calls hlin ⟨atlases, c⟩ ⟨atlases, c'⟩ ⟨h3, rfl⟩ h4
    dsimp only
    have hstep := fun op : SetOp K => (ho.step E hE op).2
    have hfit := fun (a : FitArgs K) (rnd : FitRandom K) => (ho.fit hl F hF a rnd).2
    obtain ⟨⟨p, q, t, s, hc, _, hq, _, _⟩, ha⟩ := ho
    have hpl : (World.calls E F ⟨atlases, c'⟩ calls).cal.pairList.Perm (World.calls E F ⟨atlases, c⟩ calls).cal.pairList := by
      unfold Cal.pairList
      rw [hc, show ((World.calls E F ⟨atlases, c⟩ calls).cal.reorder p q t s).pairs = q from rfl]
      rcases hq.inv with ⟨g1, g2⟩ | ⟨g1, g2⟩ | ⟨l, l', g1, g2, g3⟩
      · rw [g1, g2]
      · rw [g1, g2]
      · rw [g1, g2]; exact g3.perm.symm
    refine ⟨ha, ?_, ?_, ?_, ?_, ?_, ?_, ?_, ?_, ?_, ?_, ?_, hpl, hstep, hfit⟩ <;> rw [hc] <;> rfl

/-- The full property: also in the polynomial mode. -/
def C123_Statement : Prop :=
  ∀ (peaks peaks' lines : List ℚ) (calls : List (CalCall ℚ)) (c c' : Cal ℚ) (a : FitArgs ℚ) (rnd : FitRandom ℚ),
    peaks'.Perm peaks → Cal.new Toy.calEnv.interp peaks true none = .ok c →
    Cal.new Toy.calEnv.interp peaks' true none = .ok c' →
    (((World.calls Toy.calEnv Toy.env ⟨[Toy.atlasOf lines], c'⟩ calls).fit Toy.env a rnd).2 =
      ((World.calls Toy.calEnv Toy.env ⟨[Toy.atlasOf lines], c⟩ calls).fit Toy.env a rnd).2)

/-- Two peaks, two lines, the polynomial mode. -/
def Toy.polyCalls : List (CalCall ℚ) :=
  [.set (.setHough { numSlopes := some 2, xbins := some 4, ybins := some 4 }),
   .set (.setRansac { sampleSize := some 2, minFitError := some 0, linear := some false }),
   .set (.setAtlas 0 10 false)]

/-- The baseline through both pairs. -/
def Toy.polyArgs : FitArgs ℚ := { fitDeg := 1, candTol := 300, fitCoeff := some [3100, 280] }

/-- What the fit of the two peaks in the given order reports, after the given calls. -/
def Toy.orderRun (calls : List (CalCall ℚ)) (peaks : List ℚ) :
    Option (Option (List ℚ × List ℚ) × Option PyErr) :=
  (Cal.new Toy.calEnv.interp peaks true none).toOption.map fun c =>
    let r := (World.calls Toy.calEnv Toy.env ⟨[Toy.atlasOf [5900, 8700]], c⟩ calls).fit Toy.env Toy.polyArgs
      ⟨fun _ => 1/2, [⟨[], []⟩]⟩
    ((Toy.report r).map fun x => (x.coeffs, x.matchedPeaks), Toy.exception r)

set_option synthInstance.maxHeartbeats 400000 in
set_option synthInstance.maxSize 2000 in
theorem Toy.orderRun_poly : Toy.orderRun Toy.polyCalls [10, 20] = some (some ([3100, 280], [10, 20]), none) := by
  decide +kernel

set_option synthInstance.maxHeartbeats 400000 in
set_option synthInstance.maxSize 2000 in
theorem Toy.orderRun_poly_swapped : Toy.orderRun Toy.polyCalls [20, 10] = some (none, some .assertionError) := by
  decide +kernel

/-- C123 (refutation).  In the polynomial mode the candidates are found by pairing the i-th peak with the i-th
atlas line, so a fit that works for the peaks 10, 20 fails for 20, 10. -/
theorem C123_refuted : ¬ C123_Statement := by
  intro h
  have h1 := Toy.orderRun_poly
  have h2 := Toy.orderRun_poly_swapped
  unfold Toy.orderRun at h1 h2
  obtain ⟨c, hc, h1⟩ := Option.map_eq_some_iff.1 h1
  obtain ⟨c', hc', h2⟩ := Option.map_eq_some_iff.1 h2
  have ok : ∀ {x : PyRes (Cal ℚ)} {c}, x.toOption = some c → x = .ok c := by
    intro x c hx
    cases x with
    | error e => simp [Except.toOption] at hx
    | ok y => simp only [Except.toOption, Option.some.injEq] at hx; rw [hx]
  have e := h [10, 20] [20, 10] [5900, 8700] Toy.polyCalls c c' Toy.polyArgs ⟨fun _ => 1/2, [⟨[], []⟩]⟩
    (List.Perm.swap _ _ _) (ok hc) (ok hc')
  dsimp only at h1 h2
  have r1 := congrArg Prod.fst h1
  have r2 := congrArg Prod.fst h2
  have er : ∀ {x y : World ℚ × CallRes (FitReport ℚ)}, x.2 = y.2 → Toy.report x = Toy.report y := by
    intro x y hxy
    unfold Toy.report
    rw [hxy]
  dsimp only at r1 r2
  rw [er e] at r2
  rw [r2] at r1
  exact absurd r1 (by simp)

/-- The same calls in the linear mode. -/
def Toy.linCalls : List (CalCall ℚ) :=
  [.set (.setHough { numSlopes := some 2, xbins := some 4, ybins := some 4 }),
   .set (.setRansac { sampleSize := some 2, minFitError := some 0 }),
   .set (.setAtlas 0 10 false)]

set_option synthInstance.maxHeartbeats 400000 in
set_option synthInstance.maxSize 2000 in
/-- The hypotheses of `C123_peak_order_partial` are met by a history whose fit succeeds in both orders. -/
example : IsArgsort Toy.calEnv.argsortK ∧ IsArgsort Toy.env.argsortK ∧ StaysLinear Toy.linCalls ∧
    Toy.orderRun Toy.linCalls [10, 20] = Toy.orderRun Toy.linCalls [20, 10] ∧
    Toy.orderRun Toy.linCalls [10, 20] = some (some ([3100, 280], [10, 20]), none) := by
  refine ⟨stableArgsort_isArgsort, stableArgsort_isArgsort, ?_, by decide +kernel, by decide +kernel⟩
  intro a ha
  simp only [Toy.linCalls, List.mem_cons, List.not_mem_nil, or_false, CalCall.set.injEq, SetOp.setRansac.injEq,
    reduceCtorEq, false_or] at ha
  rw [ha]
  simp

end Rascal
