import Verif.Model.CalState
import Verif.Model.LineFile
import Verif.Props.AtlasProps
import Verif.Props.LineFilters

/-!
Property theorems C154 and C155: how many lines an atlas gets from a line list, and the listing.
-/

set_option linter.unusedSectionVars false

namespace Rascal

variable {K : Type _}

/-! ### C154 -/

/-- C154 as a user of the `Atlas` class reads it: an atlas created for some elements has every line of
these elements in the line list that lies between the limits, if neither an intensity limit nor a
minimum distance is given. -/
def C154_Statement : Prop :=
  ∀ (env : Env ℚ) (a : AddArgs ℚ) (rangeTol lo hi : ℚ) (at_ : Atlas ℚ), IsArgsort env.argsort →
    a.linelist = .nist → a.vacuum = true → a.minIntensity = .none → a.minDistance = 0 →
    a.minW = some (.fin lo) → a.maxW = some (.fin hi) → Atlas.new env a rangeTol = .ok at_ →
    ∀ r ∈ env.nistRows, r.elem ∈ a.elements.toList → lo ≤ r.wl → r.wl ≤ hi → r.wl ∈ at_.getLines

section
variable [AddCommGroup K] [LinearOrder K]

theorem length_boolMask_le {α : Type _} (l : List α) (m : List Bool) :
    (boolMask l m).length ≤ l.length := by
  unfold boolMask
  rw [List.length_map]
  refine (List.length_filter_le _ _).trans ?_
  rw [List.length_zip]
  exact min_le_left _ _

/-- At most `n` lines are selected, whatever the other arguments. -/
theorem length_load_le (argsort : List K → List Nat) (airToVac vacToAir : K → K) (rows : List (Row K))
    (elements : List String) (lo hi : K) (mi : MinIntensity K) (d : K) (vacuum : Bool) (n : Nat)
    (r : LineArrays K) (h : loadCalibrationLines argsort airToVac vacToAir rows elements lo hi mi d vacuum
      (some (n : Int)) = .ok r) : r.wls.length ≤ n := by
  have key : ∀ x : LineArrays K, (keepBrightest argsort (some (n : Int)) x).wls.length ≤ n := by
    intro x
    unfold keepBrightest takeIdx pyTake pyBound
    refine (List.length_filterMap_le _ _).trans ?_
    rw [List.length_take]
    refine (min_le_left _ _).trans ?_
    rw [if_neg (by omega)]
    simp
  unfold loadCalibrationLines loadSelected at h
  simp only at h
  split at h
  · cases h
  · split at h
    · cases h
    · cases h
      simp only
      split
      · exact (length_boolMask_le _ _).trans (key _)
      · rw [List.length_map]
        exact (length_boolMask_le _ _).trans (key _)

theorem length_selects_le (env : Env K) (a : AddArgs K) (lo hi : K) (n : Nat)
    (hb : a.brightest = some (n : Int)) (es : List String) (rs : List (LineArrays K))
    (h : List.Forall₂ (Selects env a lo hi) es rs) : (rs.flatMap nistOf).length ≤ n * es.length := by
  induction h with
  | nil => simp
  | @cons e r es rs h1 _ ih =>
    have h2 : (nistOf r).length ≤ n := by
      unfold Selects loadFromFile at h1
      split at h1
      · cases h1
      · rw [hb] at h1
        have := length_load_le _ _ _ _ _ _ _ _ _ _ n r h1
        unfold nistOf
        simp only [List.length_map, List.length_zip]
        omega
    rw [List.flatMap_cons, List.length_append, List.length_cons, Nat.mul_add, Nat.mul_one]
    omega

/-- C154, what does hold: `Atlas(elements=...)` has at most 1000 lines for each element named, whatever
the line list and the other arguments. -/
theorem C154_at_most_partial (env : Env K) (a : AddArgs K) (rangeTol : K) (at_ : Atlas K)
    (h : Atlas.new env a rangeTol = .ok at_) : at_.len ≤ 1000 * a.elements.toList.length := by
  obtain ⟨_, _, _, ⟨_, h1⟩ | ⟨_, lo, hi, rs, _, _, h2, h3⟩⟩ := (C88_new env a rangeTol at_).1 h
  · simp [Atlas.len, h1]
  · unfold Atlas.len
    rw [h3]
    exact length_selects_le env { a with brightest := some 1000 } lo hi 1000 rfl _ rs h2

theorem exists_firstWith {α : Type _} (key : α → K) (l : List α) (r : α) (h : r ∈ l) :
    ∃ q, Spec.FirstWith key l q ∧ key q = key r := by
  induction l with
  | nil => simp at h
  | cons a l ih =>
    by_cases ha : key a = key r
    · exact ⟨a, ⟨[], l, rfl, by simp⟩, ha⟩
    · rcases List.mem_cons.1 h with rfl | h
      · exact absurd rfl ha
      · obtain ⟨q, ⟨pre, post, h1, h2⟩, h3⟩ := ih h
        refine ⟨q, ⟨a :: pre, post, by rw [h1]; rfl, ?_⟩, h3⟩
        intro b hb
        rcases List.mem_cons.1 hb with rfl | hb
        · rw [h3]; exact ha
        · exact h2 b hb

/-- With at most 1000 rows of an element in the packaged list, all of its lines between the limits are selected. -/
theorem selects_complete (env : Env K) (a : AddArgs K) (lo hi : K) (ha : IsArgsort env.argsort)
    (hl : a.linelist = .nist) (hv : a.vacuum = true) (hm : a.minIntensity = .none) (hd : a.minDistance = 0)
    (hb : a.brightest = some 1000) (r : Row K) (x : LineArrays K) (hs : Selects env a lo hi r.elem x)
    (hr : r ∈ env.nistRows) (h1 : lo ≤ r.wl) (h2 : r.wl ≤ hi)
    (hfew : (env.nistRows.filter (fun q => q.elem = r.elem)).length ≤ 1000) :
    r.wl ∈ (nistOf x).map AtlasLine.wl := by
  have hfit : Spec.ThresholdsFit [r.elem] (MinIntensity.none : MinIntensity K) := by
    intro vs hvs
    cases hvs
  obtain ⟨all, out, rest, _, hout, hreq, hnd, hlen, hperm, _, _⟩ :=
    C06_brightest env.argsort ha a.airToVac a.vacToAir env.nistRows [r.elem] lo hi .none 0
      (lt_irrefl _) hfit 1000
  have hxo : x = ⟨out.map Row.elem, out.map Row.wl, out.map Row.inten⟩ := by
    unfold Selects loadFromFile at hs
    simp only [hl, readLineList, hm, hd, hv, hb] at hs
    rw [hout] at hs
    cases hs
    rfl
  have hall : all.length ≤ 1000 := by
    refine le_trans ?_ hfew
    refine List.Subperm.length_le (List.subperm_of_subset hnd ?_)
    intro q hq
    have := ((hreq q).1 hq).1
    obtain ⟨pre, post, h7, _⟩ := this
    have h8 : q ∈ env.nistRows.filter (fun q => [r.elem].contains q.elem) := by rw [h7]; simp
    simpa using h8
  have hrest : rest = [] := by
    have := hperm.length_eq
    rw [List.length_append, hlen] at this
    unfold Spec.keepCount at this
    rw [if_pos (by norm_num)] at this
    have h8 : min (1000 : Int).toNat all.length = all.length := min_eq_right hall
    rw [h8] at this
    exact List.length_eq_zero_iff.1 (by omega)
  rw [hrest, List.append_nil] at hperm
  obtain ⟨q, hq, hqr⟩ := exists_firstWith Row.wl
    (env.nistRows.filter (fun q => [r.elem].contains q.elem)) r (by simp [hr])
  have hqo : q ∈ out := hperm.mem_iff.2 ((hreq q).2 ⟨hq, hqr ▸ h1, hqr ▸ h2, trivial⟩)
  obtain ⟨i, hi, hqi⟩ := List.getElem_of_mem hqo
  rw [List.mem_map]
  refine ⟨⟨q.wl, q.elem, q.inten, some "NIST"⟩, ?_, hqr⟩
  unfold nistOf
  rw [hxo, List.mem_map]
  refine ⟨(q.elem, q.wl, q.inten), ?_, rfl⟩
  refine List.mem_iff_getElem.2 ⟨i, by simpa using hi, ?_⟩
  simp [hqi]

theorem exists_selects {env : Env K} {a : AddArgs K} {lo hi : K} {es : List String} {rs : List (LineArrays K)}
    (h : List.Forall₂ (Selects env a lo hi) es rs) {e : String} (he : e ∈ es) :
    ∃ x ∈ rs, Selects env a lo hi e x := by
  induction h with
  | nil => simp at he
  | @cons e x es rs h6 _ ih =>
    rcases List.mem_cons.1 he with rfl | he
    · exact ⟨x, by simp, h6⟩
    · obtain ⟨y, hy, hs⟩ := ih he
      exact ⟨y, by simp [hy], hs⟩

/-- C154, what does hold: with at most 1000 rows of an element in the line list, all of its lines
between the limits are in the atlas. -/
theorem C154_complete_partial (env : Env K) (a : AddArgs K) (rangeTol lo hi : K) (at_ : Atlas K)
    (ha : IsArgsort env.argsort) (hl : a.linelist = .nist) (hv : a.vacuum = true)
    (hm : a.minIntensity = .none) (hd : a.minDistance = 0) (hlo : a.minW = some (.fin lo))
    (hhi : a.maxW = some (.fin hi)) (h : Atlas.new env a rangeTol = .ok at_) (r : Row K)
    (hr : r ∈ env.nistRows) (he : r.elem ∈ a.elements.toList) (h1 : lo ≤ r.wl) (h2 : r.wl ≤ hi)
    (hfew : (env.nistRows.filter (fun q => q.elem = r.elem)).length ≤ 1000) :
    r.wl ∈ at_.getLines := by
  obtain ⟨_, _, _, ⟨h3, _⟩ | ⟨_, lo', hi', rs, hlo', hhi', h4, h5⟩⟩ := (C88_new env a rangeTol at_).1 h
  · rw [h3] at he
    simp [ElementsArg.toList] at he
  · rw [hlo] at hlo'
    rw [hhi] at hhi'
    cases hlo'
    cases hhi'
    obtain ⟨x, hx, hs⟩ := exists_selects h4 he
    have := selects_complete env { a with brightest := some 1000 } lo hi ha hl hv hm hd rfl r x hs hr h1 h2 hfew
    obtain ⟨l, hl1, hl2⟩ := List.mem_map.1 this
    unfold Atlas.getLines
    rw [h5, List.mem_map]
    exact ⟨l, List.mem_flatMap.2 ⟨x, hx, hl1⟩, hl2⟩

end

section
variable [Field K] [LinearOrder K]

theorem generatePairs_atlasLines (w : World K) : w.generatePairs.1.atlasLines = w.atlasLines := by
  unfold World.generatePairs
  cases h : w.atlasLines with
  | error e => exact h
  | ok l =>
    simp only
    have hc : (w.cal.generatePairs l).1.atlas = w.cal.atlas := by
      unfold Cal.generatePairs
      split
      · split
        · split <;> rfl
        · rfl
        · rfl
      · rfl
    rw [← h]
    unfold World.atlasLines
    simp only [hc]

/-- C154, for `Calibrator.add_atlas`, which has no argument for this number either: a successful call
leaves the calibrator with an atlas that has at most 1000 lines for each element named more than
before. -/
theorem C154_add_atlas_partial (env : Env K) (w : World K) (a : AddArgs K) (candTol : K)
    (constrain : Bool) (h : (w.addAtlas env a candTol constrain).2 = .ok ()) :
    ∃ old new, (w.cal.atlas = none ∧ old = [] ∨ w.atlasLines = .ok old) ∧
      (w.addAtlas env a candTol constrain).1.atlasLines = .ok new ∧
      new.length ≤ old.length + 1000 * a.elements.toList.length := by
  unfold World.addAtlas at h ⊢
  cases hw : w.cal.atlas with
  | none =>
    simp only [hw] at h ⊢
    cases hn : Atlas.new env (w.cal.hough.fillLimits a) w.cal.hough.rangeTol with
    | error e => rw [hn] at h; cases h
    | ok at_ =>
      simp only [hn] at h ⊢
      refine ⟨[], at_.getLines, .inl ⟨trivial, rfl⟩, ?_, ?_⟩
      · unfold World.setAtlas
        rw [generatePairs_atlasLines]
        simp [World.atlasLines]
      · have := C154_at_most_partial env _ _ at_ hn
        simpa [Atlas.getLines, Atlas.len, HoughSet.fillLimits] using this
  | some i =>
    simp only [hw] at h ⊢
    cases hi : w.atlases[i]? with
    | none => rw [hi] at h; cases h
    | some at_ =>
      simp only [hi] at h ⊢
      cases hr : (at_.add env (w.cal.hough.fillLimits a)).2 with
      | error e => rw [hr] at h; cases h
      | ok u =>
        simp only [hr] at h ⊢
        obtain ⟨lo, hi', rs, _, _, h3, h4⟩ := (C44_add env at_ (w.cal.hough.fillLimits a) _).1
          (Prod.ext rfl hr)
        refine ⟨at_.getLines, (at_.add env (w.cal.hough.fillLimits a)).1.getLines, .inr ?_, ?_, ?_⟩
        · simp [World.atlasLines, hw, hi]
        · unfold World.setAtlas
          rw [generatePairs_atlasLines]
          simp [World.atlasLines, World.modifyAtlas, hi]
        · have := length_selects_le env (w.cal.hough.fillLimits a) lo hi' 1000 rfl _ rs h3
          have h5 : (at_.add env (w.cal.hough.fillLimits a)).1.getLines =
              (at_.lines ++ rs.flatMap nistOf).map AtlasLine.wl := congrArg Atlas.getLines h4
          rw [h5]
          simpa [Atlas.getLines, HoughSet.fillLimits] using this

end

/-! Concrete cases -/

/-- Mercury rows and one neon row. -/
def mercuryEnv : Env ℚ :=
  ⟨stableArgsort, [⟨"Hg", 4046, 30⟩, ⟨"Hg", 4358, 80⟩, ⟨"Ne", 5852, 20⟩, ⟨"Hg", 5460, 90⟩], fun _ => none⟩

/-- A request for mercury and neon between 4000 and 6000. -/
def mercuryArgs : AddArgs ℚ :=
  ⟨.list ["Hg", "Ne"], some (.fin 4000), some (.fin 6000), .none, 0, true, id, id, .nist, none⟩

/-- For `C154_at_most_partial` and `C154_complete_partial`: the atlas is created, the brightest line of
each element first. -/
example : (Atlas.new mercuryEnv mercuryArgs 500).toOption.map Atlas.getLines =
    some [5460, 4358, 4046, 5852] := by decide +kernel

/-- `C154_complete_partial` applied to the weakest mercury line. -/
example (at_ : Atlas ℚ) (h : Atlas.new mercuryEnv mercuryArgs 500 = .ok at_) : 4046 ∈ at_.getLines :=
  C154_complete_partial mercuryEnv mercuryArgs 500 4000 6000 at_ stableArgsort_isArgsort rfl rfl rfl rfl
    rfl rfl h ⟨"Hg", 4046, 30⟩ (by decide +kernel) (by decide +kernel) (by norm_num) (by norm_num)
    (by decide +kernel)

/-- Many lines of one element. -/
def manyRows (n : Nat) : List (Row ℚ) := (List.range n).map (fun i : Nat => ⟨"Th", (i : ℚ), 1⟩)

/-- C154 is false: of 1001 lines one is missing. -/
theorem C154_refuted : ¬ C154_Statement := by
  intro h
  obtain ⟨n, hn⟩ : ∃ n : Nat, n = 1001 := ⟨_, rfl⟩
  let env : Env ℚ := ⟨stableArgsort, manyRows n, fun _ => none⟩
  let a : AddArgs ℚ := ⟨.list ["Th"], some (.fin 0), some (.fin 1000), .none, 0, true, id, id, .nist, none⟩
  have hfit : Spec.ThresholdsFit ["Th"] (MinIntensity.none : MinIntensity ℚ) := by
    intro vs hvs
    cases hvs
  obtain ⟨_, out, _, _, hout, _⟩ :=
    C06_brightest env.argsort stableArgsort_isArgsort id id env.nistRows ["Th"] 0 1000 .none 0
      (lt_irrefl _) hfit 1000
  let x : LineArrays ℚ := ⟨out.map Row.elem, out.map Row.wl, out.map Row.inten⟩
  have hnew : Atlas.new env a 0 = .ok ⟨nistOf x, some (.fin 0), some (.fin 1000), 0⟩ := by
    rw [C88_new]
    refine ⟨rfl, rfl, rfl, .inr ⟨by simp [a], 0, 1000, [x], rfl, rfl, ?_, by simp⟩⟩
    exact .cons hout .nil
  have hlen := C154_at_most_partial env a 0 _ hnew
  have hmem := h env a 0 0 1000 _ stableArgsort_isArgsort rfl rfl rfl rfl rfl rfl hnew
  have hsub : ((manyRows n).map Row.wl) ⊆
      (⟨nistOf x, some (.fin 0), some (.fin 1000), 0⟩ : Atlas ℚ).getLines := by
    intro v hv
    obtain ⟨r, hr, rfl⟩ := List.mem_map.1 hv
    obtain ⟨i, hi, rfl⟩ := List.mem_map.1 hr
    refine hmem _ hr (by simp [a, ElementsArg.toList]) (by simp) ?_
    have : i ≤ 1000 := by
      have := List.mem_range.1 hi
      omega
    show (i : ℚ) ≤ 1000
    exact_mod_cast this
  have hnd : ((manyRows n).map Row.wl).Nodup := by
    unfold manyRows
    rw [List.map_map]
    refine List.Nodup.map ?_ List.nodup_range
    intro i j hij
    have hij' : (i : ℚ) = j := hij
    exact_mod_cast hij'
  have h1 := (List.subperm_of_subset hnd hsub).length_le
  simp only [manyRows, List.length_map, List.length_range, Atlas.getLines] at h1
  simp only [Atlas.len, a, ElementsArg.toList, List.length_cons, List.length_nil] at hlen
  omega

/-! ### C155 -/

theorem last_blank (x y b c : List Char) (hb : ' ' ∉ b) (hc : ' ' ∉ c)
    (h : x ++ ' ' :: b = y ++ ' ' :: c) : x = y ∧ b = c := by
  rcases List.append_eq_append_iff.1 h with ⟨a, h1, h2⟩ | ⟨a, h1, h2⟩
  · cases a with
    | nil =>
      simp only [List.append_nil, List.nil_append, List.cons.injEq, true_and] at h1 h2
      exact ⟨h1.symm, h2⟩
    | cons d a =>
      rw [List.cons_append, List.cons.injEq] at h2
      exact absurd (by rw [h2.2]; simp) hb
  · cases a with
    | nil =>
      simp only [List.append_nil, List.nil_append, List.cons.injEq, true_and] at h1 h2
      exact ⟨h1, h2.symm⟩
    | cons d a =>
      rw [List.cons_append, List.cons.injEq] at h2
      exact absurd (by rw [h2.2]; simp) hc

/-- The text for a line determines its element, wavelength and intensity. -/
theorem describe_injective (str : K → String) (hs : Function.Injective str)
    (hb : ∀ v, ' ' ∉ (str v).toList) (l m : AtlasLine K) :
    l.describe str = m.describe str ↔ l.elem = m.elem ∧ l.wl = m.wl ∧ l.inten = m.inten := by
  constructor
  · intro h
    have h1 := congrArg String.toList h
    unfold AtlasLine.describe at h1
    simp only [String.toList_append] at h1
    have e1 : " with intensity ".toList = " with intensity".toList ++ [' '] := by decide
    have e2 : " at ".toList = " at".toList ++ [' '] := by decide
    rw [e1, e2] at h1
    simp only [List.append_assoc, List.singleton_append] at h1
    simp only [← List.append_assoc] at h1
    obtain ⟨h2, h3⟩ := last_blank _ _ _ _ (hb _) (hb _) h1
    have h4 := List.append_cancel_right h2
    simp only [List.append_assoc, List.singleton_append] at h4
    simp only [← List.append_assoc] at h4
    obtain ⟨h5, h6⟩ := last_blank _ _ _ _ (hb _) (hb _) h4
    have h7 := List.append_cancel_left (List.append_cancel_right h5)
    exact ⟨String.toList_inj.1 h7, hs (String.toList_inj.1 h6), hs (String.toList_inj.1 h3)⟩
  · rintro ⟨h1, h2, h3⟩
    unfold AtlasLine.describe
    rw [h1, h2, h3]

/-- C155.  The listing shows everything but the source of the lines, in order: two atlases are listed
alike exactly if they have the same elements, wavelengths and intensities. -/
theorem C155_listing (str : K → String) (hs : Function.Injective str)
    (hb : ∀ v, ' ' ∉ (str v).toList) (at1 at2 : Atlas K) :
    at1.printed str = at2.printed str ↔
      at1.getElements = at2.getElements ∧ at1.getLines = at2.getLines ∧
        at1.getIntensities = at2.getIntensities := by
  unfold Atlas.printed Atlas.getElements Atlas.getLines Atlas.getIntensities
  generalize at1.lines = l
  generalize at2.lines = m
  induction l generalizing m with
  | nil => cases m <;> simp
  | cons a l ih =>
    cases m with
    | nil => simp
    | cons b m =>
      simp only [List.map_cons, List.cons.injEq, ih m, describe_injective str hs hb]
      tauto

/-- `C155_listing` on two atlases differing in one intensity; `Nat.repr` stands for Python's `str`. -/
example : (⟨[⟨4046, "Hg", 30, none⟩, ⟨5460, "Hg", 90, none⟩], none, none, 500⟩ : Atlas Nat).printed toString =
    ["Element Hg at 4046 with intensity 30", "Element Hg at 5460 with intensity 90"] := by
  decide +kernel

end Rascal
