import Verif.Props.AtlasCountProps
import Verif.Proofs.Toy

/-!
Property theorem C163: the wavelength range of the lines `Calibrator.add_atlas` adds.
-/

set_option linter.unusedSectionVars false

namespace Rascal

variable {K : Type _} [Field K] [LinearOrder K]

/-- The limits `add_atlas` is documented to use: the ones given, otherwise the wavelength range of the calibrator
widened by the range tolerance. -/
def Spec.AddLimits (h : HoughSet K) (a : AddArgs K) (lo hi : K) : Prop :=
  (a.minW = some (.fin lo) ∨ a.minW = none ∧ lo = h.minW - h.rangeTol) ∧
  (a.maxW = some (.fin hi) ∨ a.maxW = none ∧ hi = h.maxW + h.rangeTol)

theorem addLimits_of (h : HoughSet K) (a : AddArgs K) (lo hi : K)
    (h1 : (h.fillLimits a).minW = some (.fin lo)) (h2 : (h.fillLimits a).maxW = some (.fin hi)) :
    Spec.AddLimits h a lo hi := by
  unfold HoughSet.fillLimits at h1 h2
  refine ⟨?_, ?_⟩
  · cases hm : a.minW with
    | none => simp only [hm, Option.getD_none, Option.some.injEq, PyFloat.fin.injEq] at h1; exact .inr ⟨rfl, h1.symm⟩
    | some v => simp only [hm, Option.getD_some] at h1; exact .inl h1
  · cases hm : a.maxW with
    | none => simp only [hm, Option.getD_none, Option.some.injEq, PyFloat.fin.injEq] at h2; exact .inr ⟨rfl, h2.symm⟩
    | some v => simp only [hm, Option.getD_some] at h2; exact .inl h2

theorem usesLimit_given (v : PyFloat K) (u : Option (PyFloat K)) (s x : K) (h : UsesLimit (some v) u s x) :
    v = .fin x := by
  unfold UsesLimit at h
  rcases h with h | ⟨h, _⟩
  · exact Option.some.inj h
  · cases h

/-- A successful `add_atlas` in terms of the selections for the elements. -/
theorem addAtlas_selects (env : Env K) (w : World K) (a : AddArgs K) (candTol : K) (constrain : Bool)
    (h : (w.addAtlas env a candTol constrain).2 = .ok ()) :
    ∃ old lo hi rs, (w.cal.atlas = none ∧ old = [] ∨ w.atlasLines = .ok old) ∧
      (a.elements ≠ .none → Spec.AddLimits w.cal.hough a lo hi) ∧
      List.Forall₂ (Selects env { w.cal.hough.fillLimits a with brightest := some 1000 } lo hi) a.elements.toList rs ∧
      (w.addAtlas env a candTol constrain).1.atlasLines =
        .ok (old ++ (rs.flatMap nistOf).map AtlasLine.wl) := by
  unfold World.addAtlas at h ⊢
  cases hw : w.cal.atlas with
  | none =>
    simp only [hw] at h ⊢
    cases hn : Atlas.new env (w.cal.hough.fillLimits a) w.cal.hough.rangeTol with
    | error e => rw [hn] at h; cases h
    | ok at_ =>
      simp only [hn] at h ⊢
      have hat : (World.setAtlas { w with atlases := w.atlases ++ [at_] } w.atlases.length candTol constrain).1.atlasLines =
          .ok at_.getLines := by
        unfold World.setAtlas
        rw [generatePairs_atlasLines]
        simp [World.atlasLines]
      rw [hat]
      obtain ⟨_, _, _, ⟨h3, h4⟩ | ⟨_, lo, hi, rs, hlo, hhi, h4, h5⟩⟩ :=
        (C88_new env (w.cal.hough.fillLimits a) w.cal.hough.rangeTol at_).1 hn
      · have h3' : a.elements = .none := h3
        refine ⟨[], 0, 0, [], .inl ⟨trivial, rfl⟩, fun g => absurd h3' g, ?_, ?_⟩
        · rw [h3']
          exact .nil
        · simp [Atlas.getLines, h4]
      · exact ⟨[], lo, hi, rs, .inl ⟨trivial, rfl⟩, fun _ => addLimits_of _ a lo hi hlo hhi, h4, by
          unfold Atlas.getLines
          rw [h5, List.nil_append]⟩
  | some i =>
    simp only [hw] at h ⊢
    cases hi : w.atlases[i]? with
    | none => rw [hi] at h; cases h
    | some at_ =>
      simp only [hi] at h ⊢
      cases hr : (at_.add env (w.cal.hough.fillLimits a)).2 with
      | error e => rw [hr] at h; cases h
      | ok u =>
        simp only [hr] at h ⊢
        obtain ⟨lo, hi', rs, h1, h2, h3, h4⟩ := (C44_add env at_ (w.cal.hough.fillLimits a) _).1
          (Prod.ext rfl hr)
        refine ⟨at_.getLines, lo, hi', rs, .inr (by simp [World.atlasLines, hw, hi]),
          fun _ => addLimits_of _ a lo hi' ?_ ?_, h3, ?_⟩
        · rw [show (w.cal.hough.fillLimits a).minW = some _ from rfl] at h1 ⊢
          rw [usesLimit_given _ _ _ _ h1]
        · rw [show (w.cal.hough.fillLimits a).maxW = some _ from rfl] at h2 ⊢
          rw [usesLimit_given _ _ _ _ h2]
        · unfold World.setAtlas
          rw [generatePairs_atlasLines]
          simp [World.atlasLines, World.modifyAtlas, hi, h4, Atlas.getLines]

/-- C163: a successful `add_atlas` keeps the lines there were and appends lines of the packaged list, of the elements
named, whose tabulated wavelength lies between the limits: those given or, without, the wavelength range of the
calibrator widened by the range tolerance.  For wavelengths in air (`vacuum=False`) the limits are converted before
the comparison and the lines afterwards. -/
theorem C163_range (env : Env K) (w : World K) (a : AddArgs K) (candTol : K) (constrain : Bool)
    (h : (w.addAtlas env a candTol constrain).2 = .ok ()) :
    ∃ old added, (w.cal.atlas = none ∧ old = [] ∨ w.atlasLines = .ok old) ∧
      (w.addAtlas env a candTol constrain).1.atlasLines = .ok (old ++ added) ∧
      ∀ v ∈ added, ∃ lo hi r, Spec.AddLimits w.cal.hough a lo hi ∧ r ∈ env.nistRows ∧
        r.elem ∈ a.elements.toList ∧
        (a.vacuum = true → v = r.wl ∧ lo ≤ v ∧ v ≤ hi) ∧
        (a.vacuum = false → v = a.vacToAir r.wl ∧ a.airToVac lo ≤ r.wl ∧ r.wl ≤ a.airToVac hi) := by
  obtain ⟨old, lo, hi, rs, h1, h2, h3, h4⟩ := addAtlas_selects env w a candTol constrain h
  refine ⟨old, _, h1, h4, ?_⟩
  intro v hv
  obtain ⟨l, hl, rfl⟩ := List.mem_map.1 hv
  obtain ⟨x, hx, hlx⟩ := List.mem_flatMap.1 hl
  have hne : a.elements ≠ .none := by
    intro g
    rw [g] at h3
    cases h3
    simp at hx
  have hsel : ∃ e ∈ a.elements.toList, Selects env { w.cal.hough.fillLimits a with brightest := some 1000 } lo hi e x := by
    clear h4 hv hl
    revert h3
    generalize a.elements.toList = es
    intro h3
    induction h3 with
    | nil => simp at hx
    | @cons e y es rs h6 _ ih =>
      rcases List.mem_cons.1 hx with rfl | hx
      · exact ⟨e, by simp, h6⟩
      · obtain ⟨e', he', hs⟩ := ih hx
        exact ⟨e', by simp [he'], hs⟩
  obtain ⟨e, he, hs⟩ := hsel
  unfold Selects loadFromFile at hs
  simp only [HoughSet.fillLimits, readLineList] at hs
  obtain ⟨out, g1, g2, g3, g4⟩ := C08_aligned _ _ _ _ _ _ _ _ _ _ _ _ hs
  unfold nistOf at hlx
  obtain ⟨t, ht, rfl⟩ := List.mem_map.1 hlx
  have : ∃ r ∈ out, t.2.1 = if a.vacuum then r.wl else a.vacToAir r.wl := by
    have := (List.of_mem_zip (List.of_mem_zip ht).2).1
    rw [g3] at this
    obtain ⟨r, hr, hrt⟩ := List.mem_map.1 this
    exact ⟨r, hr, hrt.symm⟩
  obtain ⟨r, hr, hrt⟩ := this
  obtain ⟨k1, k2, _, k3, k4⟩ := g4 r hr
  have hre : r.elem = e := by simpa using k2
  refine ⟨lo, hi, r, h2 hne, k1, hre ▸ he, ?_, ?_⟩
  · intro hv
    simp only [hv, if_true] at hrt k3 k4
    refine ⟨hrt, ?_, ?_⟩
    · show lo ≤ t.2.1
      rw [hrt]; exact k3
    · show t.2.1 ≤ hi
      rw [hrt]; exact k4
  · intro hv
    simp only [hv, Bool.false_eq_true, if_false] at hrt k3 k4
    exact ⟨hrt, k3, k4⟩

/-- C163, completeness: without an intensity limit and a minimum distance (and with at most 1000 rows of the element
in the packaged list), every line of an element named that lies between these limits is added. -/
theorem C163_complete (env : Env K) (ha : IsArgsort env.argsort) (w : World K) (a : AddArgs K) (candTol : K)
    (constrain : Bool) (h : (w.addAtlas env a candTol constrain).2 = .ok ()) (hv : a.vacuum = true)
    (hm : a.minIntensity = .none) (hd : a.minDistance = 0) (r : Row K) (hr : r ∈ env.nistRows)
    (he : r.elem ∈ a.elements.toList) (lo hi : K) (hlim : Spec.AddLimits w.cal.hough a lo hi)
    (h1 : lo ≤ r.wl) (h2 : r.wl ≤ hi)
    (hfew : (env.nistRows.filter (fun q => q.elem = r.elem)).length ≤ 1000) :
    ∃ new, (w.addAtlas env a candTol constrain).1.atlasLines = .ok new ∧ r.wl ∈ new := by
  obtain ⟨old, lo', hi', rs, _, g2, g3, g4⟩ := addAtlas_selects env w a candTol constrain h
  have hne : a.elements ≠ .none := by
    intro g
    rw [g] at he
    simp [ElementsArg.toList] at he
  have hl : lo' = lo ∧ hi' = hi := by
    obtain ⟨p1, p2⟩ := g2 hne
    obtain ⟨q1, q2⟩ := hlim
    refine ⟨?_, ?_⟩
    · rcases p1 with p1 | ⟨p0, p1⟩ <;> rcases q1 with q1 | ⟨q0, q1⟩
      · rw [p1] at q1; cases q1; rfl
      · rw [p1] at q0; cases q0
      · rw [p0] at q1; cases q1
      · rw [p1, q1]
    · rcases p2 with p1 | ⟨p0, p1⟩ <;> rcases q2 with q1 | ⟨q0, q1⟩
      · rw [p1] at q1; cases q1; rfl
      · rw [p1] at q0; cases q0
      · rw [p0] at q1; cases q1
      · rw [p1, q1]
  obtain ⟨rfl, rfl⟩ := hl
  obtain ⟨x, hx, hs⟩ := exists_selects g3 he
  have := selects_complete env { w.cal.hough.fillLimits a with brightest := some 1000 } lo' hi' ha rfl hv hm hd rfl r x
    hs hr h1 h2 hfew
  obtain ⟨l, hl1, hl2⟩ := List.mem_map.1 this
  refine ⟨_, g4, List.mem_append_right _ (List.mem_map.2 ⟨l, List.mem_flatMap.2 ⟨x, hx, hl1⟩, hl2⟩)⟩

/-! ### Example -/

namespace Toy

/-- Lines within and outside the range 3000 to 9000 of a new calibrator. -/
def wideEnv : Env ℚ :=
  ⟨stableArgsort, [⟨"Hg", 2400, 30⟩, ⟨"Hg", 2536, 80⟩, ⟨"Ne", 5852, 20⟩, ⟨"Hg", 4358, 90⟩, ⟨"Ne", 9665, 90⟩],
    fun _ => none⟩

/-- `add_atlas(["Hg", "Ne"], min_intensity=None, min_distance=0, vacuum=True)`. -/
def wideArgs : AddArgs ℚ := ⟨.list ["Hg", "Ne"], none, none, .none, 0, true, id, id, .nist, none⟩

end Toy

/-- A case for `C163_range` and `C163_complete`: the calibrator has the range 3000 to 9000 and a range tolerance of
500, so 2536 is added and 2400 and 9665 are not; the lines there were stay. -/
example : (Toy.ready.addAtlas Toy.wideEnv Toy.wideArgs 10 false).2 = .ok () ∧
    (Toy.ready.addAtlas Toy.wideEnv Toy.wideArgs 10 false).1.atlasLines.toOption =
      some [5900, 8700, 20000, 21000, 22000, 4358, 2536, 5852] ∧
    Spec.AddLimits Toy.ready.cal.hough Toy.wideArgs 2500 9500 := by
  refine ⟨by decide +kernel, by decide +kernel, .inr ⟨rfl, by decide +kernel⟩, .inr ⟨rfl, by decide +kernel⟩⟩

/-- With a lower limit given, this one is used. -/
example : (Toy.ready.addAtlas Toy.wideEnv { Toy.wideArgs with minW := some (.fin 3000) } 10 false).1.atlasLines.toOption =
      some [5900, 8700, 20000, 21000, 22000, 4358, 5852] := by
  decide +kernel

/-- `C163_complete` for the line beyond the wavelength range but within the range tolerance. -/
example : ∃ new, (Toy.ready.addAtlas Toy.wideEnv Toy.wideArgs 10 false).1.atlasLines = .ok new ∧ 2536 ∈ new :=
  C163_complete Toy.wideEnv stableArgsort_isArgsort Toy.ready Toy.wideArgs 10 false (by decide +kernel) rfl rfl rfl
    ⟨"Hg", 2536, 80⟩ (by decide +kernel) (by decide +kernel) 2500 9500
    ⟨.inr ⟨rfl, by decide +kernel⟩, .inr ⟨rfl, by decide +kernel⟩⟩ (by norm_num) (by norm_num) (by decide +kernel)

end Rascal
