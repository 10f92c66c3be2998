import Verif.Proofs.ArcLemmas
import Verif.Props.LineFilters
import Verif.Props.PlotProps
import Verif.Proofs.Toy

/-! Property theorems C108-C110: the simulated arc of `plot_calibration_lines`. -/

set_option linter.unusedSectionVars false

namespace Rascal

open Spec

section
variable {K : Type _} [Field K] [LinearOrder K] [IsStrictOrderedRing K] [FloorRing K]

theorem rows_arraysOf (rows : List (Row K)) : (arraysOf rows).rows = rows := by
  unfold LineArrays.rows arraysOf
  induction rows with
  | nil => rfl
  | cons r t ih =>
    simp only [List.map_cons, List.zip_cons_cons] at ih ⊢
    rw [ih]

theorem mask_arraysOf (rows : List (Row K)) (m : List Bool) :
    (arraysOf rows).mask m = arraysOf (boolMask rows m) := by
  simp [LineArrays.mask, arraysOf, boolMask_map]

/-- What is loaded for the plot. -/
theorem linesLoad_rows (env : Env K) (a : LinesArgs K) (es : List String) (hes : a.elements = .list es)
    (hb : a.brightest = none) (arr : LineArrays K) (h : a.load env = .ok arr)
    (hmono : a.vacuum = false → MonotoneOn a.vacToAir (Set.Icc (a.airToVac a.lo) (a.airToVac a.hi))) :
    ∃ rows : List (Row K), arr = arraysOf rows ∧ (∀ r ∈ rows, r.elem ∈ es) ∧
      (rows.map Row.wl).Pairwise (· ≤ ·) ∧
      (a.vacuum = true → ∀ r ∈ rows, a.lo ≤ r.wl ∧ r.wl ≤ a.hi) ∧
      ((a.vacuum = false → StrictMonoOn a.vacToAir (Set.Icc (a.airToVac a.lo) (a.airToVac a.hi))) →
        rows.Nodup) := by
  unfold LinesArgs.load loadFromFile at h
  rw [hes, hb] at h
  cases hr : readLineList env.nistRows env.fs a.linelist with
  | error e => rw [hr] at h; cases h
  | ok lines =>
    rw [hr] at h
    dsimp only at h
    obtain ⟨sel, hs, hm, heq⟩ := load_eq env.argsort a.airToVac a.vacToAir lines (PlotElems.list es).toLoad
      a.lo a.hi (.scalar 0) 0 a.vacuum none (fun vs hvs => by cases hvs)
    rw [heq] at h
    simp only [loadDistanceMask, if_neg (lt_irrefl (0 : K)), List.map_map, brightRows] at h
    rw [show ((fun _ => true) ∘ Row.wl : Row K → Bool) = (fun _ => true) from rfl, boolMask_map_pred] at h
    have hf : sel.filter (fun _ => true) = sel := by simp
    rw [hf] at h
    cases h
    have hel : ∀ r ∈ sel, r.elem ∈ es := by
      intro r hr
      obtain ⟨⟨pre, post, he, _⟩, _⟩ := (hm r).1 hr
      have : r ∈ lines.filter (fun q => (PlotElems.list es).toLoad.contains q.elem) := by rw [he]; simp
      have := (List.mem_filter.1 this).2
      simpa [PlotElems.toLoad] using this
    have hnd : sel.Nodup := by
      rw [List.pairwise_map] at hs
      exact hs.imp (fun {a b} hab hc => by subst hc; exact lt_irrefl _ hab)
    cases hv : a.vacuum with
    | true =>
      refine ⟨sel, by simp [arraysOf], hel, hs.imp le_of_lt, fun _ r hr => ?_, fun _ => hnd⟩
      have := (hm r).1 hr
      rw [hv] at this
      exact ⟨this.2.1, this.2.2.1⟩
    | false =>
      have hic : ∀ r ∈ sel, r.wl ∈ Set.Icc (a.airToVac a.lo) (a.airToVac a.hi) := by
        intro r hr
        have := (hm r).1 hr
        rw [hv] at this
        exact ⟨this.2.1, this.2.2.1⟩
      refine ⟨sel.map (fun r => ⟨r.elem, a.vacToAir r.wl, r.inten⟩), ?_, ?_, ?_, fun h => (by cases h), ?_⟩
      · simp [arraysOf, Function.comp_def]
      · intro r hr
        obtain ⟨q, hq, rfl⟩ := List.mem_map.1 hr
        exact hel q hq
      · rw [List.map_map, List.pairwise_map]
        rw [List.pairwise_map] at hs
        exact hs.imp_of_mem (fun hx hy hxy => hmono hv (hic _ hx) (hic _ hy) (le_of_lt hxy))
      · intro hst
        rw [List.Nodup, List.pairwise_map]
        rw [List.pairwise_map] at hs
        refine hs.imp_of_mem (fun hx hy hxy he => ?_)
        have := hst rfl (hic _ hx) (hic _ hy) hxy
        rw [Row.mk.injEq] at he
        rw [he.2.1] at this
        exact lt_irrefl _ this

theorem sum_filter_or {α : Type _} (rows : List α) (val : α → K) (p q : α → Bool)
    (h : ∀ r ∈ rows, ¬ (p r = true ∧ q r = true)) :
    ((rows.filter p).map val).sum + ((rows.filter q).map val).sum =
      ((rows.filter (fun r => p r || q r)).map val).sum := by
  induction rows with
  | nil => simp
  | cons r t ih =>
    have ih' := ih (fun x hx => h x (by simp [hx]))
    have hr := h r (by simp)
    cases hp : p r <;> cases hq : q r
    · simp [hp, hq, ih']
    · simp only [List.filter_cons, hp, hq, Bool.false_or, if_true, List.map_cons, List.sum_cons]
      rw [if_neg (by decide), ← ih']; ring
    · simp only [List.filter_cons, hp, hq, Bool.true_or, if_true, List.map_cons, List.sum_cons]
      rw [if_neg (by decide), ← ih']; ring
    · exact absurd ⟨hp, hq⟩ hr

/-- The loop over the elements: it succeeds iff no two lines of an element round to the same value, and
then every line is at its place. -/
theorem impulseLoop_spec (grid : List Int) (hg : grid.Pairwise (· < ·)) (rows : List (Row K))
    (hs : (rows.map Row.wl).Pairwise (· ≤ ·)) (hin : ∀ r ∈ rows, milli r.wl ∈ grid)
    (es : List String) (hes : es.Nodup) (f : Int → K) :
    ((∀ e ∈ es, ((rows.filter (fun r => decide (r.elem = e))).map (fun r => milli r.wl)).Nodup) →
      impulseLoop grid (arraysOf rows) es (grid.map f) = .ok (grid.map (fun w => f w +
        ((rows.filter (fun r => decide (milli r.wl = w) && decide (r.elem ∈ es))).map Row.inten).sum))) ∧
    ((¬ ∀ e ∈ es, ((rows.filter (fun r => decide (r.elem = e))).map (fun r => milli r.wl)).Nodup) →
      impulseLoop grid (arraysOf rows) es (grid.map f) = .error .valueError) := by
  induction es generalizing f with
  | nil => simp [impulseLoop]
  | cons e es ih =>
    rw [List.nodup_cons] at hes
    set re := rows.filter (fun r => decide (r.elem = e)) with hre
    have hgn : grid.Nodup := hg.imp (fun h => ne_of_lt h)
    have hmask1 : (boolMask (arraysOf rows).wls ((arraysOf rows).elems.map (fun x => decide (x = e)))).map
        milli = re.map (fun r => milli r.wl) := by
      unfold arraysOf
      dsimp only
      rw [boolMask_map, boolMask_map_key, List.map_map]
      rfl
    have hmask2 : boolMask (arraysOf rows).intens ((arraysOf rows).elems.map (fun x => decide (x = e))) =
        re.map Row.inten := by
      unfold arraysOf
      dsimp only
      rw [boolMask_map, boolMask_map_key]
    have hrein : ∀ k ∈ re.map (fun r => milli r.wl), k ∈ grid := by
      intro k hk
      obtain ⟨r, hr, rfl⟩ := List.mem_map.1 hk
      exact hin r (List.mem_filter.1 hr).1
    have hcount := count_mask grid hgn (re.map (fun r => milli r.wl))
    have hunf : ∀ f' : Int → K, impulseLoop grid (arraysOf rows) (e :: es) (grid.map f') =
        (match maskedAdd (grid.map f') (grid.map (fun w => decide (w ∈ re.map (fun r => milli r.wl))))
            (re.map Row.inten) with
          | .error err => .error err
          | .ok i' => impulseLoop grid (arraysOf rows) es i') := by
      intro f'
      conv_lhs => unfold impulseLoop
      dsimp only
      rw [hmask1, hmask2]
      generalize maskedAdd (K := K) _ _ _ = z
      cases z <;> rfl
    rw [hunf]
    by_cases hnd : (re.map (fun r => milli r.wl)).Nodup
    · have hc := hcount.2 ⟨hnd, hrein⟩
      rw [List.length_map] at hc
      have hstrict : (re.map (fun r => milli r.wl)).Pairwise (· < ·) := by
        have hs' : (re.map (fun r => milli r.wl)).Pairwise (· ≤ ·) := by
          rw [List.pairwise_map] at hs ⊢
          exact (hs.filter _).imp (fun h => milli_mono h)
        exact (hs'.and hnd).imp (fun h => lt_of_le_of_ne h.1 h.2)
      have hadd := addMasked_sorted (fun r : Row K => milli r.wl) Row.inten grid hg re hstrict
        (fun r hr => hrein _ (List.mem_map_of_mem (f := fun r : Row K => milli r.wl) hr)) f
      have hma : maskedAdd (grid.map f) (grid.map (fun w => decide (w ∈ re.map (fun r => milli r.wl))))
          (re.map Row.inten) = .ok (grid.map (fun w => f w +
            ((re.filter (fun r => decide (milli r.wl = w))).map Row.inten).sum)) := by
        unfold maskedAdd
        rw [if_pos (by rw [List.length_map, hc]), hadd]
      rw [hma]
      dsimp only
      obtain ⟨ih1, ih2⟩ := ih hes.2 (fun w => f w +
            ((re.filter (fun r => decide (milli r.wl = w))).map Row.inten).sum)
      constructor
      · intro h
        rw [ih1 (fun e' he' => h e' (by simp [he']))]
        congr 1
        apply List.map_congr_left
        intro w _
        rw [add_assoc, hre, List.filter_filter]
        congr 1
        rw [sum_filter_or]
        · congr 2
          apply List.filter_congr
          intro r _
          simp only [List.mem_cons]
          cases decide (milli r.wl = w) <;> by_cases h1 : r.elem = e <;> by_cases h2 : r.elem ∈ es <;>
            simp [h1, h2]
        · rintro r - ⟨h1, h2⟩
          simp only [Bool.and_eq_true, decide_eq_true_eq] at h1 h2
          exact hes.1 (h1.2 ▸ h2.2)
      · intro h
        apply ih2
        intro h'
        apply h
        intro e' he'
        rcases List.mem_cons.1 he' with rfl | he'
        · exact hnd
        · exact h' e' he'
    · have hne : (re.map Row.inten).length ≠
          (grid.map (fun w => decide (w ∈ re.map (fun r => milli r.wl)))).count true := by
        intro h
        apply hnd
        refine (hcount.1 ?_).1
        rw [← h, List.length_map, List.length_map]
      have hma : maskedAdd (grid.map f) (grid.map (fun w => decide (w ∈ re.map (fun r => milli r.wl))))
          (re.map Row.inten) = .error .valueError := by
        unfold maskedAdd
        rw [if_neg hne]
        cases hre' : re with
        | nil => rw [hre'] at hnd; simp at hnd
        | cons x t =>
          cases t with
          | nil => rw [hre'] at hnd; simp at hnd
          | cons y u => rfl
      rw [hma]
      refine ⟨fun h => absurd (h e (by simp)) hnd, fun _ => rfl⟩

/-- The setting of the theorems below: elements given as a list without repetitions, no limit on the number
of lines, a lower limit that is not half way between two grid values, and, for air wavelengths, a monotone
conversion that keeps the lines inside the limits. -/
structure PlainRequest (env : Env K) (a : LinesArgs K) (es : List String) (arr : LineArrays K) : Prop where
  elements : a.elements = .list es
  nodup : es.Nodup
  brightest : a.brightest = none
  limit : OffHalf a.lo
  loaded : a.load env = .ok arr
  mono : a.vacuum = false → MonotoneOn a.vacToAir (Set.Icc (a.airToVac a.lo) (a.airToVac a.hi))
  inside : a.vacuum = false → ∀ w ∈ arr.wls, a.lo ≤ w ∧ w ≤ a.hi

theorem PlainRequest.rows {env : Env K} {a : LinesArgs K} {es : List String} {arr : LineArrays K}
    (h : PlainRequest env a es arr) : arr = arraysOf arr.rows ∧ (∀ r ∈ arr.rows, r.elem ∈ es) ∧
      (arr.rows.map Row.wl).Pairwise (· ≤ ·) ∧ (∀ r ∈ arr.rows, milli r.wl ∈ arcGrid a.lo a.hi) ∧
      ((a.vacuum = false → StrictMonoOn a.vacToAir (Set.Icc (a.airToVac a.lo) (a.airToVac a.hi))) →
        arr.rows.Nodup) := by
  obtain ⟨rows, rfl, h1, h2, h3, h4⟩ := linesLoad_rows env a es h.elements h.brightest arr h.loaded h.mono
  rw [rows_arraysOf]
  refine ⟨rfl, h1, h2, fun r hr => ?_, h4⟩
  have hw : a.lo ≤ r.wl ∧ r.wl ≤ a.hi := by
    cases hv : a.vacuum with
    | true => exact h3 hv r hr
    | false => exact h.inside hv r.wl (List.mem_map_of_mem (f := Row.wl) hr)
  exact milli_mem_arcGrid _ _ h.limit _ hw.1 hw.2

theorem plotLines_ok (env : Env K) (g : Int → K) (a : LinesArgs K) (arr : LineArrays K)
    (ha : a.load env = .ok arr) (fig : LinesFigure K) (h : plotCalibrationLines env g a = .ok fig) :
    ∃ i imask dmask, impulseLoop (arcGrid a.lo a.hi) arr a.elements.iter
        ((arcGrid a.lo a.hi).map (fun _ => 0)) = .ok i ∧
      filterIntensity a.elements.iter arr.rows a.minIntensity = .ok imask ∧
      filterSeparation (arr.mask imask).wls a.minDistance = .ok dmask ∧
      fig = ⟨arcGrid a.lo a.hi, convolveSame i g,
        ((arr.mask imask).mask dmask).markers a.elements.iter,
        (finishMatplotlib "rascal_arc".toList a.opts).1⟩ := by
  unfold plotCalibrationLines at h
  rw [ha] at h
  dsimp only at h
  cases h1 : impulseLoop (arcGrid a.lo a.hi) arr a.elements.iter ((arcGrid a.lo a.hi).map (fun _ => 0)) with
  | error e => rw [h1] at h; cases h
  | ok i =>
    rw [h1] at h
    dsimp only at h
    cases h2 : filterIntensity a.elements.iter arr.rows a.minIntensity with
    | error e => rw [h2] at h; cases h
    | ok imask =>
      rw [h2] at h
      dsimp only at h
      cases h3 : filterSeparation (arr.mask imask).wls a.minDistance with
      | error e => rw [h3] at h; cases h
      | ok dmask =>
        rw [h3] at h
        dsimp only at h
        split at h
        · cases h
        · cases h
          exact ⟨i, imask, dmask, rfl, rfl, h3, rfl⟩

/-! ### C108 -/

/-- Rounding to three decimals moves a wavelength by at most half a thousandth. -/
theorem milli_near (x : K) : |x - (milli x : K) / 1000| ≤ 1 / 2000 := by
  have := rint_near (x * 1000)
  unfold milli
  rw [abs_le] at this ⊢
  constructor <;> linarith

/-- A wavelength half way between two thousandths goes to the even one. -/
theorem milli_even (x : K) (h : |x - (milli x : K) / 1000| = 1 / 2000) : milli x % 2 = 0 := by
  unfold milli at h ⊢
  have h2 : |x * 1000 - (rint (x * 1000) : K)| = 1 / 2 := by
    rw [show x * 1000 - (rint (x * 1000) : K) = (x - (rint (x * 1000) : K) / 1000) * 1000 by ring, abs_mul, h,
      abs_of_pos (by norm_num : (0 : K) < 1000)]
    norm_num
  generalize x * 1000 = y at h2 ⊢
  have hf := Int.floor_le y
  have hf' := Int.lt_floor_add_one y
  unfold rint at h2 ⊢
  split at h2
  · rename_i h1
    exfalso
    rw [abs_of_nonneg (by linarith)] at h2
    linarith
  · rename_i h1
    rw [if_neg h1]
    split at h2
    · rename_i h3
      exfalso
      push_cast at h2
      rw [abs_of_nonpos (by linarith)] at h2
      linarith
    · rename_i h3
      rw [if_neg h3]
      split
      · assumption
      · omega

/-- C108.  Without a limit on the number of lines, whenever a figure is drawn the spectrum is the sum over
the loaded lines of the kernel centred on the line's (rounded) wavelength, times its intensity, at every
point of a grid that counts up in steps of 0.001 from the lower limit.  Missing: `brightest_n_lines`,
repeated elements, and lines moved out of the range by the conversion to air. -/
theorem C108_arc_partial (env : Env K) (g : Int → K) (a : LinesArgs K) (es : List String)
    (arr : LineArrays K) (hp : PlainRequest env a es arr) (fig : LinesFigure K)
    (h : plotCalibrationLines env g a = .ok fig) :
    (∀ n : Nat, n < fig.grid.length → fig.grid[n]? = some (milli a.lo + (n : Int))) ∧
    fig.arc = fig.grid.map (fun w => (arr.rows.map (fun r => r.inten * g (w - milli r.wl))).sum) ∧
    (∀ x : K, |x - (milli x : K) / 1000| ≤ 1 / 2000 ∧
      (|x - (milli x : K) / 1000| = 1 / 2000 → milli x % 2 = 0)) := by
  obtain ⟨harr, hel, hs, hin, _⟩ := hp.rows
  obtain ⟨i, imask, dmask, hi, _, _, rfl⟩ := plotLines_ok env g a arr hp.loaded fig h
  have hgrid := arcGrid_eq a.lo a.hi hp.limit
  refine ⟨?_, ?_, fun x => ⟨milli_near x, milli_even x⟩⟩
  · intro n hn
    rw [hgrid]
    rw [List.getElem?_map, List.getElem?_range (by exact hn)]
    rfl
  · dsimp only
    rw [hp.elements] at hi
    rw [harr] at hi
    obtain ⟨s1, s2⟩ := impulseLoop_spec (arcGrid a.lo a.hi) (arcGrid_sorted _ _ hp.limit) arr.rows hs hin
      es hp.nodup (fun _ => (0 : K))
    by_cases hnd : ∀ e ∈ es, ((arr.rows.filter (fun r => decide (r.elem = e))).map
        (fun r => milli r.wl)).Nodup
    · have h1 := s1 hnd
      rw [show (PlotElems.list es).iter = es from rfl, h1] at hi
      cases hi
      have hcongr : (arcGrid a.lo a.hi).map (fun w => (0 : K) + ((arr.rows.filter
            (fun r => decide (milli r.wl = w) && decide (r.elem ∈ es))).map Row.inten).sum) =
          (List.range (arcGrid a.lo a.hi).length).map (fun k : Nat => ((arr.rows.filter
            (fun r => decide (milli r.wl = milli a.lo + (k : Int)))).map Row.inten).sum) := by
        conv_lhs => rw [hgrid]
        rw [List.map_map]
        apply List.map_congr_left
        intro k _
        dsimp only [Function.comp]
        rw [zero_add]
        congr 2
        apply List.filter_congr
        intro r hr
        simp [hel r hr]
      rw [hcongr, convolve_lines (fun r : Row K => milli r.wl) Row.inten (milli a.lo)
        (arcGrid a.lo a.hi).length arr.rows ?_ g]
      · conv_rhs => rw [hgrid]
        rw [List.map_map]
        rfl
      · intro r hr
        have := hin r hr
        rw [hgrid, List.mem_map] at this
        obtain ⟨k, hk, hk'⟩ := this
        exact ⟨k, List.mem_range.1 hk, hk'.symm⟩
    · rw [show (PlotElems.list es).iter = es from rfl, s2 hnd] at hi
      cases hi

end

/-- C108 for the kernel of the code: a sum of Gaussians of standard deviation `2.5 * pixel_scale`, each cut
off 100 Angstrom from its line.  Missing: as above. -/
theorem C108_gaussian_partial (env : Env ℝ) (pixelScale : ℝ) (a : LinesArgs ℝ) (es : List String)
    (arr : LineArrays ℝ) (hp : PlainRequest env a es arr) (fig : LinesFigure ℝ)
    (h : plotCalibrationLines env (arcKernel pixelScale) a = .ok fig)
    (hnear : a.hi - a.lo ≤ 99) :
    fig.arc = fig.grid.map (fun w => (arr.rows.map (fun r => r.inten * Real.exp
      (-((((w - milli r.wl : Int) : ℝ) / 1000) ^ 2) / (2 * (5 / 2 * pixelScale) ^ 2 + 1e-9)))).sum) := by
  obtain ⟨h1, h2, _⟩ := C108_arc_partial env (arcKernel pixelScale) a es arr hp fig h
  rw [h2]
  apply List.map_congr_left
  intro w hw
  congr 1
  apply List.map_congr_left
  intro r hr
  congr 1
  obtain ⟨_, _, _, hin, _⟩ := hp.rows
  obtain ⟨i, imask, dmask, _, _, _, rfl⟩ := plotLines_ok env _ a arr hp.loaded fig h
  have hlen : ((arcGrid a.lo a.hi).length : Int) ≤ 99001 := by
    rcases arcGrid_length a.lo a.hi with hl | hl
    · have : ⌈(a.hi - a.lo) * 1000⌉ ≤ 99000 := Int.ceil_le.2 (by push_cast; linarith)
      omega
    · rw [hl.2]; simp
  have hmem : ∀ v ∈ arcGrid a.lo a.hi, milli a.lo ≤ v ∧ v < milli a.lo + 99001 := by
    intro v hv
    rw [arcGrid_eq a.lo a.hi hp.limit, List.mem_map] at hv
    obtain ⟨k, hk, rfl⟩ := hv
    rw [List.mem_range] at hk
    omega
  have b1 := hmem w hw
  have b2 := hmem _ (hin r hr)
  unfold arcKernel gaussFn
  rw [if_pos (by rw [abs_le]; omega)]
  rw [one_mul]
  congr 1
  ring

section
variable {K : Type _} [Field K] [LinearOrder K] [IsStrictOrderedRing K] [FloorRing K]

/-- C82 for `plot_calibration_lines`: the files written are those of the matplotlib formats. -/
theorem C82_lines (env : Env K) (g : Int → K) (a : LinesArgs K) (fig : LinesFigure K)
    (h : plotCalibrationLines env g a = .ok fig) :
    RightFiles false "rascal_arc".toList a.opts fig.events := by
  cases hl : a.load env with
  | error e => unfold plotCalibrationLines at h; rw [hl] at h; cases h
  | ok arr =>
    obtain ⟨_, _, _, _, _, _, rfl⟩ := plotLines_ok env g a arr hl fig h
    exact savedFiles_right _ _ _ _ (filesOf_matplotlib _ _)

/-! ### C109 -/

/-- The line is at least as bright as the threshold of its element. -/
def BrightForPlot (es : List String) (mi : MinIntensity K) (r : Row K) : Prop :=
  ∃ t, Spec.ThresholdFor es mi r.elem t ∧ t ≤ r.inten

/-- C109.  `plot_calibration_lines` draws a figure exactly when the thresholds have a supported type and
length, no two lines of one element agree to three decimals, and at least one line is bright enough.
Missing: as in C108. -/
theorem C109_returns_partial (env : Env K) (g : Int → K) (a : LinesArgs K) (es : List String)
    (arr : LineArrays K) (hp : PlainRequest env a es arr) :
    (∃ fig, plotCalibrationLines env g a = .ok fig) ↔
      a.minIntensity ≠ .other ∧ Spec.ThresholdsFit es a.minIntensity ∧
      (∀ e ∈ es, ((arr.rows.filter (fun r => decide (r.elem = e))).map (fun r => milli r.wl)).Nodup) ∧
      ∃ r ∈ arr.rows, BrightForPlot es a.minIntensity r := by
  obtain ⟨harr, hel, hs, hin, _⟩ := hp.rows
  obtain ⟨s1, s2⟩ := impulseLoop_spec (arcGrid a.lo a.hi) (arcGrid_sorted _ _ hp.limit) arr.rows hs hin
      es hp.nodup (fun _ => (0 : K))
  have hit : a.elements.iter = es := by rw [hp.elements]; rfl
  rw [← harr] at s1 s2
  constructor
  · rintro ⟨fig, h⟩
    obtain ⟨i, imask, dmask, hi, him, hdm, rfl⟩ := plotLines_ok env g a arr hp.loaded fig h
    rw [hit] at hi him
    have hnot : ∀ e, filterIntensity es arr.rows a.minIntensity ≠ .error e := by
      intro e he; rw [he] at him; cases him
    refine ⟨?_, ?_, ?_, ?_⟩
    · intro ho
      exact hnot _ ((C04_error es arr.rows a.minIntensity .valueError).2 (.inl ⟨ho, rfl⟩))
    · intro vs hvs
      by_contra hl
      exact hnot _ ((C04_error es arr.rows a.minIntensity .assertionError).2 (.inr (.inl ⟨vs, hvs, hl, rfl⟩)))
    · by_contra hnd
      rw [s2 hnd] at hi
      cases hi
    · have hne : (arr.mask imask).wls ≠ [] := by
        intro h0
        rw [h0] at hdm
        cases hdm
      rw [harr, mask_arraysOf] at hne
      have hne' : boolMask arr.rows imask ≠ [] := by
        intro h0; apply hne; rw [h0]; rfl
      obtain ⟨r, hr⟩ := List.exists_mem_of_ne_nil _ hne'
      obtain ⟨j, hj1, hj2⟩ := (mem_boolMask _ _ _).1 hr
      obtain ⟨t, ht1, ht2, _⟩ := (C04_mask es arr.rows a.minIntensity imask him).2 j r hj1
      exact ⟨r, List.mem_of_getElem? hj1, t, ht1, ht2.1 hj2⟩
  · rintro ⟨ho, hfit, hnd, r, hr, t, ht1, ht2⟩
    have him : ∃ imask, filterIntensity es arr.rows a.minIntensity = .ok imask := by
      cases hc : filterIntensity es arr.rows a.minIntensity with
      | ok m => exact ⟨m, rfl⟩
      | error e =>
        rcases (C04_error es arr.rows a.minIntensity e).1 hc with h | ⟨vs, h1, h2, _⟩ | ⟨_, _, ⟨q, hq, hq'⟩, _⟩
        · exact absurd h.1 ho
        · exact absurd (hfit vs h1) h2
        · exact absurd (hel q hq) hq'
    obtain ⟨imask, him⟩ := him
    have hlen := (C04_mask es arr.rows a.minIntensity imask him).1
    obtain ⟨j, hj⟩ := List.getElem?_of_mem hr
    obtain ⟨t', ht1', ht2', _⟩ := (C04_mask es arr.rows a.minIntensity imask him).2 j r hj
    have htt : t' = t := by
      cases hd : intensityDict es a.minIntensity with
      | error e =>
        unfold filterIntensity at him
        rw [hd] at him
        cases him
      | ok d =>
        have e1 := (thresholdFor_iff es a.minIntensity d hd _ _).2 ht1
        have e2 := (thresholdFor_iff es a.minIntensity d hd _ _).2 ht1'
        rw [e1] at e2
        cases e2
        rfl
    have hrm : r ∈ boolMask arr.rows imask := (mem_boolMask _ _ _).2 ⟨j, hj, ht2'.2 (by rw [htt]; exact ht2)⟩
    have hne : (arr.mask imask).wls ≠ [] := by
      rw [harr, mask_arraysOf]
      intro h0
      have := List.mem_map_of_mem (f := Row.wl) hrm
      have h0' : (boolMask arr.rows imask).map Row.wl = [] := h0
      rw [h0'] at this
      cases this
    obtain ⟨dmask, hdm, _⟩ := filterSeparation_spec (arr.mask imask).wls a.minDistance hne
    have hgne : arcGrid a.lo a.hi ≠ [] := by
      intro h0
      have := hin r hr
      rw [h0] at this
      cases this
    unfold plotCalibrationLines
    rw [hp.loaded]
    dsimp only
    rw [hit, s1 hnd]
    dsimp only
    rw [him]
    dsimp only
    rw [hdm]
    dsimp only
    rw [if_neg hgne]
    exact ⟨_, rfl⟩

/-- C109, elements given as a string: although `load_calibration_lines` accepts a string as one element, a
name of two or more letters with at least one line in range raises KeyError.  Missing: plotting it. -/
theorem C109_string_partial (env : Env K) (g : Int → K) (a : LinesArgs K) (s : List Char)
    (hs : a.elements = .str s) (h2 : 2 ≤ s.length) (v : K) (hmi : a.minIntensity = .scalar v)
    (arr : LineArrays K) (hl : a.load env = .ok arr) (hne : arr.rows ≠ [])
    (hel : ∀ e ∈ arr.elems, e = String.ofList s) :
    plotCalibrationLines env g a = .error .keyError := by
  have hit : a.elements.iter = s.map (fun c => c.toString) := by rw [hs]; rfl
  have hnot : ∀ e ∈ arr.elems, e ∉ s.map (fun c => c.toString) := by
    intro e he hm
    rw [hel e he, List.mem_map] at hm
    obtain ⟨c, _, hc⟩ := hm
    have := congrArg String.length hc
    simp at this
    omega
  have hloop : ∀ (cs : List String), (∀ c ∈ cs, ∀ e ∈ arr.elems, e ≠ c) → ∀ i : List K,
      impulseLoop (arcGrid a.lo a.hi) arr cs i = .ok i := by
    intro cs
    induction cs with
    | nil => intro _ i; rfl
    | cons c cs ih =>
      intro hcs i
      have hfalse : arr.elems.map (fun x => decide (x = c)) = List.replicate arr.elems.length false := by
        rw [List.eq_replicate_iff]
        refine ⟨by simp, fun b hb => ?_⟩
        obtain ⟨e, he, rfl⟩ := List.mem_map.1 hb
        simpa using hcs c (by simp) e he
      have hb : ∀ {α : Type _} (l : List α), boolMask l (List.replicate arr.elems.length false) = [] := by
        intro α l
        rw [List.eq_nil_iff_forall_not_mem]
        intro x hx
        obtain ⟨j, _, hj⟩ := (mem_boolMask _ _ _).1 hx
        have := List.mem_of_getElem? hj
        rw [List.mem_replicate] at this
        exact absurd this.2 (by decide)
      unfold impulseLoop
      dsimp only
      rw [hfalse, hb, hb]
      have hma : ∀ (gr : List Int), maskedAdd i (gr.map (fun w => decide (w ∈ ([] : List K).map milli))) ([] : List K) =
          .ok i := by
        intro gr
        have hz : gr.map (fun w => decide (w ∈ ([] : List K).map milli)) = List.replicate gr.length false := by
          rw [List.eq_replicate_iff]
          exact ⟨by simp, fun b hb => by
            obtain ⟨w, _, rfl⟩ := List.mem_map.1 hb
            simp⟩
        rw [hz]
        unfold maskedAdd
        rw [if_pos (by simp [List.count_replicate])]
        congr 1
        generalize gr.length = n
        induction i generalizing n with
        | nil => simp [addMasked]
        | cons x t ih =>
          cases n with
          | zero => simp [addMasked]
          | succ n => simp [List.replicate_succ, addMasked, ih]
      rw [hma]
      exact ih (fun c' hc' => hcs c' (by simp [hc'])) i
  have h1 := hloop (s.map (fun c => c.toString)) (fun c hc e he hec => hnot e he (hec ▸ hc))
    ((arcGrid a.lo a.hi).map (fun _ => 0))
  have h3 : filterIntensity (s.map (fun c => c.toString)) arr.rows a.minIntensity = .error .keyError := by
    refine (C04_error _ _ _ _).2 (.inr (.inr ⟨(by rw [hmi]; simp), (by rw [hmi]; intro vs hvs; cases hvs), ?_, rfl⟩))
    obtain ⟨r, hr⟩ := List.exists_mem_of_ne_nil _ hne
    refine ⟨r, hr, hnot _ ?_⟩
    unfold LineArrays.rows at hr
    obtain ⟨t, ht, rfl⟩ := List.mem_map.1 hr
    exact (List.of_mem_zip ht).1
  unfold plotCalibrationLines
  rw [hl]
  dsimp only
  rw [hit, h1]
  dsimp only
  rw [h3]

/-! ### C110 -/

/-- C110.  The markers: for each element the lines of that element, in order of wavelength, that are bright
enough and at least `min_distance` from every other line bright enough; with `min_distance` zero all that are
bright enough.  Missing: as in C108; a lone bright line with a positive `min_distance` is not marked. -/
theorem C110_markers_partial (env : Env K) (g : Int → K) (a : LinesArgs K) (es : List String)
    (arr : LineArrays K) (hp : PlainRequest env a es arr)
    (hst : a.vacuum = false → StrictMonoOn a.vacToAir (Set.Icc (a.airToVac a.lo) (a.airToVac a.hi)))
    (fig : LinesFigure K) (h : plotCalibrationLines env g a = .ok fig) :
    ∃ bright kept : List (Row K), bright.Sublist arr.rows ∧ kept.Sublist bright ∧
      (∀ r ∈ arr.rows, r ∈ bright ↔ BrightForPlot es a.minIntensity r) ∧
      (2 ≤ bright.length → ∀ (i : Nat) (r : Row K), bright[i]? = some r →
        (r ∈ kept ↔ Spec.Isolated (bright.map Row.wl) a.minDistance i)) ∧
      (a.minDistance ≤ 0 → kept = bright) ∧
      (0 < a.minDistance → bright.length = 1 → kept = []) ∧
      fig.markers = es.map (fun e => (e, (kept.filter (fun r => decide (r.elem = e))).map
        (fun r => (r.wl, r.inten)))) := by
  obtain ⟨harr, hel, hs, hin, hnodup⟩ := hp.rows
  have hnd := hnodup hst
  obtain ⟨i, imask, dmask, hi, him, hdm, rfl⟩ := plotLines_ok env g a arr hp.loaded fig h
  have hit : a.elements.iter = es := by rw [hp.elements]; rfl
  rw [hit] at him
  have hb := boolMask_sublist arr.rows imask
  set bright := boolMask arr.rows imask with hbr
  have hwls : (arr.mask imask).wls = bright.map Row.wl := by
    conv_lhs => rw [harr, mask_arraysOf]
    rfl
  rw [hwls] at hdm
  have hbne : bright.map Row.wl ≠ [] := by
    intro h0; rw [h0] at hdm; cases hdm
  have hbs : (bright.map Row.wl).Pairwise (· ≤ ·) := hs.sublist (hb.map _)
  have hbnd : bright.Nodup := hnd.sublist hb
  obtain ⟨dm, hdm', hdl, hdspec⟩ := filterSeparation_spec (bright.map Row.wl) a.minDistance hbne
  rw [hdm] at hdm'
  cases hdm'
  refine ⟨bright, boolMask bright dmask, hb, boolMask_sublist _ _, ?_, ?_, ?_, ?_, ?_⟩
  · intro r hr
    constructor
    · intro hrb
      obtain ⟨j, hj1, hj2⟩ := (mem_boolMask _ _ _).1 hrb
      obtain ⟨t, ht1, ht2, _⟩ := (C04_mask es arr.rows a.minIntensity imask him).2 j r hj1
      exact ⟨t, ht1, ht2.1 hj2⟩
    · rintro ⟨t, ht1, ht2⟩
      obtain ⟨j, hj⟩ := List.getElem?_of_mem hr
      obtain ⟨t', ht1', ht2', _⟩ := (C04_mask es arr.rows a.minIntensity imask him).2 j r hj
      have htt : t' = t := by
        cases hd : intensityDict es a.minIntensity with
        | error e =>
          unfold filterIntensity at him
          rw [hd] at him
          cases him
        | ok d =>
          have e1 := (thresholdFor_iff es a.minIntensity d hd _ _).2 ht1
          have e2 := (thresholdFor_iff es a.minIntensity d hd _ _).2 ht1'
          rw [e1] at e2
          cases e2
          rfl
      exact (mem_boolMask _ _ _).2 ⟨j, hj, ht2'.2 (by rw [htt]; exact ht2)⟩
  · intro h2 j r hj
    have hjl : j < bright.length := (List.getElem?_eq_some_iff.1 hj).1
    have hjl' : j < (bright.map Row.wl).length := by simpa using hjl
    rw [← sepAt_isolated (bright.map Row.wl) hbs (by simpa using h2) a.minDistance j hjl']
    have hd := hdspec j hjl'
    constructor
    · intro hr
      obtain ⟨j', hj1, hj2⟩ := (mem_boolMask _ _ _).1 hr
      have hjj : j' = j := by
        have h1 := List.getElem?_eq_some_iff.1 hj1
        have h2 := List.getElem?_eq_some_iff.1 hj
        exact (List.Nodup.getElem_inj_iff hbnd).1 (h1.2.trans h2.2.symm)
      subst hjj
      rw [hd] at hj2
      simpa using hj2
    · intro hle
      refine (mem_boolMask _ _ _).2 ⟨j, hj, ?_⟩
      rw [hd]
      simpa using hle
  · intro hd0
    have hall : dmask = bright.map (fun _ => true) := by
      apply List.ext_getElem?
      intro j
      by_cases hj : j < (bright.map Row.wl).length
      · rw [hdspec j hj, List.getElem?_map]
        rw [List.length_map] at hj
        rw [List.getElem?_eq_getElem hj]
        simp only [Option.map_some, Option.some.injEq, decide_eq_true_eq]
        exact le_trans hd0 (abs_nonneg _)
      · rw [List.getElem?_eq_none (by rw [hdl]; omega), List.getElem?_eq_none (by simpa using hj)]
    rw [hall, boolMask_true]
  · intro hd0 h1
    obtain ⟨r, hr⟩ := List.length_eq_one_iff.1 h1
    rw [hr] at hdm ⊢
    have := (C03_degenerate_partial a.minDistance).2 r.wl
    rw [show [r].map Row.wl = [r.wl] from rfl, this] at hdm
    cases hdm
    rw [decide_eq_false (not_le.2 hd0)]
    simp [boolMask_cons, boolMask_nil]
  · dsimp only
    rw [hit]
    rw [show (arr.mask imask).mask dmask = arraysOf (boolMask bright dmask) from by
      conv_lhs => rw [harr, mask_arraysOf, mask_arraysOf]]
    unfold LineArrays.markers
    apply List.map_congr_left
    intro e _
    congr 1
    unfold arraysOf
    dsimp only
    rw [boolMask_map, boolMask_map, boolMask_map_key, List.zip_map']

end

/-! ### refutations and examples -/

/-- A line list and nothing else. -/
def Toy.arcEnv (rows : List (Row ℚ)) : Env ℚ := ⟨stableArgsort, rows, fun _ => none⟩

/-- A kernel three samples wide. -/
def Toy.tri (j : Int) : ℚ := if j = 0 then 2 else if j = 1 ∨ j = -1 then 1 else 0

/-- Wavelengths from 1 to 1.01 in vacuum. -/
def Toy.arcArgs (es : List String) (brightest : Option Int) (d : ℚ) : LinesArgs ℚ :=
  { elements := .list es, lo := 1, hi := 101 / 100, minIntensity := .scalar 5, minDistance := d,
    brightest := brightest, vacuum := true, airToVac := id, vacToAir := id,
    opts := { saveFig := true, display := false } }

theorem offHalf_one : OffHalf (1 : ℚ) := by
  intro z h
  have h1 : (2 * z + 1 : ℚ) = 2000 := by linarith
  have h2 : 2 * z + 1 = 2000 := by exact_mod_cast h1
  omega

/-- The expected behaviour: the spectrum shows the loaded lines. -/
def C108_Statement : Prop :=
  ∀ (env : Env ℚ) (g : Int → ℚ) (a : LinesArgs ℚ) (es : List String) (arr : LineArrays ℚ)
    (fig : LinesFigure ℚ), IsArgsort env.argsort → a.elements = .list es → es.Nodup → OffHalf a.lo →
    a.vacuum = true → a.load env = .ok arr → plotCalibrationLines env g a = .ok fig →
    fig.arc = fig.grid.map (fun w => (arr.rows.map (fun r => r.inten * g (w - milli r.wl))).sum)

/-- With `brightest_n_lines` the intensities are attached to the wrong wavelengths: a line of intensity 10
at 1.002 and one of 100 at 1.005 are drawn the other way round. -/
theorem C108_refuted : ¬ C108_Statement := by
  intro h
  let env := Toy.arcEnv [⟨"He", 1002 / 1000, 10⟩, ⟨"He", 1005 / 1000, 100⟩]
  let a := Toy.arcArgs ["He"] (some 2) 0
  have hl : a.load env = .ok ⟨["He", "He"], [1005 / 1000, 1002 / 1000], [100, 10]⟩ := by decide +kernel
  have hf : (plotCalibrationLines env Toy.tri a).toOption.map (fun f => f.arc) =
      some [0, 100, 200, 100, 10, 20, 10, 0, 0, 0, 0] := by decide +kernel
  cases hp : plotCalibrationLines env Toy.tri a with
  | error e => rw [hp] at hf; simp [Except.toOption] at hf
  | ok fig =>
    have h1 := h env Toy.tri a ["He"] _ fig stableArgsort_isArgsort rfl (by simp) offHalf_one rfl hl hp
    obtain ⟨i, im, dm, _, _, _, rfl⟩ := plotLines_ok env Toy.tri a _ hl fig hp
    rw [hp] at hf
    simp only [Except.toOption, Option.map_some, Option.some.injEq] at hf
    dsimp only at h1
    rw [hf] at h1
    exact absurd h1 (by decide +kernel)

/-- The same for any list of elements and no limit on the number of lines. -/
def C108_repeated_Statement : Prop :=
  ∀ (env : Env ℚ) (g : Int → ℚ) (a : LinesArgs ℚ) (es : List String) (arr : LineArrays ℚ)
    (fig : LinesFigure ℚ), IsArgsort env.argsort → a.elements = .list es → a.brightest = none →
    OffHalf a.lo → a.vacuum = true → a.load env = .ok arr → plotCalibrationLines env g a = .ok fig →
    fig.arc = fig.grid.map (fun w => (arr.rows.map (fun r => r.inten * g (w - milli r.wl))).sum)

/-- An element named twice is drawn with twice its intensity, though it is loaded once. -/
theorem C108_repeated_refuted : ¬ C108_repeated_Statement := by
  intro h
  let env := Toy.arcEnv [⟨"He", 1002 / 1000, 10⟩]
  let a := Toy.arcArgs ["He", "He"] none 0
  have hl : a.load env = .ok ⟨["He"], [1002 / 1000], [10]⟩ := by decide +kernel
  have hf : (plotCalibrationLines env Toy.tri a).toOption.map (fun f => f.arc) =
      some [0, 20, 40, 20, 0, 0, 0, 0, 0, 0, 0] := by decide +kernel
  cases hp : plotCalibrationLines env Toy.tri a with
  | error e => rw [hp] at hf; simp [Except.toOption] at hf
  | ok fig =>
    have h1 := h env Toy.tri a _ _ fig stableArgsort_isArgsort rfl rfl offHalf_one rfl hl hp
    obtain ⟨i, im, dm, _, _, _, rfl⟩ := plotLines_ok env Toy.tri a _ hl fig hp
    rw [hp] at hf
    simp only [Except.toOption, Option.map_some, Option.some.injEq] at hf
    dsimp only at h1
    rw [hf] at h1
    exact absurd h1 (by decide +kernel)

/-- The expected behaviour: whenever there is a line to mark the figure is drawn. -/
def C109_Statement : Prop :=
  ∀ (env : Env ℚ) (g : Int → ℚ) (a : LinesArgs ℚ) (es : List String) (arr : LineArrays ℚ) (v : ℚ),
    IsArgsort env.argsort → a.elements = .list es → es.Nodup → a.brightest = none → a.lo ≤ a.hi →
    a.vacuum = true → a.load env = .ok arr → a.minIntensity = .scalar v →
    (∃ r ∈ arr.rows, v ≤ r.inten) → ∃ fig, plotCalibrationLines env g a = .ok fig

/-- Two lines of an element that agree to three decimals make the call raise ValueError. -/
theorem C109_refuted : ¬ C109_Statement := by
  intro h
  let env := Toy.arcEnv [⟨"He", 10021 / 10000, 10⟩, ⟨"He", 10022 / 10000, 100⟩]
  let a := Toy.arcArgs ["He"] none 0
  have hl : a.load env = .ok ⟨["He", "He"], [10021 / 10000, 10022 / 10000], [10, 100]⟩ := by decide +kernel
  have hf : (plotCalibrationLines env Toy.tri a).toOption = none := by decide +kernel
  obtain ⟨fig, hp⟩ := h env Toy.tri a ["He"] _ 5 stableArgsort_isArgsort rfl (by simp) rfl
    (by show (1 : ℚ) ≤ 101 / 100; norm_num) rfl hl rfl
    ⟨⟨"He", 10021 / 10000, 10⟩, by decide +kernel, by decide +kernel⟩
  rw [hp] at hf
  simp [Except.toOption] at hf

/-- The expected behaviour: two markers are at least `min_distance` apart. -/
def C110_Statement : Prop :=
  ∀ (env : Env ℚ) (g : Int → ℚ) (a : LinesArgs ℚ) (fig : LinesFigure ℚ), IsArgsort env.argsort →
    a.vacuum = true → plotCalibrationLines env g a = .ok fig → ∀ q ∈ fig.markers,
    q.2.Pairwise (fun x y => a.minDistance ≤ |x.1 - y.1|)

/-- With `brightest_n_lines` the neighbours compared are neighbours in brightness: the lines at 1 and 1.001
are both marked though lines closer than 0.005 should not be. -/
theorem C110_refuted : ¬ C110_Statement := by
  intro h
  let env := Toy.arcEnv [⟨"He", 1, 80⟩, ⟨"He", 1001 / 1000, 60⟩, ⟨"He", 1010 / 1000, 70⟩]
  let a := Toy.arcArgs ["He"] (some 3) (5 / 1000)
  have hf : (plotCalibrationLines env Toy.tri a).toOption.map (fun f => f.markers) =
      some [("He", [(1, 80), (1010 / 1000, 70), (1001 / 1000, 60)])] := by decide +kernel
  cases hp : plotCalibrationLines env Toy.tri a with
  | error e => rw [hp] at hf; simp [Except.toOption] at hf
  | ok fig =>
    rw [hp] at hf
    simp only [Except.toOption, Option.map_some, Option.some.injEq] at hf
    have h1 := h env Toy.tri a fig stableArgsort_isArgsort rfl hp _ (by rw [hf]; exact List.mem_cons_self)
    exact absurd h1 (by decide +kernel)

/-- A case for `C108_arc_partial`, `C110_markers_partial` and `C82_lines`: three lines of two elements, two of them
at neighbouring grid points and one too faint to be marked. -/
example : ∃ arr, PlainRequest (Toy.arcEnv [⟨"Ar", 1006 / 1000, 1⟩, ⟨"He", 1002 / 1000, 10⟩,
      ⟨"Ar", 10028 / 10000, 100⟩]) (Toy.arcArgs ["He", "Ar"] none 0) ["He", "Ar"] arr ∧
    plotCalibrationLines (Toy.arcEnv [⟨"Ar", 1006 / 1000, 1⟩, ⟨"He", 1002 / 1000, 10⟩,
      ⟨"Ar", 10028 / 10000, 100⟩]) Toy.tri (Toy.arcArgs ["He", "Ar"] none 0) =
      .ok ⟨[1000, 1001, 1002, 1003, 1004, 1005, 1006, 1007, 1008, 1009, 1010],
        [0, 10, 120, 210, 100, 1, 2, 1, 0, 0, 0],
        [("He", [(1002 / 1000, 10)]), ("Ar", [(10028 / 10000, 100)])],
        [.file "rascal_arc.png".toList]⟩ := by
  refine ⟨⟨["He", "Ar", "Ar"], [1002 / 1000, 10028 / 10000, 1006 / 1000], [10, 100, 1]⟩,
    ⟨rfl, by decide, rfl, offHalf_one, by decide +kernel, fun h => (by cases h), fun h => (by cases h)⟩,
    by decide +kernel⟩

/-- A case for `C109_string_partial`. -/
example : (({ Toy.arcArgs [] none 0 with elements := .str "He".toList }).load
      (Toy.arcEnv [⟨"He", 1002 / 1000, 10⟩])) = .ok ⟨["He"], [1002 / 1000], [10]⟩ ∧
    plotCalibrationLines (Toy.arcEnv [⟨"He", 1002 / 1000, 10⟩]) Toy.tri
      { Toy.arcArgs [] none 0 with elements := .str "He".toList } = .error .keyError := by
  constructor <;> decide +kernel

end Rascal
