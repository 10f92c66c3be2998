import Verif.Props.BrightDistanceProps
import Verif.Model.Atlas

/-!
Property theorem C217: the unit of the intensities of a line list.
-/

set_option linter.unusedSectionVars false

namespace Rascal

section
variable {K : Type _} [LinearOrder K]

/-- The same line with its intensity on another scale. -/
def Spec.rescaled (f : K → K) (r : Row K) : Row K := ⟨r.elem, r.wl, f r.inten⟩

/-- The same thresholds on another scale. -/
def Spec.rescaledThreshold (f : K → K) : MinIntensity K → MinIntensity K
  | .none => .none
  | .scalar v => .scalar (f v)
  | .perElement vs => .perElement (vs.map f)
  | .other => .other

/-- The same arrays with the intensities on another scale. -/
def Spec.rescaledArrays (f : K → K) (a : LineArrays K) : LineArrays K := ⟨a.elems, a.wls, a.intens.map f⟩

/-- A sorting routine that only compares the values. -/
def Spec.ComparesOnly (argsort : List K → List Nat) : Prop :=
  ∀ f : K → K, StrictMono f → ∀ l, argsort (l.map f) = argsort l

/-- The stable sort only compares the values. -/
theorem stableArgsort_comparesOnly : Spec.ComparesOnly (stableArgsort (K := K)) := by
  intro f hf l
  unfold stableArgsort
  have h1 : (l.map f).zipIdx = l.zipIdx.map (Prod.map f id) := List.zipIdx_map
  rw [h1, ← List.map_insertionSort (r := fun a b : K × Nat => a.1 ≤ b.1) (s := fun a b : K × Nat => a.1 ≤ b.1)
    (Prod.map f id) l.zipIdx (by intro a _ b _; simp [hf.le_iff_le]), List.map_map]
  rfl

theorem dictFill_rescaled (f : K → K) (kvs : List (String × K)) :
    dictFill (kvs.map (Prod.map id f)) = fun k => (dictFill kvs k).map f := by
  unfold dictFill
  suffices h : ∀ d d' : String → Option K, (d' = fun k => (d k).map f) →
      (kvs.map (Prod.map id f)).foldl (fun d kv => dictSet d kv.1 kv.2) d' =
        fun k => (kvs.foldl (fun d kv => dictSet d kv.1 kv.2) d k).map f by
    exact h _ _ rfl
  induction kvs with
  | nil => intro d d' h; exact h
  | cons kv kvs ih =>
    intro d d' h
    rw [List.map_cons, List.foldl_cons, List.foldl_cons]
    apply ih
    subst h
    funext k
    unfold dictSet
    simp only [Prod.map_fst, Prod.map_snd, id]
    split <;> rfl

theorem intensityDict_rescaled [Zero K] (f : K → K) (elements : List String) (mi : MinIntensity K)
    (h0 : mi = .none → f 0 = 0) :
    intensityDict elements (Spec.rescaledThreshold f mi) =
      (intensityDict elements mi).map (fun d k => (d k).map f) := by
  have hm : ∀ v : K, elements.map (fun e => (e, f v)) = (elements.map (fun e => (e, v))).map (Prod.map id f) := by
    intro v; rw [List.map_map]; rfl
  cases mi with
  | none =>
    show Except.ok _ = Except.ok _
    dsimp only
    rw [← dictFill_rescaled, ← hm, h0 rfl]
  | scalar v =>
    show Except.ok _ = Except.ok _
    dsimp only
    rw [← dictFill_rescaled, ← hm]
  | perElement vs =>
    simp only [Spec.rescaledThreshold, intensityDict, List.length_map]
    split
    · show Except.ok _ = Except.ok _
      dsimp only
      rw [← dictFill_rescaled, List.zip_map_right]
    · rfl
  | other => rfl

theorem intensityLoop_rescaled (f : K → K) (hf : StrictMono f) (d : String → Option K) (lines : List (Row K)) :
    intensityLoop (fun k => (d k).map f) (lines.map (Spec.rescaled f)) = intensityLoop d lines := by
  induction lines with
  | nil => rfl
  | cons r lines ih =>
    rw [List.map_cons]
    unfold intensityLoop
    rw [ih]
    dsimp only [Spec.rescaled]
    cases d r.elem with
    | none => rfl
    | some t =>
      dsimp only [Option.map_some]
      cases intensityLoop d lines with
      | error e => rfl
      | ok out => simp only [hf.le_iff_le]

end

variable {K : Type _} [AddCommGroup K] [LinearOrder K]

/-- C217, filter.  With the intensities and the thresholds on another scale `filter_intensity` chooses the same
lines, or raises the same exception.  Without thresholds the new scale has to have the same zero. -/
theorem C217_filter (f : K → K) (hf : StrictMono f) (elements : List String) (lines : List (Row K))
    (mi : MinIntensity K) (h0 : mi = .none → f 0 = 0) :
    filterIntensity elements (lines.map (Spec.rescaled f)) (Spec.rescaledThreshold f mi) =
      filterIntensity elements lines mi := by
  unfold filterIntensity
  rw [intensityDict_rescaled f elements mi h0]
  cases intensityDict elements mi with
  | error e => rfl
  | ok d => exact intensityLoop_rescaled f hf d lines

/-- Two elements with thresholds, in tenths. -/
example : filterIntensity ["He", "Xe"] [⟨"He", 1, 50⟩, ⟨"Xe", 2, 50⟩, ⟨"Xe", 3, (90 : ℤ)⟩] (.perElement [30, 70]) =
      .ok [true, false, true] ∧
    filterIntensity ["He", "Xe"] [⟨"He", 1, 5⟩, ⟨"Xe", 2, 5⟩, ⟨"Xe", 3, (9 : ℤ)⟩] (.perElement [3, 7]) =
      .ok [true, false, true] ∧ StrictMono (fun x : ℤ => 10 * x) :=
  ⟨by decide, by decide, fun a b h => by show 10 * a < 10 * b; omega⟩

theorem filterWavelengths_rescaled (f : K → K) (lines : List (Row K)) (lo hi : K) :
    filterWavelengths (lines.map (Spec.rescaled f)) lo hi =
      (filterWavelengths lines lo hi).map (Spec.rescaled f) := by
  have hw : (lines.map (Spec.rescaled f)).map Row.wl = lines.map Row.wl := by rw [List.map_map]; rfl
  unfold filterWavelengths filterWavelengthsBy
  dsimp only
  rw [hw, takeIdx_map, boolMask_map]

theorem loadSelected_rescaled (f : K → K) (hf : StrictMono f) (argsort : List K → List Nat)
    (ha : Spec.ComparesOnly argsort) (vacToAir : K → K) (lines : List (Row K)) (elements : List String)
    (mi : MinIntensity K) (minDistance : K) (vacuum : Bool) (brightest : Option Int) :
    loadSelected argsort vacToAir (lines.map (Spec.rescaled f)) elements (Spec.rescaledThreshold f mi) minDistance
        vacuum brightest =
      (loadSelected argsort vacToAir lines elements mi minDistance vacuum brightest).map
        (Spec.rescaledArrays f) := by
  have hmask : loadIntensityMask elements (lines.map (Spec.rescaled f)) (Spec.rescaledThreshold f mi) =
      loadIntensityMask elements lines mi := by
    cases mi with
    | none => show Except.ok _ = Except.ok _; rw [List.map_map]; rfl
    | other => show Except.ok _ = Except.ok _; rw [List.map_map]; rfl
    | scalar v => exact C217_filter f hf elements lines (.scalar v) (fun h => by cases h)
    | perElement vs => exact C217_filter f hf elements lines (.perElement vs) (fun h => by cases h)
  unfold loadSelected
  rw [hmask]
  cases loadIntensityMask elements lines mi with
  | error e => rfl
  | ok imask =>
    dsimp only
    have hb : keepBrightest argsort brightest ⟨boolMask ((lines.map (Spec.rescaled f)).map Row.elem) imask,
        boolMask ((lines.map (Spec.rescaled f)).map Row.wl) imask,
        boolMask ((lines.map (Spec.rescaled f)).map Row.inten) imask⟩ =
        Spec.rescaledArrays f (keepBrightest argsort brightest ⟨boolMask (lines.map Row.elem) imask,
          boolMask (lines.map Row.wl) imask, boolMask (lines.map Row.inten) imask⟩) := by
      have h1 : (lines.map (Spec.rescaled f)).map Row.elem = lines.map Row.elem := by rw [List.map_map]; rfl
      have h2 : (lines.map (Spec.rescaled f)).map Row.wl = lines.map Row.wl := by rw [List.map_map]; rfl
      have h3 : (lines.map (Spec.rescaled f)).map Row.inten = (lines.map Row.inten).map f := by
        rw [List.map_map, List.map_map]; rfl
      rw [h1, h2, h3, boolMask_map (lines.map Row.inten) f imask]
      cases brightest with
      | none => rfl
      | some n =>
        unfold keepBrightest Spec.rescaledArrays
        dsimp only
        rw [ha f hf, takeIdx_map]
    rw [hb]
    generalize keepBrightest argsort brightest _ = arr
    unfold Spec.rescaledArrays
    dsimp only
    cases loadDistanceMask arr.wls minDistance with
    | error e => rfl
    | ok dmask =>
      dsimp only
      rw [boolMask_map]
      rfl

/-- C217, load.  With the intensities of the line list and the thresholds on another scale
`load_calibration_lines` returns the same lines, with their intensities on the new scale, or raises the same
exception, for all other arguments. -/
theorem C217_load (f : K → K) (hf : StrictMono f) (argsort : List K → List Nat)
    (ha : Spec.ComparesOnly argsort) (airToVac vacToAir : K → K) (lines : List (Row K)) (elements : List String)
    (lo hi : K) (mi : MinIntensity K) (minDistance : K) (vacuum : Bool) (brightest : Option Int) :
    loadCalibrationLines argsort airToVac vacToAir (lines.map (Spec.rescaled f)) elements lo hi
        (Spec.rescaledThreshold f mi) minDistance vacuum brightest =
      (loadCalibrationLines argsort airToVac vacToAir lines elements lo hi mi minDistance vacuum brightest).map
        (Spec.rescaledArrays f) := by
  unfold loadCalibrationLines
  dsimp only
  rw [show boolMask (lines.map (Spec.rescaled f)) ((lines.map (Spec.rescaled f)).map
      (fun li => elements.contains li.elem)) =
      (boolMask lines (lines.map (fun li => elements.contains li.elem))).map (Spec.rescaled f) by
    rw [boolMask_map, List.map_map]; rfl, filterWavelengths_rescaled]
  exact loadSelected_rescaled f hf argsort ha vacToAir _ elements mi minDistance vacuum brightest

/-- The two brightest of four lines above a threshold, with all intensities shifted and stretched. -/
example : loadCalibrationLines stableArgsort id id
      [⟨"He", 4, 7⟩, ⟨"Xe", 5, 3⟩, ⟨"He", 6, 9⟩, ⟨"He", 9, (8 : ℤ)⟩] ["He", "Xe"] 1 20 (.scalar 4) 0 true (some 2) =
      .ok ⟨["He", "He"], [6, 9], [9, 8]⟩ ∧
    loadCalibrationLines stableArgsort id id
      [⟨"He", 4, 15⟩, ⟨"Xe", 5, 7⟩, ⟨"He", 6, 19⟩, ⟨"He", 9, (17 : ℤ)⟩] ["He", "Xe"] 1 20 (.scalar 9) 0 true
      (some 2) = .ok ⟨["He", "He"], [6, 9], [19, 17]⟩ ∧
    Spec.ComparesOnly (stableArgsort (K := ℤ)) ∧ StrictMono (fun x : ℤ => 2 * x + 1) :=
  ⟨by decide +kernel, by decide +kernel, stableArgsort_comparesOnly,
    fun a b h => by show 2 * a + 1 < 2 * b + 1; omega⟩

/-- The same line lists with the intensities on another scale. -/
def Spec.rescaledFiles (f : K → K) (env : Env K) : Env K :=
  ⟨env.argsort, env.nistRows.map (Spec.rescaled f), fun p => (env.fs p).map (List.map (Spec.rescaled f))⟩

/-- The same line of an atlas with its intensity on another scale. -/
def Spec.rescaledLine (f : K → K) (l : AtlasLine K) : AtlasLine K := ⟨l.wl, l.elem, f l.inten, l.source⟩

/-- The same atlas with its intensities on another scale. -/
def Spec.rescaledAtlas (f : K → K) (at_ : Atlas K) : Atlas K :=
  ⟨at_.lines.map (Spec.rescaledLine f), at_.minW, at_.maxW, at_.rangeTol⟩

theorem load_rescaled (f : K → K) (hf : StrictMono f) (env : Env K) (ha : Spec.ComparesOnly env.argsort)
    (a : AddArgs K) (lo hi : K) (e : String) :
    AddArgs.load (Spec.rescaledFiles f env) { a with minIntensity := Spec.rescaledThreshold f a.minIntensity } lo hi e =
      (a.load env lo hi e).map (Spec.rescaledArrays f) := by
  unfold AddArgs.load loadFromFile Spec.rescaledFiles
  dsimp only
  cases a.linelist with
  | nist => exact C217_load f hf env.argsort ha _ _ _ _ _ _ _ _ _ _
  | notAString => rfl
  | path p =>
    simp only [readLineList]
    cases env.fs p with
    | none => rfl
    | some rows => exact C217_load f hf env.argsort ha _ _ _ _ _ _ _ _ _ _

theorem nistLines_rescaled (f : K → K) (r : LineArrays K) :
    (Spec.rescaledArrays f r).nistLines = r.nistLines.map (Spec.rescaledLine f) := by
  unfold LineArrays.nistLines Spec.rescaledArrays
  dsimp only
  rw [List.zip_map_right, List.zip_map_right, List.map_map, List.map_map]
  rfl

theorem addLoop_rescaled (f : K → K) (load load' : String → PyRes (LineArrays K))
    (h : ∀ e, load' e = (load e).map (Spec.rescaledArrays f)) (es : List String) (lines : List (AtlasLine K)) :
    addLoop load' es (lines.map (Spec.rescaledLine f)) =
      ((addLoop load es lines).1.map (Spec.rescaledLine f), (addLoop load es lines).2) := by
  induction es generalizing lines with
  | nil => rfl
  | cons e es ih =>
    unfold addLoop
    rw [h]
    cases load e with
    | error err => rfl
    | ok r =>
      show addLoop load' es (lines.map (Spec.rescaledLine f) ++ (Spec.rescaledArrays f r).nistLines) = _
      rw [nistLines_rescaled, ← List.map_append]
      exact ih _

/-- C217, atlas.  With the intensities of the line lists, of the atlas and the thresholds on another scale
`Atlas.add` adds the same lines, with their intensities on the new scale, and raises the same exceptions; the
wavelengths of the atlas, which are what a calibration uses, are the same. -/
theorem C217_atlas (f : K → K) (hf : StrictMono f) (env : Env K) (ha : Spec.ComparesOnly env.argsort)
    (at_ : Atlas K) (a : AddArgs K) :
    (Spec.rescaledAtlas f at_).add (Spec.rescaledFiles f env)
        { a with minIntensity := Spec.rescaledThreshold f a.minIntensity } =
      (Spec.rescaledAtlas f (at_.add env a).1, (at_.add env a).2) ∧
    (Spec.rescaledAtlas f (at_.add env a).1).getLines = (at_.add env a).1.getLines := by
  constructor
  · unfold Atlas.add
    dsimp only [Spec.rescaledAtlas]
    cases addLimit a.minW at_.minW (fun v => v - at_.rangeTol) with
    | error e => rfl
    | ok lo' =>
      dsimp only
      cases addLimit a.maxW at_.maxW (fun v => v + at_.rangeTol) with
      | error e => rfl
      | ok hi' =>
        dsimp only
        cases lo'.toFinite with
        | none => rfl
        | some lo =>
          dsimp only
          cases hi'.toFinite with
          | none => rfl
          | some hi =>
            dsimp only
            rw [addLoop_rescaled f (a.load env lo hi) _ (fun e => load_rescaled f hf env ha a lo hi e)]
  · unfold Atlas.getLines Spec.rescaledAtlas
    rw [List.map_map]
    rfl

/-- Two elements added to an atlas that holds a line, with a threshold, before and after the change of scale. -/
example :
    let a : AddArgs ℤ := ⟨.list ["He", "Xe"], some (.fin 1), some (.fin 20), .scalar 4, 0, true, id, id, .nist, some 2⟩
    let env : Env ℤ := ⟨stableArgsort, [⟨"He", 4, 7⟩, ⟨"Xe", 5, 3⟩, ⟨"He", 6, 9⟩, ⟨"Xe", 9, 8⟩], fun _ => none⟩
    ((⟨[⟨11, "Ar", 1, none⟩], none, none, 0⟩ : Atlas ℤ).add env a).1.lines =
      [⟨11, "Ar", 1, none⟩, ⟨6, "He", 9, some "NIST"⟩, ⟨4, "He", 7, some "NIST"⟩, ⟨9, "Xe", 8, some "NIST"⟩] ∧
    ((Spec.rescaledAtlas (fun x => 2 * x + 1) ⟨[⟨11, "Ar", 1, none⟩], none, none, 0⟩).add
      (Spec.rescaledFiles (fun x => 2 * x + 1) env) { a with minIntensity := .scalar 9 }).1.lines =
      [⟨11, "Ar", 3, none⟩, ⟨6, "He", 19, some "NIST"⟩, ⟨4, "He", 15, some "NIST"⟩, ⟨9, "Xe", 17, some "NIST"⟩] := by
  decide +kernel

end Rascal
