import Verif.Props.AtlasProps

/-! Property theorems C211: thresholds of brightness for each element in `Atlas.add`. -/

set_option linter.unusedSectionVars false

namespace Rascal

section
variable {K : Type _} [AddCommGroup K] [LinearOrder K]

/-- The arguments with another threshold. -/
def Spec.withThreshold (a : AddArgs K) (m : MinIntensity K) : AddArgs K := { a with minIntensity := m }

/-- The arguments for one element with its own threshold. -/
def Spec.oneElement (a : AddArgs K) (e : String) (t : K) : AddArgs K :=
  { a with elements := .str e, minIntensity := .scalar t }

theorem load_single (env : Env K) (a : AddArgs K) (lo hi t : K) (e : String) :
    (Spec.withThreshold a (.perElement [t])).load env lo hi e = (Spec.withThreshold a (.scalar t)).load env lo hi e := by
  rfl

theorem addLoop_congr (f g : String → PyRes (LineArrays K)) (h : ∀ e, f e = g e) (es : List String)
    (lines : List (AtlasLine K)) : addLoop f es lines = addLoop g es lines := by
  rw [show f = g from funext h]

/-- C211, what holds: a list with a single threshold is used for every element, as the number is. -/
theorem C211_single_partial (env : Env K) (at_ : Atlas K) (a : AddArgs K) (t : K) :
    at_.add env (Spec.withThreshold a (.perElement [t])) = at_.add env (Spec.withThreshold a (.scalar t)) := by
  unfold Atlas.add
  have h : ∀ lo hi, addLoop ((Spec.withThreshold a (.perElement [t])).load env lo hi) a.elements.toList at_.lines =
      addLoop ((Spec.withThreshold a (.scalar t)).load env lo hi) a.elements.toList at_.lines :=
    fun lo hi => addLoop_congr _ _ (load_single env a lo hi t) _ _
  simp only [Spec.withThreshold] at h ⊢
  simp only [h]

/-- A list of no or several thresholds makes every `load_calibration_lines` call for one element raise. -/
theorem load_several (env : Env K) (a : AddArgs K) (vs : List K) (hv : vs.length ≠ 1) (lo hi : K) (e : String) :
    ∃ err, (Spec.withThreshold a (.perElement vs)).load env lo hi e = .error err ∧
      ((∃ rows, readLineList env.nistRows env.fs a.linelist = .ok rows) → err = .assertionError) := by
  unfold AddArgs.load loadFromFile Spec.withThreshold
  dsimp only
  cases hr : readLineList env.nistRows env.fs a.linelist with
  | error err => exact ⟨err, rfl, by rintro ⟨_, h⟩; cases h⟩
  | ok rows =>
    refine ⟨.assertionError, ?_, fun _ => rfl⟩
    unfold loadCalibrationLines loadSelected loadIntensityMask filterIntensity intensityDict
    dsimp only
    rw [if_neg (by simpa using hv)]

/-- C211, what holds: with a list of no or several thresholds, a call for at least one element raises and adds nothing;
it raises AssertionError if the same call with a number returns. -/
theorem C211_several_partial (env : Env K) (at_ : Atlas K) (a : AddArgs K) (vs : List K) (hv : vs.length ≠ 1)
    (he : a.elements.toList ≠ []) :
    (at_.add env (Spec.withThreshold a (.perElement vs))).1 = at_ ∧
    (∃ err, (at_.add env (Spec.withThreshold a (.perElement vs))).2 = .error err) ∧
    ∀ t, (at_.add env (Spec.withThreshold a (.scalar t))).2 = .ok () →
      (at_.add env (Spec.withThreshold a (.perElement vs))).2 = .error .assertionError := by
  obtain ⟨e, es, hes⟩ := List.exists_cons_of_ne_nil he
  unfold Atlas.add
  simp only [Spec.withThreshold]
  cases h1 : addLimit a.minW at_.minW (fun v => v - at_.rangeTol) with
  | error err => exact ⟨rfl, ⟨_, rfl⟩, fun t ht => by cases ht⟩
  | ok lo' =>
    dsimp only
    cases h2 : addLimit a.maxW at_.maxW (fun v => v + at_.rangeTol) with
    | error err => exact ⟨rfl, ⟨_, rfl⟩, fun t ht => by cases ht⟩
    | ok hi' =>
      dsimp only
      cases h3 : lo'.toFinite with
      | none => exact ⟨rfl, ⟨_, rfl⟩, fun t ht => by cases ht⟩
      | some lo =>
        dsimp only
        cases h4 : hi'.toFinite with
        | none => exact ⟨rfl, ⟨_, rfl⟩, fun t ht => by cases ht⟩
        | some hi =>
          dsimp only
          rw [hes]
          obtain ⟨err, g1, g2⟩ := load_several env a vs hv lo hi e
          simp only [Spec.withThreshold] at g1
          simp only [addLoop]
          rw [g1]
          refine ⟨rfl, ⟨err, rfl⟩, fun t ht => ?_⟩
          rw [g2 ?_]
          cases hr : readLineList env.nistRows env.fs a.linelist with
          | ok rows => exact ⟨rows, rfl⟩
          | error err' =>
            have : (Spec.withThreshold a (.scalar t)).load env lo hi e = .error err' := by
              unfold AddArgs.load loadFromFile Spec.withThreshold
              dsimp only
              rw [hr]
            simp only [Spec.withThreshold] at this
            rw [this] at ht
            cases ht

/-- One call for each element. -/
def Spec.addEach (env : Env K) (a : AddArgs K) : Atlas K → List (String × K) → Atlas K
  | at_, [] => at_
  | at_, p :: ps => Spec.addEach env a (at_.add env (Spec.oneElement a p.1 p.2)).1 ps

/-- C211, what holds: one call for each element has the expected effect. -/
theorem C211_each (env : Env K) (a : AddArgs K) (lo hi : K) (ha1 : a.minW = some (.fin lo)) (ha2 : a.maxW = some (.fin hi))
    (at_ : Atlas K) (ps : List (String × K)) (rs : List (LineArrays K))
    (h : List.Forall₂ (fun p r => loadFromFile env.argsort a.airToVac a.vacToAir env.nistRows env.fs a.linelist [p.1] lo hi
      (.scalar p.2) a.minDistance a.vacuum a.brightest = .ok r) ps rs) :
    Spec.addEach env a at_ ps = { at_ with lines := at_.lines ++ rs.flatMap nistOf } := by
  induction h generalizing at_ with
  | nil => simp [Spec.addEach]
  | cons hx _ ih =>
    rename_i p r ps rs _
    have hone : at_.add env (Spec.oneElement a p.1 p.2) = ({ at_ with lines := at_.lines ++ [r].flatMap nistOf }, .ok ()) := by
      rw [C44_add]
      refine ⟨lo, hi, [r], ?_, ?_, ?_, rfl⟩
      · exact .inl ha1
      · exact .inl ha2
      · exact .cons hx .nil
    rw [Spec.addEach, hone, ih]
    simp

end

/-! ### refutation and concrete cases -/

/-- The expected behaviour: a list of thresholds, one for each of the elements, selects the lines of each element with its
own threshold. -/
def C211_Statement : Prop :=
  ∀ (env : Env ℤ) (at_ : Atlas ℤ) (a : AddArgs ℤ) (lo hi : ℤ) (ps : List (String × ℤ)) (rs : List (LineArrays ℤ)),
    a.minW = some (.fin lo) → a.maxW = some (.fin hi) → a.elements = .list (ps.map Prod.fst) →
    a.minIntensity = .perElement (ps.map Prod.snd) →
    List.Forall₂ (fun p r => loadFromFile env.argsort a.airToVac a.vacToAir env.nistRows env.fs a.linelist [p.1] lo hi
      (.scalar p.2) a.minDistance a.vacuum a.brightest = .ok r) ps rs →
    at_.add env a = ({ at_ with lines := at_.lines ++ rs.flatMap nistOf }, .ok ())

/-- Argon and xenon lines. -/
def Toy.argonXenon : Env ℤ :=
  ⟨stableArgsort, [⟨"Ar", 4000, 90⟩, ⟨"Ar", 4100, 40⟩, ⟨"Xe", 4200, 40⟩, ⟨"Xe", 4300, 20⟩], fun _ => none⟩

/-- `add(["Ar", "Xe"], 3000, 5000, min_intensity=[50, 30])`. -/
def Toy.twoThresholds : AddArgs ℤ :=
  ⟨.list ["Ar", "Xe"], some (.fin 3000), some (.fin 5000), .perElement [50, 30], 0, true, id, id, .nist, some 1000⟩

theorem Toy.each_threshold : List.Forall₂ (fun p r => loadFromFile Toy.argonXenon.argsort Toy.twoThresholds.airToVac
      Toy.twoThresholds.vacToAir Toy.argonXenon.nistRows Toy.argonXenon.fs Toy.twoThresholds.linelist [p.1] 3000 5000
      (.scalar p.2) Toy.twoThresholds.minDistance Toy.twoThresholds.vacuum Toy.twoThresholds.brightest = .ok r)
    [("Ar", (50 : ℤ)), ("Xe", 30)] [⟨["Ar"], [4000], [90]⟩, ⟨["Xe"], [4200], [40]⟩] :=
  .cons (by decide) (.cons (by decide) .nil)

/-- C211 is false: the whole list of thresholds is compared with each single element. -/
theorem C211_refuted : ¬ C211_Statement := by
  intro h
  have := h Toy.argonXenon ⟨[], none, none, 0⟩ Toy.twoThresholds 3000 5000 [("Ar", 50), ("Xe", 30)] _ rfl rfl rfl rfl
    Toy.each_threshold
  have h2 := (C211_several_partial Toy.argonXenon ⟨[], none, none, 0⟩ Toy.twoThresholds [50, 30] (by decide) (by decide)).2.1
  obtain ⟨err, h2⟩ := h2
  change (Atlas.add Toy.argonXenon ⟨[], none, none, 0⟩ Toy.twoThresholds).2 = .error err at h2
  rw [this] at h2
  cases h2

/-- A case for `C211_several_partial`: the call with a number returns. -/
example : (Atlas.add Toy.argonXenon ⟨[], none, none, 0⟩ Toy.twoThresholds).2 = .error .assertionError :=
  (C211_several_partial Toy.argonXenon ⟨[], none, none, 0⟩ Toy.twoThresholds [50, 30] (by decide) (by decide)).2.2 30
    (by decide)

/-- A case for `C211_single_partial`: three of the four lines are added. -/
example : (Atlas.add Toy.argonXenon ⟨[], none, none, 0⟩ (Spec.withThreshold Toy.twoThresholds (.perElement [30]))).1.lines.map
    AtlasLine.wl = [4000, 4100, 4200] := by
  rw [C211_single_partial]
  decide

/-- A case for `C211_each`. -/
example : (Spec.addEach Toy.argonXenon Toy.twoThresholds ⟨[], none, none, 0⟩ [("Ar", 50), ("Xe", 30)]).lines.map
    AtlasLine.wl = [4000, 4200] := by
  rw [C211_each Toy.argonXenon Toy.twoThresholds 3000 5000 rfl rfl _ _ _ Toy.each_threshold]
  decide

end Rascal
