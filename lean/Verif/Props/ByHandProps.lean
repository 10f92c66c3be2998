import Verif.Props.AtlasProps

/-! Property theorem C174: lines given by hand instead of by element, and the two meanings of `vacuum`. -/

set_option linter.unusedSectionVars false

namespace Rascal

section
variable {K : Type _} [AddCommGroup K] [LinearOrder K]

/-- The arguments that select the same lines by their tabulated (vacuum) wavelengths. -/
def Spec.tabulated (a : AddArgs K) (lo hi : K) : AddArgs K :=
  { a with vacuum := true
           minW := some (.fin (if a.vacuum then lo else a.airToVac lo))
           maxW := some (.fin (if a.vacuum then hi else a.airToVac hi)) }

/-- Loading in air is loading in vacuum within the converted limits, followed by the conversion. -/
theorem load_tabulated (env : Env K) (a : AddArgs K) (lo hi : K) (e : String) :
    a.load env lo hi e =
      match (Spec.tabulated a lo hi).load env (if a.vacuum then lo else a.airToVac lo)
        (if a.vacuum then hi else a.airToVac hi) e with
      | .error err => .error err
      | .ok r => .ok ⟨r.elems, if a.vacuum then r.wls else r.wls.map a.vacToAir, r.intens⟩ := by
  unfold AddArgs.load Spec.tabulated loadFromFile
  dsimp only
  cases readLineList env.nistRows env.fs a.linelist with
  | error err => rfl
  | ok rows =>
    dsimp only
    unfold loadCalibrationLines loadSelected
    simp only [if_true]
    split
    · rfl
    · split
      · rfl
      · rfl

/-- The same line at another wavelength. -/
def Spec.movedLine (f : K → K) (l : AtlasLine K) : AtlasLine K := { l with wl := f l.wl }

theorem nistLines_moved (r : LineArrays K) (f : K → K) :
    LineArrays.nistLines ⟨r.elems, r.wls.map f, r.intens⟩ = r.nistLines.map (Spec.movedLine f) := by
  unfold LineArrays.nistLines
  dsimp only
  rw [List.zip_map_left, List.zip_map_right, List.map_map, List.map_map]
  rfl

theorem addLoop_moved (load load' : String → PyRes (LineArrays K)) (f : K → K)
    (h : ∀ e, load' e = match load e with
      | .error err => .error err
      | .ok r => .ok ⟨r.elems, r.wls.map f, r.intens⟩) (es : List String) (l : List (AtlasLine K)) :
    addLoop load' es (l.map (Spec.movedLine f)) =
      ((addLoop load es l).1.map (Spec.movedLine f), (addLoop load es l).2) := by
  induction es generalizing l with
  | nil => rfl
  | cons e es ih =>
    unfold addLoop
    rw [h e]
    cases load e with
    | error err => rfl
    | ok r =>
      dsimp only
      rw [nistLines_moved, ← List.map_append]
      exact ih _

/-- Giving the lines of an atlas by hand. -/
theorem addUser_lines (at0 : Atlas K) (L : List (AtlasLine K)) (hL : L ≠ []) (vac : Bool) (f : K → K) :
    ∃ atU, at0.addUser (.list (L.map AtlasLine.elem)) (.seq (L.map AtlasLine.wl)) (some (.seq (L.map AtlasLine.inten)))
        vac f = (atU, .ok ()) ∧
      atU.lines = at0.lines ++ L.map (fun l => ⟨if vac then f l.wl else l.wl, l.elem, l.inten, none⟩) := by
  unfold Atlas.addUser
  simp only [UserElems.toList, SeqArg.toList, userIntensities, List.length_map, ne_eq, not_true_eq_false, if_false]
  have hw : (if vac = true then (L.map AtlasLine.wl).map f else L.map AtlasLine.wl) =
      L.map (fun l => if vac then f l.wl else l.wl) := by
    cases vac <;> simp
  rw [hw]
  obtain ⟨l, t, rfl⟩ := List.exists_cons_of_ne_nil hL
  refine ⟨_, rfl, ?_⟩
  rw [List.zip_map', List.zip_map', List.map_map]
  rfl

/-- C174, what holds: giving the tabulated wavelengths of the selected lines to `add_user_atlas` with the opposite
value of `vacuum` makes the same atlas as `add` (up to the recorded source).  Missing: with the same value of `vacuum`
the wavelengths are different ones, because `add` converts to air unless `vacuum` is set and `add_user_atlas` converts
if it is set. -/
theorem C174_by_hand_partial (env : Env K) (a : AddArgs K) (at0 atV : Atlas K) (lo hi : K)
    (hempty : at0.lines = []) (hlo : a.minW = some (.fin lo)) (hhi : a.maxW = some (.fin hi))
    (h : at0.add env (Spec.tabulated a lo hi) = (atV, .ok ())) (hne : atV.lines ≠ []) :
    ∃ atA atU, at0.add env a = (atA, .ok ()) ∧
      at0.addUser (.list atV.getElements) (.seq atV.getLines) (some (.seq atV.getIntensities)) (!a.vacuum) a.vacToAir =
        (atU, .ok ()) ∧
      atU.lines = atA.lines.map (fun l => { l with source := none }) := by
  have hsel : a.elements.toList = (Spec.tabulated a lo hi).elements.toList := rfl
  unfold Atlas.add at h ⊢
  rw [hlo, hhi]
  simp only [Spec.tabulated, addLimit, PyFloat.toFinite] at h ⊢
  set lo' := if a.vacuum then lo else a.airToVac lo
  set hi' := if a.vacuum then hi else a.airToVac hi
  rw [hempty] at h ⊢
  have hm := addLoop_moved ((Spec.tabulated a lo hi).load env lo' hi') (a.load env lo hi)
    (if a.vacuum then id else a.vacToAir) (by
      intro e
      rw [load_tabulated]
      cases (Spec.tabulated a lo hi).load env lo' hi' e with
      | error err => rfl
      | ok r => dsimp only; cases a.vacuum <;> simp) a.elements.toList []
  rw [List.map_nil] at hm
  rw [hm]
  have h1 := congrArg Prod.fst h
  have h2 := congrArg Prod.snd h
  dsimp only at h1 h2
  have hV : (addLoop ((Spec.tabulated a lo hi).load env lo' hi') a.elements.toList []).1 = atV.lines := by
    rw [← h1]; rfl
  obtain ⟨atU, hu, hul⟩ := addUser_lines at0 atV.lines hne (!a.vacuum) a.vacToAir
  refine ⟨_, atU, Prod.ext rfl h2, hu, ?_⟩
  rw [hul, hempty, hV, List.nil_append, List.map_map]
  apply List.map_congr_left
  intro l _
  cases a.vacuum <;> rfl

end

/-! ### refutation and concrete cases -/

/-- The expected behaviour: with the same value of `vacuum`, lines given by hand with their tabulated wavelengths are
the lines added by element. -/
def C174_Statement : Prop :=
  ∀ (env : Env ℚ) (a : AddArgs ℚ) (at0 atV atA atU : Atlas ℚ) (lo hi : ℚ), at0.lines = [] →
    a.minW = some (.fin lo) → a.maxW = some (.fin hi) →
    at0.add env (Spec.tabulated a lo hi) = (atV, .ok ()) → at0.add env a = (atA, .ok ()) →
    at0.addUser (.list atV.getElements) (.seq atV.getLines) (some (.seq atV.getIntensities)) a.vacuum a.vacToAir =
      (atU, .ok ()) → atU.getLines = atA.getLines

/-- A list with two xenon lines. -/
def Toy.twoXe : Env ℚ := ⟨fun _ => [0, 1], [⟨"Xe", 5001, 20⟩, ⟨"Xe", 6001, 30⟩], fun _ => none⟩

/-- Xenon lines in air, where wavelengths are smaller by one. -/
def Toy.xeInAir : AddArgs ℚ :=
  ⟨.list ["Xe"], some (.fin 4000), some (.fin 7000), .none, 0, false, fun v => v + 1, fun v => v - 1, .nist, none⟩

/-- C174 is false: by element the lines are at 5000 and 6000, by hand at 5001 and 6001. -/
theorem C174_refuted : ¬ C174_Statement := by
  intro h
  have := h Toy.twoXe Toy.xeInAir ⟨[], none, none, 0⟩ _ _ _ 4000 7000 rfl rfl rfl
    (Prod.ext rfl (by decide +kernel)) (Prod.ext rfl (by decide +kernel)) (Prod.ext rfl (by decide +kernel))
  revert this
  decide +kernel

/-- A case for `C174_by_hand_partial`. -/
example := C174_by_hand_partial Toy.twoXe Toy.xeInAir ⟨[], none, none, 0⟩ _ 4000 7000 rfl rfl rfl
  (Prod.ext rfl (by decide +kernel)) (by decide +kernel)

/-- The lines of that case, by element. -/
example : ((⟨[], none, none, 0⟩ : Atlas ℚ).add Toy.twoXe Toy.xeInAir).1.getLines = [5000, 6000] := by decide +kernel

end Rascal
