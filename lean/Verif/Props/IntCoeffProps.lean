import Verif.Model.IntCoeff
import Verif.Props.RefineScoreProps
import Verif.Props.MatchReturnsProps

/-! Property theorems C212: coefficients given to `match_peaks` as integers. -/

set_option linter.unusedSectionVars false

namespace Rascal

/-- The documented behaviour: what type of numbers the coefficients are does not matter. -/
def C212_Statement : Prop :=
  ∀ (F : FitEnv ℚ) (M : MatchKernels ℚ) (s : Session ℚ) (a : MatchArgs ℚ) (co : List Int),
    (s.matchPeaksInt F M a co).2 =
      (s.matchPeaks F M { a with coeff := some (true, co.map (fun c : Int => (c : ℚ))) }).2

variable {K : Type _} [Field K] [LinearOrder K] [IsStrictOrderedRing K] [FloorRing K]

/-- A change of a whole number by less than one, away from zero. -/
def Spec.Outward (c : Int) (d : K) : Prop := (0 ≤ c ∧ 0 ≤ d ∧ d < 1) ∨ (c ≤ 0 ∧ -1 < d ∧ d ≤ 0)

theorem pyInt_outward (c : Int) (d : K) (h : Spec.Outward c d) : pyInt ((c : K) + d) = c := by
  unfold pyInt
  rcases h with ⟨hc, h0, h1⟩ | ⟨hc, h0, h1⟩
  · have : (0 : K) ≤ (c : K) := by exact_mod_cast hc
    rw [if_pos (by linarith), Int.floor_eq_iff]
    constructor <;> linarith
  · have hc' : (c : K) ≤ 0 := by exact_mod_cast hc
    split_ifs with hs
    · rw [Int.floor_eq_iff]
      constructor <;> linarith
    · rw [Int.ceil_eq_iff]
      constructor <;> linarith

theorem pyInt_near (x : K) : |(pyInt x : K) - x| < 1 ∧ |(pyInt x : K)| ≤ |x| := by
  unfold pyInt
  split_ifs with h
  · have h1 := Int.floor_le x
    have h2 := Int.lt_floor_add_one x
    have h3 : (0 : K) ≤ (⌊x⌋ : K) := by exact_mod_cast Int.floor_nonneg.2 h
    refine ⟨abs_lt.2 ⟨by linarith, by linarith⟩, ?_⟩
    rw [abs_of_nonneg h3, abs_of_nonneg h]
    exact h1
  · have h' := (not_le.1 h).le
    have h1 := Int.le_ceil x
    have h2 := Int.ceil_lt_add_one x
    have h3 : (⌈x⌉ : K) ≤ 0 := by
      have : ⌈x⌉ ≤ 0 := Int.ceil_le.2 (by simpa using h')
      exact_mod_cast this
    refine ⟨abs_lt.2 ⟨by linarith, by linarith⟩, ?_⟩
    rw [abs_of_nonpos h3, abs_of_nonpos h']
    linarith

theorem addDeltaInt_outward (co : List Int) (d : List K) (hd : d.length ≤ co.length)
    (h : ∀ (i : Nat) (c : Int) (x : K), co[i]? = some c → d[i]? = some x → Spec.Outward c x) : addDeltaInt co d = .ok co := by
  unfold addDeltaInt
  rw [if_neg (not_lt.2 hd)]
  congr 1
  apply List.ext_getElem?
  intro i
  rw [List.getElem?_mapIdx]
  cases hc : co[i]? with
  | none => rfl
  | some c =>
    rw [Option.map_some]
    congr 1
    apply pyInt_outward
    cases hx : d[i]? with
    | none =>
      rw [List.getD_eq_getElem?_getD, hx]
      rcases le_total 0 c with h0 | h0
      · exact .inl ⟨h0, by simp, by simp⟩
      · exact .inr ⟨h0, by simp, by simp⟩
    | some x =>
      rw [List.getD_eq_getElem?_getD, hx]
      exact h i c x hc hx

theorem search_robust (F : FitEnv K) (M : MatchKernels K) (s : Session K) (a a' : MatchArgs K) (h2 : a.robust = true)
    (h2' : a'.robust = true) (ht : a'.tol = a.tol) (hd : a'.deg = a.deg) (kind : CoeffKind) (co : List K)
    (new new' : Refined K) : s.matchSearch F M a kind co new = s.matchSearch F M a' kind co new' := by
  have hrefit : ∀ (s : Session K) (b : FitType) (deg : Nat) (new new' : Refined K)
      (fitted xs ys res : List K) (rms pu au : K),
      s.matchRefit F M b true deg new fitted xs ys res rms pu au =
        s.matchRefit F M b true deg new' fitted xs ys res rms pu au := by
    intros; rfl
  unfold Session.matchSearch Session.matchFit
  dsimp only
  rw [h2, h2', ht, hd]
  simp only [hrefit _ _ _ new new']

/-- C212, what holds: without refinement integers and floats give the same result and the same state. -/
theorem C212_plain_partial (F : FitEnv K) (M : MatchKernels K) (s : Session K) (a : MatchArgs K) (co : List Int)
    (h : a.refine = false) :
    s.matchPeaksInt F M a co = s.matchPeaks F M { a with coeff := some (true, co.map (fun c : Int => (c : K))) } := by
  unfold Session.matchPeaksInt Session.matchPeaks Session.inputCoeff Session.refineStepInt Session.refineStep
  simp only [h, if_true, Bool.not_false]
  rfl

/-- C212, what holds: with the robust fit integers and floats give the same result and the same state, provided that
the minimiser returns in both cases numbers, not more of them than there are coefficients. -/
theorem C212_robust_partial (F : FitEnv K) (M : MatchKernels K) (s : Session K) (a : MatchArgs K) (co : List Int)
    (h : a.robust = true)
    (hm : ∀ f x0, x0.length ≤ co.length → ∃ d, M.minimize f x0 = .ok (some d) ∧ d.length ≤ co.length) :
    s.matchPeaksInt F M a co = s.matchPeaks F M { a with coeff := some (true, co.map (fun c : Int => (c : K))) } := by
  by_cases hr : a.refine = false
  · exact C212_plain_partial F M s a co hr
  · rw [Bool.not_eq_false] at hr
    have hlen : ((pyTake (intCoeff co) (a.nDelta.getD ((co.length : Int) - 1))).map
        (fun c : K => c * (1 / 1000))).length ≤ co.length := by
      rw [List.length_map]
      unfold pyTake intCoeff
      rw [List.length_take, List.length_map]
      exact min_le_right _ _
    obtain ⟨d1, e1, l1⟩ := hm (s.objectiveInt F a co) _ hlen
    obtain ⟨d2, e2, l2⟩ :=
      hm (s.objective F { a with coeff := some (true, co.map (fun c : Int => (c : K))) } (co.map (fun c : Int => (c : K)))) _ hlen
    have h1 : s.refineStepInt F M a co =
        .ok (.coeffs (intCoeff (co.mapIdx (fun (i : Nat) (c : Int) => pyInt ((c : K) + d1.getD i 0))))) := by
      unfold Session.refineStepInt
      simp only [hr, Bool.not_true, Bool.false_eq_true, if_false]
      rw [e1]
      dsimp only
      unfold addDeltaInt
      rw [if_neg (not_lt.2 l1)]
    have h2 : s.refineStep F M { a with coeff := some (true, co.map (fun c : Int => (c : K))) } .array
        (co.map (fun c : Int => (c : K))) =
        .ok (.coeffs ((co.map (fun c : Int => (c : K))).mapIdx (fun i c => c + d2.getD i 0))) := by
      unfold Session.refineStep
      simp only [hr, Bool.not_true, Bool.false_eq_true, if_false]
      rw [List.length_map]
      unfold intCoeff at e2
      simp only [hr] at e2
      rw [e2]
      dsimp only
      unfold addDelta
      rw [List.length_map, if_neg (not_lt.2 l2)]
    unfold Session.matchPeaksInt Session.matchPeaks Session.inputCoeff
    rw [h1]
    dsimp only
    rw [if_pos rfl, h2]
    exact search_robust F M s _ _ h h rfl rfl _ _ _ _

/-- Without the robust fit the coefficients returned are those of the refinement. -/
theorem refinedInt_returned (F : FitEnv K) (M : MatchKernels K) (s s' : Session K) (a : MatchArgs K) (co : List Int)
    (r : MatchReport K) (hr : a.refine = true) (hrob : a.robust = false)
    (h : s.matchPeaksInt F M a co = (s', .ok (.report r))) :
    ∃ d l, M.minimize (s.objectiveInt F a co)
      ((pyTake (intCoeff co) (a.nDelta.getD ((co.length : Int) - 1))).map (fun c => c * (1 / 1000))) = .ok (some d) ∧
      addDeltaInt co d = .ok l ∧ r.coeffs = intCoeff l := by
  unfold Session.matchPeaksInt Session.refineStepInt at h
  simp only [hr, Bool.not_true, Bool.false_eq_true, if_false] at h
  cases hm : M.minimize (s.objectiveInt F a co)
      ((pyTake (intCoeff co) (a.nDelta.getD ((co.length : Int) - 1))).map (fun c => c * (1 / 1000))) with
  | error e => rw [hm] at h; cases h
  | ok o =>
    rw [hm] at h
    cases o with
    | none => cases h
    | some d =>
      dsimp only at h
      cases hl : addDeltaInt co d with
      | error e => rw [hl] at h; cases h
      | ok l =>
        rw [hl] at h
        dsimp only at h
        refine ⟨d, l, rfl, hl, ?_⟩
        unfold Session.matchSearch at h
        split at h
        · cases h
        · split at h
          · cases h
          · split at h
            · cases h
            · dsimp only at h
              split at h
              · cases h
              · rw [hrob] at h
                exact matchFit_refined F M _ _ _ _ _ _ _ _ h

/-- C212, what happens instead: with `refine=True` and `robust_refit=False` the coefficients returned are whole numbers.
Each is the refined value without its fraction. -/
theorem C212_whole_partial (F : FitEnv K) (M : MatchKernels K) (s s' : Session K) (a : MatchArgs K) (co : List Int)
    (r : MatchReport K) (hr : a.refine = true) (hrob : a.robust = false)
    (h : s.matchPeaksInt F M a co = (s', .ok (.report r))) :
    r.coeffs.length = co.length ∧ ∃ d : List K, ∀ (i : Nat) (c : Int), co[i]? = some c → ∃ z : Int, r.coeffs[i]? = some (z : K) ∧
      |(z : K) - ((c : K) + d.getD i 0)| < 1 ∧ |(z : K)| ≤ |(c : K) + d.getD i 0| := by
  obtain ⟨d, l, _, hl, hc⟩ := refinedInt_returned F M s s' a co r hr hrob h
  unfold addDeltaInt at hl
  split_ifs at hl
  cases hl
  rw [hc]
  unfold intCoeff
  refine ⟨by simp, d, ?_⟩
  intro i c hi
  refine ⟨pyInt ((c : K) + d.getD i 0), ?_, pyInt_near _⟩
  rw [List.getElem?_map, List.getElem?_mapIdx, hi]
  rfl

/-- C212, what happens instead: the objective given to the minimiser does not change as long as each coefficient is moved
by less than one away from zero. -/
theorem C212_flat_partial (F : FitEnv K) (s : Session K) (a : MatchArgs K) (co : List Int) (d d' : List K)
    (hd : d.length ≤ co.length) (hd' : d'.length ≤ co.length)
    (h : ∀ (i : Nat) (c : Int) (x : K), co[i]? = some c → d[i]? = some x → Spec.Outward c x)
    (h' : ∀ (i : Nat) (c : Int) (x : K), co[i]? = some c → d'[i]? = some x → Spec.Outward c x) :
    s.objectiveInt F a co d = s.objectiveInt F a co d' := by
  unfold Session.objectiveInt
  rw [addDeltaInt_outward co d hd h, addDeltaInt_outward co d' hd' h']

/-- C212, what happens instead: if the minimiser moves each coefficient by less than one away from zero, as at its start for
coefficients below a thousand, the refinement has no effect on the coefficients returned. -/
theorem C212_stuck_partial (F : FitEnv K) (M : MatchKernels K) (s s' : Session K) (a : MatchArgs K) (co : List Int)
    (r : MatchReport K) (hr : a.refine = true) (hrob : a.robust = false)
    (hm : ∀ f x0 d, M.minimize f x0 = .ok (some d) →
      d.length ≤ co.length ∧ ∀ (i : Nat) (c : Int) (x : K), co[i]? = some c → d[i]? = some x → Spec.Outward c x)
    (h : s.matchPeaksInt F M a co = (s', .ok (.report r))) : r.coeffs = co.map (fun c : Int => (c : K)) := by
  obtain ⟨d, l, hd, hl, hc⟩ := refinedInt_returned F M s s' a co r hr hrob h
  obtain ⟨h1, h2⟩ := hm _ _ _ hd
  rw [addDeltaInt_outward co d h1 h2] at hl
  cases hl
  exact hc

/-- A minimiser which moves every coefficient by a half. -/
def Toy.halfKern : MatchKernels ℚ :=
  { Toy.mkern with minimize := fun _ x0 => .ok (some (x0.map fun _ => 1 / 2)) }

/-- Refinement without the robust fit. -/
def Toy.refineOnly : MatchArgs ℚ := { Toy.matchArgs with refine := true, robust := false }

theorem C212_refuted : ¬ C212_Statement := by
  intro h
  have h1 := h Toy.env Toy.halfKern Toy.pair Toy.refineOnly [3101, 280]
  have h2 : (Toy.pair.matchPeaksInt Toy.env Toy.halfKern Toy.refineOnly [3101, 280]).2 ≠
      (Toy.pair.matchPeaks Toy.env Toy.halfKern
        { Toy.refineOnly with coeff := some (true, ([3101, 280] : List Int).map (fun c : Int => (c : ℚ))) }).2 := by
    decide +kernel
  exact h2 h1

/-- A case for `C212_plain_partial`. -/
example := C212_plain_partial Toy.env Toy.mkern Toy.pair Toy.matchArgs [3101, 280] rfl

/-- A case for `C212_robust_partial`. -/
example := C212_robust_partial Toy.env Toy.halfKern Toy.pair { Toy.matchArgs with refine := true } [3101, 280] rfl
  (fun _ x0 hx => ⟨_, rfl, by simpa using hx⟩)

theorem Toy.int_refined : Toy.matchReport (Toy.pair.matchPeaksInt Toy.env Toy.halfKern Toy.refineOnly [3101, 280]) =
    some ⟨[3101, 280], [10, 20], [5900, 8700], 0, [0, 0], 1, 1⟩ := by decide +kernel

/-- A case for `C212_whole_partial`: the first coefficient is refined to 3101.5 and stored as 3101. -/
example := C212_whole_partial Toy.env Toy.halfKern Toy.pair _ Toy.refineOnly [3101, 280] _ rfl rfl
  (Toy.matchReport_some Toy.int_refined)

/-- A case for `C212_flat_partial`. -/
example := C212_flat_partial Toy.env Toy.pair Toy.refineOnly [3101, 280] [1 / 2] [9 / 10] (by decide) (by decide)
  (by
    intro i c x hc hx
    rcases i with _ | i
    · cases hc; cases hx
      exact .inl (by norm_num)
    · simp at hx)
  (by
    intro i c x hc hx
    rcases i with _ | i
    · cases hc; cases hx
      exact .inl (by norm_num)
    · simp at hx)

/-- A minimiser which stays at its start, at most a half. -/
def Toy.startKern : MatchKernels ℚ :=
  { Toy.mkern with minimize := fun _ _ => .ok (some [1 / 2]) }

theorem Toy.int_stuck : Toy.matchReport (Toy.pair.matchPeaksInt Toy.env Toy.startKern Toy.refineOnly [3101, 280]) =
    some ⟨[3101, 280], [10, 20], [5900, 8700], 0, [0, 0], 1, 1⟩ := by decide +kernel

/-- A case for `C212_stuck_partial`. -/
example := C212_stuck_partial Toy.env Toy.startKern Toy.pair _ Toy.refineOnly [3101, 280] _ rfl rfl
  (by
    intro f x0 d hd
    cases hd
    refine ⟨by decide, ?_⟩
    intro i c x hc hx
    rcases i with _ | i
    · cases hc; cases hx
      exact .inl (by norm_num)
    · simp at hx)
  (Toy.matchReport_some Toy.int_stuck)

end Rascal
