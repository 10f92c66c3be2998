import Verif.Model.Atlas
import Verif.Proofs.LoadMain
import Verif.Proofs.HoughLemmas

/-!
Property theorems C40-C44: the atlas.
-/

set_option linter.unusedSectionVars false

namespace Rascal

variable {K α : Type _}

/-! ### C41 -/

/-- What the loop leaves: after each removed line the next one is skipped, hence kept. -/
def Spec.survivors (p : α → Bool) : List α → List α
  | [] => []
  | [a] => if p a then [] else [a]
  | a :: b :: t => if p a then b :: Spec.survivors p t else a :: Spec.survivors p (b :: t)

theorem removeLoop_eq (p : α → Bool) (fuel : Nat) (pre rest : List α) (h : rest.length ≤ fuel) :
    removeLoop p fuel (pre ++ rest) pre.length = pre ++ Spec.survivors p rest := by
  induction fuel generalizing pre rest with
  | zero =>
    have : rest = [] := List.length_eq_zero_iff.1 (by omega)
    subst this
    simp [removeLoop, Spec.survivors]
  | succ fuel ih =>
    rcases rest with _ | ⟨a, _ | ⟨b, t⟩⟩
    · simp [removeLoop, Spec.survivors]
    · rw [removeLoop]
      simp only [List.getElem?_append_right, le_refl, Nat.sub_self,
        List.getElem?_cons_zero, Spec.survivors]
      by_cases hp : p a = true
      · simp only [hp, if_true]
        rw [List.eraseIdx_append_of_length_le (by omega)]
        simp only [Nat.sub_self, List.eraseIdx_cons_zero, List.append_nil]
        cases fuel with
        | zero => rfl
        | succ f =>
          rw [removeLoop, List.getElem?_eq_none (by omega)]
      · simp only [hp, if_false, Bool.false_eq_true]
        cases fuel with
        | zero => rfl
        | succ f =>
          rw [removeLoop, List.getElem?_eq_none (by simp)]
    · rw [removeLoop]
      simp only [List.getElem?_append_right, le_refl, Nat.sub_self,
        List.getElem?_cons_zero, Spec.survivors]
      by_cases hp : p a = true
      · simp only [hp, if_true]
        rw [List.eraseIdx_append_of_length_le (by omega)]
        simp only [Nat.sub_self, List.eraseIdx_cons_zero]
        have := ih (pre ++ [b]) t (by simp only [List.length_cons] at h; omega)
        simpa using this
      · simp only [hp, if_false, Bool.false_eq_true]
        have := ih (pre ++ [a]) (b :: t) (by simp only [List.length_cons] at h ⊢; omega)
        simpa using this

theorem survivors_sublist (p : α → Bool) (l : List α) : (Spec.survivors p l).Sublist l := by
  induction l using Spec.survivors.induct p with
  | case1 => simp [Spec.survivors]
  | case2 a h => simp [Spec.survivors]
  | case3 a b => simp [Spec.survivors]
  | case4 a b t h ih =>
    rw [Spec.survivors, if_pos h]
    exact (ih.cons_cons b).cons a
  | case5 a b t h ih =>
    rw [Spec.survivors, if_neg h]
    exact ih.cons_cons a

theorem filter_survivors (p : α → Bool) (l : List α) :
    (Spec.survivors p l).filter (fun a => !p a) = l.filter (fun a => !p a) := by
  induction l using Spec.survivors.induct p with
  | case1 => rfl
  | case2 a h => rw [Spec.survivors]; simp [h]
  | case3 a h => rw [Spec.survivors]; simp [h]
  | case4 a b t h ih =>
    rw [Spec.survivors, if_pos h, List.filter_cons, List.filter_cons (x := a), ih]
    simp [h, List.filter_cons]
  | case5 a b t h ih =>
    rw [Spec.survivors, if_neg h, List.filter_cons, ih, List.filter_cons (x := a)]

/-- No two neighbours both satisfy `p`. -/
def NoTwoInRow (p : α → Bool) (l : List α) : Prop :=
  ∀ (i : Nat) (a b : α), l[i]? = some a → l[i+1]? = some b → ¬ (p a = true ∧ p b = true)

theorem survivors_eq_filter (p : α → Bool) (l : List α) (h : NoTwoInRow p l) :
    Spec.survivors p l = l.filter (fun a => !p a) := by
  induction l using Spec.survivors.induct p with
  | case1 => rfl
  | case2 a hp => rw [Spec.survivors]; simp [hp]
  | case3 a hp => rw [Spec.survivors]; simp [hp]
  | case4 a b t hp ih =>
    have hb : p b = false := by
      have := h 0 a b rfl rfl
      simpa [hp] using this
    rw [Spec.survivors, if_pos hp, ih]
    · simp [hp, hb]
    · intro i x y hx hy
      exact h (i + 2) x y (by simpa using hx) (by simpa using hy)
  | case5 a b t hp ih =>
    rw [Spec.survivors, if_neg hp, ih]
    · simp [hp, List.filter_cons]
    · intro i x y hx hy
      exact h (i + 1) x y (by simpa using hx) (by simpa using hy)

theorem survivors_length_lt (p : α → Bool) (l : List α) (h : ∃ a ∈ l, p a = true) :
    (Spec.survivors p l).length < l.length := by
  induction l using Spec.survivors.induct p with
  | case1 => simp at h
  | case2 a hp => rw [Spec.survivors]; simp [hp]
  | case3 a hp => obtain ⟨x, hx, hpx⟩ := h; rw [List.mem_singleton.1 hx] at hpx; exact absurd hpx hp
  | case4 a b t hp ih =>
    rw [Spec.survivors, if_pos hp]
    have := (survivors_sublist p t).length_le
    simp only [List.length_cons]
    omega
  | case5 a b t hp ih =>
    rw [Spec.survivors, if_neg hp]
    have := ih (by
      obtain ⟨x, hx, hpx⟩ := h
      rcases List.mem_cons.1 hx with rfl | hx
      · exact absurd hpx hp
      · exact ⟨x, hx, hpx⟩)
    simp only [List.length_cons] at this ⊢
    omega

section
variable [AddCommGroup K] [LinearOrder K]

/-- The line is within the tolerance of `w`. -/
def InRange (w tol : K) (l : AtlasLine K) : Bool := decide (|l.wl - w| < tol)

theorem removeRange_lines (at_ : Atlas K) (w tol : K) :
    at_.removeRange w tol = { at_ with lines := Spec.survivors (InRange w tol) at_.lines } := by
  unfold Atlas.removeRange
  have := removeLoop_eq (InRange w tol) at_.lines.length [] at_.lines le_rfl
  simp only [List.nil_append, List.length_nil] at this
  unfold InRange at this
  rw [this]
  rfl

end

/-- The documented behaviour. -/
def C41_Statement : Prop :=
  ∀ (at_ : Atlas Int) (w tol : Int),
    (at_.removeRange w tol).lines = at_.lines.filter (fun l => !InRange w tol l)

/-- C41 is false: of two neighbouring lines in range the second survives. -/
theorem C41_refuted : ¬ C41_Statement := by
  intro h
  have := h ⟨[⟨5000, "Ar", 1, none⟩, ⟨5001, "Ar", 1, none⟩, ⟨6000, "Ar", 1, none⟩], none, none, 500⟩
    5000 10
  revert this
  decide

section
variable [AddCommGroup K] [LinearOrder K]

/-- C41, what does hold for every atlas: nothing outside the range is removed and the order is kept;
something is removed if anything was in range; and if no two neighbouring lines are in range,
exactly the lines in range are removed.  What is missing: adjacent lines in range. -/
theorem C41_remove_partial (at_ : Atlas K) (w tol : K) :
    (at_.removeRange w tol).lines.Sublist at_.lines ∧
    (at_.removeRange w tol).lines.filter (fun l => !InRange w tol l) =
      at_.lines.filter (fun l => !InRange w tol l) ∧
    ((∃ l ∈ at_.lines, InRange w tol l = true) →
      (at_.removeRange w tol).lines.length < at_.lines.length) ∧
    (NoTwoInRow (InRange w tol) at_.lines →
      (at_.removeRange w tol).lines = at_.lines.filter (fun l => !InRange w tol l)) ∧
    (at_.removeRange w tol).minW = at_.minW ∧ (at_.removeRange w tol).maxW = at_.maxW := by
  rw [removeRange_lines]
  exact ⟨survivors_sublist _ _, filter_survivors _ _, survivors_length_lt _ _,
    survivors_eq_filter _ _, rfl, rfl⟩

/-- The hypotheses inside `C41_remove_partial` met: a line in range, no two in a row. -/
example := (C41_remove_partial (K := ℤ) ⟨[⟨5000, "Ar", 1, none⟩, ⟨7000, "Ar", 1, none⟩, ⟨5001, "Ar", 1, none⟩],
  none, none, 500⟩ 5000 10).2.2.1 (by decide)

/-- C41, repetition: calling it as often as there are lines removes everything in range. -/
theorem C41_repeat_partial (at_ : Atlas K) (w tol : K) (n : Nat) (hn : at_.lines.length ≤ n) :
    ((fun a : Atlas K => a.removeRange w tol)^[n] at_).lines =
      at_.lines.filter (fun l => !InRange w tol l) := by
  induction n generalizing at_ with
  | zero =>
    have : at_.lines = [] := List.length_eq_zero_iff.1 (by omega)
    simp [this]
  | succ n ih =>
    rw [Function.iterate_succ_apply]
    by_cases h : ∃ l ∈ at_.lines, InRange w tol l = true
    · have hlt := (C41_remove_partial at_ w tol).2.2.1 h
      rw [ih _ (by omega), (C41_remove_partial at_ w tol).2.1]
    · have hno : NoTwoInRow (InRange w tol) at_.lines := by
        intro i a b ha _ hab
        exact h ⟨a, List.mem_of_getElem? ha, hab.1⟩
      have heq := (C41_remove_partial at_ w tol).2.2.2.1 hno
      have hid : at_.lines.filter (fun l => !InRange w tol l) = at_.lines := by
        rw [List.filter_eq_self]
        intro l hl
        by_contra hc
        exact h ⟨l, hl, by simpa using hc⟩
      have hsame : at_.removeRange w tol = at_ := by
        have := removeRange_lines at_ w tol
        rw [this]
        have h2 : Spec.survivors (InRange w tol) at_.lines = at_.lines := by
          rw [this] at heq
          exact heq.trans hid
        rw [h2]
      rw [hsame, Function.iterate_fixed hsame, hid]

/-- A non-trivial case: the two lines in range are not neighbours. -/
example : (Atlas.removeRange (K := ℤ) ⟨[⟨5000, "Ar", 1, none⟩, ⟨7000, "Ar", 1, none⟩,
    ⟨5001, "Ar", 1, none⟩], none, none, 500⟩ 5000 10).getLines = [7000] := by decide

/-! ### C42 -/

/-- What the arguments of `add_user_atlas` describe when they are acceptable: equally long
non-empty lists. -/
def UserBatch (elements : UserElems) (wavelengths : SeqArg K) (intensities : Option (SeqArg K))
    (es : List String) (ws is : List K) : Prop :=
  elements.toList = some es ∧ wavelengths.toList = some ws ∧
    (intensities = none ∧ is = List.replicate ws.length 0 ∨
      ∃ s, intensities = some s ∧ s.toList = some is) ∧
    es.length = ws.length ∧ is.length = ws.length ∧ ws ≠ []

/-- C42.  Either the arguments are equally long non-empty sequences; then exactly one line per
position is appended, converted to air if asked, and the limits become the extremes of the batch.  Or
the call raises and nothing changes. -/
theorem C42_add_user (at_ : Atlas K) (elements : UserElems) (wavelengths : SeqArg K)
    (intensities : Option (SeqArg K)) (vacuum : Bool) (vacToAir : K → K) :
    (∃ es ws is, UserBatch elements wavelengths intensities es ws is ∧
      ∃ at', at_.addUser elements wavelengths intensities vacuum vacToAir = (at', .ok ()) ∧
        at'.getElements = at_.getElements ++ es ∧
        at'.getLines = at_.getLines ++ (if vacuum then ws.map vacToAir else ws) ∧
        at'.getIntensities = at_.getIntensities ++ is ∧
        (∃ new, at'.lines = at_.lines ++ new ∧ ∀ l ∈ new, l.source = none) ∧
        at'.rangeTol = at_.rangeTol ∧
        ∃ lo hi, at'.minW = some (.fin lo) ∧ at'.maxW = some (.fin hi) ∧
          lo ∈ (if vacuum then ws.map vacToAir else ws) ∧
          hi ∈ (if vacuum then ws.map vacToAir else ws) ∧
          ∀ w ∈ (if vacuum then ws.map vacToAir else ws), lo ≤ w ∧ w ≤ hi) ∨
    ((∀ es ws is, ¬ UserBatch elements wavelengths intensities es ws is) ∧
      ∃ e, at_.addUser elements wavelengths intensities vacuum vacToAir = (at_, .error e)) := by
  unfold Atlas.addUser
  cases he : elements.toList with
  | none =>
    right
    exact ⟨fun es ws is h => by simp [UserBatch, he] at h, _, rfl⟩
  | some es =>
    cases hw : wavelengths.toList with
    | none =>
      right
      exact ⟨fun es ws is h => by simp [UserBatch, hw] at h, _, rfl⟩
    | some ws =>
      dsimp only
      generalize ho : userIntensities ws.length intensities = o
      have hu : ∀ is, o = some is ↔ (intensities = none ∧ is = List.replicate ws.length 0 ∨
          ∃ s, intensities = some s ∧ s.toList = some is) := by
        intro is
        rw [← ho]
        cases intensities <;> simp [userIntensities, eq_comm]
      have huniq : ∀ es' ws' is', UserBatch elements wavelengths intensities es' ws' is' →
          es' = es ∧ ws' = ws ∧ o = some is' ∧ es.length = ws.length ∧ is'.length = ws.length ∧
            ws ≠ [] := by
        rintro es' ws' is' ⟨h1, h2, h3, h4, h5, h6⟩
        rw [he] at h1
        rw [hw] at h2
        cases h1
        cases h2
        exact ⟨rfl, rfl, (hu is').2 h3, h4, h5, h6⟩
      cases o with
      | none =>
        right
        refine ⟨fun es' ws' is' h => ?_, _, rfl⟩
        have := huniq _ _ _ h
        simp at this
      | some is =>
        dsimp only
        by_cases h1 : es.length = ws.length
        · by_cases h2 : es.length = is.length
          · rw [if_neg (by simpa using h1), if_neg (by simpa using h2)]
            cases hws : (if vacuum then ws.map vacToAir else ws) with
            | nil =>
              right
              refine ⟨fun es' ws' is' h => ?_, _, rfl⟩
              have := (huniq _ _ _ h).2.2.2.2.2
              apply this
              cases vacuum <;> simpa using hws
            | cons w t =>
              left
              have hne : ws ≠ [] := by
                rintro rfl
                cases vacuum <;> simp at hws
              have hl : (w :: t).length = ws.length := by
                rw [← hws]; cases vacuum <;> simp
              refine ⟨es, ws, is, ⟨he, hw, (hu is).1 rfl, h1, by omega, hne⟩, _, rfl, ?_, ?_, ?_,
                ⟨_, rfl, ?_⟩, rfl, _, _, rfl, rfl, by rw [hws]; exact listMin_mem w t,
                by rw [hws]; exact listMax_mem w t, ?_⟩
              · simp only [Atlas.getElements, List.map_append, List.map_map, Function.comp_def]
                congr 1
                exact List.map_fst_zip (by rw [List.length_zip]; omega)
              · simp only [Atlas.getLines, List.map_append, List.map_map, Function.comp_def]
                rw [hws]
                congr 1
                have e1 : ((es.zip ((w :: t).zip is)).map (fun x => x.2.1)) =
                    ((es.zip ((w :: t).zip is)).map Prod.snd).map Prod.fst := by
                  rw [List.map_map]; rfl
                rw [e1, List.map_snd_zip (by rw [List.length_zip]; omega),
                  List.map_fst_zip (by omega)]
              · simp only [Atlas.getIntensities, List.map_append, List.map_map, Function.comp_def]
                congr 1
                have e1 : ((es.zip ((w :: t).zip is)).map (fun x => x.2.2)) =
                    ((es.zip ((w :: t).zip is)).map Prod.snd).map Prod.snd := by
                  rw [List.map_map]; rfl
                rw [e1, List.map_snd_zip (by rw [List.length_zip]; omega),
                  List.map_snd_zip (by omega)]
              · intro l hl
                obtain ⟨p, _, rfl⟩ := List.mem_map.1 hl
                rfl
              · intro v hv
                rw [hws] at hv
                rcases List.mem_cons.1 hv with rfl | hv
                · exact ⟨(listMin_le _ _).1, (le_listMax _ _).1⟩
                · exact ⟨(listMin_le _ _).2 _ hv, (le_listMax _ _).2 _ hv⟩
          · right
            rw [if_neg (by simpa using h1), if_pos h2]
            refine ⟨fun es' ws' is' h => ?_, _, rfl⟩
            have := huniq _ _ _ h
            have hs := Option.some.inj this.2.2.1
            subst hs
            omega
        · right
          rw [if_pos h1]
          refine ⟨fun es' ws' is' h => ?_, _, rfl⟩
          have := huniq _ _ _ h
          omega

example : (Atlas.addUser (K := ℤ) ⟨[], none, none, 500⟩ (.list ["Xe", "Ar"]) (.seq [7, 5]) none false
    id) = (⟨[⟨7, "Xe", 0, none⟩, ⟨5, "Ar", 0, none⟩], some (.fin 5), some (.fin 7), 500⟩, .ok ()) := by
  decide

/-- A string is split into characters, so an element name of two letters does not fit one
wavelength. -/
example : (Atlas.addUser (K := ℤ) ⟨[], none, none, 500⟩ (.str ['A', 'r']) (.seq [7]) none false
    id).2 = .error .assertionError := by decide

/-! ### C43, C44 -/

/-- The limit a call of `add` uses: the given finite one, or the finite atlas limit moved by
`shift`. -/
def UsesLimit (given atlasLimit : Option (PyFloat K)) (shift v : K) : Prop :=
  given = some (.fin v) ∨ (given = none ∧ ∃ u, atlasLimit = some (.fin u) ∧ v = u + shift)

/-- The lines of one loaded selection. -/
def nistOf (r : LineArrays K) : List (AtlasLine K) :=
  (r.elems.zip (r.wls.zip r.intens)).map fun t => ⟨t.2.1, t.1, t.2.2, some "NIST"⟩

/-- `load_calibration_lines`, called for the single element `e` with the other arguments of `add`,
returns `r`. -/
def Selects (env : Env K) (a : AddArgs K) (lo hi : K) (e : String) (r : LineArrays K) : Prop :=
  loadFromFile env.argsort a.airToVac a.vacToAir env.nistRows env.fs a.linelist [e] lo hi
    a.minIntensity a.minDistance a.vacuum a.brightest = .ok r

theorem selects_iff (env : Env K) (a : AddArgs K) (lo hi : K) (e : String) (r : LineArrays K) :
    Selects env a lo hi e r ↔ a.load env lo hi e = .ok r := Iff.rfl

theorem addLimit_spec (given atlasLimit : Option (PyFloat K)) (shift v : K) :
    UsesLimit given atlasLimit shift v ↔
      ∃ w, addLimit given atlasLimit (fun x => x + shift) = .ok w ∧ w.toFinite = some v := by
  unfold UsesLimit addLimit
  rcases given with _ | g
  · rcases atlasLimit with _ | u
    · simp
    · cases u <;> simp [PyFloat.map, PyFloat.toFinite, eq_comm]
  · cases g <;> simp [PyFloat.toFinite, eq_comm]

theorem addLoop_ok (load : String → PyRes (LineArrays K)) (es : List String)
    (lines : List (AtlasLine K)) :
    (∃ rs, List.Forall₂ (fun e r => load e = .ok r) es rs ∧
      addLoop load es lines = (lines ++ rs.flatMap nistOf, .ok ())) ∨
    (∃ pre e post rs err, es = pre ++ e :: post ∧
      List.Forall₂ (fun e r => load e = .ok r) pre rs ∧ load e = .error err ∧
      addLoop load es lines = (lines ++ rs.flatMap nistOf, .error err)) := by
  induction es generalizing lines with
  | nil => exact Or.inl ⟨[], .nil, by simp [addLoop]⟩
  | cons e t ih =>
    rw [addLoop]
    cases hl : load e with
    | error err =>
      right
      exact ⟨[], e, t, [], err, rfl, .nil, hl, by simp⟩
    | ok r =>
      dsimp only
      rcases ih (lines ++ r.nistLines) with ⟨rs, h1, h2⟩ | ⟨pre, e', post, rs, err, h1, h2, h3, h4⟩
      · left
        exact ⟨r :: rs, .cons hl h1, by rw [h2]; simp [nistOf, LineArrays.nistLines]⟩
      · right
        refine ⟨e :: pre, e', post, r :: rs, err, by rw [h1]; rfl, .cons hl h2, h3, ?_⟩
        rw [h4]; simp [nistOf, LineArrays.nistLines]

/-- Everything `add` can do: it raises before the loop and changes nothing; or it raises for one of
the elements, having appended the selections of the elements before it; or it appends all
selections. -/
theorem add_cases (env : Env K) (at_ : Atlas K) (a : AddArgs K) :
    (∃ lo hi rs, UsesLimit a.minW at_.minW (-at_.rangeTol) lo ∧
      UsesLimit a.maxW at_.maxW at_.rangeTol hi ∧
      List.Forall₂ (Selects env a lo hi) a.elements.toList rs ∧
      at_.add env a = ({ at_ with lines := at_.lines ++ rs.flatMap nistOf }, .ok ())) ∨
    (∃ lo hi pre e post rs err, UsesLimit a.minW at_.minW (-at_.rangeTol) lo ∧
      UsesLimit a.maxW at_.maxW at_.rangeTol hi ∧ a.elements.toList = pre ++ e :: post ∧
      List.Forall₂ (Selects env a lo hi) pre rs ∧
      a.load env lo hi e = .error err ∧
      at_.add env a = ({ at_ with lines := at_.lines ++ rs.flatMap nistOf }, .error err)) ∨
    ((∀ lo hi, ¬ (UsesLimit a.minW at_.minW (-at_.rangeTol) lo ∧
      UsesLimit a.maxW at_.maxW at_.rangeTol hi)) ∧ ∃ e, at_.add env a = (at_, .error e)) := by
  have hsub : (fun v : K => v - at_.rangeTol) = fun v => v + -at_.rangeTol := by
    funext v; rw [sub_eq_add_neg]
  unfold Atlas.add
  rw [hsub]
  cases h1 : addLimit a.minW at_.minW (fun v => v + -at_.rangeTol) with
  | error e =>
    right; right
    refine ⟨fun lo hi hh => ?_, _, rfl⟩
    obtain ⟨w, hw, _⟩ := (addLimit_spec _ _ _ _).1 hh.1
    rw [h1] at hw; simp at hw
  | ok lo' =>
    cases h2 : addLimit a.maxW at_.maxW (fun v => v + at_.rangeTol) with
    | error e =>
      right; right
      refine ⟨fun lo hi hh => ?_, _, rfl⟩
      obtain ⟨w, hw, _⟩ := (addLimit_spec _ _ _ _).1 hh.2
      rw [h2] at hw; simp at hw
    | ok hi' =>
      dsimp only
      cases h3 : lo'.toFinite with
      | none =>
        right; right
        refine ⟨fun lo hi hh => ?_, _, rfl⟩
        obtain ⟨w, hw, hw'⟩ := (addLimit_spec _ _ _ _).1 hh.1
        rw [h1] at hw
        rw [← Except.ok.inj hw, h3] at hw'; simp at hw'
      | some lo =>
        cases h4 : hi'.toFinite with
        | none =>
          right; right
          refine ⟨fun lo hi hh => ?_, _, rfl⟩
          obtain ⟨w, hw, hw'⟩ := (addLimit_spec _ _ _ _).1 hh.2
          rw [h2] at hw
          rw [← Except.ok.inj hw, h4] at hw'; simp at hw'
        | some hi =>
          have hlo := (addLimit_spec a.minW at_.minW (-at_.rangeTol) lo).2 ⟨lo', h1, h3⟩
          have hhi := (addLimit_spec a.maxW at_.maxW at_.rangeTol hi).2 ⟨hi', h2, h4⟩
          rcases addLoop_ok (a.load env lo hi) a.elements.toList at_.lines with
            ⟨rs, h5, h6⟩ | ⟨pre, e, post, rs, err, h5, h6, h7, h8⟩
          · exact Or.inl ⟨lo, hi, rs, hlo, hhi, h5, by dsimp only; rw [h6]⟩
          · exact Or.inr (Or.inl ⟨lo, hi, pre, e, post, rs, err, hlo, hhi, h5, h6, h7,
              by dsimp only; rw [h8]⟩)

theorem usesLimit_unique {g al : Option (PyFloat K)} {s v v' : K} (h : UsesLimit g al s v)
    (h' : UsesLimit g al s v') : v = v' := by
  rcases h with h | ⟨h, u, hu, rfl⟩ <;> rcases h' with h' | ⟨h', u', hu', rfl⟩
  · rw [h] at h'; simpa using h'
  · rw [h] at h'; simp at h'
  · rw [h] at h'; simp at h'
  · rw [hu] at hu'
    simp only [Option.some.injEq, PyFloat.fin.injEq] at hu'
    rw [hu']

/-- C44.  `add` succeeds exactly when both limits are finite (a left-out limit is the atlas limit
widened by the range tolerance) and the selection of every element succeeds; it then appends the
selections in the order of the elements, labelled NIST, and changes nothing else. -/
theorem C44_add (env : Env K) (at_ : Atlas K) (a : AddArgs K) (at' : Atlas K) :
    at_.add env a = (at', .ok ()) ↔
      ∃ lo hi rs, UsesLimit a.minW at_.minW (-at_.rangeTol) lo ∧
        UsesLimit a.maxW at_.maxW at_.rangeTol hi ∧
        List.Forall₂ (Selects env a lo hi) a.elements.toList rs ∧
        at' = { at_ with lines := at_.lines ++ rs.flatMap nistOf } := by
  constructor
  · intro h
    rcases add_cases env at_ a with ⟨lo, hi, rs, h1, h2, h3, h4⟩ |
      ⟨lo, hi, pre, e, post, rs, err, h1, h2, h3, h4, h5, h6⟩ | ⟨_, e, h1⟩
    · rw [h] at h4
      exact ⟨lo, hi, rs, h1, h2, h3, congrArg Prod.fst h4⟩
    · rw [h] at h6
      exact absurd (congrArg Prod.snd h6) (by simp)
    · rw [h] at h1
      exact absurd (congrArg Prod.snd h1) (by simp)
  · rintro ⟨lo, hi, rs, h1, h2, h3, rfl⟩
    rcases add_cases env at_ a with ⟨lo', hi', rs', h1', h2', h3', h4⟩ |
      ⟨lo', hi', pre, e, post, rs', err, h1', h2', h3', h4, h5, h6⟩ | ⟨hn, _⟩
    · rw [usesLimit_unique h1' h1, usesLimit_unique h2' h2] at h3'
      have : rs = rs' := by
        clear h4
        generalize a.elements.toList = es at h3 h3'
        induction h3 generalizing rs' with
        | nil => cases h3'; rfl
        | cons hx _ ih =>
          cases h3' with
          | cons hx' ht' =>
            rw [selects_iff] at hx hx'
            rw [hx] at hx'
            rw [Except.ok.inj hx', ih _ ht']
      rw [h4, this]
    · exfalso
      rw [usesLimit_unique h1' h1, usesLimit_unique h2' h2] at h5
      rw [h3'] at h3
      have : ∃ r, a.load env lo hi e = .ok r := by
        clear h3' h4 h6
        induction pre generalizing rs with
        | nil => cases h3 with | cons hx _ => exact ⟨_, hx⟩
        | cons p pre ih => cases h3 with | cons _ ht => exact ih _ ht
      obtain ⟨r, hr⟩ := this
      rw [hr] at h5; simp at h5
    · exact absurd ⟨h1, h2⟩ (hn lo hi)

/-- Both sides of `C44_add` hold for a request for two of three lines. -/
example : ((⟨[⟨7, "Xe", 0, none⟩], some (.fin 3000), some (.fin 5000), 500⟩ : Atlas ℤ).add
    ⟨stableArgsort, [⟨"Ar", 4000, 90⟩, ⟨"Ar", 4100, 70⟩, ⟨"Ar", 4200, 5⟩], fun _ => none⟩
    ⟨.list ["Ar"], none, none, .scalar 10, 10, true, id, id, .nist, some 1000⟩) =
    (⟨[⟨7, "Xe", 0, none⟩, ⟨4000, "Ar", 90, some "NIST"⟩, ⟨4100, "Ar", 70, some "NIST"⟩], some (.fin 3000),
      some (.fin 5000), 500⟩, .ok ()) := by decide

end

/-- The documented behaviour: a failing `add` adds nothing. -/
def C43_Statement : Prop :=
  ∀ (env : Env Int) (at_ : Atlas Int) (a : AddArgs Int) (e : PyErr),
    (at_.add env a).2 = .error e → (at_.add env a).1 = at_

/-- A line list with argon only. -/
def argonEnv : Env Int :=
  ⟨stableArgsort, [⟨"Ar", 4000, 90⟩, ⟨"Ar", 4100, 70⟩, ⟨"Ar", 4200, 80⟩], fun _ => none⟩

/-- A request for argon and xenon with a positive minimum distance (the default is 10). -/
def argonXenonArgs : AddArgs Int :=
  ⟨.list ["Ar", "Xe"], none, none, .scalar 10, 10, true, id, id, .nist, some 1000⟩

/-- C43 is false: the argon lines stay although the call raised IndexError for xenon. -/
theorem C43_refuted : ¬ C43_Statement := by
  intro h
  have := h argonEnv ⟨[], some (.fin 3000), some (.fin 5000), 500⟩ argonXenonArgs .indexError
    (by decide)
  revert this
  decide

section
variable [AddCommGroup K] [LinearOrder K]

/-- C43, what does hold: the limits never change; on failure what has been added are the complete
selections of the elements before the failing one, so a request for a single element is
all-or-nothing.  What is missing: requests for several elements. -/
theorem C43_add_failure_partial (env : Env K) (at_ : Atlas K) (a : AddArgs K) (err : PyErr)
    (h : (at_.add env a).2 = .error err) :
    (∃ lo hi pre rest rs, a.elements.toList = pre ++ rest ∧
      List.Forall₂ (Selects env a lo hi) pre rs ∧
      (at_.add env a).1 = { at_ with lines := at_.lines ++ rs.flatMap nistOf } ∧
      (a.elements.toList.length ≤ 1 → (at_.add env a).1 = at_)) ∨ (at_.add env a).1 = at_ := by
  rcases add_cases env at_ a with ⟨lo, hi, rs, h1, h2, h3, h4⟩ |
      ⟨lo, hi, pre, e, post, rs, err', h1, h2, h3, h4, h5, h6⟩ | ⟨_, e, h1⟩
  · rw [h4] at h; simp at h
  · left
    refine ⟨lo, hi, pre, e :: post, rs, h3, h4, by rw [h6], ?_⟩
    intro hlen
    rw [h3] at hlen
    have : pre = [] := by
      cases pre with
      | nil => rfl
      | cons p pre => simp at hlen
    subst this
    cases h4
    rw [h6]
    simp
  · right; rw [h1]

/-- The hypothesis of `C43_add_failure_partial` met: xenon is not in the list. -/
example := C43_add_failure_partial argonEnv ⟨[], some (.fin 3000), some (.fin 5000), 500⟩ argonXenonArgs .indexError
  (by decide)

/-- C43, corollary for the call with one element name. -/
theorem C43_single_partial (env : Env K) (at_ : Atlas K) (a : AddArgs K) (s : String)
    (ha : a.elements = .str s) (err : PyErr) (h : (at_.add env a).2 = .error err) :
    (at_.add env a).1 = at_ := by
  rcases C43_add_failure_partial env at_ a err h with ⟨_, _, _, _, _, _, _, _, h4⟩ | h4
  · exact h4 (by simp [ha, ElementsArg.toList])
  · exact h4

example : ((⟨[], some (.fin 3000), some (.fin 5000), 500⟩ : Atlas ℤ).add argonEnv argonXenonArgs).2 =
    .error .indexError := by decide

example : ((⟨[], some (.fin 3000), some (.fin 5000), 500⟩ : Atlas ℤ).add argonEnv
    { argonXenonArgs with elements := .str "Ar" }).1.getLines = [4000, 4200, 4100] := by decide

/-- C44.  Without elements nothing is added. -/
theorem C44_no_elements (env : Env K) (at_ : Atlas K) (a : AddArgs K) (h : a.elements = .none) :
    (at_.add env a).1 = at_ := by
  unfold Atlas.add
  rw [h]
  split
  · rfl
  split
  · rfl
  split
  · rfl
  split <;> rfl

/-- The hypothesis of `C44_no_elements` is met by a call that returns. -/
example : (({ lines := [], minW := none, maxW := none, rangeTol := 0 } : Atlas ℤ).add argonEnv
    { argonXenonArgs with
      elements := .none
      minW := some (.fin 4000)
      maxW := some (.fin 4150) }).2 = .ok () := by decide

/-! ### C88 -/

/-- C88.  A constructed atlas: without elements it is empty; with elements the limits must be given
and finite, and the lines are the selections for the limits as given, at most the 1000 brightest of
each element. -/
theorem C88_new (env : Env K) (a : AddArgs K) (rangeTol : K) (at_ : Atlas K) :
    Atlas.new env a rangeTol = .ok at_ ↔
      at_.minW = a.minW ∧ at_.maxW = a.maxW ∧ at_.rangeTol = rangeTol ∧
      ((a.elements = .none ∧ at_.lines = []) ∨
        (a.elements ≠ .none ∧ ∃ lo hi rs, a.minW = some (.fin lo) ∧ a.maxW = some (.fin hi) ∧
          List.Forall₂ (Selects env { a with brightest := some 1000 } lo hi) a.elements.toList rs ∧
          at_.lines = rs.flatMap nistOf)) := by
  have key : ∀ at1 : Atlas K, Atlas.add env ⟨[], a.minW, a.maxW, rangeTol⟩ a.atMost1000 = (at1, .ok ()) ↔
      at1.minW = a.minW ∧ at1.maxW = a.maxW ∧ at1.rangeTol = rangeTol ∧
        ∃ lo hi rs, a.minW = some (.fin lo) ∧ a.maxW = some (.fin hi) ∧
          List.Forall₂ (Selects env { a with brightest := some 1000 } lo hi) a.elements.toList rs ∧
          at1.lines = rs.flatMap nistOf := by
    intro at1
    have hl : ∀ (g : Option (PyFloat K)) (s v : K), UsesLimit g g s v ↔ g = some (.fin v) := by
      intro g s v
      unfold UsesLimit
      constructor
      · rintro (h | ⟨h, u, hu, _⟩)
        · exact h
        · rw [h] at hu; simp at hu
      · exact Or.inl
    rw [C44_add]
    simp only [hl, AddArgs.atMost1000]
    constructor
    · rintro ⟨lo, hi, rs, h1, h2, h3, rfl⟩
      exact ⟨rfl, rfl, rfl, lo, hi, rs, h1, h2, h3, by simp⟩
    · rintro ⟨e1, e2, e3, lo, hi, rs, h1, h2, h3, h4⟩
      refine ⟨lo, hi, rs, h1, h2, h3, ?_⟩
      cases at1
      simp only at e1 e2 e3 h4
      simp [e1, e2, e3, h4]
  have hnone : a.elements = .none → (Atlas.new env a rangeTol = .ok at_ ↔
      at_ = ⟨[], a.minW, a.maxW, rangeTol⟩) := by
    intro h
    unfold Atlas.new
    rw [h]
    simp [eq_comm]
  have hsome : a.elements ≠ .none → (Atlas.new env a rangeTol = .ok at_ ↔
      Atlas.add env ⟨[], a.minW, a.maxW, rangeTol⟩ a.atMost1000 = (at_, .ok ())) := by
    intro h
    have : Atlas.new env a rangeTol = (match Atlas.add env ⟨[], a.minW, a.maxW, rangeTol⟩ a.atMost1000 with
        | (at1, .ok _) => .ok at1
        | (_, .error e) => .error e) := by
      unfold Atlas.new
      cases he : a.elements with
      | none => exact absurd he h
      | str s => rfl
      | list l => rfl
    rw [this]
    rcases Atlas.add env ⟨[], a.minW, a.maxW, rangeTol⟩ a.atMost1000 with ⟨at1, e | u⟩ <;> simp
  by_cases h : a.elements = .none
  · rw [hnone h]
    simp only [h, true_and, ne_eq, not_true_eq_false, false_and, or_false]
    constructor
    · rintro rfl; exact ⟨rfl, rfl, rfl, rfl⟩
    · rintro ⟨h1, h2, h3, h4⟩
      cases at_
      simp only at h1 h2 h3 h4
      simp [h1, h2, h3, h4]
  · rw [hsome h, key]
    simp only [h, false_and, false_or, ne_eq, not_false_eq_true, true_and]

example : (match Atlas.new argonEnv { argonXenonArgs with
      elements := .str "Ar"
      minW := some (.fin 4000)
      maxW := some (.fin 4150) } 500 with
    | .ok a => a.getLines
    | .error _ => []) = [4000, 4100] := by decide

/-! ### C40 -/

/-- One public call on an atlas. -/
inductive AtlasOp (K : Type _)
  | add (a : AddArgs K)
  | addUser (elements : UserElems) (wavelengths : SeqArg K) (intensities : Option (SeqArg K))
      (vacuum : Bool) (vacToAir : K → K)
  | remove (w tol : K)
  | clear

/-- The atlas after the call (whether it raised or not). -/
def Atlas.step (env : Env K) (at_ : Atlas K) : AtlasOp K → Atlas K
  | .add a => (at_.add env a).1
  | .addUser es ws is v f => (at_.addUser es ws is v f).1
  | .remove w tol => at_.removeRange w tol
  | .clear => at_.clear

/-- The effect of a call on the list of lines, as a user would describe it: some lines are appended,
or the lines in a range are to be removed, or all are removed. -/
inductive Effect (K : Type _)
  | append (new : List (AtlasLine K))
  | remove (w tol : K)
  | clear

/-- `eff` describes the call `op` made on `at_`. -/
def Describes (env : Env K) (at_ : Atlas K) (op : AtlasOp K) (eff : Effect K) : Prop :=
  match op with
  | .add a => ∃ new, eff = .append new ∧
      (((at_.add env a).2 = .ok () ∧ ∃ lo hi rs, UsesLimit a.minW at_.minW (-at_.rangeTol) lo ∧
        UsesLimit a.maxW at_.maxW at_.rangeTol hi ∧
        List.Forall₂ (Selects env a lo hi) a.elements.toList rs ∧
        new = rs.flatMap nistOf) ∨
      ((∃ e, (at_.add env a).2 = .error e) ∧ ∃ lo hi pre rest rs,
        a.elements.toList = pre ++ rest ∧
        List.Forall₂ (Selects env a lo hi) pre rs ∧ new = rs.flatMap nistOf))
  | .addUser es ws is v f => ∃ new, eff = .append new ∧
      (((at_.addUser es ws is v f).2 = .ok () ∧ ∃ es' ws' is', UserBatch es ws is es' ws' is' ∧
        new.map AtlasLine.elem = es' ∧ new.map AtlasLine.inten = is' ∧
        new.map AtlasLine.wl = (if v then ws'.map f else ws')) ∨
      ((∃ e, (at_.addUser es ws is v f).2 = .error e) ∧ new = []))
  | .remove w tol => eff = .remove w tol
  | .clear => eff = .clear

/-- The effects along a history. -/
inductive DescribesAll (env : Env K) : Atlas K → List (AtlasOp K) → List (Effect K) → Prop
  | nil (at_) : DescribesAll env at_ [] []
  | cons {at_ op ops eff effs} : Describes env at_ op eff →
      DescribesAll env (at_.step env op) ops effs → DescribesAll env at_ (op :: ops) (eff :: effs)

/-- The list of lines if removal worked as documented (`strict = true`) or did nothing
(`strict = false`). -/
def applyEffects (strict : Bool) (l : List (AtlasLine K)) (effs : List (Effect K)) :
    List (AtlasLine K) :=
  effs.foldl (fun l e => match e with
    | .append new => l ++ new
    | .remove w tol => if strict then l.filter (fun x => !InRange w tol x) else l
    | .clear => []) l

/-- C40, one call: appending calls append exactly what they describe (nothing on failure, except
the elements already loaded by `add`), removal only removes lines in range. -/
theorem step_describes (env : Env K) (at_ : Atlas K) (op : AtlasOp K) :
    ∃ eff, Describes env at_ op eff ∧
      (∀ new, eff = .append new → (at_.step env op).lines = at_.lines ++ new) ∧
      (∀ w tol, eff = .remove w tol →
        (at_.step env op).lines = Spec.survivors (InRange w tol) at_.lines) ∧
      (eff = .clear → (at_.step env op).lines = []) := by
  cases op with
  | add a =>
    rcases add_cases env at_ a with ⟨lo, hi, rs, h1, h2, h3, h4⟩ |
      ⟨lo, hi, pre, e, post, rs, err', h1, h2, h3, h4, h5, h6⟩ | ⟨_, e, h1⟩
    · refine ⟨.append (rs.flatMap nistOf), ⟨_, rfl, Or.inl ⟨by rw [h4], lo, hi, rs, h1, h2, h3, rfl⟩⟩,
        ?_, by simp, by simp⟩
      intro new hn
      cases hn
      show (at_.add env a).1.lines = _
      rw [h4]
    · refine ⟨.append (rs.flatMap nistOf), ⟨_, rfl, Or.inr ⟨⟨err', by rw [h6]⟩, lo, hi, pre,
        e :: post, rs, h3, h4, rfl⟩⟩, ?_, by simp, by simp⟩
      intro new hn
      cases hn
      show (at_.add env a).1.lines = _
      rw [h6]
    · refine ⟨.append [], ⟨_, rfl, Or.inr ⟨⟨e, by rw [h1]⟩, at_.rangeTol, at_.rangeTol, [], _, [], rfl, .nil, rfl⟩⟩,
        ?_, by simp, by simp⟩
      intro new hn
      cases hn
      show (at_.add env a).1.lines = _
      rw [h1]; simp
  | addUser es ws is v f =>
    rcases C42_add_user at_ es ws is v f with
      ⟨es', ws', is', hb, at', h1, h2, h3, h4, ⟨new, h5, _⟩, _⟩ | ⟨_, e, h1⟩
    · refine ⟨.append new, ⟨_, rfl, Or.inl ⟨by rw [h1], es', ws', is', hb, ?_, ?_, ?_⟩⟩, ?_,
        by simp, by simp⟩
      · simp only [Atlas.getElements, h5, List.map_append] at h2
        exact List.append_cancel_left h2
      · simp only [Atlas.getIntensities, h5, List.map_append] at h4
        exact List.append_cancel_left h4
      · simp only [Atlas.getLines, h5, List.map_append] at h3
        exact List.append_cancel_left h3
      · intro new' hn
        cases hn
        show (at_.addUser es ws is v f).1.lines = _
        rw [h1]; exact h5
    · refine ⟨.append [], ⟨_, rfl, Or.inr ⟨⟨e, by rw [h1]⟩, rfl⟩⟩, ?_, by simp, by simp⟩
      intro new' hn
      cases hn
      show (at_.addUser es ws is v f).1.lines = _
      rw [h1]; simp
  | remove w tol =>
    refine ⟨.remove w tol, rfl, by simp, ?_, by simp⟩
    intro w' tol' h
    cases h
    show (at_.removeRange w tol).lines = _
    rw [removeRange_lines]
  | clear => exact ⟨.clear, rfl, by simp, by simp, fun _ => rfl⟩

theorem applyEffects_mono (strict : Bool) (effs : List (Effect K)) (l l' : List (AtlasLine K))
    (h : l.Sublist l') : (applyEffects strict l effs).Sublist (applyEffects strict l' effs) := by
  induction effs generalizing l l' with
  | nil => exact h
  | cons e t ih =>
    unfold applyEffects at ih ⊢
    rw [List.foldl_cons, List.foldl_cons]
    apply ih
    cases e with
    | append new => exact h.append (List.Sublist.refl _)
    | remove w tol =>
      cases strict
      · exact h
      · exact h.filter _
    | clear => exact List.Sublist.refl _

/-- C40.  For every history of calls there is a description of the individual effects such that the
lines of the atlas are, in order, what was appended, minus lines to be removed: every appended line
outside the removed ranges is there, and nothing else than appended lines is. The three getters list
the fields of the same lines, and `len` is their number. -/
theorem C40_history (env : Env K) (at_ : Atlas K) (ops : List (AtlasOp K)) :
    let at' := ops.foldl (Atlas.step env) at_
    (∃ effs, DescribesAll env at_ ops effs ∧
      (applyEffects true at_.lines effs).Sublist at'.lines ∧
      at'.lines.Sublist (applyEffects false at_.lines effs) ∧
      ((∀ e ∈ effs, ∀ w tol, e ≠ .remove w tol) →
        at'.lines = applyEffects true at_.lines effs)) ∧
    at'.getLines.length = at'.len ∧ at'.getElements.length = at'.len ∧
    at'.getIntensities.length = at'.len ∧
    at'.getElements.zip (at'.getLines.zip at'.getIntensities) =
      at'.lines.map (fun l => (l.elem, l.wl, l.inten)) := by
  intro at'
  refine ⟨?_, by simp [Atlas.getLines, Atlas.len], by simp [Atlas.getElements, Atlas.len],
    by simp [Atlas.getIntensities, Atlas.len], ?_⟩
  · subst at'
    induction ops generalizing at_ with
    | nil => exact ⟨[], .nil _, List.Sublist.refl _, List.Sublist.refl _, fun _ => rfl⟩
    | cons op t ih =>
      obtain ⟨eff, hd, ha, hr, hc⟩ := step_describes env at_ op
      obtain ⟨effs, h1, h2, h3, h4⟩ := ih (at_.step env op)
      refine ⟨eff :: effs, .cons hd h1, ?_, ?_, ?_⟩
      · rw [List.foldl_cons]
        refine List.Sublist.trans ?_ h2
        show (applyEffects true _ effs).Sublist _
        apply applyEffects_mono
        cases eff with
        | append new => rw [ha new rfl]
        | remove w tol =>
          rw [hr w tol rfl]
          show (at_.lines.filter (fun x => !InRange w tol x)).Sublist _
          rw [← filter_survivors]
          exact List.filter_sublist
        | clear => exact List.nil_sublist _
      · rw [List.foldl_cons]
        refine List.Sublist.trans h3 ?_
        show (applyEffects false _ effs).Sublist (applyEffects false _ effs)
        apply applyEffects_mono
        cases eff with
        | append new => rw [ha new rfl]
        | remove w tol => rw [hr w tol rfl]; exact survivors_sublist _ _
        | clear => rw [hc rfl]
      · intro hno
        rw [List.foldl_cons, h4 (fun e he => hno e (List.mem_cons_of_mem _ he))]
        show applyEffects true _ effs = applyEffects true _ effs
        cases eff with
        | append new => rw [ha new rfl]
        | remove w tol => exact absurd rfl (hno _ (by simp) w tol)
        | clear => rw [hc rfl]
  · simp only [Atlas.getElements, Atlas.getLines, Atlas.getIntensities]
    rw [List.zip_map', List.zip_map']

example : ([AtlasOp.addUser (.list ["Xe", "Ar", "Ar"]) (.seq [7, 5, 30]) none false id,
    .addUser (.list ["Xe"]) (.seq []) none false id, .remove 5 1,
    .addUser (.list ["Kr"]) (.seq [9]) none false id].foldl (Atlas.step (K := ℤ) argonEnv)
    ⟨[], none, none, 500⟩).getLines = [7, 30, 9] := by decide

end

end Rascal
