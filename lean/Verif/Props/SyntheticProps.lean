import Verif.Model.Synthetic
import Verif.Proofs.PolyLemmas
import Mathlib.Algebra.Field.Rat
import Mathlib.Algebra.Order.Ring.Rat
import Mathlib.Tactic.FieldSimp
import Mathlib.Tactic.Ring

/-!
Property theorems C36-C39: the synthetic spectrum generator.
-/

set_option linter.unusedSectionVars false

namespace Rascal

variable {K : Type _} [LinearOrder K]

/-! ### C36 -/

/-- The limit in force after a call with argument `a` when it was `cur` before. -/
def LimitArg.orKeep (a : LimitArg K) (cur : PyFloat K) : PyFloat K :=
  match a with
  | .float v => v
  | _ => cur

/-- C36, one call: it succeeds exactly when neither argument is of another type and the resulting
limits are ordered; then exactly the supplied limits are replaced.  Otherwise nothing changes. -/
theorem C36_set_limit (s : Synth K) (lo hi : LimitArg K) :
    (lo ≠ .other ∧ hi ≠ .other ∧ (lo.orKeep s.minW).lt (hi.orKeep s.maxW) = true ∧
      s.setLimit lo hi = ({ s with minW := lo.orKeep s.minW, maxW := hi.orKeep s.maxW }, .ok ())) ∨
    ((lo = .other ∨ hi = .other ∨ (lo.orKeep s.minW).lt (hi.orKeep s.maxW) = false) ∧
      ∃ e, s.setLimit lo hi = (s, .error e)) := by
  unfold Synth.setLimit
  rcases lo with _ | a | _ <;> rcases hi with _ | b | _ <;>
    simp only [newLimits, LimitArg.orKeep, Option.map_some, ne_eq, reduceCtorEq, not_false_eq_true,
      true_and, false_or, not_true_eq_false, false_and, true_or, or_true]
  · cases h : s.minW.lt s.maxW <;> simp
  · cases h : s.minW.lt b <;> simp
  · exact ⟨_, rfl⟩
  · cases h : a.lt s.maxW <;> simp
  · cases h : a.lt b <;> simp
  · exact ⟨_, rfl⟩
  · exact ⟨_, rfl⟩
  · exact ⟨_, rfl⟩
  · exact ⟨_, rfl⟩

/-- C36.  After construction and any history of `set_wavelength_limit` calls, failing ones included,
the minimum is below the maximum (so neither is nan). -/
theorem C36_ordered (c : ListArg K) (lo hi : LimitArg K) (s : Synth K)
    (hs : Synth.new c lo hi = .ok s) (ops : List (LimitArg K × LimitArg K)) :
    let s' := ops.foldl (fun s o => (s.setLimit o.1 o.2).1) s
    s'.minW.lt s'.maxW = true := by
  have h0 : s.minW.lt s.maxW = true := by
    unfold Synth.new at hs
    have : ∀ a b, newLimits (K := K) none lo hi = .ok (a, b) → a.lt b = true := by
      intro a b h
      rcases lo with _ | a' | _ <;> rcases hi with _ | b' | _ <;>
        simp only [newLimits, Option.map_none, reduceCtorEq] at h
      split at h
      · rename_i hl
        have h := Except.ok.inj h
        cases h
        exact hl
      · simp at h
    split at hs
    · simp at hs
    · rename_i a b hab
      have hlt := this a b hab
      split at hs
      · have := Except.ok.inj hs; subst this; exact hlt
      · have := Except.ok.inj hs; subst this; exact hlt
      · simp at hs
  intro s'
  have : ∀ (ops : List (LimitArg K × LimitArg K)) (s : Synth K), s.minW.lt s.maxW = true →
      (ops.foldl (fun s o => (s.setLimit o.1 o.2).1) s).minW.lt
        (ops.foldl (fun s o => (s.setLimit o.1 o.2).1) s).maxW = true := by
    intro ops
    induction ops with
    | nil => intro s h; exact h
    | cons o t ih =>
      intro s h
      rw [List.foldl_cons]
      apply ih
      rcases C36_set_limit s o.1 o.2 with ⟨_, _, hlt, he⟩ | ⟨_, e, he⟩
      · rw [he]; exact hlt
      · rw [he]; exact h
  exact this ops s h0

/-- A case for `C36_set_limit`: default construction, a rejected call, an accepted one. -/
example : ∃ s, Synth.new (K := ℤ) .none (.float (.fin 200)) (.float (.fin 1200)) = .ok s ∧
    (s.setLimit (.float (.fin 1300)) .none).2 = .error .runtimeError ∧
    (s.setLimit (.float (.fin 300)) .none).1.minW = .fin 300 ∧
    (s.setLimit .none (.float .nan)).2 = .error .runtimeError := ⟨_, rfl, rfl, rfl, rfl⟩

variable [Field K]

/-! ### C37 -/

/-- Contract of `pynverse.inversefunc` in exact arithmetic, for one function: it raises, or returns
one preimage per value. -/
def Inverts (inv : (K → K) → List K → PyRes (List K)) (f : K → K) : Prop :=
  ∀ ys xs, inv f ys = .ok xs → xs.map f = ys

/-- C37.  Whenever `get_pixels` returns, the wavelengths returned are exactly the ones strictly
between the limits, in input order, and there is one pixel for each. -/
theorem C37_filter (inv : (K → K) → List K → PyRes (List K)) (s : Synth K) (w : ListArg K)
    (hinv : ∀ f, Inverts inv f) (px ws : List K) (h : s.getPixels inv w = .ok (px, ws)) :
    px.length = ws.length ∧ ∃ l, w = .list l ∧
      ws = l.filter (fun v => s.minW.lt (.fin v) && (PyFloat.fin v).lt s.maxW) := by
  have hfil : ∀ l : List K, (l.filter (fun v => s.minW.lt (.fin v))).filter
      (fun v => (PyFloat.fin v).lt s.maxW) =
      l.filter (fun v => s.minW.lt (.fin v) && (PyFloat.fin v).lt s.maxW) := by
    intro l
    rw [List.filter_filter]
    congr 1
    funext v
    rw [Bool.and_comm]
  unfold Synth.getPixels at h
  split at h
  · rename_i l
    dsimp only at h
    rw [hfil] at h
    split at h
    · split at h
      · simp at h
      · split at h
        · simp at h
        · have h := Except.ok.inj h
          cases h
          exact ⟨by simp, l, rfl, rfl⟩
    · split at h
      · split at h
        · simp at h
        · split at h
          · simp at h
          · split at h
            · simp at h
            · have h := Except.ok.inj h
              cases h
              exact ⟨by simp, l, rfl, rfl⟩
      · split at h
        · simp at h
        · simp at h
        · split at h
          · simp at h
          · rename_i hp
            have h := Except.ok.inj h
            cases h
            have := hinv _ _ _ hp
            refine ⟨?_, l, rfl, rfl⟩
            rw [← this]; simp
  · simp at h

/-- A case for `C37_filter`: wavelengths at and outside the limits are left out, in any order. -/
example : (⟨.fin 2, .fin 9, some [1, 2], some 1, some [1, 2]⟩ : Synth ℚ).getPixels
    (fun _ _ => .error .valueError) (.list [9, 3, 2, 5, 1]) = .ok ([1, 2], [3, 5]) ∧
    ∀ f, Inverts (fun _ _ => .error .valueError : (ℚ → ℚ) → List ℚ → PyRes (List ℚ)) f := by
  refine ⟨by decide +kernel, fun f ys px h => by cases h⟩

/-- C37, boundary: with finite limits a wavelength is returned iff it is strictly inside, and when
the call is made with a linear model of two coefficients it does return. -/
theorem C37_strict (inv : (K → K) → List K → PyRes (List K)) (lo hi : K) (hlt : lo < hi) (c0 c1 : K)
    (l : List K) :
    ∃ s px, Synth.new (.list [c0, c1]) (.float (.fin lo)) (.float (.fin hi)) = .ok s ∧
      s.getPixels inv (.list l) = .ok (px, l.filter (fun v => decide (lo < v) && decide (v < hi))) := by
  refine ⟨⟨.fin lo, .fin hi, some [c0, c1], some 1, some [c0, c1]⟩,
    ((l.filter (fun v => decide (lo < v))).filter (fun v => decide (v < hi))).map
      (fun v => (v - c0) / c1), ?_, ?_⟩
  · simp [Synth.new, newLimits, PyFloat.lt, hlt]
  · have hfil : (l.filter (fun v => decide (lo < v))).filter (fun v => decide (v < hi)) =
        l.filter (fun v => decide (lo < v) && decide (v < hi)) := by
      rw [List.filter_filter]
      congr 1
      funext v
      rw [Bool.and_comm]
    rw [← hfil]
    rfl

example : (⟨.fin 2, .fin 9, some [1, 2], some 1, some [1, 2]⟩ : Synth ℚ).getPixels
    (fun _ _ => .error .valueError) (.list [9, 3, 1, 5]) = .ok ([1, 2], [3, 5]) := by
  decide +kernel

/-! ### C38 -/

/-- The documented behaviour: the spectrum's model, evaluated at the returned pixels, gives the
returned wavelengths. -/
def C38_Statement : Prop :=
  ∀ (inv : (ℚ → ℚ) → List ℚ → PyRes (List ℚ)), (∀ f, Inverts inv f) →
    ∀ (cs : List ℚ) (lo hi : LimitArg ℚ) (s : Synth ℚ), Synth.new (.list cs) lo hi = .ok s →
    ∀ (ws px out : List ℚ), s.getPixels inv (.list ws) = .ok (px, out) →
      px.map (Spec.evalHigh cs) = out

/-- C38 is false: for the linear model `2 x + 1` (coefficients `[2, 1]`, highest order first as in
the model) the wavelength 5 gets pixel `(5 - 2) / 1 = 3`, where the model gives 7. -/
theorem C38_refuted : ¬ C38_Statement := by
  intro h
  have := h (fun _ _ => .error .valueError) (fun _ _ _ h => by simp at h) [2, 1]
    (.float (.fin 0)) (.float (.fin 9)) _ rfl [5] [3] [5] (by decide +kernel)
  revert this
  decide +kernel

/-- C38 for models of degree at least two, with an exact inverse.  What is missing for the full
statement: degrees 0 and 1. -/
theorem C38_high_degree_partial (inv : (K → K) → List K → PyRes (List K)) (cs : List K)
    (hinv : Inverts inv (Spec.evalHigh cs)) (hd : 3 ≤ cs.length) (lo hi : LimitArg K) (s : Synth K)
    (hs : Synth.new (.list cs) lo hi = .ok s) (ws px out : List K)
    (h : s.getPixels inv (.list ws) = .ok (px, out)) : px.map (Spec.evalHigh cs) = out := by
  have hm : s.degree = some ((cs.length : Int) - 1) ∧ s.model = some cs := by
    unfold Synth.new at hs
    split at hs
    · simp at hs
    · have := Except.ok.inj hs; subst this; exact ⟨rfl, rfl⟩
  have hpl : polyLoop cs (cs.length - 1) = Spec.evalHigh cs :=
    funext (polyLoop_eq_evalHigh cs (cs.length - 1) (by omega))
  unfold Synth.getPixels at h
  dsimp only at h
  rw [hm.1, hm.2] at h
  rw [if_neg (by intro hh; have := Option.some.inj hh; omega),
    if_neg (by intro hh; have := Option.some.inj hh; omega)] at h
  obtain ⟨c, cs', rfl⟩ : ∃ c cs', cs = c :: cs' := by
    cases cs with
    | nil => simp at hd
    | cons c cs' => exact ⟨c, cs', rfl⟩
  dsimp only at h
  rw [hpl] at h
  split at h
  · simp at h
  · rename_i hp
    have h := Except.ok.inj h
    cases h
    exact hinv _ _ hp

/-- A case for `C38_high_degree_partial`: the square, and an inverse that knows one value. -/
example : ∃ s, Synth.new (K := ℚ) (.list [1, 0, 0]) (.float (.fin 0)) (.float (.fin 9)) = .ok s ∧
    s.getPixels (fun _ ys => if ys = [4] then .ok [2] else .error .valueError) (.list [4]) = .ok ([2], [4]) ∧
    Spec.evalHigh [1, 0, 0] (2 : ℚ) = 4 := ⟨_, rfl, by decide +kernel, by decide +kernel⟩

/-- C38 for linear models: what the pixels do invert is the polynomial with the two coefficients
in the opposite order, `c0 + c1 x`.  What is missing: the model itself is `c0 x + c1`. -/
theorem C38_linear_partial (inv : (K → K) → List K → PyRes (List K)) (c0 c1 : K) (hc : c1 ≠ 0)
    (lo hi : LimitArg K) (s : Synth K) (hs : Synth.new (.list [c0, c1]) lo hi = .ok s)
    (ws px out : List K) (h : s.getPixels inv (.list ws) = .ok (px, out)) :
    px.map (Spec.evalLow [c0, c1]) = out := by
  have hm : s.degree = some 1 ∧ s.coefficients = some [c0, c1] := by
    unfold Synth.new at hs
    split at hs
    · simp at hs
    · have := Except.ok.inj hs; subst this; exact ⟨rfl, rfl⟩
  unfold Synth.getPixels at h
  dsimp only at h
  rw [hm.1, hm.2] at h
  rw [if_neg (by decide), if_pos rfl] at h
  have h := Except.ok.inj h
  cases h
  rw [List.map_map]
  conv_rhs => rw [← List.map_id ((ws.filter _).filter _)]
  apply List.map_congr_left
  intro v _
  simp only [Function.comp, Spec.evalLow, id]
  rw [mul_zero, add_zero, div_mul_cancel₀ _ hc]
  ring

/-- The hypotheses of `C38_linear_partial` met. -/
example : ∃ s, Synth.new (K := ℚ) (.list [1, 2]) (.float (.fin 2)) (.float (.fin 9)) = .ok s ∧
    s.getPixels (fun _ _ => .error .valueError) (.list [9, 3, 1, 5]) = .ok ([1, 2], [3, 5]) :=
  ⟨_, rfl, by decide +kernel⟩

/-! ### C39 -/

/-- The documented behaviour: `set_model` makes the object behave like one created with the new
coefficients. -/
def C39_Statement : Prop :=
  ∀ (inv : (ℚ → ℚ) → List ℚ → PyRes (List ℚ)) (cs cs' : List ℚ) (lo hi : LimitArg ℚ)
    (s s' : Synth ℚ), Synth.new (.list cs) lo hi = .ok s → Synth.new (.list cs') lo hi = .ok s' →
    ∀ ws : ListArg ℚ, ((s.setModel (.list cs')).1).getPixels inv ws = s'.getPixels inv ws

/-- C39 is false: replacing one linear model by another has no effect on the pixels. -/
theorem C39_refuted : ¬ C39_Statement := by
  intro h
  have := h (fun _ _ => .error .valueError) [0, 1] [0, 2]
    (.float (.fin 0)) (.float (.fin 9)) _ _ rfl rfl (.list [4])
  revert this
  decide +kernel

/-- C39 for a new model of degree at least two: it takes effect, whatever the object was created
with (also without coefficients).  What is missing: degrees 0 and 1. -/
theorem C39_high_degree_partial (inv : (K → K) → List K → PyRes (List K)) (c : ListArg K)
    (cs' : List K) (hd : 3 ≤ cs'.length) (lo hi : LimitArg K) (s s' : Synth K)
    (hs : Synth.new c lo hi = .ok s) (hs' : Synth.new (.list cs') lo hi = .ok s') (ws : ListArg K) :
    ((s.setModel (.list cs')).1).getPixels inv ws = s'.getPixels inv ws := by
  unfold Synth.new at hs hs'
  split at hs
  · simp at hs
  · rename_i a b hab
    rw [hab] at hs'
    dsimp only at hs'
    have e' := Except.ok.inj hs'
    have e : s.minW = a ∧ s.maxW = b := by
      split at hs
      · have := Except.ok.inj hs; subst this; exact ⟨rfl, rfl⟩
      · have := Except.ok.inj hs; subst this; exact ⟨rfl, rfl⟩
      · simp at hs
    subst e'
    cases ws <;> try rfl
    unfold Synth.getPixels Synth.setModel
    dsimp only
    rw [e.1, e.2, if_neg (by intro hh; have := Option.some.inj hh; omega),
      if_neg (by intro hh; have := Option.some.inj hh; omega),
      if_neg (by intro hh; have := Option.some.inj hh; omega),
      if_neg (by intro hh; have := Option.some.inj hh; omega)]

/-- C39, degree 1: the pixels are computed from the coefficients given at construction.  (Part of
the refutation: it says what happens instead.) -/
theorem C39_linear_stale_partial (inv : (K → K) → List K → PyRes (List K)) (c0 c1 d0 d1 : K)
    (lo hi : LimitArg K) (s : Synth K) (hs : Synth.new (.list [c0, c1]) lo hi = .ok s)
    (ws : ListArg K) :
    ((s.setModel (.list [d0, d1])).1).getPixels inv ws = s.getPixels inv ws := by
  have hm : s.degree = some 1 ∧ s.coefficients = some [c0, c1] := by
    unfold Synth.new at hs
    split at hs
    · simp at hs
    · have := Except.ok.inj hs; subst this; exact ⟨rfl, rfl⟩
  cases ws <;> try rfl
  unfold Synth.getPixels Synth.setModel
  dsimp only
  rw [hm.1, hm.2]
  rfl

/-- A case for `C39_high_degree_partial`. -/
example : ∃ s, Synth.new (K := ℚ) .none (.float (.fin 0)) (.float (.fin 9)) = .ok s ∧
    ((s.setModel (.list [1, 0, 0])).1).getPixels
      (fun _ ys => if ys = [4] then .ok [2] else .error .valueError) (.list [4]) =
      .ok ([2], [4]) := ⟨_, rfl, by decide +kernel⟩

end Rascal
