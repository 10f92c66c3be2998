import Verif.Props.RemoveOrderProps

/-!
Property theorems C220: adding lines and removing a range, in either order.
-/

set_option linter.unusedSectionVars false

namespace Rascal

section
variable {K α : Type _}

/-- A call that appends the lines `new` and ends as `o`, whatever lines there are. -/
def Spec.Appends (f : Atlas K → Atlas K × PyRes Unit) (at_ : Atlas K) (new : List (AtlasLine K)) (o : PyRes Unit) : Prop :=
  ∃ t : Atlas K, ∀ l, f { at_ with lines := l } = ({ t with lines := l ++ new }, o)

theorem survivors_append_sublist (p : α → Bool) (A B : List α) :
    (Spec.survivors p (A ++ B)).Sublist (Spec.survivors p A ++ B) := by
  induction A using Spec.survivors.induct p with
  | case1 => exact survivors_sublist p B
  | case2 a h =>
    cases B with
    | nil => simp
    | cons b t =>
      have e1 : Spec.survivors p ([a] ++ b :: t) = b :: Spec.survivors p t := by
        show Spec.survivors p (a :: b :: t) = _
        rw [Spec.survivors, if_pos h]
      have e2 : Spec.survivors p [a] = [] := by simp [Spec.survivors, h]
      rw [e1, e2, List.nil_append]
      exact (survivors_sublist p t).cons_cons b
  | case3 a h =>
    have h' : p a = false := by simpa using h
    rw [survivors_keep p a [] h', List.cons_append, survivors_keep p a _ h']
    exact (survivors_sublist p B).cons_cons a
  | case4 a b t h ih =>
    rw [List.cons_append, List.cons_append, Spec.survivors, if_pos h, Spec.survivors, if_pos h]
    exact ih.cons_cons b
  | case5 a b t h ih =>
    have h' : p a = false := by simpa using h
    rw [List.cons_append, survivors_keep p a _ h', survivors_keep p a _ h']
    exact ih.cons_cons a

section
variable [AddCommGroup K] [LinearOrder K]

theorem addLoop_appends (g : String → PyRes (LineArrays K)) (els : List String) :
    ∃ new o, ∀ l : List (AtlasLine K), addLoop g els l = (l ++ new, o) := by
  induction els with
  | nil => exact ⟨[], .ok (), fun l => by simp [addLoop]⟩
  | cons e els ih =>
    obtain ⟨new, o, h⟩ := ih
    cases hg : g e with
    | error err => exact ⟨[], .error err, fun l => by simp [addLoop, hg]⟩
    | ok r =>
      refine ⟨r.nistLines ++ new, o, fun l => ?_⟩
      simp only [addLoop, hg]
      rw [h, List.append_assoc]

/-- C220: `Atlas.add` appends the same lines and ends in the same way, whatever lines the atlas has. -/
theorem C220_add_appends (env : Env K) (at_ : Atlas K) (a : AddArgs K) :
    ∃ new o, Spec.Appends (fun at_ => at_.add env a) at_ new o := by
  unfold Spec.Appends Atlas.add
  dsimp only
  have stop : ∀ e : PyErr, ∃ new : List (AtlasLine K), ∃ o : PyRes Unit, ∃ t : Atlas K, ∀ l : List (AtlasLine K),
      (({ at_ with lines := l }, .error e) : Atlas K × PyRes Unit) = ({ t with lines := l ++ new }, o) :=
    fun e => ⟨[], .error e, at_, fun l => by rw [List.append_nil]⟩
  cases addLimit a.minW at_.minW (fun v => v - at_.rangeTol) with
  | error e => exact stop e
  | ok lo' =>
    dsimp only
    cases addLimit a.maxW at_.maxW (fun v => v + at_.rangeTol) with
    | error e => exact stop e
    | ok hi' =>
      dsimp only
      cases lo'.toFinite with
      | none => exact stop _
      | some lo =>
        dsimp only
        cases hi'.toFinite with
        | none => exact stop _
        | some hi =>
          dsimp only
          obtain ⟨new, o, h⟩ := addLoop_appends (a.load env lo hi) a.elements.toList
          exact ⟨new, o, at_, fun l => by rw [h]⟩

/-- C220: `add_user_atlas` likewise. -/
theorem C220_user_appends (at_ : Atlas K) (elements : UserElems) (wavelengths : SeqArg K)
    (intensities : Option (SeqArg K)) (vacuum : Bool) (vacToAir : K → K) :
    ∃ new o, Spec.Appends (fun at_ => at_.addUser elements wavelengths intensities vacuum vacToAir) at_ new o := by
  unfold Spec.Appends Atlas.addUser
  dsimp only
  have stop : ∀ e : PyErr, ∃ new : List (AtlasLine K), ∃ o : PyRes Unit, ∃ t : Atlas K, ∀ l : List (AtlasLine K),
      (({ at_ with lines := l }, .error e) : Atlas K × PyRes Unit) = ({ t with lines := l ++ new }, o) :=
    fun e => ⟨[], .error e, at_, fun l => by rw [List.append_nil]⟩
  cases elements.toList with
  | none => exact stop _
  | some es =>
    dsimp only
    cases wavelengths.toList with
    | none => exact stop _
    | some ws =>
      dsimp only
      cases userIntensities ws.length intensities with
      | none => exact stop _
      | some is =>
        dsimp only
        by_cases h1 : es.length ≠ ws.length
        · simp only [if_pos h1]; exact stop _
        by_cases h2 : es.length ≠ is.length
        · simp only [if_neg h1, if_pos h2]; exact stop _
        simp only [if_neg h1, if_neg h2]
        cases (if vacuum = true then ws.map vacToAir else ws) with
        | nil => exact stop _
        | cons w t =>
          exact ⟨_, .ok (), { at_ with minW := some (.fin (listMin w t)), maxW := some (.fin (listMax w t)) },
            fun l => rfl⟩

/-- C220: for a call that appends lines, removing a range after it keeps no line that is not kept by removing the range
before it, and the outcomes are the same.  If none of the new lines is in range, both orders give the same atlas. -/
theorem C220_order (f : Atlas K → Atlas K × PyRes Unit) (at_ : Atlas K) (new : List (AtlasLine K)) (o : PyRes Unit)
    (h : Spec.Appends f at_ new o) (w tol : K) :
    ((f at_).1.removeRange w tol).lines.Sublist (f (at_.removeRange w tol)).1.lines ∧
    (f (at_.removeRange w tol)).2 = (f at_).2 ∧
    (∀ l ∈ new, l ∈ (f (at_.removeRange w tol)).1.lines) ∧
    ((∀ l ∈ new, ¬ |l.wl - w| < tol) → f (at_.removeRange w tol) = ((f at_).1.removeRange w tol, (f at_).2)) := by
  obtain ⟨t, ht⟩ := h
  have h1 : f at_ = ({ t with lines := at_.lines ++ new }, o) := ht at_.lines
  have h2 : f (at_.removeRange w tol) =
      ({ t with lines := Spec.survivors (InRange w tol) at_.lines ++ new }, o) := by
    rw [removeRange_lines]
    exact ht _
  rw [h1, h2, removeRange_lines]
  dsimp only
  refine ⟨survivors_append_sublist _ _ _, rfl, fun l hl => List.mem_append_right _ hl, fun hn => ?_⟩
  rw [survivors_append_left (InRange w tol) _ _ (fun b hb => decide_eq_false (hn b hb))]

end

end

/-- A case: lines of the user at 5001 and 7000.  Removing around 5000 before them keeps both and after them drops 5001; the
order does not matter for a range around 6000, in which there is no new line. -/
example :
    let at_ : Atlas ℤ := ⟨[⟨5000, "Ar", 1, none⟩, ⟨6000, "Ar", 1, none⟩], none, none, 500⟩
    let f : Atlas ℤ → Atlas ℤ × PyRes Unit :=
      fun a => a.addUser (.list ["Xe", "Xe"]) (.seq [5001, 7000]) none false id
    (f at_).1.getLines = [5000, 6000, 5001, 7000] ∧
    ((f at_).1.removeRange 5000 10).getLines = [6000, 7000] ∧
    (f (at_.removeRange 5000 10)).1.getLines = [6000, 5001, 7000] ∧
    ((f at_).1.removeRange 6000 10).getLines = (f (at_.removeRange 6000 10)).1.getLines ∧
    ((f at_).1.removeRange 6000 10).getLines = [5000, 5001, 7000] := by
  decide

/-- The hypotheses of `C220_order` for that call. -/
example := fun w tol : ℤ => C220_order _ _ _ _
  (C220_user_appends (⟨[⟨5000, "Ar", 1, none⟩, ⟨6000, "Ar", 1, none⟩], none, none, 500⟩ : Atlas ℤ) (.list ["Xe", "Xe"])
    (.seq [5001, 7000]) none false id).choose_spec.choose_spec w tol

end Rascal
