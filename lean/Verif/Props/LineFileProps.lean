import Verif.Spec.LineFile
import Verif.Model.LineFile
import Verif.Proofs.LoadMain
import Verif.Props.AtlasProps
import Mathlib.Algebra.Field.Rat
import Mathlib.Algebra.Order.Ring.Rat

/-!
C151: values in a line-list file are used as written.  C152: files with a single line.  C153: rows of
other elements.
-/

set_option linter.unusedSectionVars false

namespace Rascal

variable {K : Type _}

/-! ### Reading the rows -/

theorem splitComma_plain (l : List Char) (h : ',' ∉ l) : splitComma l = [l] := by
  induction l with
  | nil => rfl
  | cons c l ih =>
    simp only [List.mem_cons, not_or] at h
    have hc : c ≠ ',' := fun hh => h.1 hh.symm
    simp [splitComma, hc, ih h.2]

theorem splitComma_append (e r : List Char) (h : ',' ∉ e) :
    splitComma (e ++ ',' :: r) = e :: splitComma r := by
  induction e with
  | nil => simp [splitComma]
  | cons c e ih =>
    simp only [List.mem_cons, not_or] at h
    have hc : c ≠ ',' := fun hh => h.1 hh.symm
    simp [splitComma, hc, ih h.2]

theorem beforeHash_plain (l : List Char) (h : '#' ∉ l) : beforeHash l = l := by
  induction l with
  | nil => rfl
  | cons c l ih =>
    simp only [List.mem_cons, not_or] at h
    have hc : c ≠ '#' := fun hh => h.1 hh.symm
    have := ih h.2
    unfold beforeHash at this ⊢
    rw [List.takeWhile_cons_of_pos (by simp [hc]), this]

/-- The fields of the rows of a file. -/
def fieldList (f : Spec.Fields) : List (List Char) := [f.1, f.2.1, f.2.2]

theorem fileRows_says {ls : List (List Char)} {fs : List Spec.Fields} (h : Spec.FileSays ls fs) :
    fileRows ls = fs.map fieldList := by
  induction h with
  | nil => rfl
  | blank _ ih => simpa [fileRows, beforeHash] using ih
  | comment c _ ih => simpa [fileRows, beforeHash] using ih
  | @row ls fs e w i he hw hi _ ih =>
    have hb : beforeHash (e ++ ',' :: (w ++ ',' :: i)) = e ++ ',' :: (w ++ ',' :: i) := by
      apply beforeHash_plain
      simp only [List.mem_append, List.mem_cons, not_or]
      exact ⟨he.2, by decide, hw.2, by decide, hi.2⟩
    have hs : splitComma (e ++ ',' :: (w ++ ',' :: i)) = [e, w, i] := by
      rw [splitComma_append _ _ he.1, splitComma_append _ _ hw.1, splitComma_plain _ hi.1]
    unfold fileRows at ih ⊢
    rw [List.map_cons, hb, List.filter_cons_of_pos (by cases e <;> rfl), List.map_cons, ih, hs]
    rfl

/-- The table of a file with at least two rows. -/
def cutFields (f : Spec.Fields) : List (List Char) :=
  [f.1.take 12, f.2.1.take 12, f.2.2.take 12]

theorem loadtxt_says {ls : List (List Char)} {fs : List Spec.Fields} (h : Spec.FileSays ls fs)
    (h2 : 2 ≤ fs.length) : loadtxt ls = .ok (.table 3 (fs.map cutFields)) := by
  unfold loadtxt
  rw [fileRows_says h]
  obtain _ | ⟨f, _ | ⟨g, fs⟩⟩ := fs
  · simp at h2
  · simp at h2
  · simp [fieldList, cutFields, List.map_map, Function.comp_def]

/-! ### C151 -/

section
variable [AddCommGroup K] [LinearOrder K]

theorem mapRes_ok {α β : Type _} (f : α → PyRes β) (g : α → β) (l : List α)
    (h : ∀ a ∈ l, f a = .ok (g a)) : mapRes f l = .ok (l.map g) := by
  induction l with
  | nil => rfl
  | cons a l ih =>
    simp only [mapRes, h a (by simp), ih (fun b hb => h b (by simp [hb])), List.map_cons]

theorem takeIdx_map' {α β : Type _} (f : α → β) (l : List α) (idx : List Nat) :
    takeIdx (l.map f) idx = (takeIdx l idx).map f := by
  unfold takeIdx
  rw [List.map_filterMap]
  simp

theorem filterWavelengthsBy_map {α β : Type _} (wl : β → K) (f : α → β) (l : List α) (lo hi : K) :
    filterWavelengthsBy wl (l.map f) lo hi = (filterWavelengthsBy (wl ∘ f) l lo hi).map f := by
  unfold filterWavelengthsBy
  simp only [List.map_map, takeIdx_map' f, boolMask_map]

theorem mem_filterWavelengthsBy {α : Type _} (wl : α → K) (l : List α) (lo hi : K) {a : α}
    (h : a ∈ filterWavelengthsBy wl l lo hi) : a ∈ l := by
  unfold filterWavelengthsBy boolMask at h
  obtain ⟨p, hp, rfl⟩ := List.mem_map.1 h
  have h1 := (List.of_mem_zip (List.mem_filter.1 hp).1).1
  unfold takeIdx at h1
  obtain ⟨i, _, hi⟩ := List.mem_filterMap.1 h1
  exact List.mem_of_getElem? hi

/-- A text row with converted wavelength and text of the intensity, and its meaning. -/
theorem loadTable_rows (parse : List Char → Option K) (argsort : List K → List Nat)
    (airToVac vacToAir : K → K) (fs : List Spec.Fields) (rows : List (Row K))
    (hr : Spec.Means parse fs rows) (hs : ∀ f ∈ fs, Spec.Short f) (elements : List String) (lo hi : K)
    (mi : MinIntensity K) (d : K) (vacuum : Bool) (b : Option Int) :
    loadTable parse argsort airToVac vacToAir 3 (fs.map cutFields) elements lo hi mi d vacuum b =
      loadCalibrationLines argsort airToVac vacToAir rows elements lo hi mi d vacuum b := by
  classical
  -- pair each row with its text
  obtain ⟨ps, hps1, hps2, hps⟩ : ∃ ps : List (Spec.Fields × Row K), ps.map Prod.fst = fs ∧
      ps.map Prod.snd = rows ∧ ∀ p ∈ ps, (p.2.elem = String.ofList p.1.1 ∧ parse p.1.2.1 = some p.2.wl ∧
        parse p.1.2.2 = some p.2.inten) ∧ Spec.Short p.1 := by
    clear elements lo hi mi d vacuum b
    induction hr with
    | nil => exact ⟨[], rfl, rfl, by simp⟩
    | @cons f r fs rows h1 _ ih =>
      obtain ⟨ps, e1, e2, e3⟩ := ih (fun g hg => hs g (by simp [hg]))
      refine ⟨(f, r) :: ps, by simp [e1], by simp [e2], ?_⟩
      intro p hp
      rcases List.mem_cons.1 hp with rfl | hp
      · exact ⟨h1, hs _ (by simp)⟩
      · exact e3 p hp
  subst hps1 hps2
  have hel : ∀ p ∈ ps, rowElement (cutFields p.1) = p.2.elem := by
    intro p hp
    obtain ⟨⟨h1, _, _⟩, h4, _, _⟩ := hps p hp
    simp [rowElement, cutFields, h1, List.take_of_length_le h4]
  have hfil : ((ps.map Prod.fst).map cutFields).filter
      (fun r => elements.contains (rowElement r)) =
      (ps.filter (fun p => elements.contains p.2.elem)).map (fun p => cutFields p.1) := by
    rw [List.map_map, List.filter_map]
    refine congrArg (List.map (cutFields ∘ Prod.fst)) (List.filter_congr fun p hp => ?_)
    simp only [Function.comp_apply, hel p hp]
  have hsub : ∀ p ∈ ps.filter (fun p => elements.contains p.2.elem), p ∈ ps :=
    fun p hp => (List.mem_filter.1 hp).1
  set sel := ps.filter (fun p => elements.contains p.2.elem) with hsel
  have hread : mapRes (readWavelength parse) (sel.map (fun p => cutFields p.1)) =
      .ok (sel.map (fun p => (⟨p.2.elem, p.2.wl, some p.1.2.2⟩ : TextRow K))) := by
    rw [show sel.map (fun p => (⟨p.2.elem, p.2.wl, some p.1.2.2⟩ : TextRow K)) =
      sel.map (fun p => (⟨p.2.elem, p.2.wl, some p.1.2.2⟩ : TextRow K)) from rfl]
    have : ∀ l : List (Spec.Fields × Row K), (∀ p ∈ l, p ∈ ps) →
        mapRes (readWavelength parse) (l.map (fun p => cutFields p.1)) =
          .ok (l.map (fun p => (⟨p.2.elem, p.2.wl, some p.1.2.2⟩ : TextRow K))) := by
      intro l hl
      induction l with
      | nil => rfl
      | cons p l ih =>
        obtain ⟨⟨h1, h2, h3⟩, h4, h5, h6⟩ := hps p (hl p (by simp))
        have hp : readWavelength parse (cutFields p.1) =
            .ok (⟨p.2.elem, p.2.wl, some p.1.2.2⟩ : TextRow K) := by
          simp [readWavelength, rowElement, cutFields, List.take_of_length_le h4,
            List.take_of_length_le h5, List.take_of_length_le h6, h1, h2]
        simp only [List.map_cons, mapRes, hp, ih (fun q hq => hl q (by simp [hq]))]
    exact this sel hsub
  set lo' := if vacuum then lo else airToVac lo
  set hi' := if vacuum then hi else airToVac hi
  have hint : mapRes (readIntensity parse) (filterWavelengthsBy TextRow.wl
      (sel.map (fun p => (⟨p.2.elem, p.2.wl, some p.1.2.2⟩ : TextRow K))) lo' hi') =
      .ok (filterWavelengths (sel.map Prod.snd) lo' hi') := by
    unfold filterWavelengths
    rw [filterWavelengthsBy_map, filterWavelengthsBy_map]
    have hfun : (TextRow.wl ∘ fun p : Spec.Fields × Row K =>
        (⟨p.2.elem, p.2.wl, some p.1.2.2⟩ : TextRow K)) = Row.wl ∘ Prod.snd := rfl
    rw [hfun]
    have hmem : ∀ p ∈ filterWavelengthsBy (Row.wl ∘ Prod.snd) sel lo' hi', p ∈ ps :=
      fun p hp => hsub p (mem_filterWavelengthsBy _ _ _ _ hp)
    generalize filterWavelengthsBy (Row.wl ∘ Prod.snd) sel lo' hi' = l at hmem
    induction l with
    | nil => rfl
    | cons p l ih =>
      obtain ⟨⟨h1, h2, h3⟩, _⟩ := hps p (hmem p (by simp))
      simp only [List.map_cons, mapRes, readIntensity, h3, ih (fun q hq => hmem q (by simp [hq]))]
  unfold loadTable
  rw [hfil, hread]
  dsimp only
  by_cases ht : thresholdsOk elements mi = true
  · rw [if_neg (by simp [ht]), if_neg (by decide), hint]
    unfold loadCalibrationLines
    rw [boolMask_map_pred, List.filter_map]
    rfl
  · have hv : ¬ Spec.ThresholdsFit elements mi := by
      intro hv
      apply ht
      cases mi with
      | perElement vs => simpa [thresholdsOk] using hv vs rfl
      | none => rfl
      | scalar v => rfl
      | other => rfl
    rw [if_pos (by simpa using ht), load_badThresholds _ _ _ _ _ _ _ _ _ _ _ hv]

/-- C151.  A file of at least two rows whose texts have at most twelve characters is used as
written.  Missing: longer texts, see `C151_refuted`, and fewer rows, see C152. -/
theorem C151_as_written_partial (parse : List Char → Option K) (argsort : List K → List Nat)
    (airToVac vacToAir : K → K) (ls : List (List Char)) (fs : List Spec.Fields) (rows : List (Row K))
    (hf : Spec.FileSays ls fs) (hr : Spec.Means parse fs rows) (h2 : 2 ≤ fs.length)
    (hs : ∀ f ∈ fs, Spec.Short f) (elements : List String) (lo hi : K) (mi : MinIntensity K) (d : K)
    (vacuum : Bool) (b : Option Int) :
    loadText parse argsort airToVac vacToAir ls elements lo hi mi d vacuum b =
      loadCalibrationLines argsort airToVac vacToAir rows elements lo hi mi d vacuum b := by
  unfold loadText
  rw [loadtxt_says hf h2]
  exact loadTable_rows parse argsort airToVac vacToAir fs rows hr hs elements lo hi mi d vacuum b

/-- C151.  Only the first twelve characters of each text matter: files that agree in these give the
same result, so whatever follows, an exponent in particular, is ignored. -/
theorem C151_cut_partial (parse : List Char → Option K) (argsort : List K → List Nat)
    (airToVac vacToAir : K → K) (ls ls' : List (List Char)) (fs fs' : List Spec.Fields)
    (hf : Spec.FileSays ls fs) (hf' : Spec.FileSays ls' fs')
    (h : List.Forall₂ (fun f f' => f.1.take 12 = f'.1.take 12 ∧ f.2.1.take 12 = f'.2.1.take 12 ∧
      f.2.2.take 12 = f'.2.2.take 12) fs fs') (elements : List String) (lo hi : K)
    (mi : MinIntensity K) (d : K) (vacuum : Bool) (b : Option Int) :
    loadText parse argsort airToVac vacToAir ls elements lo hi mi d vacuum b =
      loadText parse argsort airToVac vacToAir ls' elements lo hi mi d vacuum b := by
  have hcut : fs.map cutFields = fs'.map cutFields := by
    clear hf hf'
    induction h with
    | nil => rfl
    | cons h1 _ ih => simp [cutFields, h1, ih]
  have hl : loadtxt ls = loadtxt ls' := by
    by_cases h2 : 2 ≤ fs.length
    · rw [loadtxt_says hf h2, loadtxt_says hf' (h.length_eq ▸ h2), hcut]
    · have hlen := h.length_eq
      unfold loadtxt
      rw [fileRows_says hf, fileRows_says hf']
      cases h with
      | nil => rfl
      | cons h1 ht =>
        cases ht with
        | nil =>
          simp only [List.map_cons, List.map_nil, cutFields, List.cons.injEq, Prod.mk.injEq,
            and_true] at hcut
          simp [fieldList, hcut]
        | cons => simp at h2
  unfold loadText
  rw [hl]

/-! ### C152 -/

/-- C152.  A file with a single row, or with none, cannot be loaded: IndexError, whatever is asked
for. -/
theorem C152_single_row (parse : List Char → Option K) (argsort : List K → List Nat)
    (airToVac vacToAir : K → K) (ls : List (List Char)) (fs : List Spec.Fields)
    (hf : Spec.FileSays ls fs) (h1 : fs.length ≤ 1) (elements : List String) (lo hi : K)
    (mi : MinIntensity K) (d : K) (vacuum : Bool) (b : Option Int) :
    loadText parse argsort airToVac vacToAir ls elements lo hi mi d vacuum b = .error .indexError := by
  unfold loadText loadtxt
  rw [fileRows_says hf]
  obtain _ | ⟨f, _ | ⟨g, fs⟩⟩ := fs
  · rfl
  · simp [fieldList]
  · simp at h1

theorem fileRows_plain (ls : List (List Char)) (h : ∀ l ∈ ls, l ≠ [] ∧ '#' ∉ l ∧ ',' ∉ l) :
    fileRows ls = ls.map (fun l => [l]) := by
  induction ls with
  | nil => rfl
  | cons l ls ih =>
    obtain ⟨h1, h2, h3⟩ := h l List.mem_cons_self
    have ih := ih (fun m hm => h m (List.mem_cons_of_mem _ hm))
    unfold fileRows at ih ⊢
    rw [List.map_cons, beforeHash_plain l h2, List.filter_cons_of_pos (by cases l with | nil => exact absurd rfl h1 | cons => rfl),
      List.map_cons, ih, splitComma_plain l h3]
    rfl

/-- C152 for files with a single column, as a list of wavelengths: one row raises TypeError, several rows IndexError,
whatever is asked for. -/
theorem C152_one_column (parse : List Char → Option K) (argsort : List K → List Nat)
    (airToVac vacToAir : K → K) (l : List Char) (ls : List (List Char))
    (h : ∀ m ∈ l :: ls, m ≠ [] ∧ '#' ∉ m ∧ ',' ∉ m) (elements : List String) (lo hi : K)
    (mi : MinIntensity K) (d : K) (vacuum : Bool) (b : Option Int) :
    loadText parse argsort airToVac vacToAir (l :: ls) elements lo hi mi d vacuum b =
      .error (if ls = [] then .typeError else .indexError) := by
  unfold loadText loadtxt
  rw [fileRows_plain _ h, List.map_cons]
  dsimp only
  have hall : (ls.map (fun l => [l])).all (fun q => q.length == [l].length) = true := by simp
  rw [if_pos hall]
  cases ls with
  | nil => rfl
  | cons m ls => rfl

theorem mapRes_all {α β : Type _} (f : α → PyRes β) (l : List α) (h : ∀ a ∈ l, ∃ b, f a = .ok b) : ∃ r, mapRes f l = .ok r := by
  induction l with
  | nil => exact ⟨_, rfl⟩
  | cons a l ih =>
    obtain ⟨b, hb⟩ := h a List.mem_cons_self
    obtain ⟨r, hr⟩ := ih (fun x hx => h x (List.mem_cons_of_mem _ hx))
    exact ⟨b :: r, by rw [mapRes, hb]; dsimp only; rw [hr]⟩

/-- C152 for files without intensities: at least two rows of an element and a wavelength that can be read raise IndexError,
unless there is one threshold too many or too few. -/
theorem C152_two_columns (parse : List Char → Option K) (argsort : List K → List Nat)
    (airToVac vacToAir : K → K) (fs : List (List Char × List Char)) (h2 : 2 ≤ fs.length)
    (h : ∀ f ∈ fs, Spec.Plain f.1 ∧ Spec.Plain f.2 ∧ (parse (f.2.take 12)).isSome) (elements : List String) (lo hi : K)
    (mi : MinIntensity K) (hmi : ∀ vs, mi = .perElement vs → vs.length = elements.length) (d : K) (vacuum : Bool)
    (b : Option Int) :
    loadText parse argsort airToVac vacToAir (fs.map (fun f => f.1 ++ ',' :: f.2)) elements lo hi mi d vacuum b =
      .error .indexError := by
  have hrows : fileRows (fs.map (fun f => f.1 ++ ',' :: f.2)) = fs.map (fun f => [f.1, f.2]) := by
    clear h2
    induction fs with
    | nil => rfl
    | cons f fs ih =>
      obtain ⟨h1, h3, _⟩ := h f List.mem_cons_self
      have ih := ih (fun m hm => h m (List.mem_cons_of_mem _ hm))
      have hb : beforeHash (f.1 ++ ',' :: f.2) = f.1 ++ ',' :: f.2 := by
        apply beforeHash_plain
        simp only [List.mem_append, List.mem_cons, not_or]
        exact ⟨h1.2, by decide, h3.2⟩
      unfold fileRows at ih ⊢
      rw [List.map_cons, List.map_cons, hb, List.filter_cons_of_pos (by cases f.1 <;> rfl), List.map_cons, ih,
        splitComma_append _ _ h1.1, splitComma_plain _ h3.1]
      rfl
  have htab : loadtxt (fs.map (fun f => f.1 ++ ',' :: f.2)) =
      .ok (.table 2 (fs.map (fun f => [f.1.take 12, f.2.take 12]))) := by
    unfold loadtxt
    rw [hrows]
    obtain _ | ⟨f, _ | ⟨g, fs⟩⟩ := fs
    · simp at h2
    · simp at h2
    · simp [List.map_map, Function.comp_def]
  unfold loadText
  rw [htab]
  dsimp only
  unfold loadTable
  have hok : thresholdsOk elements mi = true := by
    cases mi with
    | perElement vs => simpa [thresholdsOk] using hmi vs rfl
    | _ => rfl
  obtain ⟨ts, hts⟩ := mapRes_all (readWavelength parse)
    ((fs.map (fun f => [f.1.take 12, f.2.take 12])).filter (fun r => elements.contains (rowElement r))) (by
      intro r hr
      obtain ⟨f, hf, rfl⟩ := List.mem_map.1 (List.mem_filter.1 hr).1
      obtain ⟨v, hv⟩ := Option.isSome_iff_exists.1 (h f hf).2.2
      refine ⟨⟨rowElement [f.1.take 12, f.2.take 12], v, none⟩, ?_⟩
      unfold readWavelength
      rw [show [f.1.take 12, f.2.take 12].getD 1 [] = f.2.take 12 from rfl, hv]
      rfl)
  rw [hts]
  dsimp only
  rw [hok]
  rfl

/-! ### C153 -/

/-- C153.  Rows of other elements do not matter, not even if their numbers cannot be read: two files
with the same rows for the elements asked for give the same result. -/
theorem C153_other_elements (parse : List Char → Option K) (argsort : List K → List Nat)
    (airToVac vacToAir : K → K) (ls ls' : List (List Char)) (fs fs' : List Spec.Fields)
    (hf : Spec.FileSays ls fs) (hf' : Spec.FileSays ls' fs') (h2 : 2 ≤ fs.length)
    (h2' : 2 ≤ fs'.length) (elements : List String)
    (h : fs.filter (fun f => elements.contains (String.ofList (f.1.take 12))) =
      fs'.filter (fun f => elements.contains (String.ofList (f.1.take 12)))) (lo hi : K)
    (mi : MinIntensity K) (d : K) (vacuum : Bool) (b : Option Int) :
    loadText parse argsort airToVac vacToAir ls elements lo hi mi d vacuum b =
      loadText parse argsort airToVac vacToAir ls' elements lo hi mi d vacuum b := by
  have key : ∀ gs : List Spec.Fields,
      (gs.map cutFields).filter (fun r => elements.contains (rowElement r)) =
        (gs.filter (fun f => elements.contains (String.ofList (f.1.take 12)))).map cutFields := by
    intro gs
    rw [List.filter_map]
    rfl
  unfold loadText
  rw [loadtxt_says hf h2, loadtxt_says hf' h2']
  dsimp only
  unfold loadTable
  rw [key, key, h]

end

/-! ### Decimal numbers -/

section
variable [Field K] [LinearOrder K] [IsStrictOrderedRing K]

theorem splitSign_digit (c : Char) (l : List Char) (h : c.isDigit = true) :
    splitSign (c :: l) = (false, c :: l) := by
  unfold splitSign
  split
  · rename_i heq
    cases heq
    exact absurd h (by decide)
  · rename_i heq
    cases heq
    exact absurd h (by decide)
  · rfl

theorem digit_ne {c : Char} (h : c.isDigit = true) (d : Char) (hd : d.isDigit = false) : c ≠ d := by
  rintro rfl
  rw [h] at hd
  cases hd

/-- Reading a plain decimal number. -/
theorem parse_decimal (w f : List Char) (hw : w ≠ []) (hwd : ∀ c ∈ w, c.isDigit = true)
    (hfd : ∀ c ∈ f, c.isDigit = true) :
    (parseFloat (w ++ '.' :: f) : Option K) =
      some ((digitsVal w : K) + (digitsVal f : K) / 10 ^ f.length) := by
  have hsign : splitSign (w ++ '.' :: f) = (false, w ++ '.' :: f) := by
    cases w with
    | nil => exact absurd rfl hw
    | cons c w => exact splitSign_digit c _ (hwd c (by simp))
  have hne : ∀ c ∈ w ++ '.' :: f, decide (c ≠ 'e' ∧ c ≠ 'E') = true := by
    intro c hc
    simp only [List.mem_append, List.mem_cons] at hc
    simp only [decide_eq_true_eq]
    rcases hc with hc | rfl | hc
    · exact ⟨digit_ne (hwd c hc) _ (by decide), digit_ne (hwd c hc) _ (by decide)⟩
    · decide
    · exact ⟨digit_ne (hfd c hc) _ (by decide), digit_ne (hfd c hc) _ (by decide)⟩
  have ht : ∀ (p : Char → Bool) (l : List Char), (∀ c ∈ l, p c = true) →
      l.takeWhile p = l ∧ l.dropWhile p = [] := by
    intro p l hl
    induction l with
    | nil => simp
    | cons c l ih =>
      have hc := hl c (by simp)
      have := ih (fun d hd => hl d (by simp [hd]))
      simp [hc, this]
  have hpt : splitPoint (w ++ '.' :: f) = some (w, f) := by
    have h1 : ∀ l : List Char, (∀ c ∈ l, c.isDigit = true) →
        (l ++ '.' :: f).takeWhile Char.isDigit = l ∧ (l ++ '.' :: f).dropWhile Char.isDigit = '.' :: f := by
      intro l hl
      induction l with
      | nil => simp
      | cons c l ih =>
        have hc := hl c (by simp)
        have := ih (fun d hd => hl d (by simp [hd]))
        simp [hc, this]
    unfold splitPoint
    simp only [(h1 w hwd).1, (h1 w hwd).2]
    rw [if_pos]
    exact ⟨trivial, by simpa using hfd, fun h => hw h.1⟩
  unfold parseFloat
  simp only [hsign, (ht _ _ hne).1, (ht _ _ hne).2, parseMantissa, hpt]
  simp

theorem digitsVal_append (a b : List Char) :
    digitsVal (a ++ b) = digitsVal a * 10 ^ b.length + digitsVal b := by
  have h : ∀ (b : List Char) (n : Nat), b.foldl (fun n c => 10 * n + (c.toNat - 48)) n =
      n * 10 ^ b.length + digitsVal b := by
    intro b
    induction b with
    | nil => intro n; simp [digitsVal]
    | cons c b ih =>
      intro n
      unfold digitsVal
      simp only [List.foldl_cons, ih, List.length_cons, pow_succ]
      ring
  unfold digitsVal
  rw [List.foldl_append, h]
  rfl

theorem digitsVal_lt (a : List Char) (h : ∀ c ∈ a, c.isDigit = true) : digitsVal a < 10 ^ a.length := by
  induction a with
  | nil => simp [digitsVal]
  | cons c a ih =>
    have h1 := digitsVal_append [c] a
    rw [List.singleton_append] at h1
    have h2 := ih (fun d hd => h d (by simp [hd]))
    have h3 : digitsVal [c] ≤ 9 := by
      have := h c (by simp)
      simp only [Char.isDigit, Bool.and_eq_true, decide_eq_true_eq] at this
      have h4 : c.toNat ≤ 57 := this.2
      simp only [digitsVal, List.foldl_cons, List.foldl_nil]
      omega
    rw [h1, List.length_cons, pow_succ]
    nlinarith

/-- C151.  A plain decimal number with `n` digits before the point, at most eleven, is cut to a value
that is smaller by less than one unit of the last digit read, 10^(n-11); with at most twelve characters
nothing is lost. -/
theorem C151_decimal_partial (w f : List Char) (hw : w ≠ []) (hn : w.length ≤ 11)
    (hwd : ∀ c ∈ w, c.isDigit = true) (hfd : ∀ c ∈ f, c.isDigit = true) :
    ∃ v v' : K, parseFloat (w ++ '.' :: f) = some v ∧
      parseFloat ((w ++ '.' :: f).take 12) = some v' ∧ v' ≤ v ∧ v - v' < 1 / 10 ^ (11 - w.length) := by
  have htake : (w ++ '.' :: f).take 12 = w ++ '.' :: f.take (11 - w.length) := by
    rw [List.take_append, List.take_of_length_le (by omega),
      show 12 - w.length = (11 - w.length) + 1 from by omega, List.take_succ_cons]
  set m := 11 - w.length with hm
  have hfd' : ∀ c ∈ f.take m, c.isDigit = true := fun c hc => hfd c (List.mem_of_mem_take hc)
  refine ⟨_, _, parse_decimal w f hw hwd hfd, by rw [htake]; exact parse_decimal w _ hw hwd hfd', ?_⟩
  by_cases hle : f.length ≤ m
  · rw [List.take_of_length_le hle]
    refine ⟨le_refl _, ?_⟩
    rw [sub_self]
    positivity
  · push Not at hle
    have hlen : (f.take m).length = m := by simp; omega
    have hsplit : digitsVal f = digitsVal (f.take m) * 10 ^ (f.drop m).length + digitsVal (f.drop m) := by
      rw [← digitsVal_append, List.take_append_drop]
    have hlt := digitsVal_lt (f.drop m) (fun c hc => hfd c (List.mem_of_mem_drop hc))
    have hl2 : f.length = m + (f.drop m).length := by simp; omega
    set r := (f.drop m).length with hr
    have hpr : (0 : K) < 10 ^ r := by positivity
    have hpm : (0 : K) < 10 ^ m := by positivity
    have hv : (digitsVal f : K) / 10 ^ f.length =
        (digitsVal (f.take m) : K) / 10 ^ m + (digitsVal (f.drop m) : K) / (10 ^ m * 10 ^ r) := by
      rw [hsplit, hl2, pow_add]
      push_cast
      field_simp
    have hlt' : (digitsVal (f.drop m) : K) < 10 ^ r := by exact_mod_cast hlt
    rw [hv, hlen]
    have h0 : (0 : K) ≤ (digitsVal (f.drop m) : K) / (10 ^ m * 10 ^ r) := by positivity
    refine ⟨by linarith, ?_⟩
    have h1 : (digitsVal (f.drop m) : K) / (10 ^ m * 10 ^ r) < 1 / 10 ^ m := by
      rw [div_lt_div_iff₀ (by positivity) hpm]
      nlinarith
    linarith

end

/-! ### Concrete files -/

/-- The text of a row. -/
def rowText (e w i : String) : List Char := e.toList ++ ',' :: (w.toList ++ ',' :: i.toList)

/-- A comment, two mercury rows, a blank line and a header-like row of no element. -/
def plainFile : List (List Char) :=
  ['#' :: " element,wavelength,intensity".toList, rowText "Hg" "4046.563" "10.5", rowText "Hg" "5460.735" "2e1",
    [], rowText "name" "wave" "int"]

/-- Its rows. -/
def plainFields : List Spec.Fields :=
  [("Hg".toList, "4046.563".toList, "10.5".toList), ("Hg".toList, "5460.735".toList, "2e1".toList),
    ("name".toList, "wave".toList, "int".toList)]

theorem plainFile_says : Spec.FileSays plainFile plainFields := by
  refine .comment _ (.row _ _ _ ?_ ?_ ?_ (.row _ _ _ ?_ ?_ ?_ (.blank (.row _ _ _ ?_ ?_ ?_ .nil)))) <;>
    (unfold Spec.Plain; decide)

/-- The same without the last row. -/
theorem plainFile_says' : Spec.FileSays (plainFile.take 4) (plainFields.take 2) := by
  refine .comment _ (.row _ _ _ ?_ ?_ ?_ (.row _ _ _ ?_ ?_ ?_ (.blank .nil))) <;>
    (unfold Spec.Plain; decide)

/-- `C151_as_written_partial` applied to a file with a comment and a blank line. -/
example : loadText parseFloat stableArgsort id id (plainFile.take 4) ["Hg"] (4000 : ℚ) 6000 .none 0 true none =
    loadCalibrationLines stableArgsort id id [⟨"Hg", 4046563/1000, 105/10⟩, ⟨"Hg", 5460735/1000, 20⟩] ["Hg"]
      4000 6000 .none 0 true none := by
  refine C151_as_written_partial parseFloat stableArgsort id id _ (plainFields.take 2) _ plainFile_says' ?_
    (by decide) (by unfold Spec.Short; decide) ["Hg"] 4000 6000 .none 0 true none
  refine .cons ⟨?_, ?_, ?_⟩ (.cons ⟨?_, ?_, ?_⟩ .nil) <;> decide +kernel

/-- `C153_other_elements` applied to a file with and without a row that cannot be read. -/
example (lo hi : ℚ) : loadText parseFloat stableArgsort id id plainFile ["Hg"] lo hi .none 0 true none =
    loadText parseFloat stableArgsort id id (plainFile.take 4) ["Hg"] lo hi .none 0 true none :=
  C153_other_elements parseFloat stableArgsort id id _ _ _ _ plainFile_says plainFile_says' (by decide)
    (by decide) ["Hg"] (by decide +kernel) lo hi .none 0 true none

/-- For `C153_other_elements`: the row does matter if its element is asked for. -/
example : (loadText parseFloat stableArgsort id id plainFile ["Hg", "name"] (4000 : ℚ) 6000 .none 0 true none) =
    .error .valueError := by decide +kernel

/-- `C152_single_row` applied to a file with the single row of a user's lamp. -/
example : loadText parseFloat stableArgsort id id [rowText "Na" "5889.95" "100"] ["Na"] (4000 : ℚ) 7000 .none
    0 true none = .error .indexError :=
  C152_single_row parseFloat stableArgsort id id _ [("Na".toList, "5889.95".toList, "100".toList)]
    (.row _ _ _ (by unfold Spec.Plain; decide) (by unfold Spec.Plain; decide) (by unfold Spec.Plain; decide) .nil)
    (by decide) ["Na"] 4000 7000 .none 0 true none

/-- `C152_one_column` applied to lists of one and of two wavelengths. -/
example (ls : List (List Char)) (h : ls = [] ∨ ls = ["5895.92".toList]) :
    loadText parseFloat stableArgsort id id ("5889.95".toList :: ls) ["Na"] (4000 : ℚ) 7000 .none 0 true none =
      .error (if ls = [] then .typeError else .indexError) :=
  C152_one_column parseFloat stableArgsort id id _ ls (by rcases h with rfl | rfl <;> decide) ["Na"] 4000 7000 .none 0 true none

/-- `C152_two_columns` applied to the two lines of sodium, with a threshold for the element. -/
example : loadText parseFloat stableArgsort id id ["Na,5889.95".toList, "Na,5895.92".toList] ["Na"] (4000 : ℚ) 7000
    (.perElement [10]) 0 true none = .error .indexError :=
  C152_two_columns parseFloat stableArgsort id id [("Na".toList, "5889.95".toList), ("Na".toList, "5895.92".toList)]
    (by decide) (by unfold Spec.Plain; decide +kernel) ["Na"] 4000 7000 _ (by intro vs h; cases h; rfl) 0 true none

/-- C151 as a user of `linelist` reads it: the lines are those written in the file. -/
def C151_Statement : Prop :=
  ∀ (ls : List (List Char)) (fs : List Spec.Fields) (rows : List (Row ℚ)) (elements : List String)
    (lo hi d : ℚ) (mi : MinIntensity ℚ) (b : Option Int),
    Spec.FileSays ls fs → Spec.Means parseFloat fs rows → 2 ≤ fs.length →
    loadText parseFloat stableArgsort id id ls elements lo hi mi d true b =
      loadCalibrationLines stableArgsort id id rows elements lo hi mi d true b

/-- A file as written by `np.savetxt` with its default number format. -/
def exponentFile : List (List Char) :=
  [rowText "Hg" "4.046563000000000e+03" "1.050000000000000e+01",
    rowText "Hg" "5.460735000000000e+03" "2.000000000000000e+01"]

/-- Its rows. -/
def exponentFields : List Spec.Fields :=
  [("Hg".toList, "4.046563000000000e+03".toList, "1.050000000000000e+01".toList),
    ("Hg".toList, "5.460735000000000e+03".toList, "2.000000000000000e+01".toList)]

theorem exponentFile_says : Spec.FileSays exponentFile exponentFields := by
  refine .row _ _ _ ?_ ?_ ?_ (.row _ _ _ ?_ ?_ ?_ .nil) <;> (unfold Spec.Plain; decide)

/-- C151 is false: the exponents are cut off, so the lines are read as 4.05 and 5.46 and lie outside the
limits. -/
theorem C151_refuted : ¬ C151_Statement := by
  intro h
  have := h exponentFile exponentFields [⟨"Hg", 4046563/1000, 105/10⟩, ⟨"Hg", 5460735/1000, 20⟩] ["Hg"]
    4000 6000 0 .none none exponentFile_says
    (by refine .cons ⟨?_, ?_, ?_⟩ (.cons ⟨?_, ?_, ?_⟩ .nil) <;> decide +kernel) (by decide)
  revert this
  decide +kernel

/-- `C151_cut_partial`: the file with exponents gives the same as one where the numbers stop after eleven
digits. -/
example (lo hi : ℚ) : loadText parseFloat stableArgsort id id exponentFile ["Hg"] lo hi .none 0 true none =
    loadText parseFloat stableArgsort id id
      [rowText "Hg" "4.0465630000" "1.0500000000", rowText "Hg" "5.4607350000" "2.0000000000"]
      ["Hg"] lo hi .none 0 true none :=
  C151_cut_partial parseFloat stableArgsort id id _ _ _
    [("Hg".toList, "4.0465630000".toList, "1.0500000000".toList),
      ("Hg".toList, "5.4607350000".toList, "2.0000000000".toList)] exponentFile_says
    (by refine .row _ _ _ ?_ ?_ ?_ (.row _ _ _ ?_ ?_ ?_ .nil) <;> (unfold Spec.Plain; decide))
    (by refine .cons ⟨?_, ?_, ?_⟩ (.cons ⟨?_, ?_, ?_⟩ .nil) <;> decide) ["Hg"] lo hi .none 0 true none

/-- `C151_decimal_partial` applied to a wavelength with twelve decimals: it is read to seven. -/
example : ∃ v v' : ℚ, parseFloat "4046.563219876543".toList = some v ∧
    parseFloat "4046.5632198".toList = some v' ∧ v' ≤ v ∧ v - v' < 1 / 10 ^ 7 :=
  C151_decimal_partial "4046".toList "563219876543".toList (by decide) (by decide) (by decide) (by decide)

end Rascal
