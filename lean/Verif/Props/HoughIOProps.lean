import Verif.Model.HoughIO
import Verif.Proofs.PyLemmas
import Verif.Spec.Str
import Mathlib.Algebra.Field.Rat
import Mathlib.Algebra.Order.Ring.Rat

/-!
Property theorems C32-C35: saving and loading a Hough transform.
-/

set_option linter.unusedSectionVars false

namespace Rascal

variable {K : Type _}

/-- A transform on which points were generated and binned: everything that is saved is present. -/
structure Hough.Complete (h : Hough K) (p : List (K × K)) (hi : List (List Nat)) (xe ye : List K)
    (a b c d : K) : Prop where
  points : h.points = some (.array p)
  hist : h.hist = some hi
  xedges : h.xedges = some xe
  yedges : h.yedges = some ye
  minSlope : h.minSlope = some a
  maxSlope : h.maxSlope = some b
  minIntercept : h.minIntercept = some c
  maxIntercept : h.maxIntercept = some d

/-- The two transforms agree on everything that is saved. -/
def SameContent (h h' : Hough K) : Prop := h.data = h'.data

/-- The two transforms agree on everything that is saved, except that the points may have become a
plain list of the same pairs. -/
def SamePairs (h h' : Hough K) : Prop :=
  { h.data with points := none } = { h'.data with points := none } ∧
    ∃ p, h.points = some (.array p) ∧ (h'.points = some (.array p) ∨ h'.points = some (.pyList p))

/-! ### Splitting -/

theorem pySplitGo_join (c : Char) (parts : List (List Char)) (p cur : List Char)
    (h : ∀ q ∈ p :: parts, c ∉ q) :
    pySplitGo [c] 0 cur (Spec.joinWith [c] (p :: parts)) = (cur ++ p) :: parts := by
  induction parts generalizing p cur with
  | nil =>
    induction p generalizing cur with
    | nil => simp [pySplitGo, Spec.joinWith]
    | cons x p ih =>
      have hx := h (x :: p) (by simp)
      simp only [List.mem_cons, not_or] at hx
      have hb : (c == x) = false := by simpa using hx.1
      rw [show Spec.joinWith [c] [x :: p] = x :: Spec.joinWith [c] [p] from rfl, pySplitGo]
      simp only [List.isPrefixOf, hb, Bool.false_and, Bool.false_eq_true, if_false]
      rw [ih]
      · simp
      · intro q hq
        rw [List.mem_singleton.1 hq]; exact hx.2
  | cons r parts ih =>
    induction p generalizing cur with
    | nil =>
      rw [show Spec.joinWith [c] ([] :: r :: parts) = c :: Spec.joinWith [c] (r :: parts) from rfl,
        pySplitGo]
      simp only [List.isPrefixOf, beq_self_eq_true, Bool.true_and, if_true, List.length_singleton,
        Nat.sub_self]
      rw [ih r [] (fun q hq => h q (by simp [List.mem_cons.1 hq]))]
      simp
    | cons x p ihp =>
      have hx := h (x :: p) (by simp)
      simp only [List.mem_cons, not_or] at hx
      have hb : (c == x) = false := by simpa using hx.1
      rw [show Spec.joinWith [c] ((x :: p) :: r :: parts) =
        x :: Spec.joinWith [c] (p :: r :: parts) from rfl, pySplitGo]
      simp only [List.isPrefixOf, hb, Bool.false_and, Bool.false_eq_true, if_false]
      rw [ihp]
      · simp
      · intro q hq
        rcases List.mem_cons.1 hq with rfl | hq
        · exact hx.2
        · exact h q (List.mem_cons_of_mem _ hq)

/-- Splitting a join gives back the parts. -/
theorem pySplit_join (c : Char) (parts : List (List Char)) (hne : parts ≠ [])
    (h : ∀ q ∈ parts, c ∉ q) : pySplit (Spec.joinWith [c] parts) [c] = .ok parts := by
  cases parts with
  | nil => exact absurd rfl hne
  | cons p parts =>
    unfold pySplit
    rw [if_neg (by simp), pySplitGo_join c parts p [] h]
    rfl

theorem pySplitGo_ne_nil (d : List Char) (skip : Nat) (cur s : List Char) :
    pySplitGo d skip cur s ≠ [] := by
  induction s generalizing skip cur with
  | nil => simp [pySplitGo]
  | cons c t ih =>
    cases skip with
    | zero =>
      rw [pySplitGo]
      split
      · simp
      · exact ih _ _
    | succ k => rw [pySplitGo]; exact ih _ _

/-- Splitting loses nothing (worker): with `skip` characters still to skip. -/
theorem pySplitGo_joinWith (d : List Char) (hd : d ≠ []) (s cur : List Char) (skip : Nat) :
    Spec.joinWith d (pySplitGo d skip cur s) = cur ++ s.drop skip := by
  induction s generalizing cur skip with
  | nil => cases skip <;> simp [pySplitGo, Spec.joinWith]
  | cons c t ih =>
    cases skip with
    | succ k => rw [pySplitGo, ih]; simp
    | zero =>
      rw [pySplitGo]
      split
      · rename_i hp
        obtain ⟨r, hr⟩ := List.isPrefixOf_iff_prefix.1 hp
        obtain ⟨l0, ls, hl⟩ := List.exists_cons_of_ne_nil
          (pySplitGo_ne_nil d (d.length - 1) [] t)
        have ih := ih [] (d.length - 1)
        rw [hl] at ih ⊢
        rw [Spec.joinWith, ih]
        obtain ⟨d0, ds, rfl⟩ := List.exists_cons_of_ne_nil hd
        simp only [List.cons_append, List.cons.injEq] at hr
        obtain ⟨rfl, rfl⟩ := hr
        simp
      · rw [ih]; simp

theorem pySplit_joinWith (s d : List Char) (parts : List (List Char))
    (h : pySplit s d = .ok parts) : Spec.joinWith d parts = s := by
  unfold pySplit at h
  split at h
  · simp at h
  · rename_i hd
    rw [← Except.ok.inj h, pySplitGo_joinWith d hd]; simp

/-! ### C34 -/

/-- The representation in a json document: the points are a plain list. -/
def jsonOf (d : HoughData K) (p : List (K × K)) : HoughData K := { d with points := some (.pyList p) }

theorem jsonData_complete {h : Hough K} {p hi xe ye a b c d} (hc : h.Complete p hi xe ye a b c d) :
    h.jsonData = .ok (jsonOf h.data p) := by
  unfold Hough.jsonData jsonOf Hough.data
  rw [hc.points, hc.hist, hc.xedges, hc.yedges]

/-- C34.  For a complete transform and formats given as the pieces of the format string, `save` to
disk writes `filename.npy` iff "npy" is requested, `filename.json` iff "json" is requested, changes
no other file, and returns nothing; without `to_disk` it writes nothing and returns the requested
representations. -/
theorem C34_save (h : Hough K) {p hi xe ye a b c d} (hc : h.Complete p hi xe ye a b c d)
    (disk : Disk K) (filename fmt delim : List Char) (parts : List (List Char))
    (hs : pySplit fmt delim = .ok parts) :
    (∃ disk', h.save disk filename fmt delim true = (disk', .ok .none) ∧
      ∀ f, disk' f =
        if f = filename ++ ".npy".toList ∧ "npy".toList ∈ parts then some (.npy h.data)
        else if f = filename ++ ".json".toList ∧ "json".toList ∈ parts then
          some (.json (jsonOf h.data p))
        else disk f) ∧
    h.save disk filename fmt delim false =
      (disk, .ok (if "npy".toList ∈ parts then
          if "json".toList ∈ parts then .both h.data (jsonOf h.data p) else .npy h.data
        else if "json".toList ∈ parts then .json (jsonOf h.data p) else .none)) := by
  have hne : filename ++ ".npy".toList ≠ filename ++ ".json".toList := by
    intro he
    have := List.append_cancel_left he
    exact absurd this (by decide)
  unfold Hough.save
  rw [hs]
  simp only [jsonData_complete hc]
  generalize "npy".toList = N at *
  generalize "json".toList = J at *
  generalize filename ++ ".npy".toList = fN at *
  generalize filename ++ ".json".toList = fJ at *
  constructor
  · by_cases hn : N ∈ parts <;> by_cases hj : J ∈ parts
    · refine ⟨(disk.write fN (.npy h.data)).write fJ (.json (jsonOf h.data p)),
        by simp [hn, hj], ?_⟩
      intro f
      by_cases h1 : f = fN
      · subst h1; simp [hn, Disk.write, hne]
      · simp [h1, hj, Disk.write]
    · refine ⟨disk.write fN (.npy h.data), by simp [hn, hj], ?_⟩
      intro f
      simp [hn, hj, Disk.write]
    · refine ⟨disk.write fJ (.json (jsonOf h.data p)), by simp [hn, hj], ?_⟩
      intro f
      simp [hn, hj, Disk.write]
    · refine ⟨disk, by simp [hn, hj], ?_⟩
      intro f
      simp [hn, hj]
  · by_cases hn : N ∈ parts <;> by_cases hj : J ∈ parts <;>
      simp [hn, hj]

/-- C34, with the formats as the user writes them: a list of names joined by a delimiter character
which occurs in none of them. -/
theorem C34_save_joined (h : Hough K) {p hi xe ye a b c d} (hc : h.Complete p hi xe ye a b c d)
    (disk : Disk K) (filename : List Char) (delim : Char) (names : List (List Char))
    (hne : names ≠ []) (hd : ∀ q ∈ names, delim ∉ q) :
    ∃ disk', h.save disk filename (Spec.joinWith [delim] names) [delim] true = (disk', .ok .none) ∧
      ∀ f, disk' f =
        if f = filename ++ ".npy".toList ∧ "npy".toList ∈ names then some (.npy h.data)
        else if f = filename ++ ".json".toList ∧ "json".toList ∈ names then
          some (.json (jsonOf h.data p))
        else disk f :=
  (C34_save h hc disk filename _ _ names (pySplit_join delim names hne hd)).1

/-- C34, any state: no file other than `filename.npy` and `filename.json` is ever touched, nothing
at all without `to_disk`, and an empty delimiter raises before anything is written. -/
theorem C34_save_frame (h : Hough K) (disk : Disk K) (filename fmt delim : List Char) (td : Bool) :
    (∀ f, f ≠ filename ++ ".npy".toList → f ≠ filename ++ ".json".toList →
      (h.save disk filename fmt delim td).1 f = disk f) ∧
    (h.save disk filename fmt delim false).1 = disk ∧
    h.save disk filename fmt [] td = (disk, .error .valueError) := by
  refine ⟨?_, ?_, rfl⟩
  · intro f h1 h2
    unfold Hough.save
    split
    · rfl
    · dsimp only
      have e1 : ∀ b : Bool, (if b then disk.write (filename ++ ".npy".toList) (.npy h.data)
          else disk) f = disk f := by
        intro b; cases b <;> simp only [Bool.false_eq_true, if_false, if_true, Disk.write, if_neg h1]
      split
      · split
        · exact e1 _
        · cases td
          · exact e1 _
          · simp only [if_true]
            unfold Disk.write
            rw [if_neg h2]
            exact e1 _
      · exact e1 _
  · unfold Hough.save
    split
    · rfl
    · simp only [Bool.and_false, Bool.false_eq_true, if_false]
      split
      · split <;> rfl
      · rfl

/-! ### C32 -/

theorem assign_complete (h g : Hough K) {p hi xe ye a b c d} (q : PointStore K)
    (hc : h.Complete p hi xe ye a b c d) :
    g.assign { h.data with points := some q } =
      ({ g with points := some q, hist := some hi, xedges := some xe, yedges := some ye,
                minSlope := some a, maxSlope := some b, minIntercept := some c,
                maxIntercept := some d }, .ok ()) := by
  unfold Hough.assign Hough.data
  simp only [hc.hist, hc.xedges, hc.yedges, hc.minSlope, hc.maxSlope, hc.minIntercept,
    hc.maxIntercept]

/-- The documented behaviour: what is saved under a name in a format is restored by loading that
name and format, into any object. -/
def C32_Statement : Prop :=
  ∀ (h g : Hough Int) (p : List (Int × Int)) (hi : List (List Nat)) (xe ye : List Int)
    (a b c d : Int), h.Complete p hi xe ye a b c d →
    ∀ (disk : Disk Int) (filename fmt : List Char), fmt = "npy".toList ∨ fmt = "json".toList →
      (g.load (h.save disk filename fmt "+".toList true).1 filename fmt).2 = .ok () ∧
      SamePairs h (g.load (h.save disk filename fmt "+".toList true).1 filename fmt).1

/-- A complete transform used as a witness. -/
def houghWitness : Hough Int :=
  ⟨some (.array [(1, 2)]), some [(1, 2)], some [[1]], some [0, 1], some [1, 2], some 0, some 3,
    some 1, some 5⟩

theorem houghWitness_complete :
    houghWitness.Complete [(1, 2)] [[1]] [0, 1] [1, 2] 0 3 1 5 :=
  ⟨rfl, rfl, rfl, rfl, rfl, rfl, rfl, rfl⟩

/-- The hypotheses of `C34_save` met by a complete transform and the default arguments. -/
example := C34_save houghWitness houghWitness_complete (fun _ => none) "foo".toList "npy+json".toList "+".toList
  ["npy".toList, "json".toList] (by decide)

/-- The hypotheses of `C34_save_joined` met by three names, one of them unknown. -/
example := C34_save_joined houghWitness houghWitness_complete (fun _ => none) "foo".toList '+'
  ["npy".toList, "xyz".toList, "json".toList] (by decide) (by decide)

/-- `C34_save_frame`: another file stays as it was. -/
example : (houghWitness.save (fun f => if f = "bar".toList then some (.npy houghWitness.data) else none) "foo".toList
    "npy+json".toList "+".toList true).1 "bar".toList = some (.npy houghWitness.data) := by decide

/-- C32 is false: a filename that already carries the extension is saved as `foo.npy.npy` but
looked up as `foo.npy`. -/
theorem C32_refuted : ¬ C32_Statement := by
  intro h
  have := (h houghWitness Hough.init _ _ _ _ _ _ _ _ houghWitness_complete (fun _ => none)
    "foo.npy".toList "npy".toList (Or.inl rfl)).1
  revert this
  decide

theorem withExt_self (f ext : List Char) : withExt (f ++ ext) ext = f ++ ext := by
  unfold withExt
  simp

/-- C32, npy: restores exactly what was saved, into any object, whenever the filename does not
already end in the extension — and always when the extension is written out in `load`.  What is
missing for the full statement: filenames ending in ".npy" given to both calls. -/
theorem C32_npy_partial (h g : Hough K) {p hi xe ye a b c d} (hc : h.Complete p hi xe ye a b c d)
    (disk : Disk K) (filename : List Char) :
    (g.load (h.save disk filename "npy".toList "+".toList true).1 (filename ++ ".npy".toList)
      "npy".toList).2 = .ok () ∧
    SameContent h (g.load (h.save disk filename "npy".toList "+".toList true).1
      (filename ++ ".npy".toList) "npy".toList).1 ∧
    (¬ ".npy".toList <:+ filename →
      (g.load (h.save disk filename "npy".toList "+".toList true).1 filename "npy".toList).2
        = .ok () ∧
      SameContent h (g.load (h.save disk filename "npy".toList "+".toList true).1
        filename "npy".toList).1) := by
  have hsp : pySplit "npy".toList "+".toList = .ok ["npy".toList] := by decide
  obtain ⟨disk', h1, h2⟩ := (C34_save h hc disk filename _ _ _ hsp).1
  have hf : disk' (filename ++ ".npy".toList) = some (.npy h.data) := by
    rw [h2]; rw [if_pos]; simp
  have hd : h.data = { h.data with points := some (.array p) } := by
    unfold Hough.data; rw [hc.points]
  have key : ∀ name, withExt name ".npy".toList = filename ++ ".npy".toList →
      (g.load disk' name "npy".toList).2 = .ok () ∧
        SameContent h (g.load disk' name "npy".toList).1 := by
    intro name hn
    unfold Hough.load
    rw [if_pos rfl, hn, hf]
    dsimp only
    rw [hd, assign_complete h g _ hc]
    refine ⟨rfl, ?_⟩
    unfold SameContent Hough.data
    rw [hc.points, hc.hist, hc.xedges, hc.yedges, hc.minSlope, hc.maxSlope, hc.minIntercept,
      hc.maxIntercept]
  rw [h1]
  refine ⟨(key _ (withExt_self _ _)).1, (key _ (withExt_self _ _)).2, ?_⟩
  intro hnot
  have : withExt filename ".npy".toList = filename ++ ".npy".toList := by
    unfold withExt
    rw [if_neg]
    intro he
    exact hnot (he ▸ List.drop_suffix _ _)
  exact key _ this

/-- The hypotheses of `C32_npy_partial` met by a complete transform loaded into a new one. -/
example := C32_npy_partial houghWitness Hough.init houghWitness_complete (fun _ => none) "foo".toList

/-- C32, json: the same, except that the points come back as a plain list of the same pairs. -/
theorem C32_json_partial (h g : Hough K) {p hi xe ye a b c d} (hc : h.Complete p hi xe ye a b c d)
    (disk : Disk K) (filename : List Char) :
    (g.load (h.save disk filename "json".toList "+".toList true).1 (filename ++ ".json".toList)
      "json".toList).2 = .ok () ∧
    SamePairs h (g.load (h.save disk filename "json".toList "+".toList true).1
      (filename ++ ".json".toList) "json".toList).1 ∧
    (¬ ".json".toList <:+ filename →
      (g.load (h.save disk filename "json".toList "+".toList true).1 filename "json".toList).2
        = .ok () ∧
      SamePairs h (g.load (h.save disk filename "json".toList "+".toList true).1
        filename "json".toList).1) := by
  have hsp : pySplit "json".toList "+".toList = .ok ["json".toList] := by decide
  obtain ⟨disk', h1, h2⟩ := (C34_save h hc disk filename _ _ _ hsp).1
  have hne : filename ++ ".json".toList ≠ filename ++ ".npy".toList := by
    intro he
    exact absurd (List.append_cancel_left he) (by decide)
  have hf : disk' (filename ++ ".json".toList) = some (.json (jsonOf h.data p)) := by
    rw [h2, if_neg (fun hh => hne hh.1), if_pos]; simp
  have key : ∀ name, withExt name ".json".toList = filename ++ ".json".toList →
      (g.load disk' name "json".toList).2 = .ok () ∧
        SamePairs h (g.load disk' name "json".toList).1 := by
    intro name hn
    unfold Hough.load
    rw [if_neg (by decide), if_pos rfl, hn, hf]
    dsimp only
    unfold jsonOf
    rw [assign_complete h g _ hc]
    refine ⟨rfl, ?_, p, hc.points, Or.inr rfl⟩
    unfold Hough.data
    rw [hc.hist, hc.xedges, hc.yedges, hc.minSlope, hc.maxSlope, hc.minIntercept,
      hc.maxIntercept]
  rw [h1]
  refine ⟨(key _ (withExt_self _ _)).1, (key _ (withExt_self _ _)).2, ?_⟩
  intro hnot
  have : withExt filename ".json".toList = filename ++ ".json".toList := by
    unfold withExt
    rw [if_neg]
    intro he
    exact hnot (he ▸ List.drop_suffix _ _)
  exact key _ this

example : (Hough.init.load (houghWitness.save (fun _ => none) "foo".toList "npy+json".toList
    "+".toList true).1 "foo".toList "npy".toList).1.points = some (.array [(1, 2)]) := by decide

/-! ### C33 -/

section Usable
variable [Field K] [LinearOrder K]

/-- The documented behaviour: a transform loaded in either format can be binned, with the result
the saved one would give. -/
def C33_Statement : Prop :=
  ∀ (h g : Hough ℚ) (p : List (ℚ × ℚ)) (hi : List (List Nat)) (xe ye : List ℚ)
    (a b c d : ℚ), h.Complete p hi xe ye a b c d →
    ∀ (disk : Disk ℚ) (argsort : List Nat → List Nat), IsArgsort argsort → ∀ (xb yb : Nat),
    ∀ fmt : List Char, fmt = "npy".toList ∨ fmt = "json".toList →
      let g' := (g.load (h.save disk "foo".toList fmt "+".toList true).1 "foo".toList fmt).1
      (g'.bin argsort xb yb).2 = (h.bin argsort xb yb).2 ∧
      (g'.bin argsort xb yb).1.lines = (h.bin argsort xb yb).1.lines

/-- C33 is false: after loading json the points are a plain list and binning raises TypeError. -/
theorem C33_refuted : ¬ C33_Statement := by
  intro h
  have := (h ⟨some (.array [(1, 2)]), some [(1, 2)], some [[1]], some [0, 1], some [1, 2], some 0,
    some 3, some 1, some 5⟩ Hough.init [(1, 2)] [[1]] [0, 1] [1, 2] 0 3 1 5
    ⟨rfl, rfl, rfl, rfl, rfl, rfl, rfl, rfl⟩ (fun _ => none) stableArgsort stableArgsort_isArgsort
    1 1 "json".toList (Or.inr rfl)).1
  revert this
  decide +kernel

theorem bin_congr (argsort : List Nat → List Nat) (h g : Hough K) (hp : h.points = g.points)
    (xb yb : Nat) :
    (g.bin argsort xb yb).2 = (h.bin argsort xb yb).2 ∧
      ((h.bin argsort xb yb).2 = .ok () →
        (g.bin argsort xb yb).1.lines = (h.bin argsort xb yb).1.lines ∧
        (g.bin argsort xb yb).1.hist = (h.bin argsort xb yb).1.hist ∧
        (g.bin argsort xb yb).1.xedges = (h.bin argsort xb yb).1.xedges ∧
        (g.bin argsort xb yb).1.yedges = (h.bin argsort xb yb).1.yedges) := by
  unfold Hough.bin
  rw [hp]
  split
  · simp
  · simp
  · simp
  · split
    · simp
    · simp

/-- C33, npy: a transform loaded from npy bins, and is extended, exactly like the saved one; but the
ranked lines are not restored until it is binned again.  What is missing for the full statement:
json. -/
theorem C33_npy_partial (h g : Hough K) {p hi xe ye a b c d} (hc : h.Complete p hi xe ye a b c d)
    (disk : Disk K) (filename : List Char) (hf : ¬ ".npy".toList <:+ filename)
    (argsort : List Nat → List Nat) (xb yb : Nat) (arg : HoughArg K) :
    let g' := (g.load (h.save disk filename "npy".toList "+".toList true).1 filename
      "npy".toList).1
    (g'.bin argsort xb yb).2 = (h.bin argsort xb yb).2 ∧
      ((h.bin argsort xb yb).2 = .ok () →
        (g'.bin argsort xb yb).1.lines = (h.bin argsort xb yb).1.lines) ∧
      (g'.add arg).2 = (h.add arg).2 ∧ (g'.add arg).1.points = (h.add arg).1.points ∧
      g'.lines = g.lines := by
  intro g'
  obtain ⟨_, _, h3⟩ := C32_npy_partial h g hc disk filename
  obtain ⟨h4, h5⟩ := h3 hf
  have hp : h.points = g'.points := congrArg HoughData.points h5
  have hb := bin_congr argsort h g' hp xb yb
  refine ⟨hb.1, fun hok => (hb.2 hok).1, ?_, ?_, ?_⟩
  · unfold Hough.add
    rw [hp]
    cases arg <;> dsimp only <;> split <;> rfl
  · unfold Hough.add
    rw [hp]
    cases arg <;> dsimp only
    · split
      · rfl
      · exact hp.symm
    · split
      · rfl
      · exact hp.symm
    · split
      · rfl
      · exact hp.symm
    · exact hp.symm
    · exact hp.symm
  · show (g.load _ _ _).1.lines = g.lines
    have hl : ∀ d : HoughData K, (g.assign d).1.lines = g.lines := by
      intro d
      rcases d with ⟨_, _ | _, _ | _, _ | _, _ | _, _ | _, _ | _, _ | _⟩ <;> rfl
    unfold Hough.load
    rw [if_pos rfl]
    split
    · rfl
    · exact hl _
    · rfl

/-- The hypotheses of `C33_npy_partial` met. -/
example := C33_npy_partial (K := ℚ) ⟨some (.array [(1, 2)]), none, some [[1]], some [0, 1], some [1, 2],
    some 0, some 3, some 1, some 5⟩ Hough.init (p := [(1, 2)]) ⟨rfl, rfl, rfl, rfl, rfl, rfl, rfl, rfl⟩
  (fun _ => none) "foo".toList (by decide) stableArgsort 2 2 (.row (3, 4))

/-- C33, json: extending still works, with the same result, when there is at least one point.  What
is missing for the full statement: binning, and empty point sets. -/
theorem C33_json_add_partial (h g : Hough K) {p hi xe ye a b c d}
    (hc : h.Complete p hi xe ye a b c d) (hp : p ≠ [])
    (disk : Disk K) (filename : List Char) (hf : ¬ ".json".toList <:+ filename)
    (q : List (K × K)) :
    let g' := (g.load (h.save disk filename "json".toList "+".toList true).1 filename
      "json".toList).1
    (g'.add (.array q)).2 = .ok () ∧
      (g'.add (.array q)).1.points = (h.add (.array q)).1.points := by
  intro g'
  obtain ⟨_, _, h3⟩ := C32_json_partial h g hc disk filename
  obtain ⟨_, _, p', hp', hg⟩ := h3 hf
  have : p' = p := by
    have := hp'.symm.trans hc.points
    simpa using this
  subst this
  change g'.points = _ ∨ g'.points = _ at hg
  unfold Hough.add
  rw [hc.points]
  rcases hg with hg | hg <;> rw [hg] <;> simp [vstackPoints, hp]

/-- The hypotheses of `C33_json_add_partial` met. -/
example := C33_json_add_partial (K := ℚ) ⟨some (.array [(1, 2)]), none, some [[1]], some [0, 1], some [1, 2],
    some 0, some 3, some 1, some 5⟩ Hough.init (p := [(1, 2)]) ⟨rfl, rfl, rfl, rfl, rfl, rfl, rfl, rfl⟩ (by decide)
  (fun _ => none) "foo".toList (by decide) [(3, 4)]

end Usable

/-! ### C35 -/

/-- C35.  An unknown file type raises ValueError, a missing file raises, and in both cases the
object is unchanged. -/
theorem C35_load_errors (h : Hough K) (disk : Disk K) (filename filetype : List Char) :
    (filetype ≠ "npy".toList → filetype ≠ "json".toList →
      h.load disk filename filetype = (h, .error .valueError)) ∧
    ((∀ f, disk f = none ∨ ¬ filename <+: f) →
      ∃ e, h.load disk filename filetype = (h, .error e)) := by
  constructor
  · intro h1 h2
    unfold Hough.load
    rw [if_neg h1, if_neg h2]
  · intro hd
    have hw : ∀ ext, disk (withExt filename ext) = none := by
      intro ext
      rcases hd (withExt filename ext) with h | h
      · exact h
      · exfalso
        apply h
        unfold withExt
        split
        · exact List.prefix_refl _
        · exact List.prefix_append _ _
    unfold Hough.load
    rw [hw, hw]
    split
    · exact ⟨_, rfl⟩
    · split
      · exact ⟨_, rfl⟩
      · exact ⟨_, rfl⟩

/-- The hypotheses inside `C35_load_errors` met: an unknown type, and an empty disk. -/
example := (C35_load_errors houghWitness (fun _ => none) "foo".toList "txt".toList).1 (by decide) (by decide)
example := (C35_load_errors houghWitness (fun _ => none) "foo".toList "npy".toList).2 (fun _ => .inl rfl)

/-- C35, the file looked up: the name itself when it ends in the extension of the type, the name
with the extension appended otherwise; `load` depends on no other file. -/
theorem C35_only_reads (h : Hough K) (disk disk' : Disk K) (filename filetype : List Char)
    (hd : ∀ f, (f = filename ∨ f = filename ++ '.' :: filetype) → disk f = disk' f) :
    h.load disk filename filetype = h.load disk' filename filetype := by
  unfold Hough.load
  split
  · rename_i ht
    subst ht
    have : disk (withExt filename ".npy".toList) = disk' (withExt filename ".npy".toList) := by
      apply hd
      unfold withExt
      split
      · exact Or.inl rfl
      · exact Or.inr rfl
    rw [this]
  · split
    · rename_i ht
      subst ht
      have : disk (withExt filename ".json".toList) = disk' (withExt filename ".json".toList) := by
        apply hd
        unfold withExt
        split
        · exact Or.inl rfl
        · exact Or.inr rfl
      rw [this]
    · rfl

example : (houghWitness.load (fun _ => none) "foo".toList "npy".toList) =
    (houghWitness, .error .fileNotFound) := by decide

end Rascal
