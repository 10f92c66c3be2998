import Verif.Props.HoughLoadProps

/-!
C135: passing a Hough transform from one calibrator to another through a file.
C136: what failed calls of `save_hough_transform` and `load_hough_transform` leave behind.
-/

set_option linter.unusedSectionVars false

namespace Rascal

variable {K : Type _} [Field K] [LinearOrder K] [IsStrictOrderedRing K]

/-- After a successful transform all that is saved is there. -/
theorem doHough_complete (a1 : List K → List Nat) (a2 : List Nat → List Nat) (c : Cal K) (b : Bool)
    (h : (c.doHough a1 a2 b).2 = .ok ()) :
    ∃ p hi xe ye s1 s2 i1 i2, (c.doHough a1 a2 b).1.ht.Complete p hi xe ye s1 s2 i1 i2 ∧
      (c.doHough a1 a2 b).1.houghPoints = some (.array p) ∧
      (c.doHough a1 a2 b).1.houghLines = (c.doHough a1 a2 b).1.ht.lines := by
  obtain ⟨peaks, arr, props, ⟨n, xb, yb, w1, w2, rt, lt, i1, i2, s1, s2⟩, ransac, atlas, ct, cp, pairs, ht, hl, hp,
    known, mp, ma, co, rms, res, pu, au⟩ := c
  cases pairs with
  | none => cases h
  | some store =>
    cases s1 with
    | posInf => cases h
    | negInf => cases h
    | nan => cases h
    | fin x1 =>
      cases s2 with
      | posInf => cases h
      | negInf => cases h
      | nan => cases h
      | fin x2 =>
        cases store with
        | noColumns => cases h
        | array xy =>
          cases b with
          | true =>
            by_cases hxy : xy.length < 2
            · simp only [Cal.doHough, Hough.setConstraints, PyFloat.toFinite, if_true, Hough.generateBrute,
                if_pos hxy] at h
              cases h
            · by_cases hb : xb.toNat = 0 ∨ yb.toNat = 0
              · simp only [Cal.doHough, Hough.setConstraints, PyFloat.toFinite, if_true, Hough.generateBrute,
                  if_neg hxy, Hough.bin, if_pos hb] at h
                cases h
              · simp only [Cal.doHough, Hough.setConstraints, PyFloat.toFinite, if_true, Hough.generateBrute,
                  if_neg hxy, Hough.bin, if_neg hb]
                exact ⟨_, _, _, _, _, _, _, _, ⟨rfl, rfl, rfl, rfl, rfl, rfl, rfl, rfl⟩, rfl, trivial⟩
          | false =>
            by_cases hxy : n.toNat = 0 ∨ xy = []
            · simp only [Cal.doHough, Hough.setConstraints, PyFloat.toFinite, Bool.false_eq_true, if_false,
                Hough.generate, if_pos hxy] at h
              cases h
            · by_cases hb : xb.toNat = 0 ∨ yb.toNat = 0
              · simp only [Cal.doHough, Hough.setConstraints, PyFloat.toFinite, Bool.false_eq_true, if_false,
                  Hough.generate, if_neg hxy, Hough.bin, if_pos hb] at h
                cases h
              · simp only [Cal.doHough, Hough.setConstraints, PyFloat.toFinite, Bool.false_eq_true, if_false,
                  Hough.generate, if_neg hxy, Hough.bin, if_neg hb]
                exact ⟨_, _, _, _, _, _, _, _, ⟨rfl, rfl, rfl, rfl, rfl, rfl, rfl, rfl⟩, rfl, trivial⟩

/-! ### C135 -/

theorem saveHough_disk (c : Cal K) (disk : Disk K) (f fmt delim : List Char) (td : Bool) :
    (c.saveHough disk f fmt delim td).1 = (c.ht.save disk f fmt delim td).1 := by
  unfold Cal.saveHough
  split <;> next h => rw [h]

theorem saveHough_result (c : Cal K) (disk : Disk K) (f fmt delim : List Char) (td : Bool) (r : SaveResult K)
    (h : (c.ht.save disk f fmt delim td).2 = .ok r) : (c.saveHough disk f fmt delim td).2 = .ok .none := by
  unfold Cal.saveHough
  split
  · rfl
  · next h' => rw [h'] at h; cases h

/-- The full property: after a transform, `save_hough_transform` hands it to every other calibrator through a file,
and to the caller if `to_disk` is False. -/
def C135_Statement : Prop :=
  ∀ (E : CalEnv ℚ) (w v : World ℚ) (b : Bool) (disk : Disk ℚ) (f : List Char), ¬ ".npy".toList <:+ f →
    (w.step E (.doHough b)).2 = .ok () →
    let c := (w.step E (.doHough b)).1.cal
    let r := v.step E (.loadHough (c.saveHough disk f "npy".toList "+".toList true).1 f "npy".toList)
    r.2 = .ok () ∧ SameContent c.ht r.1.cal.ht ∧
      (c.saveHough disk f "npy".toList "+".toList false).2 = .ok (.npy c.ht.data)

/-- C135 (partial).  After every successful `do_hough_transform`, whatever the state before it: the transform saved
as npy or json is loaded by every other calibrator in every state, which afterwards holds the same points, histogram,
edges and constraints (from json the points as a plain list) and is otherwise as before; what it saves in turn as npy
is the same again.  Without `to_disk` no file is written.  Missing: without `to_disk` nothing is returned either. -/
theorem C135_shared_partial (E : CalEnv K) (w v : World K) (b : Bool) (disk : Disk K) (f : List Char)
    (h : (w.step E (.doHough b)).2 = .ok ()) :
    let c := (w.step E (.doHough b)).1.cal
    let npy := (c.saveHough disk f "npy".toList "+".toList true).1
    let json := (c.saveHough disk f "json".toList "+".toList true).1
    let u := v.step E (.loadHough npy (f ++ ".npy".toList) "npy".toList)
    let u' := v.step E (.loadHough json (f ++ ".json".toList) "json".toList)
    c.ht.points = c.houghPoints ∧
    (u.2 = .ok () ∧ SameContent c.ht u.1.cal.ht ∧ { u.1.cal with ht := v.cal.ht } = v.cal ∧
      u.1.atlases = v.atlases ∧ (u.1.cal.saveHough disk f "npy".toList "+".toList true).1 = npy) ∧
    (u'.2 = .ok () ∧ SamePairs c.ht u'.1.cal.ht ∧ { u'.1.cal with ht := v.cal.ht } = v.cal ∧
      u'.1.atlases = v.atlases) ∧
    ∀ fmt delim, delim ≠ [] → c.saveHough disk f fmt delim false = (disk, .ok .none) := by
  dsimp only
  obtain ⟨p, hi, xe, ye, s1, s2, i1, i2, hc, hp, _⟩ := doHough_complete E.argsortK E.argsortN w.cal b h
  rw [show ((w.step E (.doHough b)).1.cal) = (w.cal.doHough E.argsortK E.argsortN b).1 from rfl]
  generalize (w.cal.doHough E.argsortK E.argsortN b).1 = c at hc hp
  simp only [saveHough_disk]
  obtain ⟨n1, n2, _⟩ := C32_npy_partial c.ht v.cal.ht hc disk f
  obtain ⟨j1, j2, _⟩ := C32_json_partial c.ht v.cal.ht hc disk f
  refine ⟨by rw [hc.points, hp], ⟨n1, n2, rfl, rfl, ?_⟩, ⟨j1, j2, rfl, rfl⟩, ?_⟩
  · have hd : ∀ x y : Hough K, x.data = y.data →
        (y.save disk f "npy".toList "+".toList true).1 = (x.save disk f "npy".toList "+".toList true).1 := by
      intro x y hxy
      unfold Hough.save
      have hs : pySplit "npy".toList "+".toList = .ok ["npy".toList] := by decide
      rw [hs]
      dsimp only
      rw [show decide ("json".toList ∈ ["npy".toList]) = false from by decide, hxy]
      rfl
    exact hd _ _ n2
  · intro fmt delim hdl
    have hs : ∃ parts, pySplit fmt delim = .ok parts := by
      unfold pySplit
      rw [if_neg hdl]
      exact ⟨_, rfl⟩
    obtain ⟨parts, hs⟩ := hs
    have hsave := (C34_save c.ht hc disk f fmt delim parts hs).2
    unfold Cal.saveHough
    rw [hsave]

/-- The toy calibrator with a transform. -/
def Toy.transformed : World ℚ := (Toy.ready.step Toy.calEnv (.doHough false)).1

theorem Toy.transformed_ok : (Toy.ready.step Toy.calEnv (.doHough false)).2 = .ok () := by
  have h : (Toy.ready.step Toy.calEnv (.doHough false)).2.toOption = some () := by decide +kernel
  cases hr : (Toy.ready.step Toy.calEnv (.doHough false)).2 with
  | error e => rw [hr] at h; cases h
  | ok u => rfl

/-- The hypothesis of `C135_shared_partial` met: from the toy calibrator to one with other settings. -/
example := C135_shared_partial Toy.calEnv Toy.ready (Toy.ready.steps Toy.calEnv [.setHough Toy.farHough]) false
  (fun _ => none) "ht".toList Toy.transformed_ok

/-- C135 (refutation).  `Calibrator.save_hough_transform` drops what `HoughTransform.save` returns. -/
theorem C135_refuted : ¬ C135_Statement := by
  intro h
  have := (h Toy.calEnv Toy.ready Toy.ready false (fun _ => none) "ht".toList (by decide) Toy.transformed_ok).2.2
  have h2 := (C135_shared_partial Toy.calEnv Toy.ready Toy.ready false (fun _ => none) "ht".toList
    Toy.transformed_ok).2.2.2 "npy".toList "+".toList (by decide)
  rw [congrArg Prod.snd h2] at this
  cases this

/-! ### C136 -/

/-- The full property: a failed `load_hough_transform` leaves the calibrator as it was, a failed
`save_hough_transform` leaves the files as they were. -/
def C136_Statement : Prop :=
  ∀ (E : CalEnv ℚ) (w : World ℚ) (disk : Disk ℚ) (f t delim : List Char) (e : PyErr),
    ((w.step E (.loadHough disk f t)).2 = .error e → (w.step E (.loadHough disk f t)).1 = w) ∧
    ((w.cal.saveHough disk f t delim true).2 = .error e → (w.cal.saveHough disk f t delim true).1 = disk)

/-- All that `load` needs is there. -/
def HoughData.Whole (d : HoughData K) : Prop :=
  d.hist ≠ none ∧ d.xedges ≠ none ∧ d.yedges ≠ none ∧ d.minSlope ≠ none ∧ d.maxSlope ≠ none ∧
    d.minIntercept ≠ none ∧ d.maxIntercept ≠ none

/-- Every transform on the disk is whole. -/
def WholeFiles (disk : Disk K) : Prop :=
  ∀ f d, disk f = some (.npy d) ∨ disk f = some (.json d) → d.Whole

theorem assign_whole (h : Hough K) (d : HoughData K) (hd : d.Whole) : (h.assign d).2 = .ok () := by
  obtain ⟨pt, hi, xe, ye, a, b, c, e⟩ := d
  obtain ⟨h1, h2, h3, h4, h5, h6, h7⟩ := hd
  cases hi with
  | none => exact absurd rfl h1
  | some hi =>
    cases xe with
    | none => exact absurd rfl h2
    | some xe =>
      cases ye with
      | none => exact absurd rfl h3
      | some ye =>
        cases a with
        | none => exact absurd rfl h4
        | some a =>
          cases b with
          | none => exact absurd rfl h5
          | some b =>
            cases c with
            | none => exact absurd rfl h6
            | some c =>
              cases e with
              | none => exact absurd rfl h7
              | some e => rfl

/-- The converse: from a transform that is not whole nothing can be loaded. -/
theorem assign_not_whole (h : Hough K) (d : HoughData K) (hd : (h.assign d).2 = .ok ()) : d.Whole := by
  obtain ⟨pt, hi, xe, ye, a, b, c, e⟩ := d
  cases hi with
  | none => cases hd
  | some hi =>
    cases xe with
    | none => cases hd
    | some xe =>
      cases ye with
      | none => cases hd
      | some ye =>
        cases a with
        | none => cases hd
        | some a =>
          cases b with
          | none => cases hd
          | some b =>
            cases c with
            | none => cases hd
            | some c =>
              cases e with
              | none => cases hd
              | some e => exact ⟨nofun, nofun, nofun, nofun, nofun, nofun, nofun⟩

theorem complete_whole {h : Hough K} {p hi xe ye a b c d} (hc : h.Complete p hi xe ye a b c d) : h.data.Whole := by
  unfold Hough.data
  rw [hc.points, hc.hist, hc.xedges, hc.yedges, hc.minSlope, hc.maxSlope, hc.minIntercept, hc.maxIntercept]
  exact ⟨nofun, nofun, nofun, nofun, nofun, nofun, nofun⟩

/-- C136 (partial), loading.  As long as every transform on the disk is whole, a failed `load_hough_transform` leaves
the calibrator as it was.  Missing: files saved before there was a transform. -/
theorem C136_load_partial (E : CalEnv K) (w : World K) (disk : Disk K) (hd : WholeFiles disk) (f t : List Char)
    (e : PyErr) (h : (w.step E (.loadHough disk f t)).2 = .error e) : (w.step E (.loadHough disk f t)).1 = w := by
  have key : ∀ g : Hough K, (g.load disk f t).2 = .error e → (g.load disk f t).1 = g := by
    intro g hg
    unfold Hough.load at hg ⊢
    split
    · next ht =>
      rw [if_pos ht] at hg
      cases hf : disk (withExt f ".npy".toList) with
      | none => rfl
      | some x =>
        rw [hf] at hg
        cases x with
        | npy d => dsimp only at hg; rw [assign_whole g d (hd _ d (.inl hf))] at hg; cases hg
        | json d => rfl
        | other => rfl
    · next ht =>
      rw [if_neg ht] at hg
      split
      · next ht2 =>
        rw [if_pos ht2] at hg
        cases hf : disk (withExt f ".json".toList) with
        | none => rfl
        | some x =>
          rw [hf] at hg
          cases x with
          | npy d => rfl
          | json d => dsimp only at hg; rw [assign_whole g d (hd _ d (.inr hf))] at hg; cases hg
          | other => rfl
      · rfl
  have hk := key w.cal.ht h
  show (⟨w.atlases, { w.cal with ht := (w.cal.ht.load disk f t).1 }⟩ : World K) = w
  rw [hk]

/-- C136 (partial), saving.  After a successful `do_hough_transform`, `save_hough_transform` fails only for an empty
delimiter, before anything is written, and keeps all transforms on the disk whole.  Missing: calls before there is a
transform. -/
theorem C136_save_partial (E : CalEnv K) (w : World K) (b : Bool) (h : (w.step E (.doHough b)).2 = .ok ())
    (disk : Disk K) (f fmt delim : List Char) (td : Bool) :
    let c := (w.step E (.doHough b)).1.cal
    ((c.saveHough disk f fmt delim td).2 = .ok .none ↔ delim ≠ []) ∧
    (delim = [] → c.saveHough disk f fmt delim td = (disk, .error .valueError)) ∧
    (WholeFiles disk → WholeFiles (c.saveHough disk f fmt delim td).1) := by
  dsimp only
  obtain ⟨p, hi, xe, ye, s1, s2, i1, i2, hc, hp, _⟩ := doHough_complete E.argsortK E.argsortN w.cal b h
  rw [show ((w.step E (.doHough b)).1.cal) = (w.cal.doHough E.argsortK E.argsortN b).1 from rfl]
  generalize (w.cal.doHough E.argsortK E.argsortN b).1 = c at hc hp
  have hempty : delim = [] → c.saveHough disk f fmt delim td = (disk, .error .valueError) := by
    rintro rfl
    unfold Cal.saveHough
    rw [(C34_save_frame c.ht disk f fmt [] td).2.2]
  by_cases hdl : delim = []
  · rw [hempty hdl]
    exact ⟨⟨nofun, fun hn => absurd hdl hn⟩, fun _ => rfl, fun hw => hw⟩
  · obtain ⟨parts, hs⟩ : ∃ parts, pySplit fmt delim = .ok parts := by
      unfold pySplit
      rw [if_neg hdl]
      exact ⟨_, rfl⟩
    obtain ⟨⟨disk', h1, h2⟩, h3⟩ := C34_save c.ht hc disk f fmt delim parts hs
    cases td with
    | false =>
      have e : c.saveHough disk f fmt delim false = (disk, .ok .none) := by
        unfold Cal.saveHough
        rw [h3]
      rw [e]
      exact ⟨⟨fun _ => hdl, fun _ => rfl⟩, fun hn => absurd hn hdl, fun hw => hw⟩
    | true =>
      have e : c.saveHough disk f fmt delim true = (disk', .ok .none) := by
        unfold Cal.saveHough
        rw [h1]
      rw [e]
      refine ⟨⟨fun _ => hdl, fun _ => rfl⟩, fun hn => absurd hn hdl, fun hw g d hg => ?_⟩
      dsimp only at hg
      rw [h2] at hg
      have hwd := complete_whole hc
      by_cases c1 : g = f ++ ".npy".toList ∧ "npy".toList ∈ parts
      · rw [if_pos c1] at hg
        rcases hg with hg | hg
        · cases hg; exact hwd
        · cases hg
      · rw [if_neg c1] at hg
        by_cases c2 : g = f ++ ".json".toList ∧ "json".toList ∈ parts
        · rw [if_pos c2] at hg
          rcases hg with hg | hg
          · cases hg
          · cases hg; exact hwd
        · rw [if_neg c2] at hg
          exact hw g d hg

/-- The hypotheses of `C136_save_partial` met by the toy calibrator. -/
example := C136_save_partial Toy.calEnv Toy.ready false Toy.transformed_ok (fun _ => none) "ht".toList
  "npy+json".toList "+".toList true

/-- The hypotheses of `C136_load_partial` met: the only files are those just saved, and another name is asked for. -/
example := C136_load_partial Toy.calEnv Toy.ready
  (Toy.transformed.cal.saveHough (fun _ => none) "ht".toList "npy+json".toList "+".toList true).1
  ((C136_save_partial Toy.calEnv Toy.ready false Toy.transformed_ok (fun _ => none) "ht".toList
    "npy+json".toList "+".toList true).2.2 (fun _ _ h => by rcases h with h | h <;> cases h))
  "hough".toList "npy".toList .fileNotFound (by decide +kernel)

/-- C136 (refutation).  A calibrator without a transform saves `None` in place of the arrays; loading that file
raises, after the points of the calibrator that loads it are gone. -/
theorem C136_refuted : ¬ C136_Statement := by
  intro h
  have h1 := (h Toy.calEnv Toy.transformed
    (Toy.ready.cal.saveHough (fun _ => none) "ht".toList "npy".toList "+".toList true).1 "ht".toList "npy".toList []
    .attributeError).1 (by decide +kernel)
  have h2 := congrArg (fun w => w.cal.ht.points) h1
  revert h2
  decide +kernel

/-- Saving both formats before there is a transform raises as well, after the npy file has been written. -/
theorem C136_save_refuted : ¬ ∀ (c : Cal ℚ) (disk : Disk ℚ) (f t delim : List Char) (e : PyErr),
    (c.saveHough disk f t delim true).2 = .error e → (c.saveHough disk f t delim true).1 = disk := by
  intro h
  have h1 := h Toy.ready.cal (fun _ => none) "ht".toList "npy+json".toList "+".toList .attributeError
    (by decide +kernel)
  have h2 := congrFun h1 "ht.npy".toList
  revert h2
  decide +kernel

end Rascal
