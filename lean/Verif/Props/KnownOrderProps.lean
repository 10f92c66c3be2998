import Verif.Model.Fit
import Verif.Props.TopCandProps

/-!
Property theorem C162: the order in which the known pairs are given does not matter.
-/

set_option linter.unusedSectionVars false

namespace Rascal

variable {K : Type _} [Field K] [LinearOrder K]

/-- The fitting routine of a basis treats its data as a set of points: reordering the points at the end of the data
(pairs of numbers, not single coordinates) changes nothing. -/
def Spec.OrderFree (k : Kernels K) : Prop :=
  ∀ (xs ys p v p' v' : List (PyFloat K)) (n : Nat), p.length = v.length → p'.length = v'.length →
    (p.zip v).Perm (p'.zip v') → k.polyfit (xs ++ p) (ys ++ v) n = k.polyfit (xs ++ p') (ys ++ v') n

/-- A calibrator with other known pairs. -/
def Cal.withKnown (c : Cal K) (p v : List (PyFloat K)) : Cal K := { c with known := some (p, v) }

section
variable {p v p' v' : List (PyFloat K)}

theorem attempt_known [FloorRing K] (k : Kernels K) (hk : Spec.OrderFree k) (hp : p.length = v.length)
    (hp' : p'.length = v'.length) (hperm : (p.zip v).Perm (p'.zip v')) (c : RansacCfg K) (d : Draw)
    (t : Trial) (s : Best K) :
    RansacCfg.attempt k { c with known := some (p, v) } d t s =
      RansacCfg.attempt k { c with known := some (p', v') } d t s := by
  have hev : ∀ xs ys : List K,
      RansacCfg.evaluate k { c with known := some (p, v) } (addKnown (some (p, v)) xs ys) s =
        RansacCfg.evaluate k { c with known := some (p', v') } (addKnown (some (p', v')) xs ys) s := by
    intro xs ys
    unfold RansacCfg.evaluate addKnown
    dsimp only
    rw [hk _ _ p v p' v' _ hp hp' hperm]
    rfl
  unfold RansacCfg.attempt RansacCfg.sample
  cases t with
  | brute idx =>
    dsimp only
    by_cases h : c.oneDim = true
    · rw [if_pos h, if_pos h]
      exact hev _ _
    · rw [if_neg h, if_neg h]
      rfl
  | random =>
    dsimp only
    cases sampleProb (npUnique c.x) with
    | error e => rfl
    | ok _ =>
      dsimp only
      cases pickWaves (candTable c.x c.y) (pickDistinct (npUnique c.x) c.sampleSize d.peaks) [] d.waves with
      | error e => rfl
      | ok o =>
        cases o with
        | none => rfl
        | some ys => exact hev _ _

theorem run_known [FloorRing K] (k : Kernels K) (hk : Spec.OrderFree k) (hp : p.length = v.length)
    (hp' : p'.length = v'.length) (hperm : (p.zip v).Perm (p'.zip v')) (c : RansacCfg K) (ds : List Draw) :
    ∀ (ts : List Trial) (s : Best K),
      RansacCfg.run k { c with known := some (p, v) } ds ts s =
        RansacCfg.run k { c with known := some (p', v') } ds ts s := by
  induction ds with
  | nil => intro ts s; cases ts <;> rfl
  | cons d ds ih =>
    intro ts s
    cases ts with
    | nil => rfl
    | cons t ts =>
      unfold RansacCfg.run
      rw [attempt_known k hk hp hp' hperm c d t s]
      cases RansacCfg.attempt k { c with known := some (p', v') } d t s with
      | retry => exact ih _ _
      | next s' => exact ih _ _
      | raised e s' => rfl

theorem ensureHough_known (F : FitEnv K) (c : Cal K) :
    Cal.ensureHough F (c.withKnown p v) = ((c.ensureHough F).1.withKnown p v, (c.ensureHough F).2) := by
  obtain ⟨peaks, arr, props, hough, ransac, atlas, ct, cp, pairs, ht, hl, hpt, known, mp, ma, co, rms, res, pu, au⟩ := c
  unfold Cal.ensureHough Cal.withKnown
  dsimp only
  by_cases hn : (hl.isNone || hpt.isNone) = true
  · rw [if_pos hn, if_pos hn]
    unfold Cal.doHough
    dsimp only
    cases pairs with
    | none => rfl
    | some st =>
      dsimp only
      generalize Hough.setConstraints _ _ _ _ _ = r1
      cases r1.2 with
      | error e => rfl
      | ok u =>
        cases st with
        | noColumns => rfl
        | array xy =>
          dsimp only
          generalize (if false = true then r1.1.generateBrute F.argsortK xy else r1.1.generate xy hough.numSlopes.toNat) = r2
          cases r2.2 with
          | error e => rfl
          | ok u =>
            dsimp only
            generalize Hough.bin F.argsortN r2.1 _ _ = r3
            cases r3.2 with
            | error e => rfl
            | ok u => rfl
  · rw [if_neg hn, if_neg hn]

theorem solveLists_known [FloorRing K] (F : FitEnv K) (k : Kernels K) (hk : Spec.OrderFree k)
    (hp : p.length = v.length) (hp' : p'.length = v'.length) (hperm : (p.zip v).Perm (p'.zip v'))
    (c : Cal K) (a : FitArgs K) (deg : Nat) (rnd : FitRandom K) (x y : List K) :
    ((c.withKnown p' v').solveLists F k a deg rnd x y) =
      (((c.withKnown p v).solveLists F k a deg rnd x y).1.withKnown p' v',
        ((c.withKnown p v).solveLists F k a deg rnd x y).2) := by
  unfold Cal.solveLists
  dsimp only
  have hd : ∀ n : Int, ∀ q u : List (PyFloat K), Cal.density { c.withKnown q u with ransac := { c.ransac with sampleSize := n } } k =
      Cal.density { c with ransac := { c.ransac with sampleSize := n } } k := fun _ _ _ => rfl
  rw [show (c.withKnown p v).ransac = c.ransac from rfl, show (c.withKnown p' v').ransac = c.ransac from rfl,
    hd, hd]
  generalize makeTrials a.brute c.ransac.sampleSize.toNat x.length (npUnique x).length a.maxTries = t
  cases Cal.density { c with ransac := { c.ransac with sampleSize := t.2 } } k with
  | error e => rfl
  | ok d =>
    dsimp only
    cases startCost k x y a.fitCoeff with
    | error e => rfl
    | ok ce =>
      dsimp only
      have hrun := run_known k hk hp hp' hperm
        (Cal.ransacCfg { c with ransac := { c.ransac with sampleSize := t.2 } } deg t.2 x y d F.oneDim)
        rnd.tape t.1 ⟨ce.1, ce.2, none, none, 0, c.matchedPeaks, c.matchedAtlas⟩
      have e1 : ∀ q u : List (PyFloat K),
          Cal.ransacCfg { c.withKnown q u with ransac := { c.ransac with sampleSize := t.2 } } deg t.2 x y d F.oneDim =
          { Cal.ransacCfg { c with ransac := { c.ransac with sampleSize := t.2 } } deg t.2 x y d F.oneDim with
            known := some (q, u) } := fun _ _ => rfl
      have e2 : ∀ q u : List (PyFloat K), (c.withKnown q u).matchedPeaks = c.matchedPeaks ∧
        (c.withKnown q u).matchedAtlas = c.matchedAtlas := fun _ _ => ⟨rfl, rfl⟩
      rw [e1, e1, (e2 p v).1, (e2 p v).2, (e2 p' v').1, (e2 p' v').2, hrun]
      cases RansacCfg.run k _ rnd.tape t.1 _ <;> rfl

theorem solve_known [FloorRing K] (F : FitEnv K) (k : Kernels K) (hk : Spec.OrderFree k)
    (hp : p.length = v.length) (hp' : p'.length = v'.length) (hperm : (p.zip v).Perm (p'.zip v'))
    (c : Cal K) (lines : List K) (a : FitArgs K) (deg : Nat) (rnd : FitRandom K) :
    ((c.withKnown p' v').solve F k lines a deg rnd) =
      (((c.withKnown p v).solve F k lines a deg rnd).1.withKnown p' v',
        ((c.withKnown p v).solve F k lines a deg rnd).2) := by
  unfold Cal.solve
  have hc : ∀ q u : List (PyFloat K), (c.withKnown q u).candidates F k lines a.candTol rnd.uniform =
      c.candidates F k lines a.candTol rnd.uniform := fun _ _ => rfl
  rw [hc, hc]
  cases c.candidates F k lines a.candTol rnd.uniform with
  | error e => rfl
  | ok cands =>
    dsimp only
    have hl : ∀ q u : List (PyFloat K), (c.withKnown q u).candidateLists F cands = c.candidateLists F cands :=
      fun _ _ => rfl
    rw [hl, hl]
    by_cases h : (npUnique (c.candidateLists F cands).1).length ≤ deg
    · rw [if_pos h, if_pos h]
      rfl
    · rw [if_neg h, if_neg h]
      exact solveLists_known F k hk hp hp' hperm c a deg rnd _ _

theorem fitSearch_known [FloorRing K] (F : FitEnv K) (a : FitArgs K) (hk : Spec.OrderFree (F.kern a.fitType))
    (hp : p.length = v.length) (hp' : p'.length = v'.length) (hperm : (p.zip v).Perm (p'.zip v'))
    (c : Cal K) (lines : List K) (rnd : FitRandom K) :
    ((c.withKnown p' v').fitSearch F lines a rnd) =
      (((c.withKnown p v).fitSearch F lines a rnd).1.withKnown p' v',
        ((c.withKnown p v).fitSearch F lines a rnd).2) := by
  unfold Cal.fitSearch
  dsimp only
  have h := solve_known F (F.kern a.fitType) hk hp hp' hperm
    { c with ransac := { c.ransac with
      minMatches := adjustMinMatches c.ransac.minMatches lines.length c.peaks.length } } lines a a.degree rnd
  have e : ∀ q u : List (PyFloat K), Cal.withKnown { c with ransac := { c.ransac with
      minMatches := adjustMinMatches c.ransac.minMatches lines.length c.peaks.length } } q u =
      { c.withKnown q u with ransac := { (c.withKnown q u).ransac with
        minMatches := adjustMinMatches (c.withKnown q u).ransac.minMatches lines.length
          (c.withKnown q u).peaks.length } } := fun _ _ => rfl
  rw [e, e] at h
  rw [h]
  generalize Cal.solve F (F.kern a.fitType) _ lines a a.degree rnd = r
  dsimp only
  cases r.2 with
  | running => rfl
  | done o =>
    cases o with
    | error e => rfl
    | ok out =>
      dsimp only
      unfold Cal.finishFit
      have e3 : (r.1.withKnown p' v').peaks = r.1.peaks := rfl
      rw [e3]
      cases (utilisation out.inliers r.1.peaks.length : PyRes (PyFloat K)) with
      | error e => rfl
      | ok _ =>
        cases (utilisation out.inliers lines.length : PyRes (PyFloat K)) with
        | error e => rfl
        | ok _ =>
          cases out.coeffs with
          | none => rfl
          | some co => rfl

theorem fitWith_known [FloorRing K] (F : FitEnv K) (a : FitArgs K) (hk : Spec.OrderFree (F.kern a.fitType))
    (hp : p.length = v.length) (hp' : p'.length = v'.length) (hperm : (p.zip v).Perm (p'.zip v'))
    (c : Cal K) (lines : List K) (rnd : FitRandom K) :
    ((c.withKnown p' v').fitWith F lines a rnd) =
      (((c.withKnown p v).fitWith F lines a rnd).1.withKnown p' v',
        ((c.withKnown p v).fitWith F lines a rnd).2) := by
  unfold Cal.fitWith
  dsimp only
  have e : ∀ q u : List (PyFloat K), Cal.ensureHough F { c.withKnown q u with ransac := { (c.withKnown q u).ransac with
      sampleSize := adjustSampleSize (c.withKnown q u).ransac.sampleSize lines.length a.fitDeg } } =
      ((Cal.ensureHough F { c with ransac := { c.ransac with
        sampleSize := adjustSampleSize c.ransac.sampleSize lines.length a.fitDeg } }).1.withKnown q u,
       (Cal.ensureHough F { c with ransac := { c.ransac with
        sampleSize := adjustSampleSize c.ransac.sampleSize lines.length a.fitDeg } }).2) :=
    fun q u => ensureHough_known F { c with ransac := { c.ransac with
        sampleSize := adjustSampleSize c.ransac.sampleSize lines.length a.fitDeg } }
  rw [e, e]
  generalize Cal.ensureHough F _ = h
  dsimp only
  cases h.2 with
  | error e => rfl
  | ok _ => exact fitSearch_known F a hk hp hp' hperm h.1 lines rnd

end

/-- C162: the known pairs may be given in any order.  Two calls of `set_known_pairs` with the same pairs in another
order are both accepted or both rejected, and a `fit` with the same random numbers then returns the same, raises the
same or goes on without end in the same way; the calibrators differ in nothing but the stored pairs. -/
theorem C162_known_order [FloorRing K] (E : CalEnv K) (F : FitEnv K) (w : World K) (a : FitArgs K)
    (hk : Spec.OrderFree (F.kern a.fitType)) (rnd : FitRandom K) (p v p' v' : List (PyFloat K))
    (hp : p.length = v.length) (hp' : p'.length = v'.length) (hperm : (p.zip v).Perm (p'.zip v')) :
    (w.step E (.setKnown p v)).2 = (w.step E (.setKnown p' v')).2 ∧
    ((w.step E (.setKnown p v)).1.fit F a rnd).2 = ((w.step E (.setKnown p' v')).1.fit F a rnd).2 ∧
    ∃ kn, ((w.step E (.setKnown p' v')).1.fit F a rnd).1 =
      { ((w.step E (.setKnown p v)).1.fit F a rnd).1 with
        cal := { ((w.step E (.setKnown p v)).1.fit F a rnd).1.cal with known := kn } } := by
  have hall : ∀ (f : PyFloat K → Bool) , p.all f = p'.all f ∧ v.all f = v'.all f := by
    intro f
    have h1 : (p.zip v).all (fun e => f e.1) = (p'.zip v').all (fun e => f e.1) := by
      rw [Bool.eq_iff_iff, List.all_eq_true, List.all_eq_true]
      exact ⟨fun h e he => h e (hperm.mem_iff.2 he), fun h e he => h e (hperm.mem_iff.1 he)⟩
    have h2 : (p.zip v).all (fun e => f e.2) = (p'.zip v').all (fun e => f e.2) := by
      rw [Bool.eq_iff_iff, List.all_eq_true, List.all_eq_true]
      exact ⟨fun h e he => h e (hperm.mem_iff.2 he), fun h e he => h e (hperm.mem_iff.1 he)⟩
    have g1 : ∀ (l m : List (PyFloat K)), l.length = m.length → (l.zip m).all (fun e => f e.1) = l.all f := by
      intro l m h
      have := List.map_fst_zip (l₁ := l) (l₂ := m) (by omega)
      conv_rhs => rw [← this, List.all_map]
      rfl
    have g2 : ∀ (l m : List (PyFloat K)), l.length = m.length → (l.zip m).all (fun e => f e.2) = m.all f := by
      intro l m h
      have := List.map_snd_zip (l₁ := l) (l₂ := m) (by omega)
      conv_rhs => rw [← this, List.all_map]
      rfl
    rw [g1 _ _ hp, g1 _ _ hp'] at h1
    rw [g2 _ _ hp, g2 _ _ hp'] at h2
    exact ⟨h1, h2⟩
  have hset : ∀ q u : List (PyFloat K), q.length = u.length →
      w.step E (.setKnown q u) = if q.all (fun p => decide (p ≠ .nan)) && u.all (fun v => decide (v ≠ .nan)) then
        ({ w with cal := w.cal.withKnown q u }, .ok ()) else (w, .error .valueError) := by
    intro q u h
    unfold World.step Cal.setKnown
    dsimp only
    rw [if_pos h]
    cases q.all (fun p => decide (p ≠ .nan)) <;> cases u.all (fun v => decide (v ≠ .nan)) <;> rfl
  rw [hset p v hp, hset p' v' hp', (hall _).1, (hall _).2]
  by_cases h : (p'.all (fun p => decide (p ≠ .nan)) && v'.all (fun v => decide (v ≠ .nan))) = true
  · rw [if_pos h, if_pos h]
    refine ⟨rfl, ?_⟩
    have hf : World.fit F { w with cal := w.cal.withKnown p' v' } a rnd =
        ({ (World.fit F { w with cal := w.cal.withKnown p v } a rnd).1 with
            cal := (World.fit F { w with cal := w.cal.withKnown p v } a rnd).1.cal.withKnown p' v' },
          (World.fit F { w with cal := w.cal.withKnown p v } a rnd).2) := by
      unfold World.fit
      dsimp only
      by_cases ht : a.fitType = .other
      · rw [if_pos ht, if_pos ht]
        rfl
      · rw [if_neg ht, if_neg ht]
        have hl : ∀ q u : List (PyFloat K), World.atlasLines { w with cal := w.cal.withKnown q u } = w.atlasLines :=
          fun _ _ => rfl
        rw [hl, hl]
        cases w.atlasLines with
        | error e => rfl
        | ok lines =>
          dsimp only
          have := fitWith_known F a hk hp hp' hperm { w.cal with fitCoeff := a.fitCoeff } lines rnd
          have e : ∀ q u : List (PyFloat K), Cal.withKnown { w.cal with fitCoeff := a.fitCoeff } q u =
            { w.cal.withKnown q u with fitCoeff := a.fitCoeff } := fun _ _ => rfl
          rw [e, e] at this
          rw [this]
    rw [hf]
    exact ⟨rfl, some (p', v'), rfl⟩
  · rw [if_neg h, if_neg h]
    exact ⟨rfl, rfl, _, rfl⟩

/-! ### Example -/

namespace Toy

/-- The finite points of the data. -/
def points (xs ys : List (PyFloat ℚ)) : List (ℚ × ℚ) :=
  (xs.zip ys).filterMap (fun e => e.1.toFinite.bind (fun x => e.2.toFinite.map (fun y => (x, y))))

/-- Least-squares straight lines through the finite points; data of different lengths are rejected. -/
def pointKern : Kernels ℚ :=
  { kern with
    polyfit := fun xs ys n =>
      if n = 1 ∧ xs.length = ys.length then line ((points xs ys).map Prod.fst) ((points xs ys).map Prod.snd)
      else .error .typeError }

theorem line_perm {l m : List (ℚ × ℚ)} (h : l.Perm m) :
    line (l.map Prod.fst) (l.map Prod.snd) = line (m.map Prod.fst) (m.map Prod.snd) := by
  unfold line
  dsimp only
  simp only [List.length_map, List.map_map, List.zipWith_map, List.zipWith_self]
  rw [h.length_eq, (h.map Prod.fst).sum_eq, (h.map Prod.snd).sum_eq, (h.map (fun e : ℚ × ℚ => e.1 * e.2)).sum_eq,
    (h.map ((fun x => x * x) ∘ Prod.fst)).sum_eq]

/-- For `C162_known_order`: least-squares lines do not depend on the order of the points. -/
theorem pointKern_orderFree : Spec.OrderFree pointKern := by
  intro xs ys p v p' v' n hp hp' hperm
  have hlen : p.length = p'.length := by
    have := hperm.length_eq
    rw [List.length_zip, List.length_zip] at this
    omega
  show (if n = 1 ∧ (xs ++ p).length = (ys ++ v).length then _ else _) =
    (if n = 1 ∧ (xs ++ p').length = (ys ++ v').length then _ else _)
  simp only [List.length_append]
  by_cases h : n = 1 ∧ xs.length = ys.length
  · rw [if_pos ⟨h.1, by omega⟩, if_pos ⟨h.1, by omega⟩]
    refine line_perm ?_
    unfold points
    rw [List.zip_append h.2, List.zip_append h.2]
    exact (hperm.append_left _).filterMap _
  · rw [if_neg (fun g => h ⟨g.1, by omega⟩), if_neg (fun g => h ⟨g.1, by omega⟩)]

/-- The routines of the toy fit with that kernel. -/
def knownEnv : FitEnv ℚ := { env with kern := fun _ => pointKern }

/-- What the toy fit reports, or raises, with the given known pairs. -/
def knownRun (p v : List (PyFloat ℚ)) : Option (FitReport ℚ) × Option PyErr :=
  let r := (ready.step calEnv (.setKnown p v)).1.fit knownEnv args rnd
  (report r, exception r)

end Toy

/-- A case for `C162_known_order`: two known pairs on the line through the matches, in both orders; the fit
succeeds. -/
example : ((Toy.ready.step Toy.calEnv (.setKnown [.fin 0, .fin 30] [.fin 3100, .fin 11500])).1.fit Toy.knownEnv Toy.args
      Toy.rnd).2 =
    ((Toy.ready.step Toy.calEnv (.setKnown [.fin 30, .fin 0] [.fin 11500, .fin 3100])).1.fit Toy.knownEnv Toy.args
      Toy.rnd).2 ∧
    (Toy.knownRun [.fin 0, .fin 30] [.fin 3100, .fin 11500]).1.map (fun r => r.coeffs) = some [3100, 280] :=
  ⟨(C162_known_order Toy.calEnv Toy.knownEnv Toy.ready Toy.args Toy.pointKern_orderFree Toy.rnd
    [.fin 0, .fin 30] [.fin 3100, .fin 11500] [.fin 30, .fin 0] [.fin 11500, .fin 3100] rfl rfl
    (List.Perm.swap _ _ [])).2.1, by decide +kernel⟩

/-- It is the order of the pairs that does not matter: with the wavelengths alone in the other order nothing is
found. -/
example : (Toy.knownRun [.fin 0, .fin 30] [.fin 11500, .fin 3100]).1 = none := by decide +kernel

end Rascal
