import Verif.Props.SettingsBounds
import Verif.Props.AtlasProps

/-!
Property theorems C130 and C131: order and repetition of configuration calls.
-/

set_option linter.unusedSectionVars false

namespace Rascal

variable {K : Type _} [Field K] [LinearOrder K] [IsStrictOrderedRing K]

/-! ### C130 -/

/-- The five configuration methods; other calls have no number. -/
def SetOp.method : SetOp K → Option Nat
  | .setCalibrator _ _ _ => some 0
  | .setHough _ => some 1
  | .setRansac _ => some 2
  | .setAtlas _ _ _ => some 3
  | .setKnown _ _ => some 4
  | _ => none

/-- No call of the history raises. -/
def World.quiet (E : CalEnv K) : World K → List (SetOp K) → Prop
  | _, [] => True
  | w, op :: ops => (w.step E op).2 = .ok () ∧ World.quiet E (w.step E op).1 ops

/-- The full property: one call of each of several configuration methods, in any order, gives the same
calibrator, provided nothing is raised. -/
def C130_Statement (K : Type _) [Field K] [LinearOrder K] [IsStrictOrderedRing K] : Prop :=
  ∀ (E : CalEnv K) (w : World K) (ops ops' : List (SetOp K)), ops'.Perm ops →
    (∀ op ∈ ops, op.method ≠ none) → (ops.map SetOp.method).Nodup → w.quiet E ops → w.quiet E ops' →
    w.steps E ops' = w.steps E ops

/-- The pairs are left out. -/
def World.noPairs (w : World K) : World K := { w with cal := { w.cal with pairs := none } }

/-- What `_generate_pairs` would store. -/
def World.newPairs (w : World K) : PyRes (PairStore K) :=
  match w.atlasLines with
  | .error e => .error e
  | .ok lines =>
    if w.cal.constrainPoly then
      match w.cal.candTol, w.cal.props.pixelList with
      | some t, a :: l =>
        match Rascal.generatePairs w.cal.peaks lines (some (w.cal.polygon t (listMax a l))) with
        | .error e => .error e
        | .ok r => .ok (.array r)
      | none, _ => .error .attributeError
      | _, [] => .error .valueError
    else .ok (if allPairs w.cal.peaks lines = [] then .noColumns else .array (allPairs w.cal.peaks lines))

theorem generate_eq (w : World K) : w.generatePairs =
    match w.newPairs with
    | .error e => (w, .error e)
    | .ok p => ({ w with cal := { w.cal with pairs := some p } }, .ok ()) := by
  unfold World.generatePairs World.newPairs
  cases w.atlasLines with
  | error e => rfl
  | ok lines =>
    dsimp only
    unfold Cal.generatePairs
    split
    · cases w.cal.candTol with
      | none => rfl
      | some t =>
        cases w.cal.props.pixelList with
        | nil => rfl
        | cons a l =>
          dsimp only
          cases Rascal.generatePairs w.cal.peaks lines (some (w.cal.polygon t (listMax a l))) with
          | error e => rfl
          | ok r => rfl
    · rfl

theorem generate_quiet (v : World K) (h : v.generatePairs.2 = .ok ()) :
    v.generatePairs.1.noPairs = v.noPairs ∧
      some v.generatePairs.1.newPairs = v.generatePairs.1.cal.pairs.map .ok := by
  rw [generate_eq] at h ⊢
  cases hp : v.newPairs with
  | error e => rw [hp] at h; simp at h
  | ok p => exact ⟨rfl, congrArg some hp⟩

theorem newPairs_noPairs (w : World K) : w.noPairs.newPairs = w.newPairs := rfl

/-- The settings after a call, without regenerating the pairs. -/
def World.configure (E : CalEnv K) (w : World K) : SetOp K → World K
  | .setCalibrator n p l => { w with cal := { w.cal with props := (w.cal.props.set E.interp n p l).1 } }
  | .setHough a => { w with cal := { w.cal with hough := (HoughSet.apply (some w.cal.hough) a w.cal.props.pixelList).1 } }
  | .setRansac a => { w with cal := { w.cal with ransac := (w.cal.ransac.set a).1 } }
  | .setAtlas i t b => { w with cal := { w.cal with atlas := some i, candTol := some t, constrainPoly := b } }
  | .setKnown p v => { w with cal := (w.cal.setKnown p v).1 }
  | _ => w

/-- The call regenerates the pairs. -/
def SetOp.regenerates (hasAtlas : Bool) : SetOp K → Bool
  | .setHough _ => hasAtlas
  | .setAtlas _ _ _ => true
  | _ => false

theorem noPairs_set (w : World K) (p : Option (PairStore K)) :
    ({ w with cal := { w.cal with pairs := p } } : World K).noPairs = w.noPairs := rfl

theorem setKnown_form (c : Cal K) (p v : List (PyFloat K)) :
    (c.setKnown p v).1 = c ∨ (c.setKnown p v).1 = { c with known := some (p, v) } := by
  unfold Cal.setKnown
  split
  · split
    · split
      · exact .inr rfl
      · exact .inl rfl
    · exact .inl rfl
  · exact .inl rfl

theorem step_configure (E : CalEnv K) (w : World K) (op : SetOp K) (hm : op.method ≠ none)
    (hq : (w.step E op).2 = .ok ()) :
    (w.step E op).1.noPairs = (w.noPairs).configure E op ∧
      (op.regenerates w.cal.atlas.isSome = true → some (w.step E op).1.newPairs =
        (w.step E op).1.cal.pairs.map .ok) ∧
      (op.regenerates w.cal.atlas.isSome = false → (w.step E op).1.cal.pairs = w.cal.pairs) := by
  cases op with
  | setCalibrator n p l => exact ⟨rfl, fun h => by simp [SetOp.regenerates] at h, fun _ => rfl⟩
  | setRansac a => exact ⟨rfl, fun h => by simp [SetOp.regenerates] at h, fun _ => rfl⟩
  | setKnown p v =>
    refine ⟨?_, fun h => by simp [SetOp.regenerates] at h, fun _ => ?_⟩
    · simp only [World.step, World.configure, World.noPairs, Cal.setKnown]
      split
      · split
        · split <;> rfl
        · rfl
      · rfl
    · simp only [World.step]
      rcases setKnown_form w.cal p v with h | h <;> rw [h]
  | setHough a =>
    have e : w.step E (.setHough a) = match (HoughSet.apply (some w.cal.hough) a w.cal.props.pixelList).2 with
        | .error e => (w.configure E (.setHough a), .error e)
        | .ok _ => if w.cal.atlas.isSome then (w.configure E (.setHough a)).generatePairs
          else (w.configure E (.setHough a), .ok ()) := by
      simp only [World.step, World.setHough]
      cases (HoughSet.apply (some w.cal.hough) a w.cal.props.pixelList).2 with
      | error e => rfl
      | ok u =>
        dsimp only
        split
        · rename_i h; rw [if_neg (by rw [h]; simp)]; rfl
        · rename_i h; rw [if_pos (by rw [h]; simp)]; rfl
    rw [e] at hq ⊢
    cases hr : (HoughSet.apply (some w.cal.hough) a w.cal.props.pixelList).2 with
    | error e => rw [hr] at hq; simp at hq
    | ok u =>
      rw [hr] at hq
      dsimp only at hq ⊢
      cases ha : w.cal.atlas.isSome with
      | false => exact ⟨rfl, fun h => by simp [SetOp.regenerates] at h, fun _ => rfl⟩
      | true =>
        rw [ha] at hq
        simp only [if_true] at hq ⊢
        obtain ⟨h1, h2⟩ := generate_quiet _ hq
        exact ⟨h1.trans rfl, fun _ => h2, fun h => by simp [SetOp.regenerates] at h⟩
  | setAtlas i t b =>
    change ((w.configure E (.setAtlas i t b)).generatePairs).2 = _ at hq
    obtain ⟨h1, h2⟩ := generate_quiet _ hq
    exact ⟨h1.trans rfl, fun _ => h2, fun h => by simp [SetOp.regenerates] at h⟩
  | useMatplotlib => exact absurd rfl hm
  | usePlotly => exact absurd rfl hm
  | addAtlas a t b => exact absurd rfl hm
  | addUserAtlas f t b => exact absurd rfl hm
  | removeRange v t => exact absurd rfl hm
  | clearAtlas => exact absurd rfl hm
  | editAtlas i f => exact absurd rfl hm
  | doHough b => exact absurd rfl hm
  | loadHough d f t => exact absurd rfl hm

/-- Some call of the history regenerates the pairs. -/
def touches (hasAtlas : Bool) (ops : List (SetOp K)) : Bool :=
  decide (some 3 ∈ ops.map SetOp.method) || (hasAtlas && decide (some 1 ∈ ops.map SetOp.method))

/-- The stored pairs are those of the settings. -/
def World.fresh (w : World K) : Prop := some w.newPairs = w.cal.pairs.map .ok

theorem steps_configure (E : CalEnv K) (ops : List (SetOp K)) :
    ∀ w : World K, (∀ op ∈ ops, op.method ≠ none) → w.quiet E ops →
      (w.steps E ops).noPairs = ops.foldl (fun v op => v.configure E op) w.noPairs := by
  induction ops with
  | nil => exact fun w _ _ => rfl
  | cons op t ih =>
    intro w hm hq
    have h1 := (step_configure E w op (hm op List.mem_cons_self) hq.1).1
    have h2 := ih (w.step E op).1 (fun o ho => hm o (List.mem_cons_of_mem _ ho)) hq.2
    change ((w.step E op).1.steps E t).noPairs = _
    rw [h2, h1]
    rfl

theorem set_pixelList (interp : List K → PyRes Unit) (c : CalProps K) (n : Option K) (l : Option PlotLib) :
    (c.set interp n none l).1.pixelList = c.pixelList := by
  unfold CalProps.set
  simp only [keepOr]
  cases interp c.pixelList with
  | error e => rfl
  | ok u =>
    dsimp only
    unfold CalProps.applyLibrary
    split <;> rfl

/-- Calls that do not regenerate leave the settings that the pairs depend on. -/
theorem fresh_step (E : CalEnv K) (w : World K) (op : SetOp K) (hm : op.method ≠ none) (hp : ¬ op.givesPixels)
    (hq : (w.step E op).2 = .ok ()) (hf : w.fresh) : (w.step E op).1.fresh := by
  obtain ⟨_, h2, _⟩ := step_configure E w op hm hq
  cases hr : op.regenerates w.cal.atlas.isSome with
  | true => exact h2 hr
  | false =>
    cases op with
    | setCalibrator n p l =>
      cases p with
      | some p => exact absurd trivial hp
      | none =>
        have e : (w.step E (.setCalibrator n none l)).1.newPairs = w.newPairs := by
          unfold World.newPairs
          simp only [World.step, World.setCalibrator, set_pixelList]
          rfl
        unfold World.fresh
        rw [e]
        exact hf
    | setRansac a => exact hf
    | setKnown p v =>
      simp only [World.step]
      rcases setKnown_form w.cal p v with h | h <;> rw [h]
      · exact hf
      · exact hf
    | setHough a =>
      exfalso
      have ha : w.cal.atlas = none := by simpa [SetOp.regenerates] using hr
      unfold World.fresh World.newPairs World.atlasLines at hf
      rw [ha] at hf
      cases hp : w.cal.pairs with
      | none => rw [hp] at hf; simp at hf
      | some x => rw [hp] at hf; simp at hf
    | setAtlas i t b => simp [SetOp.regenerates] at hr
    | useMatplotlib => exact absurd rfl hm
    | usePlotly => exact absurd rfl hm
    | addAtlas a t b => exact absurd rfl hm
    | addUserAtlas f t b => exact absurd rfl hm
    | removeRange v t => exact absurd rfl hm
    | clearAtlas => exact absurd rfl hm
    | editAtlas i f => exact absurd rfl hm
    | doHough b => exact absurd rfl hm
    | loadHough d f t => exact absurd rfl hm

theorem fresh_steps (E : CalEnv K) (ops : List (SetOp K)) :
    ∀ w : World K, (∀ op ∈ ops, op.method ≠ none) → (∀ op ∈ ops, ¬ op.givesPixels) → w.quiet E ops → w.fresh →
      (w.steps E ops).fresh := by
  induction ops with
  | nil => exact fun w _ _ _ h => h
  | cons op t ih =>
    intro w hm hp hq hf
    exact ih (w.step E op).1 (fun o ho => hm o (List.mem_cons_of_mem _ ho))
      (fun o ho => hp o (List.mem_cons_of_mem _ ho)) hq.2
      (fresh_step E w op (hm op List.mem_cons_self) (hp op List.mem_cons_self) hq.1 hf)

theorem pairs_steps (E : CalEnv K) (ops : List (SetOp K)) :
    ∀ w : World K, (∀ op ∈ ops, op.method ≠ none) → (∀ op ∈ ops, ¬ op.givesPixels) → w.quiet E ops →
      (touches w.cal.atlas.isSome ops = true → (w.steps E ops).fresh) ∧
      (touches w.cal.atlas.isSome ops = false → (w.steps E ops).cal.pairs = w.cal.pairs) := by
  induction ops with
  | nil => exact fun w _ _ _ => ⟨fun h => by simp [touches] at h, fun _ => rfl⟩
  | cons op t ih =>
    intro w hm hp hq
    have hm' : ∀ o ∈ t, o.method ≠ none := fun o ho => hm o (List.mem_cons_of_mem _ ho)
    have hp' : ∀ o ∈ t, ¬ o.givesPixels := fun o ho => hp o (List.mem_cons_of_mem _ ho)
    obtain ⟨h1, h2, h3⟩ := step_configure E w op (hm op List.mem_cons_self) hq.1
    change (_ → ((w.step E op).1.steps E t).fresh) ∧ (_ → ((w.step E op).1.steps E t).cal.pairs = _)
    cases hr : op.regenerates w.cal.atlas.isSome with
    | true =>
      refine ⟨fun _ => fresh_steps E t _ hm' hp' hq.2 (h2 hr), fun h => ?_⟩
      exfalso
      cases op with
      | setHough a => simp [SetOp.regenerates] at hr; simp [touches, SetOp.method, hr] at h
      | setAtlas i t b => simp [touches, SetOp.method] at h
      | _ => simp [SetOp.regenerates] at hr
    | false =>
      have hat : (w.step E op).1.cal.atlas = w.cal.atlas := by
        have : (w.step E op).1.noPairs.cal.atlas = w.noPairs.cal.atlas := by
          rw [h1]
          cases op with
          | setAtlas i t b => simp [SetOp.regenerates] at hr
          | setKnown p v =>
            simp only [World.configure]
            rcases setKnown_form w.noPairs.cal p v with h | h <;> rw [h]
          | _ => rfl
        exact this
      have ht : touches w.cal.atlas.isSome (op :: t) = touches w.cal.atlas.isSome t := by
        cases op with
        | setAtlas i t b => simp [SetOp.regenerates] at hr
        | setHough a => simp [SetOp.regenerates] at hr; simp [touches, SetOp.method, hr]
        | useMatplotlib => exact absurd rfl (hm _ List.mem_cons_self)
        | usePlotly => exact absurd rfl (hm _ List.mem_cons_self)
        | _ => simp [touches, SetOp.method]
      have ih' := ih (w.step E op).1 hm' hp' hq.2
      rw [hat] at ih'
      rw [ht]
      exact ⟨ih'.1, fun h => (ih'.2 h).trans (h3 hr)⟩

theorem configure_comm (E : CalEnv K) (w : World K) (o o' : SetOp K) (h : o.method ≠ o'.method)
    (hp : ¬ o.givesPixels) (hp' : ¬ o'.givesPixels) :
    (w.configure E o).configure E o' = (w.configure E o').configure E o := by
  cases o with
  | setCalibrator n p l =>
    cases p with
    | some p => exact absurd trivial hp
    | none =>
      cases o' with
      | setCalibrator n' p' l' => exact absurd rfl h
      | setHough a => simp only [World.configure, set_pixelList]
      | setKnown p v => simp only [World.configure, Cal.setKnown]; split_ifs <;> rfl
      | _ => rfl
  | setHough a =>
    cases o' with
    | setCalibrator n' p' l' =>
      cases p' with
      | some p => exact absurd trivial hp'
      | none => simp only [World.configure, set_pixelList]
    | setHough a => exact absurd rfl h
    | setKnown p v => simp only [World.configure, Cal.setKnown]; split_ifs <;> rfl
    | _ => rfl
  | setRansac a =>
    cases o' with
    | setRansac a => exact absurd rfl h
    | setKnown p v => simp only [World.configure, Cal.setKnown]; split_ifs <;> rfl
    | _ => rfl
  | setAtlas i t b =>
    cases o' with
    | setAtlas i t b => exact absurd rfl h
    | setKnown p v => simp only [World.configure, Cal.setKnown]; split_ifs <;> rfl
    | _ => rfl
  | setKnown p v =>
    cases o' with
    | setKnown p v => exact absurd rfl h
    | _ => simp only [World.configure, Cal.setKnown] <;> split_ifs <;> rfl
  | _ =>
    cases o' <;> rfl

/-- C130 (partial).  One call of each of several configuration methods, in any order, gives the same calibrator,
provided nothing is raised and no call replaces the pixel list.  Missing: calls with `pixel_list`, for which it
is false. -/
theorem C130_order_partial (E : CalEnv K) (w : World K) (ops ops' : List (SetOp K)) (h : ops'.Perm ops)
    (hm : ∀ op ∈ ops, op.method ≠ none) (hn : (ops.map SetOp.method).Nodup) (hp : ∀ op ∈ ops, ¬ op.givesPixels)
    (hq : w.quiet E ops) (hq' : w.quiet E ops') : w.steps E ops' = w.steps E ops := by
  have hm' : ∀ op ∈ ops', op.method ≠ none := fun o ho => hm o (h.mem_iff.1 ho)
  have hp' : ∀ op ∈ ops', ¬ op.givesPixels := fun o ho => hp o (h.mem_iff.1 ho)
  have e : (w.steps E ops').noPairs = (w.steps E ops).noPairs := by
    rw [steps_configure E ops' w hm' hq', steps_configure E ops w hm hq]
    refine h.foldl_eq' ?_ _
    intro x hx y hy z
    by_cases hxy : x.method = y.method
    · have : x = y := List.inj_on_of_nodup_map hn (h.mem_iff.1 hx) (h.mem_iff.1 hy) hxy
      rw [this]
    · exact configure_comm E z x y hxy (hp' x hx) (hp' y hy)
  have ht : touches w.cal.atlas.isSome ops' = touches w.cal.atlas.isSome ops := by
    unfold touches
    have : ∀ n : Option Nat, n ∈ ops'.map SetOp.method ↔ n ∈ ops.map SetOp.method := fun n => (h.map _).mem_iff
    simp only [this]
  have hpairs : (w.steps E ops').cal.pairs = (w.steps E ops).cal.pairs := by
    obtain ⟨a1, a2⟩ := pairs_steps E ops w hm hp hq
    obtain ⟨b1, b2⟩ := pairs_steps E ops' w hm' hp' hq'
    cases hc : touches w.cal.atlas.isSome ops with
    | true =>
      have f1 := a1 hc
      have f2 := b1 (ht.trans hc)
      unfold World.fresh at f1 f2
      rw [← newPairs_noPairs, e, newPairs_noPairs, f1] at f2
      cases h1 : (w.steps E ops).cal.pairs <;> cases h2 : (w.steps E ops').cal.pairs <;> rw [h1, h2] at f2 <;>
        simp at f2 ⊢
      exact f2.symm
    | false => rw [a2 hc, b2 (ht.trans hc)]
  have back : ∀ v : World K, v = { v.noPairs with cal := { v.noPairs.cal with pairs := v.cal.pairs } } := fun _ => rfl
  rw [back (w.steps E ops'), back (w.steps E ops), e, hpairs]

/-- The environment of the examples. -/
def cfgEnv : CalEnv ℚ :=
  ⟨fun _ => .ok (), stableArgsort, stableArgsort, ⟨stableArgsort, [], fun _ => none⟩, ⟨[], none, none, 500⟩⟩

instance (E : CalEnv K) : (w : World K) → (ops : List (SetOp K)) → Decidable (w.quiet E ops)
  | _, [] => isTrue trivial
  | w, op :: ops =>
    have := instDecidableQuiet E (w.step E op).1 ops
    inferInstanceAs (Decidable (_ ∧ _))

/-- C130 (refutation).  The slope bounds of `set_hough_properties` belong to the pixel list at the time of the
call; a pixel list given afterwards leaves them. -/
theorem C130_refuted : ¬ C130_Statement ℚ := by
  intro h
  have hc : twoPeaks.toOption.map (fun c =>
      (decide (World.quiet cfgEnv ⟨[], c⟩ [.setHough {}, .setCalibrator none (some [0, 999]) none]),
       decide (World.quiet cfgEnv ⟨[], c⟩ [.setCalibrator none (some [0, 999]) none, .setHough {}]),
       decide ((World.steps cfgEnv ⟨[], c⟩ [.setHough {}, .setCalibrator none (some [0, 999]) none]).cal.hough.minSlope =
         (World.steps cfgEnv ⟨[], c⟩ [.setCalibrator none (some [0, 999]) none, .setHough {}]).cal.hough.minSlope))) =
      some (true, true, false) := by
    decide +kernel
  obtain ⟨c, _, hc⟩ := Option.map_eq_some_iff.1 hc
  simp only [Prod.mk.injEq, decide_eq_true_eq, decide_eq_false_iff_not] at hc
  obtain ⟨h1, h2, h3⟩ := hc
  refine h3 (congrArg (fun w : World ℚ => w.cal.hough.minSlope)
    (h cfgEnv ⟨[], c⟩ [.setCalibrator none (some [0, 999]) none, .setHough {}]
      [.setHough {}, .setCalibrator none (some [0, 999]) none] (List.Perm.swap _ _ _) ?_ ?_ h2 h1))
  · intro op hop
    simp only [List.mem_cons, List.not_mem_nil, or_false] at hop
    rcases hop with rfl | rfl <;> simp [SetOp.method]
  · simp [SetOp.method]

/-- Four calls in two orders meet the hypotheses of `C130_order_partial`, on a calibrator without an atlas. -/
example : twoPeaks.toOption.map (fun c =>
    (decide (World.quiet cfgEnv ⟨[⟨[⟨5900, "Hg", 1, none⟩], none, none, 500⟩], c⟩
      [.setHough { rangeTol := some 300 }, .setAtlas 0 10 true, .setRansac { topN := some 3 },
        .setKnown [.fin 10] [.fin 5900]]),
     decide (World.quiet cfgEnv ⟨[⟨[⟨5900, "Hg", 1, none⟩], none, none, 500⟩], c⟩
      [.setKnown [.fin 10] [.fin 5900], .setAtlas 0 10 true, .setRansac { topN := some 3 },
        .setHough { rangeTol := some 300 }]),
     (World.steps cfgEnv ⟨[⟨[⟨5900, "Hg", 1, none⟩], none, none, 500⟩], c⟩
      [.setKnown [.fin 10] [.fin 5900], .setAtlas 0 10 true, .setRansac { topN := some 3 },
        .setHough { rangeTol := some 300 }]).cal.pairs)) = some (true, true, some (.array [(10, 5900)])) := by
  decide +kernel

/-! ### C131 -/

/-- Calls that say what is to hold, rather than add to an atlas. -/
def SetOp.declares : SetOp K → Prop
  | .addAtlas _ _ _ => False
  | .addUserAtlas _ _ _ => False
  | .editAtlas _ _ => False
  | _ => True

/-- The full property: repeating a call changes nothing and gives the same result. -/
def C131_Statement (K : Type _) [Field K] [LinearOrder K] [IsStrictOrderedRing K] : Prop :=
  ∀ (E : CalEnv K) (w : World K) (op : SetOp K), op.declares → (w.step E op).1.step E op = w.step E op

theorem keepOr_again {α : Type _} (x : α) (a : Option α) (d : α) :
    keepOr (some (keepOr (some x) a d)) a d = keepOr (some x) a d := by
  cases a <;> rfl

theorem keepOr_default {α : Type _} (x : α) (a : Option α) (d d' : α) :
    keepOr (some x) a d = keepOr (some x) a d' := by
  cases a <;> rfl

theorem hough_apply_again (h : HoughSet K) (a : HoughArgs K) (p : List K) :
    HoughSet.apply (some (HoughSet.apply (some h) a p).1) a p = HoughSet.apply (some h) a p := by
  unfold HoughSet.apply HoughSet.setIntercepts HoughSet.setSlopes
  cases ptp p with
  | error e => simp only [Option.map_some, keepOr_again]
  | ok r => simp only [Option.map_some, keepOr_again]

theorem ransac_again (s : RansacSet K) (a : RansacArgs K) : (s.set a).1.set a = s.set a := by
  unfold RansacSet.set
  dsimp only
  cases a.matchesOk <;> cases a.utilOk <;> cases a.errorOk <;> simp [keepOr_again]

theorem props_again (interp : List K → PyRes Unit) (c : CalProps K) (n : Option K) (p : Option (List K))
    (l : Option PlotLib) : (c.set interp n p l).1.set interp n p l = c.set interp n p l := by
  have e : c.set interp n p l = match interp (keepOr (some c.pixelList) p c.pixelList) with
      | .error e => ({ c with numPix := keepOr (some c.numPix) n c.numPix,
                              pixelList := keepOr (some c.pixelList) p c.pixelList }, .error e)
      | .ok _ => (CalProps.applyLibrary { c with
          numPix := keepOr (some c.numPix) n c.numPix
          pixelList := keepOr (some c.pixelList) p c.pixelList
          plottingLibrary := keepOr (some c.plottingLibrary) l .matplotlib }, .ok ()) := rfl
  rw [e]
  cases hi : interp (keepOr (some c.pixelList) p c.pixelList) with
  | error x =>
    unfold CalProps.set
    dsimp only
    rw [keepOr_default _ p _ c.pixelList, keepOr_again, hi]
    rw [keepOr_default _ n _ c.numPix, keepOr_again]
  | ok u =>
    unfold CalProps.set CalProps.applyLibrary
    dsimp only
    cases hl : keepOr (some c.plottingLibrary) l .matplotlib <;>
      simp only [CalProps.useMatplotlib, CalProps.usePlotly, keepOr_default _ p _ c.pixelList, keepOr_again, hi,
        keepOr_default _ n _ c.numPix] <;>
      cases l <;> simp_all [keepOr]

theorem generate_again (v : World K) : v.generatePairs.1.generatePairs = v.generatePairs := by
  rw [generate_eq v]
  cases hp : v.newPairs with
  | error e => dsimp only; rw [generate_eq, hp]
  | ok p =>
    dsimp only
    rw [generate_eq]
    have : World.newPairs { v with cal := { v.cal with pairs := some p } } = .ok p := hp
    rw [this]

theorem generate_form (v : World K) :
    ∃ q, v.generatePairs.1 = { v with cal := { v.cal with pairs := q } } := by
  rw [generate_eq]
  cases v.newPairs with
  | error e => exact ⟨v.cal.pairs, rfl⟩
  | ok p => exact ⟨some p, rfl⟩

theorem assign_again (h : Hough K) (d : HoughData K) : (h.assign d).1.assign d = h.assign d := by
  unfold Hough.assign
  dsimp only
  cases d.hist <;> cases d.xedges <;> cases d.yedges <;> cases d.minSlope <;> cases d.maxSlope <;>
    cases d.minIntercept <;> cases d.maxIntercept <;> rfl

theorem load_again (h : Hough K) (disk : Disk K) (f t : List Char) :
    (h.load disk f t).1.load disk f t = h.load disk f t := by
  unfold Hough.load
  split
  · cases disk (withExt f ".npy".toList) with
    | none => rfl
    | some x => cases x with
      | npy d => exact assign_again h d
      | _ => rfl
  · split
    · cases disk (withExt f ".json".toList) with
      | none => rfl
      | some x => cases x with
        | json d => exact assign_again h d
        | _ => rfl
    · rfl

theorem doHough_again (argsortK : List K → List Nat) (argsortN : List Nat → List Nat) (c : Cal K) (b : Bool) :
    (c.doHough argsortK argsortN b).1.doHough argsortK argsortN b = c.doHough argsortK argsortN b := by
  obtain ⟨peaks, arr, props, ⟨n, xb, yb, w1, w2, rt, lt, i1, i2, s1, s2⟩, ransac, atlas, ct, cp, pairs, ht, hl, hp,
    known, mp, ma, co, rms, res, pu, au⟩ := c
  cases pairs with
  | none => rfl
  | some store =>
    cases s1 with
    | posInf => rfl
    | negInf => rfl
    | nan => rfl
    | fin x1 =>
      cases s2 with
      | posInf => rfl
      | negInf => rfl
      | nan => rfl
      | fin x2 =>
        cases store with
        | noColumns => rfl
        | array xy =>
          cases b with
          | true =>
            by_cases hxy : xy.length < 2
            · simp only [Cal.doHough, Hough.setConstraints, PyFloat.toFinite, if_true, Hough.generateBrute, if_pos hxy]
            · by_cases hb : xb.toNat = 0 ∨ yb.toNat = 0
              · simp only [Cal.doHough, Hough.setConstraints, PyFloat.toFinite, if_true, Hough.generateBrute, if_neg hxy,
                  Hough.bin, if_pos hb]
              · simp only [Cal.doHough, Hough.setConstraints, PyFloat.toFinite, if_true, Hough.generateBrute, if_neg hxy,
                  Hough.bin, if_neg hb]
          | false =>
            by_cases hxy : n.toNat = 0 ∨ xy = []
            · simp only [Cal.doHough, Hough.setConstraints, PyFloat.toFinite, Bool.false_eq_true, if_false,
                Hough.generate, if_pos hxy]
            · by_cases hb : xb.toNat = 0 ∨ yb.toNat = 0
              · simp only [Cal.doHough, Hough.setConstraints, PyFloat.toFinite, Bool.false_eq_true, if_false,
                  Hough.generate, if_neg hxy, Hough.bin, if_pos hb]
              · simp only [Cal.doHough, Hough.setConstraints, PyFloat.toFinite, Bool.false_eq_true, if_false,
                  Hough.generate, if_neg hxy, Hough.bin, if_neg hb]

theorem atlas_again (w : World K) (i : Nat) (t : K) (b : Bool) :
    (w.setAtlas i t b).1.setAtlas i t b = w.setAtlas i t b := by
  unfold World.setAtlas
  generalize hv : ({ w with cal := { w.cal with atlas := some i, candTol := some t, constrainPoly := b } } : World K) = v
  have hv' : ({ v with cal := { v.cal with atlas := some i, candTol := some t, constrainPoly := b } } : World K) = v := by
    subst hv; rfl
  have hg := generate_again v
  rw [generate_eq v] at hg ⊢
  cases hp : v.newPairs with
  | error e => rw [hp] at hg; dsimp only at hg ⊢; rw [hv']; exact hg
  | ok p =>
    rw [hp] at hg
    dsimp only at hg ⊢
    rw [← hg]
    subst hv
    rfl

theorem hough_again (w : World K) (a : HoughArgs K) : (w.setHough a).1.setHough a = w.setHough a := by
  have hq := hough_apply_again w.cal.hough a w.cal.props.pixelList
  generalize hap : HoughSet.apply (some w.cal.hough) a w.cal.props.pixelList = r at hq
  have e : w.setHough a = match r.2 with
      | .error e => ({ w with cal := { w.cal with hough := r.1 } }, .error e)
      | .ok _ => match w.cal.atlas with
        | none => ({ w with cal := { w.cal with hough := r.1 } }, .ok ())
        | some _ => World.generatePairs { w with cal := { w.cal with hough := r.1 } } := by
    rw [← hap]; rfl
  have key : ∀ q, World.setHough { w with cal := { w.cal with hough := r.1, pairs := q } } a = match r.2 with
      | .error e => ({ w with cal := { w.cal with hough := r.1, pairs := q } }, .error e)
      | .ok _ => match w.cal.atlas with
        | none => ({ w with cal := { w.cal with hough := r.1, pairs := q } }, .ok ())
        | some _ => World.generatePairs { w with cal := { w.cal with hough := r.1, pairs := q } } := by
    intro q
    unfold World.setHough
    dsimp only
    rw [hq]
    rfl
  cases hr : r.2 with
  | error x =>
    rw [hr] at e key
    rw [e]
    have := key w.cal.pairs
    exact this
  | ok u =>
    rw [hr] at e key
    dsimp only at e key
    cases ha : w.cal.atlas with
    | none =>
      rw [ha] at e
      rw [e]
      have := key w.cal.pairs
      rw [ha] at this
      exact this
    | some i =>
      have e2 : w.setHough a = World.generatePairs { w with cal := { w.cal with hough := r.1 } } := by
        rw [e]; split
        · rename_i h; rw [ha] at h; cases h
        · rfl
      have key2 : ∀ q, World.setHough { w with cal := { w.cal with hough := r.1, pairs := q } } a =
          World.generatePairs { w with cal := { w.cal with hough := r.1, pairs := q } } := by
        intro q; rw [key q]; split
        · rename_i h; rw [ha] at h; cases h
        · rfl
      rw [e2]
      obtain ⟨q, hf⟩ := generate_form ({ w with cal := { w.cal with hough := r.1 } } : World K)
      have hg := generate_again ({ w with cal := { w.cal with hough := r.1 } } : World K)
      rw [hf] at hg ⊢
      exact (key2 q).trans hg

/-- C131 (partial).  Repeating a call - also one that raised - changes nothing and gives the same result, for all
calls but `remove_atlas_lines_range` (and those that add lines). -/
theorem C131_repeat_partial (E : CalEnv K) (w : World K) (op : SetOp K) (hd : op.declares)
    (hr : ∀ v t, op ≠ .removeRange v t) : (w.step E op).1.step E op = w.step E op := by
  cases op with
  | setCalibrator n p l =>
    simp only [World.step, World.setCalibrator]
    rw [props_again]
  | useMatplotlib => rfl
  | usePlotly => rfl
  | setHough a => exact hough_again w a
  | setRansac a =>
    simp only [World.step, World.setRansac]
    rw [ransac_again]
  | setAtlas i t b => exact atlas_again w i t b
  | addAtlas a t b => exact absurd hd (by simp [SetOp.declares])
  | addUserAtlas f t b => exact absurd hd (by simp [SetOp.declares])
  | removeRange v t => exact absurd rfl (hr v t)
  | clearAtlas =>
    simp only [World.step, World.clearAtlas]
    cases ha : w.cal.atlas with
    | none => dsimp only; rw [ha]
    | some i =>
      dsimp only
      change (match w.cal.atlas with | none => _ | some i => _) = _
      rw [ha]
      simp only [World.modifyAtlas, List.modify_modify_eq]
      rfl
  | editAtlas i f => exact absurd hd (by simp [SetOp.declares])
  | doHough b =>
    simp only [World.step]
    rw [doHough_again]
  | loadHough d f t =>
    simp only [World.step, Cal.loadHough]
    rw [load_again]
  | setKnown p v =>
    simp only [World.step, Cal.setKnown]
    split
    · split
      · split <;> simp_all
      · simp_all
    · simp_all

/-- C131 (refutation).  `remove_atlas_lines_range` skips the line after each removed one: of two adjacent lines in the
range the first call removes one and the second call the other. -/
theorem C131_refuted : ¬ C131_Statement ℚ := by
  intro h
  have hc : twoPeaks.toOption.map (fun c =>
      let w : World ℚ := ⟨[⟨[⟨5000, "Hg", 1, none⟩, ⟨5001, "Hg", 1, none⟩, ⟨6000, "Hg", 1, none⟩], none, none, 500⟩],
        { c with atlas := some 0 }⟩
      (((w.step cfgEnv (.removeRange 5000 10)).1.atlases.map (fun a => a.lines.map (fun l => l.wl)),
        ((w.step cfgEnv (.removeRange 5000 10)).1.step cfgEnv (.removeRange 5000 10)).1.atlases.map
          (fun a => a.lines.map (fun l => l.wl))))) = some ([[5001, 6000]], [[6000]]) := by
    decide +kernel
  obtain ⟨c, _, hc⟩ := Option.map_eq_some_iff.1 hc
  simp only [Prod.mk.injEq] at hc
  obtain ⟨h1, h2⟩ := hc
  rw [h cfgEnv _ (.removeRange 5000 10) trivial, h1] at h2
  exact absurd h2 (by decide +kernel)

/-- The calls of `C131_repeat_partial` do something the first time: here the pairs are generated, the transform
is filled, and a failing `set_known_pairs` fails again. -/
example : twoPeaks.toOption.map (fun c =>
    let w : World ℚ := ⟨[⟨[⟨5900, "Hg", 1, none⟩], none, none, 500⟩], c⟩
    let w1 := (w.step cfgEnv (.setAtlas 0 10 false)).1
    let w2 := (w1.step cfgEnv (.setHough { numSlopes := some 2, xbins := some 1, ybins := some 1 })).1
    let w3 := (w2.step cfgEnv (.doHough false)).1
    (w.cal.pairs, w1.cal.pairs, decide (w2.cal.ht.hist = none), decide (w3.cal.ht.hist = none),
      (w3.step cfgEnv (.setKnown [.fin 1] [])).2.toOption)) =
    some (none, some (.array [(10, 5900), (20, 5900)]), true, false, none) := by
  decide +kernel

end Rascal
