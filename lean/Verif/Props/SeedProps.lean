import Verif.Model.Seed
import Verif.Props.InputsProps

/-! Property theorems C186: what a random seed fixes. -/

set_option linter.unusedSectionVars false

namespace Rascal

section
variable {K σ : Type _} [Field K] [LinearOrder K] [IsStrictOrderedRing K] [FloorRing K]

/-- A call that neither draws nor seeds; if it is made on calibrator `i`, one that a fit does not notice. -/
def Spec.Harmless (i : Nat) : ProcCall K → Prop
  | .seeded _ _ _ _ _ => False
  | .call _ (.fit _ _ _) => False
  | .call j c => j = i → Spec.InspectingCall c

/-- The same call; for a fit, watched for the same number of passes. -/
def Spec.SameCall (c c' : ProcCall K) : Prop :=
  c = c' ∨ ∃ i a arr rnd rnd', c = .call i (.fit a arr rnd) ∧ c' = .call i (.fit a arr rnd') ∧
    rnd.tape.length = rnd'.tape.length

/-- Both calibrators exist and their fits have the same outcome. -/
def Spec.SeededAlike (x y : Option (CallRes (FitReport K))) : Prop :=
  ∃ u v, x = some u ∧ y = some v ∧ Spec.SameOutcome u v

open Spec

theorem setCalibrator_same (E : CalEnv K) (s s' : Session K) (h : SameInputs s.world s'.world) (n n' : Option K)
    (l : Option (List K)) (b b' : Option PlotLib) (hok : (s.step E (.setCalibrator n l b)).2 = .ok ()) :
    (s'.step E (.setCalibrator n' l b')).2 = .ok () ∧
      SameInputs (s.step E (.setCalibrator n l b)).1.world (s'.step E (.setCalibrator n' l b')).1.world := by
  have hp : keepOr (some s'.world.cal.props.pixelList) l s'.world.cal.props.pixelList =
      keepOr (some s.world.cal.props.pixelList) l s.world.cal.props.pixelList := by rw [h.pixelList]
  have key : ∀ (c : CalProps K) (n : Option K) (b : Option PlotLib),
      (E.interp (keepOr (some c.pixelList) l c.pixelList) = .ok () → (c.set E.interp n l b).2 = .ok ()) ∧
      ((c.set E.interp n l b).2 = .ok () → E.interp (keepOr (some c.pixelList) l c.pixelList) = .ok ()) ∧
      (c.set E.interp n l b).1.pixelList = keepOr (some c.pixelList) l c.pixelList := by
    intro c n b
    unfold CalProps.set
    dsimp only
    cases E.interp (keepOr (some c.pixelList) l c.pixelList) with
    | error e => exact ⟨fun h => (by cases h), fun h => h, rfl⟩
    | ok u =>
      refine ⟨fun _ => rfl, fun _ => rfl, ?_⟩
      dsimp only
      unfold CalProps.applyLibrary
      split <;> rfl
  obtain ⟨_, k2, k3⟩ := key s.world.cal.props n b
  obtain ⟨m1, _, m3⟩ := key s'.world.cal.props n' b'
  refine ⟨m1 (by rw [hp]; exact k2 hok), ?_⟩
  refine ⟨h.peaks, h.peaksAreArray, ?_, h.hough, h.ransac, h.pairs, h.known, h.ht, h.houghLines, h.houghPoints, h.lines⟩
  show (s'.world.cal.props.set E.interp n' l b').1.pixelList = (s.world.cal.props.set E.interp n l b).1.pixelList
  rw [k3, m3, hp]

theorem harmless_step (R : Rng K σ) (E : CalEnv K) (F : FitEnv K) (M : MatchKernels K) (p : Process K σ) (i : Nat)
    (c : ProcCall K) (hc : Harmless i c) (s : Session K) (hs : p.cals[i]? = some s) :
    (p.call R E F M c).gen = p.gen ∧
      ∃ s', (p.call R E F M c).cals[i]? = some s' ∧ SameInputs s.world s'.world := by
  cases c with
  | seeded => exact absurd hc id
  | call j c =>
    have hnf : ∀ a arr rnd, c ≠ .fit a arr rnd := by intro a arr rnd h; subst h; exact hc
    have he : p.call R E F M (.call j c) = match p.cals[j]? with
        | none => p
        | some s => ⟨p.cals.set j (s.call E F M c), p.gen⟩ := by
      cases c with
      | fit a arr rnd => exact absurd rfl (hnf a arr rnd)
      | _ => rfl
    have hi : j = i → InspectingCall c := by
      cases c with
      | fit a arr rnd => exact absurd rfl (hnf a arr rnd)
      | _ => exact hc
    rw [he]
    cases hj : p.cals[j]? with
    | none => exact ⟨rfl, s, hs, .rfl' _⟩
    | some t =>
      refine ⟨rfl, ?_⟩
      dsimp only
      rw [List.getElem?_set]
      by_cases hji : j = i
      · subst hji
        rw [hs] at hj
        cases hj
        have hlt : j < p.cals.length := (List.getElem?_eq_some_iff.1 hs).1
        rw [if_pos rfl, if_pos hlt]
        exact ⟨_, rfl, inspecting_same E F M s c (hi rfl)⟩
      · rw [if_neg hji]
        exact ⟨s, hs, .rfl' _⟩

theorem harmless_steps (R : Rng K σ) (E : CalEnv K) (F : FitEnv K) (M : MatchKernels K) (h : List (ProcCall K)) (i : Nat)
    (hh : ∀ c ∈ h, Harmless i c) (p : Process K σ) (s : Session K) (hs : p.cals[i]? = some s) :
    (p.calls R E F M h).gen = p.gen ∧
      ∃ s', (p.calls R E F M h).cals[i]? = some s' ∧ SameInputs s.world s'.world := by
  induction h generalizing p s with
  | nil => exact ⟨rfl, s, hs, .rfl' _⟩
  | cons c h ih =>
    obtain ⟨h1, s1, h2, h3⟩ := harmless_step R E F M p i c (hh c List.mem_cons_self) s hs
    obtain ⟨h4, s2, h5, h6⟩ := ih (fun d hd => hh d (List.mem_cons_of_mem _ hd)) (p.call R E F M c) s1 h2
    exact ⟨h4.trans h1, s2, h5, h3.trans' h6⟩

theorem seeded_step (R : Rng K σ) (E : CalEnv K) (F : FitEnv K) (M : MatchKernels K) (p : Process K σ) (i seed : Nat)
    (n : Option K) (l : Option (List K)) (b : Option PlotLib) (s : Session K) (hs : p.cals[i]? = some s)
    (hok : (s.step E (.setCalibrator n l b)).2 = .ok ()) :
    (p.call R E F M (.seeded i seed n l b)).gen = R.seeded seed ∧
      (p.call R E F M (.seeded i seed n l b)).cals[i]? = some (s.step E (.setCalibrator n l b)).1 := by
  have hlt : i < p.cals.length := (List.getElem?_eq_some_iff.1 hs).1
  unfold Process.call
  dsimp only
  rw [hs]
  dsimp only
  rw [hok]
  exact ⟨rfl, by simp [hlt]⟩

/-- C186, what holds: in two processes with any number of calibrators and the generators in any state, a calibrator is
given the same seed, in a call that does not raise.  If the two calibrators agree in the inputs of a fit and until the
fit no calibrator is seeded or fits, then the fits have the same outcome, however many other calls on this and the other
calibrators there are. -/
theorem C186_reproducible_partial (R : Rng K σ) (E : CalEnv K) (F : FitEnv K) (M : MatchKernels K)
    (p p' : Process K σ) (i i' seed : Nat) (s s' : Session K) (hs : p.cals[i]? = some s) (hs' : p'.cals[i']? = some s')
    (hsame : SameInputs s.world s'.world) (n n' : Option K) (l : Option (List K)) (b b' : Option PlotLib)
    (hok : (s.step E (.setCalibrator n l b)).2 = .ok ()) (h h' : List (ProcCall K)) (hh : ∀ c ∈ h, Harmless i c)
    (hh' : ∀ c ∈ h', Harmless i' c) (a : FitArgs K) (arr arr' : Bool) (m : Nat) :
    SeededAlike ((p.calls R E F M (.seeded i seed n l b :: h)).fitOutcome R F i a arr m)
      ((p'.calls R E F M (.seeded i' seed n' l b' :: h')).fitOutcome R F i' a arr' m) := by
  obtain ⟨hok', hs1⟩ := setCalibrator_same E s s' hsame n n' l b b' hok
  obtain ⟨g1, q1⟩ := seeded_step R E F M p i seed n l b s hs hok
  obtain ⟨g2, q2⟩ := seeded_step R E F M p' i' seed n' l b' s' hs' hok'
  obtain ⟨e1, t, t1, t2⟩ := harmless_steps R E F M h i hh _ _ q1
  obtain ⟨e2, t', t1', t2'⟩ := harmless_steps R E F M h' i' hh' _ _ q2
  have sym : ∀ {u v : World K}, SameInputs u v → SameInputs v u := fun h =>
    ⟨h.1.symm, h.2.symm, h.3.symm, h.4.symm, h.5.symm, h.6.symm, h.7.symm, h.8.symm, h.9.symm, h.10.symm, h.11.symm⟩
  refine ⟨(t.fit F a arr (R.random (R.seeded seed) m)).2, (t'.fit F a arr' (R.random (R.seeded seed) m)).2, ?_, ?_, ?_⟩
  · show Option.map _ ((Process.calls R E F M (p.call R E F M (.seeded i seed n l b)) h).cals[i]?) = _
    rw [t1]
    show some (t.fit F a arr (R.random (Process.calls R E F M (p.call R E F M (.seeded i seed n l b)) h).gen m)).2 = _
    rw [e1, g1]
  · show Option.map _ ((Process.calls R E F M (p'.call R E F M (.seeded i' seed n' l b')) h').cals[i']?) = _
    rw [t1']
    show some (t'.fit F a arr' (R.random (Process.calls R E F M (p'.call R E F M (.seeded i' seed n' l b')) h').gen m)).2 = _
    rw [e2, g2]
  · exact C184_inputs F t.world t'.world (((sym t2).trans' hs1).trans' t2') a (R.random (R.seeded seed) m)

theorem sameCall_step (R : Rng K σ) (E : CalEnv K) (F : FitEnv K) (M : MatchKernels K) (p : Process K σ)
    {c c' : ProcCall K} (h : SameCall c c') : p.call R E F M c = p.call R E F M c' := by
  rcases h with rfl | ⟨i, a, arr, rnd, rnd', rfl, rfl, hl⟩
  · rfl
  · unfold Process.call
    dsimp only
    rw [hl]

/-- C186 for whole programs: two runs that start from the same calibrators, with the generator in any two states, and
seed one of them first, go through the same states whatever calls follow, fits of all calibrators included; of the tapes
that the model gives to the fits only the lengths matter. -/
theorem C186_replay_partial (R : Rng K σ) (E : CalEnv K) (F : FitEnv K) (M : MatchKernels K) (cals : List (Session K))
    (g g' : σ) (i seed : Nat) (s : Session K) (hs : cals[i]? = some s) (n : Option K) (l : Option (List K))
    (b : Option PlotLib) (hok : (s.step E (.setCalibrator n l b)).2 = .ok ()) (h h' : List (ProcCall K))
    (hh : List.Forall₂ SameCall h h') :
    Process.calls R E F M ⟨cals, g⟩ (.seeded i seed n l b :: h) =
      Process.calls R E F M ⟨cals, g'⟩ (.seeded i seed n l b :: h') := by
  have : Process.call R E F M ⟨cals, g⟩ (.seeded i seed n l b) = Process.call R E F M ⟨cals, g'⟩ (.seeded i seed n l b) := by
    unfold Process.call
    dsimp only
    rw [hs]
    dsimp only
    rw [hok]
  show Process.calls R E F M (Process.call R E F M ⟨cals, g⟩ _) h = Process.calls R E F M (Process.call R E F M ⟨cals, g'⟩ _) h'
  rw [this]
  generalize Process.call R E F M ⟨cals, g'⟩ (.seeded i seed n l b) = p
  induction hh generalizing p with
  | nil => rfl
  | cons hc _ ih =>
    show Process.calls R E F M (p.call R E F M _) _ = Process.calls R E F M (p.call R E F M _) _
    rw [sameCall_step R E F M p hc]
    exact ih _

/-- C186, what calls share: calls on other calibrators, seeds and fits included, leave a calibrator as it is; only the
generator can carry their effect. -/
theorem C186_others (R : Rng K σ) (E : CalEnv K) (F : FitEnv K) (M : MatchKernels K) (i : Nat) (h : List (ProcCall K))
    (hh : ∀ c ∈ h, c.target ≠ i) (p : Process K σ) : (p.calls R E F M h).cals[i]? = p.cals[i]? := by
  induction h generalizing p with
  | nil => rfl
  | cons c h ih =>
    show (Process.calls R E F M (p.call R E F M c) h).cals[i]? = _
    rw [ih (fun d hd => hh d (List.mem_cons_of_mem _ hd))]
    have hc := hh c List.mem_cons_self
    have key : ∀ (j : Nat) (t : Session K), j ≠ i → (p.cals.set j t)[i]? = p.cals[i]? :=
      fun j t hj => by rw [List.getElem?_set_ne hj]
    cases c with
    | seeded j seed n l b =>
      unfold Process.call
      dsimp only
      cases p.cals[j]? with
      | none => rfl
      | some s =>
        dsimp only
        cases (s.step E (.setCalibrator n l b)).2 <;> exact key j _ hc
    | call j c =>
      cases c <;> (unfold Process.call; dsimp only; cases p.cals[j]? <;> first | rfl | exact key j _ hc)

/-- A seed in a call that raises, as for a pixel list that `interp1d` refuses, is not used. -/
theorem C186_refused (R : Rng K σ) (E : CalEnv K) (F : FitEnv K) (M : MatchKernels K) (p : Process K σ) (i seed : Nat)
    (n : Option K) (l : List K) (b : Option PlotLib) (e : PyErr) (hl : E.interp l = .error e) :
    (p.call R E F M (.seeded i seed n (some l) b)).gen = p.gen := by
  unfold Process.call
  dsimp only
  cases p.cals[i]? with
  | none => rfl
  | some s =>
    have : (s.step E (.setCalibrator n (some l) b)).2 = .error e := by
      show (s.world.cal.props.set E.interp n (some l) b).2 = .error e
      unfold CalProps.set
      dsimp only [keepOr]
      rw [hl]
    dsimp only
    rw [this]

end

/-- C186, as documented ("set an optional seed ... useful for deterministic debugging"): the seed given to a calibrator
determines its next fit, whatever is done with other calibrators in between. -/
def C186_Statement : Prop :=
  ∀ (R : Rng ℚ Nat) (E : CalEnv ℚ) (F : FitEnv ℚ) (M : MatchKernels ℚ) (p : Process ℚ Nat) (i seed : Nat) (s : Session ℚ),
    p.cals[i]? = some s → (s.step E (.setCalibrator none none none)).2 = .ok () →
    ∀ h : List (ProcCall ℚ), (∀ c ∈ h, c.target ≠ i) → ∀ (a : FitArgs ℚ) (arr : Bool) (m : Nat),
    Spec.SeededAlike ((p.calls R E F M [.seeded i seed none none none]).fitOutcome R F i a arr m)
      ((p.calls R E F M (.seeded i seed none none none :: h)).fitOutcome R F i a arr m)

/-- A generator that repeats one draw, a different one for each seed. -/
def Toy.rng : Rng ℚ Nat where
  seeded := id
  uniform := fun _ _ => 0
  draw := fun g _ => if g = 1 then ⟨[0, 2], [0, 0]⟩ else ⟨[0, 0], [0, 0]⟩
  after := fun g _ _ n => g + n

/-- Two calibrators with the same four peaks and lines. -/
def Toy.twoCals : Option (Process ℚ Nat) :=
  (Toy.fourPeaks [4500, 5900, 7440, 8847]).toOption.map (fun w => ⟨[Session.new w false, Session.new w false], 7⟩)

/-- The matched peaks of a fit. -/
def Toy.outcomePeaks : Option (CallRes (FitReport ℚ)) → Option (List ℚ)
  | some (.done (.ok r)) => some r.matchedPeaks
  | _ => none

theorem Toy.outcomePeaks_same {x y : Option (CallRes (FitReport ℚ))} {l : List ℚ} (h : Spec.SeededAlike x y)
    (hx : Toy.outcomePeaks x = some l) : Toy.outcomePeaks y = some l := by
  obtain ⟨u, v, rfl, rfl, h⟩ := h
  cases u with
  | running => cases hx
  | done r =>
    cases r with
    | error e => cases hx
    | ok r =>
      cases v with
      | running => exact absurd h id
      | done r' =>
        cases r' with
        | error e => exact absurd h id
        | ok r' => cases (show r = r' from h); exact hx

theorem Toy.setCalibrator_ok (s : Session ℚ) : (s.step Toy.calEnv (.setCalibrator none none none)).2 = .ok () := rfl

/-- C186 is false of the code: the generator is shared.  Giving another calibrator another seed changes the fit: three
peaks are matched instead of four. -/
theorem C186_refuted : ¬ C186_Statement := by
  intro h
  have hc : Toy.twoCals.map (fun p =>
      ((p.cals[0]?).isSome,
       Toy.outcomePeaks ((p.calls Toy.rng Toy.calEnv Toy.env Toy.mkern [.seeded 0 1 none none none]).fitOutcome Toy.rng
         Toy.env 0 (Toy.fourArgs 1) false 1),
       Toy.outcomePeaks ((p.calls Toy.rng Toy.calEnv Toy.env Toy.mkern [.seeded 0 1 none none none,
         .seeded 1 2 none none none]).fitOutcome Toy.rng Toy.env 0 (Toy.fourArgs 1) false 1))) =
      some (true, some [10, 20, 31, 41], some [10, 20, 31]) := by decide +kernel
  cases hp : Toy.twoCals with
  | none => rw [hp] at hc; cases hc
  | some p =>
    rw [hp] at hc
    simp only [Option.map_some, Option.some.injEq, Prod.mk.injEq] at hc
    obtain ⟨h1, h2, h3⟩ := hc
    obtain ⟨s, hs⟩ := Option.isSome_iff_exists.1 h1
    have := h Toy.rng Toy.calEnv Toy.env Toy.mkern p 0 1 s hs (Toy.setCalibrator_ok s) [.seeded 1 2 none none none]
      (by intro c hc; rw [List.mem_singleton.1 hc]; decide) (Toy.fourArgs 1) false 1
    have := Toy.outcomePeaks_same this h2
    rw [h3] at this
    exact absurd this (by decide)

/-- Case for `C186_reproducible_partial`: before the seed the generators differ and one process has fitted, after it
the other calibrator is configured and this one switched to plotly; both fits match the four peaks. -/
example : Toy.twoCals.map (fun p =>
    let p1 := p.calls Toy.rng Toy.calEnv Toy.env Toy.mkern [.call 1 (.fit (Toy.fourArgs 1) false ⟨fun _ => 0, [⟨[], []⟩]⟩)]
    (decide (p1.gen = p.gen),
     Toy.outcomePeaks ((p.calls Toy.rng Toy.calEnv Toy.env Toy.mkern [.seeded 0 1 none none none]).fitOutcome Toy.rng
       Toy.env 0 (Toy.fourArgs 1) false 1),
     Toy.outcomePeaks ((p1.calls Toy.rng Toy.calEnv Toy.env Toy.mkern [.seeded 0 1 none none (some .plotly),
       .call 1 (.set (.setRansac { sampleSize := some 3 })), .call 0 (.set .usePlotly)]).fitOutcome Toy.rng Toy.env 0
       (Toy.fourArgs 1) false 1))) = some (false, some [10, 20, 31, 41], some [10, 20, 31, 41]) := by
  decide +kernel

/-- The same by the theorem, for every generator, all arguments of the fit and any number of passes. -/
example (p : Process ℚ Nat) (hp : Toy.twoCals = some p) (R : Rng ℚ Nat) (seed : Nat) (a : FitArgs ℚ) (m : Nat) :
    Spec.SeededAlike ((p.calls R Toy.calEnv Toy.env Toy.mkern [.seeded 0 seed none none none]).fitOutcome R Toy.env 0 a false m)
      ((p.calls R Toy.calEnv Toy.env Toy.mkern [.seeded 1 seed none none none,
        .call 0 (.set (.setRansac { sampleSize := some 3 })), .call 1 (.set .usePlotly)]).fitOutcome R Toy.env 1 a true m) := by
  have hc : ∃ w : World ℚ, p.cals = [Session.new w false, Session.new w false] := by
    unfold Toy.twoCals at hp
    cases hw : (Toy.fourPeaks [4500, 5900, 7440, 8847]).toOption with
    | none => rw [hw] at hp; cases hp
    | some w => rw [hw] at hp; cases hp; exact ⟨w, rfl⟩
  obtain ⟨w, hw⟩ := hc
  exact C186_reproducible_partial R Toy.calEnv Toy.env Toy.mkern p p 0 1 seed (Session.new w false) (Session.new w false)
    (by rw [hw]; rfl) (by rw [hw]; rfl) (.rfl' _) none none none none none rfl []
    [.call 0 (.set (.setRansac { sampleSize := some 3 })), .call 1 (.set .usePlotly)] (by simp)
    (by
      intro c hc
      rcases List.mem_cons.1 hc with rfl | hc
      · intro h; cases h
      · rw [List.mem_singleton.1 hc]; intro _; trivial) a false true m

/-- Case for `C186_replay_partial`: generators in two states, a fit of both calibrators after the seed. -/
example (p : Process ℚ Nat) (hp : Toy.twoCals = some p) :
    Process.calls Toy.rng Toy.calEnv Toy.env Toy.mkern ⟨p.cals, 3⟩ [.seeded 0 1 none none none,
        .call 0 (.fit (Toy.fourArgs 1) false Toy.rnd), .call 1 (.fit (Toy.fourArgs 1) false Toy.rnd)] =
      Process.calls Toy.rng Toy.calEnv Toy.env Toy.mkern ⟨p.cals, 8⟩ [.seeded 0 1 none none none,
        .call 0 (.fit (Toy.fourArgs 1) false ⟨fun _ => 5, Toy.rnd.tape.map (fun _ => ⟨[], []⟩)⟩), .call 1 (.fit (Toy.fourArgs 1) false Toy.rnd)] := by
  have hc : ∃ s, p.cals[0]? = some s := by
    unfold Toy.twoCals at hp
    cases hw : (Toy.fourPeaks [4500, 5900, 7440, 8847]).toOption with
    | none => rw [hw] at hp; cases hp
    | some w => rw [hw] at hp; cases hp; exact ⟨_, rfl⟩
  obtain ⟨s, hs⟩ := hc
  exact C186_replay_partial Toy.rng Toy.calEnv Toy.env Toy.mkern p.cals 3 8 0 1 s hs none none none
    (Toy.setCalibrator_ok s) _ _ (.cons (.inr ⟨_, _, _, _, _, rfl, rfl, by simp⟩) (.cons (.inl rfl) .nil))

/-- Case for `C186_others`: the other calibrator is seeded and fits; the generator moves, this calibrator stays. -/
example : Toy.twoCals.map (fun p =>
    let p1 := p.calls Toy.rng Toy.calEnv Toy.env Toy.mkern [.seeded 1 2 none none none,
      .call 1 (.fit (Toy.fourArgs 1) false ⟨fun _ => 0, [⟨[], []⟩]⟩)]
    (p1.gen, (p1.cals[0]?).map (fun s => decide (s.world.cal.fitCoeff = none)),
      (p1.cals[1]?).map (fun s => decide (s.world.cal.fitCoeff = none)))) = some (3, some true, some false) := by
  decide +kernel

/-- Case for `C186_refused`: a pixel list without entries. -/
example : Toy.twoCals.map (fun p => (p.call Toy.rng { Toy.calEnv with interp := fun l => if l = [] then .error .valueError else .ok () }
    Toy.env Toy.mkern (.seeded 0 1 none (some []) none)).gen) = some 7 := by
  decide +kernel

end Rascal
