import Verif.Props.SeedProps

/-! Property theorems C213: what a fit draws after it has stopped, and how different the runs of two seeds can be. -/

set_option linter.unusedSectionVars false

namespace Rascal

section
variable {K σ : Type _} [Field K] [LinearOrder K] [IsStrictOrderedRing K] [FloorRing K]

/-- The call has returned or raised. -/
def Spec.Stopped {α : Type _} : CallRes α → Prop
  | .running => False
  | .done _ => True

open Spec

theorem run_stopped (k : Kernels K) (c : RansacCfg K) (tape more : List Draw) (ts : List Trial) (s : Best K)
    (h : ∀ f, c.run k tape ts s ≠ .running f) : c.run k (tape ++ more) ts s = c.run k tape ts s := by
  induction tape generalizing ts s with
  | nil =>
    cases ts with
    | nil => cases more <;> rfl
    | cons t ts => exact absurd rfl (h s)
  | cons d ds ih =>
    cases ts with
    | nil => rfl
    | cons t ts =>
      simp only [List.cons_append, RansacCfg.run] at h ⊢
      cases ha : c.attempt k d t s with
      | retry => rw [ha] at h; exact ih _ _ h
      | next s1 => rw [ha] at h; exact ih _ _ h
      | raised e s1 => rfl

theorem solveLists_stopped (F : FitEnv K) (k : Kernels K) (c : Cal K) (a : FitArgs K) (deg : Nat) (u : Nat → K)
    (tape more : List Draw) (x y : List K) (h : Stopped (c.solveLists F k a deg ⟨u, tape⟩ x y).2) :
    c.solveLists F k a deg ⟨u, tape ++ more⟩ x y = c.solveLists F k a deg ⟨u, tape⟩ x y := by
  unfold Cal.solveLists at h ⊢
  dsimp only at h ⊢
  split
  · rfl
  · rename_i d hd
    rw [hd] at h
    dsimp only at h
    split
    · rfl
    · rename_i cost err hs
      rw [hs] at h
      dsimp only at h
      rw [run_stopped]
      intro f hf
      rw [hf] at h
      exact h

theorem solve_stopped (F : FitEnv K) (k : Kernels K) (c : Cal K) (lines : List K) (a : FitArgs K) (deg : Nat)
    (u : Nat → K) (tape more : List Draw) (h : Stopped (c.solve F k lines a deg ⟨u, tape⟩).2) :
    c.solve F k lines a deg ⟨u, tape ++ more⟩ = c.solve F k lines a deg ⟨u, tape⟩ := by
  unfold Cal.solve at h ⊢
  dsimp only at h ⊢
  split
  · rfl
  · rename_i cands hc
    rw [hc] at h
    dsimp only at h
    split
    · rfl
    · rename_i hd
      rw [if_neg hd] at h
      exact solveLists_stopped F k c a deg u tape more _ _ h

theorem fitSearch_stopped (F : FitEnv K) (c : Cal K) (lines : List K) (a : FitArgs K) (u : Nat → K)
    (tape more : List Draw) (h : Stopped (c.fitSearch F lines a ⟨u, tape⟩).2) :
    c.fitSearch F lines a ⟨u, tape ++ more⟩ = c.fitSearch F lines a ⟨u, tape⟩ := by
  unfold Cal.fitSearch at h ⊢
  dsimp only at h ⊢
  rw [solve_stopped]
  revert h
  split
  · exact fun h => absurd h id
  · rename_i e he
    intro _
    rw [he]
    trivial
  · rename_i out he
    intro _
    rw [he]
    trivial

theorem fitWith_stopped (F : FitEnv K) (c : Cal K) (lines : List K) (a : FitArgs K) (u : Nat → K)
    (tape more : List Draw) (h : Stopped (c.fitWith F lines a ⟨u, tape⟩).2) :
    c.fitWith F lines a ⟨u, tape ++ more⟩ = c.fitWith F lines a ⟨u, tape⟩ := by
  unfold Cal.fitWith at h ⊢
  dsimp only at h ⊢
  split
  · rfl
  · rename_i v hv
    rw [hv] at h
    exact fitSearch_stopped F _ lines a u tape more h

/-- C213: once `fit` has returned or raised, the random numbers that come later make no difference to its outcome or to
the calibrator it leaves. -/
theorem C213_final (F : FitEnv K) (w : World K) (a : FitArgs K) (u : Nat → K) (tape more : List Draw)
    (h : Stopped (w.fit F a ⟨u, tape⟩).2) : w.fit F a ⟨u, tape ++ more⟩ = w.fit F a ⟨u, tape⟩ := by
  unfold World.fit at h ⊢
  dsimp only at h ⊢
  split
  · rfl
  · rename_i ht
    rw [if_neg ht] at h
    split
    · rfl
    · rename_i lines hl
      rw [hl] at h
      dsimp only at h
      rw [fitWith_stopped F _ lines a u tape more h]

/-- C213 for the stream of draws of a generator: however many passes are looked at, `fit` has at most one outcome, and
leaves at most one calibrator. -/
theorem C213_one_outcome (F : FitEnv K) (w : World K) (a : FitArgs K) (u : Nat → K) (draw : Nat → Draw) (n m : Nat)
    (hn : Stopped (w.fit F a ⟨u, (List.range n).map draw⟩).2) (hm : Stopped (w.fit F a ⟨u, (List.range m).map draw⟩).2) :
    w.fit F a ⟨u, (List.range n).map draw⟩ = w.fit F a ⟨u, (List.range m).map draw⟩ := by
  have key : ∀ n m : Nat, n ≤ m → Stopped (w.fit F a ⟨u, (List.range n).map draw⟩).2 →
      w.fit F a ⟨u, (List.range m).map draw⟩ = w.fit F a ⟨u, (List.range n).map draw⟩ := by
    intro n m hnm hn
    obtain ⟨d, rfl⟩ := Nat.exists_eq_add_of_le hnm
    rw [List.range_add, List.map_append]
    exact C213_final F w a u _ _ hn
  rcases Nat.le_total n m with h | h
  · exact (key n m h hn).symm
  · exact key m n h hm

theorem noMatches_same (w : World K) : SameInputs w w.noMatches :=
  ⟨rfl, rfl, rfl, rfl, rfl, rfl, rfl, rfl, rfl, rfl, rfl⟩

theorem stopped_same {α : Type _} {x y : CallRes α} (h : SameOutcome x y) (hx : Stopped x) : Stopped y := by
  cases x with
  | running => exact absurd hx id
  | done r =>
    cases y with
    | running => cases r <;> exact h
    | done r' => trivial

theorem session_stopped (F : FitEnv K) (s : Session K) (a : FitArgs K) (arr : Bool) (u : Nat → K) (tape more : List Draw)
    (h : Stopped (s.fit F a arr ⟨u, tape⟩).2) : s.fit F a arr ⟨u, tape ++ more⟩ = s.fit F a arr ⟨u, tape⟩ := by
  have h1 : Stopped (s.world.fit F a ⟨u, tape⟩).2 := h
  have h2 := stopped_same (C184_inputs F s.world s.world.noMatches (noMatches_same _) a ⟨u, tape⟩) h1
  unfold Session.fit
  dsimp only
  rw [C213_final F _ a u tape more h1, C213_final F _ a u tape more h2]

/-- C213 for a process: a fit that is over within `n` passes has the same outcome however long one waits. -/
theorem C213_waiting (R : Rng K σ) (F : FitEnv K) (p : Process K σ) (i : Nat) (a : FitArgs K) (arr : Bool) (n d : Nat)
    (r : PyRes (FitReport K)) (h : p.fitOutcome R F i a arr n = some (.done r)) :
    p.fitOutcome R F i a arr (n + d) = some (.done r) := by
  unfold Process.fitOutcome at h ⊢
  cases hs : p.cals[i]? with
  | none => rw [hs] at h; cases h
  | some s =>
    rw [hs] at h
    simp only [Option.map_some, Option.some.injEq] at h ⊢
    unfold Rng.random at h ⊢
    rw [List.range_add, List.map_append, session_stopped F s a arr _ _ _ (by rw [h]; trivial), h]

/-- C213 with C186: two calibrators in any two processes that agree in the inputs of a fit, get the same seed in a call
that does not raise, and fit before another seed or fit, return the same report or both raise, however many passes each
of the two fits is given, if only both end. -/
theorem C213_seeded (R : Rng K σ) (E : CalEnv K) (F : FitEnv K) (M : MatchKernels K)
    (p p' : Process K σ) (i i' seed : Nat) (s s' : Session K) (hs : p.cals[i]? = some s) (hs' : p'.cals[i']? = some s')
    (hsame : SameInputs s.world s'.world) (n n' : Option K) (l : Option (List K)) (b b' : Option PlotLib)
    (hok : (s.step E (.setCalibrator n l b)).2 = .ok ()) (h h' : List (ProcCall K)) (hh : ∀ c ∈ h, Harmless i c)
    (hh' : ∀ c ∈ h', Harmless i' c) (a : FitArgs K) (arr arr' : Bool) (m m' : Nat) (r r' : PyRes (FitReport K))
    (hr : (p.calls R E F M (.seeded i seed n l b :: h)).fitOutcome R F i a arr m = some (.done r))
    (hr' : (p'.calls R E F M (.seeded i' seed n' l b' :: h')).fitOutcome R F i' a arr' m' = some (.done r')) :
    ∀ x, r = .ok x ↔ r' = .ok x := by
  have q := C213_waiting R F _ i a arr m m' r hr
  have q' := C213_waiting R F _ i' a arr' m' m r' hr'
  rw [Nat.add_comm] at q'
  obtain ⟨u, v, e1, e2, e3⟩ := C186_reproducible_partial R E F M p p' i i' seed s s' hs hs' hsame n n' l b b' hok h h' hh hh'
    a arr arr' (m + m')
  rw [q] at e1
  rw [q'] at e2
  cases e1
  cases e2
  intro x
  cases r with
  | error e =>
    cases r' with
    | error e' => exact ⟨fun h => (by cases h), fun h => (by cases h)⟩
    | ok y => exact absurd e3 id
  | ok y =>
    cases r' with
    | error e' => exact absurd e3 id
    | ok y' => rw [show y = y' from e3]

/-- C213, how different two seeds can be: for any two runs of a fit on a tape of draws there is a generator for which one
seed gives the first run and another seed the second, on every calibrator of every process. -/
theorem C213_any_two (rnd rnd' : FitRandom K) : ∃ R : Rng K Bool, ∀ (E : CalEnv K) (F : FitEnv K) (M : MatchKernels K)
    (p : Process K Bool) (i : Nat) (s : Session K), p.cals[i]? = some s →
    ∀ (n : Option K) (l : Option (List K)) (b : Option PlotLib), (s.step E (.setCalibrator n l b)).2 = .ok () →
    ∀ (a : FitArgs K) (arr : Bool),
    (p.call R E F M (.seeded i 0 n l b)).fitOutcome R F i a arr rnd.tape.length =
        some ((s.step E (.setCalibrator n l b)).1.fit F a arr rnd).2 ∧
      (p.call R E F M (.seeded i 1 n l b)).fitOutcome R F i a arr rnd'.tape.length =
        some ((s.step E (.setCalibrator n l b)).1.fit F a arr rnd').2 := by
  let R : Rng K Bool :=
    { seeded := fun n => decide (n = 0)
      uniform := fun g => if g then rnd.uniform else rnd'.uniform
      draw := fun g j => (if g then rnd.tape else rnd'.tape).getD j ⟨[], []⟩
      after := fun g _ _ _ => g }
  have key : ∀ l : List Draw, (List.range l.length).map (fun j => l.getD j ⟨[], []⟩) = l := by
    intro l
    apply List.ext_getElem
    · simp
    · intro j h1 h2
      simp [List.getD_eq_getElem?_getD, h2]
  have k1 : R.random true rnd.tape.length = rnd := by
    show FitRandom.mk rnd.uniform ((List.range rnd.tape.length).map (fun j => rnd.tape.getD j ⟨[], []⟩)) = rnd
    rw [key]
  have k2 : R.random false rnd'.tape.length = rnd' := by
    show FitRandom.mk rnd'.uniform ((List.range rnd'.tape.length).map (fun j => rnd'.tape.getD j ⟨[], []⟩)) = rnd'
    rw [key]
  refine ⟨R, fun E F M p i s hs n l b hok a arr => ?_⟩
  obtain ⟨g0, c0⟩ := seeded_step R E F M p i 0 n l b s hs hok
  obtain ⟨g1, c1⟩ := seeded_step R E F M p i 1 n l b s hs hok
  constructor
  · unfold Process.fitOutcome
    rw [c0, g0]
    show some _ = some _
    rw [show R.seeded 0 = true from rfl, k1]
  · unfold Process.fitOutcome
    rw [c1, g1]
    show some _ = some _
    rw [show R.seeded 1 = false from rfl, k2]

end

/-- Case for `C213_final` and `C213_one_outcome`: with no draw the fit is still running, with one it returns, and with
three the outcome is the same. -/
example : ((Toy.fourPeaks [4500, 5900, 7440, 8847]).toOption.map (fun w =>
    ([0, 1, 3].map (fun n => Toy.outcomePeaks (some (w.fit Toy.env (Toy.fourArgs 1)
      ⟨fun _ => 0, (List.range n).map (fun j => if j = 0 then ⟨[0, 2], [0, 0]⟩ else ⟨[j], [j]⟩)⟩).2))))) =
    some [none, some [10, 20, 31, 41], some [10, 20, 31, 41]] := by
  decide +kernel

/-- Case for `C213_waiting` and `C213_seeded`: the two calibrators get the same seed and are given one pass and four. -/
example : Toy.twoCals.map (fun p =>
    (Toy.outcomePeaks ((p.calls Toy.rng Toy.calEnv Toy.env Toy.mkern [.seeded 0 1 none none none]).fitOutcome Toy.rng
       Toy.env 0 (Toy.fourArgs 1) false 1),
     Toy.outcomePeaks ((p.calls Toy.rng Toy.calEnv Toy.env Toy.mkern [.seeded 1 1 none none none,
       .call 0 (.set .usePlotly)]).fitOutcome Toy.rng Toy.env 1 (Toy.fourArgs 1) false 4))) =
    some (some [10, 20, 31, 41], some [10, 20, 31, 41]) := by
  decide +kernel

/-- Case for `C213_any_two`: two tapes with different outcomes, four peaks and three. -/
example : Toy.twoCals.map (fun p => p.cals.map (fun s =>
    (Toy.outcomePeaks (some (s.fit Toy.env (Toy.fourArgs 1) false ⟨fun _ => 0, [⟨[0, 2], [0, 0]⟩]⟩).2),
     Toy.outcomePeaks (some (s.fit Toy.env (Toy.fourArgs 1) false ⟨fun _ => 0, [⟨[0, 0], [0, 0]⟩]⟩).2)))) =
    some [(some [10, 20, 31, 41], some [10, 20, 31]), (some [10, 20, 31, 41], some [10, 20, 31])] := by
  decide +kernel

end Rascal
