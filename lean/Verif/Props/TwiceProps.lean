import Verif.Props.AddAtlasProps
import Verif.Props.MatchQualityProps

/-! Property theorem C175: an element added a second time. -/

set_option linter.unusedSectionVars false

namespace Rascal

open Spec

section
variable {K : Type _} [Field K] [LinearOrder K] [IsStrictOrderedRing K]

theorem forall₂_unique {α β : Type _} (R : α → β → Prop) (hR : ∀ a b c, R a b → R a c → b = c) (l : List α)
    (r r' : List β) (h : List.Forall₂ R l r) (h' : List.Forall₂ R l r') : r = r' := by
  induction h generalizing r' with
  | nil => cases h'; rfl
  | cons hab _ ih =>
    cases h' with
    | cons hac h2 => rw [hR _ _ _ hab hac, ih _ h2]

theorem addLimits_unique (h : HoughSet K) (a : AddArgs K) (lo hi lo' hi' : K) (p : Spec.AddLimits h a lo hi)
    (q : Spec.AddLimits h a lo' hi') : lo = lo' ∧ hi = hi' := by
  obtain ⟨p1, p2⟩ := p
  obtain ⟨q1, q2⟩ := q
  refine ⟨?_, ?_⟩
  · rcases p1 with p1 | ⟨p0, p1⟩ <;> rcases q1 with q1 | ⟨q0, q1⟩
    · rw [p1] at q1; cases q1; rfl
    · rw [p1] at q0; cases q0
    · rw [p0] at q1; cases q1
    · rw [p1, q1]
  · rcases p2 with p1 | ⟨p0, p1⟩ <;> rcases q2 with q1 | ⟨q0, q1⟩
    · rw [p1] at q1; cases q1; rfl
    · rw [p1] at q0; cases q0
    · rw [p0] at q1; cases q1
    · rw [p1, q1]

/-- C175, what happens: a second, identical call of `add_atlas` adds all its lines once more. -/
theorem C175_lines_twice_partial (env : Env K) (w : World K) (a : AddArgs K) (candTol : K) (constrain : Bool)
    (h : (w.addAtlas env a candTol constrain).2 = .ok ())
    (h' : ((w.addAtlas env a candTol constrain).1.addAtlas env a candTol constrain).2 = .ok ()) :
    ∃ old new, (w.cal.atlas = none ∧ old = [] ∨ w.atlasLines = .ok old) ∧
      (w.addAtlas env a candTol constrain).1.atlasLines = .ok (old ++ new) ∧
      ((w.addAtlas env a candTol constrain).1.addAtlas env a candTol constrain).1.atlasLines =
        .ok (old ++ new ++ new) := by
  obtain ⟨old, lo, hi, rs, h1, h2, h3, h4⟩ := addAtlas_selects env w a candTol constrain h
  obtain ⟨old', lo', hi', rs', g1, g2, g3, g4⟩ := addAtlas_selects env _ a candTol constrain h'
  have hh : (w.addAtlas env a candTol constrain).1.cal.hough = w.cal.hough := by
    obtain ⟨_, _, _, _, _, hf⟩ := World.addAtlas_frame env w a candTol constrain
    rw [hf]
  rw [hh] at g2 g3
  have hold : old' = old ++ (rs.flatMap nistOf).map AtlasLine.wl := by
    rcases g1 with ⟨g, _⟩ | g
    · unfold World.atlasLines at h4
      rw [g] at h4
      cases h4
    · rw [h4] at g
      exact (Except.ok.inj g).symm
  have hrs : rs = rs' := by
    by_cases he : a.elements = .none
    · rw [he] at h3 g3
      cases h3; cases g3; rfl
    · obtain ⟨rfl, rfl⟩ := addLimits_unique _ _ _ _ _ _ (h2 he) (g2 he)
      refine forall₂_unique _ ?_ _ _ _ h3 g3
      intro e r r' p q
      unfold Selects at p q
      rw [p] at q
      exact Except.ok.inj q
  refine ⟨old, (rs.flatMap nistOf).map AtlasLine.wl, h1, h4, ?_⟩
  rw [g4, hold, hrs]

/-- C175, what follows: when every line is in the atlas twice, `match_peaks` never returns matched pairs, whatever its
arguments.  (If a line is near a peak the call raises TypeError, if none is there is nothing to fit.) -/
theorem C175_never_matches_partial (F : FitEnv K) (M : MatchKernels K) (s : Session K) (a : MatchArgs K)
    (lines : List K) (hl : s.world.atlasLines = .ok lines) (h2 : ∀ v ∈ lines, 2 ≤ lines.count v) (r : MatchReport K) :
    (s.matchPeaks F M a).2 ≠ .ok (.report r) := by
  intro h
  obtain ⟨b, co, lines', fitted, res, new, R⟩ := matchPeaks_report F M s a _ r (Prod.ext rfl h)
  have hlines := R.hasLines
  rw [hl] at hlines
  cases hlines
  have hne := R.nonempty
  have hf := R.only
  revert hne hf
  generalize r.peaks = ps
  generalize r.atlas = ls
  intro hne hf
  cases hf with
  | nil => exact hne rfl
  | @cons p l _ _ hpl _ =>
    obtain ⟨l₁, l₂, rfl, hn, ho⟩ := hpl
    have hc := h2 l (by simp)
    rw [List.count_append, List.count_cons_self] at hc
    have : 0 < (l₁ ++ l₂).count l := by rw [List.count_append]; omega
    exact ho l (List.count_pos_iff.1 this) hn

/-- C175: a calibrator without an atlas, the same `add_atlas` twice: `match_peaks` never returns matched pairs. -/
theorem C175_add_twice_partial (env : Env K) (F : FitEnv K) (M : MatchKernels K) (s : Session K) (b : AddArgs K)
    (candTol : K) (constrain : Bool) (hno : s.world.cal.atlas = none)
    (h : (s.world.addAtlas env b candTol constrain).2 = .ok ())
    (h' : ((s.world.addAtlas env b candTol constrain).1.addAtlas env b candTol constrain).2 = .ok ())
    (a : MatchArgs K) (r : MatchReport K) :
    (Session.matchPeaks F M { s with
      world := ((s.world.addAtlas env b candTol constrain).1.addAtlas env b candTol constrain).1 } a).2 ≠
        .ok (.report r) := by
  obtain ⟨old, new, h1, _, h3⟩ := C175_lines_twice_partial env s.world b candTol constrain h h'
  have hold : old = [] := by
    rcases h1 with ⟨_, h1⟩ | h1
    · exact h1
    · unfold World.atlasLines at h1
      rw [hno] at h1
      cases h1
  subst hold
  refine C175_never_matches_partial F M _ a ([] ++ new ++ new) h3 ?_ r
  intro v hv
  rw [List.nil_append] at hv ⊢
  have : 0 < new.count v := List.count_pos_iff.2 (by simpa using hv)
  rw [List.count_append]
  omega

end

/-! ### refutation and concrete cases -/

/-- The expected behaviour: adding the same element a second time does not change what is matched. -/
def C175_Statement : Prop :=
  ∀ (env : Env ℚ) (F : FitEnv ℚ) (M : MatchKernels ℚ) (s s' : Session ℚ) (b : AddArgs ℚ) (candTol : ℚ)
    (constrain : Bool), s.world.cal.atlas = none → (s.world.addAtlas env b candTol constrain).2 = .ok () →
    ((s.world.addAtlas env b candTol constrain).1.addAtlas env b candTol constrain).2 = .ok () →
    ∀ (a : MatchArgs ℚ) (r : MatchReport ℚ),
    Session.matchPeaks F M { s with world := (s.world.addAtlas env b candTol constrain).1 } a = (s', .ok (.report r)) →
    ∃ s'' r', Session.matchPeaks F M { s with
      world := ((s.world.addAtlas env b candTol constrain).1.addAtlas env b candTol constrain).1 } a =
        (s'', .ok (.report r')) ∧ r'.peaks = r.peaks ∧ r'.atlas = r.atlas

/-- Two peaks, no atlas. -/
def Toy.bare : PyRes (Session ℚ) :=
  match Cal.new (fun _ => .ok ()) [10, 20] true none with
  | .error e => .error e
  | .ok c => .ok (Session.calls Toy.calEnv Toy.env Toy.mkern (Session.new ⟨[], c⟩ false) [.fit Toy.args false Toy.rnd])

/-- A list with two xenon lines. -/
def Toy.xeList : Env ℚ := ⟨stableArgsort, [⟨"Xe", 5900, 20⟩, ⟨"Xe", 8700, 30⟩], fun _ => none⟩

/-- `add_atlas("Xe", vacuum=True)`. -/
def Toy.xeArgs : AddArgs ℚ := ⟨.str "Xe", none, none, .scalar 10, 10, true, id, id, .nist, none⟩

theorem Toy.bare_run : ∃ s r, Toy.bare = .ok s ∧ s.world.cal.atlas = none ∧
    (s.world.addAtlas xeList xeArgs 10 false).2 = .ok () ∧
    ((s.world.addAtlas xeList xeArgs 10 false).1.addAtlas xeList xeArgs 10 false).2 = .ok () ∧
    (Session.matchPeaks env mkern { s with world := (s.world.addAtlas xeList xeArgs 10 false).1 } matchArgs).2 =
      .ok (.report r) := by
  have hc : Toy.bare.toOption.bind (fun s =>
      (matchReport (Session.matchPeaks env mkern
        { s with world := (s.world.addAtlas xeList xeArgs 10 false).1 } matchArgs)).map (fun _ =>
      (s.world.cal.atlas, (s.world.addAtlas xeList xeArgs 10 false).2.toOption,
        ((s.world.addAtlas xeList xeArgs 10 false).1.addAtlas xeList xeArgs 10 false).2.toOption))) =
      some (none, some (), some ()) := by decide +kernel
  cases hs : Toy.bare with
  | error e => rw [hs] at hc; simp [Except.toOption] at hc
  | ok s =>
    rw [hs] at hc
    simp only [Except.toOption, Option.bind_some, Option.map_eq_some_iff, Prod.mk.injEq] at hc
    obtain ⟨r, hr, h1, h2, h3⟩ := hc
    refine ⟨s, r, rfl, h1, ?_, ?_, congrArg Prod.snd (Toy.matchReport_some hr)⟩
    · revert h2
      cases (s.world.addAtlas xeList xeArgs 10 false).2 <;> simp
    · revert h3
      cases ((s.world.addAtlas xeList xeArgs 10 false).1.addAtlas xeList xeArgs 10 false).2 <;> simp

/-- C175 is false: after one `add_atlas("Xe")` both peaks are matched, after two none is. -/
theorem C175_refuted : ¬ C175_Statement := by
  intro h
  obtain ⟨s, r, _, h1, h2, h3, h4⟩ := Toy.bare_run
  obtain ⟨s'', r', hr, _⟩ := h Toy.xeList Toy.env Toy.mkern s _ Toy.xeArgs 10 false h1 h2 h3 Toy.matchArgs r
    (Prod.ext rfl h4)
  exact C175_add_twice_partial Toy.xeList Toy.env Toy.mkern s Toy.xeArgs 10 false h1 h2 h3 Toy.matchArgs r'
    (by rw [hr])

/-- A case for `C175_lines_twice_partial`, `C175_never_matches_partial` and `C175_add_twice_partial`. -/
example : ∃ s : Session ℚ, Toy.bare = .ok s ∧ ∀ r,
    (Session.matchPeaks Toy.env Toy.mkern { s with world :=
      ((s.world.addAtlas Toy.xeList Toy.xeArgs 10 false).1.addAtlas Toy.xeList Toy.xeArgs 10 false).1 }
      Toy.matchArgs).2 ≠ .ok (.report r) := by
  obtain ⟨s, r, hs, h1, h2, h3, _⟩ := Toy.bare_run
  exact ⟨s, hs, C175_add_twice_partial Toy.xeList Toy.env Toy.mkern s Toy.xeArgs 10 false h1 h2 h3 Toy.matchArgs⟩

end Rascal
