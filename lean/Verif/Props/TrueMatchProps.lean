import Verif.Props.PipelineProps

/-!
More of property C179: histories that also call `match_peaks`.
-/

set_option linter.unusedSectionVars false

namespace Rascal

open Spec

section
variable {K : Type _} [Field K] [LinearOrder K] [IsStrictOrderedRing K] [FloorRing K]

/-- A call of `match_peaks` that finds true pairs: a robust fit of the degree of `t` without refinement, over distinct
peaks, such that of every peak with a line within the tolerance of its predicted wavelength only the true line is that
close, with at least as many such peaks as `t` has coefficients. -/
def Spec.TrueMatch (k : Kernels K) (t : List K) (s : Session K) (a : MatchArgs K) : Prop :=
  a.refine = false ∧ a.robust = true ∧ s.world.cal.peaks.Nodup ∧
    ∃ co lines, StartsFrom s a co ∧ co ≠ [] ∧ a.deg.getD (co.length - 1) = t.length - 1 ∧
      s.world.atlasLines = .ok lines ∧
      (∀ p ∈ s.world.cal.peaks, Near lines a.tol (k.polyval co p) →
        OnlyNear lines a.tol (k.polyval co p) (k.polyval t p)) ∧
      t.length - 1 < (s.world.cal.peaks.filter (fun p => decide (Near lines a.tol (k.polyval co p)))).length

/-- A history of calls that keep the pairs true and of calls of `match_peaks` that find true pairs. -/
def Spec.TrueHistory (E : CalEnv K) (F : FitEnv K) (M : MatchKernels K) (b : FitType) (t : List K) :
    Session K → List (SessionCall K) → Prop
  | _, [] => True
  | s, c :: cs => (TrueCall F.kern b t s c ∨ ∃ a, c = .matchPeaks a ∧ TrueMatch (F.kern b) t s a) ∧
      TrueHistory E F M b t (s.call E F M c) cs

/-- `match_peaks` in such a call leaves the true solution and true pairs. -/
theorem trueMatch_step (F : FitEnv K) (M : MatchKernels K) (b : FitType) (t : List K)
    (hE : FindsExact (F.kern b) t (t.length - 1)) (hM : RefitsExact (F.kern b) M t (t.length - 1)) (s : Session K)
    (h : OnTruth F.kern b t s) (a : MatchArgs K) (ha : TrueMatch (F.kern b) t s a) :
    OnTruth F.kern b t (s.matchPeaks F M a).1 ∧ ∃ r, (s.matchPeaks F M a).2 = .ok (.report r) ∧ r.coeffs = t ∧
      (s.matchPeaks F M a).1.world.cal.matchedPeaks.Sublist s.world.cal.peaks := by
  obtain ⟨h1, h2, hnod, co, lines, hst, hne, hd, hl, honly, hmany⟩ := ha
  have hnod' := hnod.filter (fun p => decide (Near lines a.tol ((F.kern b).polyval co p)))
  obtain ⟨s', q, q1, q2, q3, q4, q5, q6, q7⟩ := C178_restored F M s a b co lines t h.basis hst hne (fun _ => h.number)
    h1 h2 hl (by rw [hd]; exact hE) (by rw [hd]; exact hM) honly (by rw [hd, hnod'.dedup]; exact hmany)
  have g := C70_matched_peaks F M s s' a q q1
  obtain ⟨_, _, _, _, _, _, _, _, _, _, _, _, g1, g2⟩ := g
  have htypes := match_types F M s s' a q q1 (by
    intro xs ys d hbad
    by_contra hcon
    push Not at hcon
    obtain ⟨c1, c2, co', c3, c4⟩ := hcon
    have hcot : co' = co := by
      rcases c3 with ⟨_, hb⟩ | ⟨h0, hb⟩ <;> rcases hst with ⟨_, hc⟩ | ⟨h0', hc⟩
      · rw [hc] at hb; cases hb; rfl
      · rw [h0'] at hb; cases hb
      · rw [h0] at hc; cases hc
      · rw [hc] at hb; cases hb; rfl
    rw [hcot, hd] at c4
    have := hM xs none (by rw [← c1, q4, hnod'.dedup]; exact hmany)
    rw [← c4, ← c2, q5, c1, this] at hbad
    cases hbad)
  rw [q1]
  refine ⟨⟨htypes.1.trans h.basis, q3, by rw [htypes.2.1]; simp, by rw [htypes.2.2]; simp, ?_, ?_⟩, q, rfl, q2, ?_⟩
  · rw [g1, q4]; exact hnod'
  · rw [g1, g2, q5]
  · rw [g1, q4]; exact List.filter_sublist

/-- C179 with `match_peaks` among the calls: settings, removals, additions of true pairs, refits of the degree of the
solution and calls of `match_peaks` that find true pairs, in any order, keep the true solution and true pairs.  What is
missing: pixels that are stored already, fractions added to integer pixels, other degrees, and `match_peaks` with several
lines within the tolerance or with refinement. -/
theorem C179_matching_partial (E : CalEnv K) (F : FitEnv K) (M : MatchKernels K) (b : FitType) (t : List K)
    (hE : FindsExact (F.kern b) t (t.length - 1)) (hM : RefitsExact (F.kern b) M t (t.length - 1))
    (cs : List (SessionCall K)) (s : Session K) (h : OnTruth F.kern b t s) (hcs : TrueHistory E F M b t s cs) :
    OnTruth F.kern b t (s.calls E F M cs) := by
  induction cs generalizing s with
  | nil => exact h
  | cons c cs ih =>
    refine ih _ ?_ hcs.2
    rcases hcs.1 with hc | ⟨a, rfl, ha⟩
    · exact trueCall_step E F M b t s h hM c hc
    · exact (trueMatch_step F M b t hE hM s h a ha).1

/-- C179, matching after edits: whatever true history came before, `match_peaks` as above returns the true solution, and
the pairs stored after it are over peaks of the calibrator: pairs added by hand are gone. -/
theorem C179_match_after_partial (E : CalEnv K) (F : FitEnv K) (M : MatchKernels K) (b : FitType) (t : List K)
    (hE : FindsExact (F.kern b) t (t.length - 1)) (hM : RefitsExact (F.kern b) M t (t.length - 1))
    (cs : List (SessionCall K)) (s : Session K) (h : OnTruth F.kern b t s) (hcs : TrueHistory E F M b t s cs)
    (a : MatchArgs K) (ha : TrueMatch (F.kern b) t (s.calls E F M cs) a) :
    ∃ s' r, (s.calls E F M cs).matchPeaks F M a = (s', .ok (.report r)) ∧ r.coeffs = t ∧
      s'.world.cal.matchedPeaks.Sublist (s.calls E F M cs).world.cal.peaks := by
  obtain ⟨_, r, h1, h2, h3⟩ := trueMatch_step F M b t hE hM _ (C179_matching_partial E F M b t hE hM cs s h hcs) a ha
  exact ⟨_, r, Prod.ext rfl h1, h2, h3⟩

end

/-- A case for both: the pair at 15.5 is added, then `match_peaks` is called with another start, which drops that pair,
and the first pair is removed; `match_peaks` once more finds all three. -/
example : ∃ s, Toy.restored false = some s ∧ ∃ s' r,
    (s.calls Toy.calEnv Toy.env Toy.mkern [.addPair true (31 / 2) 7440,
      .matchPeaks { coeff := some (true, [3103, 2801 / 10]), tol := 10, minFrac := 1 / 2 }, .removePair 1]).matchPeaks
        Toy.env Toy.mkern { tol := 10, minFrac := 1 / 2 } = (s', .ok (.report r)) ∧ r.coeffs = [3100, 280] := by
  cases hs : Toy.restored false with
  | none =>
    have : (Toy.restored false).isSome = true := by decide +kernel
    rw [hs] at this
    cases this
  | some s =>
    obtain ⟨h1, h2, h3⟩ := Toy.restored_true false s hs
    have hlp : (Toy.restored false).map (fun s =>
        let s1 := s.call Toy.calEnv Toy.env Toy.mkern (.addPair true (31 / 2) 7440)
        let s3 := s.calls Toy.calEnv Toy.env Toy.mkern [.addPair true (31 / 2) 7440,
          .matchPeaks { coeff := some (true, [3103, 2801 / 10]), tol := 10, minFrac := 1 / 2 }, .removePair 1]
        ((s1.world.atlasLines.toOption, s1.world.cal.peaks), (s3.world.atlasLines.toOption, s3.world.cal.peaks))) =
        some ((some [5900, 8700, 11780, 20000], [10, 20, 31]), (some [5900, 8700, 11780, 20000], [10, 20, 31])) := by
      decide +kernel
    rw [hs] at hlp
    simp only [Option.map_some, Option.some.injEq, Prod.mk.injEq] at hlp
    obtain ⟨⟨l1, p1⟩, l3, p3⟩ := hlp
    have hok : ∀ {x : PyRes (List ℚ)} {l}, x.toOption = some l → x = .ok l := by
      intro x l hx
      cases x with
      | error e => cases hx
      | ok v => rw [Option.some.inj hx]
    have key : ∀ co : List ℚ, co = [3103, 2801 / 10] ∨ co = [3100, 280] → ∀ p ∈ ([10, 20, 31] : List ℚ),
        OnlyNear [5900, 8700, 11780, 20000] 10 ((Toy.env.kern .poly).polyval co p)
          ((Toy.env.kern .poly).polyval [3100, 280] p) := by
      intro co hco p hp
      simp only [List.mem_cons, List.not_mem_nil, or_false] at hp
      rcases hco with rfl | rfl <;> rcases hp with rfl | rfl | rfl
      · exact ⟨[], [8700, 11780, 20000], by decide +kernel, by decide +kernel, by decide +kernel⟩
      · exact ⟨[5900], [11780, 20000], by decide +kernel, by decide +kernel, by decide +kernel⟩
      · exact ⟨[5900, 8700], [20000], by decide +kernel, by decide +kernel, by decide +kernel⟩
      · exact ⟨[], [8700, 11780, 20000], by decide +kernel, by decide +kernel, by decide +kernel⟩
      · exact ⟨[5900], [11780, 20000], by decide +kernel, by decide +kernel, by decide +kernel⟩
      · exact ⟨[5900, 8700], [20000], by decide +kernel, by decide +kernel, by decide +kernel⟩
    have hE := Toy.findsExact 3100 280
    have hM := Toy.refitsExact 3100 280 (by norm_num)
    have hcs : TrueHistory Toy.calEnv Toy.env Toy.mkern .poly [3100, 280] s [.addPair true (31 / 2) 7440,
        .matchPeaks { coeff := some (true, [3103, 2801 / 10]), tol := 10, minFrac := 1 / 2 }, .removePair 1] := by
      refine ⟨.inl ⟨by decide +kernel, by rw [h3]; decide +kernel, by rw [h2]; simp⟩, .inr ⟨_, rfl, rfl, rfl, ?_,
        [3103, 2801 / 10], _, .inl ⟨true, rfl⟩, by simp, rfl, hok l1, ?_, ?_⟩, .inl trivial, trivial⟩
      · rw [p1]; decide +kernel
      · rw [p1]; exact fun p hp _ => key _ (.inl rfl) p hp
      · rw [p1]; decide +kernel
    obtain ⟨s', r, g1, g2, _⟩ := C179_match_after_partial Toy.calEnv Toy.env Toy.mkern .poly [3100, 280] hE hM _ s h1 hcs
      { tol := 10, minFrac := 1 / 2 } ⟨rfl, rfl, by rw [p3]; decide +kernel, [3100, 280], _, .inr ⟨rfl,
        (C179_matching_partial Toy.calEnv Toy.env Toy.mkern .poly [3100, 280] hE hM _ s h1 hcs).solution⟩, by simp, rfl,
        hok l3, by rw [p3]; exact fun p hp _ => key _ (.inr rfl) p hp, by rw [p3]; decide +kernel⟩
    exact ⟨s, rfl, s', r, g1, g2⟩

end Rascal
