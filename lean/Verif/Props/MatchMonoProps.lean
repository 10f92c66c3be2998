import Verif.Props.MatchProps

/-! Property theorems C193: a larger tolerance, more lines or more peaks in `match_peaks`. -/

set_option linter.unusedSectionVars false

namespace Rascal

open Spec

section
variable {K : Type _} [Field K] [LinearOrder K] [IsStrictOrderedRing K]

/-- The matches of a call: exactly the peaks of the calibrator with a line within the tolerance, each with that line. -/
theorem match_pairs (F : FitEnv K) (M : MatchKernels K) (s s' : Session K) (a : MatchArgs K) (r : MatchReport K)
    (h : s.matchPeaks F M a = (s', .ok (.report r))) :
    ∃ b co lines, s.basis = some b ∧ StartsFrom s a co ∧ s.world.atlasLines = .ok lines ∧
      ∀ e, e ∈ r.peaks.zip r.atlas ↔ e.1 ∈ s.world.cal.peaks ∧ OnlyNear lines a.tol ((F.kern b).polyval co e.1) e.2 := by
  obtain ⟨b, co, lines, fitted, res, new, R⟩ := matchPeaks_report F M s a s' r h
  have uniq : ∀ x u v, OnlyNear lines a.tol x u → v ∈ lines → |v - x| < a.tol → v = u := by
    rintro x u v ⟨l₁, l₂, rfl, h1, h2⟩ hv hd
    by_contra hne
    refine h2 v ?_ hd
    rcases List.mem_append.1 hv with hm | hm
    · exact List.mem_append_left _ hm
    · rcases List.mem_cons.1 hm with he | hm
      · exact absurd he hne
      · exact List.mem_append_right _ hm
  have hfa : ∀ e ∈ r.peaks.zip r.atlas, OnlyNear lines a.tol ((F.kern b).polyval co e.1) e.2 := by
    intro e he
    exact (List.forall₂_iff_zip.1 R.only).2 he
  refine ⟨b, co, lines, R.basis, R.start, R.hasLines, fun e => ⟨fun he => ⟨?_, hfa e he⟩, fun he => ?_⟩⟩
  · have := (List.of_mem_zip (a := e.1) (b := e.2) he).1
    rw [R.peaks] at this
    exact (List.mem_filter.1 this).1
  · obtain ⟨he1, l₁, l₂, hl, hd, hno⟩ := he
    have hmem : e.2 ∈ lines := by rw [hl]; simp
    have hp : e.1 ∈ r.peaks := by
      rw [R.peaks, List.mem_filter]
      exact ⟨he1, decide_eq_true ⟨e.2, hmem, hd⟩⟩
    obtain ⟨i, hi, hie⟩ := List.getElem_of_mem hp
    have hi' : i < r.atlas.length := by rw [← R.length]; exact hi
    have hz : (e.1, r.atlas[i]) ∈ r.peaks.zip r.atlas := by
      rw [List.mem_iff_getElem]
      exact ⟨i, by simp; omega, by simp [hie]⟩
    have hu := uniq _ _ _ (hfa _ hz) hmem hd
    rw [show e = (e.1, e.2) from rfl, hu]
    exact hz

/-- C193, what holds: of two calls that return and start from the same solution, the one with more peaks, more lines and a
larger tolerance has all the matches of the other.  What is missing: it may raise instead. -/
theorem C193_monotone_partial (F : FitEnv K) (M : MatchKernels K) (s s' t t' : Session K) (a c : MatchArgs K)
    (r q : MatchReport K) (h : s.matchPeaks F M a = (s', .ok (.report r))) (g : t.matchPeaks F M c = (t', .ok (.report q)))
    (hb : t.basis = s.basis) (hco : ∀ co, StartsFrom s a co → StartsFrom t c co)
    (hp : ∀ p ∈ s.world.cal.peaks, p ∈ t.world.cal.peaks)
    (hl : ∀ l l', s.world.atlasLines = .ok l → t.world.atlasLines = .ok l' → l ⊆ l') (ht : a.tol ≤ c.tol) :
    ∀ e ∈ r.peaks.zip r.atlas, e ∈ q.peaks.zip q.atlas := by
  obtain ⟨b, co, lines, h1, h2, h3, h4⟩ := match_pairs F M s s' a r h
  obtain ⟨b', co', lines', g1, g2, g3, g4⟩ := match_pairs F M t t' c q g
  have eb : b' = b := by rw [hb, h1] at g1; exact (Option.some.inj g1).symm
  have eco : co' = co := by
    rcases hco co h2 with ⟨arr, e1⟩ | ⟨e1, e2⟩ <;> rcases g2 with ⟨arr', f1⟩ | ⟨f1, f2⟩
    · rw [e1] at f1; exact (Prod.mk.inj (Option.some.inj f1)).2.symm
    · rw [e1] at f1; cases f1
    · rw [e1] at f1; cases f1
    · rw [e2] at f2; exact (Option.some.inj f2).symm
  subst eb eco
  intro e he
  obtain ⟨he1, l₁, l₂, hs, hd, _⟩ := (h4 e).1 he
  have hm : e.2 ∈ lines' := hl _ _ h3 g3 (by rw [hs]; simp)
  have hd' : |e.2 - (F.kern b').polyval co' e.1| < c.tol := lt_of_lt_of_le hd ht
  -- the peak is matched in the second call as well, and only one line is near it
  have hq : e.1 ∈ q.peaks := by
    obtain ⟨b'', co'', lines'', k1, k2, k3, k4, _⟩ := C70_matched_peaks F M t t' c q g
    have eb : b'' = b' := by rw [g1] at k1; exact (Option.some.inj k1).symm
    have eco : co'' = co' := by
      rcases g2 with ⟨arr, e1⟩ | ⟨e1, e2⟩ <;> rcases k2 with ⟨arr', f1⟩ | ⟨f1, f2⟩
      · rw [e1] at f1; exact (Prod.mk.inj (Option.some.inj f1)).2.symm
      · rw [e1] at f1; cases f1
      · rw [e1] at f1; cases f1
      · rw [e2] at f2; exact (Option.some.inj f2).symm
    have el : lines'' = lines' := by rw [g3] at k3; exact (Except.ok.inj k3).symm
    subst eb eco el
    rw [k4, List.mem_filter]
    exact ⟨hp _ he1, decide_eq_true ⟨e.2, hm, hd'⟩⟩
  obtain ⟨i, hi, hie⟩ := List.getElem_of_mem hq
  have hlen : q.peaks.length = q.atlas.length := by
    obtain ⟨_, _, _, _, _, _, R⟩ := matchPeaks_report F M t c t' q g
    exact R.length
  have hz : (e.1, q.atlas[i]'(by omega)) ∈ q.peaks.zip q.atlas := by
    rw [List.mem_iff_getElem]
    exact ⟨i, by simp; omega, by simp [hie]⟩
  obtain ⟨_, m₁, m₂, hs', hd2, hno⟩ := (g4 _).1 hz
  have hu : e.2 = q.atlas[i]'(by omega) := by
    by_contra hne
    refine hno e.2 ?_ hd'
    rw [hs'] at hm
    rcases List.mem_append.1 hm with hm | hm
    · exact List.mem_append_left _ hm
    · rcases List.mem_cons.1 hm with he | hm
      · exact absurd he hne
      · exact List.mem_append_right _ hm
  rw [show e = (e.1, e.2) from rfl, hu]
  exact hz

end

/-- C193, as expected of a tolerance: with a larger one `match_peaks` returns whenever it did, and all matches are still
there. -/
def C193_Statement : Prop :=
  ∀ (F : FitEnv ℚ) (M : MatchKernels ℚ) (s s' : Session ℚ) (a : MatchArgs ℚ) (tol : ℚ) (r : MatchReport ℚ),
    s.matchPeaks F M a = (s', .ok (.report r)) → a.tol ≤ tol →
    ∃ t q, s.matchPeaks F M { a with tol := tol } = (t, .ok (.report q)) ∧ ∀ e ∈ r.peaks.zip r.atlas, e ∈ q.peaks.zip q.atlas

/-- Two peaks, three lines. -/
def Toy.closeLines : Session ℚ := (Toy.session [10, 20] false [5900, 5905, 8700]).toOption.get (by decide +kernel)

/-- Arguments with a tolerance. -/
def Toy.within (tol : ℚ) : MatchArgs ℚ := { coeff := some (true, [3099, 280]), tol := tol, minFrac := 1 / 2 }

/-- With the tolerance 3 the call returns. -/
theorem Toy.within_three : ∃ s', Toy.closeLines.matchPeaks Toy.env Toy.mkern (Toy.within 3) =
    (s', .ok (.report ⟨[3100, 280], [10, 20], [5900, 8700], 0, [0, 0], 1, 2 / 3⟩)) := by
  have h : Toy.matchReport (Toy.closeLines.matchPeaks Toy.env Toy.mkern (Toy.within 3)) =
      some ⟨[3100, 280], [10, 20], [5900, 8700], 0, [0, 0], 1, 2 / 3⟩ := by decide +kernel
  generalize Toy.closeLines.matchPeaks Toy.env Toy.mkern (Toy.within 3) = x at h ⊢
  obtain ⟨s', o⟩ := x
  refine ⟨s', ?_⟩
  unfold Toy.matchReport at h
  split at h
  · next q hq => dsimp only at hq; rw [hq, Option.some.inj h]
  · cases h

/-- C193 is false: with the tolerance 10 two lines are near the first peak, and the call raises TypeError. -/
theorem C193_refuted : ¬ C193_Statement := by
  intro h
  obtain ⟨s', hs⟩ := Toy.within_three
  obtain ⟨t, q, hq, _⟩ := h Toy.env Toy.mkern Toy.closeLines s' (Toy.within 3) 10 _ hs (by decide +kernel)
  have hr : Toy.raised (Toy.closeLines.matchPeaks Toy.env Toy.mkern { Toy.within 3 with tol := 10 }) = some .typeError := by
    decide +kernel
  rw [hq] at hr
  revert hr
  simp [Toy.raised]

/-- Case of `C193_monotone_partial`: from the tolerance 3/2 to 3, with a line more. -/
example : Toy.matchReport (Toy.closeLines.matchPeaks Toy.env Toy.mkern (Toy.within 3)) =
      some ⟨[3100, 280], [10, 20], [5900, 8700], 0, [0, 0], 1, 2 / 3⟩ ∧
    ((Toy.session [10, 20] false [5900, 8700]).toOption.map (fun s =>
      (Toy.matchReport (s.matchPeaks Toy.env Toy.mkern (Toy.within (3 / 2))), s.basis, s.world.cal.peaks))) =
      some (some ⟨[3100, 280], [10, 20], [5900, 8700], 0, [0, 0], 1, 1⟩, Toy.closeLines.basis, Toy.closeLines.world.cal.peaks) ∧
    (Toy.within (3 / 2)).tol ≤ (Toy.within 3).tol := by
  decide +kernel

end Rascal
