import Verif.Model.Sharing
import Verif.Props.RefitProps
import Verif.Props.SearchProps
import Verif.Props.FitFailProps

/-! Property theorems C190: what a user and a calibrator have in common. -/

set_option linter.unusedSectionVars false

namespace Rascal

section
variable {K : Type _} [Field K] [LinearOrder K] [IsStrictOrderedRing K] [FloorRing K]

/-- The calibrator has the object at `a`. -/
def Spec.Held (s : Shared K) (a : Nat) : Prop :=
  a = s.peaks ∨ a = s.pixels ∨ a = s.mPeaks ∨ a = s.mAtlas ∨ s.coeff = some a

/-- The calibrator has the array of known values at `a`. -/
def Spec.HeldKnown (s : Shared K) (a : Nat) : Prop := ∃ p, s.known = some p ∧ (a = p.1 ∨ a = p.2)

/-- All addresses are those of objects, and the user does not have the calibrator's copy of the peaks. -/
structure Spec.Sound (s : Shared K) : Prop where
  held : ∀ a, Spec.Held s a → a < s.heap.length
  heldKnown : ∀ a, Spec.HeldKnown s a → a < s.kheap.length
  reach : ∀ a ∈ s.reach, a < s.heap.length
  kreach : ∀ a ∈ s.kreach, a < s.kheap.length
  peaks : s.peaks ∉ s.reach
  distinct : s.peaks ≠ s.pixels ∧ s.peaks ≠ s.mPeaks ∧ s.peaks ≠ s.mAtlas ∧ s.coeff ≠ some s.peaks

/-- The user changes nothing in place that the calibrator has at that moment. -/
def Spec.Careful (E : CalEnv K) (F : FitEnv K) (M : MatchKernels K) : Shared K → List (SharedOp K) → Prop
  | _, [] => True
  | s, o :: h => (∀ a l, o = .write a l → ¬ Spec.Held s a) ∧ (∀ a l, o = .writeKnown a l → ¬ Spec.HeldKnown s a) ∧
      Spec.Careful E F M (s.op E F M o) h

/-- The calls of a program, with the values given at the time of the call. -/
def Spec.callsOf (E : CalEnv K) (F : FitEnv K) (M : MatchKernels K) : Shared K → List (SharedOp K) → List (SessionCall K)
  | _, [] => []
  | s, o :: h => (o.asCall s).toList ++ Spec.callsOf E F M (s.op E F M o) h

/-- What the user does without the calibrator. -/
def Spec.UserOnly : SharedOp K → Prop
  | .make _ | .makeKnown _ | .write _ _ | .writeKnown _ _ => True
  | _ => False

open Spec

theorem getD_append_left' {α : Type _} (l l' : List α) (d : α) (a : Nat) (h : a < l.length) :
    (l ++ l').getD a d = l.getD a d := by
  rw [List.getD_eq_getElem?_getD, List.getD_eq_getElem?_getD, List.getElem?_append_left h]

theorem absorb_obj (s : Shared K) (t : Session K) (r : Renewed) (a : Nat) (h : a < s.heap.length) :
    (s.absorb t r).obj a = s.obj a := getD_append_left' _ _ _ _ h

theorem absorb_kobj (s : Shared K) (t : Session K) (r : Renewed) (a : Nat) (h : a < s.kheap.length) :
    (s.absorb t r).kobj a = s.kobj a := getD_append_left' _ _ _ _ h

/-- A calibrator that took over `t` looks like `t`. -/
theorem absorb_view (s : Shared K) (t : Session K) (r : Renewed) (hs : Sound s) : (s.absorb t r).view = t := by
  have hnew : ∀ i, i < 5 → (s.absorb t r).obj (s.heap.length + i) = [t.world.cal.peaks, t.world.cal.props.pixelList,
      t.world.cal.matchedPeaks, t.world.cal.matchedAtlas, t.world.cal.fitCoeff.getD []].getD i [] := by
    intro i hi
    change (s.heap ++ _).getD _ _ = _
    rw [List.getD_eq_getElem?_getD, List.getElem?_append_right (Nat.le_add_right _ _), Nat.add_sub_cancel_left,
      List.getD_eq_getElem?_getD]
  have hknew : ∀ i, i < 2 → (s.absorb t r).kobj (s.kheap.length + i) = [(t.world.cal.known.getD ([], [])).1,
      (t.world.cal.known.getD ([], [])).2].getD i [] := by
    intro i hi
    change (s.kheap ++ _).getD _ _ = _
    rw [List.getD_eq_getElem?_getD, List.getElem?_append_right (Nat.le_add_right _ _), Nat.add_sub_cancel_left,
      List.getD_eq_getElem?_getD]
  have h1 : (s.absorb t r).obj (s.absorb t r).peaks = t.world.cal.peaks := by
    by_cases hc : t.world.cal.peaks = s.obj s.peaks
    · have : (s.absorb t r).peaks = s.peaks := if_pos hc
      rw [this, absorb_obj _ _ _ _ (hs.held _ (.inl rfl)), hc]
    · have : (s.absorb t r).peaks = s.heap.length + 0 := if_neg hc
      rw [this, hnew 0 (by decide)]; rfl
  have h2 : (s.absorb t r).obj (s.absorb t r).pixels = t.world.cal.props.pixelList := by
    by_cases hc : r.pixels = false ∧ t.world.cal.props.pixelList = s.obj s.pixels
    · have : (s.absorb t r).pixels = s.pixels := if_pos hc
      rw [this, absorb_obj _ _ _ _ (hs.held _ (.inr (.inl rfl))), hc.2]
    · have : (s.absorb t r).pixels = s.heap.length + 1 := if_neg hc
      rw [this, hnew 1 (by decide)]; rfl
  have h3 : (s.absorb t r).obj (s.absorb t r).mPeaks = t.world.cal.matchedPeaks := by
    by_cases hc : r.matched = false ∧ t.world.cal.matchedPeaks = s.obj s.mPeaks
    · have : (s.absorb t r).mPeaks = s.mPeaks := if_pos hc
      rw [this, absorb_obj _ _ _ _ (hs.held _ (.inr (.inr (.inl rfl)))), hc.2]
    · have : (s.absorb t r).mPeaks = s.heap.length + 2 := if_neg hc
      rw [this, hnew 2 (by decide)]; rfl
  have h4 : (s.absorb t r).obj (s.absorb t r).mAtlas = t.world.cal.matchedAtlas := by
    by_cases hc : r.matched = false ∧ t.world.cal.matchedAtlas = s.obj s.mAtlas
    · have : (s.absorb t r).mAtlas = s.mAtlas := if_pos hc
      rw [this, absorb_obj _ _ _ _ (hs.held _ (.inr (.inr (.inr (.inl rfl))))), hc.2]
    · have : (s.absorb t r).mAtlas = s.heap.length + 3 := if_neg hc
      rw [this, hnew 3 (by decide)]; rfl
  have h5 : (s.absorb t r).coeff.map (s.absorb t r).obj = t.world.cal.fitCoeff := by
    by_cases hc : r.coeff = false ∧ t.world.cal.fitCoeff = s.coeff.map s.obj
    · have : (s.absorb t r).coeff = s.coeff := if_pos hc
      rw [this, hc.2]
      cases hcc : s.coeff with
      | none => rfl
      | some c => exact congrArg some (absorb_obj _ _ _ _ (hs.held _ (.inr (.inr (.inr (.inr hcc))))))
    · have : (s.absorb t r).coeff = t.world.cal.fitCoeff.map (fun _ => s.heap.length + 4) := if_neg hc
      rw [this]
      have h4' := hnew 4 (by decide)
      cases hcc : t.world.cal.fitCoeff with
      | none => rfl
      | some c => rw [hcc] at h4'; exact congrArg some h4'
  have h6 : (s.absorb t r).known.map (fun p => ((s.absorb t r).kobj p.1, (s.absorb t r).kobj p.2)) = t.world.cal.known := by
    by_cases hc : r.known = false ∧ t.world.cal.known = s.known.map (fun p => (s.kobj p.1, s.kobj p.2))
    · have : (s.absorb t r).known = s.known := if_pos hc
      rw [this, hc.2]
      cases hcc : s.known with
      | none => rfl
      | some c =>
        refine congrArg some (Prod.ext ?_ ?_)
        · exact absorb_kobj _ _ _ _ (hs.heldKnown _ ⟨c, hcc, .inl rfl⟩)
        · exact absorb_kobj _ _ _ _ (hs.heldKnown _ ⟨c, hcc, .inr rfl⟩)
    · have : (s.absorb t r).known = t.world.cal.known.map (fun _ => (s.kheap.length, s.kheap.length + 1)) := if_neg hc
      rw [this]
      have k0 := hknew 0 (by decide)
      have k1 := hknew 1 (by decide)
      cases hcc : t.world.cal.known with
      | none => rfl
      | some c =>
        rw [hcc] at k0 k1
        exact congrArg some (Prod.ext k0 k1)
  unfold Shared.view
  rw [h1, h2, h3, h4, h5, h6]
  rfl

theorem absorb_sound (s : Shared K) (t : Session K) (r : Renewed) (hs : Sound s)
    (hp : t.world.cal.peaks = s.obj s.peaks) : Sound (s.absorb t r) := by
  have hlen : (s.absorb t r).heap.length = s.heap.length + 5 := by
    change (s.heap ++ _).length = _
    rw [List.length_append]; rfl
  have hklen : (s.absorb t r).kheap.length = s.kheap.length + 2 := by
    change (s.kheap ++ _).length = _
    rw [List.length_append]; rfl
  have hpk : (s.absorb t r).peaks = s.peaks := if_pos hp
  have h2 : (s.absorb t r).pixels = s.pixels ∨ (s.absorb t r).pixels = s.heap.length + 1 := by
    by_cases hc : r.pixels = false ∧ t.world.cal.props.pixelList = s.obj s.pixels
    · exact .inl (if_pos hc)
    · exact .inr (if_neg hc)
  have h3 : (s.absorb t r).mPeaks = s.mPeaks ∨ (s.absorb t r).mPeaks = s.heap.length + 2 := by
    by_cases hc : r.matched = false ∧ t.world.cal.matchedPeaks = s.obj s.mPeaks
    · exact .inl (if_pos hc)
    · exact .inr (if_neg hc)
  have h4 : (s.absorb t r).mAtlas = s.mAtlas ∨ (s.absorb t r).mAtlas = s.heap.length + 3 := by
    by_cases hc : r.matched = false ∧ t.world.cal.matchedAtlas = s.obj s.mAtlas
    · exact .inl (if_pos hc)
    · exact .inr (if_neg hc)
  have h5 : (s.absorb t r).coeff = s.coeff ∨ ∀ a, (s.absorb t r).coeff = some a → a = s.heap.length + 4 := by
    by_cases hc : r.coeff = false ∧ t.world.cal.fitCoeff = s.coeff.map s.obj
    · exact .inl (if_pos hc)
    · right
      have : (s.absorb t r).coeff = t.world.cal.fitCoeff.map (fun _ => s.heap.length + 4) := if_neg hc
      rw [this]
      intro a ha
      obtain ⟨_, _, h⟩ := Option.map_eq_some_iff.1 ha
      exact h.symm
  have h6 : (s.absorb t r).known = s.known ∨
      ∀ p, (s.absorb t r).known = some p → p = (s.kheap.length, s.kheap.length + 1) := by
    by_cases hc : r.known = false ∧ t.world.cal.known = s.known.map (fun p => (s.kobj p.1, s.kobj p.2))
    · exact .inl (if_pos hc)
    · right
      have : (s.absorb t r).known = t.world.cal.known.map (fun _ => (s.kheap.length, s.kheap.length + 1)) := if_neg hc
      rw [this]
      intro a ha
      obtain ⟨_, _, h⟩ := Option.map_eq_some_iff.1 ha
      exact h.symm
  have b1 := hs.held _ (.inl rfl)
  have b2 := hs.held _ (.inr (.inl rfl))
  have b3 := hs.held _ (.inr (.inr (.inl rfl)))
  have b4 := hs.held _ (.inr (.inr (.inr (.inl rfl))))
  obtain ⟨d1, d2, d3, d4⟩ := hs.distinct
  refine ⟨?_, ?_, ?_, ?_, ?_, ?_⟩
  · intro a ha
    rw [hlen]
    rcases ha with rfl | rfl | rfl | rfl | ha
    · omega
    · omega
    · omega
    · omega
    · rcases h5 with h5 | h5
      · have := hs.held a (.inr (.inr (.inr (.inr (h5 ▸ ha)))))
        omega
      · have := h5 a ha
        omega
  · intro a ⟨p, hp', ha⟩
    rw [hklen]
    rcases h6 with h6 | h6
    · have := hs.heldKnown a ⟨p, h6 ▸ hp', ha⟩
      omega
    · have := h6 p hp'
      subst this
      dsimp only at ha
      omega
  · intro a ha
    rw [hlen]
    have := hs.reach a ha
    omega
  · intro a ha
    rw [hklen]
    have := hs.kreach a ha
    omega
  · rw [hpk]; exact hs.peaks
  · rw [hpk]
    refine ⟨by omega, by omega, by omega, ?_⟩
    rcases h5 with h5 | h5
    · rw [h5]; exact d4
    · intro hc
      have := h5 _ hc
      omega

/-- No call changes the peaks. -/
theorem call_peaks (E : CalEnv K) (F : FitEnv K) (M : MatchKernels K) (s : Session K) (c : SessionCall K) :
    (s.call E F M c).world.cal.peaks = s.world.cal.peaks := by
  cases c with
  | set op => exact (step_results E s.world op).peaks
  | fit a arr rnd => exact (fit_frame F s.world a rnd).1.peaks
  | matchPeaks a => exact (match_frame F M s a).1.peaks
  | addPair n p w => exact (edit_frame s n p w 0).1.1.peaks
  | removePair i => exact (edit_frame s true 0 0 i).2.1.peaks
  | manualRefit a => exact (C101_settings_kept E F M s [.manualRefit a] (by simp [SolutionCall])).peaks

theorem handOut_sound (s : Shared K) (hs : Sound s) : Sound s.handOut := by
  refine ⟨hs.held, hs.heldKnown, ?_, hs.kreach, ?_, hs.distinct⟩
  · intro a ha
    rcases List.mem_append.1 ha with ha | ha
    · rcases List.mem_append.1 ha with ha | ha
      · exact hs.reach a ha
      · rcases List.mem_cons.1 ha with rfl | ha
        · exact hs.held _ (.inr (.inr (.inl rfl)))
        · rw [List.mem_singleton] at ha
          subst ha
          exact hs.held _ (.inr (.inr (.inr (.inl rfl))))
    · exact hs.held _ (.inr (.inr (.inr (.inr (Option.mem_toList.1 ha)))))
  · obtain ⟨d1, d2, d3, d4⟩ := hs.distinct
    intro ha
    rcases List.mem_append.1 ha with ha | ha
    · rcases List.mem_append.1 ha with ha | ha
      · exact hs.peaks ha
      · rcases List.mem_cons.1 ha with ha | ha
        · exact d2 ha
        · rw [List.mem_singleton] at ha
          exact d3 ha
    · exact d4 (Option.mem_toList.1 ha)

theorem run_sound (E : CalEnv K) (F : FitEnv K) (M : MatchKernels K) (s : Shared K) (c : SessionCall K) (hs : Sound s) :
    Sound (s.run E F M c) := by
  have := absorb_sound s (s.view.call E F M c) (c.renews E F M s.view) hs (call_peaks E F M s.view c)
  unfold Shared.run
  split
  · exact handOut_sound _ this
  · exact this

theorem run_view (E : CalEnv K) (F : FitEnv K) (M : MatchKernels K) (s : Shared K) (c : SessionCall K) (hs : Sound s) :
    (s.run E F M c).view = s.view.call E F M c := by
  have := absorb_view s (s.view.call E F M c) (c.renews E F M s.view) hs
  unfold Shared.run
  split
  · exact this
  · exact this

theorem run_heap (E : CalEnv K) (F : FitEnv K) (M : MatchKernels K) (s : Shared K) (c : SessionCall K) :
    (∃ l, (s.run E F M c).heap = s.heap ++ l ∧ l.length = 5) ∧ (∃ l, (s.run E F M c).kheap = s.kheap ++ l ∧ l.length = 2) ∧
      (s.run E F M c).peaks = s.peaks ∧ (s.run E F M c).kreach = s.kreach := by
  have hp : (s.absorb (s.view.call E F M c) (c.renews E F M s.view)).peaks = s.peaks := if_pos (call_peaks E F M s.view c)
  unfold Shared.run
  split
  · exact ⟨⟨_, rfl, rfl⟩, ⟨_, rfl, rfl⟩, hp, rfl⟩
  · exact ⟨⟨_, rfl, rfl⟩, ⟨_, rfl, rfl⟩, hp, rfl⟩

/-- Until a fit returns, the stored solution is the one given. -/
theorem fit_given_coeff (F : FitEnv K) (w : World K) (a : FitArgs K) (rnd : FitRandom K)
    (h : ∀ r, (w.fit F a rnd).2 ≠ .done (.ok r)) : (w.fit F a rnd).1.cal.fitCoeff = a.fitCoeff := by
  rcases fit_eq F w a rnd with ⟨h1, _⟩ | ⟨lines, _, _, h1⟩
  · rw [h1]; rfl
  rw [h1] at h ⊢
  dsimp only at h ⊢
  cases he : (w.given a).enter F lines a rnd.uniform with
  | none => exact (fitWith_not_enter F _ _ _ _ he).2.2.fitCoeff
  | some L =>
    have hs := enter_spec F _ _ _ _ _ he
    rw [fitWith_enter F _ _ _ _ _ he] at h ⊢
    generalize L.cfg.run (F.kern a.fitType) rnd.tape L.trials L.start = R at h ⊢
    cases R with
    | running s => exact hs.result.fitCoeff
    | raised e s => exact hs.result.fitCoeff
    | finished s =>
      unfold LoopStart.finish at h ⊢
      dsimp only at h ⊢
      cases hf : finishSolve a.degree s with
      | error e => exact hs.result.fitCoeff
      | ok out =>
        rw [hf] at h
        cases hff : ((L.cal.setMatched s).finishFit lines.length out).2 with
        | ok r => exact absurd (congrArg CallRes.done hff) (h r)
        | error e =>
          have := finishFit_error _ _ _ _ hff
          dsimp only
          rw [this]
          exact hs.result.fitCoeff

theorem view_known (s : Shared K) (k : Option (Nat × Nat)) (h : k.map (fun p => (s.kobj p.1, s.kobj p.2)) =
    s.known.map (fun p => (s.kobj p.1, s.kobj p.2))) : ({ s with known := k } : Shared K).view = s.view := by
  unfold Shared.view
  dsimp only
  rw [show ({ s with known := k } : Shared K).kobj = s.kobj from rfl, h]
  rfl

/-- The effect of an operation that is a call. -/
theorem op_call (E : CalEnv K) (F : FitEnv K) (M : MatchKernels K) (s : Shared K) (o : SharedOp K) (c : SessionCall K)
    (hs : Sound s) (hc : o.asCall s = some c) :
    Sound (s.op E F M o) ∧ (s.op E F M o).view = s.view.call E F M c ∧ (s.op E F M o).peaks = s.peaks ∧
      (s.op E F M o).heap = (s.run E F M c).heap ∧ (s.op E F M o).kheap = (s.run E F M c).kheap ∧
      (s.op E F M o).reach = (s.run E F M c).reach ∧ (s.op E F M o).kreach = (s.run E F M c).kreach ∧
      (s.op E F M o).mPeaks = (s.run E F M c).mPeaks ∧ (s.op E F M o).mAtlas = (s.run E F M c).mAtlas := by
  have hsr := run_sound E F M s c hs
  have hvr := run_view E F M s c hs
  obtain ⟨⟨l, hl, hl5⟩, ⟨kl, hkl, hkl2⟩, hpk, hkr⟩ := run_heap E F M s c
  cases o with
  | make l => cases hc
  | makeKnown l => cases hc
  | write a l => cases hc
  | writeKnown a l => cases hc
  | call c' =>
    have := Option.some.inj hc
    subst this
    exact ⟨hsr, hvr, hpk, rfl, rfl, rfl, rfl, rfl, rfl⟩
  | setPixels a n lib =>
    have hop : s.op E F M (.setPixels a n lib) = { s.run E F M c with pixels := a } := by
      unfold Shared.op; rw [hc]
    unfold SharedOp.asCall at hc
    dsimp only at hc
    by_cases ha : a ∈ s.reach
    · rw [if_pos ha] at hc
      have hce := Option.some.inj hc
      have hreach : (s.run E F M c).reach = s.reach := by subst hce; rfl
      have hal := hs.reach a ha
      rw [hop]
      refine ⟨?_, ?_, hpk, rfl, rfl, rfl, rfl, rfl, rfl⟩
      · obtain ⟨d1, d2, d3, d4⟩ := hsr.distinct
        refine ⟨?_, hsr.heldKnown, hsr.reach, hsr.kreach, hsr.peaks, ⟨?_, d2, d3, d4⟩⟩
        · intro b hb
          rcases hb with hb | hb | hb | hb | hb
          · exact hsr.held b (.inl hb)
          · change b = a at hb
            subst hb
            change b < (s.run E F M c).heap.length
            rw [hl, List.length_append]
            omega
          · exact hsr.held b (.inr (.inr (.inl hb)))
          · exact hsr.held b (.inr (.inr (.inr (.inl hb))))
          · exact hsr.held b (.inr (.inr (.inr (.inr hb))))
        · change (s.run E F M c).peaks ≠ a
          rw [hpk]
          rintro rfl
          exact hs.peaks ha
      · have hob : (s.run E F M c).obj a = s.obj a := by
          change (s.run E F M c).heap.getD a [] = _
          rw [hl]
          exact getD_append_left' _ _ _ _ hal
        have hpx : (s.run E F M c).obj (s.run E F M c).pixels = s.obj a := by
          have h1 : (s.run E F M c).view.world.cal.props.pixelList = (s.run E F M c).obj (s.run E F M c).pixels := rfl
          rw [← h1, hvr]
          subst hce
          change (CalProps.set E.interp s.view.world.cal.props n (some (s.obj a)) lib).1.pixelList = _
          unfold CalProps.set
          dsimp only
          split
          · rfl
          · unfold CalProps.applyLibrary
            split <;> rfl
        rw [← hvr]
        change ({ (s.run E F M c) with pixels := a } : Shared K).view = _
        unfold Shared.view
        dsimp only
        have : ({ (s.run E F M c) with pixels := a } : Shared K).obj = (s.run E F M c).obj := rfl
        rw [this, hob, hpx]
        rfl
    · rw [if_neg ha] at hc; cases hc
  | setKnown p w pArr wArr =>
    unfold Shared.op
    rw [hc]
    dsimp only
    unfold SharedOp.asCall at hc
    dsimp only at hc
    by_cases hpw : p ∈ s.kreach ∧ w ∈ s.kreach
    swap
    · rw [if_neg hpw] at hc; cases hc
    rw [if_pos hpw] at hc
    have hce := Option.some.inj hc
    split
    swap
    · exact ⟨hsr, hvr, hpk, rfl, rfl, rfl, rfl, rfl, rfl⟩
    rename_i hok
    have hkn : (s.view.call E F M c).world.cal.known = some (s.kobj p, s.kobj w) := by
      subst hce
      change ((s.view.world.cal.setKnown (s.kobj p) (s.kobj w)).1).known = _
      change ((s.view.world.cal.setKnown (s.kobj p) (s.kobj w)).2.toOption).isSome = true at hok
      unfold Cal.setKnown at hok ⊢
      split at hok
      · rename_i h1
        rw [if_pos h1]
        split at hok
        · rename_i h2
          rw [if_pos h2]
          split at hok
          · rename_i h3
            rw [if_pos h3]
          · simp [Except.toOption] at hok
        · simp [Except.toOption] at hok
      · simp [Except.toOption] at hok
    have hrk : (s.run E F M c).kheap = s.kheap ++ [s.kobj p, s.kobj w] := by
      have : (s.run E F M c).kheap = s.kheap ++ [((s.view.call E F M c).world.cal.known.getD ([], [])).1,
          ((s.view.call E F M c).world.cal.known.getD ([], [])).2] := by
        unfold Shared.run
        split <;> rfl
      rw [this, hkn]
      rfl
    have bp := hs.kreach p hpw.1
    have bw := hs.kreach w hpw.2
    have e1 : (s.run E F M c).kheap.getD (if pArr then p else s.kheap.length) [] = s.kobj p := by
      rw [hrk]
      cases pArr
      · rw [List.getD_eq_getElem?_getD, if_neg (by decide), List.getElem?_append_right (le_refl _)]
        simp
      · rw [if_pos rfl]
        exact getD_append_left' _ _ _ _ bp
    have e2 : (s.run E F M c).kheap.getD (if wArr then w else s.kheap.length + 1) [] = s.kobj w := by
      rw [hrk]
      cases wArr
      · rw [List.getD_eq_getElem?_getD, if_neg (by decide), List.getElem?_append_right (Nat.le_add_right _ _),
          Nat.add_sub_cancel_left]
        rfl
      · rw [if_pos rfl]
        exact getD_append_left' _ _ _ _ bw
    refine ⟨?_, ?_, hpk, rfl, rfl, rfl, rfl, rfl, rfl⟩
    · refine ⟨hsr.held, ?_, hsr.reach, hsr.kreach, hsr.peaks, hsr.distinct⟩
      intro b ⟨q, hq, hb⟩
      have hq := Option.some.inj hq
      change b < (s.run E F M c).kheap.length
      rw [hrk, List.length_append]
      change b < s.kheap.length + 2
      subst hq
      dsimp only at hb
      rcases hb with hb | hb
      · split at hb <;> omega
      · split at hb <;> omega
    · have h0 := hvr
      have hk1 : (s.run E F M c).known.map (fun p => ((s.run E F M c).kobj p.1, (s.run E F M c).kobj p.2)) =
          some (s.kobj p, s.kobj w) := by
        rw [← hkn, ← hvr]; rfl
      rw [← hvr]
      refine view_known _ _ ?_
      rw [hk1]
      exact congrArg some (Prod.ext e1 e2)
  | fitFrom co a arr rnd =>
    unfold Shared.op
    rw [hc]
    dsimp only
    unfold SharedOp.asCall at hc
    dsimp only at hc
    by_cases hco : co ∈ s.reach
    swap
    · rw [if_neg hco] at hc; cases hc
    rw [if_pos hco] at hc
    have hce := Option.some.inj hc
    by_cases hret : c.returns F M s.view = true
    · rw [if_pos hret]
      exact ⟨hsr, hvr, hpk, rfl, rfl, rfl, rfl, rfl, rfl⟩
    · rw [if_neg hret]
      have hcl := hs.reach co hco
      have hfc : (s.view.call E F M c).world.cal.fitCoeff = some (s.obj co) := by
        subst hce
        refine fit_given_coeff F s.view.world _ rnd (fun r hr => hret ?_)
        unfold SessionCall.returns
        dsimp only
        have : (s.view.fit F { a with fitCoeff := some (s.obj co) } arr rnd).2 = .done (.ok r) := hr
        rw [this]
      have hob : (s.run E F M c).obj co = s.obj co := by
        change (s.run E F M c).heap.getD co [] = _
        rw [hl]
        exact getD_append_left' _ _ _ _ hcl
      refine ⟨?_, ?_, hpk, rfl, rfl, rfl, rfl, rfl, rfl⟩
      · obtain ⟨d1, d2, d3, d4⟩ := hsr.distinct
        refine ⟨?_, hsr.heldKnown, hsr.reach, hsr.kreach, hsr.peaks, ⟨d1, d2, d3, ?_⟩⟩
        · intro b hb
          rcases hb with hb | hb | hb | hb | hb
          · exact hsr.held b (.inl hb)
          · exact hsr.held b (.inr (.inl hb))
          · exact hsr.held b (.inr (.inr (.inl hb)))
          · exact hsr.held b (.inr (.inr (.inr (.inl hb))))
          · have := Option.some.inj hb
            subst this
            change co < (s.run E F M c).heap.length
            rw [hl, List.length_append]
            omega
        · intro hb
          have := Option.some.inj hb
          change co = (s.run E F M c).peaks at this
          rw [hpk] at this
          exact hs.peaks (this ▸ hco)
      · rw [← hvr]
        have h1 : (s.run E F M c).coeff.map (s.run E F M c).obj = some (s.obj co) := by
          rw [← hfc, ← hvr]; rfl
        unfold Shared.view
        dsimp only
        have : ({ (s.run E F M c) with coeff := some co } : Shared K).obj = (s.run E F M c).obj := rfl
        rw [this, h1, Option.map_some, hob]
        rfl

/-- The effect of an operation that is no call. -/
theorem op_alone (E : CalEnv K) (F : FitEnv K) (M : MatchKernels K) (s : Shared K) (o : SharedOp K)
    (hs : Sound s) (hc : o.asCall s = none) :
    Sound (s.op E F M o) ∧ (s.op E F M o).base = s.base ∧ (s.op E F M o).peaks = s.peaks ∧
      (s.op E F M o).pixels = s.pixels ∧ (s.op E F M o).mPeaks = s.mPeaks ∧ (s.op E F M o).mAtlas = s.mAtlas ∧
      (s.op E F M o).coeff = s.coeff ∧ (s.op E F M o).known = s.known ∧
      (∀ a < s.heap.length, (∀ l, o = .write a l → a ∉ s.reach) → (s.op E F M o).obj a = s.obj a) ∧
      (∀ a < s.kheap.length, (∀ l, o = .writeKnown a l → a ∉ s.kreach) → (s.op E F M o).kobj a = s.kobj a) ∧
      (∀ a ∈ (s.op E F M o).reach, a ∈ s.reach ∨ s.heap.length ≤ a) ∧ s.heap.length ≤ (s.op E F M o).heap.length ∧
      s.kheap.length ≤ (s.op E F M o).kheap.length := by
  have hsame : Sound s ∧ s.base = s.base ∧ s.peaks = s.peaks ∧
      s.pixels = s.pixels ∧ s.mPeaks = s.mPeaks ∧ s.mAtlas = s.mAtlas ∧
      s.coeff = s.coeff ∧ s.known = s.known ∧
      (∀ a < s.heap.length, (∀ l, o = .write a l → a ∉ s.reach) → s.obj a = s.obj a) ∧
      (∀ a < s.kheap.length, (∀ l, o = .writeKnown a l → a ∉ s.kreach) → s.kobj a = s.kobj a) ∧
      (∀ a ∈ s.reach, a ∈ s.reach ∨ s.heap.length ≤ a) ∧ s.heap.length ≤ s.heap.length ∧ s.kheap.length ≤ s.kheap.length :=
    ⟨hs, rfl, rfl, rfl, rfl, rfl, rfl, rfl, fun _ _ _ => rfl, fun _ _ _ => rfl, fun _ h => .inl h, le_refl _, le_refl _⟩
  cases o with
  | make l =>
    have hlen : (s.heap ++ [l]).length = s.heap.length + 1 := by rw [List.length_append]; rfl
    refine ⟨⟨?_, hs.heldKnown, ?_, hs.kreach, ?_, hs.distinct⟩, rfl, rfl, rfl, rfl, rfl, rfl, rfl, ?_, fun _ _ _ => rfl, ?_,
      ?_, le_refl _⟩
    · intro a ha
      change a < (s.heap ++ [l]).length
      have := hs.held a ha
      omega
    · intro a ha
      change a < (s.heap ++ [l]).length
      rcases List.mem_append.1 ha with ha | ha
      · have := hs.reach a ha
        omega
      · rw [List.mem_singleton] at ha
        omega
    · intro ha
      rcases List.mem_append.1 ha with ha | ha
      · exact hs.peaks ha
      · rw [List.mem_singleton] at ha
        have := hs.held _ (.inl rfl)
        change s.peaks = _ at ha
        omega
    · intro a ha _
      exact getD_append_left' _ _ _ _ ha
    · intro a ha
      rcases List.mem_append.1 ha with ha | ha
      · exact .inl ha
      · rw [List.mem_singleton] at ha
        exact .inr (le_of_eq ha.symm)
    · change s.heap.length ≤ (s.heap ++ [l]).length
      omega
  | makeKnown l =>
    have hlen : (s.kheap ++ [l]).length = s.kheap.length + 1 := by rw [List.length_append]; rfl
    refine ⟨⟨hs.held, ?_, hs.reach, ?_, hs.peaks, hs.distinct⟩, rfl, rfl, rfl, rfl, rfl, rfl, rfl, fun _ _ _ => rfl, ?_,
      fun _ h => .inl h, le_refl _, ?_⟩
    · intro a ha
      change a < (s.kheap ++ [l]).length
      have := hs.heldKnown a ha
      omega
    · intro a ha
      change a < (s.kheap ++ [l]).length
      rcases List.mem_append.1 ha with ha | ha
      · have := hs.kreach a ha
        omega
      · rw [List.mem_singleton] at ha
        omega
    · intro a ha _
      exact getD_append_left' _ _ _ _ ha
    · change s.kheap.length ≤ (s.kheap ++ [l]).length
      omega
  | write a l =>
    by_cases ha : a ∈ s.reach
    swap
    · have : s.op E F M (.write a l) = s := if_neg ha
      rw [this]; exact hsame
    have hop : s.op E F M (.write a l) = { s with heap := s.heap.set a l } := if_pos ha
    have hlen : (s.heap.set a l).length = s.heap.length := List.length_set
    rw [hop]
    refine ⟨⟨?_, hs.heldKnown, ?_, hs.kreach, hs.peaks, hs.distinct⟩, rfl, rfl, rfl, rfl, rfl, rfl, rfl, ?_,
      fun _ _ _ => rfl, fun _ h => .inl h, ?_, le_refl _⟩
    · intro b hb
      change b < (s.heap.set a l).length
      rw [hlen]; exact hs.held b hb
    · intro b hb
      change b < (s.heap.set a l).length
      rw [hlen]; exact hs.reach b hb
    · intro b hb hne
      have hba : a ≠ b := by
        rintro rfl
        exact hne l rfl ha
      change (s.heap.set a l).getD b [] = s.heap.getD b []
      rw [List.getD_eq_getElem?_getD, List.getD_eq_getElem?_getD, List.getElem?_set_ne hba]
    · change s.heap.length ≤ (s.heap.set a l).length
      rw [hlen]
  | writeKnown a l =>
    by_cases ha : a ∈ s.kreach
    swap
    · have : s.op E F M (.writeKnown a l) = s := if_neg ha
      rw [this]; exact hsame
    have hop : s.op E F M (.writeKnown a l) = { s with kheap := s.kheap.set a l } := if_pos ha
    have hlen : (s.kheap.set a l).length = s.kheap.length := List.length_set
    rw [hop]
    refine ⟨⟨hs.held, ?_, hs.reach, ?_, hs.peaks, hs.distinct⟩, rfl, rfl, rfl, rfl, rfl, rfl, rfl, fun _ _ _ => rfl, ?_,
      fun _ h => .inl h, le_refl _, ?_⟩
    · intro b hb
      change b < (s.kheap.set a l).length
      rw [hlen]; exact hs.heldKnown b hb
    · intro b hb
      change b < (s.kheap.set a l).length
      rw [hlen]; exact hs.kreach b hb
    · intro b hb hne
      have hba : a ≠ b := by
        rintro rfl
        exact hne l rfl ha
      change (s.kheap.set a l).getD b [] = s.kheap.getD b []
      rw [List.getD_eq_getElem?_getD, List.getD_eq_getElem?_getD, List.getElem?_set_ne hba]
    · change s.kheap.length ≤ (s.kheap.set a l).length
      rw [hlen]
  | call c => cases hc
  | setPixels a n lib =>
    have : s.op E F M (.setPixels a n lib) = s := by unfold Shared.op; rw [hc]
    rw [this]; exact hsame
  | setKnown p w pa wa =>
    have : s.op E F M (.setKnown p w pa wa) = s := by unfold Shared.op; rw [hc]
    rw [this]; exact hsame
  | fitFrom co a arr rnd =>
    have : s.op E F M (.fitFrom co a arr rnd) = s := by unfold Shared.op; rw [hc]
    rw [this]; exact hsame

theorem op_sound (E : CalEnv K) (F : FitEnv K) (M : MatchKernels K) (s : Shared K) (o : SharedOp K) (hs : Sound s) :
    Sound (s.op E F M o) ∧ (s.op E F M o).peaks = s.peaks ∧ s.heap.length ≤ (s.op E F M o).heap.length ∧
      s.kheap.length ≤ (s.op E F M o).kheap.length ∧
      (∀ a < s.heap.length, (∀ l, o = .write a l → a ∉ s.reach) → (s.op E F M o).obj a = s.obj a) ∧
      (∀ a < s.kheap.length, (∀ l, o = .writeKnown a l → a ∉ s.kreach) → (s.op E F M o).kobj a = s.kobj a) := by
  cases hc : o.asCall s with
  | none =>
    obtain ⟨h1, _, h2, _, _, _, _, _, h3, h4, _, h5, h6⟩ := op_alone E F M s o hs hc
    exact ⟨h1, h2, h5, h6, h3, h4⟩
  | some c =>
    obtain ⟨h1, _, h2, h3, h4, _⟩ := op_call E F M s o c hs hc
    obtain ⟨⟨l, hl, _⟩, ⟨kl, hkl, _⟩, _⟩ := run_heap E F M s c
    rw [hl] at h3
    rw [hkl] at h4
    refine ⟨h1, h2, ?_, ?_, ?_, ?_⟩
    · rw [h3, List.length_append]; omega
    · rw [h4, List.length_append]; omega
    · intro a ha _
      change (s.op E F M o).heap.getD a [] = _
      rw [h3]
      exact getD_append_left' _ _ _ _ ha
    · intro a ha _
      change (s.op E F M o).kheap.getD a [] = _
      rw [h4]
      exact getD_append_left' _ _ _ _ ha

/-- C190, what holds of the user's objects: no call changes a list or array the user has, given or returned; it only changes
when the user changes it. -/
theorem C190_untouched_partial (E : CalEnv K) (F : FitEnv K) (M : MatchKernels K) (s : Shared K) (hs : Sound s)
    (h : List (SharedOp K)) :
    (∀ a ∈ s.reach, (∀ l, .write a l ∉ h) → (s.ops E F M h).obj a = s.obj a) ∧
      ∀ a ∈ s.kreach, (∀ l, .writeKnown a l ∉ h) → (s.ops E F M h).kobj a = s.kobj a := by
  suffices hh : (∀ a < s.heap.length, (∀ l, .write a l ∉ h) → (s.ops E F M h).obj a = s.obj a) ∧
      ∀ a < s.kheap.length, (∀ l, .writeKnown a l ∉ h) → (s.ops E F M h).kobj a = s.kobj a from
    ⟨fun a ha => hh.1 a (hs.reach a ha), fun a ha => hh.2 a (hs.kreach a ha)⟩
  induction h generalizing s with
  | nil => exact ⟨fun _ _ _ => rfl, fun _ _ _ => rfl⟩
  | cons o h ih =>
    obtain ⟨h1, _, h3, h4, h5, h6⟩ := op_sound E F M s o hs
    obtain ⟨i1, i2⟩ := ih (s.op E F M o) h1
    constructor
    · intro a ha hw
      refine (i1 a (by omega) (fun l hl => hw l (List.mem_cons_of_mem _ hl))).trans (h5 a ha ?_)
      rintro l rfl
      exact absurd List.mem_cons_self (hw l)
    · intro a ha hw
      refine (i2 a (by omega) (fun l hl => hw l (List.mem_cons_of_mem _ hl))).trans (h6 a ha ?_)
      rintro l rfl
      exact absurd List.mem_cons_self (hw l)

/-- C190, the calibrator's copy of the peaks is its own: whatever the user does with the list given to the constructor, or with
anything else, the peaks stay. -/
theorem C190_peaks_partial (E : CalEnv K) (F : FitEnv K) (M : MatchKernels K) (s : Shared K) (hs : Sound s)
    (h : List (SharedOp K)) : (s.ops E F M h).view.world.cal.peaks = s.view.world.cal.peaks := by
  induction h generalizing s with
  | nil => rfl
  | cons o h ih =>
    obtain ⟨h1, h2, _, _, h5, _⟩ := op_sound E F M s o hs
    refine (ih (s.op E F M o) h1).trans ?_
    change (s.op E F M o).obj (s.op E F M o).peaks = s.obj s.peaks
    rw [h2]
    refine h5 _ (hs.held _ (.inl rfl)) ?_
    intro l _
    exact hs.peaks

/-- C190, a careful user: if nothing is changed in place that the calibrator has at that moment, the calibrator is at the end as
if all arguments and results had been copied. -/
theorem C190_by_value_partial (E : CalEnv K) (F : FitEnv K) (M : MatchKernels K) (s : Shared K) (hs : Sound s)
    (h : List (SharedOp K)) (hc : Careful E F M s h) :
    (s.ops E F M h).view = s.view.calls E F M (callsOf E F M s h) := by
  induction h generalizing s with
  | nil => rfl
  | cons o h ih =>
    obtain ⟨c1, c2, c3⟩ := hc
    have h1 := (op_sound E F M s o hs).1
    have hi := ih (s.op E F M o) h1 c3
    change ((s.op E F M o).ops E F M h).view = _
    rw [hi]
    change _ = s.view.calls E F M ((o.asCall s).toList ++ callsOf E F M (s.op E F M o) h)
    cases hcall : o.asCall s with
    | some c =>
      obtain ⟨_, hv, _⟩ := op_call E F M s o c hs hcall
      rw [hv]
      rfl
    | none =>
      obtain ⟨_, g1, g2, g3, g4, g5, g6, g7, g8, g9, _⟩ := op_alone E F M s o hs hcall
      have hob : ∀ a, Held s a → (s.op E F M o).obj a = s.obj a := by
        intro a ha
        refine g8 a (hs.held a ha) ?_
        intro l hl
        exact absurd ha (c1 a l hl)
      have hkob : ∀ a, HeldKnown s a → (s.op E F M o).kobj a = s.kobj a := by
        intro a ha
        refine g9 a (hs.heldKnown a ha) ?_
        intro l hl
        exact absurd ha (c2 a l hl)
      have hv : (s.op E F M o).view = s.view := by
        have e5 : (s.op E F M o).coeff.map (s.op E F M o).obj = s.coeff.map s.obj := by
          rw [g6]
          cases hcc : s.coeff with
          | none => rfl
          | some c => exact congrArg some (hob c (.inr (.inr (.inr (.inr hcc)))))
        have e6 : (s.op E F M o).known.map (fun p => ((s.op E F M o).kobj p.1, (s.op E F M o).kobj p.2)) =
            s.known.map (fun p => (s.kobj p.1, s.kobj p.2)) := by
          rw [g7]
          cases hcc : s.known with
          | none => rfl
          | some c => exact congrArg some (Prod.ext (hkob _ ⟨c, hcc, .inl rfl⟩) (hkob _ ⟨c, hcc, .inr rfl⟩))
        unfold Shared.view
        rw [e5, e6, g1, g2, g3, g4, g5, hob _ (.inl rfl), hob _ (.inr (.inl rfl)), hob _ (.inr (.inr (.inl rfl))),
          hob _ (.inr (.inr (.inr (.inl rfl))))]
      rw [hv]
      rfl

/-- What the user does alone leaves matches that the user does not have, or does not change. -/
theorem user_pairs (E : CalEnv K) (F : FitEnv K) (M : MatchKernels K) (s : Shared K) (hs : Sound s)
    (h : List (SharedOp K)) (hu : ∀ o ∈ h, UserOnly o)
    (hw : (s.mPeaks ∉ s.reach ∧ s.mAtlas ∉ s.reach) ∨ ∀ a l, .write a l ∈ h → a ≠ s.mPeaks ∧ a ≠ s.mAtlas) :
    (s.ops E F M h).view.getPairs = s.view.getPairs := by
  induction h generalizing s with
  | nil => rfl
  | cons o h ih =>
    have huo := hu o List.mem_cons_self
    have hcall : o.asCall s = none := by
      cases o with
      | make l => rfl
      | makeKnown l => rfl
      | write a l => rfl
      | writeKnown a l => rfl
      | call c => exact huo.elim
      | setPixels a n lib => exact huo.elim
      | setKnown p w pa wa => exact huo.elim
      | fitFrom co a arr rnd => exact huo.elim
    obtain ⟨g0, g1, g2, g3, g4, g5, g6, g7, g8, g9, g10, _⟩ := op_alone E F M s o hs hcall
    have b3 := hs.held _ (.inr (.inr (.inl rfl)))
    have b4 := hs.held _ (.inr (.inr (.inr (.inl rfl))))
    have hnext := ih (s.op E F M o) g0 (fun o ho => hu o (List.mem_cons_of_mem _ ho)) (by
      rw [g4, g5]
      rcases hw with ⟨w1, w2⟩ | hw
      · left
        constructor
        · intro hr
          rcases g10 _ hr with hr | hr
          · exact w1 hr
          · omega
        · intro hr
          rcases g10 _ hr with hr | hr
          · exact w2 hr
          · omega
      · right
        intro a l hl
        exact hw a l (List.mem_cons_of_mem _ hl))
    change ((s.op E F M o).ops E F M h).view.getPairs = _
    rw [hnext]
    have e3 : (s.op E F M o).obj s.mPeaks = s.obj s.mPeaks := by
      refine g8 _ b3 ?_
      intro l hl
      rcases hw with ⟨w1, _⟩ | hw
      · exact w1
      · exact absurd rfl (hw _ l (hl ▸ List.mem_cons_self)).1
    have e4 : (s.op E F M o).obj s.mAtlas = s.obj s.mAtlas := by
      refine g8 _ b4 ?_
      intro l hl
      rcases hw with ⟨_, w2⟩ | hw
      · exact w2
      · exact absurd rfl (hw _ l (hl ▸ List.mem_cons_self)).2
    have ek : (s.op E F M o).view.atlasKind = s.view.atlasKind := by
      change (s.op E F M o).base.atlasKind = s.base.atlasKind
      rw [g1]
    have ep : (s.op E F M o).view.world.cal.matchedPeaks = s.view.world.cal.matchedPeaks := by
      change (s.op E F M o).obj (s.op E F M o).mPeaks = s.obj s.mPeaks
      rw [g4, e3]
    have ea : (s.op E F M o).view.world.cal.matchedAtlas = s.view.world.cal.matchedAtlas := by
      change (s.op E F M o).obj (s.op E F M o).mAtlas = s.obj s.mAtlas
      rw [g5, e4]
    unfold Session.getPairs
    rw [ek, ep, ea]

theorem absorb_matched (s : Shared K) (t : Session K) (r : Renewed) (hr : r.matched = true) :
    (s.absorb t r).mPeaks = s.heap.length + 2 ∧ (s.absorb t r).mAtlas = s.heap.length + 3 := by
  constructor
  · exact if_neg (by rw [hr]; simp)
  · exact if_neg (by rw [hr]; simp)

/-- C190, after an edit: the lists of a calibrator to which a pair has been added, or from which one has been removed, are its
own; whatever the user does with the lists returned before, the pairs stay. -/
theorem C190_edited_partial (E : CalEnv K) (F : FitEnv K) (M : MatchKernels K) (s : Shared K) (hs : Sound s)
    (c : SessionCall K) (hedit : (∃ n p w, c = .addPair n p w ∧ (s.view.addPair n p w).2 = .ok ()) ∨
      ∃ i, c = .removePair i ∧ (s.view.removePair i).2 = .ok ())
    (h : List (SharedOp K)) (hu : ∀ o ∈ h, UserOnly o) :
    ((s.op E F M (.call c)).ops E F M h).view.getPairs = (s.view.call E F M c).getPairs := by
  obtain ⟨h1, hv, _⟩ := op_call E F M s (.call c) c hs rfl
  rw [← hv]
  refine user_pairs E F M _ h1 h hu (.inl ?_)
  have hrun : s.op E F M (.call c) = s.absorb (s.view.call E F M c) (c.renews E F M s.view) ∧
      (c.renews E F M s.view).matched = true := by
    rcases hedit with ⟨n, p, w, rfl, ho⟩ | ⟨i, rfl, ho⟩
    · refine ⟨rfl, ?_⟩
      unfold SessionCall.renews
      dsimp only
      rw [ho]
    · refine ⟨rfl, ?_⟩
      unfold SessionCall.renews
      dsimp only
      rw [ho]
  obtain ⟨e1, e2⟩ := absorb_matched s (s.view.call E F M c) (c.renews E F M s.view) hrun.2
  rw [hrun.1, e1, e2]
  constructor
  · intro hr
    have := hs.reach _ hr
    omega
  · intro hr
    have := hs.reach _ hr
    omega

/-- The call is one of `fit`, `match_peaks` and `manual_refit`, and it returns a result. -/
def Spec.GivesResult (F : FitEnv K) (M : MatchKernels K) (t : Session K) (c : SessionCall K) : Prop :=
  (∃ a arr rnd r, c = .fit a arr rnd ∧ (t.fit F a arr rnd).2 = .done (.ok r)) ∨
  (∃ a r, c = .matchPeaks a ∧ (t.matchPeaks F M a).2 = .ok (.report r)) ∨
  ∃ a r, c = .manualRefit a ∧ (t.manualRefit F M a).2 = .ok r

theorem givesResult_run (E : CalEnv K) (F : FitEnv K) (ha : IsArgsort F.argsortK) (M : MatchKernels K) (s : Shared K)
    (c : SessionCall K) (hret : GivesResult F M s.view c) :
    s.op E F M (.call c) = (s.absorb (s.view.call E F M c) (c.renews E F M s.view)).handOut ∧
      (c.renews E F M s.view).matched = true := by
  rcases hret with ⟨a, arr, rnd, r, rfl, hr⟩ | ⟨a, r, rfl, hr⟩ | ⟨a, r, rfl, hr⟩
  · refine ⟨if_pos ?_, decide_eq_true (fit_accepts F ha s.view.world a rnd r hr)⟩
    unfold SessionCall.returns
    dsimp only
    rw [hr]
  · refine ⟨if_pos ?_, ?_⟩
    · unfold SessionCall.returns
      dsimp only
      rw [hr]
    · unfold SessionCall.renews
      dsimp only
      rw [show s.view.matchPeaks F M a = ((s.view.matchPeaks F M a).1, .ok (.report r)) from Prod.ext rfl hr]
  · refine ⟨if_pos ?_, ?_⟩
    · unfold SessionCall.returns
      dsimp only
      rw [hr]
    · unfold SessionCall.renews
      dsimp only
      rw [hr]

/-- C190, older results: once `fit`, `match_peaks` or `manual_refit` has returned, the lists the user had before, those given to
it included, are not those of the calibrator; changing them does not change its pairs. -/
theorem C190_earlier_partial (E : CalEnv K) (F : FitEnv K) (ha : IsArgsort F.argsortK) (M : MatchKernels K) (s : Shared K)
    (hs : Sound s) (c : SessionCall K) (hret : GivesResult F M s.view c) (h : List (SharedOp K))
    (hu : ∀ o ∈ h, UserOnly o) (hold : ∀ a l, .write a l ∈ h → a ∈ s.reach) :
    ((s.op E F M (.call c)).ops E F M h).view.getPairs = (s.view.call E F M c).getPairs := by
  obtain ⟨h1, hv, _⟩ := op_call E F M s (.call c) c hs rfl
  rw [← hv]
  refine user_pairs E F M _ h1 h hu (.inr ?_)
  obtain ⟨hrun, hren⟩ := givesResult_run E F ha M s c hret
  obtain ⟨e1, e2⟩ := absorb_matched s (s.view.call E F M c) (c.renews E F M s.view) hren
  rw [hrun]
  intro a l hl
  have := hs.reach a (hold a l hl)
  change a ≠ (s.absorb _ _).mPeaks ∧ a ≠ (s.absorb _ _).mAtlas
  rw [e1, e2]
  omega

/-- C190, how it fails: once `fit`, `match_peaks` or `manual_refit` has returned, the user has the two lists of the calibrator
itself, and what is written into them is what the calibrator has. -/
theorem C190_shared (E : CalEnv K) (F : FitEnv K) (ha : IsArgsort F.argsortK) (M : MatchKernels K) (s : Shared K)
    (c : SessionCall K) (hret : GivesResult F M s.view c) :
    ∃ a b, a ≠ b ∧ ∀ xs ys, ((s.op E F M (.call c)).ops E F M [.write a xs, .write b ys]).view.world.cal.matchedPeaks = xs ∧
      ((s.op E F M (.call c)).ops E F M [.write a xs, .write b ys]).view.world.cal.matchedAtlas = ys := by
  obtain ⟨hrun, hren⟩ := givesResult_run E F ha M s c hret
  obtain ⟨e1, e2⟩ := absorb_matched s (s.view.call E F M c) (c.renews E F M s.view) hren
  refine ⟨s.heap.length + 2, s.heap.length + 3, by omega, fun xs ys => ?_⟩
  rw [hrun]
  generalize hu : s.absorb (s.view.call E F M c) (c.renews E F M s.view) = u at e1 e2
  have hlen : u.heap.length = s.heap.length + 5 := by
    rw [← hu]
    unfold Shared.absorb
    simp
  have hr1 : s.heap.length + 2 ∈ u.handOut.reach := by
    unfold Shared.handOut
    rw [e1]
    simp
  have hr2 : s.heap.length + 3 ∈ u.handOut.reach := by
    unfold Shared.handOut
    rw [e2]
    simp
  have hop : u.handOut.ops E F M [.write (s.heap.length + 2) xs, .write (s.heap.length + 3) ys] =
      { u.handOut with heap := (u.heap.set (s.heap.length + 2) xs).set (s.heap.length + 3) ys } := by
    show (u.handOut.op E F M (.write (s.heap.length + 2) xs)).op E F M (.write (s.heap.length + 3) ys) = _
    rw [show u.handOut.op E F M (.write (s.heap.length + 2) xs) =
      { u.handOut with heap := u.heap.set (s.heap.length + 2) xs } from if_pos hr1]
    exact if_pos hr2
  rw [hop]
  constructor
  · show (((u.heap.set (s.heap.length + 2) xs).set (s.heap.length + 3) ys)[u.mPeaks]?).getD [] = xs
    rw [e1, List.getElem?_set_ne (by omega), List.getElem?_set_self (by omega)]
    rfl
  · show (((u.heap.set (s.heap.length + 2) xs).set (s.heap.length + 3) ys)[u.mAtlas]?).getD [] = ys
    rw [e2, List.getElem?_set_self (by rw [List.length_set]; omega)]
    rfl

/-- A new calibrator is sound. -/
theorem start_sound (t : Session K) : Sound (Shared.start t) := by
  refine ⟨?_, ?_, ?_, ?_, ?_, ?_⟩
  · intro a ha
    change a < 5
    rcases ha with h | h | h | h | h
    · change a = 1 at h; omega
    · change a = 2 at h; omega
    · change a = 3 at h; omega
    · change a = 4 at h; omega
    · cases h
  · rintro a ⟨p, hp, _⟩
    cases hp
  · intro a ha
    change a < 5
    change a ∈ [0] at ha
    rw [List.mem_singleton] at ha
    omega
  · intro a ha
    cases ha
  · change (1 : Nat) ∉ [0]
    decide
  · exact ⟨by change (1 : Nat) ≠ 2; decide, by change (1 : Nat) ≠ 3; decide, by change (1 : Nat) ≠ 4; decide, by
      change (none : Option Nat) ≠ some 1; decide⟩

/-- A new calibrator looks as the constructor left it. -/
theorem start_view (t : Session K) : (Shared.start t).view = t.fresh := rfl

end

/-- C190, as expected of a program: what the user does with lists of their own, given to the calibrator or returned by it, does
not change the pairs of the calibrator. -/
def C190_Statement : Prop :=
  ∀ (E : CalEnv ℚ) (F : FitEnv ℚ) (M : MatchKernels ℚ) (t : Session ℚ) (h h' : List (SharedOp ℚ)),
    (∀ o ∈ h', Spec.UserOnly o) →
    (((Shared.start t).ops E F M h).ops E F M h').view.getPairs = ((Shared.start t).ops E F M h).view.getPairs

/-- The toy calibrator and its user. -/
def Toy.shop : Shared ℚ := Shared.start (Session.new Toy.ready false)

/-- A fit. -/
def Toy.shopFit : SharedOp ℚ := .call (.fit Toy.args false Toy.rnd)

/-- The pairs a user sees. -/
def Toy.pairsOfShop (s : Shared ℚ) : Option (List (Nat × ℚ × ℚ)) := s.view.getPairs.toOption

/-- C190 is false: `fit` returns the lists of the calibrator itself; changing one changes its pairs. -/
theorem C190_refuted : ¬ C190_Statement := by
  intro h
  have h1 := h Toy.calEnv Toy.env Toy.mkern (Session.new Toy.ready false) [Toy.shopFit] [.write 7 [99, 20]]
    (by intro o ho; rw [List.mem_singleton] at ho; subst ho; trivial)
  have h2 := congrArg Except.toOption h1
  have e1 : Toy.pairsOfShop (Toy.shop.ops Toy.calEnv Toy.env Toy.mkern [Toy.shopFit]) =
      some [(0, 10, 5900), (1, 20, 8700)] := by decide +kernel
  have e2 : Toy.pairsOfShop (Toy.shop.ops Toy.calEnv Toy.env Toy.mkern [Toy.shopFit, .write 7 [99, 20]]) =
      some [(0, 99, 5900), (1, 20, 8700)] := by decide +kernel
  have h3 : Toy.pairsOfShop (Toy.shop.ops Toy.calEnv Toy.env Toy.mkern [Toy.shopFit, .write 7 [99, 20]]) =
      Toy.pairsOfShop (Toy.shop.ops Toy.calEnv Toy.env Toy.mkern [Toy.shopFit]) := h2
  rw [e1, e2] at h3
  exact absurd h3 (by decide +kernel)

/-- Case of `C190_untouched_partial` and `C190_peaks_partial`: the user's list of peaks (0) and the lists returned by the first
fit (7, 8, 9) after another fit and a removal; the user changed the list of peaks, the calibrator has the old one. -/
example : Spec.Sound Toy.shop ∧
    (let s := Toy.shop.ops Toy.calEnv Toy.env Toy.mkern [Toy.shopFit, .write 0 [1], Toy.shopFit, .call (.removePair 0)]
     (s.obj 0, s.obj 7, s.obj 8, s.obj 9, s.view.world.cal.peaks)) =
      ([1], [10, 20], [5900, 8700], [3100, 280], [10, 20]) :=
  ⟨start_sound _, by decide +kernel⟩

/-- Case of `C190_by_value_partial`: the list 7 is changed after a second fit, when it is not the calibrator's any more. -/
example : Spec.Careful Toy.calEnv Toy.env Toy.mkern Toy.shop [Toy.shopFit, Toy.shopFit, .write 7 [99]] := by
  refine ⟨by rintro a l ⟨⟩, by rintro a l ⟨⟩, by rintro a l ⟨⟩, by rintro a l ⟨⟩, ?_, by rintro a l ⟨⟩, trivial⟩
  intro a l h
  have ha : a = 7 := by
    injection h with h1 h2
    exact h1.symm
  subst ha
  have hd : (let s := Toy.shop.ops Toy.calEnv Toy.env Toy.mkern [Toy.shopFit, Toy.shopFit]
      ¬ (7 = s.peaks ∨ 7 = s.pixels ∨ 7 = s.mPeaks ∨ 7 = s.mAtlas ∨ s.coeff = some 7)) := by decide +kernel
  exact hd

/-- Case of `C190_edited_partial`: after a pair has been removed the list 7, returned by the fit, is not the calibrator's. -/
example : ((Toy.shop.ops Toy.calEnv Toy.env Toy.mkern [Toy.shopFit]).view.removePair 0).2.toOption = some () ∧
    Toy.pairsOfShop (Toy.shop.ops Toy.calEnv Toy.env Toy.mkern [Toy.shopFit, .call (.removePair 0), .write 7 [99, 20]]) =
      some [(0, 20, 8700)] := by
  constructor <;> decide +kernel

theorem Toy.shop_fit : Spec.GivesResult Toy.env Toy.mkern (Toy.shop.ops Toy.calEnv Toy.env Toy.mkern [Toy.shopFit]).view
    (.fit Toy.args false Toy.rnd) := by
  have hc : Toy.report ((Toy.shop.ops Toy.calEnv Toy.env Toy.mkern [Toy.shopFit]).view.world.fit Toy.env Toy.args Toy.rnd)
      ≠ none := by decide +kernel
  cases hr : Toy.report ((Toy.shop.ops Toy.calEnv Toy.env Toy.mkern [Toy.shopFit]).view.world.fit Toy.env Toy.args Toy.rnd) with
  | none => exact absurd hr hc
  | some r => exact .inl ⟨_, _, _, r, rfl, Toy.report_some _ r hr⟩

theorem Toy.shop_match : Spec.GivesResult Toy.env Toy.mkern (Toy.shop.ops Toy.calEnv Toy.env Toy.mkern [Toy.shopFit]).view
    (.matchPeaks Toy.matchArgs) := by
  have hc : (match ((Toy.shop.ops Toy.calEnv Toy.env Toy.mkern [Toy.shopFit]).view.matchPeaks Toy.env Toy.mkern
      Toy.matchArgs).2 with
      | .ok (.report _) => true
      | _ => false) = true := by decide +kernel
  split at hc
  · rename_i r hr
    exact .inr (.inl ⟨_, r, rfl, hr⟩)
  · cases hc

/-- Case of `C190_earlier_partial`: the list 7 of the first fit after the second. -/
example : Spec.GivesResult Toy.env Toy.mkern (Toy.shop.ops Toy.calEnv Toy.env Toy.mkern [Toy.shopFit]).view
      (.fit Toy.args false Toy.rnd) ∧
    decide (7 ∈ (Toy.shop.ops Toy.calEnv Toy.env Toy.mkern [Toy.shopFit]).reach) = true ∧
    Toy.pairsOfShop (Toy.shop.ops Toy.calEnv Toy.env Toy.mkern [Toy.shopFit, Toy.shopFit, .write 7 [99, 20]]) =
      some [(0, 10, 5900), (1, 20, 8700)] := by
  refine ⟨Toy.shop_fit, ?_, ?_⟩ <;> decide +kernel

/-- Case of `C190_shared`: `match_peaks` after a fit. -/
example := C190_shared Toy.calEnv Toy.env Toy.env_argsort Toy.mkern _ _ Toy.shop_match

/-- Known pairs: an array of floats stays the user's, here for the pixels; from a list a new array is made. -/
example : (Toy.shop.ops Toy.calEnv Toy.env Toy.mkern [.makeKnown [.fin 10], .makeKnown [.fin 5900], .setKnown 0 1 true false,
      .writeKnown 0 [.fin 11], .writeKnown 1 [.fin 1]]).view.world.cal.known = some ([.fin 11], [.fin 5900]) := by
  decide +kernel

/-- Pixel list and baseline: an array given as `pixel_list`, and the `fit_coeff` of a fit that raises, are shared. -/
example : (let s := Toy.shop.ops Toy.calEnv Toy.env Toy.mkern [.make [0, 1, 2], .setPixels 5 none none,
      .write 5 [7, 8, 9], .fitFrom 5 { Toy.args with fitType := .other } true Toy.rnd, .write 5 [4, 5]]
    (s.view.world.cal.props.pixelList, s.view.world.cal.fitCoeff)) = ([4, 5], some [4, 5]) := by
  decide +kernel

end Rascal
