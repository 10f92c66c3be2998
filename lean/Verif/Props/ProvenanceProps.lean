import Verif.Props.HistoryProps
import Verif.Props.AddAtlasProps

/-!
Property theorem C169: where the wavelengths of the matches come from.
-/

set_option linter.unusedSectionVars false

namespace Rascal

variable {K : Type _} [Field K] [LinearOrder K] [IsStrictOrderedRing K]

/-- All lines of an atlas have the property `P`. -/
def LinesHave (P : K → Prop) (at_ : Atlas K) : Prop := ∀ l ∈ at_.lines, P l.wl

/-- Every wavelength a call brings in has the property `P`: for `add_atlas` the lines of the packaged list of the
elements named, converted to air if asked for; for other changes of an atlas, those it makes. -/
def Spec.Brings (E : CalEnv K) (P : K → Prop) : SetOp K → Prop
  | .addAtlas a _ _ => ∀ r ∈ E.env.nistRows, r.elem ∈ a.elements.toList →
      P (if a.vacuum then r.wl else a.vacToAir r.wl)
  | .addUserAtlas add _ _ => ∀ at_, LinesHave P at_ → LinesHave P (add at_).1
  | .editAtlas _ f => ∀ at_, LinesHave P at_ → LinesHave P (f at_)
  | _ => True

/-- The same for all calls: pairs added by hand and the lists given to `manual_refit` count as well. -/
def Spec.BringsCall (E : CalEnv K) (P : K → Prop) : SessionCall K → Prop
  | .set op => Spec.Brings E P op
  | .addPair _ _ wave => P wave
  | .manualRefit a => ∀ b l, a.atlas = some (b, l) → ∀ v ∈ l, P v
  | _ => True

/-- All wavelengths in the atlases and in the search space have the property. -/
def WorldHas (P : K → Prop) (w : World K) : Prop :=
  (∀ at_ ∈ w.atlases, LinesHave P at_) ∧ ∀ e ∈ w.cal.pairList, P e.2

/-- All wavelengths in a session have the property. -/
def SessionHas (P : K → Prop) (s : Session K) : Prop :=
  WorldHas P s.world ∧ ∀ v ∈ s.world.cal.matchedAtlas, P v

theorem atlasLines_have {P : K → Prop} {w : World K} (h : ∀ at_ ∈ w.atlases, LinesHave P at_) (lines : List K)
    (hl : w.atlasLines = .ok lines) : ∀ v ∈ lines, P v := by
  unfold World.atlasLines at hl
  split at hl
  · cases hl
  · split at hl
    · cases hl
    · rename_i a ha
      cases hl
      intro v hv
      obtain ⟨l, hl, rfl⟩ := List.mem_map.1 hv
      exact h a (List.mem_of_getElem? ha) l hl

theorem generatePairs_have {P : K → Prop} {w : World K} (h : WorldHas P w) : WorldHas P w.generatePairs.1 := by
  obtain ⟨h1, h2⟩ := h
  unfold World.generatePairs
  cases hl : w.atlasLines with
  | error e => exact ⟨h1, h2⟩
  | ok lines =>
    have hp := atlasLines_have h1 lines hl
    dsimp only
    refine ⟨h1, ?_⟩
    unfold Cal.generatePairs
    split
    · split
      · split
        · exact h2
        · rename_i t a l _ _ r hg
          intro e he
          simp only [Cal.pairList] at he
          unfold Rascal.generatePairs at hg
          dsimp only at hg
          split at hg
          · simp at hg
          · split at hg
            · simp at hg
            · simp only [Except.ok.injEq] at hg
              subst hg
              exact hp _ ((mem_allPairs _ _ _).1 ((boolMask_sublist _ _).subset he)).2
      · exact h2
      · exact h2
    · intro e he
      simp only [Cal.pairList] at he
      by_cases hn : allPairs w.cal.peaks lines = []
      · simp [hn] at he
      · simp only [hn, if_false] at he
        exact hp _ ((mem_allPairs _ _ _).1 he).2

theorem modify_have {P : K → Prop} {w : World K} (h : WorldHas P w) (i : Nat) (f : Atlas K → Atlas K)
    (hf : ∀ at_, w.atlases[i]? = some at_ → LinesHave P (f at_)) : WorldHas P (w.modifyAtlas i f) := by
  refine ⟨?_, h.2⟩
  intro at_ hat
  unfold World.modifyAtlas at hat
  obtain ⟨j, hj⟩ := List.mem_iff_getElem?.1 hat
  rw [List.getElem?_modify] at hj
  obtain ⟨b, hb, hbe⟩ := Option.map_eq_some_iff.1 hj
  by_cases hij : i = j
  · subst hij
    simp only [if_true] at hbe
    rw [← hbe]
    exact hf b hb
  · simp only [hij, if_false] at hbe
    rw [← hbe]
    exact h.1 b (List.mem_of_getElem? hb)

theorem setAtlas_have {P : K → Prop} {w : World K} (h : WorldHas P w) (i : Nat) (t : K) (b : Bool) :
    WorldHas P (w.setAtlas i t b).1 :=
  generatePairs_have (w := { w with cal := { w.cal with atlas := some i, candTol := some t, constrainPoly := b } }) h

/-- The wavelengths selected for the elements are those of the packaged list. -/
theorem selects_have {P : K → Prop} (env : Env K) (a : AddArgs K) (hn : a.linelist = .nist) (lo hi : K)
    (es : List String) (rs : List (LineArrays K)) (h3 : List.Forall₂ (Selects env a lo hi) es rs)
    (hP : ∀ r ∈ env.nistRows, r.elem ∈ es → P (if a.vacuum then r.wl else a.vacToAir r.wl)) :
    ∀ l ∈ rs.flatMap nistOf, P l.wl := by
  intro l hl
  obtain ⟨x, hx, hlx⟩ := List.mem_flatMap.1 hl
  have hsel : ∃ e ∈ es, Selects env a lo hi e x := by
    clear hP hl
    induction h3 with
    | nil => simp at hx
    | @cons e y es rs h6 _ ih =>
      rcases List.mem_cons.1 hx with rfl | hx
      · exact ⟨e, by simp, h6⟩
      · obtain ⟨e', he', hs⟩ := ih hx
        exact ⟨e', by simp [he'], hs⟩
  obtain ⟨e, he, hs⟩ := hsel
  unfold Selects loadFromFile at hs
  rw [hn] at hs
  simp only [readLineList] at hs
  obtain ⟨out, g1, g2, g3, g4⟩ := C08_aligned _ _ _ _ _ _ _ _ _ _ _ _ hs
  unfold nistOf at hlx
  obtain ⟨t, ht, rfl⟩ := List.mem_map.1 hlx
  have := (List.of_mem_zip (List.of_mem_zip ht).2).1
  rw [g3] at this
  obtain ⟨r, hr, hrt⟩ := List.mem_map.1 this
  obtain ⟨k1, k2, _⟩ := g4 r hr
  have hre : r.elem = e := by simpa using k2
  show P t.2.1
  rw [← hrt]
  exact hP r k1 (hre ▸ he)

theorem add_have {P : K → Prop} (env : Env K) (at_ : Atlas K) (a : AddArgs K) (hn : a.linelist = .nist)
    (h : LinesHave P at_) (hP : ∀ r ∈ env.nistRows, r.elem ∈ a.elements.toList →
      P (if a.vacuum then r.wl else a.vacToAir r.wl)) : LinesHave P (at_.add env a).1 := by
  rcases add_cases env at_ a with ⟨lo, hi, rs, _, _, h3, h4⟩ |
      ⟨lo, hi, pre, e, post, rs, err, _, _, h3, h4, _, h6⟩ | ⟨_, e, h1⟩
  · rw [h4]
    intro l hl
    rcases List.mem_append.1 hl with hl | hl
    · exact h l hl
    · exact selects_have env a hn lo hi _ rs h3 hP l hl
  · rw [h6]
    intro l hl
    rcases List.mem_append.1 hl with hl | hl
    · exact h l hl
    · refine selects_have env a hn lo hi _ rs h4 (fun r hr he => hP r hr ?_) l hl
      rw [h3]
      exact List.mem_append_left _ he
  · rw [h1]; exact h

theorem new_have {P : K → Prop} (env : Env K) (a : AddArgs K) (rt : K) (at_ : Atlas K) (hn : a.linelist = .nist)
    (hP : ∀ r ∈ env.nistRows, r.elem ∈ a.elements.toList → P (if a.vacuum then r.wl else a.vacToAir r.wl))
    (h : Atlas.new env a rt = .ok at_) : LinesHave P at_ := by
  obtain ⟨_, _, _, ⟨_, h4⟩ | ⟨_, lo, hi, rs, _, _, h4, h5⟩⟩ := (C88_new env a rt at_).1 h
  · intro l hl; rw [h4] at hl; cases hl
  · intro l hl
    rw [h5] at hl
    exact selects_have env { a with brightest := some 1000 } hn lo hi _ rs h4 hP l hl

theorem survivors_subset {α : Type _} (p : α → Bool) (n : Nat) : ∀ (l : List α) (i : Nat), ∀ x ∈ removeLoop p n l i, x ∈ l := by
  induction n with
  | zero => intro l i x h; exact h
  | succ n ih =>
    intro l i x h
    rw [removeLoop] at h
    split at h
    · exact h
    · split at h
      · exact List.mem_of_mem_eraseIdx (ih _ _ _ h)
      · exact ih _ _ _ h

/-- A call that brings in nothing else keeps the property. -/
theorem step_have {P : K → Prop} (E : CalEnv K) (hE : LinesHave P E.emptyAtlas) (w : World K) (op : SetOp K)
    (hop : Spec.Brings E P op) (h : WorldHas P w) : WorldHas P (w.step E op).1 := by
  cases op with
  | setCalibrator n p l => exact h
  | useMatplotlib => exact h
  | usePlotly => exact h
  | setHough a =>
    simp only [World.step]
    unfold World.setHough
    dsimp only
    split
    · exact h
    · split
      · exact h
      · exact generatePairs_have (w := { w with cal := { w.cal with hough := _ } }) h
  | setRansac a => exact h
  | setAtlas i t b => exact setAtlas_have h i t b
  | addAtlas a t b =>
    have hn : (w.cal.hough.fillLimits a).linelist = .nist := rfl
    simp only [World.step]
    unfold World.addAtlas
    split
    · split
      · exact h
      · rename_i at_ hat
        refine setAtlas_have (w := { w with atlases := w.atlases ++ [at_] }) ⟨?_, h.2⟩ _ _ _
        intro b hb
        rcases List.mem_append.1 hb with hb | hb
        · exact h.1 b hb
        · rw [List.mem_singleton] at hb
          rw [hb]
          exact new_have E.env _ _ at_ hn hop hat
    · rename_i i _
      split
      · exact h
      · rename_i at_ hat
        have hm : WorldHas P (w.modifyAtlas i (fun _ => (at_.add E.env (w.cal.hough.fillLimits a)).1)) :=
          modify_have h i _ (fun b hb => add_have E.env at_ _ hn (h.1 at_ (List.mem_of_getElem? hat)) hop)
        dsimp only
        split
        · exact hm
        · exact setAtlas_have hm _ _ _
  | addUserAtlas f t b =>
    simp only [World.step]
    unfold World.addUserAtlas
    have h0 : WorldHas P (w.ensureAtlas E.emptyAtlas) := by
      unfold World.ensureAtlas
      split
      · refine ⟨?_, h.2⟩
        intro b hb
        rcases List.mem_append.1 hb with hb | hb
        · exact h.1 b hb
        · rw [List.mem_singleton] at hb
          rw [hb]; exact hE
      · exact h
    dsimp only
    split
    · exact h0
    · rename_i i _
      split
      · exact h0
      · rename_i at_ hat
        have hm : WorldHas P ((w.ensureAtlas E.emptyAtlas).modifyAtlas i (fun _ => (f at_).1)) :=
          modify_have h0 i _ (fun b hb => hop at_ (h0.1 at_ (List.mem_of_getElem? hat)))
        split
        · exact hm
        · exact setAtlas_have hm _ _ _
  | removeRange v t =>
    simp only [World.step]
    unfold World.removeRange
    split
    · exact h
    · refine modify_have h _ _ (fun at_ hat l hl => ?_)
      exact h.1 at_ (List.mem_of_getElem? hat) l (survivors_subset _ _ _ _ l hl)
  | clearAtlas =>
    simp only [World.step]
    unfold World.clearAtlas
    split
    · exact h
    · refine modify_have h _ _ (fun at_ hat l hl => ?_)
      cases hl
  | editAtlas i f =>
    exact modify_have h i f (fun at_ hat => hop at_ (h.1 at_ (List.mem_of_getElem? hat)))
  | doHough b =>
    obtain ⟨_, _, _, hp⟩ := w.cal.doHough_frame E.argsortK E.argsortN b
    simp only [World.step]
    rw [hp]
    exact h
  | loadHough d f t => exact h
  | setKnown p v =>
    obtain ⟨k, hk⟩ := w.cal.setKnown_frame p v
    simp only [World.step]
    rw [hk]
    exact h

theorem same_have {P : K → Prop} {w w' : World K} (hs : SameSettings w w') (h : WorldHas P w) : WorldHas P w' := by
  refine ⟨by rw [hs.2]; exact h.1, ?_⟩
  have : w'.cal.pairList = w.cal.pairList := by unfold Cal.pairList; rw [hs.1.pairs]
  rw [this]
  exact h.2

section
variable [FloorRing K]

/-- However a fit ends, its matches are of the search space or of the atlas, or those there were. -/
theorem fit_have {P : K → Prop} (F : FitEnv K) (ha : IsArgsort F.argsortK) (w : World K) (a : FitArgs K)
    (rnd : FitRandom K) (h : WorldHas P w) (hm : ∀ v ∈ w.cal.matchedAtlas, P v) :
    ∀ v ∈ (w.fit F a rnd).1.cal.matchedAtlas, P v := by
  unfold World.fit
  dsimp only
  split
  · exact hm
  · cases hl : w.atlasLines with
    | error e => exact hm
    | ok lines =>
      dsimp only
      have hp := atlasLines_have h.1 lines hl
      change ∀ v ∈ (Cal.fitWith F (w.given a) lines a rnd).1.matchedAtlas, P v
      cases he : (w.given a).enter F lines a rnd.uniform with
      | none =>
        rw [(fitWith_not_enter F _ _ _ _ he).2.2.matchedAtlas]
        exact hm
      | some L =>
        have hs := enter_spec F _ _ _ _ _ he
        rw [fitWith_enter F _ _ _ _ _ he, (finish_matches _ _ _ _).2]
        rcases C60_accepted_constraints (F.kern a.fitType) L.cfg (hs.aligned ha) rnd.tape L.trials L.start with
          hb | ⟨d, _, t, _, data, prev, _, hacc⟩
        · obtain ⟨cost, err, hst, _⟩ := hs.start
          rw [hb, hst]
          exact hm
        · intro v hv
          generalize (L.cfg.run (F.kern a.fitType) rnd.tape L.trials L.start).best = s at hacc hv
          obtain ⟨l1, l2⟩ := hacc.lengths
          obtain ⟨i, hi, hiv⟩ := List.getElem_of_mem hv
          have hz : (s.matchedPeaks[i]'(by omega), v) ∈ s.matchedPeaks.zip s.matchedAtlas := by
            rw [List.mem_iff_getElem]
            exact ⟨i, by simp; omega, by simp [hiv]⟩
          have hx := hacc.candidates _ hz
          cases hlin : w.cal.ransac.linear with
          | true => exact h.2 _ (hs.linear ha hlin _ hx).1
          | false => exact hp _ (hs.poly ha hlin _ hx).2

theorem expandMatches_mem (ms : List (List K)) : ∀ (c r : List K), expandMatches ms c = .ok r →
    ∀ v ∈ r, v ∈ c ∨ ∃ m ∈ ms, v ∈ m := by
  induction ms with
  | nil =>
    intro c r h v hv
    simp only [expandMatches, Except.ok.injEq] at h
    rw [← h] at hv
    exact .inl hv
  | cons m ms ih =>
    intro c r h v hv
    rw [expandMatches] at h
    split at h
    · rcases ih _ _ h v hv with hc | ⟨m', hm, hvm⟩
      · rcases List.mem_append.1 hc with hc | hc
        · exact .inl hc
        · exact .inr ⟨m, by simp, hc⟩
      · exact .inr ⟨m', by simp [hm], hvm⟩
    · split at h
      · rcases ih _ _ h v hv with hc | ⟨m', hm, hvm⟩
        · exact .inl hc
        · exact .inr ⟨m', by simp [hm], hvm⟩
      · cases h

theorem match_have {P : K → Prop} (F : FitEnv K) (M : MatchKernels K) (s : Session K) (a : MatchArgs K)
    (h : SessionHas P s) : ∀ v ∈ (s.matchPeaks F M a).1.world.cal.matchedAtlas, P v := by
  have hc := matchPeaks_cases F M s a
  generalize (s.matchPeaks F M a).1 = s' at hc ⊢
  generalize (s.matchPeaks F M a).2 = o at hc
  cases hc with
  | early e => exact h.2
  | input co _ _ => exact h.2
  | ambiguous kind co lines e _ _ _ _ => exact h.2
  | fit co lines new m ys s' o hs hl hm he h1 h2 hf =>
    have hys : ∀ v ∈ ys, P v := by
      intro v hv
      rcases expandMatches_mem _ _ _ he v hv with hc | ⟨x, hx, hvx⟩
      · cases hc
      · obtain ⟨e, hem, rfl⟩ := List.mem_map.1 hx
        rcases hm with rfl | rfl
        · cases hem
        · unfold matchLoop at hem
          obtain ⟨p, _, hpe⟩ := List.mem_filterMap.1 hem
          split at hpe
          · cases hpe
          · cases hpe
            exact atlasLines_have h.1.1 lines hl v (List.mem_filter.1 hvx).1
    cases hf with
    | noBasis hb => intro v hv; cases hv
    | noFit b e hb hp => intro v hv; cases hv
    | bad b f hb hp hs => intro v hv; cases hv
    | done b fitted res s' o hb hp hres hlt hend =>
      cases hend with
      | failed e _ _ => exact hys
      | nan s' _ _ h3 => subst h3; exact hys
      | robust co s' _ _ h3 => subst h3; exact hys
      | refined co s' _ _ h3 => subst h3; exact hys
      | unbound _ _ => exact hys

/-- One call. -/
theorem call_have {P : K → Prop} (E : CalEnv K) (F : FitEnv K) (M : MatchKernels K) (ha : IsArgsort F.argsortK)
    (hE : LinesHave P E.emptyAtlas) (s : Session K) (c : SessionCall K) (hc : Spec.BringsCall E P c)
    (h : SessionHas P s) : SessionHas P (s.call E F M c) := by
  cases c with
  | set op =>
    refine ⟨step_have E hE s.world op hc h.1, ?_⟩
    have := (step_results E s.world op).result.matchedAtlas
    change ∀ v ∈ (s.world.step E op).1.cal.matchedAtlas, P v
    rw [this]
    exact h.2
  | fit a arr rnd =>
    exact ⟨same_have (solution_same E F M s (.fit a arr rnd) rfl) h.1, fit_have F ha s.world a rnd h.1 h.2⟩
  | matchPeaks a =>
    exact ⟨same_have (solution_same E F M s (.matchPeaks a) rfl) h.1, match_have F M s a h⟩
  | addPair n p v =>
    refine ⟨same_have (solution_same E F M s (.addPair n p v) rfl) h.1, ?_⟩
    change ∀ u ∈ (s.addPair n p v).1.world.cal.matchedAtlas, P u
    unfold Session.addPair
    split
    · exact h.2
    · split
      · exact h.2
      · split
        · exact h.2
        · split
          · exact h.2
          · rename_i i _ _ _ hle
            intro u hu
            change u ∈ s.world.cal.matchedAtlas.insertIdx i v at hu
            rcases (List.mem_insertIdx (by omega)).1 hu with rfl | hu
            · exact hc
            · exact h.2 u hu
  | removePair i =>
    refine ⟨same_have (solution_same E F M s (.removePair i) rfl) h.1, ?_⟩
    change ∀ u ∈ (s.removePair i).1.world.cal.matchedAtlas, P u
    unfold Session.removePair
    split
    · exact h.2
    · split
      · exact h.2
      · split
        · exact h.2
        · rename_i l hl
          intro u hu
          change u ∈ l at hu
          unfold npDelete at hl
          split at hl
          · cases hl
          · cases hl
            exact h.2 u (List.mem_of_mem_eraseIdx hu)
  | manualRefit a =>
    refine ⟨same_have (solution_same E F M s (.manualRefit a) rfl) h.1, ?_⟩
    change ∀ u ∈ (s.manualRefit F M a).1.world.cal.matchedAtlas, P u
    have hm := manualRefit_cases F M s a
    generalize (s.manualRefit F M a).1 = s' at hm ⊢
    generalize (s.manualRefit F M a).2 = o at hm
    cases hm with
    | early e => exact h.2
    | stored x0 deg co hst habs hlen h3 h4 hco =>
      rw [(finishRefit_lists F (s.storeRefit a deg co) co (s.refitLists a).1.2 (s.refitLists a).2.2).2.1]
      intro u hu
      change u ∈ (s.refitLists a).2.2 at hu
      unfold Session.refitLists at hu
      cases hat : a.atlas with
      | none => rw [hat] at hu; exact h.2 u hu
      | some p =>
        obtain ⟨b, l⟩ := p
        rw [hat] at hu
        exact hc b l hat u hu

/-- C169: a wavelength never appears from nowhere.  Take any property of wavelengths, a calibrator made by the
constructor, and any history of calls, failing ones and unfinished fits included.  If the lines of the atlas objects at the
start and all wavelengths the calls bring in have the property, then all wavelengths in the atlases, in the search
space and among the matches have it, and so do the matches a further fit reports. -/
theorem C169_sources (P : K → Prop) (E : CalEnv K) (F : FitEnv K) (M : MatchKernels K) (ha : IsArgsort F.argsortK)
    (hE : LinesHave P E.emptyAtlas) (interp : List K → PyRes Unit) (peaks : List K) (arr int : Bool)
    (spectrum : Option (List K)) (atlases : List (Atlas K)) (c : Cal K)
    (hc : Cal.new interp peaks arr spectrum = .ok c) (hat : ∀ at_ ∈ atlases, LinesHave P at_)
    (h : List (SessionCall K)) (hh : ∀ x ∈ h, Spec.BringsCall E P x) :
    let s := (Session.new ⟨atlases, c⟩ int).calls E F M h
    (∀ lines, s.world.atlasLines = .ok lines → ∀ v ∈ lines, P v) ∧ (∀ e ∈ s.world.cal.pairList, P e.2) ∧
    (∀ v ∈ s.world.cal.matchedAtlas, P v) ∧
    ∀ a isArr rnd r, (s.fit F a isArr rnd).2 = .done (.ok r) → ∀ v ∈ r.matchedAtlas, P v := by
  have hall : ∀ (h : List (SessionCall K)) (s : Session K), (∀ x ∈ h, Spec.BringsCall E P x) → SessionHas P s →
      SessionHas P (s.calls E F M h) := by
    intro h
    induction h with
    | nil => intro s _ hs; exact hs
    | cons x h ih =>
      intro s hx hs
      exact ih _ (fun y hy => hx y (List.mem_cons_of_mem _ hy))
        (call_have E F M ha hE s x (hx x (List.mem_cons_self)) hs)
  have h0 : SessionHas P (Session.new ⟨atlases, c⟩ int) := by
    have hp := (new_pairs interp peaks arr spectrum c hc).1
    have hm : c.matchedAtlas = [] := by
      unfold Cal.new at hc
      split at hc
      · cases hc
      · split at hc
        · cases hc
        · cases hc; rfl
    refine ⟨⟨hat, ?_⟩, ?_⟩
    · change ∀ e ∈ c.pairList, P e.2
      unfold Cal.pairList
      rw [hp]
      intro e he; cases he
    · change ∀ v ∈ c.matchedAtlas, P v
      rw [hm]
      intro v hv; cases hv
  intro s
  have hs : SessionHas P s := hall h _ hh h0
  refine ⟨fun lines hl => atlasLines_have hs.1.1 lines hl, hs.1.2, hs.2, ?_⟩
  intro a isArr rnd r hr
  have hw : (s.world.fit F a rnd).2 = .done (.ok r) := hr
  have := fit_have F ha s.world a rnd hs.1 hs.2
  obtain ⟨lines, L, b, co, data, prev, S⟩ := fit_success F ha s.world a rnd r hw
  rw [S.state] at this
  rw [S.report]
  exact this

/-- C169 for users of the packaged list: if the calls add lines with `add_atlas` only and no pair is given by hand,
every matched wavelength is that of a tabulated line of one of the elements named in these calls, converted to air
if the call asked for it. -/
theorem C169_catalogue (E : CalEnv K) (F : FitEnv K) (M : MatchKernels K) (ha : IsArgsort F.argsortK)
    (hE : E.emptyAtlas.lines = []) (interp : List K → PyRes Unit) (peaks : List K) (arr int : Bool)
    (spectrum : Option (List K)) (c : Cal K) (hc : Cal.new interp peaks arr spectrum = .ok c)
    (h : List (SessionCall K))
    (hh : ∀ x ∈ h, match x with
      | .set (.addUserAtlas _ _ _) => False
      | .set (.editAtlas _ _) => False
      | .addPair _ _ _ => False
      | .manualRefit a => a.atlas = none
      | _ => True) :
    ∀ v ∈ ((Session.new ⟨[], c⟩ int).calls E F M h).world.cal.matchedAtlas,
      ∃ a t b, SessionCall.set (.addAtlas a t b) ∈ h ∧ ∃ r ∈ E.env.nistRows, r.elem ∈ a.elements.toList ∧
        v = if a.vacuum then r.wl else a.vacToAir r.wl := by
  refine (C169_sources (fun v => ∃ a t b, SessionCall.set (.addAtlas a t b) ∈ h ∧ ∃ r ∈ E.env.nistRows,
    r.elem ∈ a.elements.toList ∧ v = if a.vacuum then r.wl else a.vacToAir r.wl) E F M ha
    (by intro l hl; rw [hE] at hl; cases hl) interp peaks arr int spectrum [] c hc (by simp) h ?_).2.2.1
  intro x hx
  have hxx := hh x hx
  cases x with
  | set op =>
    cases op with
    | addAtlas a t b => exact fun r hr he => ⟨a, t, b, hx, r, hr, he, rfl⟩
    | addUserAtlas f t b => exact absurd hxx id
    | editAtlas i f => exact absurd hxx id
    | _ => trivial
  | addPair n p v => exact absurd hxx id
  | manualRefit a => intro b l hl; rw [show a.atlas = none from hxx] at hl; cases hl
  | _ => trivial

/-! ### Example -/

namespace Toy

/-- Line list with five lines of Xe and one of Ne. -/
def listedEnv : CalEnv ℚ :=
  { Toy.calEnv with env := ⟨stableArgsort, [⟨"Xe", 5900, 9⟩, ⟨"Xe", 8700, 8⟩, ⟨"Ne", 8701, 9⟩, ⟨"Xe", 9100, 5⟩,
    ⟨"Xe", 9200, 6⟩, ⟨"Xe", 9300, 7⟩], fun _ => none⟩ }

/-- Settings, `add_atlas("Xe")`, a fit, removing lines, and a search for matches. -/
def listedCalls : List (SessionCall ℚ) :=
  [.set (.setHough { numSlopes := some 2, xbins := some 4, ybins := some 4 }),
   .set (.setRansac { sampleSize := some 2, minFitError := some 0 }),
   .set (.addAtlas ⟨.list ["Xe"], none, none, .none, 0, true, id, id, .nist, none⟩ 10 false),
   .fit Toy.args false Toy.rnd, .set (.removeRange 9200 5), .matchPeaks Toy.matchArgs]

end Toy

/-- The calls are admitted by `C169_catalogue` and find matches. -/
example : twoPeaks.toOption.map (fun c => ((Session.new ⟨[], c⟩ false).calls Toy.listedEnv Toy.env Toy.mkern
      Toy.listedCalls).world.cal.matchedAtlas) = some [5900, 8700] ∧
    (∀ x ∈ Toy.listedCalls, match x with
      | .set (.addUserAtlas _ _ _) => False
      | .set (.editAtlas _ _) => False
      | .addPair _ _ _ => False
      | .manualRefit a => a.atlas = none
      | _ => True) ∧ Toy.listedEnv.emptyAtlas.lines = [] := by
  refine ⟨by decide +kernel, ?_, rfl⟩
  intro x hx
  simp only [Toy.listedCalls, List.mem_cons, List.not_mem_nil, or_false] at hx
  rcases hx with rfl | rfl | rfl | rfl | rfl | rfl <;> trivial

/-- A case for `C169_sources`: only lines above 5000 are brought in. -/
example : ∀ x ∈ Toy.listedCalls, Spec.BringsCall Toy.listedEnv (fun v : ℚ => 5000 < v) x := by
  intro x hx
  simp only [Toy.listedCalls, List.mem_cons, List.not_mem_nil, or_false] at hx
  rcases hx with rfl | rfl | rfl | rfl | rfl | rfl
  · trivial
  · trivial
  · intro r hr _
    simp only [Toy.listedEnv, List.mem_cons, List.not_mem_nil, or_false] at hr
    rcases hr with rfl | rfl | rfl | rfl | rfl | rfl <;> norm_num
  · trivial
  · trivial
  · trivial

end

end Rascal
