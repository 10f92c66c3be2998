import Verif.Props.AddRemoveProps
import Verif.Props.SelectionProps

/-!
Property theorems C221: the order of the calls that add lines to an atlas.
-/

set_option linter.unusedSectionVars false

namespace Rascal

variable {K : Type _} [AddCommGroup K] [LinearOrder K]

/-- A call that adds lines (src/rascal/atlas.py:96-204, 206-280). -/
inductive Spec.Adding (K : Type _) where
  | add (a : AddArgs K)
  | user (elements : UserElems) (wavelengths : SeqArg K) (intensities : Option (SeqArg K)) (vacuum : Bool)
      (vacToAir : K → K)

/-- The call made on an atlas. -/
def Spec.Adding.run (env : Env K) : Spec.Adding K → Atlas K → Atlas K × PyRes Unit
  | .add a, at_ => at_.add env a
  | .user es ws is v f, at_ => at_.addUser es ws is v f

/-- The atlas after the calls, failed ones included, and how each of them ended. -/
def Spec.Adding.runAll (env : Env K) : List (Spec.Adding K) → Atlas K → Atlas K × List (PyRes Unit)
  | [], at_ => (at_, [])
  | c :: cs, at_ =>
    let r := c.run env at_
    let s := Spec.Adding.runAll env cs r.1
    (s.1, r.2 :: s.2)

/-- The calls leave the same lines, in another order, and each call ends in the same way. -/
def Spec.Adding.SameUpToOrder (env : Env K) (at_ : Atlas K) (cs cs' : List (Spec.Adding K)) : Prop :=
  (runAll env cs at_).1.lines.Perm (runAll env cs' at_).1.lines ∧
  (cs.zip (runAll env cs at_).2).Perm (cs'.zip (runAll env cs' at_).2)

/-- Calls that append the same lines to all atlases of a kind. -/
theorem runAll_steady (env : Env K) (I : Atlas K → Prop) (P : Spec.Adding K → Prop)
    (new : Spec.Adding K → List (AtlasLine K)) (o : Spec.Adding K → PyRes Unit)
    (h : ∀ c, P c → ∀ at_, I at_ → (c.run env at_).1.lines = at_.lines ++ new c ∧ (c.run env at_).2 = o c ∧
      I (c.run env at_).1) (cs : List (Spec.Adding K)) (hc : ∀ c ∈ cs, P c) (at_ : Atlas K) (hi : I at_) :
    (Spec.Adding.runAll env cs at_).1.lines = at_.lines ++ cs.flatMap new ∧
    cs.zip (Spec.Adding.runAll env cs at_).2 = cs.map (fun c => (c, o c)) ∧ I (Spec.Adding.runAll env cs at_).1 := by
  induction cs generalizing at_ with
  | nil => exact ⟨by simp [Spec.Adding.runAll], rfl, hi⟩
  | cons c cs ih =>
    obtain ⟨h1, h2, h3⟩ := h c (hc c (by simp)) at_ hi
    obtain ⟨k1, k2, k3⟩ := ih (fun d hd => hc d (List.mem_cons_of_mem _ hd)) _ h3
    refine ⟨?_, ?_, k3⟩
    · show (Spec.Adding.runAll env cs (c.run env at_).1).1.lines = _
      rw [k1, h1, List.flatMap_cons, List.append_assoc]
    · show (c, (c.run env at_).2) :: cs.zip (Spec.Adding.runAll env cs (c.run env at_).1).2 = _
      rw [k2, h2]
      rfl

theorem sameUpToOrder_of_steady (env : Env K) (I : Atlas K → Prop) (P : Spec.Adding K → Prop)
    (h : ∀ c, P c → ∃ (new : List (AtlasLine K)) (o : PyRes Unit), ∀ at_, I at_ →
      (c.run env at_).1.lines = at_.lines ++ new ∧ (c.run env at_).2 = o ∧ I (c.run env at_).1)
    (cs cs' : List (Spec.Adding K)) (hp : cs.Perm cs') (hc : ∀ c ∈ cs, P c) (at_ : Atlas K) (hi : I at_) :
    Spec.Adding.SameUpToOrder env at_ cs cs' ∧ I (Spec.Adding.runAll env cs at_).1 := by
  have : Nonempty (PyRes Unit) := ⟨.ok ()⟩
  choose! new o h using h
  obtain ⟨h1, h2, h3⟩ := runAll_steady env I P new o h cs hc at_ hi
  obtain ⟨k1, k2, _⟩ := runAll_steady env I P new o h cs' (fun c hc' => hc c (hp.mem_iff.2 hc')) at_ hi
  refine ⟨⟨?_, ?_⟩, h3⟩
  · rw [h1, k1]
    exact (hp.flatMap_right new).append_left _
  · rw [h2, k2]
    exact hp.map _

theorem add_frame (env : Env K) (at_ : Atlas K) (a : AddArgs K) :
    (at_.add env a).1 = { at_ with lines := (at_.add env a).1.lines } := by
  unfold Atlas.add
  split
  · rfl
  · split
    · rfl
    · split
      · rfl
      · split <;> rfl

/-- C221, for calls of `Atlas.add` alone: in any order, and also if some of them raise, they leave the same lines in
another order, each call ends in the same way, and the limits stay as they were.  What is missing: calls of
`add_user_atlas` among them. -/
theorem C221_add_partial (env : Env K) (at_ : Atlas K) (as as' : List (AddArgs K)) (hp : as.Perm as') :
    Spec.Adding.SameUpToOrder env at_ (as.map .add) (as'.map .add) ∧
    (Spec.Adding.runAll env (as.map .add) at_).1.minW = at_.minW ∧
    (Spec.Adding.runAll env (as.map .add) at_).1.maxW = at_.maxW ∧
    (Spec.Adding.runAll env (as.map .add) at_).1.rangeTol = at_.rangeTol := by
  refine sameUpToOrder_of_steady env (fun b => b.minW = at_.minW ∧ b.maxW = at_.maxW ∧ b.rangeTol = at_.rangeTol)
    (fun c => ∃ a, c = .add a) ?_ _ _ (hp.map _) ?_ at_ ⟨rfl, rfl, rfl⟩
  · rintro c ⟨a, rfl⟩
    obtain ⟨new, o, t, ht⟩ := C220_add_appends env at_ a
    refine ⟨new, o, fun b hb => ?_⟩
    have e : b = { at_ with lines := b.lines } := by
      cases b
      cases at_
      simp_all
    have h1 : (Spec.Adding.add a).run env b = ({ t with lines := b.lines ++ new }, o) := by
      rw [e]
      exact ht b.lines
    refine ⟨by rw [h1], by rw [h1], ?_⟩
    show ((b.add env a).1.minW = _ ∧ (b.add env a).1.maxW = _ ∧ (b.add env a).1.rangeTol = _)
    rw [add_frame]
    exact hb
  · intro c hc
    obtain ⟨a, _, rfl⟩ := List.mem_map.1 hc
    exact ⟨a, rfl⟩

theorem addUser_steady (es : UserElems) (ws : SeqArg K) (is : Option (SeqArg K)) (v : Bool) (f : K → K) :
    ∃ (new : List (AtlasLine K)) (o : PyRes Unit), ∀ at_ : Atlas K,
      (at_.addUser es ws is v f).1.lines = at_.lines ++ new ∧ (at_.addUser es ws is v f).2 = o := by
  have stop : ∀ e : PyErr, ∃ (new : List (AtlasLine K)) (o : PyRes Unit), ∀ at_ : Atlas K,
      at_.lines = at_.lines ++ new ∧ (.error e : PyRes Unit) = o :=
    fun e => ⟨[], .error e, fun at_ => ⟨by rw [List.append_nil], rfl⟩⟩
  unfold Atlas.addUser
  dsimp only
  cases es.toList with
  | none => exact stop _
  | some es =>
    dsimp only
    cases ws.toList with
    | none => exact stop _
    | some ws =>
      dsimp only
      cases userIntensities ws.length is with
      | none => exact stop _
      | some is =>
        dsimp only
        by_cases h1 : es.length ≠ ws.length
        · simp only [if_pos h1]; exact stop _
        by_cases h2 : es.length ≠ is.length
        · simp only [if_neg h1, if_pos h2]; exact stop _
        simp only [if_neg h1, if_neg h2]
        cases (if v = true then ws.map f else ws) with
        | nil => exact stop _
        | cons w t => exact ⟨_, .ok (), fun at_ => ⟨rfl, rfl⟩⟩

/-- C221, for calls of both kinds: if every call of `Atlas.add` is given both limits, the calls may be made in any order.
What is missing: limits left to the atlas. -/
theorem C221_limits_partial (env : Env K) (at_ : Atlas K) (cs cs' : List (Spec.Adding K)) (hp : cs.Perm cs')
    (hl : ∀ a, .add a ∈ cs → a.minW ≠ none ∧ a.maxW ≠ none) : Spec.Adding.SameUpToOrder env at_ cs cs' := by
  refine (sameUpToOrder_of_steady env (fun _ => True) (fun c => ∀ a, c = .add a → a.minW ≠ none ∧ a.maxW ≠ none) ?_
    cs cs' hp (fun c hc a ha => hl a (ha ▸ hc)) at_ trivial).1
  intro c hc
  cases c with
  | add a =>
    obtain ⟨h1, h2⟩ := hc a rfl
    obtain ⟨l, hl⟩ := Option.ne_none_iff_exists'.1 h1
    obtain ⟨u, hu⟩ := Option.ne_none_iff_exists'.1 h2
    rcases C129_limits_partial env at_ at_ a l u hl hu with ⟨new, h, _⟩ | ⟨new, e, h, _⟩
    all_goals
      refine ⟨new, (at_.add env a).2, fun b _ => ?_⟩
      show (b.add env a).1.lines = _ ∧ (b.add env a).2 = _ ∧ True
      rcases C129_limits_partial env at_ b a l u hl hu with ⟨new', k1, k2⟩ | ⟨new', e', k1, k2⟩
      all_goals
        have hn : new = new' := by
          have := congrArg (fun r => r.1.lines) (h.symm.trans k1)
          exact List.append_cancel_left this
        rw [k2, k1, hn]
        exact ⟨rfl, rfl, trivial⟩
  | user es ws is v f =>
    obtain ⟨new, o, h⟩ := addUser_steady es ws is v f
    exact ⟨new, o, fun b _ => ⟨(h b).1, (h b).2, trivial⟩⟩

theorem runAll_append (env : Env K) (cs ds : List (Spec.Adding K)) (at_ : Atlas K) :
    (Spec.Adding.runAll env (cs ++ ds) at_).1 = (Spec.Adding.runAll env ds (Spec.Adding.runAll env cs at_).1).1 := by
  induction cs generalizing at_ with
  | nil => rfl
  | cons c cs ih => exact ih _

theorem addUser_limits (es : UserElems) (ws : SeqArg K) (is : Option (SeqArg K)) (v : Bool) (f : K → K) (a b : Atlas K)
    (h : (a.addUser es ws is v f).2 = .ok ()) :
    (b.addUser es ws is v f).1.minW = (a.addUser es ws is v f).1.minW ∧
    (b.addUser es ws is v f).1.maxW = (a.addUser es ws is v f).1.maxW := by
  unfold Atlas.addUser at h ⊢
  dsimp only at h ⊢
  cases h1 : es.toList with
  | none => rw [h1] at h; cases h
  | some es =>
    rw [h1] at h
    dsimp only at h ⊢
    cases h2 : ws.toList with
    | none => rw [h2] at h; cases h
    | some ws =>
      rw [h2] at h
      dsimp only at h ⊢
      cases h3 : userIntensities ws.length is with
      | none => rw [h3] at h; cases h
      | some is =>
        rw [h3] at h
        dsimp only at h ⊢
        by_cases h4 : es.length ≠ ws.length
        · rw [if_pos h4] at h; cases h
        by_cases h5 : es.length ≠ is.length
        · rw [if_neg h4, if_pos h5] at h; cases h
        simp only [if_neg h4, if_neg h5] at h ⊢
        cases h6 : (if v = true then ws.map f else ws) with
        | nil => rw [h6] at h; cases h
        | cons w t => exact ⟨rfl, rfl⟩

/-- C221, the limits: they are those the last successful `add_user_atlas` sets, whatever calls were made before it, and
calls of `Atlas.add` after it leave them alone. -/
theorem C221_last_limits (env : Env K) (at_ : Atlas K) (pre : List (Spec.Adding K)) (es : UserElems) (ws : SeqArg K)
    (is : Option (SeqArg K)) (v : Bool) (f : K → K) (h : (at_.addUser es ws is v f).2 = .ok ()) (as : List (AddArgs K)) :
    (Spec.Adding.runAll env (pre ++ .user es ws is v f :: as.map .add) at_).1.minW = (at_.addUser es ws is v f).1.minW ∧
    (Spec.Adding.runAll env (pre ++ .user es ws is v f :: as.map .add) at_).1.maxW = (at_.addUser es ws is v f).1.maxW := by
  rw [runAll_append]
  generalize (Spec.Adding.runAll env pre at_).1 = b
  show (Spec.Adding.runAll env (as.map .add) (b.addUser es ws is v f).1).1.minW = _ ∧
    (Spec.Adding.runAll env (as.map .add) (b.addUser es ws is v f).1).1.maxW = _
  obtain ⟨_, h1, h2, _⟩ := C221_add_partial env (b.addUser es ws is v f).1 as as (List.Perm.refl _)
  rw [h1, h2]
  exact addUser_limits es ws is v f at_ b h

/-- The expected behaviour: lines may be added in any order. -/
def C221_Statement : Prop :=
  ∀ (env : Env ℤ) (at_ : Atlas ℤ) (cs cs' : List (Spec.Adding ℤ)), cs.Perm cs' →
    Spec.Adding.SameUpToOrder env at_ cs cs'

/-- Three tabulated lines. -/
def twoRows : Env ℤ := ⟨stableArgsort, [⟨"Ar", 3500, 90⟩, ⟨"Ar", 4400, 70⟩, ⟨"Hg", 4800, 50⟩], fun _ => none⟩

/-- An element, with or without limits. -/
def addOne (e : String) (lim : Option (PyFloat ℤ × PyFloat ℤ)) : Spec.Adding ℤ :=
  .add ⟨.str e, lim.map Prod.fst, lim.map Prod.snd, .scalar 10, 0, true, id, id, .nist, some 1000⟩

/-- One line of the user. -/
def userOne : Spec.Adding ℤ := .user (.list ["Hg"]) (.seq [4350]) none false id

/-- C221 is false: after a line of the user at 4350 an element is loaded around that line only. -/
theorem C221_refuted : ¬ C221_Statement := by
  intro h
  have := (h twoRows ⟨[], some (.fin 3000), some (.fin 5000), 100⟩ [addOne "Ar" none, userOne] [userOne, addOne "Ar" none]
    (List.Perm.swap _ _ _)).1.length_eq
  revert this
  decide

/-- A case for `C221_add_partial`: two elements with the limits of the atlas, in either order. -/
example : (Spec.Adding.runAll twoRows [addOne "Ar" none, addOne "Hg" none] ⟨[], some (.fin 3000), some (.fin 5000), 100⟩).1.getLines =
      [3500, 4400, 4800] ∧
    (Spec.Adding.runAll twoRows [addOne "Hg" none, addOne "Ar" none] ⟨[], some (.fin 3000), some (.fin 5000), 100⟩).1.getLines =
      [4800, 3500, 4400] := by decide

/-- A case for `C221_last_limits`: a line of the user at 4350 between two elements. -/
example : (Atlas.addUser (⟨[], some (.fin 3000), some (.fin 5000), 100⟩ : Atlas ℤ) (.list ["Hg"]) (.seq [4350]) none false id).2 =
      .ok () ∧
    (Spec.Adding.runAll twoRows [addOne "Hg" none, userOne, addOne "Ar" none] ⟨[], some (.fin 3000), some (.fin 5000), 100⟩).1.minW =
      some (.fin 4350) := by decide

/-- A case for `C221_limits_partial`: an element with limits and a line of the user. -/
example : Spec.Adding.SameUpToOrder twoRows ⟨[], none, none, 100⟩ [addOne "Ar" (some (.fin 3000, .fin 5000)), userOne]
      [userOne, addOne "Ar" (some (.fin 3000, .fin 5000))] ∧
    (Spec.Adding.runAll twoRows [userOne, addOne "Ar" (some (.fin 3000, .fin 5000))] ⟨[], none, none, 100⟩).1.getLines =
      [4350, 3500, 4400] := by
  refine ⟨C221_limits_partial _ _ _ _ (List.Perm.swap _ _ _) ?_, by decide⟩
  intro a ha
  simp only [addOne, userOne, List.mem_cons, Spec.Adding.add.injEq, List.not_mem_nil, or_false, reduceCtorEq] at ha
  subst ha
  exact ⟨by simp, by simp⟩

end Rascal
