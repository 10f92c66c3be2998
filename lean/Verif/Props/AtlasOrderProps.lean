import Verif.Props.PeakOrderProps

/-!
C133: the order of the lines of an atlas.
-/

set_option linter.unusedSectionVars false

namespace Rascal

variable {K : Type _} [Field K] [LinearOrder K] [IsStrictOrderedRing K]

/-- The second atlas has the same lines in another order, and the same limits. -/
def SameLines (a a' : Atlas K) : Prop :=
  a'.lines.Perm a.lines ∧ a'.minW = a.minW ∧ a'.maxW = a.maxW ∧ a'.rangeTol = a.rangeTol

theorem SameLines.refl (a : Atlas K) : SameLines a a := ⟨.refl _, rfl, rfl, rfl⟩

/-- The worlds differ only in the order of the atlas lines and of what is generated from them. -/
def LineOrder (w w' : World K) : Prop :=
  List.Forall₂ SameLines w.atlases w'.atlases ∧
    ∃ q t s, w'.cal = w.cal.reorder w.cal.peaks q t s ∧ PairPerm w.cal.pairs q ∧ PointRel w.cal.ht.points t ∧
      PointRel w.cal.houghPoints s

/-- A change of an atlas that treats its lines alike wherever they stand. -/
def KeepsOrderFree (f : Atlas K → Atlas K) : Prop := ∀ a a', SameLines a a' → SameLines (f a) (f a')

/-- The calls of C133: all but `remove_atlas_lines_range` (see C41); direct changes of an atlas treat the lines
alike. -/
def SetOp.lineOrderFree : SetOp K → Prop
  | .removeRange _ _ => False
  | .addUserAtlas f _ _ => KeepsOrderFree (fun a => (f a).1) ∧ ∀ a a', SameLines a a' → (f a').2 = (f a).2
  | .editAtlas _ f => KeepsOrderFree f
  | _ => True

theorem PairPerm.refl (a : Option (PairStore K)) : PairPerm a a := by
  cases a with
  | none => exact .none
  | some p =>
    cases p with
    | noColumns => exact .noColumns
    | array l => exact .array l l (.refl _)

theorem forall₂_get {α : Type _} {R : α → α → Prop} {l l' : List α} (h : List.Forall₂ R l l') (i : Nat) :
    (l[i]? = none ∧ l'[i]? = none) ∨ ∃ a a', l[i]? = some a ∧ l'[i]? = some a' ∧ R a a' := by
  induction h generalizing i with
  | nil => exact .inl ⟨by simp, by simp⟩
  | cons hx _ ih =>
    cases i with
    | zero => exact .inr ⟨_, _, rfl, rfl, hx⟩
    | succ n => simpa using ih n

theorem forall₂_modify {α : Type _} {R : α → α → Prop} {l l' : List α} (h : List.Forall₂ R l l') (i : Nat)
    (f g : α → α) (hf : ∀ a a', l[i]? = some a → l'[i]? = some a' → R a a' → R (f a) (g a')) :
    List.Forall₂ R (l.modify i f) (l'.modify i g) := by
  induction h generalizing i with
  | nil => simp
  | cons hx ht ih =>
    cases i with
    | zero => simp only [List.modify_zero_cons]; exact .cons (hf _ _ rfl rfl hx) ht
    | succ n =>
      simp only [List.modify_succ_cons]
      exact .cons hx (ih n (fun a a' h1 h2 => hf a a' (by simpa using h1) (by simpa using h2)))

theorem allPairs_perm (peaks : List K) {lines lines' : List K} (h : lines'.Perm lines) :
    (allPairs peaks lines).Perm (allPairs peaks lines') := by
  unfold allPairs
  exact List.Perm.flatMap_left _ fun p _ => h.symm.map _

theorem generatePairs_perm (peaks : List K) {lines lines' : List K} (h : lines'.Perm lines)
    (g : Option (Polygon K)) :
    (∃ e, generatePairs peaks lines g = .error e ∧ generatePairs peaks lines' g = .error e) ∨
    ∃ r r', generatePairs peaks lines g = .ok r ∧ generatePairs peaks lines' g = .ok r' ∧ r.Perm r' := by
  have hs := allPairs_perm peaks h
  unfold generatePairs
  cases g with
  | none => exact .inr ⟨_, _, rfl, rfl, hs⟩
  | some g =>
    dsimp only
    by_cases hf : g.flat = true
    · rw [if_pos hf, if_pos hf]; exact .inl ⟨_, rfl, rfl⟩
    · rw [if_neg hf, if_neg hf]
      by_cases he : allPairs peaks lines = []
      · rw [if_pos he, if_pos (by rw [he] at hs; exact hs.nil_eq.symm)]; exact .inl ⟨_, rfl, rfl⟩
      · rw [if_neg he, if_neg (fun hh => he (by rw [hh] at hs; exact hs.eq_nil)), boolMask_map_pred,
          boolMask_map_pred]
        exact .inr ⟨_, _, rfl, rfl, hs.filter _⟩

theorem lines_order (c : Cal K) (q : Option (PairStore K)) (t s : Option (PointStore K))
    (hq : PairPerm c.pairs q) (ht : PointRel c.ht.points t) (hs : PointRel c.houghPoints s) {lines lines' : List K}
    (hl : lines'.Perm lines) :
    (∃ q', ((c.reorder c.peaks q t s).generatePairs lines').1 =
        (c.generatePairs lines).1.reorder (c.generatePairs lines).1.peaks q' t s ∧
      PairPerm (c.generatePairs lines).1.pairs q' ∧ PointRel (c.generatePairs lines).1.ht.points t ∧
      PointRel (c.generatePairs lines).1.houghPoints s) ∧
    ((c.reorder c.peaks q t s).generatePairs lines').2 = (c.generatePairs lines).2 := by
  unfold Cal.generatePairs
  rw [show (c.reorder c.peaks q t s).constrainPoly = c.constrainPoly from rfl]
  split
  · rw [show (c.reorder c.peaks q t s).candTol = c.candTol from rfl,
      show (c.reorder c.peaks q t s).props = c.props from rfl,
      show (c.reorder c.peaks q t s).peaks = c.peaks from rfl]
    cases c.candTol with
    | none => exact ⟨⟨q, rfl, hq, ht, hs⟩, rfl⟩
    | some tol =>
      cases c.props.pixelList with
      | nil => exact ⟨⟨q, rfl, hq, ht, hs⟩, rfl⟩
      | cons a l =>
        dsimp only
        rw [show (c.reorder c.peaks q t s).polygon tol (listMax a l) = c.polygon tol (listMax a l) from rfl]
        rcases generatePairs_perm c.peaks hl (some (c.polygon tol (listMax a l))) with
          ⟨e, h1, h2⟩ | ⟨r, r', h1, h2, hr⟩
        · rw [h1, h2]; exact ⟨⟨q, rfl, hq, ht, hs⟩, rfl⟩
        · rw [h1, h2]
          exact ⟨⟨some (.array r'), rfl, .array r r' hr, ht, hs⟩, rfl⟩
  · refine ⟨⟨_, rfl, ?_, ht, hs⟩, rfl⟩
    have hsame := allPairs_perm c.peaks hl
    change PairPerm (some (if allPairs c.peaks lines = [] then .noColumns else .array (allPairs c.peaks lines)))
      (some (if allPairs c.peaks lines' = [] then .noColumns else .array (allPairs c.peaks lines')))
    by_cases hn : allPairs c.peaks lines = []
    · rw [if_pos hn]
      rw [hn] at hsame
      rw [if_pos hsame.nil_eq.symm]
      exact .noColumns
    · rw [if_neg hn, if_neg]
      · exact .array _ _ hsame
      · intro hh
        rw [hh] at hsame
        exact hn hsame.eq_nil

theorem LineOrder.atlasLines {w w' : World K} (h : LineOrder w w') :
    (∃ e, w.atlasLines = .error e ∧ w'.atlasLines = .error e) ∨
    ∃ l l', w.atlasLines = .ok l ∧ w'.atlasLines = .ok l' ∧ l'.Perm l := by
  obtain ⟨ha, q, t, s, hc, _⟩ := h
  unfold World.atlasLines
  rw [hc, show (w.cal.reorder w.cal.peaks q t s).atlas = w.cal.atlas from rfl]
  cases w.cal.atlas with
  | none => exact .inl ⟨_, rfl, rfl⟩
  | some i =>
    dsimp only
    rcases forall₂_get ha i with ⟨h1, h2⟩ | ⟨a, a', h1, h2, h3⟩
    · rw [h1, h2]; exact .inl ⟨_, rfl, rfl⟩
    · rw [h1, h2]
      exact .inr ⟨_, _, rfl, rfl, h3.1.map _⟩

theorem LineOrder.generate {w w' : World K} (h : LineOrder w w') :
    LineOrder w.generatePairs.1 w'.generatePairs.1 ∧ w'.generatePairs.2 = w.generatePairs.2 := by
  unfold World.generatePairs
  rcases h.atlasLines with ⟨e, h1, h2⟩ | ⟨l, l', h1, h2, h3⟩
  · rw [h1, h2]; exact ⟨h, rfl⟩
  · rw [h1, h2]
    obtain ⟨ha, q, t, s, hc, hq, ht, hs⟩ := h
    obtain ⟨⟨q', g1, g2, g3, g4⟩, g5⟩ := lines_order w.cal q t s hq ht hs h3
    dsimp only
    rw [hc]
    exact ⟨⟨ha, q', t, s, g1, g2, g3, g4⟩, g5⟩

theorem LineOrder.setAtlas {w w' : World K} (h : LineOrder w w') (i : Nat) (tol : K) (b : Bool) :
    LineOrder (w.setAtlas i tol b).1 (w'.setAtlas i tol b).1 ∧ (w'.setAtlas i tol b).2 = (w.setAtlas i tol b).2 := by
  obtain ⟨ha, q, t, s, hc, hq, ht, hs⟩ := h
  unfold World.setAtlas
  refine LineOrder.generate ⟨ha, q, t, s, ?_, hq, ht, hs⟩
  rw [hc]
  rfl

theorem LineOrder.modify {w w' : World K} (h : LineOrder w w') (i : Nat) (f g : Atlas K → Atlas K)
    (hf : ∀ a a', w.atlases[i]? = some a → w'.atlases[i]? = some a' → SameLines a a' → SameLines (f a) (g a')) :
    LineOrder (w.modifyAtlas i f) (w'.modifyAtlas i g) :=
  ⟨forall₂_modify h.1 i f g hf, h.2⟩

theorem addLoop_append (load : String → PyRes (LineArrays K)) (es : List String) :
    ∀ lines : List (AtlasLine K), ∃ more, (addLoop load es lines).1 = lines ++ more ∧
      ∀ lines' : List (AtlasLine K), (addLoop load es lines').1 = lines' ++ more ∧
        (addLoop load es lines').2 = (addLoop load es lines).2 := by
  induction es with
  | nil => exact fun lines => ⟨[], by simp [addLoop], fun l' => by simp [addLoop]⟩
  | cons e es ih =>
    intro lines
    unfold addLoop
    cases load e with
    | error err => exact ⟨[], by simp, fun l' => by simp⟩
    | ok r =>
      dsimp only
      obtain ⟨m, h1, h2⟩ := ih (lines ++ r.nistLines)
      refine ⟨r.nistLines ++ m, by rw [h1, List.append_assoc], fun l' => ?_⟩
      obtain ⟨h3, h4⟩ := h2 (l' ++ r.nistLines)
      exact ⟨by rw [h3, List.append_assoc], h4⟩

/-- `Atlas.add` appends lines that do not depend on the ones there. -/
theorem add_sameLines (env : Env K) (a : AddArgs K) {x x' : Atlas K} (h : SameLines x x') :
    SameLines (x.add env a).1 (x'.add env a).1 ∧ (x'.add env a).2 = (x.add env a).2 := by
  obtain ⟨l, mn, mx, rt⟩ := x
  obtain ⟨l', mn', mx', rt'⟩ := x'
  obtain ⟨h1, h2, h3, h4⟩ := h
  dsimp only at h1 h2 h3 h4
  subst h2 h3 h4
  unfold Atlas.add
  dsimp only
  cases addLimit a.minW mn' (fun v => v - rt') with
  | error e => exact ⟨⟨h1, rfl, rfl, rfl⟩, rfl⟩
  | ok lo' =>
    dsimp only
    cases addLimit a.maxW mx' (fun v => v + rt') with
    | error e => exact ⟨⟨h1, rfl, rfl, rfl⟩, rfl⟩
    | ok hi' =>
      dsimp only
      cases lo'.toFinite with
      | none => exact ⟨⟨h1, rfl, rfl, rfl⟩, rfl⟩
      | some lo =>
        dsimp only
        cases hi'.toFinite with
        | none => exact ⟨⟨h1, rfl, rfl, rfl⟩, rfl⟩
        | some hi =>
          dsimp only
          obtain ⟨m, g1, g2⟩ := addLoop_append (a.load env lo hi) a.elements.toList l
          obtain ⟨g3, g4⟩ := g2 l'
          refine ⟨⟨?_, rfl, rfl, rfl⟩, g4⟩
          dsimp only
          rw [g1, g3]
          exact h1.append_right m

/-- `Atlas.add_user_atlas` is an order-free change. -/
theorem addUser_sameLines (es : UserElems) (ws : SeqArg K) (is : Option (SeqArg K)) (vac : Bool) (conv : K → K)
    {x x' : Atlas K} (h : SameLines x x') :
    SameLines (x.addUser es ws is vac conv).1 (x'.addUser es ws is vac conv).1 ∧
      (x'.addUser es ws is vac conv).2 = (x.addUser es ws is vac conv).2 := by
  obtain ⟨h1, h2, h3, h4⟩ := id h
  unfold Atlas.addUser
  cases es.toList with
  | none => exact ⟨h, rfl⟩
  | some es =>
    dsimp only
    cases ws.toList with
    | none => exact ⟨h, rfl⟩
    | some ws =>
      dsimp only
      cases userIntensities ws.length is with
      | none => exact ⟨h, rfl⟩
      | some is =>
        dsimp only
        split
        · exact ⟨h, rfl⟩
        · split
          · exact ⟨h, rfl⟩
          · generalize (if vac = true then ws.map conv else ws) = ws'
            cases ws' with
            | nil => exact ⟨h, rfl⟩
            | cons w t => exact ⟨⟨h1.append_right _, rfl, rfl, h4⟩, rfl⟩

theorem clear_sameLines : KeepsOrderFree (Atlas.clear (K := K)) := fun _ _ h => ⟨.refl _, h.2⟩

theorem LineOrder.step (E : CalEnv K) (hE : IsArgsort E.argsortK) {w w' : World K} (h : LineOrder w w')
    (op : SetOp K) (hop : op.lineOrderFree) :
    LineOrder (w.step E op).1 (w'.step E op).1 ∧ (w'.step E op).2 = (w.step E op).2 := by
  obtain ⟨ha, q, t, s, hc, hq, ht, hs⟩ := id h
  obtain ⟨atl', c'⟩ := w'
  dsimp only at hc ha
  subst hc
  have hat : (w.cal.reorder w.cal.peaks q t s).atlas = w.cal.atlas := rfl
  have hho : (w.cal.reorder w.cal.peaks q t s).hough = w.cal.hough := rfl
  have hpr : (w.cal.reorder w.cal.peaks q t s).props = w.cal.props := rfl
  cases op with
  | setCalibrator a b c => exact ⟨⟨ha, q, t, s, rfl, hq, ht, hs⟩, rfl⟩
  | useMatplotlib => exact ⟨⟨ha, q, t, s, rfl, hq, ht, hs⟩, rfl⟩
  | usePlotly => exact ⟨⟨ha, q, t, s, rfl, hq, ht, hs⟩, rfl⟩
  | setHough a =>
    simp only [World.step]
    unfold World.setHough
    dsimp only
    rw [hho, hpr, hat]
    generalize HoughSet.apply (some w.cal.hough) a w.cal.props.pixelList = r
    cases r.2 with
    | error e => exact ⟨⟨ha, q, t, s, rfl, hq, ht, hs⟩, rfl⟩
    | ok u =>
      cases w.cal.atlas with
      | none => exact ⟨⟨ha, q, t, s, rfl, hq, ht, hs⟩, rfl⟩
      | some i =>
        dsimp only
        exact LineOrder.generate ⟨ha, q, t, s, rfl, hq, ht, hs⟩
  | setRansac a => exact ⟨⟨ha, q, t, s, rfl, hq, ht, hs⟩, rfl⟩
  | setAtlas i tol b => exact h.setAtlas i tol b
  | addAtlas a tol b =>
    simp only [World.step]
    unfold World.addAtlas
    dsimp only
    rw [hat, hho]
    cases w.cal.atlas with
    | none =>
      dsimp only
      cases Atlas.new E.env (w.cal.hough.fillLimits a) w.cal.hough.rangeTol with
      | error e => exact ⟨h, rfl⟩
      | ok at_ =>
        have h' : LineOrder { w with atlases := w.atlases ++ [at_] }
            ⟨atl' ++ [at_], w.cal.reorder w.cal.peaks q t s⟩ :=
          ⟨List.rel_append ha (.cons (.refl _) .nil), q, t, s, rfl, hq, ht, hs⟩
        dsimp only
        rw [← ha.length_eq]
        exact h'.setAtlas _ tol b
    | some i =>
      dsimp only
      rcases forall₂_get ha i with ⟨h1, h2⟩ | ⟨x, x', h1, h2, h3⟩
      · rw [h1, h2]; exact ⟨h, rfl⟩
      · rw [h1, h2]
        dsimp only
        obtain ⟨g1, g2⟩ := add_sameLines E.env (w.cal.hough.fillLimits a) h3
        have h' := h.modify i (fun _ => (Atlas.add E.env x (w.cal.hough.fillLimits a)).1)
          (fun _ => (Atlas.add E.env x' (w.cal.hough.fillLimits a)).1) (fun _ _ _ _ _ => g1)
        rw [g2]
        cases (Atlas.add E.env x (w.cal.hough.fillLimits a)).2 with
        | error e => exact ⟨h', rfl⟩
        | ok u => exact h'.setAtlas i tol b
  | addUserAtlas f tol b =>
    simp only [World.step]
    unfold World.addUserAtlas
    have he : LineOrder (w.ensureAtlas E.emptyAtlas)
        (World.ensureAtlas E.emptyAtlas ⟨atl', w.cal.reorder w.cal.peaks q t s⟩) := by
      unfold World.ensureAtlas
      dsimp only
      rw [hat]
      cases w.cal.atlas with
      | none =>
        refine ⟨List.rel_append ha (.cons (.refl _) .nil), q, t, s, ?_, hq, ht, hs⟩
        dsimp only
        rw [← ha.length_eq]
        rfl
      | some i => exact h
    generalize w.ensureAtlas E.emptyAtlas = v at he
    generalize World.ensureAtlas E.emptyAtlas ⟨atl', w.cal.reorder w.cal.peaks q t s⟩ = v' at he
    dsimp only
    have hva : v'.cal.atlas = v.cal.atlas := by
      obtain ⟨_, _, _, _, hcc, _⟩ := he
      rw [hcc]; rfl
    rw [hva]
    cases v.cal.atlas with
    | none => exact ⟨he, rfl⟩
    | some i =>
      dsimp only
      rcases forall₂_get he.1 i with ⟨h1, h2⟩ | ⟨x, x', h1, h2, h3⟩
      · rw [h1, h2]; exact ⟨he, rfl⟩
      · rw [h1, h2]
        dsimp only
        have h' := he.modify i (fun _ => (f x).1) (fun _ => (f x').1) (fun _ _ _ _ _ => hop.1 x x' h3)
        rw [hop.2 x x' h3]
        cases (f x).2 with
        | error e => exact ⟨h', rfl⟩
        | ok u => exact h'.setAtlas i tol b
  | removeRange v tol => exact hop.elim
  | clearAtlas =>
    simp only [World.step]
    unfold World.clearAtlas
    dsimp only
    rw [hat]
    cases w.cal.atlas with
    | none => exact ⟨h, rfl⟩
    | some i => exact ⟨h.modify i _ _ fun a a' _ _ hs => clear_sameLines a a' hs, rfl⟩
  | editAtlas i f => exact ⟨h.modify i f f fun a a' _ _ hs => hop a a' hs, rfl⟩
  | doHough b =>
    obtain ⟨t', s', h1, h2, h3, h4⟩ := doHough_perm w.cal w.cal.peaks hq ht hs hE E.argsortN b
    obtain ⟨a1, a2, a3, hf⟩ := w.cal.doHough_frame E.argsortK E.argsortN b
    refine ⟨⟨ha, q, t', s', ?_, ?_, h2, h3⟩, h4⟩
    · simp only [World.step]
      rw [h1, hf]
    · simp only [World.step]
      rw [hf]; exact hq
  | loadHough d f ty =>
    obtain ⟨t', h1, h2⟩ := load_order w.cal.ht t ht d f ty
    refine ⟨⟨ha, q, t', s, ?_, hq, h2, hs⟩, load_outcome _ _ _ _ _⟩
    simp only [World.step, Cal.loadHough]
    rw [show (w.cal.reorder w.cal.peaks q t s).ht = { w.cal.ht with points := t } from rfl, h1]
    rfl
  | setKnown a v =>
    simp only [World.step]
    unfold Cal.setKnown
    split
    · split
      · split
        · exact ⟨⟨ha, q, t, s, rfl, hq, ht, hs⟩, rfl⟩
        · exact ⟨h, rfl⟩
      · exact ⟨h, rfl⟩
    · exact ⟨h, rfl⟩

theorem LineOrder.steps (E : CalEnv K) (hE : IsArgsort E.argsortK) (ops : List (SetOp K))
    (hops : ∀ op ∈ ops, op.lineOrderFree) :
    ∀ w w' : World K, LineOrder w w' → LineOrder (w.steps E ops) (w'.steps E ops) := by
  induction ops with
  | nil => exact fun w w' h => h
  | cons op ops ih =>
    intro w w' h
    exact ih (fun o ho => hops o (List.mem_cons_of_mem _ ho)) _ _ (h.step E hE op (hops op List.mem_cons_self)).1

/-- C133 (partial).  For every history of configuration calls and Hough transforms the order of the lines in the
atlases has no effect: the same calls raise the same, the Hough lines, the histogram and the settings are the
same, the combinations are the same up to order.  Missing: `remove_atlas_lines_range` and `fit`, for which it is
false. -/
theorem C133_line_order_partial (E : CalEnv K) (hE : IsArgsort E.argsortK) (c : Cal K)
    (atlases atlases' : List (Atlas K)) (h : List.Forall₂ SameLines atlases atlases') (ops : List (SetOp K))
    (hops : ∀ op ∈ ops, op.lineOrderFree) :
    let w := World.steps E ⟨atlases, c⟩ ops
    let w' := World.steps E ⟨atlases', c⟩ ops
    List.Forall₂ SameLines w.atlases w'.atlases ∧ w'.cal.hough = w.cal.hough ∧ w'.cal.ransac = w.cal.ransac ∧
    w'.cal.props = w.cal.props ∧ w'.cal.known = w.cal.known ∧ w'.cal.atlas = w.cal.atlas ∧
    w'.cal.houghLines = w.cal.houghLines ∧ w'.cal.ht.hist = w.cal.ht.hist ∧
    w'.cal.ht.xedges = w.cal.ht.xedges ∧ w'.cal.ht.yedges = w.cal.ht.yedges ∧
    w'.cal.pairList.Perm w.cal.pairList ∧
    ∀ op : SetOp K, op.lineOrderFree → (w'.step E op).2 = (w.step E op).2 := by
  dsimp only
  have h0 : LineOrder (⟨atlases, c⟩ : World K) ⟨atlases', c⟩ :=
    ⟨h, c.pairs, c.ht.points, c.houghPoints, rfl, .refl _, .same _, .same _⟩
  have ho := LineOrder.steps E hE ops hops _ _ h0
  have hstep := fun (op : SetOp K) (hop : op.lineOrderFree) => (ho.step E hE op hop).2
  obtain ⟨ha, q, t, s, hcal, hq, _, _⟩ := ho
  have hpl : (World.steps E ⟨atlases', c⟩ ops).cal.pairList.Perm (World.steps E ⟨atlases, c⟩ ops).cal.pairList := by
    unfold Cal.pairList
    rw [hcal, show ((World.steps E ⟨atlases, c⟩ ops).cal.reorder _ q t s).pairs = q from rfl]
    rcases hq.inv with ⟨g1, g2⟩ | ⟨g1, g2⟩ | ⟨l, l', g1, g2, g3⟩
    · rw [g1, g2]
    · rw [g1, g2]
    · rw [g1, g2]; exact g3.symm
  refine ⟨ha, ?_, ?_, ?_, ?_, ?_, ?_, ?_, ?_, ?_, hpl, hstep⟩ <;> rw [hcal] <;> rfl

/-- The calls of the refutation: one candidate per peak. -/
def Toy.topCalls : List (CalCall ℚ) :=
  [.set (.setHough { numSlopes := some 2, xbins := some 4, ybins := some 4 }),
   .set (.setRansac { sampleSize := some 2, minFitError := some 0, topN := some 1 }),
   .set (.setAtlas 0 10 false)]

/-- Candidates weigh more the nearer they are to the line. -/
def Toy.nearEnv : FitEnv ℚ := ⟨fun _ => Toy.kern, fun a b _ => 1 / (1 + |a - b|), stableArgsort, stableArgsort, true⟩

/-- What the fit of the peaks 10, 20 reports for the given lines. -/
def Toy.linesRun (calls : List (CalCall ℚ)) (lines : List ℚ) :
    Option (Option (List ℚ × List ℚ) × Option PyErr) :=
  twoPeaks.toOption.map fun c =>
    let r := (World.calls Toy.calEnv Toy.nearEnv ⟨[Toy.atlasOf lines], c⟩ calls).fit Toy.nearEnv Toy.args Toy.rnd
    ((Toy.report r).map fun x => (x.coeffs, x.matchedAtlas), Toy.exception r)

set_option synthInstance.maxHeartbeats 400000 in
set_option synthInstance.maxSize 2000 in
theorem Toy.linesRun_sorted : Toy.linesRun Toy.topCalls [5900, 5960, 8700] =
    some (some ([3100, 280], [5900, 8700]), none) := by
  decide +kernel

set_option synthInstance.maxHeartbeats 400000 in
set_option synthInstance.maxSize 2000 in
theorem Toy.linesRun_swapped : Toy.linesRun Toy.topCalls [5960, 5900, 8700] =
    some (some ([3220, 274], [5960, 8700]), none) := by
  decide +kernel

/-- The full property: also for fits. -/
def C133_Statement : Prop :=
  ∀ (E : CalEnv ℚ) (F : FitEnv ℚ) (lines lines' : List ℚ) (calls : List (CalCall ℚ)) (c : Cal ℚ) (a : FitArgs ℚ)
    (rnd : FitRandom ℚ), lines'.Perm lines → IsArgsort E.argsortK → IsArgsort F.argsortK →
    ((World.calls E F ⟨[Toy.atlasOf lines'], c⟩ calls).fit F a rnd).2 =
      ((World.calls E F ⟨[Toy.atlasOf lines], c⟩ calls).fit F a rnd).2

/-- C133 (refutation).  The wavelengths of a peak are ranked in increasing order but looked up in the order of
the atlas (C55), so with one candidate per peak the fit takes whichever of 5900 and 5960 stands first, although
their weights differ. -/
theorem C133_refuted : ¬ C133_Statement := by
  intro h
  have h1 := Toy.linesRun_sorted
  have h2 := Toy.linesRun_swapped
  unfold Toy.linesRun at h1 h2
  obtain ⟨c, hc, h1⟩ := Option.map_eq_some_iff.1 h1
  obtain ⟨c', hc', h2⟩ := Option.map_eq_some_iff.1 h2
  rw [hc] at hc'
  cases hc'
  have e := h Toy.calEnv Toy.nearEnv [5900, 5960, 8700] [5960, 5900, 8700] Toy.topCalls c Toy.args Toy.rnd
    (List.Perm.swap _ _ _) stableArgsort_isArgsort stableArgsort_isArgsort
  dsimp only at h1 h2
  have r1 := congrArg Prod.fst h1
  have r2 := congrArg Prod.fst h2
  dsimp only at r1 r2
  have er : ∀ {x y : World ℚ × CallRes (FitReport ℚ)}, x.2 = y.2 → Toy.report x = Toy.report y := by
    intro x y hxy
    unfold Toy.report
    rw [hxy]
  rw [er e, r1] at r2
  exact absurd r2 (by decide +kernel)

/-- `remove_atlas_lines_range` depends on the order as well: of two neighbouring lines in the range it keeps
one. -/
example : ((Toy.atlasOf [4000, 4001, 5000]).removeRange 4000 5).getLines = [4001, 5000] ∧
    ((Toy.atlasOf [4000, 5000, 4001]).removeRange 4000 5).getLines = [5000] := by decide +kernel

set_option synthInstance.maxHeartbeats 400000 in
set_option synthInstance.maxSize 2000 in
/-- A case for `C133_line_order_partial`: the lines given in two orders, two more added by hand, and a
transform. -/
example : twoPeaks.toOption.map (fun c =>
    let ops : List (SetOp ℚ) := [.setHough { numSlopes := some 2, xbins := some 4, ybins := some 4 },
      .setAtlas 0 10 true,
      .addUserAtlas (fun a => a.addUser (.list ["Hg", "Hg"]) (.seq [6000, 7000]) none false id) 10 true, .doHough false]
    let w := World.steps Toy.calEnv ⟨[Toy.atlasOf [5900, 5960, 8700]], c⟩ ops
    let w' := World.steps Toy.calEnv ⟨[Toy.atlasOf [8700, 5960, 5900]], c⟩ ops
    (w.cal.pairList, w'.cal.pairList, w.cal.houghLines.map List.length,
      decide (w'.cal.houghLines = w.cal.houghLines))) =
    some ([(10, 5900), (10, 5960), (10, 6000), (20, 8700)], [(10, 5960), (10, 5900), (10, 6000), (20, 8700)],
      some 16, true) := by decide +kernel

/-- The change of that call is order free. -/
example : (SetOp.addUserAtlas (fun a : Atlas ℚ => a.addUser (.list ["Hg", "Hg"]) (.seq [6000, 7000]) none false id)
    10 true).lineOrderFree :=
  ⟨fun _ _ h => (addUser_sameLines _ _ _ _ _ h).1, fun _ _ h => (addUser_sameLines _ _ _ _ _ h).2⟩

end Rascal
