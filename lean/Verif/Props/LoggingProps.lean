import Verif.Model.Logging

/-! Property theorems C187: which messages of a calibrator are printed. -/

set_option linter.unusedSectionVars false

namespace Rascal

/-- No logger has two handlers, as at the start of a process. -/
def Spec.SingleHandlers (L : Logs) : Prop := ∀ name, (L.get name).handlers ≤ 1

/-- The call says nothing about logging. -/
def Spec.SilentOnLogging : LogOp → Prop
  | .new => True
  | .set _ name level => name = none ∧ level = none

/-- The call neither concerns calibrator `i` nor the logger. -/
def Spec.OtherLogger (i : Nat) (logger : String) : LogOp → Prop
  | .new => logger ≠ "Calibrator"
  | .set j name _ => j ≠ i ∧ name.getD "Calibrator" ≠ logger

/-- The levels of Python's logging. -/
def Spec.levels : List (String × Nat) :=
  [("NOTSET", 0), ("DEBUG", 10), ("INFO", 20), ("WARN", 30), ("WARNING", 30), ("ERROR", 40), ("FATAL", 50), ("CRITICAL", 50)]

/-- The text is a name in the list, in any mixture of capitals and small letters. -/
def Spec.Names (level : String) (v : Nat) : Prop :=
  ∃ e ∈ Spec.levels, level.toList.map Char.toUpper = e.1.toList ∧ e.2 = v

open Spec

theorem levelName_iff (level : String) (v : Nat) : levelName level = some v ↔ Names level v := by
  unfold levelName Names Spec.levels
  simp only [List.mem_cons, List.not_mem_nil, or_false, exists_eq_or_imp, exists_eq_left]
  generalize level.toList.map Char.toUpper = u
  constructor
  · intro h
    repeat' split at h
    all_goals first
      | (cases h; done)
      | (rename_i hu; cases h; simp [hu])
  · intro h
    rcases h with ⟨rfl, rfl⟩ | ⟨rfl, rfl⟩ | ⟨rfl, rfl⟩ | ⟨rfl, rfl⟩ | ⟨rfl, rfl⟩ | ⟨rfl, rfl⟩ | ⟨rfl, rfl⟩ | ⟨rfl, rfl⟩ <;>
      decide +kernel

theorem configure_single (L : Logs) (h : SingleHandlers L) (name level : String) :
    SingleHandlers (L.configure name level).1 := by
  unfold Logs.configure
  cases levelName level with
  | none => exact h
  | some v =>
    intro n
    dsimp only
    unfold Function.update
    split
    · rename_i e
      subst e
      show (if (L.get n).handlers = 0 then 1 else (L.get n).handlers) ≤ 1
      have := h n
      split <;> omega
    · exact h n

theorem steps_single (L : Logs) (h : SingleHandlers L) (ops : List LogOp) : SingleHandlers (L.steps ops) := by
  induction ops generalizing L with
  | nil => exact h
  | cons o ops ih =>
    refine ih (L.step o).1 ?_
    cases o with
    | new => exact configure_single { L with names := L.names ++ ["Calibrator"] } h _ _
    | set i name level => exact configure_single { L with names := L.names.set i _ } h _ _

/-- C187: however many calibrators are made and however often they are configured, with valid arguments or not, no
message is printed twice. -/
theorem C187_once (L : Logs) (h : SingleHandlers L) (ops : List LogOp) (i msg : Nat) :
    (L.steps ops).printed i msg ≤ 1 := by
  unfold Logs.printed
  split
  · omega
  · rename_i name _
    have := steps_single L h ops name
    repeat' split
    all_goals omega

theorem other_step (L : Logs) (i : Nat) (logger : String) (hn : L.names[i]? = some logger) (o : LogOp)
    (ho : OtherLogger i logger o) :
    (L.step o).1.names[i]? = some logger ∧ (L.step o).1.get logger = L.get logger ∧ (L.step o).1.root = L.root := by
  have hc : ∀ (L : Logs) (name level : String), name ≠ logger → (L.configure name level).1.names = L.names ∧
      (L.configure name level).1.get logger = L.get logger ∧ (L.configure name level).1.root = L.root := by
    intro L name level hne
    unfold Logs.configure
    cases levelName level with
    | none => exact ⟨rfl, rfl, rfl⟩
    | some v => exact ⟨rfl, Function.update_of_ne (Ne.symm hne) _ _, rfl⟩
  cases o with
  | new =>
    obtain ⟨h1, h2, h3⟩ := hc { L with names := L.names ++ ["Calibrator"] } "Calibrator" "warning" (Ne.symm ho)
    refine ⟨?_, h2, h3⟩
    show (Logs.configure _ _ _).1.names[i]? = _
    rw [h1]
    have hlt : i < L.names.length := (List.getElem?_eq_some_iff.1 hn).1
    show (L.names ++ ["Calibrator"])[i]? = _
    rw [List.getElem?_append_left hlt]
    exact hn
  | set j name level =>
    obtain ⟨h1, h2, h3⟩ := hc { L with names := L.names.set j (name.getD "Calibrator") } (name.getD "Calibrator")
      (level.getD "warning") ho.2
    refine ⟨?_, h2, h3⟩
    show (Logs.configure _ _ _).1.names[i]? = _
    rw [h1]
    show (L.names.set j (name.getD "Calibrator"))[i]? = _
    rw [List.getElem?_set_ne ho.1]
    exact hn

/-- C187, what holds of the level: after a call that chooses a logger and the name of a level other than NOTSET, exactly
the messages from that level on are printed, once for each handler of the logger, at least once, until a call concerns the
calibrator or its logger. -/
theorem C187_handlers_partial (L : Logs) (after : List LogOp) (i v : Nat) (logger level : String) (hi : i < L.names.length)
    (hv : Names level v) (hv0 : v ≠ 0) (ha : ∀ o ∈ after, OtherLogger i logger o) (msg : Nat) :
    (L.steps (.set i (some logger) (some level) :: after)).printed i msg =
      if v ≤ msg then max 1 (L.get logger).handlers else 0 := by
  rw [← levelName_iff] at hv
  unfold Logs.steps
  rw [List.foldl_cons]
  have hfirst : (L.step (.set i (some logger) (some level))).1.names[i]? = some logger ∧
      (L.step (.set i (some logger) (some level))).1.get logger = ⟨v, max 1 (L.get logger).handlers⟩ := by
    unfold Logs.step Logs.configure
    dsimp only [Option.getD]
    rw [hv]
    refine ⟨by simp [hi], ?_⟩
    dsimp only
    rw [Function.update_self]
    show LoggerState.mk v (if (L.get logger).handlers = 0 then 1 else (L.get logger).handlers) = ⟨v, _⟩
    congr 1
    split <;> omega
  generalize (L.step (.set i (some logger) (some level))).1 = L2 at hfirst
  have hlast : (after.foldl (fun L o => (L.step o).1) L2).names[i]? = some logger ∧
      (after.foldl (fun L o => (L.step o).1) L2).get logger = ⟨v, max 1 (L.get logger).handlers⟩ := by
    induction after generalizing L2 with
    | nil => exact hfirst
    | cons o after ih =>
      obtain ⟨h1, h2, _⟩ := other_step L2 i logger hfirst.1 o (ha o List.mem_cons_self)
      exact ih (fun o ho => ha o (List.mem_cons_of_mem _ ho)) (L2.step o).1 ⟨h1, h2.trans hfirst.2⟩
  unfold Logs.printed
  rw [hlast.1]
  dsimp only
  rw [hlast.2]
  dsimp only
  rw [if_neg hv0]
  by_cases hm : v ≤ msg
  · rw [if_neg (by omega), if_pos hm, if_neg (by omega)]
  · rw [if_pos (by omega), if_neg hm]

/-- C187 for loggers that only the package has set up: the messages from the level on are printed once each. -/
theorem C187_level_partial (L : Logs) (h : SingleHandlers L) (before after : List LogOp) (i v : Nat)
    (logger level : String) (hi : i < (L.steps before).names.length) (hv : Names level v) (hv0 : v ≠ 0)
    (ha : ∀ o ∈ after, OtherLogger i logger o) (msg : Nat) :
    (L.steps (before ++ .set i (some logger) (some level) :: after)).printed i msg = if v ≤ msg then 1 else 0 := by
  have hs := steps_single L h before logger
  have := C187_handlers_partial (L.steps before) after i v logger level hi hv hv0 ha msg
  unfold Logs.steps at this hs ⊢
  rw [List.foldl_append, this]
  congr 1
  omega

/-- C187: what is not the name of a level raises ValueError, and the call has already given the calibrator the named
logger. -/
theorem C187_unknown (L : Logs) (i : Nat) (hi : i < L.names.length) (logger level : String)
    (hv : ∀ v, ¬ Names level v) :
    (L.step (.set i (some logger) (some level))).2 = .error .valueError ∧
      (L.step (.set i (some logger) (some level))).1.names[i]? = some logger ∧
      (L.step (.set i (some logger) (some level))).1.get = L.get := by
  have hn : levelName level = none := by
    cases hl : levelName level with
    | none => rfl
    | some v => exact absurd ((levelName_iff level v).1 hl) (hv v)
  unfold Logs.step Logs.configure
  dsimp only [Option.getD]
  rw [hn]
  exact ⟨rfl, by simp [hi], rfl⟩

/-- C187, as intended: a level chosen for a calibrator stays until a call gives another logger or level. -/
def C187_Statement : Prop :=
  ∀ (L : Logs) (i : Nat) (level : String), SingleHandlers L → i < L.names.length →
    ∀ after : List LogOp, (∀ o ∈ after, SilentOnLogging o) → ∀ msg,
    (L.steps (.set i none (some level) :: after)).printed i msg = (L.steps [.set i none (some level)]).printed i msg

/-- A process with two calibrators. -/
def Toy.logs : Logs := Logs.steps ⟨30, fun _ => ⟨0, 0⟩, []⟩ [.new, .new]

theorem Toy.logs_single : SingleHandlers Toy.logs := steps_single _ (fun _ => Nat.zero_le 1) _

/-- C187 is false of the code: after `log_level="debug"`, giving any other property resets the level to WARNING. -/
theorem C187_refuted : ¬ C187_Statement := by
  intro h
  have := h Toy.logs 0 "debug" Toy.logs_single (by decide) [.set 0 none none]
    (by intro o ho; rw [List.mem_singleton.1 ho]; exact ⟨rfl, rfl⟩) 20
  revert this
  decide +kernel

/-- Making another calibrator resets it too, for both. -/
theorem C187_new_refuted : ¬ C187_Statement := by
  intro h
  have := h Toy.logs 0 "debug" Toy.logs_single (by decide) [.new]
    (by intro o ho; rw [List.mem_singleton.1 ho]; trivial) 20
  revert this
  decide +kernel

/-- Case for `C187_once`: three calibrators, calls with a new logger, a shared one and an unknown level. -/
example : (List.range 3).map (fun i => (Toy.logs.steps [.new, .set 0 (some "mine") (some "info"), .set 1 none (some "error"),
    .set 2 (some "mine") (some "loud")]).printed i 20) = [1, 0, 1] := by decide +kernel

/-- Case for `C187_level_partial`: an own logger keeps its level while others are made and configured. -/
example (msg : Nat) : (Toy.logs.steps ([.set 1 none (some "error")] ++ .set 0 (some "mine") (some "Info") ::
    [.new, .set 1 none none, .set 2 (some "other") (some "loud")])).printed 0 msg = if 20 ≤ msg then 1 else 0 :=
  C187_level_partial Toy.logs Toy.logs_single _ _ 0 20 "mine" "Info" (by decide +kernel)
    ((levelName_iff _ _).1 (by decide +kernel)) (by decide)
    (by
      intro o ho
      simp only [List.mem_cons, List.not_mem_nil, or_false] at ho
      rcases ho with rfl | rfl | rfl
      · exact (by decide : "mine" ≠ "Calibrator")
      · exact ⟨by decide, by decide⟩
      · exact ⟨by decide, by decide⟩) msg

/-- Case for `C187_handlers_partial`: a logger to which the user has given two handlers prints messages twice. -/
example (msg : Nat) : (Logs.steps ⟨30, fun _ => ⟨0, 2⟩, ["Calibrator"]⟩ [.set 0 (some "mine") (some "wArn")]).printed 0 msg =
    if 30 ≤ msg then 2 else 0 :=
  C187_handlers_partial ⟨30, fun _ => ⟨0, 2⟩, ["Calibrator"]⟩ [] 0 30 "mine" "wArn" (by decide)
    ((levelName_iff _ _).1 (by decide +kernel)) (by decide) (by simp) msg

/-- Case for `C187_unknown`. -/
example : (Toy.logs.step (.set 1 (some "mine") (some "loud"))).1.names = ["Calibrator", "mine"] := by decide +kernel

end Rascal
