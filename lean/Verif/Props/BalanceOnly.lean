import Verif.Props.Rows
import Verif.Props.RowsAny
import Verif.Props.Lobby
import Verif.Props.NonInterference
import Verif.Props.Commands
import Verif.Props.Looks
/-!
# C159: the balance data only give names to abilities and sizes to units

`blank` removes what the balance data give: the name of the ability of a command, and the radius of a unit.  Two runs
over the same bytes with different balance data differ in nothing else.
-/
namespace S2

/-- A command without the name of its ability. [specification] -/
def CmdEvent.blank (e : CmdEvent) : CmdEvent := { e with abil := e.abil.map (fun a => { a with ability := [] }) }

/-- The command a unit remembers, without the name of its ability. [specification] -/
def UnitCmd.blank (c : UnitCmd) : UnitCmd := { c with abil := c.abil.map (fun a => { a with ability := [] }) }

/-- A unit without its radius and without the name of the ability of its command. [specification] -/
def SUnit.blank (u : SUnit) : SUnit := { u with radius := 0, cmd := u.cmd.blank }

/-- A game event without the name of its ability. [specification] -/
def GameEvt.blank : GameEvt → GameEvt
  | .cmd e => .cmd e.blank
  | e => e

/-- The same for the event of the combined iterator. [specification] -/
def SEvent.blank : SEvent → SEvent
  | .tracker l e => .tracker l e
  | .game l user name e => .game l user name e.blank

/-- The same for the hint. [specification] -/
def Hint.blank : Hint → Hint
  | .registered u c => .registered u.blank (c.map SUnit.blank)
  | .positions us => .positions (us.map SUnit.blank)
  | .targetPoints us => .targetPoints (us.map SUnit.blank)
  | .targetUnits us t => .targetUnits (us.map SUnit.blank) t.blank
  | .unregistered k u => .unregistered (k.map SUnit.blank) u.blank
  | .abilities us e t => .abilities (us.map SUnit.blank) e.blank (t.map SUnit.blank)
  | .selection us => .selection (us.map SUnit.blank)
  | .none => .none

/-- The same for an item of the combined iterator. [specification] -/
def Item.blank (it : Item) : Item := ⟨it.event.blank, it.hint.blank⟩

/-- The same for all units. [specification] -/
def Units.blank (us : Units) : Units := fun k => (us k).map SUnit.blank

/-- The same outcome up to `f`: the same error, a panic in both, or two values with the same image. [specification] -/
def SameRes {α β : Type} (f : α → β) : Res α → Res α → Prop
  | .ok x, .ok y => f x = f y
  | .err e, .err e' => e = e'
  | .panic, .panic => True
  | _, _ => False

theorem SameRes.bind {α β γ δ : Type} {f : α → β} {g : γ → δ} {x y : Res α} {k k' : α → Res γ} (h : SameRes f x y)
    (hk : ∀ a b, f a = f b → SameRes g (k a) (k' b)) : SameRes g (x >>= k) (y >>= k') := by
  cases x <;> cases y <;> simp only [SameRes] at h
  · exact hk _ _ h
  · subst h; exact rfl
  · trivial

theorem SameRes.refl {α β : Type} (f : α → β) (x : Res α) : SameRes f x x := by
  cases x <;> simp [SameRes]

/-- Two states that differ in the balance data only. [proof device, no counterpart in /repo] -/
def BalAlike (s t : SState) : Prop := Units.blank s.units = Units.blank t.units ∧ s.users = t.users

/-- What a step shows, without what the balance data give. [proof device, no counterpart in /repo] -/
def stepView (p : SState × Item) : Units × List (Int × UserState) × Item := (p.1.units.blank, p.1.users, p.2.blank)

theorem blank_cases {s t : Units} (h : s.blank = t.blank) (k : Int) :
    (s k = none ∧ t k = none) ∨ ∃ u v, s k = some u ∧ t k = some v ∧ u.blank = v.blank := by
  have := congrFun h k
  simp only [Units.blank] at this
  cases hs : s k <;> cases ht : t k <;> rw [hs, ht] at this <;> simp_all

theorem blank_set {s t : Units} (h : s.blank = t.blank) (i : Int) {u v : SUnit} (huv : u.blank = v.blank) :
    (s.set i u).blank = (t.set i v).blank := by
  funext k
  simp only [Units.blank, Units.set]
  split
  · simp [huv]
  · exact congrFun h k

theorem blank_remove {s t : Units} (h : s.blank = t.blank) (i : Int) : (s.remove i).blank = (t.remove i).blank := by
  funext k
  simp only [Units.blank, Units.remove]
  split
  · rfl
  · exact congrFun h k

theorem blank_map {s t : Units} (h : s.blank = t.blank) (k : Int) : (s k).map SUnit.blank = (t k).map SUnit.blank :=
  congrFun h k

theorem blank_filterMap {s t : Units} (h : s.blank = t.blank) (ks : List Int) :
    (ks.filterMap s).map SUnit.blank = (ks.filterMap t).map SUnit.blank := by
  induction ks with
  | nil => rfl
  | cons k ks ih =>
    rcases blank_cases h k with ⟨a, b⟩ | ⟨u, v, a, b, c⟩
    · simp [a, b, ih]
    · simp [a, b, c, ih]

theorem blank_props {u v : SUnit} (h : u.blank = v.blank) (b c : BalUnits) :
    (u.setProps b).blank = (v.setProps c).blank := by
  simp only [SUnit.blank, SUnit.mk.injEq] at h
  simp [SUnit.blank, SUnit.setProps, unitSizedColor, h]

/-- Close a goal about a changed unit. [proof device, no counterpart in /repo] -/
theorem blank_ext {u v : SUnit} (h : u.blank = v.blank) : u.tagIndex = v.tagIndex ∧ u.userId = v.userId ∧
    u.playerName = v.playerName ∧ u.name = v.name ∧ u.pos = v.pos ∧ u.initGameLoop = v.initGameLoop ∧
    u.creatorAbilityName = v.creatorAbilityName ∧ u.color = v.color ∧ u.isSelected = v.isSelected ∧ u.isInit = v.isInit ∧
    u.cmd.blank = v.cmd.blank ∧ u.lastGameLoop = v.lastGameLoop := by
  simp only [SUnit.blank, SUnit.mk.injEq] at h
  simp_all

/-! ## Tracker events -/

theorem positions_blank (loop : Int) : ∀ (ps : List (Int × Int × Int)) {s t : Units}, s.blank = t.blank →
    (positionsUpdate loop ps s).1.blank = (positionsUpdate loop ps t).1.blank ∧
    (positionsUpdate loop ps s).2 = (positionsUpdate loop ps t).2
  | [], s, t, h => ⟨h, rfl⟩
  | (tag, x, y) :: ps, s, t, h => by
    simp only [positionsUpdate]
    rcases blank_cases h tag with ⟨h1, h2⟩ | ⟨u, v, h1, h2, h3⟩
    · rw [h1, h2]
      exact positions_blank loop ps h
    · rw [h1, h2]
      have := positions_blank loop ps (blank_set h tag
        (u := { u with pos := ⟨(f32OfInt x : Rat) / 4, (f32OfInt y : Rat) / 4, 0⟩, lastGameLoop := loop })
        (v := { v with pos := ⟨(f32OfInt x : Rat) / 4, (f32OfInt y : Rat) / 4, 0⟩, lastGameLoop := loop }) (by
          have := blank_ext h3
          simp [SUnit.blank, this]))
      exact ⟨this.1, by simp [this.2]⟩

theorem creator_blank {s t : SState} (h : s.units.blank = t.units.blank) (loop : Int) (c : Option Int) :
    (touchCreator s loop c).1.blank = (touchCreator t loop c).1.blank ∧
    (touchCreator s loop c).2.map SUnit.blank = (touchCreator t loop c).2.map SUnit.blank := by
  unfold touchCreator
  cases c with
  | none => exact ⟨h, rfl⟩
  | some c =>
    dsimp only
    rcases blank_cases h c with ⟨h1, h2⟩ | ⟨u, v, h1, h2, h3⟩
    · rw [h1, h2]; exact ⟨h, rfl⟩
    · rw [h1, h2]
      have e : SUnit.blank { u with lastGameLoop := loop } = SUnit.blank { v with lastGameLoop := loop } := by
        have := blank_ext h3
        simp [SUnit.blank, this]
      exact ⟨blank_set h c e, by simp [e]⟩

/-- What a tracker or game step shows. [proof device, no counterpart in /repo] -/
def trackView (p : SState × TrackerEvt × Hint) : Units × List (Int × UserState) × TrackerEvt × Hint :=
  (p.1.units.blank, p.1.users, p.2.1, p.2.2.blank)

theorem tracker_blank (bld : Build) {s t : SState} (h : BalAlike s t) (loop : Int) (e : TrackerEvt) :
    SameRes trackView (handleTracker bld s loop e) (handleTracker bld t loop e) := by
  obtain ⟨hu, hv⟩ := h
  cases e with
  | playerStats p st => simp [handleTracker, SameRes, trackView, hu, hv, Hint.blank]
  | unitOwnerChange e => simp [handleTracker, SameRes, trackView, hu, hv, Hint.blank]
  | upgrade e => simp [handleTracker, SameRes, trackView, hu, hv, Hint.blank]
  | playerSetup e =>
    simp only [handleTracker, SameRes, handlePlayerSetup, hv]
    cases e.userId with
    | none => simp [trackView, hu, hv]
    | some id =>
      dsimp only
      cases getUser t.users id with
      | none => simp [trackView, hu, hv]
      | some u => simp [trackView, hu]
  | unitPosition e =>
    simp only [handleTracker, handleUnitPosition]
    refine (SameRes.refl id _).bind fun ps qs hps => ?_
    have hps : ps = qs := hps
    subst hps
    have := positions_blank loop ps hu
    simp only [SameRes, Res.pure_eq, trackView, Prod.mk.injEq, hv, true_and, Hint.blank, Hint.positions.injEq, this.2]
    exact ⟨this.1, blank_filterMap this.1 _⟩
  | unitDone e =>
    simp only [handleTracker, SameRes, handleUnitDone]
    rcases blank_cases hu e.unitTagIndex with ⟨a, b⟩ | ⟨u, v, a, b, c⟩
    · rw [a, b]; simp [trackView, hu, hv]
    · rw [a, b]
      have e1 : SUnit.blank { u with lastGameLoop := loop, isInit := false } =
          SUnit.blank { v with lastGameLoop := loop, isInit := false } := by
        have := blank_ext c
        simp [SUnit.blank, this]
      have e2 := blank_props e1 s.balance t.balance
      simp only [trackView, Prod.mk.injEq, hv, true_and, Hint.blank, e2, Option.map_none, and_true]
      exact blank_set hu _ e2
  | unitInit e =>
    simp only [handleTracker, SameRes, handleUnitInit, trackView, Prod.mk.injEq, hv, true_and, Hint.blank, Option.map_none,
      Hint.registered.injEq, and_true]
    refine ⟨?_, blank_props rfl _ _⟩
    rcases blank_cases hu e.unitTagIndex with ⟨a, b⟩ | ⟨u, v, a, b, c⟩
    · rw [a, b]
      exact blank_set hu _ (blank_props rfl _ _)
    · rw [a, b]
      refine blank_set hu _ ?_
      have := blank_ext c
      simp [SUnit.blank, this]
  | unitTypeChange e =>
    simp only [handleTracker, SameRes, handleUnitTypeChange]
    rcases blank_cases hu e.unitTagIndex with ⟨a, b⟩ | ⟨u, v, a, b, c⟩
    · rw [a, b]
      simp only [trackView, Prod.mk.injEq, hv, true_and, and_true]
      exact blank_set hu _ (blank_props rfl _ _)
    · rw [a, b]
      have e1 : SUnit.blank { u with name := e.unitTypeName, lastGameLoop := loop } =
          SUnit.blank { v with name := e.unitTypeName, lastGameLoop := loop } := by
        have := blank_ext c
        simp [SUnit.blank, this]
      have e2 := blank_props e1 s.balance t.balance
      simp only [trackView, Prod.mk.injEq, hv, true_and, Hint.blank, e2, Option.map_some, c, and_true]
      exact blank_set hu _ e2
  | unitBorn e =>
    obtain ⟨hc, hc2⟩ := creator_blank hu loop e.creatorUnitTagIndex
    simp only [handleTracker, SameRes, handleUnitBorn]
    rcases blank_cases hc e.unitTagIndex with ⟨a, b⟩ | ⟨u, v, a, b, c⟩
    · rw [a, b]
      simp only [trackView, Prod.mk.injEq, hv, true_and, Hint.blank, hc2, Hint.registered.injEq, and_true]
      exact ⟨blank_set hc _ (blank_props rfl _ _), blank_props rfl _ _⟩
    · rw [a, b]
      have e1 : SUnit.blank { u with creatorAbilityName := e.creatorAbilityName, lastGameLoop := loop } =
          SUnit.blank { v with creatorAbilityName := e.creatorAbilityName, lastGameLoop := loop } := by
        have := blank_ext c
        simp [SUnit.blank, this]
      simp only [trackView, Prod.mk.injEq, hv, true_and, Hint.blank, hc2, Hint.registered.injEq, and_true]
      exact ⟨blank_set hc _ e1, e1⟩
  | unitDied e =>
    simp only [handleTracker, handleUnitDied, hv]
    refine (SameRes.refl id _).bind fun us vs hus => ?_
    have hus : us = vs := hus
    subst hus
    have hr := blank_remove hu e.unitTagIndex
    rcases blank_cases hu e.unitTagIndex with ⟨a, b⟩ | ⟨u, v, a, b, c⟩
    · rw [a, b]; simp [SameRes, trackView, hr]
    · rw [a, b]
      simp only [SameRes, Res.pure_eq, trackView, hr, Hint.blank, c]
      cases e.killerUnitTagIndex with
      | none => rfl
      | some k => simp [blank_map hr k]

/-! ## Game events -/

/-- What a game step shows. [proof device, no counterpart in /repo] -/
def gameView (p : SState × GameEvt × Hint) : Units × List (Int × UserState) × GameEvt × Hint :=
  (p.1.units.blank, p.1.users, p.2.1.blank, p.2.2.blank)

theorem toUnitCmd_blank {c d : CmdEvent} (h : c.blank = d.blank) : c.toUnitCmd.blank = d.toUnitCmd.blank := by
  obtain ⟨f, a, dt, q, o, g⟩ := c
  obtain ⟨f', a', dt', q', o', g'⟩ := d
  simp only [CmdEvent.blank, CmdEvent.mk.injEq] at h
  obtain ⟨rfl, h, rfl, rfl, rfl, rfl⟩ := h
  cases a <;> cases a' <;> simp_all [UnitCmd.blank, CmdEvent.toUnitCmd]

theorem cmdLoop_blank (b c : BalUnits) (loop : Int) {x y : Option SUnit} (ht : x.map SUnit.name = y.map SUnit.name) :
    ∀ (ids : List Int) {us vs : Units} {e f : CmdEvent}, us.blank = vs.blank → e.blank = f.blank →
    (cmdLoop b loop x ids us e).1.blank = (cmdLoop c loop y ids vs f).1.blank ∧
    (cmdLoop b loop x ids us e).2.1.blank = (cmdLoop c loop y ids vs f).2.1.blank ∧
    (cmdLoop b loop x ids us e).2.2.map SUnit.blank = (cmdLoop c loop y ids vs f).2.2.map SUnit.blank
  | [], us, vs, e, f, hu, he => ⟨hu, he, rfl⟩
  | id :: ids, us, vs, e, f, hu, he => by
    simp only [cmdLoop]
    rcases blank_cases hu (tagIndex id) with ⟨h1, h2⟩ | ⟨u, v, h1, h2, h3⟩
    · rw [h1, h2]
      exact cmdLoop_blank b c loop ht ids hu he
    · rw [h1, h2]
      dsimp only
      have he' := he
      simp only [CmdEvent.blank, CmdEvent.mk.injEq] at he'
      cases ha : e.abil with
      | none =>
        cases ha' : f.abil with
        | none => exact cmdLoop_blank b c loop ht ids hu he
        | some a' => rw [ha, ha'] at he'; simp at he'
      | some a =>
        cases ha' : f.abil with
        | none => rw [ha, ha'] at he'; simp at he'
        | some a' =>
          dsimp only
          rw [ha, ha'] at he'
          simp only [Option.map_some, Option.some.injEq, CmdAbil.mk.injEq, true_and] at he'
          have hc : ∀ n n', CmdEvent.blank { e with abil := some { a with ability := n } } =
              CmdEvent.blank { f with abil := some { a' with ability := n' } } := by
            intro n n'
            simp [CmdEvent.blank, he']
          have hcmd := hc (abilityName b u.name a.abilLink a.abilCmdIndex) (abilityName c v.name a'.abilLink a'.abilCmdIndex)
          have hu' : ∀ {c1 d1 : UnitCmd}, c1.blank = d1.blank →
              SUnit.blank { u with cmd := { c1 with otherUnitName := x.map SUnit.name }, lastGameLoop := loop } =
              SUnit.blank { v with cmd := { d1 with otherUnitName := y.map SUnit.name }, lastGameLoop := loop } := by
            intro c1 d1 h
            have h4 := blank_ext h3
            simp only [UnitCmd.blank, UnitCmd.mk.injEq] at h
            simp [SUnit.blank, UnitCmd.blank, h4, h, ht]
          have hu'' := hu' (toUnitCmd_blank hcmd)
          have ih := cmdLoop_blank b c loop ht ids (blank_set hu (tagIndex id) hu'') hcmd
          exact ⟨ih.1, ih.2.1, by simp only [List.map_cons, hu'', ih.2.2]⟩

theorem selectedIds_users {s t : SState} (h : s.users = t.users) (user : Int) : selectedIds s user = selectedIds t user := by
  simp [selectedIds, h]

theorem blank_name {x y : Option SUnit} (h : x.map SUnit.blank = y.map SUnit.blank) : x.map SUnit.name = y.map SUnit.name := by
  cases x <;> cases y <;> simp at h ⊢
  exact (blank_ext h).2.2.2.1

theorem handleCmd_blank {s t : SState} (h : BalAlike s t) (loop user : Int) (e : CmdEvent) :
    SameRes gameView (handleCmd s loop user e) (handleCmd t loop user e) := by
  obtain ⟨hu, hv⟩ := h
  simp only [handleCmd, selectedIds_users hv]
  refine (SameRes.refl id _).bind fun ids ids' hi => ?_
  have hi : ids = ids' := hi
  subst hi
  have key : ∀ {x y : Option SUnit}, x.map SUnit.blank = y.map SUnit.blank →
      SameRes gameView
        (pure ({ s with units := (cmdLoop s.balance loop x ids s.units e).1 }, GameEvt.cmd (cmdLoop s.balance loop x ids s.units e).2.1,
          Hint.abilities (cmdLoop s.balance loop x ids s.units e).2.2 (cmdLoop s.balance loop x ids s.units e).2.1 x))
        (pure ({ t with units := (cmdLoop t.balance loop y ids t.units e).1 }, GameEvt.cmd (cmdLoop t.balance loop y ids t.units e).2.1,
          Hint.abilities (cmdLoop t.balance loop y ids t.units e).2.2 (cmdLoop t.balance loop y ids t.units e).2.1 y)) := by
    intro x y hxy
    have := cmdLoop_blank s.balance t.balance loop (blank_name hxy) ids hu (rfl : e.blank = e.blank)
    simp only [SameRes, Res.pure_eq, gameView, hv, GameEvt.blank, Hint.blank, this.1, this.2.1, this.2.2, hxy]
  refine key ?_
  cases e.data with
  | targetUnit tu => exact blank_map hu tu.tag
  | _ => rfl

theorem retarget_blank {f : UnitCmd → UnitCmd} (hf : ∀ {c d : UnitCmd}, c.blank = d.blank → (f c).blank = (f d).blank) (loop : Int) :
    ∀ (ids : List Int) {us vs : Units}, us.blank = vs.blank →
    (retarget f loop ids us).1.blank = (retarget f loop ids vs).1.blank ∧
    (retarget f loop ids us).2.map SUnit.blank = (retarget f loop ids vs).2.map SUnit.blank
  | [], us, vs, h => ⟨h, rfl⟩
  | id :: ids, us, vs, h => by
    simp only [retarget]
    rcases blank_cases h (tagIndex id) with ⟨h1, h2⟩ | ⟨u, v, h1, h2, h3⟩
    · rw [h1, h2]; exact retarget_blank hf loop ids h
    · rw [h1, h2]
      have h4 := blank_ext h3
      have e : SUnit.blank { u with cmd := f u.cmd, lastGameLoop := loop } =
          SUnit.blank { v with cmd := f v.cmd, lastGameLoop := loop } := by
        simp [SUnit.blank, h4, hf h4.2.2.2.2.2.2.2.2.2.2.1]
      have ih := retarget_blank hf loop ids (blank_set h (tagIndex id) e)
      exact ⟨ih.1, by simp only [List.map_cons, e, ih.2]⟩

theorem targetPoint_blank {s t : SState} (h : BalAlike s t) (loop user : Int) (p : MapCoord) :
    SameRes gameView (handleTargetPoint s loop user p) (handleTargetPoint t loop user p) := by
  obtain ⟨hu, hv⟩ := h
  simp only [handleTargetPoint, selectedIds_users hv]
  refine (SameRes.refl id _).bind fun ids ids' hi => ?_
  have hi : ids = ids' := hi
  subst hi
  have := retarget_blank (f := fun c => { c with data := .targetPoint p.toVec, otherUnit := none }) (by
    intro c d h
    simp only [UnitCmd.blank, UnitCmd.mk.injEq] at h
    simp [UnitCmd.blank, h]) loop ids hu
  simp only [SameRes, Res.pure_eq, gameView, hv, GameEvt.blank, Hint.blank, this.1, this.2]

theorem targetUnit_blank {s t : SState} (h : BalAlike s t) (loop user : Int) (p : CmdTargetUnit) :
    SameRes gameView (handleTargetUnit s loop user p) (handleTargetUnit t loop user p) := by
  obtain ⟨hu, hv⟩ := h
  have key : ∀ {x y : Option SUnit}, x.map SUnit.blank = y.map SUnit.blank →
      SameRes gameView
        (match x with
          | none => .ok (s, .cmdUpdateTargetUnit p, .none)
          | some r => do
            let ids ← selectedIds s user
            let (units, out) := retarget (fun c => { c with data := .targetUnit p.toUnitCmd }) loop ids s.units
            pure ({ s with units := units }, .cmdUpdateTargetUnit p, .targetUnits out r))
        (match y with
          | none => .ok (t, .cmdUpdateTargetUnit p, .none)
          | some r => do
            let ids ← selectedIds t user
            let (units, out) := retarget (fun c => { c with data := .targetUnit p.toUnitCmd }) loop ids t.units
            pure ({ t with units := units }, .cmdUpdateTargetUnit p, .targetUnits out r)) := by
    intro x y hxy
    cases x <;> cases y <;> simp only [Option.map_none, Option.map_some, Option.some.injEq, reduceCtorEq] at hxy
    · simp [SameRes, gameView, hu, hv]
    · dsimp only
      rw [selectedIds_users hv]
      refine (SameRes.refl id _).bind fun ids ids' hi => ?_
      have hi : ids = ids' := hi
      subst hi
      have := retarget_blank (f := fun c => { c with data := .targetUnit p.toUnitCmd }) (by
        intro c d h
        simp only [UnitCmd.blank, UnitCmd.mk.injEq] at h
        simp [UnitCmd.blank, h]) loop ids hu
      simp only [SameRes, Res.pure_eq, gameView, hv, GameEvt.blank, Hint.blank, this.1, this.2, hxy]
  unfold handleTargetUnit
  refine key ?_
  rcases blank_cases hu p.tag with ⟨h1, h2⟩ | ⟨u, v, h1, h2, h3⟩
  · rw [h1, h2]; exact blank_map hu _
  · rw [h1, h2]; simp [h3]

theorem unmarkLoop_blank (loop : Int) : ∀ (ids : List Int) {us vs : Units}, us.blank = vs.blank →
    (unmarkLoop loop ids us).1.blank = (unmarkLoop loop ids vs).1.blank ∧ (unmarkLoop loop ids us).2 = (unmarkLoop loop ids vs).2
  | [], us, vs, h => ⟨h, rfl⟩
  | id :: ids, us, vs, h => by
    simp only [unmarkLoop]
    rcases blank_cases h (tagIndex id) with ⟨h1, h2⟩ | ⟨u, v, h1, h2, h3⟩
    · rw [h1, h2]; exact unmarkLoop_blank loop ids h
    · rw [h1, h2]
      have h4 := blank_ext h3
      dsimp only
      rw [h4.2.2.2.2.2.2.2.2.1]
      split
      · have ih := unmarkLoop_blank loop ids (blank_set h (tagIndex id)
          (u := { u with isSelected := false, radius := u.radius * (1 / 2), lastGameLoop := loop })
          (v := { v with isSelected := false, radius := v.radius * (1 / 2), lastGameLoop := loop }) (by
            simp [SUnit.blank, h4]))
        exact ⟨ih.1, by simp [ih.2]⟩
      · exact unmarkLoop_blank loop ids (blank_set h (tagIndex id) (by simp [SUnit.blank, h4]))

theorem markLoop_blank (loop : Int) : ∀ (ids : List Int) {us vs : Units}, us.blank = vs.blank →
    (markLoop loop ids us).1.blank = (markLoop loop ids vs).1.blank ∧ (markLoop loop ids us).2 = (markLoop loop ids vs).2
  | [], us, vs, h => ⟨h, rfl⟩
  | id :: ids, us, vs, h => by
    simp only [markLoop]
    rcases blank_cases h (tagIndex id) with ⟨h1, h2⟩ | ⟨u, v, h1, h2, h3⟩
    · rw [h1, h2]; exact markLoop_blank loop ids h
    · rw [h1, h2]
      have h4 := blank_ext h3
      dsimp only
      rw [h4.2.2.2.2.2.2.2.2.1]
      split
      · exact markLoop_blank loop ids (blank_set h (tagIndex id) (by simp [SUnit.blank, h4]))
      · have ih := markLoop_blank loop ids (blank_set h (tagIndex id)
          (u := { u with isSelected := true, radius := u.radius * 2, lastGameLoop := loop })
          (v := { v with isSelected := true, radius := v.radius * 2, lastGameLoop := loop }) (by
            simp [SUnit.blank, h4]))
        exact ⟨ih.1, by simp [ih.2]⟩

/-- What marking shows. [proof device, no counterpart in /repo] -/
def markView (p : SState × List SUnit) : Units × List (Int × UserState) × List SUnit :=
  (p.1.units.blank, p.1.users, p.2.map SUnit.blank)

theorem unmark_blank {s t : SState} (h : BalAlike s t) (loop user : Int) :
    SameRes markView (unmarkSelected s loop user) (unmarkSelected t loop user) := by
  obtain ⟨hu, hv⟩ := h
  simp only [unmarkSelected, selectedIds_users hv]
  refine (SameRes.refl id _).bind fun ids ids' hi => ?_
  have hi : ids = ids' := hi
  subst hi
  have := unmarkLoop_blank loop ids hu
  simp only [SameRes, Res.pure_eq, markView, hv, this.2, this.1, blank_filterMap this.1]

theorem mark_blank {s t : SState} (h : BalAlike s t) (loop : Int) (tags : List Int) :
    markView (markSelected s loop tags) = markView (markSelected t loop tags) := by
  obtain ⟨hu, hv⟩ := h
  have := markLoop_blank loop tags hu
  simp only [markView, markSelected, hv, this.2, this.1, blank_filterMap this.1]

theorem markView_alike {p q : SState × List SUnit} (h : markView p = markView q) :
    BalAlike p.1 q.1 ∧ p.2.map SUnit.blank = q.2.map SUnit.blank := by
  simp only [markView, Prod.mk.injEq] at h
  exact ⟨⟨h.1, h.2.1⟩, h.2.2⟩

theorem sortInsert_blank {u v : SUnit} (h : u.blank = v.blank) : ∀ {us vs : List SUnit}, us.map SUnit.blank = vs.map SUnit.blank →
    (sortInsert (fun a b => decide (a.tagIndex ≤ b.tagIndex)) u us).map SUnit.blank =
      (sortInsert (fun a b => decide (a.tagIndex ≤ b.tagIndex)) v vs).map SUnit.blank
  | [], [], _ => by simp [sortInsert, h]
  | [], v :: vs, h' => by simp at h'
  | u :: us, [], h' => by simp at h'
  | a :: us, b :: vs, h' => by
    simp only [List.map_cons, List.cons.injEq] at h'
    have e1 := (blank_ext h).1
    have e2 := (blank_ext h'.1).1
    simp only [sortInsert, e1, e2]
    split
    · simp [h, h']
    · simp [h'.1, sortInsert_blank h h'.2]

theorem sortBy_blank : ∀ {us vs : List SUnit}, us.map SUnit.blank = vs.map SUnit.blank →
    (sortBy (fun a b => decide (a.tagIndex ≤ b.tagIndex)) us).map SUnit.blank =
      (sortBy (fun a b => decide (a.tagIndex ≤ b.tagIndex)) vs).map SUnit.blank
  | [], [], _ => rfl
  | [], v :: vs, h' => by simp at h'
  | u :: us, [], h' => by simp at h'
  | a :: us, b :: vs, h' => by
    simp only [List.map_cons, List.cons.injEq] at h'
    simp only [sortBy]
    exact sortInsert_blank h'.1 (sortBy_blank h'.2)

theorem dedupFrom_blank {u v : SUnit} (h : u.blank = v.blank) : ∀ {us vs : List SUnit}, us.map SUnit.blank = vs.map SUnit.blank →
    (dedupFrom (fun a b : SUnit => a.tagIndex == b.tagIndex) u us).map SUnit.blank =
      (dedupFrom (fun a b : SUnit => a.tagIndex == b.tagIndex) v vs).map SUnit.blank := by
  intro us
  induction us generalizing u v with
  | nil =>
    intro vs h'
    cases vs with
    | nil => simp [dedupFrom]
    | cons => simp at h'
  | cons a us ih =>
    intro vs h'
    cases vs with
    | nil => simp at h'
    | cons b vs =>
      simp only [List.map_cons, List.cons.injEq] at h'
      have e1 := (blank_ext h).1
      have e2 := (blank_ext h'.1).1
      simp only [dedupFrom, e1, e2]
      split
      · exact ih h h'.2
      · simp [h'.1, ih h'.1 h'.2]

theorem dedupBy_blank {us vs : List SUnit} (h : us.map SUnit.blank = vs.map SUnit.blank) :
    (dedupBy (fun a b : SUnit => a.tagIndex == b.tagIndex) us).map SUnit.blank =
      (dedupBy (fun a b : SUnit => a.tagIndex == b.tagIndex) vs).map SUnit.blank := by
  cases us with
  | nil => cases vs with
    | nil => rfl
    | cons => simp at h
  | cons a us => cases vs with
    | nil => simp at h
    | cons b vs =>
      simp only [List.map_cons, List.cons.injEq] at h
      simp [dedupBy, h.1, dedupFrom_blank h.1 h.2]

theorem selectionDelta_blank {s t : SState} (h : BalAlike s t) (loop user : Int) (e : SelectionDeltaEvent) :
    SameRes gameView (handleSelectionDelta s loop user e) (handleSelectionDelta t loop user e) := by
  unfold handleSelectionDelta
  have h1 : SameRes markView (selectionMarks s loop user e) (selectionMarks t loop user e) := by
    unfold selectionMarks
    split
    · refine (unmark_blank h loop user).bind fun p q hpq => ?_
      obtain ⟨ha, hb⟩ := markView_alike hpq
      have hm := mark_blank ha loop e.addUnitTags
      have hm' := markView_alike hm
      simp only [SameRes, Res.pure_eq, markView, List.map_append, hb, hm'.2, hm'.1.1, hm'.1.2]
    · simp [SameRes, markView, h.1, h.2]
  refine h1.bind fun p q hpq => ?_
  obtain ⟨ha, hb⟩ := markView_alike hpq
  dsimp only
  rw [ha.2]
  refine (SameRes.refl id _).bind fun us vs hus => ?_
  have hus : us = vs := hus
  subst hus
  simp only [SameRes, Res.pure_eq, gameView, ha.1, GameEvt.blank, Hint.blank, dedupBy_blank (sortBy_blank hb)]

theorem controlGroup_blank {s t : SState} (h : BalAlike s t) (loop user : Int) (e : ControlGroupUpdateEvent) :
    SameRes gameView (updateControlGroup s loop user e) (updateControlGroup t loop user e) := by
  unfold updateControlGroup
  refine (unmark_blank h loop user).bind fun p q hpq => ?_
  obtain ⟨ha, hb⟩ := markView_alike hpq
  dsimp only
  rw [ha.2]
  refine (SameRes.refl id _).bind fun us vs hus => ?_
  have hus : us = vs := hus
  subst hus
  have h2 : BalAlike { p.1 with users := us } { q.1 with users := us } := ⟨ha.1, rfl⟩
  have h3 : SameRes markView (recallMarks { p.1 with users := us } loop user e.update)
      (recallMarks { q.1 with users := us } loop user e.update) := by
    unfold recallMarks
    split
    · rw [selectedIds_users h2.2]
      refine (SameRes.refl id _).bind fun ids ids' hi => ?_
      have hi : ids = ids' := hi
      subst hi
      exact mark_blank h2 loop ids
    · simp [SameRes, markView, ha.1]
  refine h3.bind fun x y hxy => ?_
  obtain ⟨hc, hd⟩ := markView_alike hxy
  simp only [SameRes, Res.pure_eq, gameView, hc.1, hc.2, GameEvt.blank, Hint.blank, List.map_append, hb, hd]

theorem setCamera_blank {s t : SState} (h : BalAlike s t) (user x y : Int) : BalAlike (setCamera s user x y) (setCamera t user x y) := by
  unfold setCamera
  rw [h.2]
  cases getUser t.users user with
  | none => exact h
  | some u => exact ⟨h.1, rfl⟩

theorem game_blank {s t : SState} (h : BalAlike s t) (loop user : Int) (e : GameEvt) :
    SameRes gameView (handleGame s loop user e) (handleGame t loop user e) := by
  cases e with
  | cameraSave w x y =>
    have := setCamera_blank h user x y
    simp [handleGame, SameRes, gameView, this.1, this.2]
  | cameraUpdate target view =>
    cases target with
    | none => simp [handleGame, SameRes, gameView, h.1, h.2]
    | some p =>
      have := setCamera_blank h user p.1 p.2
      simp [handleGame, SameRes, gameView, this.1, this.2]
  | cmd e => exact handleCmd_blank h loop user e
  | cmdUpdateTargetPoint p => exact targetPoint_blank h loop user p
  | cmdUpdateTargetUnit p => exact targetUnit_blank h loop user p
  | selectionDelta e => exact selectionDelta_blank h loop user e
  | controlGroupUpdate e => exact controlGroup_blank h loop user e
  | other o => simp [handleGame, SameRes, gameView, h.1, h.2]

/-! ## The combined iterator -/

theorem transition_blank (bld : Build) {s t : SState} (h : BalAlike s t) (e : SEvent) :
    SameRes stepView (transition bld s e) (transition bld t e) := by
  cases e with
  | tracker l e =>
    refine (tracker_blank bld h l e).bind fun p q hpq => ?_
    simp only [trackView, Prod.mk.injEq] at hpq
    simp [SameRes, stepView, hpq, Item.blank, SEvent.blank]
  | game l user name e =>
    refine (game_blank h l user e).bind fun p q hpq => ?_
    simp only [gameView, Prod.mk.injEq] at hpq
    simp [SameRes, stepView, hpq, Item.blank, SEvent.blank]

/-- Two iterators that differ in the balance data only. [proof device, no counterpart in /repo] -/
def IterAlike (m n : MState) : Prop :=
  BalAlike m.sc2 n.sc2 ∧ m.trk = n.trk ∧ m.game = n.game ∧ m.nextT = n.nextT ∧ m.nextG = n.nextG ∧ m.filters = n.filters

/-- What is left of an iterator. [proof device, no counterpart in /repo] -/
def iterView (m : MState) : Units × List (Int × UserState) × IterState × IterState × Option (Int × TrackerEvt) ×
    Option (Int × (Int × Option Str × GameEvt)) × Option Filters :=
  (m.sc2.units.blank, m.sc2.users, m.trk, m.game, m.nextT, m.nextG, m.filters)

theorem iterView_alike {m n : MState} : iterView m = iterView n ↔ IterAlike m n := by
  simp [iterView, IterAlike, BalAlike, and_assoc]

theorem fillT_blank (bld : Build) {m n : MState} (h : IterAlike m n) : SameRes iterView (fillT bld m) (fillT bld n) := by
  obtain ⟨⟨h0, h0'⟩, h1, h2, h3, h4, h5⟩ := h
  unfold fillT
  rw [h3, h1]
  cases n.nextT with
  | some x => simp [SameRes, iterView, *]
  | none =>
    dsimp only
    cases trackerNext bld (n.trk.data.length + 1) n.trk with
    | none => simp [SameRes]
    | some p =>
      obtain ⟨r, st⟩ := p
      cases r <;> simp [SameRes, iterView, *]

theorem fillG_blank (bld : Build) (v : Nat) {m n : MState} (h : IterAlike m n) :
    SameRes iterView (fillG bld v m) (fillG bld v n) := by
  obtain ⟨⟨h0, h0'⟩, h1, h2, h3, h4, h5⟩ := h
  unfold fillG
  rw [h4, h2, h0']
  cases n.nextG with
  | some x => simp [SameRes, iterView, *]
  | none =>
    dsimp only
    cases gameNext bld v (n.game.data.length + 1) n.game with
    | none => simp [SameRes]
    | some p =>
      obtain ⟨r, st⟩ := p
      cases r with
      | ok x =>
        cases x with
        | none => simp [SameRes, iterView, *]
        | some x => simp [SameRes, iterView, *]
      | err e => simp [SameRes]
      | panic => simp [SameRes]

theorem pick_blank {m n : MState} (h : IterAlike m n) :
    (pick m = none ∧ pick n = none) ∨ ∃ e m' n', pick m = some (e, m') ∧ pick n = some (e, n') ∧ IterAlike m' n' := by
  obtain ⟨h0, h1, h2, h3, h4, h5⟩ := h
  unfold pick
  rw [h3, h4]
  cases n.nextT with
  | none =>
    cases n.nextG with
    | none => exact .inl ⟨rfl, rfl⟩
    | some g => exact .inr ⟨_, _, _, rfl, rfl, h0, h1, h2, rfl, rfl, h5⟩
  | some x =>
    cases n.nextG with
    | none => exact .inr ⟨_, _, _, rfl, rfl, h0, h1, h2, rfl, rfl, h5⟩
    | some g =>
      dsimp only
      split
      · exact .inr ⟨_, _, _, rfl, rfl, h0, h1, h2, rfl, rfl, h5⟩
      · exact .inr ⟨_, _, _, rfl, rfl, h0, h1, h2, rfl, rfl, h5⟩

/-- What a pull shows. [proof device, no counterpart in /repo] -/
def pullView (p : Option Item × MState) := (p.1.map Item.blank, iterView p.2)

theorem pull_blank (bld : Build) (v : Nat) {m n : MState} (h : IterAlike m n) :
    SameRes pullView (pull bld v m) (pull bld v n) := by
  unfold pull
  refine (fillT_blank bld h).bind fun m1 n1 h1 => ?_
  refine (fillG_blank bld v (iterView_alike.1 h1)).bind fun m2 n2 h2 => ?_
  rcases pick_blank (iterView_alike.1 h2) with ⟨a, b⟩ | ⟨e, m', n', a, b, hh⟩
  · rw [a, b]
    simp [SameRes, pullView, h2]
  · rw [a, b]
    dsimp only
    obtain ⟨g0, g1, g2, g3, g4, g5⟩ := hh
    refine (transition_blank bld g0 e).bind fun p q hpq => ?_
    simp only [stepView, Prod.mk.injEq] at hpq
    simp [SameRes, pullView, iterView, *]

theorem skip_blank (f : Filters) (e : SEvent) : shouldSkipEvent f e.blank = shouldSkipEvent f e := by
  cases e with
  | tracker l e => rfl
  | game l user name e =>
    unfold shouldSkipEvent
    cases f.minLoop <;> cases f.maxLoop <;> rfl

theorem skip_same (f : Filters) {e e' : SEvent} (h : e.blank = e'.blank) : shouldSkipEvent f e = shouldSkipEvent f e' := by
  rw [← skip_blank f e, h, skip_blank]

/-- Two calls of the combined iterator show the same up to what the balance data give. [specification] -/
def SameCall : Option (Res (Option Item) × MState) → Option (Res (Option Item) × MState) → Prop
  | some (r, m), some (r', n) => SameRes (Option.map Item.blank) r r' ∧ (Res.isOk r → IterAlike m n)
  | none, none => True
  | _, _ => False

theorem mnext_blank (bld : Build) (v : Nat) : ∀ (k : Nat) {m n : MState}, IterAlike m n →
    SameCall (mnext bld v k m) (mnext bld v k n)
  | 0, _, _, _ => trivial
  | k + 1, m, n, h => by
    have hp := pull_blank bld v h
    unfold mnext
    cases h1 : pull bld v m with
    | err e =>
      cases h2 : pull bld v n <;> rw [h1, h2] at hp <;> simp [SameRes] at hp
      simp [SameCall, SameRes, hp, Res.isOk]
    | panic =>
      cases h2 : pull bld v n <;> rw [h1, h2] at hp <;> simp [SameRes] at hp
      simp [SameCall, SameRes, Res.isOk]
    | ok p =>
      cases h2 : pull bld v n <;> rw [h1, h2] at hp <;> simp only [SameRes] at hp
      rename_i q
      obtain ⟨x, m'⟩ := p
      obtain ⟨y, n'⟩ := q
      simp only [pullView, Prod.mk.injEq] at hp
      obtain ⟨hx, hm⟩ := hp
      have hm' := iterView_alike.1 hm
      cases x with
      | none =>
        cases y with
        | none => exact ⟨rfl, fun _ => hm'⟩
        | some y => simp at hx
      | some x =>
        cases y with
        | none => simp at hx
        | some y =>
          simp only [Option.map_some, Option.some.injEq] at hx
          dsimp only
          obtain ⟨g0, g1, g2, g3, g4, g5⟩ := hm'
          have hm' : IterAlike m' n' := ⟨g0, g1, g2, g3, g4, g5⟩
          rw [g5]
          cases n'.filters with
          | none => exact ⟨by simp [SameRes, hx], fun _ => hm'⟩
          | some f =>
            dsimp only
            rw [skip_same f (show x.event.blank = y.event.blank from congrArg Item.event hx)]
            split
            · exact mnext_blank bld v k hm'
            · split
              · exact ⟨rfl, fun _ => ⟨g0, g1, g2, g3, g4, rfl⟩⟩
              · exact ⟨by simp [SameRes, hx], fun _ => ⟨g0, g1, g2, g3, g4, rfl⟩⟩

/-- Two collections give the same up to `f`. [specification] -/
def SameCollect {α β : Type} (f : α → β) : Option (Res α) → Option (Res α) → Prop
  | some r, some r' => SameRes f r r'
  | none, none => True
  | _, _ => False

theorem collectItems_blank (bld : Build) (v : Nat) : ∀ (k : Nat) {m n : MState}, IterAlike m n →
    SameCollect (List.map Item.blank) (collectItems bld v k m) (collectItems bld v k n)
  | 0, _, _, _ => trivial
  | k + 1, m, n, h => by
    have hp := mnext_blank bld v (k + 1) h
    unfold collectItems
    cases h1 : mnext bld v (k + 1) m with
    | none =>
      cases h2 : mnext bld v (k + 1) n <;> rw [h1, h2] at hp <;> simp [SameCall] at hp
      trivial
    | some p =>
      obtain ⟨r, m'⟩ := p
      cases h2 : mnext bld v (k + 1) n with
      | none => rw [h1, h2] at hp; simp [SameCall] at hp
      | some q =>
        obtain ⟨r', n'⟩ := q
        rw [h1, h2] at hp
        obtain ⟨hp, hm⟩ := hp
        cases r <;> cases r' <;> simp only [SameRes] at hp
        · rename_i x y
          cases x <;> cases y <;> simp only [Option.map_none, Option.map_some, Option.some.injEq, reduceCtorEq] at hp
          · rfl
          · dsimp only
            have ih := collectItems_blank bld v k (hm rfl)
            cases h3 : collectItems bld v k m' with
            | none => cases h4 : collectItems bld v k n' <;> rw [h3, h4] at ih <;> simp [SameCollect] at ih ⊢
            | some r =>
              cases h4 : collectItems bld v k n' with
              | none => rw [h3, h4] at ih; simp [SameCollect] at ih
              | some r' =>
                rw [h3, h4] at ih
                cases r <;> cases r' <;> simp only [SameCollect, SameRes] at ih ⊢
                · simp [hp, ih]
                · exact ih
        · exact hp
        · trivial

theorem collectRows_blank {ρ σ : Type} {rows : Item → List ρ} {g : ρ → σ}
    (hr : ∀ x y : Item, x.blank = y.blank → (rows x).map g = (rows y).map g) (bld : Build) (v k : Nat) {m n : MState}
    (h : IterAlike m n) : SameCollect (List.map g) (collectRows rows bld v k m) (collectRows rows bld v k n) := by
  have ih := collectItems_blank bld v k h
  unfold collectRows
  cases h3 : collectItems bld v k m with
  | none => cases h4 : collectItems bld v k n <;> rw [h3, h4] at ih <;> simp [SameCollect] at ih ⊢
  | some r =>
    cases h4 : collectItems bld v k n with
    | none => rw [h3, h4] at ih; simp [SameCollect] at ih
    | some r' =>
      rw [h3, h4] at ih
      cases r with
      | panic => cases r' <;> simp_all [SameCollect, SameRes]
      | err e => cases r' <;> simp_all [SameCollect, SameRes]
      | ok xs =>
        cases r' with
        | panic => simp_all [SameCollect, SameRes]
        | err e => simp_all [SameCollect, SameRes]
        | ok ys =>
          simp only [SameCollect, SameRes] at ih ⊢
          clear h3 h4
          induction xs generalizing ys with
          | nil => cases ys <;> simp at ih ⊢
          | cons x xs ihx =>
            cases ys with
            | nil => simp at ih
            | cons y ys =>
              simp only [List.map_cons, List.cons.injEq] at ih
              simp [List.map_append, hr x y ih.1, ihx ys ih.2]

/-! ## The rows -/

theorem blank_event {x y : Item} (h : x.blank = y.blank) : x.event.blank = y.event.blank := congrArg Item.event h
theorem blank_hint {x y : Item} (h : x.blank = y.blank) : x.hint.blank = y.hint.blank := congrArg Item.hint h

theorem blank_tracker {e f : SEvent} {l : Int} {te : TrackerEvt} (h : e.blank = f.blank) (he : e = .tracker l te) : f = .tracker l te := by
  subst he
  cases f with
  | tracker l' e' => simp only [SEvent.blank, SEvent.tracker.injEq] at h ⊢; exact ⟨h.1.symm, h.2.symm⟩
  | game => simp [SEvent.blank] at h

theorem blank_nottracker {e f : SEvent} {l user : Int} {nm : Option Str} {ge : GameEvt} (h : e.blank = f.blank) (he : e = .game l user nm ge) :
    ∃ ge', f = .game l user nm ge' ∧ ge.blank = ge'.blank := by
  subst he
  cases f with
  | tracker l' e' => simp [SEvent.blank] at h
  | game l' u' n' e' =>
    simp only [SEvent.blank, SEvent.game.injEq] at h
    obtain ⟨rfl, rfl, rfl, h⟩ := h
    exact ⟨e', rfl, h⟩

theorem trackerRows_blank {ρ : Type} {f : Item → List ρ} (ht : ∀ l te h h', Hint.blank h = Hint.blank h' →
    f ⟨.tracker l te, h⟩ = f ⟨.tracker l te, h'⟩) (hg : ∀ l u n e h, f ⟨.game l u n e, h⟩ = [])
    (x y : Item) (h : x.blank = y.blank) : f x = f y := by
  obtain ⟨e, hh⟩ := x
  obtain ⟨e', hh'⟩ := y
  cases e with
  | tracker l te =>
    have := blank_tracker (blank_event h) rfl
    dsimp only at this
    subst this
    exact ht l te hh hh' (blank_hint h)
  | game l u n ge =>
    obtain ⟨ge', h1, _⟩ := blank_nottracker (blank_event h) rfl
    dsimp only at h1
    subst h1
    rw [hg, hg]

theorem hint_registered {h h' : Hint} (e : h.blank = h'.blank) :
    (∃ u c u' c', h = .registered u c ∧ h' = .registered u' c' ∧ u.blank = u'.blank ∧ c.map SUnit.blank = c'.map SUnit.blank) ∨
    ((∀ u c, h ≠ .registered u c) ∧ (∀ u c, h' ≠ .registered u c)) := by
  by_cases hr : ∃ u c, h = .registered u c
  · obtain ⟨u, c, rfl⟩ := hr
    cases h' <;> simp only [Hint.blank, Hint.registered.injEq, reduceCtorEq] at e
    exact .inl ⟨_, _, _, _, rfl, rfl, e.1, e.2⟩
  · refine .inr ⟨fun u c hh => hr ⟨u, c, hh⟩, fun u c hh => ?_⟩
    subst hh
    cases h <;> simp only [Hint.blank, reduceCtorEq] at e
    exact hr ⟨_, _, rfl⟩

theorem fromUnitBorn_blank (fsId : Nat) (e : UnitBornEvent) (l : Int) {h h' : Hint} (hh : h.blank = h'.blank) :
    BornRow.fromUnitBorn fsId e l h = BornRow.fromUnitBorn fsId e l h' := by
  rcases hint_registered hh with ⟨u, c, u', c', rfl, rfl, hu, hc⟩ | ⟨h1, h2⟩
  · simp [BornRow.fromUnitBorn, blank_name hc, (blank_ext hu).2.2.1]
  · cases h <;> cases h' <;> first | rfl | (exfalso; simp_all; done)

theorem fromUnit_blank (fsId : Nat) (i r l : Int) {h h' : Hint} (hh : h.blank = h'.blank) :
    BornRow.fromUnit fsId i r l h = BornRow.fromUnit fsId i r l h' := by
  rcases hint_registered hh with ⟨u, c, u', c', rfl, rfl, hu, hc⟩ | ⟨h1, h2⟩
  · have := blank_ext hu
    simp [BornRow.fromUnit, blank_name hc, this]
  · cases h <;> cases h' <;> first | rfl | (exfalso; simp_all; done)

theorem bornRow_blank (fsId : Nat) (x y : Item) (h : x.blank = y.blank) : (bornRowOf fsId x).toList = (bornRowOf fsId y).toList := by
  refine trackerRows_blank (f := fun x => (bornRowOf fsId x).toList) ?_ (fun _ _ _ _ _ => rfl) x y h
  intro l te h h' hh
  cases te with
  | unitBorn e => simp [bornRowOf, fromUnitBorn_blank fsId e l hh]
  | unitDone e => simp [bornRowOf, fromUnit_blank fsId e.unitTagIndex e.unitTagRecycle l hh]
  | unitTypeChange e =>
    have := fromUnit_blank fsId e.unitTagIndex e.unitTagRecycle l hh
    cases h <;> cases h' <;> first | rfl | (simp [bornRowOf, this]; done) | (simp [Hint.blank] at hh; done)
  | _ => rfl

theorem diedRow_blank (fsId : Nat) (x y : Item) (h : x.blank = y.blank) : (diedRowOf fsId x).toList = (diedRowOf fsId y).toList := by
  refine trackerRows_blank (f := fun x => (diedRowOf fsId x).toList) ?_ (fun _ _ _ _ _ => rfl) x y h
  intro l te h h' hh
  cases te with
  | unitDied e =>
    cases h <;> cases h' <;> first | rfl | (simp [Hint.blank] at hh; done) | skip
    rename_i k u k' u'
    simp only [Hint.blank, Hint.unregistered.injEq] at hh
    have h1 := blank_ext hh.2
    have h2 := blank_name hh.1
    cases k <;> cases k' <;> simp_all [diedRowOf, DiedRow.new]
  | _ => rfl

/-- The row without the name of the ability. [specification] -/
def CmdPointRow.blank (r : CmdPointRow) : CmdPointRow := { r with ability := [] }
/-- The row without the name of the ability. [specification] -/
def CmdUnitRow.blank (r : CmdUnitRow) : CmdUnitRow := { r with ability := [] }

theorem hint_abilities {h h' : Hint} (e : h.blank = h'.blank) :
    (∃ us c t us' c' t', h = .abilities us c t ∧ h' = .abilities us' c' t' ∧ us.map SUnit.blank = us'.map SUnit.blank) ∨
    ((∀ us c t, h ≠ .abilities us c t) ∧ (∀ us c t, h' ≠ .abilities us c t)) := by
  cases h <;> cases h' <;> simp_all [Hint.blank]

theorem map_of_blank {ρ σ : Type} {f g : SUnit → ρ} {k : ρ → σ} (hf : ∀ u v, u.blank = v.blank → k (f u) = k (g v)) :
    ∀ {us vs : List SUnit}, us.map SUnit.blank = vs.map SUnit.blank → (us.map f).map k = (vs.map g).map k
  | [], [], _ => rfl
  | [], _ :: _, h => by simp at h
  | _ :: _, [], h => by simp at h
  | u :: us, v :: vs, h => by
    simp only [List.map_cons, List.cons.injEq] at h ⊢
    exact ⟨hf u v h.1, map_of_blank hf h.2⟩

theorem blank_cmd {ge ge' : GameEvt} (h : ge.blank = ge'.blank) :
    (∃ e e', ge = .cmd e ∧ ge' = .cmd e' ∧ e.blank = e'.blank) ∨ ((∀ e, ge ≠ .cmd e) ∧ (∀ e, ge' ≠ .cmd e)) := by
  cases ge <;> cases ge' <;> simp_all [GameEvt.blank]

theorem abil_blank {e e' : CmdEvent} (h : e.blank = e'.blank) : e.abil.map CmdAbil.abilLink = e'.abil.map CmdAbil.abilLink ∧
    e.abil.map CmdAbil.abilCmdIndex = e'.abil.map CmdAbil.abilCmdIndex := by
  simp only [CmdEvent.blank, CmdEvent.mk.injEq] at h
  obtain ⟨_, h, _⟩ := h
  cases h1 : e.abil <;> cases h2 : e'.abil <;> rw [h1, h2] at h <;> simp_all

theorem cmdRows_blank {ρ σ : Type} {f : Item → List ρ} {k : ρ → σ} (ht : ∀ l te h, f ⟨.tracker l te, h⟩ = [])
    (ho : ∀ l u n ge h, (∀ e, ge ≠ .cmd e) → f ⟨.game l u n ge, h⟩ = [])
    (hc : ∀ l u n e h, (∀ us c t, h ≠ .abilities us c t) → f ⟨.game l u n (.cmd e), h⟩ = [])
    (ha : ∀ l u n e e' us us' c c' t t', e.blank = e'.blank → us.map SUnit.blank = us'.map SUnit.blank →
      (f ⟨.game l u n (.cmd e), .abilities us c t⟩).map k = (f ⟨.game l u n (.cmd e'), .abilities us' c' t'⟩).map k)
    (x y : Item) (h : x.blank = y.blank) : (f x).map k = (f y).map k := by
  obtain ⟨e, hh⟩ := x
  obtain ⟨e', hh'⟩ := y
  cases e with
  | tracker l te =>
    have := blank_tracker (blank_event h) rfl
    dsimp only at this
    subst this
    rw [ht, ht]
  | game l u n ge =>
    obtain ⟨ge', h1, hge⟩ := blank_nottracker (blank_event h) rfl
    dsimp only at h1
    subst h1
    rcases blank_cmd hge with ⟨c, c', rfl, rfl, hcc⟩ | ⟨h1, h2⟩
    · rcases hint_abilities (blank_hint h) with ⟨us, d, t, us', d', t', h3, h4, h5⟩ | ⟨h3, h4⟩
      · dsimp only at h3 h4
        subst h3 h4
        exact ha l u n c c' us us' d d' t t' hcc h5
      · rw [hc _ _ _ _ _ h3, hc _ _ _ _ _ h4]
    · rw [ho _ _ _ _ _ h1, ho _ _ _ _ _ h2]

theorem cmdPoint_blank (fsId : Nat) (x y : Item) (h : x.blank = y.blank) :
    (cmdPointRowsOf fsId x).map CmdPointRow.blank = (cmdPointRowsOf fsId y).map CmdPointRow.blank := by
  refine cmdRows_blank (fun _ _ _ => rfl) ?_ ?_ ?_ x y h
  · intro l u n ge h hne
    cases ge <;> first | rfl | (exfalso; exact hne _ rfl)
  · intro l u n e h hne
    simp only [cmdPointRowsOf, CmdPointRow.new]
    cases e.data <;> first | rfl | (cases h <;> first | rfl | (exfalso; exact hne _ _ _ rfl))
  · intro l u n e e' us us' c c' t t' he hu
    have h1 := abil_blank he
    simp only [CmdEvent.blank, CmdEvent.mk.injEq] at he
    simp only [cmdPointRowsOf, CmdPointRow.new, he.2.2.1]
    cases e'.data with
    | targetPoint p =>
      refine map_of_blank (fun a b hab => ?_) hu
      simp [CmdPointRow.blank, h1, he, (blank_ext hab).2.2.2.1]
    | _ => rfl

theorem cmdUnit_blank (fsId : Nat) (x y : Item) (h : x.blank = y.blank) :
    (cmdUnitRowsOf fsId x).map CmdUnitRow.blank = (cmdUnitRowsOf fsId y).map CmdUnitRow.blank := by
  refine cmdRows_blank (fun _ _ _ => rfl) ?_ ?_ ?_ x y h
  · intro l u n ge h hne
    cases ge <;> first | rfl | (exfalso; exact hne _ rfl)
  · intro l u n e h hne
    simp only [cmdUnitRowsOf, CmdUnitRow.new]
    cases e.data <;> first | rfl | (cases h <;> first | rfl | (exfalso; exact hne _ _ _ rfl))
  · intro l u n e e' us us' c c' t t' he hu
    have h1 := abil_blank he
    simp only [CmdEvent.blank, CmdEvent.mk.injEq] at he
    simp only [cmdUnitRowsOf, CmdUnitRow.new, he.2.2.1]
    cases e'.data with
    | targetUnit p =>
      refine map_of_blank (fun a b hab => ?_) hu
      have hb := blank_ext hab
      have hn : a.cmd.otherUnitName = b.cmd.otherUnitName := by
        have := hb.2.2.2.2.2.2.2.2.2.2.1
        simp only [UnitCmd.blank, UnitCmd.mk.injEq] at this
        exact this.2.2.2.2.2.1
      simp [CmdUnitRow.blank, h1, he, hb.2.2.2.1, hn]
    | _ => rfl

theorem sameCollect_eq {α : Type} {x y : Option (Res (List α))} (h : SameCollect (List.map id) x y) : x = y := by
  cases x <;> cases y <;> simp only [SameCollect] at h
  · rfl
  · rename_i r r'
    cases r <;> cases r' <;> simp_all [SameRes]

/-- The same replay state with other balance data. [specification] -/
def SState.withBalance (s : SState) (b : BalUnits) : SState := { s with balance := b }

/-- **C159** For every file content and any two sets of balance data, the four tables of tracker events are the same:
the same rows, the same error, the same panic. -/
theorem C159_tracker_tables (fsId : Nat) (bld : Build) (v n : Nat) (s : SState) (b b' : BalUnits) (trk game : List UInt8)
    (f : Option Filters) :
    collectStats fsId bld v n (MState.new (s.withBalance b) trk game f) =
      collectStats fsId bld v n (MState.new (s.withBalance b') trk game f) ∧
    collectUpgrades fsId bld v n (MState.new (s.withBalance b) trk game f) =
      collectUpgrades fsId bld v n (MState.new (s.withBalance b') trk game f) ∧
    collectBorn fsId bld v n (MState.new (s.withBalance b) trk game f) =
      collectBorn fsId bld v n (MState.new (s.withBalance b') trk game f) ∧
    collectDied fsId bld v n (MState.new (s.withBalance b) trk game f) =
      collectDied fsId bld v n (MState.new (s.withBalance b') trk game f) := by
  have h : IterAlike (MState.new (s.withBalance b) trk game f) (MState.new (s.withBalance b') trk game f) :=
    ⟨⟨rfl, rfl⟩, rfl, rfl, rfl, rfl, rfl⟩
  refine ⟨?_, ?_, ?_, ?_⟩
  · refine sameCollect_eq (collectRows_blank (fun x y hxy => ?_) bld v n h)
    rw [trackerRows_blank (f := fun it => (statsRowOf fsId it).toList) (fun _ _ _ _ _ => rfl) (fun _ _ _ _ _ => rfl) x y hxy]
  · refine sameCollect_eq (collectRows_blank (fun x y hxy => ?_) bld v n h)
    rw [trackerRows_blank (f := fun it => (upgradeRowOf fsId it).toList) (fun _ _ _ _ _ => rfl) (fun _ _ _ _ _ => rfl) x y hxy]
  · refine sameCollect_eq (collectRows_blank (fun x y hxy => ?_) bld v n h)
    rw [bornRow_blank fsId x y hxy]
  · refine sameCollect_eq (collectRows_blank (fun x y hxy => ?_) bld v n h)
    rw [diedRow_blank fsId x y hxy]

/-- The two tables of commands are the same but for the column with the name of the ability. -/
theorem C159_command_tables (fsId : Nat) (bld : Build) (v n : Nat) (s : SState) (b b' : BalUnits) (trk game : List UInt8)
    (f : Option Filters) :
    SameCollect (List.map CmdPointRow.blank) (collectCmdPoints fsId bld v n (MState.new (s.withBalance b) trk game f))
      (collectCmdPoints fsId bld v n (MState.new (s.withBalance b') trk game f)) ∧
    SameCollect (List.map CmdUnitRow.blank) (collectCmdUnits fsId bld v n (MState.new (s.withBalance b) trk game f))
      (collectCmdUnits fsId bld v n (MState.new (s.withBalance b') trk game f)) := by
  have h : IterAlike (MState.new (s.withBalance b) trk game f) (MState.new (s.withBalance b') trk game f) :=
    ⟨⟨rfl, rfl⟩, rfl, rfl, rfl, rfl, rfl⟩
  exact ⟨collectRows_blank (cmdPoint_blank fsId) bld v n h, collectRows_blank (cmdUnit_blank fsId) bld v n h⟩

/-- What the iterator yields, with any filters, is the same but for the names of abilities and the sizes of units. -/
theorem C159_items (bld : Build) (v n : Nat) (s : SState) (b b' : BalUnits) (trk game : List UInt8) (f : Option Filters) :
    SameCollect (List.map Item.blank) (collectItems bld v n (MState.new (s.withBalance b) trk game f))
      (collectItems bld v n (MState.new (s.withBalance b') trk game f)) :=
  collectItems_blank bld v n ⟨⟨rfl, rfl⟩, rfl, rfl, rfl, rfl, rfl⟩

/-- And so is the state after any history of events; the users are the same. -/
theorem C159_state (bld : Build) (b b' : BalUnits) (es : List SEvent) (s : SState) :
    SameRes (fun t : SState => (t.units.blank, t.users)) (runEvents bld (s.withBalance b) es) (runEvents bld (s.withBalance b') es) := by
  have gen : ∀ (es : List SEvent) (s t : SState), BalAlike s t →
      SameRes (fun t : SState => (t.units.blank, t.users)) (runEvents bld s es) (runEvents bld t es) := by
    intro es
    induction es with
    | nil => intro s t h; simp [runEvents, SameRes, h.1, h.2]
    | cons e es ih =>
      intro s t h
      have hs := transition_blank bld h e
      simp only [runEvents]
      cases h1 : transition bld s e <;> cases h2 : transition bld t e <;> rw [h1, h2] at hs <;> simp only [SameRes] at hs
      · rename_i p q
        simp only [stepView, Prod.mk.injEq] at hs
        exact ih p.1 q.1 ⟨hs.1, hs.2.1⟩
      · exact hs
      · trivial
  exact gen es _ _ ⟨rfl, rfl⟩

/-! ## Without balance data -/

theorem convCmd_blank {y : Val} {e : GameEvt} (hc : convCmd y = .ok e) : e.blank = e := by
  unfold convCmd at hc
  split at hc
  · rename_i flags abil data seq other grp
    obtain ⟨a, ha, hc⟩ := Res.bind_eq_ok.1 hc
    obtain ⟨d, _, hc⟩ := Res.bind_eq_ok.1 hc
    obtain ⟨o, _, hc⟩ := Res.bind_eq_ok.1 hc
    obtain ⟨g, _, hc⟩ := Res.bind_eq_ok.1 hc
    simp only [Res.pure_eq, Res.ok.injEq] at hc
    subst hc
    cases abil with
    | none => simp only [Res.pure_eq, Res.ok.injEq] at ha; subst ha; rfl
    | some z =>
      obtain ⟨a', ha', ha⟩ := Res.bind_eq_ok.1 ha
      simp only [Res.pure_eq, Res.ok.injEq] at ha
      subst ha
      unfold convAbil at ha'
      split at ha'
      · obtain ⟨w, _, ha'⟩ := Res.bind_eq_ok.1 ha'
        simp only [Res.pure_eq, Res.ok.injEq] at ha'
        subst ha'
        rfl
      · cases ha'
    | _ => cases ha
  · cases hc

theorem convGame_blank {x : Val} {e : GameEvt} (hc : convGame x = .ok e) : e.blank = e := by
  unfold convGame at hc
  split at hc
  rotate_left
  · cases hc
  split at hc
  · revert hc; unfold convCameraSave; split
    · intro hc; cases hc; rfl
    · intro hc; cases hc
  split at hc
  · exact convCmd_blank hc
  split at hc
  · revert hc; unfold convSelectionDelta; split
    · intro hc
      simp only [Res.bind_eq_ok, Res.pure_eq, Res.ok.injEq] at hc
      obtain ⟨_, _, _, _, _, _, rfl⟩ := hc; rfl
    · intro hc; cases hc
  split at hc
  · revert hc; unfold convControlGroup; split
    · intro hc
      simp only [Res.bind_eq_ok, Res.pure_eq, Res.ok.injEq] at hc
      obtain ⟨_, _, _, _, rfl⟩ := hc; rfl
    · intro hc; cases hc
  split at hc
  · revert hc; unfold convCameraUpdate; split
    · intro hc
      simp only [Res.bind_eq_ok, Res.pure_eq, Res.ok.injEq] at hc
      obtain ⟨_, _, _, _, _, _, _, _, _, _, rfl⟩ := hc; rfl
    · intro hc; cases hc
  split at hc
  · revert hc; unfold convTargetPointEvt; split
    · intro hc
      simp only [Res.bind_eq_ok, Res.pure_eq, Res.ok.injEq] at hc
      obtain ⟨_, _, rfl⟩ := hc; rfl
    · intro hc; cases hc
  split at hc
  · revert hc; unfold convTargetUnitEvt; split
    · intro hc
      simp only [Res.bind_eq_ok, Res.pure_eq, Res.ok.injEq] at hc
      obtain ⟨_, _, rfl⟩ := hc; rfl
    · intro hc; cases hc
  simp only [Res.bind_eq_ok, Res.pure_eq, Res.ok.injEq] at hc
  obtain ⟨_, _, rfl⟩ := hc; rfl

theorem gameNext_blank {bld : Build} {v : Nat} : ∀ {n : Nat} {st st' : IterState} {l user : Int} {e : GameEvt},
    gameNext bld v n st = some (.ok (some (l, user, e)), st') → e.blank = e
  | 0, st, st', l, user, e, h => by cases h
  | n + 1, st, st', l, user, e, h => by
    simp only [gameNext, nextLoop] at h
    split at h
    · simp at h
    · split at h
      · rename_i b st1 hs
        simp only [Option.some.injEq, Prod.mk.injEq, Res.ok.injEq] at h
        obtain ⟨⟨rfl, rfl⟩, rfl⟩ := h
        unfold readVersionedGameEvent at hs
        split at hs
        · simp at hs
        · simp at hs
        · simp only [Prod.mk.injEq] at hs
          obtain ⟨g, hg, hs⟩ := Res.bind_eq_ok.1 hs.1
          simp only [Res.pure_eq, Res.ok.injEq, Prod.mk.injEq] at hs
          rw [← hs.2]
          exact convGame_blank hg
      · simp at h
      · exact gameNext_blank h
      · simp at h

theorem cmdLoop_unnamed {b : BalUnits} (hb : ∀ n, b n = none) (loop : Int) (x : Option SUnit) : ∀ (ids : List Int) (us : Units) (e : CmdEvent),
    e.blank = e → (cmdLoop b loop x ids us e).2.1.blank = (cmdLoop b loop x ids us e).2.1
  | [], us, e, he => he
  | id :: ids, us, e, he => by
    simp only [cmdLoop]
    split
    · exact cmdLoop_unnamed hb loop x ids us e he
    · split
      · exact cmdLoop_unnamed hb loop x ids us e he
      · refine cmdLoop_unnamed hb loop x ids _ _ ?_
        simp [CmdEvent.blank, abilityName, hb]

theorem transition_unnamed {bld : Build} {s s' : SState} {e : SEvent} {it : Item} (hb : ∀ n, s.balance n = none) (he : e.blank = e)
    (h : transition bld s e = .ok (s', it)) : it.event.blank = it.event := by
  cases e with
  | tracker l te =>
    simp only [transition] at h
    obtain ⟨p, _, hk⟩ := Res.bind_eq_ok.1 h
    simp only [Res.pure_eq, Res.ok.injEq, Prod.mk.injEq] at hk
    rw [← hk.2]; rfl
  | game l user nm ge =>
    simp only [transition] at h
    obtain ⟨⟨s1, e1, h1⟩, hh, hk⟩ := Res.bind_eq_ok.1 h
    simp only [Res.pure_eq, Res.ok.injEq, Prod.mk.injEq] at hk
    rw [← hk.2]
    simp only [SEvent.blank, SEvent.game.injEq, true_and]
    simp only [SEvent.blank, SEvent.game.injEq, true_and] at he
    cases ge with
    | cmd e =>
      simp only [handleGame, handleCmd] at hh
      obtain ⟨ids, _, h2⟩ := Res.bind_eq_ok.1 hh
      simp only [Res.pure_eq, Res.ok.injEq, Prod.mk.injEq] at h2
      rw [← h2.2.1]
      simp only [GameEvt.blank, GameEvt.cmd.injEq] at he ⊢
      exact cmdLoop_unnamed hb l _ ids _ e he
    | _ =>
      rw [handleGame_same (by intro x hx; cases hx) hh]
      rfl

/-- No balance data, and the fetched game event has no ability name. [proof device, no counterpart in /repo] -/
def Unnamed (m : MState) : Prop :=
  (∀ n, m.sc2.balance n = none) ∧ ∀ l user nm e, m.nextG = some (l, user, nm, e) → e.blank = e

theorem pull_unnamed {bld : Build} {v : Nat} {m m' : MState} {x : Option Item} (h : Unnamed m) (hp : pull bld v m = .ok (x, m')) :
    Unnamed m' ∧ ∀ it, x = some it → it.event.blank = it.event := by
  unfold pull at hp
  obtain ⟨m1, h1, hp⟩ := Res.bind_eq_ok.1 hp
  obtain ⟨m2, h2, hp⟩ := Res.bind_eq_ok.1 hp
  have u1 : Unnamed m1 := by
    unfold fillT at h1
    split at h1
    · cases h1; exact h
    · split at h1 <;> cases h1
      exact h
  have u2 : Unnamed m2 := by
    unfold fillG at h2
    split at h2
    · cases h2; exact u1
    · split at h2 <;> cases h2
      · exact ⟨u1.1, by intro l user nm e he; cases he⟩
      · rename_i hg
        refine ⟨u1.1, fun l user nm e he => ?_⟩
        simp only [Option.some.injEq, Prod.mk.injEq] at he
        rw [← he.2.2.2]
        exact gameNext_blank hg
  cases hk : pick m2 with
  | none =>
    rw [hk] at hp
    cases hp
    exact ⟨u2, by intro it hx; cases hx⟩
  | some p =>
    obtain ⟨e, m3⟩ := p
    rw [hk] at hp
    dsimp only at hp
    obtain ⟨⟨s', it⟩, h3, hp⟩ := Res.bind_eq_ok.1 hp
    cases hp
    have key : e.blank = e ∧ Unnamed m3 := by
      have hg := u2.2
      unfold pick at hk
      split at hk
      · rename_i h4 h5
        split at hk <;> simp only [Option.some.injEq, Prod.mk.injEq] at hk <;> obtain ⟨rfl, rfl⟩ := hk
        · exact ⟨rfl, u2.1, hg⟩
        · exact ⟨by rw [SEvent.blank, hg _ _ _ _ h5], u2.1, by intro l user nm e he; cases he⟩
      · rename_i h4 h5
        simp only [Option.some.injEq, Prod.mk.injEq] at hk; obtain ⟨rfl, rfl⟩ := hk
        exact ⟨by rw [SEvent.blank, hg _ _ _ _ h5], u2.1, by intro l user nm e he; cases he⟩
      · simp only [Option.some.injEq, Prod.mk.injEq] at hk; obtain ⟨rfl, rfl⟩ := hk
        exact ⟨rfl, u2.1, hg⟩
      · cases hk
    refine ⟨⟨fun n => ?_, key.2.2⟩, fun it' hx => ?_⟩
    · show s'.balance n = none
      rw [transition_balance h3]; exact key.2.1 n
    · cases hx
      exact transition_unnamed key.2.1 key.1 h3

theorem mnext_unnamed {bld : Build} {v : Nat} : ∀ {n : Nat} {m m' : MState} {x : Option Item}, Unnamed m →
    mnext bld v n m = some (.ok x, m') → Unnamed m' ∧ ∀ it, x = some it → it.event.blank = it.event
  | 0, m, m', x, h, hp => by cases hp
  | n + 1, m, m', x, h, hp => by
    unfold mnext at hp
    split at hp
    · simp at hp
    · simp at hp
    · rename_i h1
      simp only [Option.some.injEq, Prod.mk.injEq, Res.ok.injEq] at hp
      obtain ⟨rfl, rfl⟩ := hp
      exact pull_unnamed h h1
    · rename_i item m1 h1
      have hu := pull_unnamed h h1
      split at hp
      · simp only [Option.some.injEq, Prod.mk.injEq, Res.ok.injEq] at hp
        obtain ⟨rfl, rfl⟩ := hp
        exact hu
      · split at hp
        · exact mnext_unnamed hu.1 hp
        · dsimp only at hp
          split at hp <;> simp only [Option.some.injEq, Prod.mk.injEq, Res.ok.injEq] at hp <;> obtain ⟨rfl, rfl⟩ := hp
          · exact ⟨hu.1, by intro it hx; cases hx⟩
          · exact ⟨hu.1, fun it hx => hu.2 it hx⟩

theorem collectItems_unnamed {bld : Build} {v : Nat} : ∀ {n : Nat} {m : MState} {its : List Item}, Unnamed m →
    collectItems bld v n m = some (.ok its) → ∀ it ∈ its, it.event.blank = it.event
  | 0, m, its, h, hc => by cases hc
  | n + 1, m, its, h, hc => by
    unfold collectItems at hc
    split at hc
    · cases hc
    · cases hc
    · cases hc
    · simp only [Option.some.injEq, Res.ok.injEq] at hc; subst hc; intro it hi; cases hi
    · rename_i it m' h1
      have hu := mnext_unnamed h h1
      split at hc
      · rename_i its' h2
        simp only [Option.some.injEq, Res.ok.injEq] at hc; subst hc
        intro x hx
        rcases List.mem_cons.1 hx with rfl | hx
        · exact hu.2 _ rfl
        · exact collectItems_unnamed hu.1 h2 x hx
      · rename_i h2
        exact absurd hc (h2 its)

theorem openIterator_unnamed {D : Type} {w : World D} {bld : Build} {init : InitFile} {table : BalTable} {f : Option Filters}
    {m : MState} (h : openIterator w bld init table f = .ok m) (hv : ∀ p ∈ table, p.1.1 ≠ init.version) : Unnamed m := by
  simp only [openIterator, Res.bind_eq_ok, Res.pure_eq, Res.ok.injEq] at h
  obtain ⟨content, h1, a, h2, trk, h3, game, h4, _, _, rows, h5, rfl⟩ := h
  refine ⟨fun n => ?_, by intro l user nm e he; cases he⟩
  show balanceOf init.version table n = none
  cases hb : balanceOf init.version table n with
  | none => rfl
  | some u => exact absurd rfl (hv _ (balanceOf_mem _ _ _ table hb))

/-- The promise of the README: if there are no balance data for the version of the replay, every name of an ability is
the empty string, in every command the iterator yields, … -/
theorem C159_unknown_version {D : Type} (w : World D) (bld : Build) (init : InitFile) (table : BalTable) (f : Option Filters)
    (m : MState) (h : openIterator w bld init table f = .ok m) (hv : ∀ p ∈ table, p.1.1 ≠ init.version)
    (n : Nat) (its : List Item) (hc : collectItems bld init.version.toNat n m = some (.ok its)) :
    ∀ it ∈ its, ∀ l user nm e a, it.event = .game l user nm (.cmd e) → e.abil = some a → a.ability = str "" := by
  intro it hi l user nm e a he ha
  have := collectItems_unnamed (openIterator_unnamed h hv) hc it hi
  rw [he] at this
  simp only [SEvent.blank, GameEvt.blank, CmdEvent.blank, SEvent.game.injEq, true_and, GameEvt.cmd.injEq, CmdEvent.mk.injEq, ha,
    Option.map_some, Option.some.injEq] at this
  obtain ⟨_, h1, _⟩ := CmdEvent.mk.inj this
  rw [ha] at h1
  simp only [Option.some.injEq] at h1
  rw [← h1]; rfl

/-- … in every row of the two command tables, … -/
theorem C159_unknown_version_rows {D : Type} (w : World D) (bld : Build) (init : InitFile) (table : BalTable) (f : Option Filters)
    (m : MState) (h : openIterator w bld init table f = .ok m) (hv : ∀ p ∈ table, p.1.1 ≠ init.version) (fsId n : Nat) :
    (∀ rows, collectCmdPoints fsId bld init.version.toNat n m = some (.ok rows) → ∀ r ∈ rows, r.ability = str "") ∧
    (∀ rows, collectCmdUnits fsId bld init.version.toNat n m = some (.ok rows) → ∀ r ∈ rows, r.ability = str "") := by
  have key : ∀ its, collectItems bld init.version.toNat n m = some (.ok its) →
      ∀ it ∈ its, ∀ l user nm e, it.event = .game l user nm (.cmd e) → e.abilityText = str "" := by
    intro its hc it hi l user nm e he
    unfold CmdEvent.abilityText
    cases ha : e.abil with
    | none => rfl
    | some a => exact C159_unknown_version w bld init table f m h hv n its hc it hi l user nm e a he ha
  constructor
  · intro rows hc r hr
    simp only [collectCmdPoints, collectRows] at hc
    split at hc <;> simp only [Option.some.injEq, Res.ok.injEq, reduceCtorEq] at hc
    rename_i its h1
    subst hc
    obtain ⟨it, hi, hr⟩ := List.mem_flatMap.1 hr
    obtain ⟨ev, hint⟩ := it
    unfold cmdPointRowsOf at hr
    split at hr
    · rename_i l user nm e he
      unfold CmdPointRow.new at hr
      split at hr
      · split at hr
        · obtain ⟨u, _, rfl⟩ := List.mem_map.1 hr
          exact key its h1 _ hi l user nm e he
        · cases hr
      · cases hr
    · cases hr
  · intro rows hc r hr
    simp only [collectCmdUnits, collectRows] at hc
    split at hc <;> simp only [Option.some.injEq, Res.ok.injEq, reduceCtorEq] at hc
    rename_i its h1
    subst hc
    obtain ⟨it, hi, hr⟩ := List.mem_flatMap.1 hr
    obtain ⟨ev, hint⟩ := it
    unfold cmdUnitRowsOf at hr
    split at hr
    · rename_i l user nm e he
      unfold CmdUnitRow.new at hr
      split at hr
      · split at hr
        · obtain ⟨u, _, rfl⟩ := List.mem_map.1 hr
          exact key its h1 _ hi l user nm e he
        · cases hr
      · cases hr
    · cases hr

/-- … and in the command every unit remembers, after any history of events. -/
theorem C159_unknown_version_units (bld : Build) (players : List (Int × Str)) (hp : (players.map Prod.fst).Nodup)
    (es : List SEvent) (s : SState) (h : runEvents bld (SState.initial players (fun _ => none)) es = .ok s) (k : Int) (u : SUnit)
    (hk : s.units k = some u) (a : UnitCmdAbil) (ha : u.cmd.abil = some a) : a.ability = str "" := by
  have gen : ∀ (es : List SEvent) (s0 : SState), s0.Wf →
      (∀ n, s0.balance n = none) → (∀ k u a, s0.units k = some u → u.cmd.abil = some a → a.ability = str "") →
      runEvents bld s0 es = .ok s → ∀ k u a, s.units k = some u → u.cmd.abil = some a → a.ability = str "" := by
    intro es
    induction es with
    | nil => intro s0 _ _ h0 hr; cases hr; exact h0
    | cons x es ih =>
      intro s0 hw hb h0 hr
      simp only [runEvents] at hr
      split at hr
      · rename_i s1 it h1
        refine ih s1 (transition_wf hw h1)
          (fun n => by rw [transition_balance h1]; exact hb n) ?_ hr
        intro k u a hk ha
        cases x with
        | tracker l te =>
          simp only [transition] at h1
          obtain ⟨⟨s2, e2, h2⟩, hh, hkk⟩ := Res.bind_eq_ok.1 h1
          simp only [Res.pure_eq, Res.ok.injEq, Prod.mk.injEq] at hkk
          rw [← hkk.1] at hk
          have := tracker_cmd hh k
          rw [hk] at this
          simp only [Option.map_some] at this
          split at this
          · cases this
          · cases h3 : s0.units k with
            | none =>
              rw [h3] at this
              split at this
              · simp only [Option.map_none, Option.getD_none, Option.some.injEq] at this
                rw [this] at ha; cases ha
              · cases this
            | some u0 =>
              rw [h3] at this
              simp only [Option.map_some, Option.getD_some, ite_self, Option.some.injEq] at this
              rw [this] at ha
              exact h0 k u0 a h3 ha
        | game l user nm ge =>
          simp only [transition] at h1
          obtain ⟨⟨s2, e2, h2⟩, hh, hkk⟩ := Res.bind_eq_ok.1 h1
          simp only [Res.pure_eq, Res.ok.injEq, Prod.mk.injEq] at hkk
          rw [← hkk.1] at hk
          have hcore := handleGame_core hh k
          rw [hk] at hcore
          cases h3 : s0.units k with
          | none => rw [h3] at hcore; cases hcore
          | some u0 =>
            obtain ⟨u', g1, g2, _⟩ := C119_commands_recorded s0 s2 hw l user ge e2 h2 hh k u0 h3
            rw [hk] at g1
            cases g1
            rw [g2] at ha
            split at ha
            · cases ge with
              | cmd e =>
                simp only [orderedBy] at ha
                cases hea : e.abil with
                | none => rw [hea] at ha; exact h0 k u0 a h3 ha
                | some b =>
                  rw [hea] at ha
                  simp only [abilityName, hb, CmdEvent.toUnitCmd, Option.map_some] at ha
                  cases ha; simp only [abilityName, hb]; rfl
              | cmdUpdateTargetPoint p => exact h0 k u0 a h3 ha
              | cmdUpdateTargetUnit t =>
                simp only [orderedBy] at ha
                split at ha
                · exact h0 k u0 a h3 ha
                · exact h0 k u0 a h3 ha
              | _ => exact h0 k u0 a h3 ha
            · exact h0 k u0 a h3 ha
      · cases hr
      · cases hr
  exact gen es _ (initial_wf players _ hp) (fun _ => rfl) (by intro k u a hk; cases hk) h k u a hk ha

/-- Balance data do matter for the two things: on the sample file with the data of an SCV and a Marine, the ability has
a name and the SCV another size. -/
example (bld : Build) :
    let marine : BalUnits := fun n => if n = str "Marine" then some exAbilityUnit else none
    collectCmdPoints 7 bld 90000 100 (MState.new (rowsState.withBalance marine) wTrack wGame none) = some (.ok
      [⟨0, some (str "A"), 0, some 3, some 1, str "attack.Go", 4096, 8192, 0, 7, none, str "SCV", 5, 0, 7⟩,
       ⟨0, some (str "A"), 0, some 3, some 1, str "attack.Go", 4096, 8192, 0, 7, none, str "Marine", 5, 0, 7⟩]) ∧
    collectCmdPoints 7 bld 90000 100 (MState.new (rowsState.withBalance fun _ => none) wTrack wGame none) = some (.ok
      [⟨0, some (str "A"), 0, some 3, some 1, str "", 4096, 8192, 0, 7, none, str "SCV", 5, 0, 7⟩,
       ⟨0, some (str "A"), 0, some 3, some 1, str "", 4096, 8192, 0, 7, none, str "Marine", 5, 0, 7⟩]) := by
  constructor <;> cases bld <;> decide +kernel

/-- A replay of version 88500 and a table with an entry of 75689 only meet the hypotheses of `C159_unknown_version`. -/
example : (openIterator (exWorld exLobby) .release (exInitFile exLobby)
      [((75689, str "Drone"), ⟨some 2, [], [], [], none⟩)] none).isOk = true ∧
    ∀ p ∈ ([((75689, str "Drone"), ⟨some 2, [], [], [], none⟩)] : BalTable), p.1.1 ≠ (exInitFile exLobby).version := by
  decide +kernel

end S2
