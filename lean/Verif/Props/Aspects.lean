import Verif.Props.Commands
import Verif.Props.Units
import Verif.Props.Histories
import Verif.Props.Groups
/-! # C147, C148: where a unit is sent, and when two units are the same -/
namespace S2

/-- The state before: the one after any history. -/
theorem step_game {bld : Build} {s s1 : SState} {l user : Int} {nm : Option Str} {ge : GameEvt}
    (h : runEvents bld s [.game l user nm ge] = .ok s1) : ∃ e' hint, handleGame s l user ge = .ok (s1, e', hint) := by
  simp only [runEvents] at h
  split at h
  · rename_i s2 it h1
    simp only [Res.ok.injEq] at h
    subst h
    simp only [transition] at h1
    obtain ⟨⟨s3, e2, h2⟩, hh, hk⟩ := Res.bind_eq_ok.1 h1
    simp only [Res.pure_eq, Res.ok.injEq, Prod.mk.injEq] at hk
    obtain ⟨rfl, _⟩ := hk
    exact ⟨_, _, hh⟩
  · cases h
  · cases h

/-- **C147 (partial).** A selected unit is told to go to the map point `(x, y)`, in cells, where it stands.  After any history the stored target has the
x of the unit's position and *minus* its y, so the two agree exactly on the axis `y = 0`.  What is missing: agreement, see the refutation. -/
theorem C147_target_partial (bld : Build) (players : List (Int × Str)) (hp : (players.map Prod.fst).Nodup) (bal : BalUnits)
    (pre : List SEvent) (l user : Int) (nm : Option Str) (s s1 : SState) (k : Int) (u : SUnit) (x y z : Int)
    (hpre : runEvents bld (SState.initial players bal) pre = .ok s) (hu : s.units k = some u) (hsel : k ∈ selectionOf s user)
    (hx : 0 ≤ x ∧ x < 256) (hy : 0 ≤ y ∧ y < 256) (hpos : u.pos.x = x ∧ u.pos.y = y)
    (hev : runEvents bld s [.game l user nm (.cmdUpdateTargetPoint ⟨4096 * x, 4096 * y, z⟩)] = .ok s1) :
    ∃ u' t, s1.units k = some u' ∧ u'.cmd.data = .targetPoint t ∧ u'.pos = u.pos ∧
      t.x = u'.pos.x ∧ t.y = -u'.pos.y ∧ ((t.x = u'.pos.x ∧ t.y = u'.pos.y) ↔ y = 0) := by
  have hw := runEvents_wf (initial_wf players bal hp) hpre
  obtain ⟨e', hint, hh⟩ := step_game hev
  obtain ⟨u', g1, g2, _⟩ := C119_commands_recorded s s1 hw l user _ e' hint hh k u hu
  rw [if_pos hsel] at g2
  have hpos' : u'.pos = u.pos := by
    rcases C66_game_events_keep_units s s1 l user _ e' hint hh k with ⟨h1, _⟩ | ⟨v, v', h1, h2, h3⟩
    · rw [h1] at hu; cases hu
    · rw [h1] at hu; rw [h2] at g1
      cases hu; cases g1
      rw [h3]
  have ex : (MapCoord.mk (4096 * x) (4096 * y) z).toVec.x = (x : Rat) := by
    show (f32OfInt (4096 * x) : Rat) / 4096 = _
    rw [f32OfInt_exact (by omega) (by omega)]
    push_cast
    grind
  have ey : (MapCoord.mk (4096 * x) (4096 * y) z).toVec.y = -(y : Rat) := by
    show -(f32OfInt (4096 * y) : Rat) / 4096 = _
    rw [f32OfInt_exact (by omega) (by omega)]
    push_cast
    grind
  refine ⟨u', _, g1, by rw [g2]; rfl, hpos', ?_, ?_, ?_⟩
  · rw [ex, hpos', hpos.1]
  · rw [ey, hpos', hpos.2]
  · rw [ex, ey, hpos', hpos.1, hpos.2]
    constructor
    · rintro ⟨_, h⟩
      have : (y : Rat) = 0 := by grind
      exact_mod_cast this
    · rintro rfl
      simp

/-- Unit 1 is born at (10, 20) and selected. -/
def standPre : List SEvent :=
  [.tracker 1 (.unitBorn ⟨1, 1, str "Marine", 1, 1, 10, 20, none, none, none⟩), .game 2 0 none (demoSel 10 [demoTag])]

/-- The unit after being sent to a map point, in 4096ths of a cell. -/
def sentTo (c : MapCoord) : Option (Vec3 × UnitCmdData) :=
  match runEvents .debug demoState standPre with
  | .ok s => (match runEvents .debug s [.game 3 0 none (.cmdUpdateTargetPoint c)] with
    | .ok s1 => if 1 ∈ selectionOf s 0 then (s1.units 1).map (fun u => (u.pos, u.cmd.data)) else none
    | _ => none)
  | _ => none

/-- **C147.** Positions and targets are not in one coordinate system: a unit sent to the cell where it stands, (10, 20), has the target (10, -20). -/
theorem C147_target_refuted :
    sentTo ⟨4096 * 10, 4096 * 20, 0⟩ = some (⟨10, 20, 0⟩, .targetPoint ⟨10, -20, 0⟩) ∧
    ¬ (∀ (bld : Build) (players : List (Int × Str)) (bal : BalUnits) (pre : List SEvent) (l user : Int) (s s1 : SState) (k : Int)
        (u' : SUnit) (t : Vec3) (x y z : Int), (players.map Prod.fst).Nodup → runEvents bld (SState.initial players bal) pre = .ok s →
      k ∈ selectionOf s user → runEvents bld s [.game l user none (.cmdUpdateTargetPoint ⟨4096 * x, 4096 * y, z⟩)] = .ok s1 →
      s1.units k = some u' → u'.cmd.data = .targetPoint t → u'.pos.x = x → u'.pos.y = y → t.x = x ∧ t.y = y) := by
  have hs : sentTo ⟨4096 * 10, 4096 * 20, 0⟩ = some (⟨10, 20, 0⟩, .targetPoint ⟨10, -20, 0⟩) := by decide +kernel
  refine ⟨hs, fun h => ?_⟩
  unfold sentTo at hs
  cases h1 : runEvents .debug demoState standPre with
  | err e => rw [h1] at hs; cases hs
  | panic => rw [h1] at hs; cases hs
  | ok s =>
    rw [h1] at hs
    dsimp only at hs
    cases h2 : runEvents .debug s [.game 3 0 none (.cmdUpdateTargetPoint ⟨4096 * 10, 4096 * 20, 0⟩)] with
    | err e => rw [h2] at hs; cases hs
    | panic => rw [h2] at hs; cases hs
    | ok s1 =>
      rw [h2] at hs
      dsimp only at hs
      split at hs
      · rename_i hsel
        cases hu : s1.units 1 with
        | none => rw [hu] at hs; cases hs
        | some u =>
          rw [hu] at hs
          simp only [Option.map_some, Option.some.injEq, Prod.mk.injEq] at hs
          have := h .debug _ _ standPre 3 0 s s1 1 u _ 10 20 0 (by decide) h1 hsel h2 hu hs.2 (by rw [hs.1]; rfl) (by rw [hs.1]; rfl)
          exact absurd this.2 (by decide)
      · cases hs

/-! ## C148: equality and order of units -/

/-- **C148 (partial).** The order of units is total and agrees with their equality, and of the units of one state, after any history, two
are equal exactly if they are the unit of one index, that is the very same; so a sorted list of them lists every unit once.  What is missing: units taken at different moments, see the
refutation. -/
theorem C148_units_partial (bld : Build) (players : List (Int × Str)) (bal : BalUnits) (es : List SEvent) (s : SState)
    (h : runEvents bld (SState.initial players bal) es = .ok s) (a b : SUnit) (i j : Int) (ha : s.units i = some a) (hb : s.units j = some b) :
    (a.eqv b = true ↔ i = j) ∧ (a.eqv b = true ↔ a = b) ∧ (a.cmp b = .eq ↔ a.eqv b = true) ∧ (a.cmp b = .lt ↔ i < j) ∧
      (b.cmp a = (a.cmp b).swap) := by
  have h1 := C67_units_keyed_by_index bld players bal es s h i a ha
  have h2 := C67_units_keyed_by_index bld players bal es s h j b hb
  have e1 : (a.eqv b = true ↔ i = j) := by unfold SUnit.eqv; rw [h1, h2]; simp
  refine ⟨e1, ?_, ?_, ?_, ?_⟩
  · rw [e1]
    constructor
    · rintro rfl; rw [ha] at hb; cases hb; rfl
    · rintro rfl; exact h1.symm.trans h2
  · unfold SUnit.cmp SUnit.eqv
    simp [Int.compare_eq_eq]
  · unfold SUnit.cmp
    rw [h1, h2]
    exact Int.compare_eq_lt
  · unfold SUnit.cmp
    exact (Int.compare_swap _ _).symm

/-- The unit of index 1 after a history. -/
def unitOne (es : List SEvent) : Option SUnit :=
  match runEvents .debug demoState es with
  | .ok s => s.units 1
  | _ => none

/-- **C148.** Equal units need not be the same unit: a Marine dies, its index is given to a Zealot, and the two compare as equal. -/
theorem C148_units_refuted :
    let es := [demoBorn 1 1 1 "Marine", demoDied 2 1 1]
    let fs := [demoBorn 3 1 2 "Zealot"]
    (match unitOne (es.take 1), unitOne es, unitOne (es ++ fs) with
      | some a, none, some b => a.eqv b && a.name != b.name && a.cmp b == .eq
      | _, _, _ => false) = true := by decide +kernel

end S2
