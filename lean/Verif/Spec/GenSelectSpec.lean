import Verif.Misc.GenSelect
/-! # Well-named descriptions, and which names belong into which module (specification for C171) -/
namespace S2.Generator
open S2
variable {α : Type}

/-- A single component of a name: there is no dot in it. [specification] -/
def DotFree (s : String) : Prop := '.' ∉ s.toList

/-- The entries of a description in the order in which they are written down, each before its own `decls`. [specification] -/
def Sub.walk (s : Sub α) : List (String × α) :=
  (s.fullname, s.body) :: (s.decls.getD []).map (fun l => (l.fullname, l.body))

/-- [specification] -/
def Root.walk (r : Root α) : List (String × α) := (r.fullname, r.body) :: (r.decls.getD []).flatMap Sub.walk

/-- All entries of a description. [specification] -/
def walk (rs : List (Root α)) : List (String × α) := rs.flatMap Root.walk

/-- The full name of an entry is that of the entry around it, a dot, and one component. [specification] -/
def Sub.WellNamed (s : Sub α) : Prop :=
  ∀ l ∈ s.decls.getD [], ∃ own, DotFree own ∧ l.fullname = s.fullname ++ "." ++ own

/-- [specification] -/
def Root.WellNamed (r : Root α) : Prop :=
  ∀ s ∈ r.decls.getD [], (∃ own, DotFree own ∧ s.fullname = r.fullname ++ "." ++ own) ∧ s.WellNamed

/-- Full names say where an entry stands; the outermost module is `NNet`. [specification] -/
def WellNamed (rs : List (Root α)) : Prop :=
  ∀ r ∈ rs, (∃ own, DotFree own ∧ r.fullname = "NNet" ++ "." ++ own) ∧ r.WellNamed

/-- The modules that are looked into have an array `decls`. [specification] -/
def HasModules (rs : List (Root α)) : Prop :=
  ∀ r ∈ rs, (r.fullname = "NNet.Replay" ∨ r.fullname = "NNet.Game" → r.decls ≠ none) ∧
    ∀ s ∈ r.decls.getD [], s.fullname = "NNet.Replay.Tracker" → s.decls ≠ none

/-- The number of dots in a name. [specification] -/
def dots (n : String) : Nat := n.toList.count '.'

/-- The names that belong into the bit-packed module: of the outer level the integers and a fixed list, two of `NNet.Replay`, and
everything that stands directly in `NNet.Game` except the senders. [specification] -/
def bitEmitted (n : String) : Bool :=
  (dots n == 1 && ("NNet.uint".toList.isPrefixOf n.toList || "NNet.int".toList.isPrefixOf n.toList ||
    decide (n ∈ bitRootNames ++ ["NNet.SVersion", "NNet.SMD5"]))) ||
  decide (n ∈ ["NNet.Replay.SGameUserId", "NNet.Replay.SInitData"]) ||
  (dots n == 2 && "NNet.Game.".toList.isPrefixOf n.toList && n != "NNet.Game.ESenders")

/-- What is written for an entry: nothing if its name is not selected; otherwise it, and after the dialog event its `m_eventData`.
[specification] -/
def bitWritten (eventData : α → Option (List α)) (x : String × α) : List (String × α) :=
  if bitEmitted x.1 then
    x :: (if x.1 = "NNet.Game.STriggerDialogControlEvent" then ((eventData x.2).getD []).map (fun m => ("m_eventData", m)) else [])
  else []

end S2.Generator
