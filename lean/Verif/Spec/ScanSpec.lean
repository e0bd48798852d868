import Verif.Misc.Scan
/-!
# Vocabulary for statements about scans
-/
namespace S2

/-- The readable ones of `sources`, each with its position in the whole list (the first of them has position
`i`), in order. -/
def readable {α : Type} (read : Str → Nat → Res α) (i : Nat) (sources : List Str) : List α :=
  (sources.zipIdx i).filterMap (fun p => match read p.1 p.2 with
    | .ok x => some x
    | _ => none)

/-- The details of those replays whose details can be read. -/
def readableDetails {D : Type} (w : World D) (bld : Build) (inits : List InitFile) : List (DetailsFile D) :=
  inits.filterMap (fun i => match DetailsFile.ofInit w bld i with
    | .ok d => some d
    | _ => none)

/-- The ten most frequent of `names`, with their numbers of occurrences, most frequent first. -/
structure IsTop10 (names : List Str) (top : List (Str × Nat)) : Prop where
  /-- no name is listed twice -/
  distinct : (top.map Prod.fst).Nodup
  /-- each with its number of occurrences -/
  counts : ∀ e ∈ top, e.2 = names.count e.1 ∧ 0 < e.2
  /-- most frequent first -/
  sorted : top.Pairwise (fun a b => b.2 ≤ a.2)
  /-- at most ten -/
  atMost : top.length ≤ 10
  /-- a name is left out only if there are ten that are at least as frequent -/
  best : ∀ n ∈ names, n ∉ top.map Prod.fst → top.length = 10 ∧ ∀ e ∈ top, names.count n ≤ e.2

end S2
