import Verif.Misc.Files
/-! # Which files a search should find (uses only the tree type of the model) -/
namespace S2.Files

open S2

/-- A replay file name: something before ".SC2Replay". -/
def ReplayName (name : Str) : Prop := ∃ base, base ≠ [] ∧ name = base ++ str ".SC2Replay"

/-- `Found n d p`: from `n`, the names `p` lead to a replay file through fewer than `d`
directories below `n` (so `d = 1` means directly inside `n`). -/
inductive Found : Node → Nat → Path → Prop
  | here {es : List (Str × Node)} {name : Str} {d : Nat} :
      (name, .file) ∈ es → ReplayName name → Found (.dir es) (d + 1) [name]
  | inside {es sub : List (Str × Node)} {name : Str} {d : Nat} {p : Path} :
      (name, .dir sub) ∈ es → Found (.dir sub) d p → Found (.dir es) (d + 1) (name :: p)

/-- No directory has two entries of the same name. -/
inductive Distinct : Node → Prop
  | file : Distinct .file
  | other : Distinct .other
  | dir {es : List (Str × Node)} : (es.map (·.1)).Nodup → (∀ e ∈ es, Distinct e.2) → Distinct (.dir es)

end S2.Files
