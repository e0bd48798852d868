import Verif.Schema.Val
/-! # Size of decoded values -/
namespace S2

mutual
/-- No list anywhere inside the value has more than `n` elements. -/
def Val.listsLe (n : Nat) : Val → Prop
  | .some v => v.listsLe n
  | .list vs => vs.length ≤ n ∧ Val.allListsLe n vs
  | .struct vs => Val.allListsLe n vs
  | .choice _ v => v.listsLe n
  | _ => True
/-- The same for each value of a list. -/
def Val.allListsLe (n : Nat) : List Val → Prop
  | [] => True
  | v :: vs => v.listsLe n ∧ Val.allListsLe n vs
end

/-- A value without parts. -/
def Val.isLeaf : Val → Bool
  | .int _ | .bool _ | .bytes _ | .unit | .none => true
  | _ => false

theorem Val.allListsLe_iff (n : Nat) (vs : List Val) : Val.allListsLe n vs ↔ ∀ v ∈ vs, v.listsLe n := by
  induction vs with
  | nil => simp [Val.allListsLe]
  | cons v vs ih => simp [Val.allListsLe, ih]

mutual
theorem Val.listsLe_mono {m n : Nat} (h : m ≤ n) : ∀ (v : Val), v.listsLe m → v.listsLe n
  | .int _, _ => by simp [Val.listsLe]
  | .bool _, _ => by simp [Val.listsLe]
  | .bytes _, _ => by simp [Val.listsLe]
  | .unit, _ => by simp [Val.listsLe]
  | .none, _ => by simp [Val.listsLe]
  | .some v, hv => by simp only [Val.listsLe] at *; exact Val.listsLe_mono h v hv
  | .list vs, hv => by
    simp only [Val.listsLe] at *
    exact ⟨by omega, Val.allListsLe_mono h vs hv.2⟩
  | .struct vs, hv => by simp only [Val.listsLe] at *; exact Val.allListsLe_mono h vs hv
  | .choice _ v, hv => by simp only [Val.listsLe] at *; exact Val.listsLe_mono h v hv
theorem Val.allListsLe_mono {m n : Nat} (h : m ≤ n) : ∀ (vs : List Val),
    Val.allListsLe m vs → Val.allListsLe n vs
  | [], _ => by simp [Val.allListsLe]
  | v :: vs, hv => by
    simp only [Val.allListsLe] at *
    exact ⟨Val.listsLe_mono h v hv.1, Val.allListsLe_mono h vs hv.2⟩
end

theorem Val.isLeaf_listsLe {v : Val} (h : v.isLeaf = true) (n : Nat) : v.listsLe n := by
  cases v <;> simp_all [Val.isLeaf, Val.listsLe]

end S2
