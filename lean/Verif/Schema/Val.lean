import Verif.Basic
/-! # Universal value type for decoded protocol values -/
namespace S2

/-- Decoded value of a generated protocol type.  A generated Rust struct is the list of its
fields in declaration order; a Rust enum is its wire tag plus payload; `Vec<u8>` is `bytes`. [the types declared in /repo/src/versions/protocol87702/mod.rs] -/
inductive Val
  | int (i : Int)
  | bool (b : Bool)
  | bytes (bs : List UInt8)
  | unit
  | none
  | some (v : Val)
  | list (vs : List Val)
  | struct (vs : List Val)
  | choice (tag : Int) (v : Val)
  deriving Repr

instance : Inhabited Val := ⟨.unit⟩

mutual
/-- Equality test on values (used only to evaluate concrete examples in the kernel). [proof device, no counterpart in /repo] -/
def Val.eqb : Val → Val → Bool
  | .int i, .int j => decide (i = j)
  | .bool a, .bool b => decide (a = b)
  | .bytes a, .bytes b => decide (a = b)
  | .unit, .unit => true
  | .none, .none => true
  | .some v, .some w => Val.eqb v w
  | .list vs, .list ws => Val.eqbs vs ws
  | .struct vs, .struct ws => Val.eqbs vs ws
  | .choice t v, .choice u w => decide (t = u) && Val.eqb v w
  | _, _ => false
/-- [proof device, no counterpart in /repo] -/
def Val.eqbs : List Val → List Val → Bool
  | [], [] => true
  | v :: vs, w :: ws => Val.eqb v w && Val.eqbs vs ws
  | _, _ => false
end

mutual
theorem Val.eqb_iff : (a b : Val) → (Val.eqb a b = true ↔ a = b)
  | .int i, b => by cases b <;> simp [Val.eqb]
  | .bool i, b => by cases b <;> simp [Val.eqb]
  | .bytes i, b => by cases b <;> simp [Val.eqb]
  | .unit, b => by cases b <;> simp [Val.eqb]
  | .none, b => by cases b <;> simp [Val.eqb]
  | .some v, b => by cases b <;> simp [Val.eqb]; exact Val.eqb_iff v _
  | .list v, b => by cases b <;> simp [Val.eqb]; exact Val.eqbs_iff v _
  | .struct v, b => by cases b <;> simp [Val.eqb]; exact Val.eqbs_iff v _
  | .choice t v, b => by
    cases b <;> simp [Val.eqb]
    rename_i u w
    have := Val.eqb_iff v w
    intro _
    exact this
theorem Val.eqbs_iff : (a b : List Val) → (Val.eqbs a b = true ↔ a = b)
  | [], b => by cases b <;> simp [Val.eqbs]
  | v :: vs, b => by
    cases b with
    | nil => simp [Val.eqbs]
    | cons w ws =>
      have h1 := Val.eqb_iff v w
      have h2 := Val.eqbs_iff vs ws
      simp [Val.eqbs, h1, h2]
end

instance : DecidableEq Val := fun a b => decidable_of_iff _ (Val.eqb_iff a b)

/-- Integer target types of `try_from` in the generated code. [`try_from` calls of /repo/src/versions/protocol87702/mod.rs] -/
inductive IntKind
  | u8 | u16 | u32 | u64 | i32 | i64
  deriving DecidableEq, Repr

/-- Value range of an integer type. [std] -/
def IntKind.lo : IntKind → Int
  | .u8 | .u16 | .u32 | .u64 => 0
  | .i32 => -(2 ^ 31)
  | .i64 => -(2 ^ 63)

/-- Value range of an integer type. [std] -/
def IntKind.hi : IntKind → Int
  | .u8 => 2 ^ 8 - 1
  | .u16 => 2 ^ 16 - 1
  | .u32 => 2 ^ 32 - 1
  | .u64 => 2 ^ 64 - 1
  | .i32 => 2 ^ 31 - 1
  | .i64 => 2 ^ 63 - 1

/-- [std] -/
def IntKind.inRange (k : IntKind) (x : Int) : Prop := k.lo ≤ x ∧ x ≤ k.hi

instance (k : IntKind) (x : Int) : Decidable (k.inRange x) := by
  unfold IntKind.inRange; infer_instance

/-- `T::try_from(x)?` for an `i64` `x`. [`try_from` calls of /repo/src/versions/protocol87702/mod.rs] -/
def tryFrom (k : IntKind) (x : Int) : Res Int :=
  if k.inRange x then .ok x else .err .tryFromInt

end S2
