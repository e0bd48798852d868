import Verif.Misc.GenRun
/-! # Files and numbers of a run of the generator (C172, C173) -/
namespace S2.Generator
open S2

/-- C172 (what holds): whatever the outcome, no file but the output changes; an output that cannot be created leaves everything as it was; and
after a successful run on another file the output is the whole text for the bytes of the source, which is unchanged. -/
theorem C172_files_partial (cc : Str → Bool) (dn : Str → Option Str) (w : Writer) (src out : Str) (d : Disk) :
    (∀ p, p ≠ out → (genRun cc dn w src out d).2 p = d p) ∧
    (cc out = false → (genRun cc dn w src out d).2 = d) ∧
    (src ≠ out → (genRun cc dn w src out d).1 = .done →
      ∃ name num bytes pieces, dn src = some name ∧ protoNumber name = some num ∧ d src = some bytes ∧
        w num bytes = some (pieces, true) ∧ (genRun cc dn w src out d).2 out = some pieces.flatten ∧
        (genRun cc dn w src out d).2 src = some bytes) := by
  unfold genRun
  cases hn : (dn src).bind protoNumber with
  | none => simp
  | some num =>
    by_cases hc : cc out = true
    · simp only [hc, if_true]
      by_cases hs : src = out
      · subst hs
        simp only [if_true]
        cases hw : w num [] with
        | none => simp; intro p hp h; exact absurd h hp
        | some r => simp; intro p hp h; exact absurd h hp
      · simp only [if_neg hs]
        cases hd : d src with
        | none => simp; intro p hp h; exact absurd h hp
        | some bytes =>
          cases hw : w num bytes with
          | none => simp [hw]; intro p hp h; exact absurd h hp
          | some r =>
            obtain ⟨pieces, whole⟩ := r
            simp only [hw]
            refine ⟨fun p hp => if_neg hp, fun h => by simp at h, fun _ hdone => ?_⟩
            obtain ⟨name, h1, h2⟩ := Option.bind_eq_some_iff.1 hn
            cases whole with
            | false => simp at hdone
            | true => exact ⟨name, num, bytes, pieces, h1, h2, rfl, hw, by simp, by rw [if_neg hs, hd]⟩
    · simp [hc]

/-- C172, exactly: a run that does not succeed leaves the previous output as it was if and only if it ends before the output is
created (no number in the name, or the output cannot be created), or what it left there (nothing, or the pieces up to the panic) is
what stood there before. -/
theorem C172_exactly (cc : Str → Bool) (dn : Str → Option Str) (w : Writer) (src out : Str) (d : Disk)
    (hf : (genRun cc dn w src out d).1 ≠ .done) (hs : src ≠ out) :
    (genRun cc dn w src out d).2 = d ↔
      (dn src).bind protoNumber = none ∨ cc out = false ∨
      (∃ num bytes pieces, (dn src).bind protoNumber = some num ∧ d src = some bytes ∧ w num bytes = some (pieces, false) ∧
        d out = some pieces.flatten) ∨
      ((d src = none ∨ ∃ num bytes, (dn src).bind protoNumber = some num ∧ d src = some bytes ∧ w num bytes = none) ∧
        d out = some []) := by
  have key : ∀ v : Option (List UInt8), ((fun p => if p = out then v else d p) = d) ↔ d out = v := by
    intro v
    constructor
    · intro h; have := congrFun h out; simpa using this.symm
    · intro h; funext p; by_cases hp : p = out
      · rw [if_pos hp, hp, h]
      · rw [if_neg hp]
  unfold genRun at *
  cases hn : (dn src).bind protoNumber with
  | none => simp
  | some num =>
    rw [hn] at hf
    by_cases hc : cc out = true
    · simp only [hc, if_true, if_neg hs] at *
      cases hd : d src with
      | none =>
        simp only [key]
        simp
      | some bytes =>
        rw [hd] at hf
        cases hw : w num bytes with
        | none =>
          simp only [hw, key]
          simp [hw]
        | some r =>
          obtain ⟨pieces, whole⟩ := r
          cases whole with
          | true => simp [hw] at hf
          | false =>
            simp only [hw, key]
            simp [hw]
    · simp [hc]

/-- C172 is refuted: with a source that does not exist, the run fails and the previous output is gone. -/
theorem C172_refuted (w : Writer) : ∃ (cc : Str → Bool) (dn : Str → Option Str) (src out : Str) (d : Disk),
    d out = some [1, 2, 3] ∧ (genRun cc dn w src out d).1 = .panicked ∧ (genRun cc dn w src out d).2 out = some [] := by
  refine ⟨fun _ => true, fun _ => some (str "\"protocol87702.json\""), str "protocol87702.json", str "out.rs",
    fun p => if p = str "out.rs" then some [1, 2, 3] else none, by simp, ?_, ?_⟩
  all_goals
    have h : protoNumber (str "\"protocol87702.json\"") = some 87702 := by decide +kernel
    have hne : str "protocol87702.json" ≠ str "out.rs" := by decide +kernel
    simp [genRun, h, hne]

/-- C172: a description that is given as its own output is destroyed before it is read. -/
theorem C172_same_file_refuted (cc : Str → Bool) (dn : Str → Option Str) (w : Writer) (src : Str) (d : Disk) (hc : cc src = true)
    (num : Nat) (hn : (dn src).bind protoNumber = some num) (hw : w num [] = none) :
    (genRun cc dn w src src d).1 = .panicked ∧ (genRun cc dn w src src d).2 src = some [] := by
  simp [genRun, hn, hc, hw]

/-! ## The protocol number -/

/-- The decimal digits of a number, the most significant first. [specification] -/
def decimal (n : Nat) : List UInt8 := (Nat.toDigits 10 n).map (fun c => UInt8.ofNat c.toNat)

/-- No digit in a text. [specification] -/
def NoDigit (s : Str) : Prop := ∀ c ∈ s, ¬ (48 ≤ c.toNat ∧ c.toNat ≤ 57)

theorem isDigit_iff (c : UInt8) : isDigit c = true ↔ 48 ≤ c.toNat ∧ c.toNat ≤ 57 := by
  simp [isDigit, UInt8.le_iff_toNat_le]

theorem filter_noDigit {s : Str} (h : NoDigit s) : s.filter isDigit = [] := by
  rw [List.filter_eq_nil_iff]
  intro c hc hd
  exact h c hc ((isDigit_iff c).1 hd)

theorem toDigits_fold (n : Nat) : (decimal n).foldl (fun a d => 10 * a + (d.toNat - 48)) 0 = n ∧ (∀ c ∈ decimal n, isDigit c = true) ∧
    decimal n ≠ [] := by
  have dig : ∀ d, d < 10 → (UInt8.ofNat (Nat.digitChar d).toNat).toNat - 48 = d ∧ isDigit (UInt8.ofNat (Nat.digitChar d).toNat) = true := by
    decide +kernel
  induction n using Nat.strongRecOn with
  | ind n ih =>
    by_cases h : n < 10
    · have e : decimal n = [UInt8.ofNat (Nat.digitChar n).toNat] := by
        unfold decimal; rw [Nat.toDigits_of_lt_base h]; rfl
      obtain ⟨h1, h2⟩ := dig n h
      rw [e]
      refine ⟨by simp only [List.foldl_cons, List.foldl_nil]; omega, ?_, by simp⟩
      intro c hc; rw [List.mem_singleton.1 hc]; exact h2
    · have e : decimal n = decimal (n / 10) ++ [UInt8.ofNat (Nat.digitChar (n % 10)).toNat] := by
        unfold decimal; rw [Nat.toDigits_of_base_le (by omega) (by omega), List.map_append]; rfl
      obtain ⟨h1, h2, h3⟩ := ih (n / 10) (by omega)
      obtain ⟨d1, d2⟩ := dig (n % 10) (by omega)
      rw [e]
      refine ⟨?_, ?_, by simp⟩
      · rw [List.foldl_append, h1]
        simp only [List.foldl_cons, List.foldl_nil]; omega
      · intro c hc
        rcases List.mem_append.1 hc with hc | hc
        · exact h2 c hc
        · rw [List.mem_singleton.1 hc]; exact d2

/-- C173 (what holds): for every number that fits into 64 bits, a file name in which it is the only number gives that number,
whatever stands before and after it. -/
theorem C173_number_partial (n : Nat) (hn : n < 2 ^ 64) (before after : Str) (hb : NoDigit before) (ha : NoDigit after) :
    protoNumber (before ++ decimal n ++ after) = some n := by
  obtain ⟨h1, h2, h3⟩ := toDigits_fold n
  unfold protoNumber
  rw [List.filter_append, List.filter_append, filter_noDigit hb, filter_noDigit ha, List.nil_append, List.append_nil,
    List.filter_eq_self.2 h2, parseU64, if_neg h3]
  simp only [h1]
  rw [if_pos hn]

example : NoDigit (str "\"protocol") ∧ NoDigit (str ".json\"") ∧ decimal 87702 = str "87702" ∧
    protoNumber (str "\"protocol87702.json\"") = some 87702 := by
  refine ⟨?_, ?_, by decide +kernel, by decide +kernel⟩
  · intro c hc; revert c; decide +kernel
  · intro c hc; revert c; decide +kernel

/-- C173, exactly: every name gives the number that all its digits make when they are written one after the other; there is a panic exactly
if there is no digit or that number does not fit into 64 bits. -/
theorem C173_exactly (name : Str) :
    (protoNumber name = none ↔ NoDigit name ∨ 2 ^ 64 ≤ (name.filter isDigit).foldl (fun a d => 10 * a + (d.toNat - 48)) 0) ∧
    (∀ n, protoNumber name = some n → n = (name.filter isDigit).foldl (fun a d => 10 * a + (d.toNat - 48)) 0) := by
  have hz : name.filter isDigit = [] ↔ NoDigit name := by
    constructor
    · intro h c hc hd
      rw [List.filter_eq_nil_iff] at h
      exact h c hc ((isDigit_iff c).2 hd)
    · exact filter_noDigit
  unfold protoNumber parseU64
  by_cases h : name.filter isDigit = []
  · simp [h, hz.1 h]
  · have h' : ¬ NoDigit name := fun x => h (hz.2 x)
    rw [if_neg h]
    by_cases hl : (name.filter isDigit).foldl (fun a d => 10 * a + (d.toNat - 48)) 0 < 2 ^ 64
    · simp only [if_pos hl]
      refine ⟨Iff.intro (fun x => nomatch x) (fun x => ?_), fun n hn => (Option.some.inj hn).symm⟩
      rcases x with x | x
      · exact absurd x h'
      · omega
    · simp only [if_neg hl]
      exact ⟨Iff.intro (fun _ => .inr (by omega)) (fun _ => trivial), fun n hn => nomatch hn⟩

/-- C173 is refuted: a name with a second digit gives another number than the one of the protocol. -/
theorem C173_refuted : ∃ before after : Str, protoNumber (before ++ str "protocol" ++ decimal 87702 ++ after) = some 287702 :=
  ⟨str "\"s2", str ".json\"", by decide +kernel⟩

end S2.Generator
