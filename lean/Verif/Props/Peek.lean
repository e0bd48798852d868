import Verif.Misc.Peek
import Verif.Spec.BitSpec
import Verif.BitsLemmas2
/-! # The picture of a bit cursor (C170) -/
namespace S2

/-- The digit for a bit: `0` or `1`. [specification] -/
def bitChar (b : Bool) : UInt8 := if b then 49 else 48

/-- The binary digits of a byte as they are written on paper: the bit of weight 128 first. [specification] -/
def onPaper (b : UInt8) : List UInt8 := ((List.range 8).reverse.map b.toNat.testBit).map bitChar

/-- `body` shows `digits` in order, with exactly the digit at position `i` between the marks `>` and `<`. [specification] -/
def MarksOnly (body digits : List UInt8) (i : Nat) : Prop :=
  ∃ before d after, digits = before ++ d :: after ∧ before.length = i ∧ body = before ++ [62, d, 60] ++ after

theorem binaryDigits_eq (b : UInt8) : binaryDigits b = onPaper b := by
  have key : ∀ n : Fin 256, binaryDigits (UInt8.ofNat n.1) = onPaper (UInt8.ofNat n.1) := by decide +kernel
  have hb : b.toNat < 256 := b.toNat_lt
  have := key ⟨b.toNat, hb⟩
  simpa using this

theorem peekDigits_plain (off : Nat) (ds : List UInt8) : ∀ idx, off < idx → peekDigits off idx ds = ds := by
  induction ds with
  | nil => intros; rfl
  | cons d ds ih =>
    intro idx h
    rw [peekDigits, if_neg (by omega), ih (idx + 1) (by omega)]; rfl

theorem peekDigits_beyond (off : Nat) (ds : List UInt8) : ∀ idx, idx + ds.length ≤ off → peekDigits off idx ds = ds := by
  induction ds with
  | nil => intros; rfl
  | cons d ds ih =>
    intro idx h
    simp only [List.length_cons] at h
    rw [peekDigits, if_neg (by omega), ih (idx + 1) (by omega)]; rfl

theorem peekDigits_marks (ds : List UInt8) : ∀ (idx k : Nat), k < ds.length →
    MarksOnly (peekDigits (idx + k) idx ds) ds k := by
  induction ds with
  | nil => intro idx k h; simp at h
  | cons d ds ih =>
    intro idx k h
    cases k with
    | zero =>
      refine ⟨[], d, ds, rfl, rfl, ?_⟩
      rw [peekDigits, if_pos (by omega), peekDigits_plain _ _ _ (by omega)]; rfl
    | succ k =>
      obtain ⟨p, x, q, h1, h2, h3⟩ := ih (idx + 1) k (by simp only [List.length_cons] at h; omega)
      refine ⟨d :: p, x, q, by rw [h1]; rfl, by simp [h2], ?_⟩
      rw [peekDigits, if_neg (by omega)]
      have : idx + (k + 1) = idx + 1 + k := by omega
      rw [this, h3]; simp

/-- C170 (what holds): for every cursor a reader can hold and every way to print the hexadecimal part, the picture is `[]` at the
end of the input, and otherwise the eight digits of the current byte as on paper, exactly one of them marked: the one at the
cursor's offset counted from the most significant digit. -/
theorem C170_one_mark_partial (hex : List UInt8 → Str) (c : Cur) (hc : c.WF) :
    (c.bytes = [] → peekBits hex c = str "[]") ∧
    (∀ b rest, c.bytes = b :: rest → ∃ body, peekBits hex c = str "[0b" ++ body ++ str "]" ++ hex c.bytes ∧
      MarksOnly body (onPaper b) c.off) := by
  refine ⟨fun h => by rw [peekBits, h], ?_⟩
  intro b rest h
  refine ⟨peekDigits c.off 0 (onPaper b), by rw [peekBits, h]; simp only [binaryDigits_eq], ?_⟩
  have := peekDigits_marks (onPaper b) 0 c.off (by simp [onPaper]; exact hc.1)
  simpa using this

example : (⟨[0xb4, 1], 3⟩ : Cur).WF ∧ peekBits (fun _ => []) ⟨[0xb4, 1], 3⟩ = str "[0b101>1<0100]" := by decide +kernel

theorem first_bit (b : UInt8) (rest : List UInt8) (off : Nat) (h : off < 8) :
    ∃ more, (⟨b :: rest, off⟩ : Cur).bits = b.toNat.testBit off :: more := by
  simp only [Cur.bits, bytesBits, List.flatMap_cons, byteBits]
  obtain rfl | rfl | rfl | rfl | rfl | rfl | rfl | rfl :
    off = 0 ∨ off = 1 ∨ off = 2 ∨ off = 3 ∨ off = 4 ∨ off = 5 ∨ off = 6 ∨ off = 7 := by omega
  all_goals exact ⟨_, rfl⟩

/-- C170, exactly: at a cursor inside the input the marked digit is the one that the next one-bit read returns if and only if the
bits of weight `2^off` and `2^(7-off)` of the current byte are equal: bits are taken from the least significant end, digits are
counted from the other. -/
theorem C170_exactly (hex : List UInt8 → Str) (b : UInt8) (rest : List UInt8) (off : Nat) (h : off < 8) :
    ∃ before d after v, peekBits hex ⟨b :: rest, off⟩ =
        str "[0b" ++ (before ++ [62, d, 60] ++ after) ++ str "]" ++ hex (b :: rest) ∧
      parseBool ⟨b :: rest, off⟩ = .ok ((⟨b :: rest, off⟩ : Cur).advance 1, v) ∧
      before.length = off ∧ before ++ d :: after = onPaper b ∧
      v = b.toNat.testBit off ∧ d = bitChar (b.toNat.testBit (7 - off)) ∧
      (d = bitChar v ↔ b.toNat.testBit off = b.toNat.testBit (7 - off)) := by
  have hw : (⟨b :: rest, off⟩ : Cur).WF := ⟨h, fun h => by cases h⟩
  obtain ⟨body, hb, p, d, q, h1, h2, h3⟩ := (C170_one_mark_partial hex _ hw).2 b rest rfl
  obtain ⟨more, hm⟩ := first_bit b rest off h
  have hp := parseBool_bits _ hw
  rw [hm] at hp
  have hd : d = bitChar (b.toNat.testBit (7 - off)) := by
    have e : (onPaper b)[off]? = some d := by
      simp only at h2
      rw [h1, ← h2]; simp
    have e2 : (onPaper b)[off]? = some (bitChar (b.toNat.testBit (7 - off))) := by
      unfold onPaper
      obtain rfl | rfl | rfl | rfl | rfl | rfl | rfl | rfl :
        off = 0 ∨ off = 1 ∨ off = 2 ∨ off = 3 ∨ off = 4 ∨ off = 5 ∨ off = 6 ∨ off = 7 := by omega
      all_goals rfl
    rw [e2] at e; exact (Option.some.inj e).symm
  refine ⟨p, d, q, b.toNat.testBit off, by rw [hb, h3], hp, h2, h1.symm, rfl, hd, ?_⟩
  rw [hd]
  cases b.toNat.testBit off <;> cases b.toNat.testBit (7 - off) <;> decide

/-- C170 is refuted: there is a cursor whose marked digit is `0` while the next bit read is `1`. -/
theorem C170_refuted (hex : List UInt8 → Str) :
    ∃ c : Cur, c.WF ∧ peekBits hex c = str "[0b>0<0000001]" ++ hex c.bytes ∧ parseBool c = .ok (c.advance 1, true) := by
  refine ⟨⟨[1], 0⟩, by decide, ?_, by decide +kernel⟩
  rw [peekBits]
  have : str "[0b" ++ peekDigits 0 0 (binaryDigits 1) ++ str "]" = str "[0b>0<0000001]" := by decide +kernel
  simp only [this]

/-- C170: asking for the picture never changes what a parser does: `dbg_peek_bits` returns the parser's own result, and writes one
line, with its context and the cursor it failed at, exactly when the parser fails. -/
theorem C170_transparent_partial {α : Type} (hex : List UInt8 → Str) (f : Cur → Res (Cur × α)) (ctx : Str) (c : Cur) :
    (dbgPeekBits hex f ctx c).1 = f c ∧
    ((∃ e, f c = .err e) → (dbgPeekBits hex f ctx c).2 = [(ctx, peekBits hex c)]) ∧
    ((∀ e, f c ≠ .err e) → (dbgPeekBits hex f ctx c).2 = []) := by
  unfold dbgPeekBits
  cases h : f c <;> simp

example : (dbgPeekBits (fun _ => []) parseBool (str "ctx") ⟨[], 0⟩) = (.err .eof, [(str "ctx", str "[]")]) := by decide +kernel

end S2
