import Verif.Props.Iter
import Verif.Props.Merged
import Verif.Props.Generator
/-!
# Exact conditions for some of the partial claims

Where a claim holds only under a condition, the theorems here say that the condition is the right one.
-/
namespace S2

/-! ## C31: when do the deltas of the list give the true loops? -/

/-- Stamping the kept events from `l'` on and keeping of the stamped events (from `l` on) agree exactly if no skipped event with
a positive delta comes before a kept one. -/
theorem stamp_exact {α β : Type} (delta : α → Int) (delta' : β → Int) (f : α → Option β)
    (hf : ∀ a b, f a = some b → delta' b = delta a) : ∀ (items : List α) (l' l : Int), l' ≤ l → (∀ a ∈ items, 0 ≤ delta a) →
    (withLoops delta' l' (items.filterMap f) = (withLoops delta l items).filterMap (fun p => (f p.2).map (fun b => (p.1, b))) ↔
      ∀ pre p post, items = pre ++ p :: post → f p ≠ none → l' = l ∧ ∀ a ∈ pre, f a = none → delta a = 0)
  | [], l', l, _, _ => by
    simp only [List.filterMap_nil, withLoops, true_iff]
    intro pre p post h
    simp at h
  | a :: items, l', l, hl, hd => by
    have hda := hd a (by simp)
    cases hfa : f a with
    | none =>
      rw [List.filterMap_cons, hfa]
      simp only [withLoops, List.filterMap_cons, hfa, Option.map_none]
      rw [stamp_exact delta delta' f hf items l' (l + delta a) (by omega) (fun x hx => hd x (by simp [hx]))]
      constructor
      · intro h pre p post e hp
        cases pre with
        | nil => cases e; exact absurd hfa hp
        | cons x pre =>
          obtain ⟨rfl, e2⟩ := List.cons.inj e
          obtain ⟨h1, h2⟩ := h pre p post e2 hp
          refine ⟨by omega, ?_⟩
          intro y hy hn
          rcases List.mem_cons.1 hy with rfl | hy
          · omega
          · exact h2 y hy hn
      · intro h pre p post e hp
        obtain ⟨h1, h2⟩ := h (a :: pre) p post (by rw [e]; rfl) hp
        have := h2 a (by simp) hfa
        exact ⟨by omega, fun y hy hn => h2 y (by simp [hy]) hn⟩
    | some b =>
      have hb := hf a b hfa
      rw [List.filterMap_cons, hfa]
      simp only [withLoops, List.filterMap_cons, hfa, Option.map_some, List.cons.injEq, Prod.mk.injEq, and_true]
      rw [hb]
      rw [stamp_exact delta delta' f hf items (l' + delta a) (l + delta a) (by omega) (fun x hx => hd x (by simp [hx]))]
      constructor
      · rintro ⟨h1, h⟩ pre p post e hp
        cases pre with
        | nil => exact ⟨by omega, by simp⟩
        | cons x pre =>
          obtain ⟨rfl, e2⟩ := List.cons.inj e
          obtain ⟨h3, h2⟩ := h pre p post e2 hp
          refine ⟨by omega, ?_⟩
          intro y hy hn
          rcases List.mem_cons.1 hy with rfl | hy
          · rw [hfa] at hn; cases hn
          · exact h2 y hy hn
      · intro h
        refine ⟨by have := (h [] a items rfl (by rw [hfa]; simp)).1; omega, ?_⟩
        intro pre p post e hp
        obtain ⟨h1, h2⟩ := h (a :: pre) p post (by rw [e]; rfl) hp
        exact ⟨by omega, fun y hy hn => h2 y (by simp [hy]) hn⟩

/-- Stamped events are never late. -/
theorem stamp_early {α β : Type} (delta : α → Int) (delta' : β → Int) (f : α → Option β)
    (hf : ∀ a b, f a = some b → delta' b = delta a) : ∀ (items : List α) (l' l : Int), l' ≤ l → (∀ a ∈ items, 0 ≤ delta a) →
    (withLoops delta' l' (items.filterMap f)).map Prod.snd =
      ((withLoops delta l items).filterMap (fun p => (f p.2).map (fun b => (p.1, b)))).map Prod.snd ∧
    ∀ (i : Nat) (x y : Int × β), (withLoops delta' l' (items.filterMap f))[i]? = some x →
      ((withLoops delta l items).filterMap (fun p => (f p.2).map (fun b => (p.1, b))))[i]? = some y → x.1 ≤ y.1
  | [], l', l, _, _ => by simp [withLoops]
  | a :: items, l', l, hl, hd => by
    have hda := hd a (by simp)
    cases hfa : f a with
    | none =>
      rw [List.filterMap_cons, hfa]
      simp only [withLoops, List.filterMap_cons, hfa, Option.map_none]
      exact stamp_early delta delta' f hf items l' (l + delta a) (by omega) (fun x hx => hd x (by simp [hx]))
    | some b =>
      have hb := hf a b hfa
      rw [List.filterMap_cons, hfa]
      simp only [withLoops, List.filterMap_cons, hfa, Option.map_some, List.map_cons, List.cons.injEq, true_and]
      rw [hb]
      obtain ⟨h1, h2⟩ := stamp_early delta delta' f hf items (l' + delta a) (l + delta a) (by omega) (fun x hx => hd x (by simp [hx]))
      refine ⟨h1, ?_⟩
      intro i x y hx hy
      cases i with
      | zero =>
        simp only [List.getElem?_cons_zero, Option.some.injEq] at hx hy
        rw [← hx, ← hy]; simp only; omega
      | succ i =>
        rw [List.getElem?_cons_succ] at hx hy
        exact h2 i x y hx hy

theorem tracker_out {bld : Build} {items : List (Int × Val)} {data : List UInt8} {n : Nat} {out : List (Int × TrackerEvt)}
    (hs : Stream (TrackerWire bld) items data) (hn : data.length < n) (h : readTrackerEvents bld n data = some (.ok out)) :
    out = items.filterMap trackerOf := by
  have hne : items ≠ [] := by
    rintro rfl
    have hd : data = [] := hs
    subst hd
    obtain ⟨items, h1, h2, _⟩ := C29_tracker_only_streams bld [] n out h
    have := Stream_length (fun _ _ => TrackerWire_ne_nil) _ _ h2
    cases items <;> simp_all
  rw [C29_tracker_stream bld items data n hne hs hn] at h
  simp only [Option.some.injEq, Res.ok.injEq] at h
  exact h.symm

theorem game_out {bld : Build} {version : Nat} {items : List (Int × Int × Val)} {data : List UInt8} {n : Nat}
    {out : List (Int × Int × GameEvt)} (hs : Stream (TripletWire bld (gameEventTy version)) items data) (hn : data.length < n)
    (h : readGameEvents bld version n data = some (.ok out)) : out = items.filterMap gameOf := by
  have hne : items ≠ [] := by
    rintro rfl
    have hd : data = [] := hs
    subst hd
    obtain ⟨items, h1, h2, _⟩ := C30_game_only_streams bld version [] n out h
    have := Stream_length (fun _ _ => TripletWire_ne_nil) _ _ h2
    cases items <;> simp_all
  rw [C30_game_stream bld version items data n hne hs hn] at h
  simp only [Option.some.injEq, Res.ok.injEq] at h
  exact h.symm

theorem trackerTimeline_kept (items : List (Int × Val)) : trackerTimeline items =
    ((withLoops Prod.fst 0 items).filterMap (fun p => (trackerOf p.2).map (fun b => (p.1, b)))).map (fun p => (p.1, p.2.2)) := by
  unfold trackerTimeline trackerOf
  rw [stamped_eq, List.map_filterMap]
  congr 1; funext p
  cases convTracker p.2.2 <;> rfl

theorem gameTimeline_kept (items : List (Int × Int × Val)) : gameTimeline items =
    ((withLoops Prod.fst 0 items).filterMap (fun p => (gameOf p.2).map (fun b => (p.1, b)))).map (fun p => (p.1, p.2.2)) := by
  unfold gameTimeline gameOf
  rw [stamped_eq, List.map_filterMap]
  congr 1; funext p
  cases convGame p.2.2.2 <;> rfl

theorem trackerOf_delta (a : Int × Val) (b : Int × TrackerEvt) (h : trackerOf a = some b) : b.1 = a.1 := by
  unfold trackerOf at h
  cases hc : convTracker a.2 <;> rw [hc] at h <;> cases h
  rfl

theorem gameOf_delta (a : Int × Int × Val) (b : Int × Int × GameEvt) (h : gameOf a = some b) : b.1 = a.1 := by
  unfold gameOf at h
  cases hc : convGame a.2.2 <;> rw [hc] at h <;> cases h
  rfl

/-- Two lists of stamped events that differ at most in the loops and in what `g` forgets (which the rest of the list determines). -/
theorem map_inj_of_snd {β γ : Type} {g : β → γ} : ∀ {xs ys : List (Int × β)}, xs.map Prod.snd = ys.map Prod.snd →
    (xs.map (fun p => (p.1, g p.2)) = ys.map (fun p => (p.1, g p.2)) ↔ xs = ys)
  | [], [], _ => by simp
  | [], _ :: _, h => by simp at h
  | _ :: _, [], h => by simp at h
  | x :: xs, y :: ys, h => by
    obtain ⟨h1, h2⟩ := List.cons.inj h
    have ih := map_inj_of_snd (g := g) h2
    simp only [List.map_cons, List.cons.injEq, ih, Prod.mk.injEq, h1, and_true]
    constructor
    · rintro ⟨a, b⟩; exact ⟨Prod.ext a h1, b⟩
    · rintro ⟨a, b⟩; exact ⟨by rw [a], b⟩

/-- **C31 (exactly when, tracker)** accumulating the deltas of the returned list gives the true loops if and only if no event
that was skipped, and that came before one that was not, had a positive delta. -/
theorem C31_tracker_exactly (bld : Build) (items : List (Int × Val)) (data : List UInt8) (n : Nat)
    (out : List (Int × TrackerEvt)) (hs : Stream (TrackerWire bld) items data) (hn : data.length < n)
    (h : readTrackerEvents bld n data = some (.ok out)) :
    (stamped Prod.fst out).map (fun p => (p.1, p.2.2)) = trackerTimeline items ↔
      ∀ pre p post, items = pre ++ p :: post → trackerOf p ≠ none → ∀ a ∈ pre, trackerOf a = none → a.1 = 0 := by
  have hd : ∀ a ∈ items, 0 ≤ a.1 := fun a ha =>
    (stream_forall (P := fun a : Int × Val => 0 ≤ a.1 ∧ a.1 < 2 ^ 32) (fun _ _ h => TrackerWire_delta h) items data hs a ha).1
  rw [tracker_out hs hn h, stamped_eq, trackerTimeline_kept,
    map_inj_of_snd (g := Prod.snd) (stamp_early Prod.fst Prod.fst trackerOf trackerOf_delta items 0 0 (by omega) hd).1,
    stamp_exact Prod.fst Prod.fst trackerOf trackerOf_delta items 0 0 (by omega) hd]
  simp

/-- **C31 (exactly when, game)** likewise for game events. -/
theorem C31_game_exactly (bld : Build) (version : Nat) (items : List (Int × Int × Val)) (data : List UInt8) (n : Nat)
    (out : List (Int × Int × GameEvt)) (hs : Stream (TripletWire bld (gameEventTy version)) items data)
    (hn : data.length < n) (h : readGameEvents bld version n data = some (.ok out)) :
    (stamped Prod.fst out).map (fun p => (p.1, p.2.2)) = gameTimeline items ↔
      ∀ pre p post, items = pre ++ p :: post → gameOf p ≠ none → ∀ a ∈ pre, gameOf a = none → a.1 = 0 := by
  have hd : ∀ a ∈ items, 0 ≤ a.1 := fun a ha =>
    (stream_forall (P := fun a : Int × Int × Val => 0 ≤ a.1 ∧ a.1 < 2 ^ 32) (fun _ _ h => TripletWire_delta h) items data hs a ha).1
  rw [game_out hs hn h, stamped_eq, gameTimeline_kept,
    map_inj_of_snd (g := Prod.snd) (stamp_early Prod.fst Prod.fst gameOf gameOf_delta items 0 0 (by omega) hd).1,
    stamp_exact Prod.fst Prod.fst gameOf gameOf_delta items 0 0 (by omega) hd]
  simp

/-- **C31 (never late)** in any case the list has the supported events in order, and none of them gets a loop after its true one. -/
theorem C31_never_late (bld : Build) (items : List (Int × Val)) (data : List UInt8) (n : Nat)
    (out : List (Int × TrackerEvt)) (hs : Stream (TrackerWire bld) items data) (hn : data.length < n)
    (h : readTrackerEvents bld n data = some (.ok out)) :
    out.map Prod.snd = (trackerTimeline items).map Prod.snd ∧
    ∀ (i : Nat) x y, (stamped Prod.fst out)[i]? = some x → (trackerTimeline items)[i]? = some y → x.1 ≤ y.1 := by
  have hd : ∀ a ∈ items, 0 ≤ a.1 := fun a ha =>
    (stream_forall (P := fun a : Int × Val => 0 ≤ a.1 ∧ a.1 < 2 ^ 32) (fun _ _ h => TrackerWire_delta h) items data hs a ha).1
  obtain ⟨h1, h2⟩ := stamp_early Prod.fst Prod.fst trackerOf trackerOf_delta items 0 0 (by omega) hd
  rw [← tracker_out hs hn h] at h1 h2
  constructor
  · have := congrArg (List.map Prod.snd) h1
    rw [trackerTimeline_kept, List.map_map]
    rw [List.map_map, List.map_map] at this
    refine Eq.trans ?_ this
    rw [← List.map_map]
    congr 1
    have gen : ∀ (xs : List (Int × TrackerEvt)) (l : Int), xs = (withLoops Prod.fst l xs).map Prod.snd := by
      intro xs
      induction xs with
      | nil => intro l; rfl
      | cons x xs ih => intro l; rw [withLoops, List.map_cons, ← ih]
    exact gen out 0
  · intro i x y hx hy
    rw [trackerTimeline_kept, List.getElem?_map] at hy
    obtain ⟨z, hz, rfl⟩ := Option.map_eq_some_iff.1 hy
    rw [stamped_eq] at hx
    exact h2 i x z hx hz

/-- **C31 (never late, game)** likewise. -/
theorem C31_game_never_late (bld : Build) (version : Nat) (items : List (Int × Int × Val)) (data : List UInt8) (n : Nat)
    (out : List (Int × Int × GameEvt)) (hs : Stream (TripletWire bld (gameEventTy version)) items data)
    (hn : data.length < n) (h : readGameEvents bld version n data = some (.ok out)) :
    out.map Prod.snd = (gameTimeline items).map Prod.snd ∧
    ∀ (i : Nat) x y, (stamped Prod.fst out)[i]? = some x → (gameTimeline items)[i]? = some y → x.1 ≤ y.1 := by
  have hd : ∀ a ∈ items, 0 ≤ a.1 := fun a ha =>
    (stream_forall (P := fun a : Int × Int × Val => 0 ≤ a.1 ∧ a.1 < 2 ^ 32) (fun _ _ h => TripletWire_delta h) items data hs a ha).1
  obtain ⟨h1, h2⟩ := stamp_early Prod.fst Prod.fst gameOf gameOf_delta items 0 0 (by omega) hd
  rw [← game_out hs hn h] at h1 h2
  constructor
  · have := congrArg (List.map Prod.snd) h1
    rw [gameTimeline_kept, List.map_map]
    rw [List.map_map, List.map_map] at this
    refine Eq.trans ?_ this
    rw [← List.map_map]
    congr 1
    have gen : ∀ (xs : List (Int × Int × GameEvt)) (l : Int), xs = (withLoops Prod.fst l xs).map Prod.snd := by
      intro xs
      induction xs with
      | nil => intro l; rfl
      | cons x xs ih => intro l; rw [withLoops, List.map_cons, ← ih]
    exact gen out 0
  · intro i x y hx hy
    rw [gameTimeline_kept, List.getElem?_map] at hy
    obtain ⟨z, hz, rfl⟩ := Option.map_eq_some_iff.1 hy
    rw [stamped_eq] at hx
    exact h2 i x z hx hz

/-- The hypotheses hold of the stream of `C31_tracker_list_refuted`; there the second event is listed 7 loops early. -/
example (bld : Build) : ∃ items data out, Stream (TrackerWire bld) items data ∧ data.length < 100 ∧
    readTrackerEvents bld 100 data = some (.ok out) ∧ items.length = 3 ∧ out.length = 2 :=
  ⟨_, _, _, demo_stream bld, by decide, C29_tracker_stream bld _ _ 100 (by simp) (demo_stream bld) (by decide), rfl,
    by decide +kernel⟩

end S2

namespace S2.Generator

/-! ## C122 to C124: which values do generated parsers read? -/

/-- [specification] No input at all is read as `v`. -/
def NeverRead (t : BTy) (v : Val) : Prop := ¬ ∃ (c c' : Cur), c.WF ∧ bparse .release t c = .ok (c', v)

/-- **C122 (exactly when)** a variant of a generated choice is read back with every payload if its tag fits the bits that the
*number* of variants needs; any other variant is never read, whatever the input. -/
theorem C122_exactly (alts : BAlts) (hn : altCount alts ≤ 2 ^ 16) (hw : alts.wf = true) (tag : Int) (ty : BTy) (w : Val)
    (hp : payload alts tag = some ty) (hv : BHas .release ty w) :
    (0 ≤ tag ∧ tag < 2 ^ tagBits (altCount alts) → ReadsBack (choiceType alts) (.choice tag w)) ∧
    (¬ (0 ≤ tag ∧ tag < 2 ^ tagBits (altCount alts)) → NeverRead (choiceType alts) (.choice tag w)) := by
  have hb : tagBits (altCount alts) ≤ 16 := by
    by_cases h0 : 1 < altCount alts
    · have h2 := tagBits_fewest _ h0
      by_cases hh : tagBits (altCount alts) ≤ 16
      · exact hh
      · have := Nat.pow_le_pow_right (n := 2) (by omega) (show 16 ≤ tagBits (altCount alts) - 1 by omega)
        omega
    · have := (C122_fewest_bits (altCount alts)).2.2 (by omega)
      omega
  constructor
  · intro ht c hc rest h
    refine bparse_benc .release _ (by unfold choiceType; rw [BTy.wf]; exact hw) _ ?_ c hc rest h
    have := pow_le_pow _ 16 hb
    exact ⟨tag, w, rfl, by omega, ht.1, ht.2, by omega, payload_has .release alts tag ty w hp hv⟩
  · rintro hne ⟨c, c', hc, h⟩
    exact hne (choice_tag_lt .release _ (by omega) alts c c' hc tag w hw h)

/-- With tags 0, 3 and 4 two bits are read: 3 is read back although it is not below the number of variants, 4 is not. -/
example : ReadsBack (choiceType (.cons 0 .null (.cons 3 .bool (.cons 4 .null .nil)))) (.choice 3 (.bool true)) ∧
    NeverRead (choiceType (.cons 0 .null (.cons 3 .bool (.cons 4 .null .nil)))) (.choice 4 .unit) :=
  ⟨(C122_exactly _ (by decide) (by decide) 3 .bool (.bool true) rfl ⟨true, rfl⟩).1 (by decide),
   (C122_exactly _ (by decide) (by decide) 4 .null .unit rfl rfl).2 (by decide)⟩

theorem int_read_range (k : Int) (n : Nat) (hn : n ≤ 63) (hk : inI64 k) (hkn : k + 2 ^ n ≤ 2 ^ 63) (c c' : Cur) (hc : c.WF) (x : Int)
    (h : bparse .release (.int k n) c = .ok (c', .int x)) : k ≤ x ∧ x < k + 2 ^ n := by
  obtain ⟨u, rest, _, ⟨_, hl, y, hy, hp⟩, _⟩ := (bparse_iff .release (.int k n) rfl c hc c' _).1 h
  simp only [Val.int.injEq] at hy
  subst hy
  have hb := bitsVal_lt c.off u hc.1
  rw [hl] at hb
  have h2 : (2 : Nat) ^ n ≤ 2 ^ 63 := Nat.pow_le_pow_right (by omega) hn
  have h3 := toI64_of_lt (n := bitsVal c.off u) (by omega)
  have h4 : ((bitsVal c.off u : Nat) : Int) < ((2 ^ n : Nat) : Int) := Int.ofNat_lt.2 hb
  rw [Int.natCast_pow] at h4
  rw [h3] at hp
  have h5 : ((2 : Nat) : Int) ^ n = 2 ^ n := rfl
  rw [h5] at h4
  unfold inI64 i64Min i64Max at hk
  rcases hp with ⟨_, e⟩ | ⟨_, hni, _⟩
  · omega
  · exfalso
    apply hni
    unfold inI64 i64Min i64Max
    omega

/-- **C123 (exactly which)** a generated integer parser reads back the values from the lower bound on that fit its bits, admitted or
not, and never any other value. -/
theorem C123_exactly (b : Bounds) (hw : intBits b ≤ 63) (hmin : inI64 b.min) (hmax : b.min + 2 ^ intBits b ≤ 2 ^ 63) (v : Int) :
    (b.min ≤ v ∧ v < b.min + 2 ^ intBits b → ReadsBack (intType b) (.int v)) ∧
    (¬ (b.min ≤ v ∧ v < b.min + 2 ^ intBits b) → NeverRead (intType b) (.int v)) := by
  constructor
  · intro hv c hc rest hb
    refine bparse_benc .release _ rfl _ ?_ c hc rest hb
    have h2 := pow_le_pow _ 64 (show intBits b ≤ 64 by omega)
    have hi : inI64 v := by unfold inI64 i64Min i64Max at hmin ⊢; omega
    exact ⟨v, rfl, by omega, hi, hv.1, by omega, .inr ⟨rfl, hmin, by omega⟩⟩
  · rintro hne ⟨c, c', hc, h⟩
    exact hne (int_read_range b.min (intBits b) hw hmin hmax c c' hc v h)

/-- `-5 ≤ v ≤ 1` reads the values from -5 to -2; `100 ≤ v ≤ 127` those from 100 to 227. -/
example : ReadsBack (intType ⟨-5, true, 1, true, none⟩) (.int (-2)) ∧ NeverRead (intType ⟨-5, true, 1, true, none⟩) (.int (-1)) ∧
    ReadsBack (intType ⟨100, true, 127, true, none⟩) (.int 227) :=
  ⟨(C123_exactly _ (by decide) (by decide) (by decide) _).1 (by decide),
   (C123_exactly _ (by decide) (by decide) (by decide) _).2 (by decide),
   (C123_exactly _ (by decide) (by decide) (by decide) _).1 (by decide)⟩

/-- **C124 (width, exactly when)** the length of an array that may be empty has exactly the bits it needs if and only if the number
of possible lengths is not a power of two. -/
theorem C124_width_exactly (b : Bounds) (h0 : b.min = 0) (hm : b.minIncl = true) :
    b.FewestBits (arrayBits b) ↔ ∀ k : Nat, (if b.maxIncl then b.max + 1 else b.max) ≠ 2 ^ k := by
  refine ⟨?_, C124_width_partial b h0 hm⟩
  intro h k hk
  have hpos : (0 : Int) < 2 ^ k := Int.pow_pos (by omega)
  have hA : arrayBits b = k + 1 := by
    have hx : 0 < (if b.maxIncl then b.max + 1 else b.max) := by omega
    obtain ⟨h1, h2, h3⟩ := log2p1_pos _ hx
    unfold arrayBits
    rw [hk] at h1 h2 h3 ⊢
    have hle : log2p1 (2 ^ k) ≤ k + 1 := log2p1_le _ _ (by rw [pow_succ_two]; omega)
    by_cases hlt : log2p1 (2 ^ k) ≤ k
    · have := pow_le_pow _ _ hlt
      omega
    · omega
  obtain ⟨v, hv, h2⟩ := h.2 (by omega)
  rw [hA, Nat.add_sub_cancel, ← hk, h0] at h2
  have := admits_le b v hv
  cases hmx : b.maxIncl <;> rw [hmx] at this h2 <;> simp at this h2 <;> omega

/-- Up to 16 elements: 17 lengths. -/
example : Bounds.FewestBits ⟨0, true, 16, true, none⟩ 5 :=
  (C124_width_exactly ⟨0, true, 16, true, none⟩ rfl rfl).2 (by
    intro k hk
    simp only [if_true] at hk
    have : k < 5 ∨ 5 ≤ k := by omega
    rcases this with h | h
    · have : k = 0 ∨ k = 1 ∨ k = 2 ∨ k = 3 ∨ k = 4 := by omega
      rcases this with rfl | rfl | rfl | rfl | rfl <;> exact absurd hk (by decide)
    · have := pow_le_pow 5 k h
      omega)

end S2.Generator
