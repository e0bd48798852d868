import Verif.Props.ChatExact
/-! # How every game event in the ranges of the description is read (C178) -/
namespace S2
open P87702.BitPacked Published

/-- Wire forms of a value that depends on the bit offset. [proof device, no counterpart in /repo] -/
def RdV (bld : Build) (t : BTy) (v : Nat → Val) (w : Wire) : Prop := ∀ off, off < 8 → BEnc bld t off (v off) (w off)
/-- Likewise for the members of a structure. [proof device, no counterpart in /repo] -/
def RdVF (bld : Build) (fs : BFields) (vs : Nat → List Val) (ws : List Wire) : Prop := ∀ off, off < 8 → BFieldsEnc bld fs off (vs off) (seq ws off)

theorem bits_length (n : Nat) (x : Int) {off : Nat} (ho : off < 8) : (bits n x off).length = n := encBits_length _ _ _ ho

theorem rdv_bits {bld : Build} {name : String} {t : BTy} {rest : BFields} {v : Val} {vs : Nat → List Val} {n : Nat} {x : Int} {ws : List Wire}
    (h : Rd bld t v (bits n x)) (hr : RdVF bld rest vs ws) : RdVF bld (.cons name t rest) (fun off => v :: vs ((off + n) % 8)) (bits n x :: ws) :=
  fun off ho => ⟨v, _, bits n x off, seq ws ((off + (bits n x off).length) % 8), rfl, rfl, h off ho, by
    rw [bits_length n x ho]; exact hr _ (mod8 _)⟩

theorem rdv_last {bld : Build} {name : String} {t : BTy} {rest : BFields} {v : Nat → Val} {vs : List Val} {w : Wire} {ws : List Wire}
    (h : RdV bld t v w) (hr : RdF bld rest vs ws) : RdVF bld (.cons name t rest) (fun off => v off :: vs) (w :: ws) :=
  fun off ho => ⟨v off, vs, w off, seq ws ((off + (w off).length) % 8), rfl, rfl, h off ho, hr _ (mod8 _)⟩

theorem rdv_struct {bld : Build} {fs : BFields} {vs : Nat → List Val} {ws : List Wire} (h : RdVF bld fs vs ws) :
    RdV bld (.struct fs) (fun off => .struct (vs off)) (seq ws) := fun off ho => ⟨vs off, rfl, h off ho⟩

theorem rdv_find {bld : Build} : (alts : BAlts) → {tag : Int} → {t : BTy} → {v : Nat → Val} → {w : Wire} → alts.find tag = some t → RdV bld t v w →
    ∀ off, off < 8 → BAltEnc bld alts tag off (v off) (w off)
  | .nil, _, _, _, _, hf, _, _, _ => nomatch hf
  | .cons t0 ty rest, tag, t, v, w, hf, h, off, ho => by
    rw [BAlts.find] at hf
    rw [BAltEnc]
    split at hf
    · rename_i e; cases hf; rw [if_pos e]; exact h _ ho
    · rename_i e; rw [if_neg e]; exact rdv_find rest hf h off ho

theorem tag_val {n : Nat} (hn : n ≤ 32) {tag : Int} (ht : U n tag) {off : Nat} (ho : off < 8) : toI64 (bitsVal off (bits n tag off)) = tag := by
  obtain ⟨h0, h1⟩ := ht
  have hx : tag.toNat < 2 ^ n := by
    rw [← Int.toNat_of_nonneg h0] at h1
    exact_mod_cast h1
  have hx2 : tag.toNat < 2 ^ 63 := Nat.lt_of_lt_of_le hx (Nat.pow_le_pow_right (by decide) (by omega))
  rw [bits, bitsVal_encBits _ _ _ ho hx, toI64_of_lt hx2, Int.toNat_of_nonneg h0]

theorem rdv_choice {bld : Build} {alts : BAlts} (n : Nat) (hn : n ≤ 32) {tag : Int} {t : BTy} {v : Nat → Val} {w : Wire} (ht : U n tag)
    (hf : alts.find tag = some t) (h : RdV bld t v w) : RdV bld (.choice n alts) (fun off => .choice tag (v ((off + n) % 8))) (seq [bits n tag, w]) := by
  intro off ho
  have hv := tag_val hn ht ho
  refine ⟨bits n tag off, w ((off + n) % 8), v ((off + n) % 8), ?_, bits_length _ _ ho, by omega, by rw [hv], ?_⟩
  · rw [seq, seq, seq, List.append_nil, bits_length _ _ ho]
  · rw [hv]
    exact rdv_find alts hf h _ (mod8 _)

theorem rdv_rd {bld : Build} {t : BTy} {v : Val} {w : Wire} (h : Rd bld t v w) : RdV bld t (fun _ => v) w := h

theorem rdv_mask {bld : Build} (m : SelectionMask) (h : FitsMask m) : RdV bld GameSSelectionMask (fun off => maskVal (heardMask off m)) (mask m) := by
  cases m with
  | none => exact rd_lay (lay_mask .none h trivial)
  | oneIndices l => exact rd_lay (lay_mask (.oneIndices l) h trivial)
  | zeroIndices l => exact rd_lay (lay_mask (.zeroIndices l) h trivial)
  | mask m =>
    have hl : 8 * m.length < 2 ^ 9 := h
    have hc : RdV bld GameSelectionMaskType (fun off => .bytes (match heardMask ((off + 6) % 8) (.mask m) with
        | .mask x => x
        | _ => [])) (seq [bits 9 (8 * m.length), bits (8 * m.length) (bigEndian m)]) := by
      intro off ho
      have hi : bitsVal off (bits 9 (8 * m.length) off) = 8 * m.length := by
        rw [show ((8 : Int) * m.length) = ((8 * m.length : Nat) : Int) by simp, bits]
        exact bitsVal_encBits _ _ _ ho (by omega)
      refine ⟨bits 9 (8 * m.length) off, bits (8 * m.length) (bigEndian m) ((off + 9) % 8), ?_, bits_length _ _ ho, by decide, ?_, ?_⟩
      · rw [seq, seq, seq, List.append_nil, bits_length _ _ ho]
      · rw [hi, bits_length _ _ (mod8 _)]
      · cases m with
        | nil =>
          rw [if_pos (by rw [← List.length_eq_zero_iff, bits_length _ _ (mod8 _)]; rfl)]
          rfl
        | cons b m =>
          rw [if_neg (by rw [← List.length_eq_zero_iff, bits_length _ _ (mod8 _)]; simp)]
          simp only [heardMask]
          rw [show ((off + 6) % 8 + 11) % 8 = (off + 9) % 8 by omega]
    have := rdv_choice (bld := bld) (alts := match GameSSelectionMask with | .choice _ a => a | _ => .nil) 2 (by decide) (tag := 1) (by decide +kernel) rfl hc
    intro off ho
    have h2 := this off ho
    simp only [mask]
    have e : ((off + 2) % 8 + 6) % 8 = off := by omega
    simp only [e] at h2
    cases m <;> exact h2

/-- `gameVal`, with the sequence number. [proof device, no counterpart in /repo] -/
def numVal : GameEvt → Int × Val
  | .other (.commandManagerState st (some x)) => (103, .struct [.choice (managerCode st) .unit, .some (.int x)])
  | e => gameVal e

theorem rdv_sup {bld : Build} {alts : BAlts} (hs : ∀ q ∈ supportedTypes, alts.find q.1 = some q.2) (i : Nat) {tag : Int} {t : BTy} {v : Nat → Val} {w : Wire}
    (hi : supportedTypes[i]? = some (tag, t)) (ht : U 7 tag) (h : RdV bld t v w) :
    RdV bld (.choice 7 alts) (fun off => .choice tag (v ((off + 7) % 8))) (seq [bits 7 tag, w]) :=
  rdv_choice 7 (by decide) ht (hs _ (List.mem_of_getElem? hi)) h

theorem game_heard {bld : Build} (version : Nat) (e : GameEvt) (h : GameFits (cmdFlagBits version) e) (hn : ¬ Numbered e) :
    RdV bld (gameEventTy version) (fun off => .choice (numVal (heardGame off e)).1 (numVal (heardGame off e)).2)
      (seq [bits 7 (gameBody (cmdFlagBits version) e).1, (gameBody (cmdFlagBits version) e).2]) := by
  have plain : Plain e → (∀ off, heardGame off e = e) → numVal e = gameVal e →
      RdV bld (gameEventTy version) (fun off => .choice (numVal (heardGame off e)).1 (numVal (heardGame off e)).2)
      (seq [bits 7 (gameBody (cmdFlagBits version) e).1, (gameBody (cmdFlagBits version) e).2]) := by
    intro hp hh hv off ho
    simp only [hh, hv]
    exact rd_lay (gameVal_lay version e h hp) off ho
  obtain ⟨alts, ha, hc, hs⟩ := gameEventTy_tab version
  cases e with
  | selectionDelta e =>
    obtain ⟨h1, h2, h3, h4, h5⟩ := h
    rw [ha]
    intro off ho
    have := rdv_sup (bld := bld) hs 2 rfl (by decide +kernel) (rdv_struct (rdv_bits (rd_u 4 (by decide) h1) (rdv_last (rdv_struct (rdv_bits (rd_u 9 (by decide) h2)
      (rdv_last (rdv_mask _ h3) (rd_cons (rd_lay (lay_many 9 (by decide) (fun g => lay_subgroup g) _ h4.1 h4.2))
      (rd_cons (rd_lay (lay_many 9 (by decide) (fun _ => lay_bits 32 (by decide)) _ h5.1 h5.2)) rd_nil))))) rd_nil))) off ho
    have e1 : (((off + 7) % 8 + 4) % 8 + 9) % 8 = (off + 20) % 8 := by omega
    simp only [e1] at this
    exact this
  | controlGroupUpdate e =>
    rw [ha]
    intro off ho
    have := rdv_sup (bld := bld) hs 3 rfl (by decide +kernel) (rdv_struct (rdv_bits (rd_u 4 (by decide) h.1) (rdv_bits (rd_lay (lay_update e.update))
      (rdv_last (rdv_mask _ h.2) rd_nil)))) off ho
    have e1 : (((off + 7) % 8 + 4) % 8 + 3) % 8 = (off + 14) % 8 := by omega
    simp only [e1] at this
    exact this
  | other o =>
    cases o with
    | triggerChatMessage s =>
      rw [ha]
      exact rdv_sup hs 5 rfl (by decide +kernel) (rdv_rd (rd_struct (rd_cons (rd_chars 11 (by decide) h) rd_nil)))
    | commandManagerState st sq =>
      cases sq with
      | none => exact plain rfl (fun _ => rfl) rfl
      | some x => exact absurd trivial hn
    | _ => exact plain trivial (fun _ => rfl) rfl
  | _ => exact plain trivial (fun _ => rfl) rfl

theorem altEnc_find {bld : Build} : (alts : BAlts) → {tag : Int} → {t : BTy} → {v : Val} → {u : List Bool} → {off : Nat} → alts.find tag = some t →
    BEnc bld t off v u → BAltEnc bld alts tag off v u
  | .nil, _, _, _, _, _, hf, _ => nomatch hf
  | .cons t0 ty rest, tag, t, v, u, off, hf, h => by
    rw [BAlts.find] at hf
    rw [BAltEnc]
    split at hf
    · rename_i e; cases hf; rw [if_pos e]; exact h
    · rename_i e; rw [if_neg e]; exact altEnc_find rest hf h

theorem manager_heard {bld : Build} (version : Nat) (st : CommandManagerState) (x : Int) (off : Nat) (ho : off < 8) :
    ∃ b last, b.length = 41 ∧ seq [bits 7 103, seq [bits 2 (managerCode st), opt (fun x => bits 32 (x - 1)) (some x)]] off = b ++ [last] ∧
      BEnc bld (gameEventTy version) off (.choice 103 (.struct [.choice (managerCode st) .unit, .some (.int (heardNumber ((off + 9) % 8) x))])) b := by
  obtain ⟨alts, ha, hc, hs⟩ := gameEventTy_tab version
  have hst : U 2 (managerCode st) := by cases st <;> decide +kernel
  have hl : (bits 32 (x - 1) ((off + 10) % 8)).length = 32 := bits_length _ _ (mod8 _)
  obtain ⟨last, hlast⟩ : ∃ last, bits 32 (x - 1) ((off + 10) % 8) = (bits 32 (x - 1) ((off + 10) % 8)).take 31 ++ [last] := by
    have h1 := (List.take_append_drop 31 (bits 32 (x - 1) ((off + 10) % 8))).symm
    have h2 : ((bits 32 (x - 1) ((off + 10) % 8)).drop 31).length = 1 := by rw [List.length_drop, hl]
    obtain ⟨a, h3⟩ := List.length_eq_one_iff.1 h2
    rw [h3] at h1
    exact ⟨a, h1⟩
  have ht : ((bits 32 (x - 1) ((off + 10) % 8)).take 31).length = 31 := by rw [List.length_take, hl]; rfl
  have e1 : (((off + 7) % 8 + 2) % 8) = (off + 9) % 8 := by omega
  have e2 : ((((off + 7) % 8 + 2) % 8 + 1) % 8) = (off + 10) % 8 := by omega
  refine ⟨bits 7 103 off ++ (bits 2 (managerCode st) ((off + 7) % 8) ++ true :: (bits 32 (x - 1) ((off + 10) % 8)).take 31), last, ?_, ?_, ?_⟩
  · simp only [List.length_append, List.length_cons, bits_length _ _ ho, bits_length _ _ (mod8 _), ht]
  · simp only [seq, opt, flag, bits_length _ _ ho, bits_length _ _ (mod8 _), List.append_nil, List.length_singleton, e2]
    simp only [List.append_assoc, List.cons_append, List.nil_append, ← hlast]
  · rw [ha]
    have hv := tag_val (n := 7) (by decide) (tag := 103) (by decide +kernel) ho
    refine ⟨bits 7 103 off, _, .struct [.choice (managerCode st) .unit, .some (.int (heardNumber ((off + 9) % 8) x))], rfl, bits_length _ _ ho, by decide, by rw [hv], ?_⟩
    rw [hv]
    have hf : alts.find 103 = some GameSCommandManagerStateEvent := hs _ (List.mem_of_getElem? (i := 17) rfl)
    refine altEnc_find alts hf ⟨_, rfl, .choice (managerCode st) .unit, _, bits 2 (managerCode st) ((off + 7) % 8),
      true :: (bits 32 (x - 1) ((off + 10) % 8)).take 31, rfl, rfl, ?_, .some (.int (heardNumber ((off + 9) % 8) x)), [], _, [], rfl, (List.append_nil _).symm, ?_, rfl, rfl⟩
    · exact rd_lay (lay_manager st) _ (mod8 _)
    · rw [bits_length _ _ (mod8 _), e1]
      refine .inr ⟨_, _, rfl, rfl, by decide, by rw [List.length_cons, ht], _, rfl, .inl ?_⟩
      have e3 : ((off + 9) % 8 + 1) % 8 = (off + 10) % 8 := by omega
      unfold heardNumber
      rw [e3]
      have := bitsVal_lt ((off + 9) % 8) (true :: (bits 32 (x - 1) ((off + 10) % 8)).take 31) (mod8 _)
      rw [List.length_cons, ht] at this
      rw [toI64_of_lt (Nat.lt_trans this (by decide))]
      refine ⟨?_, rfl⟩
      unfold inI64 i64Min i64Max
      omega

theorem startOf_eq (d : Int) : startOf d = ((gameDelta d 0).length + 5) % 8 := by
  have h (a b : Nat) (x y : Int) : (seq [bits a x, bits b y] 0).length = a + b := by
    simp only [seq, List.append_nil, List.length_append, bits_length _ _ (show 0 < 8 by decide), bits_length _ _ (mod8 _)]
  unfold startOf gameDelta
  by_cases h1 : d < 2 ^ 6
  · rw [if_pos h1, if_pos (by omega), h]
  · rw [if_neg h1]
    by_cases h2 : d < 2 ^ 14
    · rw [if_pos h2, if_pos (by omega), h]
    · rw [if_neg h2]
      by_cases h3 : d < 2 ^ 22
      · rw [if_pos h3, if_pos h3, h]
      · rw [if_neg h3, if_neg h3, h]

/-- One event on the wire whose last bits may be left out by the reader as long as they are in the last byte. -/
theorem triplet_at {bld : Build} {ty : BTy} {d u : Int} {v : Val} {w : Wire} {b extra : List Bool} (hd : U32 d) (hu : U 5 u) (hw : w (startOf d) = b ++ extra)
    (h : BEnc bld ty (startOf d) v b) (he : extra.length + padLen ((startOf d + b.length + extra.length) % 8) = padLen ((startOf d + b.length) % 8)) :
    TripletWire bld ty (d, u, v) (pack (seq [gameDelta d, seq [bits 5 u], w] 0)) := by
  obtain ⟨k, hk⟩ := delta_lay (bld := bld) d hd
  have hs := startOf_eq d
  have hu5 : (seq [bits 5 u] ((gameDelta d 0).length % 8)).length = 5 := by
    simp only [seq, List.append_nil, bits_length _ _ (mod8 _)]
  have e : seq [gameDelta d, seq [bits 5 u], w] 0 = gameDelta d 0 ++ (seq [bits 5 u] ((gameDelta d 0).length % 8) ++ (b ++ extra)) := by
    rw [← hw, hs]
    simp only [seq, List.append_nil, Nat.zero_add, bits_length 5 u (mod8 _), Nat.mod_add_mod]
  refine ⟨k, gameDelta d 0, seq [bits 5 u] ((gameDelta d 0).length % 8), b, extra ++ List.replicate (padLen ((startOf d + b.length + extra.length) % 8)) false, ?_,
    lay_BEnc hk (by decide), lay_BEnc (user_lay u hu) (mod8 _), ?_, ?_⟩
  · rw [pack_bits, e]
    have hl : (gameDelta d 0 ++ (seq [bits 5 u] ((gameDelta d 0).length % 8) ++ (b ++ extra))).length % 8 = (startOf d + b.length + extra.length) % 8 := by
      simp only [List.length_append, hu5]
      omega
    rw [hl]
    simp only [List.append_assoc]
  · rw [hu5, ← hs]
    exact h
  · rw [List.length_append, List.length_replicate, he, hu5]
    congr 1
    omega

theorem startOf_lt (d : Int) : startOf d < 8 := by unfold startOf; split <;> decide

theorem game_item_heard (bld : Build) (version : Nat) (p : Int × Int × GameEvt) (h : GameItemFits version p) (he : Ends p) :
    TripletWire bld (gameEventTy version) (p.1, p.2.1, .choice (numVal (heardItem p).2.2).1 (numVal (heardItem p).2.2).2) (gameItem version p) := by
  obtain ⟨d, u, e⟩ := p
  obtain ⟨h1, h2, h3⟩ := h
  by_cases hn : Numbered e
  · have hd : startOf d = 5 := if_pos (he hn)
    cases e with
    | other o =>
      cases o with
      | commandManagerState st sq =>
        cases sq with
        | none => exact hn.elim
        | some x =>
          obtain ⟨b, last, hb, hw, hv⟩ := manager_heard (bld := bld) version st x (startOf d) (startOf_lt d)
          exact triplet_at h1 h2 hw hv (by rw [hb, hd, List.length_singleton]; decide)
      | _ => exact hn.elim
    | _ => exact hn.elim
  · exact triplet_at (extra := []) h1 h2 (List.append_nil _).symm (game_heard version e h3 hn _ (startOf_lt d)) (by simp)

theorem numVal_conv (flags : Nat) (off : Nat) (e : GameEvt) (h : GameFits flags e) :
    convGame (.choice (numVal (heardGame off e)).1 (numVal (heardGame off e)).2) = .ok (heardGame off e) := by
  have plain : Plain e → heardGame off e = e → numVal e = gameVal e →
      convGame (.choice (numVal (heardGame off e)).1 (numVal (heardGame off e)).2) = .ok (heardGame off e) := by
    intro hp hh hv
    rw [hh, hv]
    exact gameVal_conv flags e h hp
  have mask (o : Nat) (m : SelectionMask) (hm : FitsMask m) : convMask (maskVal (heardMask o m)) = .ok (heardMask o m) := by
    cases m with
    | mask m => cases m <;> rfl
    | _ => exact conv_mask hm
  cases e with
  | selectionDelta e =>
    obtain ⟨h1, h2, h3, h4, h5⟩ := h
    simp only [heardGame, numVal, gameVal, convGame, convOther, Int.reduceEq, if_true, if_false, convSelectionDelta, conv_subgroups h4.2, ints_map, mask _ _ h3, Res.bind_ok, Res.pure_eq]
    rw [asU_in (by decide) h1, asU_in (by decide) h2, asU_list (Nat.le_refl _) h5.2]
  | controlGroupUpdate e =>
    simp only [heardGame, numVal, gameVal, convGame, convOther, Int.reduceEq, if_true, if_false, convControlGroup, conv_update, mask _ _ h.2, Res.bind_ok, Res.pure_eq]
    rw [asU_in (by decide) h.1]
  | other o =>
    cases o with
    | triggerChatMessage s =>
      simp only [heardGame, numVal, gameVal, convGame, convOther, Int.reduceEq, if_true, if_false, convTriggerChat, Res.bind_ok, Res.pure_eq]
      have hu : utf8Ok (noEmpty s) = true := by
        have := utf8_noEmpty h
        unfold fromUtf8 at this
        split at this
        · assumption
        · cases this
      rw [if_pos hu]
    | commandManagerState st sq =>
      cases sq with
      | none => exact plain rfl rfl rfl
      | some x =>
        simp only [heardGame, numVal, convGame, convOther, Int.reduceEq, if_true, if_false, convCommandManager, conv_manager, Res.bind_ok, Res.pure_eq, Val.optInt]
    | _ => exact plain trivial rfl rfl
  | _ => exact plain trivial rfl rfl

theorem heardItems_game_stream (bld : Build) (version : Nat) : (items : List (Int × Int × GameEvt)) → (∀ p ∈ items, GameItemFits version p ∧ Ends p) →
    Stream (TripletWire bld (gameEventTy version)) (items.map (fun p => (p.1, p.2.1, .choice (numVal (heardItem p).2.2).1 (numVal (heardItem p).2.2).2)))
      (items.flatMap (gameItem version))
  | [], _ => rfl
  | p :: ps, h => ⟨gameItem version p, ps.flatMap (gameItem version), rfl, game_item_heard bld version p (h p (by simp)).1 (h p (by simp)).2,
      heardItems_game_stream bld version ps (fun q hq => h q (List.mem_cons_of_mem _ hq))⟩

theorem heardItems_game_out (version : Nat) : (items : List (Int × Int × GameEvt)) → (∀ p ∈ items, GameItemFits version p ∧ Ends p) →
    (items.map (fun p => (p.1, p.2.1, Val.choice (numVal (heardItem p).2.2).1 (numVal (heardItem p).2.2).2))).filterMap gameOf = items.map heardItem
  | [], _ => rfl
  | p :: ps, h => by
    have hp : gameOf (p.1, p.2.1, Val.choice (numVal (heardItem p).2.2).1 (numVal (heardItem p).2.2).2) = some (heardItem p) := by
      unfold gameOf
      rw [show (heardItem p).2.2 = heardGame (startOf p.1) p.2.2 from rfl, numVal_conv _ _ p.2.2 (h p (by simp)).1.2.2]
      rfl
    rw [List.map_cons, List.filterMap_cons_some hp, List.map_cons, heardItems_game_out version ps (fun q hq => h q (List.mem_cons_of_mem _ hq))]

/-- **C178.** For every protocol version and every sequence of game events in the ranges of the description: one event is handed out for each of them, with
its user and time, with one zero byte in place of an empty text or mask, with the bits of a longer mask taken in groups of eight from where it starts, and with a
sequence number of the command manager read one bit too early. A sequence number 2²² loops or more after the event before is left out (`C178_derails`). -/
theorem C178_exactly (bld : Build) (version : Nat) (items : List (Int × Int × GameEvt)) (hne : items ≠ [])
    (h : ∀ p ∈ items, GameItemFits version p ∧ Ends p) (n : Nat) (hn : (items.flatMap (gameItem version)).length < n) :
    readGameEvents bld version n (items.flatMap (gameItem version)) = some (.ok (items.map heardItem)) := by
  rw [C30_game_stream bld version _ _ n (by simpa using hne) (heardItems_game_stream bld version items h) hn, heardItems_game_out version items h]

/-- **C178.** They are read as they were exactly when each of them is handed out as it is. -/
theorem C178_iff (bld : Build) (version : Nat) (items : List (Int × Int × GameEvt)) (hne : items ≠ [])
    (h : ∀ p ∈ items, GameItemFits version p ∧ Ends p) (n : Nat) (hn : (items.flatMap (gameItem version)).length < n) :
    readGameEvents bld version n (items.flatMap (gameItem version)) = some (.ok items) ↔ ∀ p ∈ items, heardGame (startOf p.1) p.2.2 = p.2.2 := by
  rw [C178_exactly bld version items hne h n hn, Option.some.injEq, Res.ok.injEq, map_eq_iff]
  refine forall₂_congr (fun p _ => ?_)
  obtain ⟨d, u, e⟩ := p
  simp [heardItem]

theorem plain_ends (p : Int × Int × GameEvt) (h : Plain p.2.2) : Ends p := by
  intro hn
  obtain ⟨d, u, e⟩ := p
  revert h hn
  unfold Plain Numbered
  split <;> simp_all

/-- **C178.** Events with a text that is not empty, masks of eight bits, and no sequence number are handed out as they are. -/
theorem C178_unchanged (version : Nat) (p : Int × Int × GameEvt) (h : GameItemFits version p) (hp : Plain p.2.2) : heardItem p = p := by
  have h1 := C178_exactly .release version [p] (List.cons_ne_nil _ _) (by simpa using ⟨h, plain_ends p hp⟩) _ (Nat.lt_succ_self _)
  have h2 := C178_game_partial .release version [p] (List.cons_ne_nil _ _) (by simpa using ⟨h, hp⟩) _ (Nat.lt_succ_self _)
  rw [h1] at h2
  simpa using h2

theorem bitsVal_step (off : Nat) (u v : List Bool) (ho : off < 8) (hu : u.length = 8 - off) (hv : 0 < v.length) :
    bitsVal off (u ++ v) = lsbVal u * 2 ^ v.length + bitsVal 0 v := by
  have hl : (u ++ v).length = (u.length + v.length - 1) + 1 := by rw [List.length_append]; omega
  unfold bitsVal
  rw [hl, bitsValF, if_neg (by rw [List.length_append]; omega), ← hu, List.take_left' rfl, List.drop_left' rfl, List.length_append,
    Nat.add_sub_cancel_left, bitsValF_fuel _ v.length 0 v (by decide) (by omega) (Nat.le_refl _)]

/-- **C178.** What becomes of a sequence number: bit 30 is set, bit 31 stays, the 24 bits from 7 on move down by one place, bit 6 is lost. -/
theorem C178_number (x : Int) (h : U 32 (x - 1)) :
    heardNumber 6 x = 1 + ((x - 1) / 2 ^ 31 * 2 ^ 31 + 2 ^ 30 + (x - 1) % 2 ^ 31 / 2 ^ 7 * 2 ^ 6 + (x - 1) % 2 ^ 6) := by
  obtain ⟨h0, h1⟩ := h
  obtain ⟨y, hy⟩ : ∃ y : Nat, x - 1 = y := ⟨(x - 1).toNat, (Int.toNat_of_nonneg h0).symm⟩
  have hy1 : y < 2 ^ 32 := by omega
  unfold heardNumber
  rw [hy]
  have he : bits 32 (y : Int) ((6 + 1) % 8) = lsbBits 1 (y / 2 ^ 31) ++ (lsbBits 8 (y % 2 ^ 31 / 2 ^ 23) ++ (lsbBits 8 (y % 2 ^ 31 % 2 ^ 23 / 2 ^ 15) ++
      (lsbBits 8 (y % 2 ^ 31 % 2 ^ 23 % 2 ^ 15 / 2 ^ 7) ++ lsbBits 7 (y % 2 ^ 31 % 2 ^ 23 % 2 ^ 15 % 2 ^ 7)))) := by
    unfold bits
    rw [Int.toNat_natCast]
    simp [encBits, encBitsF]
  have ht : (bits 32 (y : Int) ((6 + 1) % 8)).take 31 = lsbBits 1 (y / 2 ^ 31) ++ (lsbBits 8 (y % 2 ^ 31 / 2 ^ 23) ++ (lsbBits 8 (y % 2 ^ 31 % 2 ^ 23 / 2 ^ 15) ++
      (lsbBits 8 (y % 2 ^ 31 % 2 ^ 23 % 2 ^ 15 / 2 ^ 7) ++ lsbBits 6 (y % 2 ^ 31 % 2 ^ 23 % 2 ^ 15 % 2 ^ 7)))) := by
    rw [he]
    rfl
  rw [ht]
  have hb : bitsVal 6 (true :: (lsbBits 1 (y / 2 ^ 31) ++ (lsbBits 8 (y % 2 ^ 31 / 2 ^ 23) ++ (lsbBits 8 (y % 2 ^ 31 % 2 ^ 23 / 2 ^ 15) ++
      (lsbBits 8 (y % 2 ^ 31 % 2 ^ 23 % 2 ^ 15 / 2 ^ 7) ++ lsbBits 6 (y % 2 ^ 31 % 2 ^ 23 % 2 ^ 15 % 2 ^ 7)))))) =
      (1 + 2 * (y / 2 ^ 31 % 2 ^ 1)) * 2 ^ 30 + (y % 2 ^ 31 / 2 ^ 23 % 2 ^ 8 * 2 ^ 22 + (y % 2 ^ 31 % 2 ^ 23 / 2 ^ 15 % 2 ^ 8 * 2 ^ 14 +
        (y % 2 ^ 31 % 2 ^ 23 % 2 ^ 15 / 2 ^ 7 % 2 ^ 8 * 2 ^ 6 + y % 2 ^ 31 % 2 ^ 23 % 2 ^ 15 % 2 ^ 7 % 2 ^ 6))) := by
    rw [← List.cons_append, bitsVal_step 6 (true :: lsbBits 1 _) _ (by decide) rfl (by simp [lsbBits_length]), bitsVal_step 0 _ _ (by decide) (lsbBits_length ..) (by simp [lsbBits_length]),
      bitsVal_step 0 _ _ (by decide) (lsbBits_length ..) (by simp [lsbBits_length]), bitsVal_step 0 _ _ (by decide) (lsbBits_length ..) (by simp [lsbBits_length]),
      bitsVal_zero_off_byte _ (by rw [lsbBits_length]; decide)]
    simp only [lsbVal, lsbVal_lsbBits, List.length_append, lsbBits_length, Bool.toNat_true]
  have q1 : y % 2 ^ 31 / 2 ^ 7 = y % 2 ^ 31 / 2 ^ 23 * 2 ^ 16 + (y % 2 ^ 31 % 2 ^ 23 / 2 ^ 15 * 2 ^ 8 + y % 2 ^ 31 % 2 ^ 23 % 2 ^ 15 / 2 ^ 7) := by omega
  have q2 : y % 2 ^ 31 % 2 ^ 23 % 2 ^ 15 % 2 ^ 7 % 2 ^ 6 = y % 2 ^ 6 := by omega
  have q3 : y % 2 ^ 31 / 2 ^ 23 < 2 ^ 8 := by omega
  have q4 : y % 2 ^ 31 % 2 ^ 23 / 2 ^ 15 < 2 ^ 8 := by omega
  have q5 : y % 2 ^ 31 % 2 ^ 23 % 2 ^ 15 / 2 ^ 7 < 2 ^ 8 := by omega
  have q6 : y / 2 ^ 31 < 2 ^ 1 := by omega
  rw [Nat.mod_eq_of_lt q3, Nat.mod_eq_of_lt q4, Nat.mod_eq_of_lt q5, Nat.mod_eq_of_lt q6, q2] at hb
  have hc : bitsVal 6 (true :: (lsbBits 1 (y / 2 ^ 31) ++ (lsbBits 8 (y % 2 ^ 31 / 2 ^ 23) ++ (lsbBits 8 (y % 2 ^ 31 % 2 ^ 23 / 2 ^ 15) ++
      (lsbBits 8 (y % 2 ^ 31 % 2 ^ 23 % 2 ^ 15 / 2 ^ 7) ++ lsbBits 6 (y % 2 ^ 31 % 2 ^ 23 % 2 ^ 15 % 2 ^ 7)))))) =
      y / 2 ^ 31 * 2 ^ 31 + 2 ^ 30 + y % 2 ^ 31 / 2 ^ 7 * 2 ^ 6 + y % 2 ^ 6 := by
    rw [hb, q1]
    generalize y % 2 ^ 31 / 2 ^ 23 = z1
    generalize y % 2 ^ 31 % 2 ^ 23 / 2 ^ 15 = z2
    generalize y % 2 ^ 31 % 2 ^ 23 % 2 ^ 15 / 2 ^ 7 = z3
    omega
  rw [hc]
  omega

/-- **C178.** A sequence number that comes 2²² loops after the event before makes the whole file unreadable. -/
theorem C178_derails :
    GameItemFits 87702 (2 ^ 22, 1, .other (.commandManagerState .fireOnce (some 5))) ∧
    ∀ bld, readGameEvents bld 87702 100 (gameItem 87702 (2 ^ 22, 1, .other (.commandManagerState .fireOnce (some 5)))) = some (.err .eof) := by
  refine ⟨⟨?_, ?_, ?_⟩, fun bld => ?_⟩
  · decide +kernel
  · decide +kernel
  · intro a ha
    cases ha
    decide +kernel
  · cases bld <;> decide +kernel

example : ∀ p ∈ unplain.map (fun e => ((3, 1, e) : Int × Int × GameEvt)), GameItemFits 87702 p ∧ Ends p := by
  simp only [unplain, List.map, List.forall_mem_cons, GameItemFits, GameFits, FitsMask, Maybe, FitsText, Option.some.injEq, forall_eq', Ends, Numbered, true_imp_iff,
    false_imp_iff, and_true]
  refine ⟨?_, ?_, ?_, fun _ h => nomatch h⟩ <;> decide +kernel

example : unplain.map (heardGame 5) = [.other (.commandManagerState .fireOnce (some 1073741829)), .controlGroupUpdate ⟨1, .set, .mask [0x08, 0x74]⟩,
    .other (.triggerChatMessage [0])] := by decide +kernel

end S2
