import Verif.Props.InitLayout
import Verif.Spec.GameHeard
/-! # Exactly what is read of chat messages in the published layout (C179) -/
namespace S2
open P87702.BitPacked Published

theorem triplet_rd {bld : Build} {ty : BTy} {d u : Int} {v : Val} {w : Wire} (hd : U32 d) (hu : U 5 u) (h : Rd bld ty v w) :
    TripletWire bld ty (d, u, v) (pack (seq [gameDelta d, seq [bits 5 u], w] 0)) := by
  obtain ⟨k, hk⟩ := delta_lay (bld := bld) d hd
  refine ⟨k, gameDelta d 0, seq [bits 5 u] ((gameDelta d 0).length % 8), w (((gameDelta d 0).length + (seq [bits 5 u] ((gameDelta d 0).length % 8)).length) % 8),
    List.replicate (padLen (((gameDelta d 0).length + (seq [bits 5 u] ((gameDelta d 0).length % 8)).length +
      (w (((gameDelta d 0).length + (seq [bits 5 u] ((gameDelta d 0).length % 8)).length) % 8)).length) % 8)) false, ?_, lay_BEnc hk (by decide), lay_BEnc (user_lay u hu) (mod8 _),
    h _ (mod8 _), ?_⟩
  · rw [pack_bits]
    have e : seq [gameDelta d, seq [bits 5 u], w] 0 = gameDelta d 0 ++ (seq [bits 5 u] ((gameDelta d 0).length % 8) ++
      w (((gameDelta d 0).length + (seq [bits 5 u] ((gameDelta d 0).length % 8)).length) % 8)) := by
      simp only [seq, List.append_nil, Nat.zero_add, Nat.mod_add_mod]
    rw [e]
    simp only [List.append_assoc, List.length_append, Nat.add_assoc]
  · exact List.length_replicate ..

theorem rd_find {bld : Build} : (alts : BAlts) → {tag : Int} → {t : BTy} → {v : Val} → {w : Wire} → alts.find tag = some t → Rd bld t v w →
    ∀ off, off < 8 → BAltEnc bld alts tag off v (w off)
  | .nil, _, _, _, _, hf, _, _, _ => nomatch hf
  | .cons t0 ty rest, tag, t, v, w, hf, h, off, ho => by
    rw [BAlts.find] at hf
    rw [BAltEnc]
    split at hf
    · rename_i e; cases hf; rw [if_pos e]; exact h _ ho
    · rename_i e; rw [if_neg e]; exact rd_find rest hf h off ho

theorem rd_choice {bld : Build} {alts : BAlts} (n : Nat) (hn : n ≤ 32) {tag : Int} {t : BTy} {v : Val} {w : Wire} (ht : U n tag)
    (hf : alts.find tag = some t) (h : Rd bld t v w) : Rd bld (.choice n alts) (.choice tag v) (seq [bits n tag, w]) := by
  intro off ho
  have hp := pow_le_32 hn
  obtain ⟨h0, h1⟩ := ht
  have hx : tag.toNat < 2 ^ n := by
    rw [← Int.toNat_of_nonneg h0] at h1
    exact_mod_cast h1
  have hx2 : tag.toNat < 2 ^ 63 := Nat.lt_of_lt_of_le hx (Nat.pow_le_pow_right (by decide) (by omega))
  have hv : toI64 (bitsVal off (bits n tag off)) = tag := by
    rw [bits, bitsVal_encBits _ _ _ ho hx, toI64_of_lt hx2, Int.toNat_of_nonneg h0]
  refine ⟨bits n tag off, w ((off + n) % 8), v, ?_, encBits_length _ _ _ ho, by omega, by rw [hv], ?_⟩
  · rw [seq, seq, seq, List.append_nil]
    rw [show (bits n tag off).length = n from encBits_length _ _ _ ho]
  · rw [hv]
    exact rd_find alts hf h _ (mod8 _)

theorem chatVal_rd {bld : Build} (e : ChatEvt) (hr : 0 ≤ e.recipient ∧ e.recipient ≤ 4) (ht : FitsText 11 e.text) :
    Rd bld GameEMessageId (chatVal (heard e)) (seq [bits 4 0, seq [bits 3 e.recipient, chars 11 e.text]]) := by
  obtain ⟨r, s⟩ := e
  dsimp only at *
  refine rd_choice 4 (by decide) (by decide +kernel) rfl (rd_struct (fs := .cons "m_recipient" GameEMessageRecipient (.cons "m_string" (.blob 11) .nil))
    (rd_cons ?_ (rd_cons (rd_chars 11 (by decide) ht) rd_nil)))
  exact rd_upto 3 5 (by decide) (by decide) (by decide +kernel) (show Upto 5 r from ⟨hr.1, by have := hr.2; omega⟩)

theorem heardItems_stream (bld : Build) : (items : List (Int × Int × ChatEvt)) → (∀ p ∈ items, ChatItemFits p) →
    Stream (TripletWire bld GameEMessageId) (items.map (fun p => (p.1, p.2.1, chatVal (heard p.2.2)))) (items.flatMap chatItem)
  | [], _ => rfl
  | p :: ps, h => ⟨chatItem p, ps.flatMap chatItem, rfl,
      triplet_rd (h p (by simp)).1 (h p (by simp)).2.1 (chatVal_rd p.2.2 (h p (by simp)).2.2.1 (h p (by simp)).2.2.2),
      heardItems_stream bld ps (fun q hq => h q (List.mem_cons_of_mem _ hq))⟩

theorem heardItems_out : (items : List (Int × Int × ChatEvt)) → (∀ p ∈ items, ChatItemFits p) →
    (items.map (fun p => (p.1, p.2.1, chatVal (heard p.2.2)))).filterMap messageOf = items.map (fun p => (p.1, p.2.1, heard p.2.2))
  | [], _ => rfl
  | p :: ps, h => by
    have hp : messageOf (p.1, p.2.1, chatVal (heard p.2.2)) = some (p.1, p.2.1, heard p.2.2) := by
      unfold messageOf
      have hc : convMessage (chatVal (heard p.2.2)) = .ok (heard p.2.2) := by
        have := utf8_noEmpty (h p (by simp)).2.2.2
        simp only [convMessage, chatVal, heard, if_true, this, Res.bind_ok, Res.pure_eq]
      dsimp only
      rw [hc]
      rfl
    rw [List.map_cons, List.filterMap_cons_some hp, heardItems_out ps (fun q hq => h q (List.mem_cons_of_mem _ hq)), List.map_cons]

/-- **C179, exactly.** For every sequence of chat messages in range, empty or not: the bytes by the published layout are read back as these
messages with a zero byte in place of every empty text. -/
theorem C179_exactly (bld : Build) (items : List (Int × Int × ChatEvt)) (hne : items ≠ []) (h : ∀ p ∈ items, ChatItemFits p)
    (n : Nat) (hn : (items.flatMap chatItem).length < n) :
    readMessageEvents bld n (items.flatMap chatItem) = some (.ok (items.map (fun p => (p.1, p.2.1, heard p.2.2)))) := by
  rw [C30_message_stream bld _ _ n (by simpa using hne) (heardItems_stream bld items h) hn, heardItems_out items h]

theorem chatSample_fits : ∀ p ∈ [((3, 1, ⟨0, []⟩) : Int × Int × ChatEvt), (4, 2, ⟨1, str "gg"⟩)], ChatItemFits p := by
  simp only [List.forall_mem_cons]
  refine ⟨⟨?_, ?_, ?_, ?_, ?_⟩, ⟨?_, ?_, ?_, ?_, ?_⟩, fun _ h => nomatch h⟩ <;> decide +kernel

end S2
