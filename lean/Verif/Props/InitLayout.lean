import Verif.Props.InitData
import Verif.Props.Fields
import Verif.Props.DetailsLayout
import Verif.Props.GameLayout
import Verif.Spec.InitLayout
/-! # The init data is read by the published layout (C182) -/
namespace S2
open P87702.BitPacked Published

/-- At every bit offset, what the layout says is a wire form of the value. [proof device, no counterpart in /repo] -/
def Rd (bld : Build) (t : BTy) (v : Val) (w : Wire) : Prop := ∀ off, off < 8 → BEnc bld t off v (w off)
/-- Likewise for the members of a structure. [proof device, no counterpart in /repo] -/
def RdF (bld : Build) (fs : BFields) (vs : List Val) (ws : List Wire) : Prop := ∀ off, off < 8 → BFieldsEnc bld fs off vs (seq ws off)

theorem rd_lay {bld : Build} {t : BTy} {v : Val} {w : Wire} (h : Lay bld t v w) : Rd bld t v w := fun _ ho => lay_BEnc h ho
theorem rd_nil {bld : Build} : RdF bld .nil [] [] := fun _ _ => ⟨rfl, rfl⟩
theorem rd_cons {bld : Build} {name : String} {t : BTy} {rest : BFields} {v : Val} {vs : List Val} {w : Wire} {ws : List Wire}
    (h : Rd bld t v w) (hr : RdF bld rest vs ws) : RdF bld (.cons name t rest) (v :: vs) (w :: ws) :=
  fun off ho => ⟨v, vs, w off, seq ws ((off + (w off).length) % 8), rfl, rfl, h off ho, hr _ (mod8 _)⟩
theorem rd_struct {bld : Build} {fs : BFields} {vs : List Val} {ws : List Wire} (h : RdF bld fs vs ws) : Rd bld (.struct fs) (.struct vs) (seq ws) :=
  fun off ho => ⟨vs, rfl, h off ho⟩
theorem rd_opt {bld : Build} {α : Type} {P : α → Prop} {f : α → Val} {g : α → Wire} {t : BTy} (h : ∀ a, P a → Rd bld t (f a) (g a))
    {o : Option α} (ho : Maybe P o) : Rd bld (.opt t) (optV f o) (opt g o) := by
  cases o with
  | none => exact fun _ _ => .inl ⟨rfl, rfl⟩
  | some a =>
    refine fun off _ => .inr ⟨_, g a ((off + 1) % 8), rfl, ?_, h a (ho a rfl) _ (mod8 _)⟩
    simp [opt, seq, flag]

theorem bits_nat (n k off : Nat) : bits n k off = encBits off n k := by unfold bits; rw [Int.toNat_natCast]

theorem rd_seq {bld : Build} {α : Type} {f : α → Val} {g : α → Wire} {t : BTy} : (xs : List α) → (∀ a ∈ xs, Rd bld t (f a) (g a)) →
    ∀ off, off < 8 → SeqEnc (fun o w d => BEnc bld t o w d) off (xs.map f) (seq (xs.map g) off)
  | [], _, _, _ => rfl
  | x :: xs, h, off, ho => ⟨g x off, _, rfl, h x (by simp) off ho, rd_seq xs (fun a ha => h a (List.mem_cons_of_mem _ ha)) _ (mod8 _)⟩

theorem rd_many {bld : Build} {α : Type} {P : α → Prop} {f : α → Val} {g : α → Wire} {t : BTy} (n : Nat) (hn : n ≤ 64)
    (h : ∀ a, P a → Rd bld t (f a) (g a)) {xs : List α} (hx : FitsMany n P xs) : Rd bld (.arr n t) (.list (xs.map f)) (many n g xs) := by
  intro off ho
  refine ⟨bits n xs.length off, _, xs.map f, rfl, ?_, hn, ?_, rfl, ?_⟩
  · rw [bits_nat, encBits_length _ _ _ ho]
  · rw [bits_nat, bitsVal_encBits _ _ _ ho hx.1, List.length_map]
  · rw [bits_nat, encBits_length _ _ _ ho]
    exact rd_seq xs (fun a ha => h a (hx.2 a ha)) _ (mod8 _)

theorem rd_chars {bld : Build} (n : Nat) (hn : n ≤ 64) {s : Str} (h : FitsText n s) : Rd bld (.blob n) (.bytes (noEmpty s)) (chars n s) := by
  intro off ho
  refine ⟨bits n s.length off, List.replicate (padLen ((off + n) % 8)) false, s, ?_, ?_, hn, List.length_replicate .., ?_, rfl⟩
  · simp only [chars, seq, bits_nat, encBits_length _ _ _ ho, List.append_nil]
  · rw [bits_nat, encBits_length _ _ _ ho]
  · rw [bits_nat, bitsVal_encBits _ _ _ ho h.2]

theorem rd_handle {bld : Build} {bs : List UInt8} (h : FitsHandle bs) : Rd bld (.aligned 40) (.bytes bs) (handle bs) := by
  intro off _
  refine ⟨List.replicate (padLen off) false, bs, by simp [handle, seq], List.length_replicate .., h, ?_⟩
  have : bs ≠ [] := by rintro rfl; simp [FitsHandle] at h
  rw [zeroFix, if_neg this]

theorem rd_sized {bld : Build} (n : Nat) (hn : n ≤ 64) {len : Nat} {x : Int} (h : FitsNumbered n len x) : Rd bld (.bitsI64 n) (.int x) (sized n len x) := by
  intro off ho
  obtain ⟨h1, h2, h3, h4⟩ := h
  have hx : x.toNat < 2 ^ len := by
    rw [← Int.toNat_of_nonneg h3] at h4
    exact_mod_cast h4
  have hx2 : x.toNat < 2 ^ 63 := Nat.lt_of_lt_of_le hx (Nat.pow_le_pow_right (by decide) (by omega))
  refine ⟨bits n len off, bits len x ((off + n) % 8), ?_, ?_, hn, ?_, ?_, ?_⟩
  · simp only [sized, seq, bits_nat, encBits_length _ _ _ ho, List.append_nil]
  · rw [bits_nat, encBits_length _ _ _ ho]
  · rw [bits_nat, bitsVal_encBits _ _ _ ho h1]; exact encBits_length _ _ _ (mod8 _)
  · rw [bits, encBits_length _ _ _ (mod8 _)]; omega
  · rw [bits, bitsVal_encBits _ _ _ (mod8 _) hx, toI64_of_lt hx2, Int.toNat_of_nonneg h3]

theorem groups_length : (bs : List UInt8) → (len off : Nat) → off < 8 → FitsGroups len bs → (seq (groups len bs) off).length = len
  | [], _, _, _, h => by rw [FitsGroups] at h; subst h; rfl
  | b :: bs, len, off, ho, h => by
    obtain ⟨h1, h2, h3⟩ := h
    rw [groups, seq, List.length_append, groups_length bs _ _ (mod8 _) h3, bits_nat, encBits_length _ _ _ ho]
    omega

theorem bitArrF_groups : (bs : List UInt8) → bs ≠ [] → (f len off : Nat) → off < 8 → len ≤ f → FitsGroups len bs →
    bitArrF f off (seq (groups len bs) off) = bs
  | [], h0, _, _, _, _, _, _ => absurd rfl h0
  | b :: bs, _, f, len, off, ho, hf, h => by
    have hl := groups_length (b :: bs) len off ho h
    obtain ⟨h1, h2, h3⟩ := h
    obtain ⟨f, rfl⟩ : ∃ k, f = k + 1 := ⟨f - 1, by omega⟩
    rw [bitArrF, hl]
    have hb : (bits (min 8 len) b.toNat off).length = min 8 len := by rw [bits_nat, encBits_length _ _ _ ho]
    by_cases hc : len ≤ 8
    · rw [if_pos hc]
      have h0 : len - 8 = 0 := by omega
      rw [h0] at h3
      cases bs with
      | nil =>
        rw [groups, seq, groups, seq, List.append_nil, bits_nat, bitsVal_encBits _ _ _ ho h2]
        simp
      | cons c cs => exact absurd h3.1 (by omega)
    · rw [if_neg hc]
      have hm : min 8 len = 8 := by omega
      rw [groups, seq]
      rw [hm] at hb h2 ⊢
      rw [List.take_left' hb, List.drop_left' hb, hb]
      have hne : bs ≠ [] := by rintro rfl; rw [FitsGroups] at h3; omega
      have ho8 : (off + 8) % 8 = off := by omega
      rw [ho8, bitArrF_groups bs hne f (len - 8) off ho (by omega) h3, bits_nat, bitsVal_encBits _ _ _ ho h2]
      simp

theorem rd_bytewise {bld : Build} (n : Nat) (hn : n ≤ 64) {len : Nat} {bs : List UInt8} (h : FitsBytewise n len bs) :
    Rd bld (.bitsVec n) (.bytes bs) (bytewise n len bs) := by
  intro off ho
  obtain ⟨h0, h1, h2⟩ := h
  have hne : bs ≠ [] := by rintro rfl; rw [FitsGroups] at h2; omega
  have hd := groups_length bs len ((off + n) % 8) (mod8 _) h2
  refine ⟨bits n len off, seq (groups len bs) ((off + n) % 8), ?_, ?_, hn, ?_, ?_⟩
  · simp only [bytewise, seq, bits_nat, encBits_length _ _ _ ho]
  · rw [bits_nat, encBits_length _ _ _ ho]
  · rw [hd, bits_nat, bitsVal_encBits _ _ _ ho h1]
  · rw [if_neg (by intro e; rw [e] at hd; simp at hd; omega), bitArr, hd, bitArrF_groups bs hne _ _ _ (mod8 _) (Nat.le_refl _) h2]

/-- The variant carries nothing. [proof device, no counterpart in /repo] -/
def plainAlt (alts : BAlts) (k : Int) : Bool := match alts.find k with | some .null => true | _ => false

theorem rd_upto {bld : Build} {alts : BAlts} (n m : Nat) (hn : n ≤ 32) (hm : m ≤ 2 ^ n) (hf : ∀ k : Nat, k < m → plainAlt alts k = true) {x : Int} (h : Upto m x) :
    Rd bld (.choice n alts) (.choice x .unit) (bits n x) := by
  obtain ⟨h0, h1⟩ := h
  have h2 : ((2 ^ n : Nat) : Int) = 2 ^ n := by simp
  have : U n x := ⟨h0, by have : (m : Int) ≤ ((2 ^ n : Nat) : Int) := Int.ofNat_le.2 hm; omega⟩
  refine rd_lay (lay_enum n hn this ?_)
  have hk := hf x.toNat (by omega)
  rw [Int.toNat_of_nonneg h0, plainAlt] at hk
  split at hk
  · assumption
  · cases hk

theorem rd_u64 {bld : Build} {x : Int} (h : U 63 x) : Rd bld (.int 0 64) (.int x) (bits 64 x) := by
  intro off ho
  obtain ⟨h0, h1⟩ := h
  have hx : x.toNat < 2 ^ 63 := by omega
  refine ⟨by decide, encBits_length _ _ _ ho, x, rfl, .inl ?_⟩
  rw [bits, bitsVal_encBits _ _ _ ho (by omega), toI64_of_lt hx, Int.toNat_of_nonneg h0]
  refine ⟨?_, by omega⟩
  unfold inI64 i64Min i64Max; omega

theorem rd_u {bld : Build} (n : Nat) (hn : n ≤ 32) {x : Int} (h : U n x) : Rd bld (.int 0 n) (.int x) (bits n x) := rd_lay (lay_bits n hn h)
theorem rd_one {bld : Build} (n : Nat) (hn : n ≤ 32) {x : Int} (h : U n (x - 1)) : Rd bld (.int 1 n) (.int x) (fromOne n x) :=
  rd_lay (lay_excess 1 n hn (by decide) h)
theorem rd_bool {bld : Build} (b : Bool) : Rd bld .bool (.bool b) (flag b) := rd_lay (lay_bool b)
theorem rd_i32 {bld : Build} {x : Int} (h : I 32 x) : Rd bld (.int (-2147483648) 32) (.int x) (signed 32 x) := rd_lay (lay_i32 h)


/-- A text as it is handed out. [proof device, no counterpart in /repo] -/
def txtVal (s : Str) : Val := .bytes (noEmpty s)
/-- A vector of numbers. [proof device, no counterpart in /repo] -/
def u32sVal (l : List Int) : Val := .list (l.map .int)

/-- The decoded form of a user. [proof device, no counterpart in /repo] -/
def initUserVal (u : UserInit) : Val :=
  .struct [txtVal u.name, optV txtVal u.clanTag, optV .bytes u.clanLogo, optV .int u.highestLeague, optV .int u.combinedRaceLevels,
    .int u.randomSeed, .struct [optV .int u.racePreference], .struct [optV .int u.teamPreference], .bool u.testMap, .bool u.testAuto,
    .bool u.examine, .bool u.customInterface, .int u.testType, .choice u.observe .unit, txtVal u.hero, txtVal u.skin, txtVal u.mount,
    txtVal u.toonHandle, optV .int u.scaledRating]
/-- The decoded form of the options. [proof device, no counterpart in /repo] -/
def optionsVal (o : GameOptions) : Val :=
  .struct [.bool o.lockTeams, .bool o.teamsTogether, .bool o.advancedSharedControl, .bool o.randomRaces, .bool o.battleNet, .bool o.amm,
    .bool o.competitive, .bool o.practice, .bool o.cooperative, .bool o.noVictoryOrDefeat, .bool o.heroDuplicatesAllowed, .choice o.fog .unit,
    .choice o.observers .unit, .choice o.userDifficulty .unit, .int o.clientDebugFlags, .bool o.buildCoachEnabled]
/-- The decoded form of what is allowed in a slot. [proof device, no counterpart in /repo] -/
def slotDescriptionVal (p : SlotDescription × SlotBits) : Val :=
  .struct [.int p.1.allowedColors, .int p.1.allowedRaces, .int p.1.allowedDifficulty, .bytes p.1.allowedControls, .int p.1.allowedObserveTypes,
    .bytes p.1.allowedAiBuilds]
/-- The decoded form of the description. [proof device, no counterpart in /repo] -/
def descriptionVal (slots : List (SlotDescription × SlotBits)) (handles : List (List UInt8)) (d : GameDescription) : Val :=
  .struct [.int d.randomValue, txtVal d.gameCacheName, optionsVal d.gameOptions, .choice d.gameSpeed .unit, .choice d.gameType .unit,
    .int d.maxUsers, .int d.maxObservers, .int d.maxPlayers, .int d.maxTeams, .int d.maxColors, .int d.maxRaces, .int d.maxControls,
    .int d.mapSizeX, .int d.mapSizeY, .int d.mapFileSyncChecksum, txtVal d.mapFileName, txtVal d.mapAuthorName, .int d.modFileSyncChecksum,
    .list (slots.map slotDescriptionVal), .int d.defaultDifficulty, .int d.defaultAiBuild, .list (handles.map .bytes), .bool d.hasExtensionMod,
    .bool d.hasNonBlizzardExtensionMod, .bool d.isBlizzardMap, .bool d.isPremadeFfa, .bool d.isCoopMode, .bool d.isRealtimeMode]
/-- The decoded form of a reward override. [proof device, no counterpart in /repo] -/
def overrideVal (o : RewardOverride) : Val := .struct [.int o.key, u32sVal o.rewards]
/-- The decoded form of a slot of the lobby. [proof device, no counterpart in /repo] -/
def lobbySlotVal (s : LobbySlot) : Val :=
  .struct [.int s.control, optV .int s.userId, .int s.teamId, .struct [optV .int s.colorPref], .struct [optV .int s.racePref], .int s.difficulty,
    .int s.aiBuild, .int s.handicap, .choice s.observe .unit, .int s.logoIndex, txtVal s.hero, txtVal s.skin, txtVal s.mount,
    .list (s.artifacts.map txtVal), optV .int s.workingSetSlotId, u32sVal s.rewards, txtVal s.toonHandle, u32sVal s.licenses,
    optV .int s.tandemLeaderId, txtVal s.commander, .int s.commanderLevel, .bool s.hasSilencePenalty, optV .int s.tandemId,
    .int s.commanderMasteryLevel, u32sVal s.commanderMasteryTalents, .int s.trophyId, .list (s.rewardOverrides.map overrideVal),
    .int s.brutalPlusDifficulty, u32sVal s.retryMutationIndexes, .int s.acEnemyRace, .int s.acEnemyWaveType, .int s.selectedCommanderPrestige]
/-- The decoded form of the lobby. [proof device, no counterpart in /repo] -/
def lobbyVal (l : LobbyState) : Val :=
  .struct [.choice l.phase .unit, .int l.maxUsers, .int l.maxObservers, .list (l.slots.map lobbySlotVal), .int l.randomSeed, optV .int l.hostUserId,
    .bool l.isSinglePlayer, .int l.pickedMapTag, .int l.gameDuration, .int l.defaultDifficulty, .int l.defaultAiBuild]
/-- The decoded form of the init data. [proof device, no counterpart in /repo] -/
def initVal (slots : List (SlotDescription × SlotBits)) (handles : List (List UInt8)) (d : LobbySync) : Val :=
  .struct [.struct [.list (d.users.map initUserVal), descriptionVal slots handles d.description, lobbyVal d.lobby]]

theorem rd_one_of {bld : Build} {name : String} {t : BTy} {v : Val} {w : Wire} (h : Rd bld t v w) : Rd bld (.struct (.cons name t .nil)) (.struct [v]) w := by
  intro off ho
  have := rd_struct (rd_cons (name := name) h rd_nil) off ho
  rwa [show seq [w] off = w off by simp [seq]] at this

theorem rd_init_user {bld : Build} (u : UserInit) (h : FitsInitUser u) : Rd bld SUserInitialData (initUserVal u) (initUser u) := by
  obtain ⟨h1, h2, h3, h4, h5, h6, h7, h8, h9, h10, h11, h12, h13, h14, h15⟩ := h
  exact rd_struct (rd_cons (rd_chars 8 (by decide) h1) (rd_cons (rd_opt (fun _ => rd_chars 8 (by decide)) h2) (rd_cons (rd_opt (fun _ => rd_handle) h3)
    (rd_cons (rd_opt (fun _ => rd_u 8 (by decide)) h4) (rd_cons (rd_opt (fun _ => rd_u 32 (by decide)) h5) (rd_cons (rd_u 32 (by decide) h6)
    (rd_cons (rd_one_of (rd_opt (fun _ => rd_u 8 (by decide)) h7)) (rd_cons (rd_one_of (rd_opt (fun _ => rd_u 8 (by decide)) h8))
    (rd_cons (rd_bool _) (rd_cons (rd_bool _) (rd_cons (rd_bool _) (rd_cons (rd_bool _) (rd_cons (rd_u 32 (by decide) h9)
    (rd_cons (rd_upto 2 3 (by decide) (by decide) (by decide +kernel) h10) (rd_cons (rd_chars 9 (by decide) h11) (rd_cons (rd_chars 9 (by decide) h12)
    (rd_cons (rd_chars 9 (by decide) h13) (rd_cons (rd_chars 7 (by decide) h14) (rd_cons (rd_opt (fun _ => rd_i32) h15) rd_nil)))))))))))))))))))

theorem rd_options {bld : Build} (o : GameOptions) (h : FitsOptions o) : Rd bld GameSGameOptions (optionsVal o) (options o) := by
  obtain ⟨h1, h2, h3, h4⟩ := h
  exact rd_struct (rd_cons (rd_bool _) (rd_cons (rd_bool _) (rd_cons (rd_bool _) (rd_cons (rd_bool _) (rd_cons (rd_bool _) (rd_cons (rd_bool _)
    (rd_cons (rd_bool _) (rd_cons (rd_bool _) (rd_cons (rd_bool _) (rd_cons (rd_bool _) (rd_cons (rd_bool _)
    (rd_cons (rd_upto 2 4 (by decide) (by decide) (by decide +kernel) h1) (rd_cons (rd_upto 2 4 (by decide) (by decide) (by decide +kernel) h2)
    (rd_cons (rd_upto 2 3 (by decide) (by decide) (by decide +kernel) h3) (rd_cons (rd_u64 h4) (rd_cons (rd_bool _) rd_nil))))))))))))))))

theorem rd_slot_description {bld : Build} (p : SlotDescription × SlotBits) (h : FitsSlotDescription p) :
    Rd bld GameSSlotDescription (slotDescriptionVal p) (slotDescription p) := by
  obtain ⟨h1, h2, h3, h4, h5, h6⟩ := h
  exact rd_struct (rd_cons (rd_sized 6 (by decide) h1) (rd_cons (rd_sized 8 (by decide) h2) (rd_cons (rd_sized 6 (by decide) h3)
    (rd_cons (rd_bytewise 8 (by decide) h4) (rd_cons (rd_sized 2 (by decide) h5) (rd_cons (rd_bytewise 8 (by decide) h6) rd_nil))))))

theorem rd_description {bld : Build} (slots : List (SlotDescription × SlotBits)) (handles : List (List UInt8)) (d : GameDescription)
    (h : FitsDescription slots handles d) : Rd bld GameSGameDescription (descriptionVal slots handles d) (description slots handles d) := by
  obtain ⟨h1, h2, h3, h4, h5, h6, h7, h8, h9, h10, h11, h12, h13, h14, h15, h16, h17, h18, h19, _, h20, h21, h22, _⟩ := h
  exact rd_struct (rd_cons (rd_u 32 (by decide) h1) (rd_cons (rd_chars 11 (by decide) h2) (rd_cons (rd_options _ h3)
    (rd_cons (rd_upto 3 5 (by decide) (by decide) (by decide +kernel) h4) (rd_cons (rd_upto 3 7 (by decide) (by decide) (by decide +kernel) h5)
    (rd_cons (rd_u 5 (by decide) h6) (rd_cons (rd_u 5 (by decide) h7) (rd_cons (rd_u 5 (by decide) h8) (rd_cons (rd_one 5 (by decide) h9)
    (rd_cons (rd_u 6 (by decide) h10) (rd_cons (rd_one 8 (by decide) h11) (rd_cons (rd_u 8 (by decide) h12) (rd_cons (rd_u 8 (by decide) h13)
    (rd_cons (rd_u 8 (by decide) h14) (rd_cons (rd_u 32 (by decide) h15) (rd_cons (rd_chars 11 (by decide) h16) (rd_cons (rd_chars 8 (by decide) h17)
    (rd_cons (rd_u 32 (by decide) h18) (rd_cons (rd_many 5 (by decide) rd_slot_description h19) (rd_cons (rd_u 6 (by decide) h20)
    (rd_cons (rd_u 8 (by decide) h21) (rd_cons (rd_many 6 (by decide) (fun _ => rd_handle) h22) (rd_cons (rd_bool _) (rd_cons (rd_bool _)
    (rd_cons (rd_bool _) (rd_cons (rd_bool _) (rd_cons (rd_bool _) (rd_cons (rd_bool _) rd_nil))))))))))))))))))))))))))))

theorem rd_override {bld : Build} (o : RewardOverride) (h : FitsOverride o) : Rd bld GameCRewardOverride (overrideVal o) (override o) :=
  rd_struct (rd_cons (rd_u 32 (by decide) h.1) (rd_cons (rd_many 17 (by decide) (fun _ => rd_u 32 (by decide)) h.2) rd_nil))

theorem rd_lobby_slot {bld : Build} (s : LobbySlot) (h : FitsLobbySlot s) : Rd bld GameSLobbySlot (lobbySlotVal s) (lobbySlot s) := by
  obtain ⟨h1, h2, h3, h4, h5, h6, h7, h8, h9, h10, h11, h12, h13, h14, h15, h16, h17, h18, h19, h20, h21, h22, h23, h24, h25, h26, h27, h28, h29,
    h30, h31⟩ := h
  exact rd_struct (rd_cons (rd_u 8 (by decide) h1) (rd_cons (rd_opt (fun _ => rd_u 4 (by decide)) h2) (rd_cons (rd_u 4 (by decide) h3)
    (rd_cons (rd_one_of (rd_opt (fun _ => rd_u 5 (by decide)) h4)) (rd_cons (rd_one_of (rd_opt (fun _ => rd_u 8 (by decide)) h5))
    (rd_cons (rd_u 6 (by decide) h6) (rd_cons (rd_u 8 (by decide) h7) (rd_cons (rd_u 32 (by decide) h8)
    (rd_cons (rd_upto 2 3 (by decide) (by decide) (by decide +kernel) h9) (rd_cons (rd_u 32 (by decide) h10) (rd_cons (rd_chars 9 (by decide) h11)
    (rd_cons (rd_chars 9 (by decide) h12) (rd_cons (rd_chars 9 (by decide) h13) (rd_cons (rd_many 4 (by decide) (fun _ => rd_chars 9 (by decide)) h14)
    (rd_cons (rd_opt (fun _ => rd_u 8 (by decide)) h15) (rd_cons (rd_many 17 (by decide) (fun _ => rd_u 32 (by decide)) h16)
    (rd_cons (rd_chars 7 (by decide) h17) (rd_cons (rd_many 16 (by decide) (fun _ => rd_u 32 (by decide)) h18)
    (rd_cons (rd_opt (fun _ => rd_u 4 (by decide)) h19) (rd_cons (rd_chars 9 (by decide) h20) (rd_cons (rd_u 32 (by decide) h21)
    (rd_cons (rd_bool _) (rd_cons (rd_opt (fun _ => rd_u 4 (by decide)) h22) (rd_cons (rd_u 32 (by decide) h23)
    (rd_cons (rd_many 3 (by decide) (fun _ => rd_u 32 (by decide)) h24) (rd_cons (rd_u 32 (by decide) h25)
    (rd_cons (rd_many 17 (by decide) rd_override h26) (rd_cons (rd_u 32 (by decide) h27) (rd_cons (rd_many 3 (by decide) (fun _ => rd_u 32 (by decide)) h28)
    (rd_cons (rd_u 32 (by decide) h29) (rd_cons (rd_u 32 (by decide) h30) (rd_cons (rd_u 32 (by decide) h31) rd_nil))))))))))))))))))))))))))))))))

theorem rd_lobby {bld : Build} (l : LobbyState) (h : FitsLobby l) : Rd bld GameSLobbyState (lobbyVal l) (lobby l) := by
  obtain ⟨h1, h2, h3, h4, h5, h6, h7, h8, h9, h10⟩ := h
  exact rd_struct (rd_cons (rd_upto 3 6 (by decide) (by decide) (by decide +kernel) h1) (rd_cons (rd_u 5 (by decide) h2) (rd_cons (rd_u 5 (by decide) h3)
    (rd_cons (rd_many 5 (by decide) rd_lobby_slot h4) (rd_cons (rd_u 32 (by decide) h5) (rd_cons (rd_opt (fun _ => rd_u 4 (by decide)) h6)
    (rd_cons (rd_bool _) (rd_cons (rd_u 8 (by decide) h7) (rd_cons (rd_u 32 (by decide) h8) (rd_cons (rd_u 6 (by decide) h9)
    (rd_cons (rd_u 8 (by decide) h10) rd_nil)))))))))))

theorem rd_init {bld : Build} (slots : List (SlotDescription × SlotBits)) (handles : List (List UInt8)) (d : LobbySync) (h : InitFits slots handles d) :
    Rd bld ReplaySInitData (initVal slots handles d) (initData slots handles d) :=
  rd_one_of (rd_struct (rd_cons (rd_many 5 (by decide) rd_init_user h.1) (rd_cons (rd_description slots handles _ h.2.1) (rd_cons (rd_lobby _ h.2.2) rd_nil))))

/-! ## The conversions -/

theorem utf8_noEmpty {n : Nat} {s : Str} (h : FitsText n s) : fromUtf8 (noEmpty s) = .ok (noEmpty s) := by
  unfold fromUtf8
  rw [if_pos]
  unfold noEmpty
  split
  · decide
  · exact h.1

theorem optBytes_txt (o : Option Str) : (optV txtVal o).optBytes = .ok (o.map noEmpty) := by cases o <;> rfl
theorem convOptText_map {n : Nat} {o : Option Str} (h : Maybe (FitsText n) o) : convOptText (o.map noEmpty) = .ok (o.map noEmpty) := by
  cases o with
  | none => rfl
  | some s => show (fromUtf8 (noEmpty s)).bind _ = _; rw [utf8_noEmpty (h s rfl)]; rfl

theorem convAll_map {α β : Type} {f : α → Val} {g : Val → Res β} {r : α → β} : (l : List α) → (∀ a ∈ l, g (f a) = .ok (r a)) →
    convAll g (l.map f) = .ok (l.map r)
  | [], _ => rfl
  | a :: l, h => by
    rw [List.map_cons, convAll, h a (by simp), Res.bind_ok, convAll_map l (fun b hb => h b (List.mem_cons_of_mem _ hb))]; rfl

theorem convU32s_map {n : Nat} {l : List Int} (h : FitsMany n (U 32) l) : convU32s (u32sVal l) = .ok l := by
  show (Val.ints (l.map .int)).bind _ = _
  rw [ints_map]
  show Res.ok (l.map (asU 32)) = _
  rw [asU_list (Nat.le_refl 32) h.2]

theorem convPref_opt (o : Option Int) : convPref (.struct [optV .int o]) = .ok o := optInt_optV o
theorem convEnum_upto {n : Nat} {x : Int} (h : Upto n x) : convEnum n (.choice x .unit) = .ok x := by
  exact if_pos h

theorem asI32_opt {o : Option Int} (h : Maybe (I 32) o) : o.map asI32 = o := by
  cases o with
  | none => rfl
  | some x => rw [Option.map_some, asI32_in (h x rfl)]

theorem conv_init_user (u : UserInit) (h : FitsInitUser u) : convUser (initUserVal u) = .ok (UserInit.noEmpty u) := by
  obtain ⟨h1, h2, h3, h4, h5, h6, h7, h8, h9, h10, h11, h12, h13, h14, h15⟩ := h
  unfold initUserVal convUser
  simp only [txtVal]
  simp only [utf8_noEmpty h1, optBytes_txt, convOptText_map h2, optBytes_optV, optInt_optV, convPref_opt, convEnum_upto h10, utf8_noEmpty h11,
    utf8_noEmpty h12, utf8_noEmpty h13, utf8_noEmpty h14, Res.bind_ok, asU_opt (Nat.le_refl 8) h4, asU_opt (Nat.le_refl 32) h5,
    asU_in (Nat.le_refl 32) h6, asU_opt (Nat.le_refl 8) h8, asU_in (Nat.le_refl 32) h9, asI32_opt h15]
  rfl


theorem conv_options (o : GameOptions) (h : FitsOptions o) : convOptions (optionsVal o) = .ok o := by
  obtain ⟨h1, h2, h3, h4⟩ := h
  unfold optionsVal convOptions
  simp only [convEnum_upto h1, convEnum_upto h2, convEnum_upto h3, Res.bind_ok]
  rfl

theorem conv_slot_descriptions (slots : List (SlotDescription × SlotBits)) : convAll convSlotDescription (slots.map slotDescriptionVal) = .ok (slots.map (·.1)) :=
  convAll_map slots (fun _ _ => rfl)

theorem conv_description (slots : List (SlotDescription × SlotBits)) (handles : List (List UInt8)) (d : GameDescription)
    (h : FitsDescription slots handles d) : convDescription (descriptionVal slots handles d) =
      .ok { d with gameCacheName := noEmpty d.gameCacheName, mapFileName := noEmpty d.mapFileName, mapAuthorName := noEmpty d.mapAuthorName } := by
  obtain ⟨h1, h2, h3, h4, h5, h6, h7, h8, h9, h10, h11, h12, h13, h14, h15, h16, h17, h18, h19, e1, h20, h21, h22, e2⟩ := h
  unfold descriptionVal convDescription
  simp only [txtVal]
  simp only [utf8_noEmpty h2, conv_options _ h3, convEnum_upto h4, convEnum_upto h5, utf8_noEmpty h16, utf8_noEmpty h17, conv_slot_descriptions,
    blobs_map, Res.bind_ok, asU_in (Nat.le_refl 32) h1, asU_in (Nat.le_refl 8) h13, asU_in (Nat.le_refl 8) h14, asU_in (Nat.le_refl 32) h15,
    asU_in (Nat.le_refl 32) h18, ← e1, ← e2]
  rfl

theorem conv_override (o : RewardOverride) (h : FitsOverride o) : convOverride (overrideVal o) = .ok o := by
  unfold overrideVal convOverride
  simp only [convU32s_map h.2, Res.bind_ok, asU_in (Nat.le_refl 32) h.1]
  rfl

theorem conv_lobby_slot (s : LobbySlot) (h : FitsLobbySlot s) : convSlot (lobbySlotVal s) = .ok (LobbySlot.noEmpty s) := by
  obtain ⟨h1, h2, h3, h4, h5, h6, h7, h8, h9, h10, h11, h12, h13, h14, h15, h16, h17, h18, h19, h20, h21, h22, h23, h24, h25, h26, h27, h28, h29,
    h30, h31⟩ := h
  have ha : convAll convText (s.artifacts.map txtVal) = .ok (s.artifacts.map noEmpty) := convAll_map _ (fun a ha => utf8_noEmpty (h14.2 a ha))
  have ho : convAll convOverride (s.rewardOverrides.map overrideVal) = .ok s.rewardOverrides := by
    rw [convAll_map (r := id) _ (fun a ha => conv_override a (h26.2 a ha)), List.map_id]
  unfold lobbySlotVal convSlot
  simp only [txtVal]
  simp only [ha, ho, optInt_optV, convPref_opt, convEnum_upto h9, utf8_noEmpty h11, utf8_noEmpty h12, utf8_noEmpty h13, convU32s_map h16, utf8_noEmpty h17,
    convU32s_map h18, utf8_noEmpty h20, convU32s_map h24, convU32s_map h28, Res.bind_ok, asU_in (Nat.le_refl 32) h8, asU_in (Nat.le_refl 32) h10,
    asU_opt (Nat.le_refl 8) h15, asU_in (Nat.le_refl 32) h21, asU_in (Nat.le_refl 32) h23, asU_in (Nat.le_refl 32) h25, asU_in (Nat.le_refl 32) h27,
    asU_in (Nat.le_refl 32) h29, asU_in (Nat.le_refl 32) h30, asU_in (Nat.le_refl 32) h31]
  rfl

theorem conv_lobby (l : LobbyState) (h : FitsLobby l) : convLobby (lobbyVal l) = .ok { l with slots := l.slots.map LobbySlot.noEmpty } := by
  obtain ⟨h1, h2, h3, h4, h5, h6, h7, h8, h9, h10⟩ := h
  have hs : convAll convSlot (l.slots.map lobbySlotVal) = .ok (l.slots.map LobbySlot.noEmpty) := convAll_map _ (fun a ha => conv_lobby_slot a (h4.2 a ha))
  unfold lobbyVal convLobby
  simp only [convEnum_upto h1, hs, optInt_optV, Res.bind_ok, asU_in (Nat.le_refl 32) h5, asU_in (Nat.le_refl 8) h7, asU_in (Nat.le_refl 32) h8]
  rfl

theorem conv_init (slots : List (SlotDescription × SlotBits)) (handles : List (List UInt8)) (d : LobbySync) (h : InitFits slots handles d) :
    convInit (initVal slots handles d) = .ok (LobbySync.noEmpty d) := by
  have hu : convAll convUser (d.users.map initUserVal) = .ok (d.users.map UserInit.noEmpty) := convAll_map _ (fun a ha => conv_init_user a (h.1.2 a ha))
  unfold initVal convInit
  simp only [hu, conv_description _ _ _ h.2.1, conv_lobby _ h.2.2, Res.bind_ok]
  rfl

theorem read_init_layout (bld : Build) (slots : List (SlotDescription × SlotBits)) (handles : List (List UInt8)) (d : LobbySync)
    (h : InitFits slots handles d) (rest : List UInt8) :
    readInit bld (pack (initData slots handles d 0) ++ rest) = .ok (LobbySync.noEmpty d) := by
  have hc : (Cur.mk (pack (initData slots handles d 0) ++ rest) 0).WF := ⟨by simp, fun _ => rfl⟩
  have he := rd_init (bld := bld) slots handles d h 0 (by decide)
  have hp : bparse bld ReplaySInitData ⟨pack (initData slots handles d 0) ++ rest, 0⟩ =
      .ok ((Cur.mk (pack (initData slots handles d 0) ++ rest) 0).advance (initData slots handles d 0).length, initVal slots handles d) := by
    refine (bparse_iff bld _ initData_wf _ hc _ _).2 ⟨_, List.replicate (padLen ((initData slots handles d 0).length % 8)) false ++ bytesBits rest, ?_, he, rfl⟩
    rw [← List.append_assoc, ← pack_bits]
    simp [Cur.bits, bytesBits]
  unfold readInit
  rw [hp]
  exact conv_init slots handles d h

/-- **C182, exactly.** For every init data, the bits by the published layout (whatever follows them) are read back, in both builds, as exactly these
values with a zero byte in place of every empty text. -/
theorem C182_exactly (bld : Build) (slots : List (SlotDescription × SlotBits)) (handles : List (List UInt8)) (d : LobbySync)
    (h : InitFits slots handles d) (rest : List UInt8) :
    readInit bld (pack (initData slots handles d 0) ++ rest) = .ok (LobbySync.noEmpty d) := read_init_layout bld slots handles d h rest


theorem noEmpty_iff (s : Str) : noEmpty s = s ↔ s ≠ [] := by
  unfold noEmpty
  split
  · rename_i e; subst e; simp
  · rename_i e; simp [e]

theorem map_eq_iff {α : Type} (f : α → α) : (l : List α) → (l.map f = l ↔ ∀ a ∈ l, f a = a)
  | [] => by simp
  | a :: l => by simp [map_eq_iff f l]

theorem user_noEmpty_iff (u : UserInit) : UserInit.noEmpty u = u ↔ ∀ s ∈ UserInit.texts u, s ≠ [] := by
  cases u with
  | mk name tag logo league levels seed race team a b c d ty obs hero skin mount toon rating =>
  cases tag <;> simp [UserInit.noEmpty, UserInit.texts, noEmpty_iff]

theorem slot_noEmpty_iff (s : LobbySlot) : LobbySlot.noEmpty s = s ↔ ∀ t ∈ LobbySlot.texts s, t ≠ [] := by
  cases s
  simp [LobbySlot.noEmpty, LobbySlot.texts, noEmpty_iff, map_eq_iff]
  grind

theorem init_noEmpty_iff (d : LobbySync) : LobbySync.noEmpty d = d ↔ ∀ s ∈ LobbySync.texts d, s ≠ [] := by
  obtain ⟨users, desc, lob⟩ := d
  cases desc
  cases lob
  simp only [LobbySync.noEmpty, LobbySync.texts, LobbySync.mk.injEq, map_eq_iff, user_noEmpty_iff, slot_noEmpty_iff, GameDescription.mk.injEq,
    LobbyState.mk.injEq, noEmpty_iff, and_true, true_and, List.mem_append, List.mem_flatMap]
  grind

/-- **C182, partial.** Init data in which no text is empty is read back as it was. Missing: empty texts, see the refutation; `C182_iff` says that
these are all. -/
theorem C182_init_data_partial (bld : Build) (slots : List (SlotDescription × SlotBits)) (handles : List (List UInt8)) (d : LobbySync)
    (h : InitFits slots handles d) (he : ∀ s ∈ LobbySync.texts d, s ≠ []) (rest : List UInt8) :
    readInit bld (pack (initData slots handles d 0) ++ rest) = .ok d := by
  rw [C182_exactly bld slots handles d h rest, (init_noEmpty_iff d).2 he]

/-- **C182.** Init data is read back as it was exactly when no text in it is empty. -/
theorem C182_iff (bld : Build) (slots : List (SlotDescription × SlotBits)) (handles : List (List UInt8)) (d : LobbySync)
    (h : InitFits slots handles d) (rest : List UInt8) :
    readInit bld (pack (initData slots handles d 0) ++ rest) = .ok d ↔ ∀ s ∈ LobbySync.texts d, s ≠ [] := by
  rw [C182_exactly bld slots handles d h rest, ← init_noEmpty_iff d, Res.ok.injEq]

/-- An init data of two users (one without clan), two slots and one cache handle. [sample data] -/
def layoutInit (hero : String) : LobbySync :=
  ⟨[⟨str "Serral", some (str "BASIL"), some (List.replicate 40 7), some 6, some 300, 4000000000, some 2, none, false, false, true, false, 0, 0,
      str hero, str "s", str "m", str "2-S2-1-315071", some (-5)⟩,
    ⟨str "Caster", none, none, none, none, 1, none, some 1, false, true, false, false, 0, 2, str "h", str "s", str "m", str "t", none⟩],
   ⟨77, str "Dflt", ⟨true, false, false, false, true, true, true, false, false, false, false, 0, 3, 2, 2 ^ 40 + 1, true⟩, 4, 3, 16, 4, 2, 2, 16, 3, 4,
    176, 184, 3000000000, str "Goldenaura", str "?", 5, [⟨2 ^ 16 - 1, 15, 7, [255, 3], 2, [1]⟩, ⟨1, 15, 7, [0x40], 2, [255, 255]⟩], 7, 0,
    [hexText (List.replicate 40 0xab)], false, true, true, false, false, true⟩,
   ⟨4, 16, 4,
    [⟨2, some 0, 0, some 3, none, 7, 1, 100, 0, 12, str hero, str "s", str "m", [str "a", str "b"], some 0, [4000000000, 7],
        str "t", [66], none, str "c", 1, false, none, 0, [1, 2], 0, [⟨3, [9]⟩], 0, [], 0, 0, 0⟩,
     ⟨2, some 1, 1, none, some 0, 7, 1, 100, 2, 12, str "x", str "s", str "m", [], none, [], str "t", [], some 1, str "c", 15, true, some 3, 90, [],
        2, [], 1, [5, 6], 1, 2, 3⟩],
    77, some 0, false, 1, 9000, 7, 0⟩⟩
/-- How many bits the arrays of the slots have. [sample data] -/
def layoutSlots : List (SlotDescription × SlotBits) :=
  [(⟨2 ^ 16 - 1, 15, 7, [255, 3], 2, [1]⟩, ⟨16, 4, 5, 10, 3, 1⟩), (⟨1, 15, 7, [0x40], 2, [255, 255]⟩, ⟨1, 8, 3, 7, 2, 16⟩)]

instance (n : Nat) (x : Int) : Decidable (Upto n x) := inferInstanceAs (Decidable (_ ∧ _))
instance (n : Nat) (s : Str) : Decidable (FitsText n s) := inferInstanceAs (Decidable (_ ∧ _))
instance (s : List UInt8) : Decidable (FitsHandle s) := inferInstanceAs (Decidable (_ = _))
instance (n len : Nat) (x : Int) : Decidable (FitsNumbered n len x) := inferInstanceAs (Decidable (_ ∧ _))
instance decGroups : (len : Nat) → (bs : List UInt8) → Decidable (FitsGroups len bs)
  | len, [] => inferInstanceAs (Decidable (len = 0))
  | len, b :: bs =>
    have : Decidable (FitsGroups (len - 8) bs) := decGroups (len - 8) bs
    inferInstanceAs (Decidable (0 < len ∧ b.toNat < 2 ^ min 8 len ∧ FitsGroups (len - 8) bs))
instance (n len : Nat) (bs : List UInt8) : Decidable (FitsBytewise n len bs) := inferInstanceAs (Decidable (_ ∧ _))
instance decMaybe {α : Type} (P : α → Prop) [DecidablePred P] : (o : Option α) → Decidable (Maybe P o)
  | none => .isTrue (fun _ h => nomatch h)
  | some a => if h : P a then .isTrue (fun _ e => by cases e; exact h) else .isFalse (fun e => h (e a rfl))
instance {α : Type} (n : Nat) (P : α → Prop) [DecidablePred P] (l : List α) : Decidable (FitsMany n P l) := inferInstanceAs (Decidable (_ ∧ _))
instance (u : UserInit) : Decidable (FitsInitUser u) := by unfold FitsInitUser; infer_instance
instance (u : GameOptions) : Decidable (FitsOptions u) := by unfold FitsOptions; infer_instance
instance (p : SlotDescription × SlotBits) : Decidable (FitsSlotDescription p) := by unfold FitsSlotDescription; infer_instance
instance (s : List (SlotDescription × SlotBits)) (hs : List (List UInt8)) (d : GameDescription) : Decidable (FitsDescription s hs d) := by
  unfold FitsDescription; infer_instance
instance (o : RewardOverride) : Decidable (FitsOverride o) := by unfold FitsOverride; infer_instance
instance (s : LobbySlot) : Decidable (FitsLobbySlot s) := by unfold FitsLobbySlot; infer_instance
instance (s : LobbyState) : Decidable (FitsLobby s) := by unfold FitsLobby; infer_instance
instance (s : List (SlotDescription × SlotBits)) (hs : List (List UInt8)) (d : LobbySync) : Decidable (InitFits s hs d) := by
  unfold InitFits; infer_instance

theorem layoutInit_fits : InitFits layoutSlots [List.replicate 40 0xab] (layoutInit "h") := by decide +kernel
theorem layoutInit_fits_empty : InitFits layoutSlots [List.replicate 40 0xab] (layoutInit "") := by decide +kernel

example : ∀ s ∈ LobbySync.texts (layoutInit "h"), s ≠ [] := by decide +kernel

/-- **C182, refuted.** A user without a hero: the empty text comes out as one zero byte. -/
theorem C182_refuted : ∃ slots handles d, InitFits slots handles d ∧ ∀ bld, readInit bld (pack (initData slots handles d 0)) ≠ .ok d := by
  refine ⟨layoutSlots, _, _, layoutInit_fits_empty, fun bld h => ?_⟩
  have h2 := (C182_iff bld _ _ _ layoutInit_fits_empty []).1 (by rw [List.append_nil]; exact h)
  exact absurd h2 (by decide +kernel)

end S2
