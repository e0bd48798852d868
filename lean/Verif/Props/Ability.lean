import Verif.Spec.AbilitySpec
/-! # Ability command names (C61) -/
namespace S2

theorem firstCommand_eq (n : Str) (ci : Int) (cs : List BalCommand) :
    firstCommand n ci cs =
      ((cs.filter (fun c => c.index = ci)).map (fun c => n ++ str "." ++ c.id.getD (str ""))).head? := by
  induction cs with
  | nil => rfl
  | cons c cs ih =>
    simp only [firstCommand]
    by_cases h : ci = c.index
    · rw [if_pos h, List.filter_cons_of_pos (by simp [h])]; rfl
    · rw [if_neg h, List.filter_cons_of_neg (by simp; exact fun e => h e.symm), ih]

theorem firstAbility_eq (ai ci : Int) (as : List BalAbility) :
    firstAbility ai ci as =
      ((as.filter (fun a => a.index = some ai)).flatMap (fun a =>
        (a.commands.filter (fun c => c.index = ci)).map (fun c => a.id ++ str "." ++ c.id.getD (str "")))).head? := by
  induction as with
  | nil => rfl
  | cons a as ih =>
    simp only [firstAbility]
    split
    · rename_i h
      rw [List.filter_cons_of_neg (by simp [h]), ih]
    · rename_i idx h
      by_cases hi : idx = ai
      · rw [if_neg (by simp [hi]), List.filter_cons_of_pos (by simp [h, hi]), List.flatMap_cons, List.head?_append,
          ← firstCommand_eq]
        split
        · rename_i s hs; rw [hs]; rfl
        · rename_i hs; rw [hs, ih]; rfl
      · rw [if_pos hi, List.filter_cons_of_neg (by simp [h, hi]), ih]

theorem firstUnitRef_eq (pre : Str) (ai ci : Int) (us : List BalUnitRef) :
    firstUnitRef pre ai ci us =
      ((us.filter (fun r => r.abilityId = some ai ∧ r.commandIndex = some ci)).map (fun r => pre ++ r.id)).head? := by
  induction us with
  | nil => rfl
  | cons u us ih =>
    simp only [firstUnitRef]
    split
    · rename_i a c ha hc
      by_cases h : ai = a ∧ ci = c
      · rw [if_pos h, List.filter_cons_of_pos (by simp [ha, hc, h])]; rfl
      · rw [if_neg h, List.filter_cons_of_neg (by
          simp only [ha, hc, Option.some.injEq, decide_eq_true_eq]
          exact fun e => h ⟨e.1.symm, e.2.symm⟩), ih]
    · rename_i hn
      rw [List.filter_cons_of_neg (by
        simp only [decide_eq_true_eq]
        exact fun e => hn _ _ e.1 e.2), ih]

theorem firstResearch_eq (ai ci : Int) (rs : List BalResearch) :
    firstResearch ai ci rs =
      ((rs.filter (fun r => r.ability = ai ∧ r.index = ci)).map (fun r => str "Research." ++ r.id)).head? := by
  induction rs with
  | nil => rfl
  | cons u us ih =>
    simp only [firstResearch]
    by_cases h : ai = u.ability ∧ ci = u.index
    · rw [if_pos h, List.filter_cons_of_pos (by simp [h])]; rfl
    · rw [if_neg h, List.filter_cons_of_neg (by
        simp only [decide_eq_true_eq]
        exact fun e => h ⟨e.1.symm, e.2.symm⟩), ih]

/-- For every balance table: the name of a command is the first candidate of the acting unit's own entry —
its abilities' commands, then what it trains, builds, researches — and empty if there is none or the unit is
not in the table. -/
theorem C61_precedence (bal : BalUnits) (unit : Str) (ability command : Int) :
    abilityName bal unit ability command =
      match bal unit with
      | some u => (candidates u ability command).head?.getD (str "")
      | none => str "" := by
  unfold abilityName
  cases bal unit with
  | none => rfl
  | some u =>
    have h1 : firstAbility ability command u.abilities = (ownCommands u ability command).head? := firstAbility_eq _ _ _
    have h2 : firstUnitRef (str "Train.") ability command u.trains = (trained u ability command).head? := firstUnitRef_eq _ _ _ _
    have h3 : firstUnitRef (str "Build.") ability command u.builds = (built u ability command).head? := firstUnitRef_eq _ _ _ _
    simp only [candidates, List.head?_append, h1, h2, h3]
    cases (ownCommands u ability command).head? with
    | some s => rfl
    | none =>
      cases (trained u ability command).head? with
      | some s => rfl
      | none =>
        cases (built u ability command).head? with
        | some s => rfl
        | none =>
          simp only [Option.none_or]
          unfold researched
          cases u.researches with
          | none => rfl
          | some rs =>
            simp only [firstResearch_eq, Option.getD_some]
            split
            · rename_i s hs; rw [hs]; rfl
            · rename_i hs; rw [hs]; rfl

/-- The unit's own command wins over every other table; without one the trained unit wins, and so on; with no
entry anywhere the name is empty. -/
theorem C61_own_first (bal : BalUnits) (unit : Str) (u : BalUnit) (hu : bal unit = some u) (ability command : Int) :
    (∀ a pre post, u.abilities = pre ++ a :: post → a.index = some ability →
      (∀ b ∈ pre, b.index = some ability → ∀ c ∈ b.commands, c.index ≠ command) →
      ∀ c cpre cpost, a.commands = cpre ++ c :: cpost → c.index = command → (∀ d ∈ cpre, d.index ≠ command) →
        abilityName bal unit ability command = a.id ++ str "." ++ c.id.getD (str "")) ∧
    ((∀ b ∈ u.abilities, b.index = some ability → ∀ c ∈ b.commands, c.index ≠ command) →
      (∀ r pre post, u.trains = pre ++ r :: post → r.abilityId = some ability → r.commandIndex = some command →
        (∀ q ∈ pre, ¬ (q.abilityId = some ability ∧ q.commandIndex = some command)) →
        abilityName bal unit ability command = str "Train." ++ r.id) ∧
      ((∀ q ∈ u.trains, ¬ (q.abilityId = some ability ∧ q.commandIndex = some command)) →
        (∀ r pre post, u.builds = pre ++ r :: post → r.abilityId = some ability → r.commandIndex = some command →
          (∀ q ∈ pre, ¬ (q.abilityId = some ability ∧ q.commandIndex = some command)) →
          abilityName bal unit ability command = str "Build." ++ r.id) ∧
        ((∀ q ∈ u.builds, ¬ (q.abilityId = some ability ∧ q.commandIndex = some command)) →
          (∀ rs r pre post, u.researches = some rs → rs = pre ++ r :: post → r.ability = ability → r.index = command →
            (∀ q ∈ pre, ¬ (q.ability = ability ∧ q.index = command)) →
            abilityName bal unit ability command = str "Research." ++ r.id) ∧
          ((∀ rs, u.researches = some rs → ∀ q ∈ rs, ¬ (q.ability = ability ∧ q.index = command)) →
            abilityName bal unit ability command = str "")))) := by
  have key := C61_precedence bal unit ability command
  rw [hu] at key
  simp only [candidates] at key
  have own0 : (∀ b ∈ u.abilities, b.index = some ability → ∀ c ∈ b.commands, c.index ≠ command) → ownCommands u ability command = [] := by
    intro h
    unfold ownCommands
    rw [List.flatMap_eq_nil_iff]
    intro b hb
    rw [List.mem_filter] at hb
    rw [List.map_eq_nil_iff, List.filter_eq_nil_iff]
    intro c hc
    simpa using h b hb.1 (by simpa using hb.2) c hc
  have filt0 : ∀ {α : Type} (p : α → Bool) (l : List α), (∀ q ∈ l, p q = false) → l.filter p = [] := by
    intro α p l h
    rw [List.filter_eq_nil_iff]
    intro q hq; simp [h q hq]
  have filt1 : ∀ {α : Type} (p : α → Bool) (pre post : List α) (a : α), (∀ q ∈ pre, p q = false) → p a = true →
      (pre ++ a :: post).filter p = a :: post.filter p := by
    intro α p pre post a h1 h2
    rw [List.filter_append, filt0 p pre h1, List.nil_append, List.filter_cons_of_pos h2]
  refine ⟨?_, fun h0 => ⟨?_, fun h1 => ⟨?_, fun h2 => ⟨?_, fun h3 => ?_⟩⟩⟩⟩
  · intro a pre post ha hi hpre c cpre cpost hc hci hcpre
    have : ∃ t, ownCommands u ability command = (a.id ++ str "." ++ c.id.getD (str "")) :: t := by
      unfold ownCommands
      rw [ha, List.filter_append, List.filter_cons_of_pos (by simp [hi]), List.flatMap_append, List.flatMap_cons, hc,
        filt1 _ cpre cpost c (by intro q hq; simpa using hcpre q hq) (by simp [hci])]
      have : (pre.filter (fun a => a.index = some ability)).flatMap (fun a =>
          (a.commands.filter (fun c => c.index = command)).map (fun c => a.id ++ str "." ++ c.id.getD (str ""))) = [] := by
        rw [List.flatMap_eq_nil_iff]
        intro b hb
        rw [List.mem_filter] at hb
        rw [List.map_eq_nil_iff, List.filter_eq_nil_iff]
        intro d hd
        simpa using hpre b hb.1 (by simpa using hb.2) d hd
      rw [this]
      exact ⟨_, rfl⟩
    obtain ⟨t, ht⟩ := this
    rw [key, ht]; rfl
  · intro r pre post hr ha hc hpre
    rw [key, own0 h0]
    unfold trained
    rw [hr, filt1 _ pre post r (by intro q hq; simpa using hpre q hq) (by simp [ha, hc])]
    rfl
  · intro r pre post hr ha hc hpre
    rw [key, own0 h0]
    unfold trained built
    rw [filt0 _ u.trains (by intro q hq; simpa using h1 q hq), hr, filt1 _ pre post r (by intro q hq; simpa using hpre q hq) (by simp [ha, hc])]
    rfl
  · intro rs r pre post hrs hr ha hc hpre
    rw [key, own0 h0]
    unfold trained built researched
    rw [filt0 _ u.trains (by intro q hq; simpa using h1 q hq), filt0 _ u.builds (by intro q hq; simpa using h2 q hq), hrs,
      Option.getD_some, hr, filt1 _ pre post r (by intro q hq; simpa using hpre q hq) (by simp [ha, hc])]
    rfl
  · rw [key, own0 h0]
    unfold trained built researched
    rw [filt0 _ u.trains (by intro q hq; simpa using h1 q hq), filt0 _ u.builds (by intro q hq; simpa using h2 q hq)]
    cases hrs : u.researches with
    | none => rfl
    | some rs =>
      rw [Option.getD_some, filt0 _ rs (by intro q hq; simpa using h3 rs hrs q hq)]
      rfl

/-- A unit whose abilities, trains and builds all match command (3, 1), and one for which only research does. -/
def exAbilityUnit : BalUnit :=
  ⟨none, [⟨str "attack", some 3, [⟨some (str "Stop"), 0⟩, ⟨some (str "Go"), 1⟩]⟩], [⟨str "Marine", some 3, some 1⟩, ⟨str "Reaper", some 3, some 2⟩],
    [⟨str "Depot", some 3, some 1⟩, ⟨str "Bunker", some 3, some 2⟩, ⟨str "Turret", some 3, some 3⟩], some [⟨str "Stim", 3, 4⟩]⟩
def exBalance : BalUnits := fun n => if n = str "SCV" then some exAbilityUnit else none

example : abilityName exBalance (str "SCV") 3 1 = str "attack.Go" ∧ abilityName exBalance (str "SCV") 3 2 = str "Train.Reaper" ∧
    abilityName exBalance (str "SCV") 3 3 = str "Build.Turret" ∧ abilityName exBalance (str "SCV") 3 4 = str "Research.Stim" ∧
    abilityName exBalance (str "SCV") 3 5 = [] ∧ abilityName exBalance (str "Zealot") 3 1 = [] := by decide +kernel

end S2
