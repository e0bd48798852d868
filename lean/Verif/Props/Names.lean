import Verif.Props.Export
import Verif.Props.Scan

/-!
# File names (C134)

The library is given paths, and keeps them as text to open the files again later.
-/

namespace S2

/-- Two lists of the same length, related element by element. -/
inductive Pairs {α β : Type} (R : α → β → Prop) : List α → List β → Prop where
  | nil : Pairs R [] []
  | cons {a b as bs} : R a b → Pairs R as bs → Pairs R (a :: as) (b :: bs)

theorem Pairs.of_zip {α β : Type} {R : α → β → Prop} : ∀ {as : List α} {bs : List β}, as.length = bs.length →
    (∀ (i : Nat) (a : α) (b : β), as[i]? = some a → bs[i]? = some b → R a b) → Pairs R as bs
  | [], [], _, _ => .nil
  | a :: as, b :: bs, hl, h => .cons (h 0 a b rfl rfl)
      (Pairs.of_zip (by simpa using hl) (fun i x y hx hy => h (i + 1) x y (by simpa using hx) (by simpa using hy)))
  | [], _ :: _, hl, _ => by simp at hl
  | _ :: _, [], hl, _ => by simp at hl

theorem Pairs.map_eq {α β γ : Type} {R : α → β → Prop} {f : α → γ} {g : β → γ} (h : ∀ a b, R a b → f a = g b)
    {as : List α} {bs : List β} (hp : Pairs R as bs) : as.map f = bs.map g := by
  induction hp with
  | nil => rfl
  | cons hr _ ih => simp [h _ _ hr, ih]

theorem Pairs.filter {α β : Type} {R : α → β → Prop} {p : α → Bool} {q : β → Bool} (h : ∀ a b, R a b → p a = q b)
    {as : List α} {bs : List β} (hp : Pairs R as bs) : Pairs R (as.filter p) (bs.filter q) := by
  induction hp with
  | nil => exact .nil
  | @cons a b as bs hr _ ih =>
    simp only [List.filter_cons, h _ _ hr]
    split
    · exact .cons hr ih
    · exact ih

theorem Pairs.take {α β : Type} {R : α → β → Prop} (n : Nat) {as : List α} {bs : List β} (hp : Pairs R as bs) :
    Pairs R (as.take n) (bs.take n) := by
  induction hp generalizing n with
  | nil => simp; exact .nil
  | cons hr _ ih => cases n with
    | zero => exact .nil
    | succ n => exact .cons hr (ih n)

theorem Pairs.length_eq {α β : Type} {R : α → β → Prop} {as : List α} {bs : List β} (hp : Pairs R as bs) :
    as.length = bs.length := by
  induction hp with
  | nil => rfl
  | cons _ _ ih => simp [ih]

/-- The same replay under another name. -/
def SameReplay {D : Type} (w : World D) (file' : Str → Res (List UInt8)) (a b : InitFile) : Prop :=
  b = { a with fileName := b.fileName } ∧ w.file a.fileName = file' b.fileName

theorem sameReplay_details {D : Type} {w : World D} {file' : Str → Res (List UInt8)} {bld : Build} {a b : InitFile}
    (h : SameReplay w file' a b) :
    DetailsFile.ofInit { w with file := file' } bld b = DetailsFile.ofInit w bld a := by
  obtain ⟨h1, h2⟩ := h
  have hf : b.fsId = a.fsId := by rw [h1]
  simp only [DetailsFile.ofInit, hf, h2]
  rfl

/-- Results of two readers: both fail alike, or both give related values. -/
def Alike {α β : Type} (R : α → β → Prop) : Res α → Res β → Prop
  | .ok a, .ok b => R a b
  | .err e, .err e' => e = e'
  | .panic, .panic => True
  | _, _ => False

theorem Alike.bind_same {α β γ : Type} {R : β → γ → Prop} (x : Res α) {f : α → Res β} {g : α → Res γ}
    (h : ∀ a, Alike R (f a) (g a)) : Alike R (x >>= f) (x >>= g) := by
  cases x with
  | ok a => exact h a
  | err e => rfl
  | panic => exact True.intro

theorem tryRead_alike {D : Type} {w : World D} {file' : Str → Res (List UInt8)} {bld : Build} {p q : Str} {i : Nat}
    (hp : utf8Ok p = true) (hq : utf8Ok q = true) (hf : w.file p = file' q) :
    Alike (SameReplay w file') (InitFile.tryRead w bld p i) (InitFile.tryRead { w with file := file' } bld q i) := by
  unfold InitFile.tryRead
  simp only [hp, hq, if_true]
  show Alike _ (w.file p >>= _) (file' q >>= _)
  rw [hf]
  apply Alike.bind_same
  intro c
  apply Alike.bind_same
  intro a
  unfold InitFile.new
  apply Alike.bind_same
  intro d
  exact ⟨rfl, hf⟩

theorem read_alike {D : Type} {w : World D} {file' : Str → Res (List UInt8)} {bld : Build} {p q : Str} {i : Nat}
    (hp : utf8Ok p = true) (hq : utf8Ok q = true) (hf : w.file p = file' q) :
    Alike (SameReplay w file') (InitFile.read w bld p i) (InitFile.read { w with file := file' } bld q i) := by
  unfold InitFile.read pathOrDefault
  rw [if_pos hp, if_pos hq]
  show Alike _ (w.file p >>= _) (file' q >>= _)
  rw [hf]
  apply Alike.bind_same
  intro c
  apply Alike.bind_same
  intro a
  unfold InitFile.new
  apply Alike.bind_same
  intro d
  exact ⟨rfl, hf⟩

theorem readInits_alike {α β : Type} {R : α → β → Prop} {S : Str → Str → Prop} (f : Str → Nat → Res α)
    (g : Str → Nat → Res β) (h : ∀ p q i, S p q → Alike R (f p i) (g q i)) {ps qs : List Str} (hs : Pairs S ps qs) :
    ∀ i, Alike (Pairs R) (readInits f i ps) (readInits g i qs) := by
  induction hs with
  | nil => intro i; exact .nil
  | @cons p q ps qs hpq _ ih =>
    intro i
    have h1 := h p q i hpq
    have h2 := ih (i + 1)
    unfold readInits
    revert h1
    cases hf : f p i <;> cases hg : g q i <;> intro h1 <;> try exact h1.elim
    · revert h2
      cases readInits f (i + 1) ps <;> cases readInits g (i + 1) qs <;> intro h2 <;> try exact h2.elim
      · exact .cons h1 h2
      · exact h2
      · exact h2
    · exact h2
    · exact True.intro

theorem scanLoop_same {D : Type} {w : World D} {file' : Str → Res (List UInt8)} {bld : Build} (versions : List Int)
    {as bs : List InitFile} (h : Pairs (SameReplay w file') as bs) :
    ∀ acc, scanLoop { w with file := file' } bld versions bs acc = scanLoop w bld versions as acc := by
  induction h with
  | nil => intro acc; rfl
  | @cons a b as bs hr _ ih =>
    intro acc
    have hv : b.version = a.version := by rw [hr.1]
    unfold scanLoop
    rw [sameReplay_details hr, hv]
    simp only [ih]

theorem userStates_same {D : Type} {xs ys : List (PlayerLobby D)}
    (h : xs.map (fun p => (p.slot, p.player)) = ys.map (fun p => (p.slot, p.player))) :
    ∀ us, userStates xs us = userStates ys us := by
  induction xs generalizing ys with
  | nil => cases ys with
    | nil => intro us; rfl
    | cons y ys => simp at h
  | cons x xs ih => cases ys with
    | nil => simp at h
    | cons y ys =>
      simp only [List.map_cons, List.cons.injEq, Prod.mk.injEq] at h
      intro us
      unfold userStates
      rw [h.1.1, h.1.2]
      simp only [ih h.2]

theorem lobbyRow_rename {D : Type} (a : InitFile) (f : Str) (det : DetailsFile D) (p : PlayerDetails) :
    lobbyRow { a with fileName := f } det p = (lobbyRow a det p).map (fun r => { r with fileName := f }) := by
  unfold lobbyRow
  dsimp only
  cases slotIndex p 0 a.sync.lobby.slots with
  | none => rfl
  | some i => cases h : a.sync.lobby.slots[i]? <;> simp [h]

theorem openIterator_same {D : Type} {w : World D} {file' : Str → Res (List UInt8)} {bld : Build} {a b : InitFile}
    (h : SameReplay w file' a b) (table : BalTable) (filters : Option Filters) :
    openIterator { w with file := file' } bld b table filters = openIterator w bld a table filters := by
  have hd := sameReplay_details (bld := bld) h
  have hv : b.version = a.version := by rw [h.1]
  unfold openIterator lobbyJoin
  rw [hd, hv]
  show (file' b.fileName >>= _) = (w.file a.fileName >>= _)
  rw [h.2]
  congr; funext c; congr; funext ar; congr; funext trk; congr; funext game
  cases hdet : DetailsFile.ofInit w bld a with
  | err e => rfl
  | panic => rfl
  | ok det =>
    simp only [Res.bind_ok, Res.pure_eq]
    rw [userStates_same]
    rw [h.1, funext (lobbyRow_rename a b.fileName det)]
    induction det.details.playerList with
    | nil => rfl
    | cons p ps ih =>
      simp only [List.filterMap_cons]
      cases lobbyRow a det p <;> simp [ih]

theorem tableWork_same {D ρ : Type} {w : World D} {file' : Str → Res (List UInt8)} {bld : Build} {a b : InitFile}
    (h : SameReplay w file' a b) (table : BalTable) (rows : Nat → Item → List ρ) (arrow : List ρ → Bool) :
    tableWork { w with file := file' } bld table rows arrow b = tableWork w bld table rows arrow a := by
  have hv : b.version = a.version := by rw [h.1]
  have hf : b.fsId = a.fsId := by rw [h.1]
  unfold tableWork
  rw [openIterator_same h, hv, hf]

/-- **C134, partial.** Take the same files under other names (`file'` maps the new names to the contents the old
ones had), all names being UTF-8.  The statistics are the same.  The same replays are selected for an export, with
the new names in them, and what each contributes to any event table is the same.  Missing: other names, see the
refutation. -/
theorem C134_names_partial {D : Type} (w : World D) (file' : Str → Res (List UInt8)) (bld : Build)
    (sources sources' : List Str) (hl : sources.length = sources'.length)
    (hn : ∀ (i : Nat) (p q : Str), sources[i]? = some p → sources'[i]? = some q →
      utf8Ok p = true ∧ utf8Ok q = true ∧ w.file p = file' q) (split : Option Split) :
    (∀ (ord : List (Str × Nat) → List (Str × Nat)) (table : BalTable),
      scanSources { w with file := file' } bld ord table split sources' = scanSources w bld ord table split sources) ∧
    (∀ (minV maxV : Option Int) (processMax : Nat) (xs : List InitFile),
      selectSources w bld minV maxV processMax split sources = .ok xs →
      ∃ ys, selectSources { w with file := file' } bld minV maxV processMax split sources' = .ok ys ∧
        ys.map (fun y => (y.fsId, y.sha256, y.version, y.sync)) = xs.map (fun x => (x.fsId, x.sha256, x.version, x.sync)) ∧
        (∀ y ∈ ys, sources'[y.fsId]? = some y.fileName) ∧
        ∀ {ρ : Type} (table : BalTable) (rows : Nat → Item → List ρ) (arrow : List ρ → Bool),
          ys.map (tableWork { w with file := file' } bld table rows arrow) =
            xs.map (tableWork w bld table rows arrow)) := by
  have hs : Pairs (fun p q => utf8Ok p = true ∧ utf8Ok q = true ∧ w.file p = file' q) sources sources' :=
    .of_zip hl hn
  constructor
  · intro ord table
    have ser : ∀ (w : World D) ss, scanSources w bld ord table split ss = scanSources w bld ord table none ss := by
      intro w ss
      cases split with
      | none => rfl
      | some sp => exact C53_parallel w bld ord table sp ss
    rw [ser, ser]
    have h := readInits_alike (InitFile.tryRead w bld) (InitFile.tryRead { w with file := file' } bld)
      (fun p q i hpq => tryRead_alike hpq.1 hpq.2.1 hpq.2.2) hs 0
    unfold scanSources
    dsimp only
    revert h
    cases readInits (InitFile.tryRead w bld) 0 sources <;>
      cases readInits (InitFile.tryRead { w with file := file' } bld) 0 sources' <;> intro h <;>
      first
      | exact h.elim
      | (simp only [Res.bind_ok]; rw [scanLoop_same _ h, h.length_eq, hl])
      | (cases h; rfl)
  · intro minV maxV processMax xs h0
    have ser : ∀ (w : World D) ss, selectSources w bld minV maxV processMax split ss =
        selectSources w bld minV maxV processMax none ss := by
      intro w ss
      cases split with
      | none => rfl
      | some sp => simp only [selectSources, readInitsPar_eq]
    rw [ser] at h0
    have h := readInits_alike (InitFile.read w bld) (InitFile.read { w with file := file' } bld)
      (fun p q i hpq => read_alike hpq.1 hpq.2.1 hpq.2.2) hs 0
    simp only [selectSources, Res.bind_eq_ok] at h0
    obtain ⟨inits, h1, h2⟩ := h0
    rw [h1] at h
    cases h3 : readInits (InitFile.read { w with file := file' } bld) 0 sources' with
    | err e => rw [h3] at h; exact h.elim
    | panic => rw [h3] at h; exact h.elim
    | ok inits' =>
      rw [h3] at h
      have hp : Pairs (SameReplay w file') ((inits.filter (versionOk minV maxV)).take processMax)
          ((inits'.filter (versionOk minV maxV)).take processMax) := by
        apply Pairs.take
        apply Pairs.filter _ h
        intro a b hr
        have hv : b.version = a.version := by rw [hr.1]
        simp only [versionOk, hv]
      split at h2
      · cases h2
      · rename_i hne
        simp only [Res.pure_eq, Res.ok.injEq] at h2
        subst h2
        have hsel : selectSources { w with file := file' } bld minV maxV processMax split sources' =
            .ok ((inits'.filter (versionOk minV maxV)).take processMax) := by
          rw [ser]
          simp only [selectSources, h3, Res.bind_ok, Res.pure_eq]
          apply if_neg
          rw [List.isEmpty_iff, ← List.length_eq_zero_iff, ← hp.length_eq, List.length_eq_zero_iff, ← List.isEmpty_iff]
          exact hne
        refine ⟨_, hsel, ?_, ?_, ?_⟩
        · refine (hp.map_eq ?_).symm
          intro a b hr
          rw [hr.1]
        · intro y hy
          obtain ⟨⟨p, hp1, hp2, hp3⟩, _⟩ := (C60_selection _ _ _ _ _ _ _ _ hsel).1 y hy
          rw [hp3 ?_]
          · exact hp1
          · have hlt : y.fsId < sources.length := by
              have := (List.getElem?_eq_some_iff.mp hp1).1
              omega
            exact (hn y.fsId _ p (List.getElem?_eq_getElem hlt) hp1).2.1
        · intro ρ table rows arrow
          exact (Pairs.map_eq (R := SameReplay w file') (fun a b hr => (tableWork_same hr table rows arrow).symm) hp).symm

/-- The replay of `exportWorld`, as the file `name` (nothing else can be read). -/
def namedWorld (name : Str) : World Nat :=
  { exportWorld with file := fun p => if p = name then .ok [1] else .err (.other 0) }

/-- A name in Latin-1: `é.SC2Replay` -/
def latinName : Str := 0xe9 :: str ".SC2Replay"

/-- The hypotheses of the partial theorem are met by a renamed replay. -/
example : ∀ (i : Nat) (p q : Str), [str "a.SC2Replay"][i]? = some p → [str "b.SC2Replay"][i]? = some q →
    utf8Ok p = true ∧ utf8Ok q = true ∧ (namedWorld (str "a.SC2Replay")).file p = (namedWorld (str "b.SC2Replay")).file q := by
  intro i p q hp hq
  cases i with
  | zero => cases hp; cases hq; decide +kernel
  | succ i => simp at hp

/-- **C134.** Under a name that is not UTF-8 a readable replay makes the scan panic; the export selects it (with an
empty name) and takes nothing from it, where the same replay under an ASCII name is counted and gives its rows. -/
theorem C134_names_refuted :
    (scanSources (namedWorld (str "e.SC2Replay")) .release id [] none [str "e.SC2Replay"]).isOk = true ∧
    scanSources (namedWorld latinName) .release id [] none [latinName] = .panic ∧
    (match selectSources (namedWorld (str "e.SC2Replay")) .release none none 5 none [str "e.SC2Replay"] with
      | .ok xs => decide (xs.map (tableWork (namedWorld (str "e.SC2Replay")) .release []
          (fun fsId it => (upgradeRowOf fsId it).toList) (fun _ => true)) = [.batch [⟨1, str "Stim", 1, 0, 0, 0⟩]])
      | _ => false) = true ∧
    (match selectSources (namedWorld latinName) .release none none 5 none [latinName] with
      | .ok xs => decide (xs.map (tableWork (namedWorld latinName) .release []
          (fun fsId it => (upgradeRowOf fsId it).toList) (fun _ => true)) = [.skip])
      | _ => false) = true := by
  decide +kernel

end S2
