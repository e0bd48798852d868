import Verif.Misc.Export
import Verif.Props.Rows
import Verif.Props.Details
/-! # Exporting many replays -/
namespace S2

/-! ## Specification -/

/-- The batch of a source, if it has rows. -/
def batchOf {ρ : Type} : Work ρ → Option (List ρ)
  | .batch (r :: rs) => some (r :: rs)
  | _ => none

/-- The batches of all sources with rows, in source order. -/
def batches {ρ : Type} (works : List (Work ρ)) : List (List ρ) := works.filterMap batchOf

/-! ## Invariant -/

/-- The batch a task has contributed. -/
def Task.block {ρ : Type} (t : Task ρ) : List (List ρ) :=
  match t.work, t.stage with
  | .batch rows, .done (some _) => [rows]
  | _, _ => []

def Task.isWriting {ρ : Type} (t : Task ρ) : Bool :=
  match t.stage with
  | .writing _ => true
  | _ => false

/-- What holds of a task, given what is in the unfinished batch. -/
def Task.Ok {ρ : Type} (t : Task ρ) (cur : List ρ) : Prop :=
  match t.stage with
  | .start => True
  | .ready => ∃ r rs, t.work = .batch (r :: rs)
  | .writing rest => ∃ rows, t.work = .batch rows ∧ rows ≠ [] ∧ rows = cur ++ rest
  | .done none => t.work ≠ .crash
  | .done (some n) => ∃ rows, t.work = .batch rows ∧ rows ≠ [] ∧ n = rows.length
  | .crashed => t.work = .crash

structure Export.Inv {ρ : Type} (works : List (Work ρ)) (s : Export ρ) : Prop where
  works : s.tasks.map Task.work = works
  ok : ∀ t ∈ s.tasks, t.Ok s.writer.cur
  lock : (s.tasks.filter Task.isWriting).length = if s.writer.locked then 1 else 0
  perm : s.writer.blocks.Perm (s.tasks.flatMap Task.block)

theorem noWriting_ok {ρ : Type} {t : Task ρ} (h : t.isWriting = false) {c c' : List ρ} (ho : t.Ok c) : t.Ok c' := by
  obtain ⟨w, st⟩ := t
  unfold Task.Ok at ho ⊢
  unfold Task.isWriting at h
  cases st with
  | writing rest => cases h
  | done r => cases r <;> exact ho
  | _ => exact ho

theorem step_inv {ρ : Type} {works : List (Work ρ)} {pre post : List (Task ρ)} {t t' : Task ρ} {wr wr' : Writer ρ} {a : Action}
    (hi : Export.Inv works ⟨pre ++ t :: post, wr⟩) (hs : TaskStep a t wr t' wr') : Export.Inv works ⟨pre ++ t' :: post, wr'⟩ := by
  obtain ⟨h1, h2, h3, h4⟩ := hi
  have h2t : t.Ok wr.cur := h2 t (by simp)
  have hpre : ∀ x ∈ pre, x.Ok wr.cur := fun x hx => h2 x (by simp [hx])
  have hpost : ∀ x ∈ post, x.Ok wr.cur := fun x hx => h2 x (by simp [hx])
  simp only [List.filter_append, List.filter_cons, List.length_append] at h3
  have glue : ∀ {c : List ρ}, (∀ x ∈ pre, x.Ok c) → (∀ x ∈ post, x.Ok c) → t'.Ok c → ∀ x ∈ pre ++ t' :: post, x.Ok c := by
    intro c h h' h'' x hx
    simp only [List.mem_append, List.mem_cons] at hx
    rcases hx with hx | rfl | hx
    · exact h x hx
    · exact h''
    · exact h' x hx
  -- when the lock changes hands nobody else is writing
  have alone : (pre.filter Task.isWriting).length = 0 → (post.filter Task.isWriting).length = 0 → ∀ {c : List ρ},
      (∀ x ∈ pre, x.Ok c) ∧ (∀ x ∈ post, x.Ok c) := by
    intro ha hb c
    rw [List.length_eq_zero_iff, List.filter_eq_nil_iff] at ha hb
    exact ⟨fun x hx => noWriting_ok (by simpa using ha x hx) (hpre x hx),
      fun x hx => noWriting_ok (by simpa using hb x hx) (hpost x hx)⟩
  cases hs with
  | skip => exact ⟨by simpa using h1, glue hpre hpost (by simp [Task.Ok]), by simpa [Task.isWriting] using h3, by simpa [Task.block] using h4⟩
  | crash => exact ⟨by simpa using h1, glue hpre hpost (by simp [Task.Ok]), by simpa [Task.isWriting] using h3, by simpa [Task.block] using h4⟩
  | empty => exact ⟨by simpa using h1, glue hpre hpost (by simp [Task.Ok]), by simpa [Task.isWriting] using h3, by simpa [Task.block] using h4⟩
  | computed rows _ hne =>
    refine ⟨by simpa using h1, glue hpre hpost ?_, by simpa [Task.isWriting] using h3, by simpa [Task.block] using h4⟩
    cases rows with
    | nil => exact absurd rfl hne
    | cons r rs => exact ⟨r, rs, rfl⟩
  | acquire rows _ hl =>
    rw [hl] at h3
    have h0 : (pre.filter Task.isWriting).length + (post.filter Task.isWriting).length = 0 := h3
    obtain ⟨ha, hb⟩ := alone (by omega) (by omega) (c := [])
    obtain ⟨r, rs, hr⟩ := h2t
    simp only [Work.batch.injEq] at hr
    refine ⟨by simpa using h1, glue ha hb ⟨rows, rfl, by rw [hr]; simp, by simp⟩, ?_, by simpa [Task.block] using h4⟩
    have e1 : pre.filter Task.isWriting = [] := List.length_eq_zero_iff.1 (by omega)
    have e2 : post.filter Task.isWriting = [] := List.length_eq_zero_iff.1 (by omega)
    simp only [List.filter_append, List.filter_cons, List.length_append, e1, e2]
    simp [Task.isWriting]
  | put work x rest =>
    have hle : (pre.filter Task.isWriting).length + ((post.filter Task.isWriting).length + 1) ≤ 1 := by
      have : ((if (Task.isWriting ⟨work, Stage.writing (x :: rest)⟩) = true then
        (⟨work, Stage.writing (x :: rest)⟩ : Task ρ) :: post.filter Task.isWriting else post.filter Task.isWriting)).length =
        (post.filter Task.isWriting).length + 1 := by simp [Task.isWriting]
      rw [this] at h3
      rw [h3]
      split <;> omega
    obtain ⟨ha, hb⟩ := alone (by omega) (by omega) (c := wr.cur ++ [x])
    obtain ⟨rows, hr, hne, hc⟩ := h2t
    refine ⟨by simpa using h1, glue ha hb ⟨rows, hr, hne, by rw [hc]; simp⟩, ?_, by simpa [Task.block] using h4⟩
    simp only [List.filter_append, List.filter_cons, List.length_append]
    simpa [Task.isWriting] using h3
  | finish rows =>
    have hle : (pre.filter Task.isWriting).length + ((post.filter Task.isWriting).length + 1) ≤ 1 := by
      have : ((if (Task.isWriting ⟨.batch rows, Stage.writing []⟩) = true then
        (⟨.batch rows, Stage.writing []⟩ : Task ρ) :: post.filter Task.isWriting else post.filter Task.isWriting)).length =
        (post.filter Task.isWriting).length + 1 := by simp [Task.isWriting]
      rw [this] at h3
      rw [h3]
      split <;> omega
    obtain ⟨ha, hb⟩ := alone (by omega) (by omega) (c := [])
    obtain ⟨rows', hr, hne, hc⟩ := h2t
    simp only [Work.batch.injEq] at hr
    subst hr
    simp only [List.append_nil] at hc
    refine ⟨by simpa using h1, glue ha hb ⟨rows, rfl, hne, rfl⟩, ?_, ?_⟩
    · have e1 : pre.filter Task.isWriting = [] := List.length_eq_zero_iff.1 (by omega)
      have e2 : post.filter Task.isWriting = [] := List.length_eq_zero_iff.1 (by omega)
      simp only [List.filter_append, List.filter_cons, List.length_append, e1, e2]
      simp [Task.isWriting]
    · rw [← hc]
      simp only [List.flatMap_append, List.flatMap_cons, Task.block, List.nil_append] at h4 ⊢
      refine (h4.append_right [rows]).trans ?_
      rw [List.append_assoc]
      exact List.Perm.append_left _ List.perm_append_comm
  | fail work rest =>
    have hle : (pre.filter Task.isWriting).length + ((post.filter Task.isWriting).length + 1) ≤ 1 := by
      have : ((if (Task.isWriting ⟨work, Stage.writing rest⟩) = true then
        (⟨work, Stage.writing rest⟩ : Task ρ) :: post.filter Task.isWriting else post.filter Task.isWriting)).length =
        (post.filter Task.isWriting).length + 1 := by simp [Task.isWriting]
      rw [this] at h3
      rw [h3]
      split <;> omega
    obtain ⟨ha, hb⟩ := alone (by omega) (by omega) (c := [])
    obtain ⟨rows, hr, hne, hc⟩ := h2t
    simp only at hr
    subst hr
    refine ⟨by simpa using h1, glue ha hb (by simp [Task.Ok]), ?_, by simpa [Task.block] using h4⟩
    have e1 : pre.filter Task.isWriting = [] := List.length_eq_zero_iff.1 (by omega)
    have e2 : post.filter Task.isWriting = [] := List.length_eq_zero_iff.1 (by omega)
    simp only [List.filter_append, List.filter_cons, List.length_append, e1, e2]
    simp [Task.isWriting]

theorem initial_inv {ρ : Type} (works : List (Work ρ)) : Export.Inv works (Export.initial works) := by
  refine ⟨?_, ?_, ?_, ?_⟩
  · simp [Export.initial, Function.comp_def]
  · intro t ht
    simp only [Export.initial, List.mem_map] at ht
    obtain ⟨w, _, rfl⟩ := ht
    trivial
  · have : (works.map (fun w => (⟨w, .start⟩ : Task ρ))).filter Task.isWriting = [] := by
      rw [List.filter_eq_nil_iff]
      intro t ht
      simp only [List.mem_map] at ht
      obtain ⟨w, _, rfl⟩ := ht
      simp [Task.isWriting]
    simp only [Export.initial, this]
    rfl
  · have : (works.map (fun w => (⟨w, .start⟩ : Task ρ))).flatMap Task.block = [] := by
      rw [List.flatMap_eq_nil_iff]
      intro t ht
      simp only [List.mem_map] at ht
      obtain ⟨w, _, rfl⟩ := ht
      cases w <;> rfl
    simp only [Export.initial, this]
    exact List.Perm.refl _

theorem run_inv {ρ : Type} {works : List (Work ρ)} {acts : List Action} {s : Export ρ} (h : Run works acts s) : s.Inv works := by
  induction h with
  | nil => exact initial_inv works
  | step _ hs ih => exact step_inv ih hs

/-! ## C59: counting and completeness -/

theorem block_length {ρ : Type} {t : Task ρ} {c : List ρ} (h : t.Ok c) : (t.block.map List.length).sum = t.count := by
  obtain ⟨w, st⟩ := t
  unfold Task.Ok at h
  unfold Task.block Task.count
  cases st with
  | done r =>
    cases r with
    | none => cases w <;> rfl
    | some n =>
      obtain ⟨rows, hw, _, hn⟩ := h
      simp only at hw
      subst hw
      simp [hn]
  | _ => cases w <;> rfl

theorem sum_blocks {ρ : Type} : ∀ {ts : List (Task ρ)} {c : List ρ}, (∀ t ∈ ts, t.Ok c) →
    ((ts.flatMap Task.block).map List.length).sum = (ts.map Task.count).sum
  | [], _, _ => rfl
  | t :: ts, c, h => by
    rw [List.flatMap_cons, List.map_append, List.sum_append, block_length (h t (by simp)),
      sum_blocks (fun x hx => h x (by simp [hx])), List.map_cons, List.sum_cons]

/-- After any schedule, whatever fails: the total is the number of rows in the batches of the file, and no batch is
empty. -/
theorem C59_total_counts_written_rows {ρ : Type} (works : List (Work ρ)) (acts : List Action) (s : Export ρ) (h : Run works acts s) :
    s.total = (s.writer.blocks.map List.length).sum ∧ [] ∉ s.writer.blocks := by
  obtain ⟨_, h2, _, h4⟩ := run_inv h
  refine ⟨?_, ?_⟩
  · rw [(h4.map List.length).sum_nat, sum_blocks h2]
    rfl
  · intro hm
    obtain ⟨t, ht, hb⟩ := List.mem_flatMap.1 (h4.mem_iff.1 hm)
    have hok := h2 t ht
    obtain ⟨w, st⟩ := t
    unfold Task.block at hb
    split at hb
    · rename_i rows n hw hst
      simp only [List.mem_singleton] at hb
      unfold Task.Ok at hok
      rw [hst] at hok
      obtain ⟨rows', hw', hne, _⟩ := hok
      rw [hw, Work.batch.injEq] at hw'
      exact hne (by rw [← hw', ← hb])
    · cases hb

theorem block_batch {ρ : Type} {t : Task ρ} {c : List ρ} (h : t.Ok c) : t.block.Sublist (batchOf t.work).toList := by
  obtain ⟨w, st⟩ := t
  unfold Task.block
  split
  · rename_i rows n hw hst
    unfold Task.Ok at h
    rw [hst] at h
    obtain ⟨rows', hw', hne, _⟩ := h
    rw [hw', Work.batch.injEq] at hw
    subst hw
    rw [hw']
    cases rows' with
    | nil => exact absurd rfl hne
    | cons r rs => exact List.Sublist.refl _
  · exact List.nil_sublist _

theorem blocks_batches {ρ : Type} : ∀ {ts : List (Task ρ)} {c : List ρ}, (∀ t ∈ ts, t.Ok c) →
    (ts.flatMap Task.block).Sublist (batches (ts.map Task.work))
  | [], _, _ => .slnil
  | t :: ts, c, h => by
    have ih := blocks_batches (fun x hx => h x (List.mem_cons_of_mem _ hx))
    have e : batches ((t :: ts).map Task.work) = (batchOf t.work).toList ++ batches (ts.map Task.work) := by
      simp only [batches, List.map_cons, List.filterMap_cons]
      cases batchOf t.work <;> rfl
    rw [List.flatMap_cons, e]
    exact (block_batch (h t (by simp))).append ih

/-- After any schedule, whatever fails: every batch in the file is the whole batch of a source, not mixed with
others, and no source is written twice. -/
theorem C59_whole_batches {ρ : Type} (works : List (Work ρ)) (acts : List Action) (s : Export ρ) (h : Run works acts s) :
    ∃ l, l.Sublist (batches works) ∧ s.writer.blocks.Perm l := by
  obtain ⟨h1, h2, _, h4⟩ := run_inv h
  exact ⟨_, h1 ▸ blocks_batches h2, h4⟩

/-- Without write failures no task ends empty-handed that has rows. -/
theorem run_noFail {ρ : Type} {works : List (Work ρ)} {acts : List Action} {s : Export ρ} (h : Run works acts s)
    (hf : Action.fail ∉ acts) : ∀ t ∈ s.tasks, t.stage = .done none → batchOf t.work = none := by
  induction h with
  | nil =>
    intro t ht hd
    simp only [Export.initial, List.mem_map] at ht
    obtain ⟨w, _, rfl⟩ := ht
    cases hd
  | step hr hs ih =>
    rename_i acts pre post t t' wr wr' a
    simp only [List.mem_append, List.mem_singleton, not_or] at hf
    have ih := ih hf.1
    intro x hx hd
    simp only [List.mem_append, List.mem_cons] at hx
    rcases hx with hx | rfl | hx
    · exact ih x (by simp [hx]) hd
    · cases hs with
      | skip => rfl
      | empty => rfl
      | fail => exact absurd rfl hf.2
      | _ => cases hd
    · exact ih x (by simp [hx]) hd

theorem blocks_all {ρ : Type} : ∀ {ts : List (Task ρ)} {c : List ρ}, (∀ t ∈ ts, t.Ok c) →
    (∀ t ∈ ts, (∃ r, t.stage = .done r) ∨ t.stage = .crashed) → (∀ t ∈ ts, t.stage = .done none → batchOf t.work = none) →
    ts.flatMap Task.block = batches (ts.map Task.work)
  | [], _, _, _, _ => rfl
  | t :: ts, c, h, hf, hn => by
    have ih := blocks_all (fun x hx => h x (List.mem_cons_of_mem _ hx)) (fun x hx => hf x (List.mem_cons_of_mem _ hx))
      (fun x hx => hn x (List.mem_cons_of_mem _ hx))
    have e : batches ((t :: ts).map Task.work) = (batchOf t.work).toList ++ batches (ts.map Task.work) := by
      simp only [batches, List.map_cons, List.filterMap_cons]
      cases batchOf t.work <;> rfl
    rw [List.flatMap_cons, e, ih]
    congr 1
    have hok := h t (by simp)
    have hft := hf t (by simp)
    have hnt := hn t (by simp)
    obtain ⟨w, st⟩ := t
    simp only at hft hnt
    rcases hft with ⟨r, rfl⟩ | rfl
    · cases r with
      | none =>
        rw [hnt rfl]
        cases w <;> rfl
      | some n =>
        obtain ⟨rows, hw, hne, _⟩ := hok
        simp only at hw
        subst hw
        cases rows with
        | nil => exact absurd rfl hne
        | cons r rs => rfl
    · have hw : w = .crash := hok
      subst hw
      rfl

/-- Every schedule that runs to the end without a failing write leaves exactly the batches of the sources with rows in
the file, each once, in some order; the total is the sum of all rows. -/
theorem C59_complete {ρ : Type} (works : List (Work ρ)) (acts : List Action) (s : Export ρ) (h : Run works acts s)
    (hf : Action.fail ∉ acts) (hd : s.finished) :
    s.writer.blocks.Perm (batches works) ∧ s.total = ((batches works).map List.length).sum := by
  obtain ⟨h1, h2, _, h4⟩ := run_inv h
  have hb : s.tasks.flatMap Task.block = batches works := by
    rw [← h1]
    exact blocks_all h2 hd (run_noFail h hf)
  rw [hb] at h4
  refine ⟨h4, ?_⟩
  rw [(C59_total_counts_written_rows works acts s h).1, (h4.map List.length).sum_nat]

/-- The serial path without failing writes: the same batches, in source order. -/
theorem exportSerial_ok {ρ : Type} {write : List (List ρ) → List ρ → Bool} (hw : ∀ b r, write b r = true) :
    ∀ (works : List (Work ρ)) (blocks : List (List ρ)) (total : Nat), Work.crash ∉ works →
    exportSerial write works blocks total = .ok (blocks ++ batches works, total + ((batches works).map List.length).sum)
  | [], blocks, total, _ => by simp [exportSerial, batches]
  | .skip :: ws, blocks, total, h => by
    rw [exportSerial, exportSerial_ok hw ws blocks total (fun hm => h (List.mem_cons_of_mem _ hm))]
    rfl
  | .crash :: ws, blocks, total, h => absurd List.mem_cons_self h
  | .batch [] :: ws, blocks, total, h => by
    have := exportSerial_ok hw ws blocks total (fun hm => h (List.mem_cons_of_mem _ hm))
    have e : batches (.batch [] :: ws) = batches ws := rfl
    rw [e]
    simpa [exportSerial, writeBatch] using this
  | .batch (r :: rs) :: ws, blocks, total, h => by
    have := exportSerial_ok hw ws (blocks ++ [r :: rs]) (total + (rs.length + 1)) (fun hm => h (List.mem_cons_of_mem _ hm))
    simpa [exportSerial, writeBatch, batches, batchOf, hw, Nat.add_assoc] using this

theorem exportSerial_crash {ρ : Type} (write : List (List ρ) → List ρ → Bool) :
    ∀ (works : List (Work ρ)) (blocks : List (List ρ)) (total : Nat), Work.crash ∈ works →
    exportSerial write works blocks total = .panic
  | .skip :: ws, blocks, total, h => by
    rw [exportSerial]
    exact exportSerial_crash write ws blocks total (by simpa using h)
  | .crash :: ws, blocks, total, h => rfl
  | .batch rows :: ws, blocks, total, h => by
    have hm : Work.crash ∈ ws := by simpa using h
    rw [exportSerial]
    split <;> exact exportSerial_crash write ws _ _ hm

/-- If no source panics and no write fails, every parallel schedule writes what the serial export writes, up to the
order of the batches, and counts the same total. -/
theorem C59_parallel_is_serial {ρ : Type} (works : List (Work ρ)) (acts : List Action) (s : Export ρ) (h : Run works acts s)
    (hf : Action.fail ∉ acts) (hd : s.finished) (hc : Work.crash ∉ works) :
    ∃ blocks, exportSerial (fun _ _ => true) works [] 0 = .ok (blocks, s.total) ∧ s.writer.blocks.Perm blocks := by
  obtain ⟨h1, h2⟩ := C59_complete works acts s h hf hd
  refine ⟨batches works, ?_, h1⟩
  rw [exportSerial_ok (fun _ _ => rfl) works [] 0 hc, h2]
  simp

/-! ### Termination -/

/-- How many steps a task can still take. -/
def Task.fuel {ρ : Type} (t : Task ρ) : Nat :=
  match t.stage, t.work with
  | .start, .batch rows => rows.length + 3
  | .start, _ => 3
  | .ready, .batch rows => rows.length + 2
  | .ready, _ => 2
  | .writing rest, _ => rest.length + 1
  | _, _ => 0

theorem step_fuel {ρ : Type} {a : Action} {t t' : Task ρ} {wr wr' : Writer ρ} (h : TaskStep a t wr t' wr') : t'.fuel + 1 ≤ t.fuel := by
  cases h <;> simp [Task.fuel]

theorem run_fuel {ρ : Type} {works : List (Work ρ)} {acts : List Action} {s : Export ρ} (h : Run works acts s) :
    acts.length + (s.tasks.map Task.fuel).sum ≤ ((Export.initial works).tasks.map Task.fuel).sum := by
  induction h with
  | nil => simp
  | step hr hs ih =>
    have := step_fuel hs
    simp only [List.map_append, List.map_cons, List.sum_append, List.sum_cons, List.length_append, List.length_singleton] at ih ⊢
    omega

theorem initial_fuel {ρ : Type} : ∀ (works : List (Work ρ)),
    ((Export.initial works).tasks.map Task.fuel).sum = 3 * works.length + ((batches works).map List.length).sum
  | [] => rfl
  | w :: ws => by
    have ih := initial_fuel ws
    simp only [Export.initial, List.map_map, List.map_cons, List.sum_cons] at ih ⊢
    rw [ih]
    have e : batches (w :: ws) = (batchOf w).toList ++ batches ws := by
      simp only [batches, List.filterMap_cons]
      cases batchOf w <;> rfl
    rw [e, List.map_append, List.sum_append, List.length_cons]
    have : (⟨w, .start⟩ : Task ρ).fuel = 3 + (((batchOf w).toList).map List.length).sum := by
      cases w with
      | batch rows => cases rows <;> simp [batchOf, Task.fuel, Nat.add_comm]
      | _ => rfl
    rw [this]
    omega

/-- Every schedule ends: no schedule has more than three steps per source and one per row. -/
theorem C59_schedules_end {ρ : Type} (works : List (Work ρ)) (acts : List Action) (s : Export ρ) (h : Run works acts s) :
    acts.length ≤ 3 * works.length + ((batches works).map List.length).sum := by
  have := run_fuel h
  rw [initial_fuel] at this
  omega

/-- A step some task can take. -/
theorem no_deadlock_step {ρ : Type} {works : List (Work ρ)} {acts : List Action} {s : Export ρ} (h : Run works acts s)
    (hd : ¬ s.finished) : ∃ a pre post t t' wr wr', a ≠ .fail ∧ TaskStep a t wr t' wr' ∧ s = ⟨pre ++ t :: post, wr⟩ := by
  obtain ⟨_, h2, h3, _⟩ := run_inv h
  obtain ⟨tasks, wr⟩ := s
  -- a task that can move
  have key : ∃ t ∈ tasks, ∃ a t' wr', a ≠ .fail ∧ TaskStep a t wr t' wr' := by
    by_cases hw : ∃ t ∈ tasks, t.isWriting = true
    · obtain ⟨t, ht, hw⟩ := hw
      refine ⟨t, ht, ?_⟩
      have hok := h2 t ht
      obtain ⟨w, st⟩ := t
      cases st with
      | writing rest =>
        cases rest with
        | nil =>
          obtain ⟨rows, hr, _⟩ := hok
          simp only at hr
          subst hr
          exact ⟨_, _, _, by decide, .finish rows wr⟩
        | cons x rest => exact ⟨_, _, _, by decide, .put w x rest wr⟩
      | _ => cases hw
    · have hfree : wr.locked = false := by
        have e : tasks.filter Task.isWriting = [] := by
          rw [List.filter_eq_nil_iff]
          intro t ht hw'
          exact hw ⟨t, ht, hw'⟩
        rw [e] at h3
        cases hl : wr.locked with
        | false => rfl
        | true => rw [hl] at h3; cases h3
      obtain ⟨t, ht, hn⟩ : ∃ t ∈ tasks, ¬ ((∃ r, t.stage = .done r) ∨ t.stage = .crashed) := by
        apply Classical.byContradiction
        intro hc
        apply hd
        intro t ht
        apply Classical.byContradiction
        intro hn
        exact hc ⟨t, ht, hn⟩
      refine ⟨t, ht, ?_⟩
      have hok := h2 t ht
      obtain ⟨w, st⟩ := t
      cases st with
      | start =>
        cases w with
        | skip => exact ⟨_, _, _, by decide, .skip wr⟩
        | crash => exact ⟨_, _, _, by decide, .crash wr⟩
        | batch rows =>
          cases rows with
          | nil => exact ⟨_, _, _, by decide, .empty wr⟩
          | cons r rs => exact ⟨_, _, _, by decide, .computed (r :: rs) wr (by simp)⟩
      | ready =>
        obtain ⟨r, rs, hr⟩ := hok
        simp only at hr
        subst hr
        exact ⟨_, _, _, by decide, .acquire (r :: rs) wr hfree⟩
      | writing rest => exact absurd ⟨_, ht, rfl⟩ hw
      | done r => exact absurd (.inl ⟨r, rfl⟩) hn
      | crashed => exact absurd (.inr rfl) hn
  obtain ⟨t, ht, a, t', wr', hne, hs⟩ := key
  obtain ⟨pre, post, rfl⟩ := List.append_of_mem ht
  exact ⟨a, pre, post, t, t', wr, wr', hne, hs, rfl⟩

/-- No deadlock: as long as a closure has not returned or panicked, some task can take a step (without a write failing). -/
theorem C59_no_deadlock {ρ : Type} (works : List (Work ρ)) (acts : List Action) (s : Export ρ) (h : Run works acts s)
    (hd : ¬ s.finished) : ∃ a s', a ≠ .fail ∧ Run works (acts ++ [a]) s' := by
  obtain ⟨a, pre, post, t, t', wr, wr', hne, hs, rfl⟩ := no_deadlock_step h hd
  exact ⟨a, _, hne, .step h hs⟩

/-- Whatever the sources, there is a schedule to the end in which no write fails. -/
theorem run_complete {ρ : Type} (works : List (Work ρ)) : ∃ acts s, Run works acts s ∧ Action.fail ∉ acts ∧ s.finished := by
  have key : ∀ (n : Nat) (acts : List Action) (s : Export ρ), Run works acts s → Action.fail ∉ acts →
      3 * works.length + ((batches works).map List.length).sum - acts.length ≤ n →
      ∃ acts' s', Run works acts' s' ∧ Action.fail ∉ acts' ∧ s'.finished := by
    intro n
    induction n with
    | zero =>
      intro acts s h hf hn
      by_cases hd : s.finished
      · exact ⟨acts, s, h, hf, hd⟩
      · obtain ⟨a, s', _, h'⟩ := C59_no_deadlock works acts s h hd
        have := C59_schedules_end works _ s' h'
        simp only [List.length_append, List.length_singleton] at this
        omega
    | succ n ih =>
      intro acts s h hf hn
      by_cases hd : s.finished
      · exact ⟨acts, s, h, hf, hd⟩
      · obtain ⟨a, s', hne, h'⟩ := C59_no_deadlock works acts s h hd
        refine ih _ s' h' ?_ ?_
        · simp only [List.mem_append, List.mem_singleton, not_or]
          exact ⟨hf, fun hc => hne hc.symm⟩
        · simp only [List.length_append, List.length_singleton]
          omega
  exact key _ [] _ .nil (by simp) (Nat.le_refl _)

/-- A schedule of two sources with rows and one without, where the second source overtakes the first. -/
theorem exampleRun : Run [Work.batch [1, 2], .batch [], .batch [3]]
    [.compute, .compute, .compute, .acquire, .put, .finish, .acquire, .put, .put, .finish]
    ⟨[⟨.batch [1, 2], .done (some 2)⟩, ⟨.batch [], .done none⟩, ⟨.batch [3], .done (some 1)⟩], ⟨false, [], [[3], [1, 2]]⟩⟩ := by
  have h0 : Run [Work.batch [1, 2], .batch [], .batch [3]] []
      ⟨[⟨.batch [1, 2], .start⟩, ⟨.batch [], .start⟩, ⟨.batch [3], .start⟩], ⟨false, [], []⟩⟩ := .nil
  have h1 := Run.step (pre := []) h0 (.computed [1, 2] _ (by simp))
  have h2 := Run.step (pre := [_]) h1 (.empty _)
  have h3 := Run.step (pre := [_, _]) h2 (.computed [3] _ (by simp))
  have h4 := Run.step (pre := [_, _]) h3 (.acquire [3] _ rfl)
  have h5 := Run.step (pre := [_, _]) h4 (.put _ 3 [] _)
  have h6 := Run.step (pre := [_, _]) h5 (.finish [3] _)
  have h7 := Run.step (pre := []) h6 (.acquire [1, 2] _ rfl)
  have h8 := Run.step (pre := []) h7 (.put _ 1 [2] _)
  have h9 := Run.step (pre := []) h8 (.put _ 2 [] _)
  exact Run.step (pre := []) h9 (.finish [1, 2] _)

example : (Export.total (⟨[⟨.batch [1, 2], .done (some 2)⟩, ⟨.batch [], .done none⟩, ⟨.batch [3], .done (some 1)⟩],
    ⟨false, [], [[3], [1, 2]]⟩⟩ : Export Nat)) = 3 := by decide

/-! ## C112: a successful export -/

/-- The rows a source contributes. -/
def Work.rows {ρ : Type} : Work ρ → List ρ
  | .batch rows => rows
  | _ => []

theorem batches_flatten {ρ : Type} : ∀ works : List (Work ρ), (batches works).flatten = works.flatMap Work.rows
  | [] => rfl
  | w :: ws => by
    have e : batches (w :: ws) = (batchOf w).toList ++ batches ws := by
      simp only [batches, List.filterMap_cons]
      cases batchOf w <;> rfl
    rw [e, List.flatten_append, batches_flatten ws, List.flatMap_cons]
    congr 1
    cases w with
    | batch rows => cases rows <;> simp [batchOf, Work.rows]
    | _ => rfl

/-- A source contributes the rows of its table, if it can be opened and its rows can be encoded. -/
theorem tableWork_batch {D ρ : Type} (w : World D) (bld : Build) (table : BalTable) (rows : Nat → Item → List ρ)
    (arrow : List ρ → Bool) (init : InitFile) (rs : List ρ) : tableWork w bld table rows arrow init = .batch rs ↔
    ∃ m, openIterator w bld init table none = .ok m ∧ arrow rs = true ∧
      collectRows (rows init.fsId) bld init.version.toNat (m.trk.data.length + m.game.data.length + 1) m = some (.ok rs) := by
  unfold tableWork
  split
  · rename_i e he
    simp [he]
  · rename_i he
    simp [he]
  · rename_i m hm
    constructor
    · intro h
      split at h
      · rename_i rs' hr
        split at h
        · rename_i ha
          simp only [Work.batch.injEq] at h
          subst h
          exact ⟨m, hm, ha, hr⟩
        · cases h
      · cases h
    · rintro ⟨m', hm', ha, hr⟩
      rw [hm, Res.ok.injEq] at hm'
      subst hm'
      rw [hr]
      simp [ha]

/-- A source crashes only if opening it or reading its events panics. -/
theorem tableWork_crash {D ρ : Type} (w : World D) (bld : Build) (table : BalTable) (rows : Nat → Item → List ρ)
    (arrow : List ρ → Bool) (init : InitFile) : tableWork w bld table rows arrow init = .crash ↔
    openIterator w bld init table none = .panic ∨ ∃ m, openIterator w bld init table none = .ok m ∧
      ∀ rs, collectRows (rows init.fsId) bld init.version.toNat (m.trk.data.length + m.game.data.length + 1) m ≠ some (.ok rs) := by
  unfold tableWork
  split
  · rename_i e he
    simp [he]
  · rename_i he
    simp [he]
  · rename_i m hm
    constructor
    · intro h
      refine .inr ⟨m, hm, fun rs hr => ?_⟩
      rw [hr] at h
      dsimp only at h
      split at h <;> cases h
    · rintro (h | ⟨m', hm', hn⟩)
      · rw [hm] at h; cases h
      · rw [hm, Res.ok.injEq] at hm'
        subst hm'
        split
        · rename_i rs hr
          exact absurd hr (hn rs)
        · rfl

/-- If no write fails, the file of a finished export of any table holds exactly the rows of the tables of the
sources that can be opened, under every schedule. -/
theorem C112_export_holds_all_rows_partial {D ρ : Type} (w : World D) (bld : Build) (table : BalTable)
    (rows : Nat → Item → List ρ) (arrow : List ρ → Bool) (sources : List InitFile) (acts : List Action) (s : Export ρ)
    (h : Run (sources.map (tableWork w bld table rows arrow)) acts s) (hf : Action.fail ∉ acts) (hd : s.finished) :
    s.writer.blocks.flatten.Perm (sources.flatMap (fun init => (tableWork w bld table rows arrow init).rows)) ∧
    s.total = s.writer.blocks.flatten.length ∧
    ∀ init ∈ sources, ∀ rs, tableWork w bld table rows arrow init = .batch rs → rs ≠ [] → rs ∈ s.writer.blocks := by
  obtain ⟨h1, _⟩ := C59_complete _ acts s h hf hd
  refine ⟨?_, ?_, ?_⟩
  · have := h1.flatten
    rw [batches_flatten, List.flatMap_map] at this
    exact this
  · rw [(C59_total_counts_written_rows _ acts s h).1, List.length_flatten]
  · intro init hi rs hw hne
    rw [h1.mem_iff]
    refine List.mem_filterMap.2 ⟨_, List.mem_map_of_mem hi, ?_⟩
    rw [hw]
    cases rs with
    | nil => exact absurd rfl hne
    | cons r rs => rfl

/-- A failing write is not reported: the export returns success and the rows are not in the file. -/
theorem C112_export_holds_all_rows_refuted {ρ : Type} (r : ρ) (rs : List ρ) : ∃ acts s, Run [Work.batch (r :: rs)] acts s ∧
    s.finished ∧ s.result (.ok ()) = .ok () ∧ s.writer.blocks = [] := by
  have h0 : Run [Work.batch (r :: rs)] [] ⟨[⟨.batch (r :: rs), .start⟩], ⟨false, [], []⟩⟩ := .nil
  have h1 := Run.step (pre := []) h0 (.computed (r :: rs) _ (by simp))
  have h2 := Run.step (pre := []) h1 (.acquire (r :: rs) _ rfl)
  have h3 := Run.step (pre := []) h2 (.fail _ (r :: rs) _)
  refine ⟨_, _, h3, ?_, rfl, rfl⟩
  intro t ht
  simp only [List.nil_append, List.mem_singleton] at ht
  exact .inl ⟨none, by rw [ht]⟩

/-- A replay with the events of `rowsFile`. -/
def exportWorld : World Nat where
  file := fun _ => .ok [1]
  mpq := fun _ => .ok
    { userData := some (exHeader 88500)
      sector := fun name =>
        if name = "replay.details" then .ok (venc P87702.ByteAligned.GameSDetails (exDetails (str "Map")))
        else if name = "replay.initData" then .ok (exInitBytes exLobby [List.replicate 40 7])
        else if name = "replay.tracker.events" then .ok wTrack
        else if name = "replay.game.events" then .ok wGame
        else .ok [] }
  sha256 := fun _ => str "0123"
  chrono := fun s _ => some s.toNat
  epoch := 0

example : tableWork exportWorld .release [] (fun fsId it => (upgradeRowOf fsId it).toList) (fun _ => true) (exInitFile exLobby) =
    .batch [⟨1, str "Stim", 1, 0, 0, 7⟩] := by decide +kernel

/-! ## C113: sources that cannot be processed -/

/-- Once all closures have come to an end, the export panics iff one of the sources panics; otherwise its result is that of
closing the file, whatever the schedule and whichever sources gave errors. -/
theorem C113_result {ρ : Type} (works : List (Work ρ)) (acts : List Action) (s : Export ρ) (h : Run works acts s)
    (hd : s.finished) (close : Res Unit) :
    (Work.crash ∈ works → s.result close = .panic) ∧ (Work.crash ∉ works → s.result close = close) := by
  obtain ⟨h1, h2, _, _⟩ := run_inv h
  have hiff : s.tasks.any Task.isCrashed = true ↔ Work.crash ∈ works := by
    rw [List.any_eq_true, ← h1, List.mem_map]
    constructor
    · rintro ⟨t, ht, hc⟩
      refine ⟨t, ht, ?_⟩
      have hok := h2 t ht
      obtain ⟨w, st⟩ := t
      cases st with
      | crashed => exact hok
      | _ => cases hc
    · rintro ⟨t, ht, hc⟩
      refine ⟨t, ht, ?_⟩
      have hok := h2 t ht
      rcases hd t ht with ⟨r, hr⟩ | hr
      · unfold Task.Ok at hok
        rw [hr] at hok
        cases r with
        | none => exact absurd hc hok
        | some n =>
          obtain ⟨rows, hw, _⟩ := hok
          rw [hc] at hw
          cases hw
      · unfold Task.isCrashed
        rw [hr]
  refine ⟨fun hc => ?_, fun hc => ?_⟩
  · unfold Export.result
    rw [if_pos (hiff.2 hc)]
  · unfold Export.result
    rw [if_neg (fun ha => hc (hiff.1 ha))]

/-- Sources that give errors instead of panics are left out and do no harm (every schedule; serial and parallel). -/
theorem C113_errors_are_skipped_partial {ρ : Type} (works : List (Work ρ)) (acts : List Action) (s : Export ρ) (h : Run works acts s)
    (hf : Action.fail ∉ acts) (hd : s.finished) (hc : Work.crash ∉ works) :
    s.result (.ok ()) = .ok () ∧ s.writer.blocks.Perm (batches works) :=
  ⟨(C113_result works acts s h hd _).2 hc, (C59_complete works acts s h hf hd).1⟩

/-- One source that panics makes both the parallel and the serial export panic, whatever the others hold. -/
theorem C113_one_bad_source_refuted {ρ : Type} (works : List (Work ρ)) (hc : Work.crash ∈ works) :
    (∀ acts s, Run works acts s → s.finished → s.result (.ok ()) = .panic) ∧
    exportSerial (fun _ _ => true) works [] 0 = .panic :=
  ⟨fun acts s h hd => (C113_result works acts s h hd _).1 hc, exportSerial_crash _ works [] 0 hc⟩

/-! ## C114: the details table -/

/-- The players joined for a source; none if the join gives an error. -/
def joined {D : Type} (w : World D) (bld : Build) (init : InitFile) : List (PlayerLobby D) :=
  match lobbyJoin w bld init with
  | .ok ps => ps
  | _ => []

theorem detailsRows_ok {D : Type} : ∀ {ps : List (PlayerLobby D)} {rs : List (DetailsRow D)}, detailsRows ps = .ok rs →
    ps.map DetailsRow.of = rs.map .ok
  | [], rs, h => by
    simp only [detailsRows, Res.ok.injEq] at h
    rw [← h]; rfl
  | p :: ps, rs, h => by
    simp only [detailsRows, Res.bind_eq_ok, Res.pure_eq, Res.ok.injEq] at h
    obtain ⟨r, h1, rs', h2, rfl⟩ := h
    rw [List.map_cons, List.map_cons, h1, detailsRows_ok h2]

theorem detailsTable_ok {D : Type} {w : World D} {bld : Build} : ∀ {inits : List InitFile} {rs : List (DetailsRow D)},
    detailsTable w bld inits = .ok rs → (inits.flatMap (joined w bld)).map DetailsRow.of = rs.map .ok
  | [], rs, h => by
    simp only [detailsTable, Res.ok.injEq] at h
    rw [← h]; rfl
  | init :: inits, rs, h => by
    rw [detailsTable] at h
    split at h
    · cases h
    · rename_i e he
      rw [List.flatMap_cons, joined, he]
      exact detailsTable_ok h
    · rename_i ps he
      simp only [Res.bind_eq_ok, Res.pure_eq, Res.ok.injEq] at h
      obtain ⟨r, h1, rs', h2, rfl⟩ := h
      rw [List.flatMap_cons, joined, he]
      simp only [List.map_append]
      rw [detailsRows_ok h1, detailsTable_ok h2]

/-- The details table has exactly one row per joined player, sources in order, players in order; a source whose details
cannot be read contributes none.  Every column has the member of the same name. -/
theorem C114_details_table {D : Type} (w : World D) (bld : Build) (inits : List InitFile) (rs : List (DetailsRow D))
    (h : detailsTable w bld inits = .ok rs) : rs.length = (inits.flatMap (joined w bld)).length ∧
    ∀ (i : Nat) (p : PlayerLobby D) (r : DetailsRow D), (inits.flatMap (joined w bld))[i]? = some p → rs[i]? = some r →
      r.playerName = p.player.name ∧ r.toonRegion = p.player.toon.region ∧ r.toonProgramId = p.player.toon.programId ∧
      r.toonRealm = p.player.toon.realm ∧ r.toonId = p.player.toon.id ∧ r.race = p.player.race ∧
      r.colorA = p.player.color.a ∧ r.colorR = p.player.color.r ∧ r.colorG = p.player.color.g ∧ r.colorB = p.player.color.b ∧
      r.control = p.player.control ∧ r.teamId = p.player.teamId ∧ r.observe = p.player.observe ∧ r.result = p.player.result ∧
      r.workingSetSlotId = p.player.workingSetSlotId ∧ r.hero = p.player.hero ∧ r.title = p.title ∧
      r.isBlizzardMap = p.description.isBlizzardMap ∧ r.timeUtc = p.timeUtc ∧ r.timeLocalOffset = p.timeLocalOffset ∧
      r.slotUserId = p.slot.userId ∧ r.slotObserve = p.slot.observe ∧ r.mapSizeX = p.description.mapSizeX ∧
      r.mapSizeY = p.description.mapSizeY ∧ r.sha256 = p.sha256 ∧ r.fileName = p.fileName ∧ r.fsId = p.fsId ∧
      r.datetime = p.datetime ∧
      handleRow p.cacheHandles = .ok ⟨r.cacheHandleRegion, r.cacheHandleExtension, r.cacheHandles⟩ := by
  have hm := detailsTable_ok h
  refine ⟨by simpa using (congrArg List.length hm).symm, ?_⟩
  intro i p r hp hr
  have he : DetailsRow.of p = .ok r := by
    have := congrArg (fun l => l[i]?) hm
    simp only [List.getElem?_map, hp, hr, Option.map_some, Option.some.injEq] at this
    exact this
  simp only [DetailsRow.of, Res.bind_eq_ok, Res.pure_eq, Res.ok.injEq] at he
  obtain ⟨hh, h1, rfl⟩ := he
  refine ⟨rfl, rfl, rfl, rfl, rfl, rfl, rfl, rfl, rfl, rfl, rfl, rfl, rfl, rfl, rfl, rfl, rfl, rfl, rfl, rfl, rfl, rfl, rfl, rfl,
    rfl, rfl, rfl, rfl, ?_⟩
  rw [h1]

/-- The players of the example file: their names and maps. -/
example : (match detailsTable (exWorld exLobby) .release [exInitFile exLobby, exInitFile exLobby] with
    | .ok rs => rs.map (fun r => (r.playerName, r.title))
    | _ => []) = [(str "Ann", str "Map"), (str "Bob", str "Map"), (str "Ann", str "Map"), (str "Bob", str "Map")] := by decide +kernel

end S2
