import Verif.Spec.SnapshotSpec
/-! # Snapshots: crash points, completeness, consistency -/
namespace S2

variable {ρ : Type}

theorem NewFile.of_full {job : SnapJob ρ} {f : SnapFile} {c : Option (FileC ρ)} (h : FullFile job f c) : NewFile job f c := by
  unfold FullFile at h
  unfold NewFile
  split
  · rename_i hf
    rwa [if_pos hf] at h
  · rename_i hf
    rw [if_neg hf] at h
    obtain ⟨b, h1, h2⟩ := h
    exact ⟨b, _, h1, List.Sublist.refl _, h2⟩

/-- What is known of a finished file. -/
def Finished (job : SnapJob ρ) (acts : List SnapAct) (f : SnapFile) (c : Option (FileC ρ)) : Prop :=
  NewFile job f c ∧ (SnapAct.task .fail ∉ acts → FullFile job f c) ∧ (f ≠ .details → Work.crash ∉ job.works f)

theorem Finished.mono {job : SnapJob ρ} {acts : List SnapAct} {f : SnapFile} {c : Option (FileC ρ)} (h : Finished job acts f c) (a : SnapAct) :
    Finished job (acts ++ [a]) f c :=
  ⟨h.1, fun hn => h.2.1 (fun hm => hn (List.mem_append_left _ hm)), h.2.2⟩

def SnapInv (job : SnapJob ρ) (d0 : Disk ρ) (acts : List SnapAct) (d : Disk ρ) : SnapPhase ρ → Prop
  | .check => d = d0
  | .start => d = d0 ∧ job.outputIsDir = true
  | .detailsOpen => d = d0.set .details .cut ∧ job.outputIsDir = true
  | .next rest => ∃ done, snapOrder = done ++ rest ∧ done ≠ [] ∧ (∀ f ∈ done, Finished job acts f (d f)) ∧ (∀ f ∈ rest, d f = d0 f)
  | .writing f rest s => ∃ done, snapOrder = done ++ f :: rest ∧ (∀ g ∈ done, Finished job acts g (d g)) ∧ d f = some .cut ∧
      (∀ g ∈ rest, d g = d0 g) ∧ f ≠ .details ∧ ∃ as, Run (job.works f) as s ∧ (Action.fail ∈ as → SnapAct.task .fail ∈ acts)
  | .stopped r => ∃ done rest, CrashPoint job d0 d done rest ∧ (SnapAct.task .fail ∉ acts → ∀ f ∈ done, FullFile job f (d f)) ∧
      (∀ f ∈ done, f ≠ .details → Work.crash ∉ job.works f) ∧ (r = .ok () → rest = [])

theorem Disk.set_same (d : Disk ρ) (f : SnapFile) (c : FileC ρ) : d.set f c f = some c := by simp [Disk.set]
theorem Disk.set_other (d : Disk ρ) {f g : SnapFile} (c : FileC ρ) (h : g ≠ f) : d.set f c g = d g := by simp [Disk.set, h]

theorem snapOrder_nodup : snapOrder.Nodup := by decide

theorem snapOrder_split {done rest : List SnapFile} {f : SnapFile} (h : snapOrder = done ++ f :: rest) : f ∉ done ∧ f ∉ rest := by
  have hn := snapOrder_nodup
  rw [h, List.nodup_append] at hn
  obtain ⟨_, h2, h3⟩ := hn
  exact ⟨fun hm => h3 f hm f (by simp) rfl, (List.nodup_cons.1 h2).1⟩

theorem snapOrder_details {done rest : List SnapFile} {f : SnapFile} (h : snapOrder = done ++ f :: rest) (hd : done ≠ []) :
    f ≠ .details := by
  rintro rfl
  cases done with
  | nil => exact hd rfl
  | cons g gs =>
    have hg : g = .details := by
      have := congrArg List.head? h
      simpa [snapOrder] using this.symm
    exact (snapOrder_split h).1 (by simp [hg])

theorem crashPoint_initial (job : SnapJob ρ) (d0 d : Disk ρ) (h : d .details = d0 .details ∨ d .details = some .cut)
    (h' : ∀ f, f ≠ .details → d f = d0 f) : CrashPoint job d0 d [] snapOrder := by
  refine ⟨rfl, by simp, ?_, ?_⟩
  · intro f hf
    simp only [snapOrder, List.head?_cons, Option.some.injEq] at hf
    subst hf
    exact h
  · intro f hf
    refine h' f ?_
    rintro rfl
    revert hf
    decide

theorem snap_step {job : SnapJob ρ} {d0 d d' : Disk ρ} {acts : List SnapAct} {a : SnapAct} {p p' : SnapPhase ρ}
    (hi : SnapInv job d0 acts d p) (hs : SnapStep job a d p d' p') : SnapInv job d0 (acts ++ [a]) d' p' := by
  cases hs with
  | notDir _ h =>
    have hd : d = d0 := hi
    subst hd
    exact ⟨[], snapOrder, crashPoint_initial _ _ _ (.inl rfl) (fun _ _ => rfl), by simp, by simp, by simp⟩
  | isDir _ h => exact ⟨hi, h⟩
  | detailsPanic _ h =>
    have hd : d = d0 := hi.1
    subst hd
    exact ⟨[], snapOrder, crashPoint_initial _ _ _ (.inl rfl) (fun _ _ => rfl), by simp, by simp, by simp⟩
  | detailsErr _ e h =>
    have hd : d = d0 := hi.1
    subst hd
    exact ⟨[], snapOrder, crashPoint_initial _ _ _ (.inl rfl) (fun _ _ => rfl), by simp, by simp, by simp⟩
  | detailsCreate _ rows h =>
    have hd : d = d0 := hi.1
    subst hd
    exact ⟨rfl, hi.2⟩
  | detailsCreateFail _ rows e h =>
    have hd : d = d0 := hi.1
    subst hd
    exact ⟨[], snapOrder, crashPoint_initial _ _ _ (.inl rfl) (fun _ _ => rfl), by simp, by simp, by simp⟩
  | detailsWrite _ rows h =>
    obtain ⟨rfl, _⟩ := hi
    refine ⟨[.details], rfl, by simp, ?_, ?_⟩
    · intro f hf
      simp only [List.mem_singleton] at hf
      subst hf
      have hfull : FullFile job .details (Disk.set (Disk.set d0 .details .cut) .details (.table [rows]) .details) := by
        unfold FullFile
        rw [if_pos rfl]
        exact ⟨rows, h, Disk.set_same _ _ _⟩
      exact ⟨.of_full hfull, fun _ => hfull, fun hne => absurd rfl hne⟩
    · intro f hf
      have : f ≠ .details := by rintro rfl; revert hf; decide
      rw [Disk.set_other _ _ this, Disk.set_other _ _ this]
  | detailsWriteFail _ e =>
    obtain ⟨rfl, _⟩ := hi
    exact ⟨[], snapOrder, crashPoint_initial _ _ _ (.inr (Disk.set_same _ _ _)) (fun f hf => Disk.set_other _ _ hf), by simp, by simp, by simp⟩
  | create _ f rest =>
    obtain ⟨done, h1, h0, h2, h3⟩ := hi
    obtain ⟨n1, n2⟩ := snapOrder_split h1
    refine ⟨done, h1, ?_, Disk.set_same _ _ _, ?_, snapOrder_details h1 h0, [], .nil, by simp⟩
    · intro g hg
      rw [Disk.set_other _ _ (by rintro rfl; exact n1 hg)]
      exact (h2 g hg).mono _
    · intro g hg
      rw [Disk.set_other _ _ (by rintro rfl; exact n2 hg)]
      exact h3 g (by simp [hg])
  | createFail _ f rest e =>
    obtain ⟨done, h1, h0, h2, h3⟩ := hi
    refine ⟨done, f :: rest, ⟨h1, fun g hg => (h2 g hg).1, ?_, fun g hg => h3 g (List.mem_cons_of_mem _ hg)⟩,
      fun hn g hg => ((h2 g hg).mono _).2.1 hn, fun g hg => (h2 g hg).2.2, by simp⟩
    intro g hg
    exact .inl (h3 g (List.mem_of_mem_head? hg))
  | headerFail _ f rest e =>
    obtain ⟨done, h1, h0, h2, h3⟩ := hi
    obtain ⟨n1, n2⟩ := snapOrder_split h1
    have e1 : ∀ g ∈ done, (d.set f .cut) g = d g := fun g hg => Disk.set_other _ _ (by rintro rfl; exact n1 hg)
    refine ⟨done, f :: rest, ⟨h1, fun g hg => by rw [e1 g hg]; exact (h2 g hg).1, ?_, ?_⟩,
      fun hn g hg => by rw [e1 g hg]; exact ((h2 g hg).mono _).2.1 hn, fun g hg => (h2 g hg).2.2, by simp⟩
    · intro g hg
      simp only [List.head?_cons, Option.some.injEq] at hg
      subst hg
      exact .inr (Disk.set_same _ _ _)
    · intro g hg
      rw [Disk.set_other _ _ (by rintro rfl; exact n2 hg)]
      exact h3 g (List.mem_cons_of_mem _ hg)
  | task _ f rest pre post t t' wr wr' a ht =>
    obtain ⟨done, h1, h2, h3, h4, h5, as, h6, h7⟩ := hi
    refine ⟨done, h1, fun g hg => (h2 g hg).mono _, h3, h4, h5, as ++ [a], .step h6 ht, ?_⟩
    intro hm
    simp only [List.mem_append, List.mem_singleton] at hm ⊢
    rcases hm with hm | rfl
    · exact .inl (h7 hm)
    · exact .inr rfl
  | crashed _ f rest s hc =>
    obtain ⟨done, h1, h2, h3, h4, _⟩ := hi
    refine ⟨done, f :: rest, ⟨h1, fun g hg => (h2 g hg).1, ?_, h4⟩, fun hn g hg => ((h2 g hg).mono _).2.1 hn,
      fun g hg => (h2 g hg).2.2, by simp⟩
    intro g hg
    simp only [List.head?_cons, Option.some.injEq] at hg
    subst hg
    exact .inr h3
  | close _ f rest s hf hc =>
    obtain ⟨done, h1, h2, h3, h4, h5, as, h6, h7⟩ := hi
    obtain ⟨n1, n2⟩ := snapOrder_split h1
    refine ⟨done ++ [f], by rw [h1]; simp, by simp, ?_, ?_⟩
    · intro g hg
      simp only [List.mem_append, List.mem_singleton] at hg
      rcases hg with hg | rfl
      · rw [Disk.set_other _ _ (by rintro rfl; exact n1 hg)]
        exact (h2 g hg).mono _
      · rw [Disk.set_same]
        refine ⟨?_, ?_, ?_⟩
        · unfold NewFile
          rw [if_neg h5]
          obtain ⟨l, hl, hp⟩ := C59_whole_batches _ _ _ h6
          exact ⟨_, l, rfl, hl, hp⟩
        · intro hn
          unfold FullFile
          rw [if_neg h5]
          refine ⟨_, rfl, (C59_complete _ _ _ h6 ?_ hf).1⟩
          intro hm
          exact hn (List.mem_append_left _ (h7 hm))
        · intro _ hcr
          have := (C113_result _ _ _ h6 hf (.ok ())).1 hcr
          unfold Export.result at this
          rw [hc] at this
          cases this
    · intro g hg
      rw [Disk.set_other _ _ (by rintro rfl; exact n2 hg)]
      exact h4 g hg
  | closeFail _ f rest s e hf hc =>
    obtain ⟨done, h1, h2, h3, h4, _⟩ := hi
    refine ⟨done, f :: rest, ⟨h1, fun g hg => (h2 g hg).1, ?_, h4⟩, fun hn g hg => ((h2 g hg).mono _).2.1 hn,
      fun g hg => (h2 g hg).2.2, by simp⟩
    intro g hg
    simp only [List.head?_cons, Option.some.injEq] at hg
    subst hg
    exact .inr h3
  | success _ =>
    obtain ⟨done, h1, h0, h2, h3⟩ := hi
    exact ⟨done, [], ⟨h1, fun g hg => (h2 g hg).1, by simp, by simp⟩, fun hn g hg => ((h2 g hg).mono _).2.1 hn,
      fun g hg => (h2 g hg).2.2, fun _ => rfl⟩

theorem snap_inv {job : SnapJob ρ} {d0 d : Disk ρ} {acts : List SnapAct} {p : SnapPhase ρ} (h : SnapRun job d0 acts d p) :
    SnapInv job d0 acts d p := by
  induction h with
  | nil => rfl
  | step _ hs ih => exact snap_step ih hs

/-- Every state, with what is known of it. -/
theorem snap_point {job : SnapJob ρ} {d0 d : Disk ρ} {acts : List SnapAct} {p : SnapPhase ρ} (h : SnapRun job d0 acts d p) :
    ∃ done rest, CrashPoint job d0 d done rest ∧ (SnapAct.task .fail ∉ acts → ∀ f ∈ done, FullFile job f (d f)) ∧
      (∀ f ∈ done, f ≠ .details → Work.crash ∉ job.works f) ∧ (p = .stopped (.ok ()) → rest = []) := by
  have hi := snap_inv h
  cases p with
  | check =>
    have hd : d = d0 := hi
    subst hd
    exact ⟨[], snapOrder, crashPoint_initial _ _ _ (.inl rfl) (fun _ _ => rfl), by simp, by simp, by simp⟩
  | start =>
    have hd : d = d0 := hi.1
    subst hd
    exact ⟨[], snapOrder, crashPoint_initial _ _ _ (.inl rfl) (fun _ _ => rfl), by simp, by simp, by simp⟩
  | detailsOpen =>
    obtain ⟨rfl, _⟩ := hi
    exact ⟨[], snapOrder, crashPoint_initial _ _ _ (.inr (Disk.set_same _ _ _)) (fun f hf => Disk.set_other _ _ hf), by simp, by simp, by simp⟩
  | next rest =>
    obtain ⟨done, h1, h0, h2, h3⟩ := hi
    exact ⟨done, rest, ⟨h1, fun g hg => (h2 g hg).1, fun g hg => .inl (h3 g (List.mem_of_mem_head? hg)),
      fun g hg => h3 g (List.mem_of_mem_tail hg)⟩, fun hn g hg => (h2 g hg).2.1 hn, fun g hg => (h2 g hg).2.2, by simp⟩
  | writing f rest s =>
    obtain ⟨done, h1, h2, h3, h4, _⟩ := hi
    refine ⟨done, f :: rest, ⟨h1, fun g hg => (h2 g hg).1, ?_, h4⟩, fun hn g hg => (h2 g hg).2.1 hn,
      fun g hg => (h2 g hg).2.2, by simp⟩
    intro g hg
    simp only [List.head?_cons, Option.some.injEq] at hg
    subst hg
    exact .inr h3
  | stopped r =>
    obtain ⟨done, rest, h1, h2, h3, h4⟩ := hi
    refine ⟨done, rest, h1, h2, h3, ?_⟩
    intro hp
    simp only [SnapPhase.stopped.injEq] at hp
    exact h4 hp


/-! ## C129: crash points -/

/-- Whenever the program stops, is killed or fails: the files are written one after the other in the order of `snapOrder`;
the ones before the current one are complete and new, the current one is as before or cut off, the ones after it are as before
the run.  If no write failed, the complete ones hold all rows of this run. -/
theorem C129_every_crash_point (job : SnapJob ρ) (before now : Disk ρ) (acts : List SnapAct) (p : SnapPhase ρ)
    (h : SnapRun job before acts now p) : ∃ written rest, CrashPoint job before now written rest ∧
      (SnapAct.task .fail ∉ acts → ∀ f ∈ written, FullFile job f (now f)) := by
  obtain ⟨done, rest, h1, h2, _⟩ := snap_point h
  exact ⟨done, rest, h1, h2⟩

theorem newFile_readable {job : SnapJob ρ} {f : SnapFile} {c : Option (FileC ρ)} (h : NewFile job f c) : readableFile c ≠ none := by
  unfold NewFile at h
  split at h
  · obtain ⟨rows, _, rfl⟩ := h
    simp [readableFile]
  · obtain ⟨b, l, rfl, _⟩ := h
    simp [readableFile]

theorem mem_snapOrder (f : SnapFile) : f ∈ snapOrder := by cases f <;> decide

/-- At every moment at most one file that could be read before the run cannot be read. -/
theorem C129_one_file_at_risk (job : SnapJob ρ) (before now : Disk ρ) (acts : List SnapAct) (p : SnapPhase ρ)
    (h : SnapRun job before acts now p) (f g : SnapFile)
    (hf : readableFile (before f) ≠ none ∧ readableFile (now f) = none)
    (hg : readableFile (before g) ≠ none ∧ readableFile (now g) = none) : f = g := by
  obtain ⟨done, rest, ⟨h1, h2, h3, h4⟩, _⟩ := snap_point h
  have key : ∀ f, readableFile (before f) ≠ none ∧ readableFile (now f) = none → rest.head? = some f := by
    intro f hf
    have hm := mem_snapOrder f
    rw [h1, List.mem_append] at hm
    rcases hm with hm | hm
    · exact absurd hf.2 (newFile_readable (h2 f hm))
    · cases rest with
      | nil => cases hm
      | cons x xs =>
        rcases List.mem_cons.1 hm with rfl | hm
        · rfl
        · have := h4 f hm
          rw [this] at hf
          exact absurd hf.2 hf.1
  have e := (key f hf).symm.trans (key g hg)
  simpa using e

/-! ## C130: a snapshot that succeeds -/

/-- When the snapshot returns success every one of the seven files is complete and of this run, whatever was in the directory
before; it holds all rows of this run if no write failed. -/
theorem C130_success (job : SnapJob ρ) (before now : Disk ρ) (acts : List SnapAct)
    (h : SnapRun job before acts now (.stopped (.ok ()))) :
    (∀ f, NewFile job f (now f)) ∧ (SnapAct.task .fail ∉ acts → ∀ f, FullFile job f (now f)) := by
  obtain ⟨done, rest, ⟨h1, h2, _⟩, h3, _, h4⟩ := snap_point h
  rw [h4 rfl, List.append_nil] at h1
  exact ⟨fun f => h2 f (h1 ▸ mem_snapOrder f), fun hn f => h3 hn f (h1 ▸ mem_snapOrder f)⟩

theorem snap_tasks {job : SnapJob ρ} {d0 d : Disk ρ} {acts : List SnapAct} {f : SnapFile} {rest : List SnapFile}
    (h : SnapRun job d0 acts d (.writing f rest (Export.initial (job.works f)))) :
    ∀ {as : List Action} {s : Export ρ}, Run (job.works f) as s →
      SnapRun job d0 (acts ++ as.map .task) d (.writing f rest s) := by
  intro as s hr
  induction hr with
  | nil => simpa using h
  | step _ hs ih =>
    have := SnapRun.step ih (.task _ _ _ _ _ _ _ _ _ _ hs)
    simpa using this

theorem snap_tables {job : SnapJob ρ} {d0 : Disk ρ} : ∀ (rest : List SnapFile) {acts : List SnapAct} {d : Disk ρ},
    SnapRun job d0 acts d (.next rest) → (∀ f ∈ rest, Work.crash ∉ job.works f) →
    SnapAct.ioFail ∉ acts → SnapAct.task .fail ∉ acts →
    ∃ acts' d', SnapRun job d0 acts' d' (.stopped (.ok ())) ∧ SnapAct.ioFail ∉ acts' ∧ SnapAct.task .fail ∉ acts'
  | [], acts, d, h, _, h1, h2 => ⟨_, _, .step h (.success d), by simp [h1], by simp [h2]⟩
  | f :: rest, acts, d, h, hc, h1, h2 => by
    have hcr := SnapRun.step h (.create d f rest)
    obtain ⟨as, s, hr, hf, hd⟩ := run_complete (job.works f)
    have ht := snap_tasks hcr hr
    have hn : s.tasks.any Task.isCrashed = false := by
      have := (C113_result _ _ _ hr hd (.ok ())).2 (hc f (by simp))
      unfold Export.result at this
      cases hb : s.tasks.any Task.isCrashed with
      | false => rfl
      | true => rw [hb] at this; cases this
    have hcl := SnapRun.step ht (.close _ f rest s hd hn)
    refine snap_tables rest hcl (fun g hg => hc g (by simp [hg])) ?_ ?_
    · simp [h1]
    · simp [h2, hf]

/-- If the output is a directory, the details can be computed and no source panics, a run without I/O failures to success
exists from every directory: in particular running again after a crash. -/
theorem C130_rerun_succeeds (job : SnapJob ρ) (before : Disk ρ) (rows : List ρ) (ho : job.outputIsDir = true)
    (hd : job.details = .ok rows) (hc : ∀ f, Work.crash ∉ job.works f) :
    ∃ acts now, SnapRun job before acts now (.stopped (.ok ())) ∧ SnapAct.ioFail ∉ acts ∧ SnapAct.task .fail ∉ acts := by
  have h1 := SnapRun.step (SnapRun.nil (job := job) (d0 := before)) (.isDir _ ho)
  have h2 := SnapRun.step h1 (.detailsCreate _ _ hd)
  have h3 := SnapRun.step h2 (.detailsWrite _ _ hd)
  exact snap_tables _ h3 (fun f _ => hc f) (by simp) (by simp)

theorem snap_isDir {job : SnapJob ρ} {d0 d : Disk ρ} {acts : List SnapAct} {p : SnapPhase ρ} (h : SnapRun job d0 acts d p) :
    p ≠ .check → (∀ r, p ≠ .stopped r) → job.outputIsDir = true := by
  induction h with
  | nil => intro hc; exact absurd rfl hc
  | step _ hs ih =>
    intro hc hr
    cases hs with
    | isDir _ hh => exact hh
    | detailsCreate => exact ih (by simp) (by simp)
    | detailsWrite => exact ih (by simp) (by simp)
    | create => exact ih (by simp) (by simp)
    | task => exact ih (by simp) (by simp)
    | close => exact ih (by simp) (by simp)
    | _ => exact absurd rfl (hr _)

/-- Without I/O failures (failing writes of batches are not reported, C112) the result is decided by the job: success, or a
panic because the output is no directory or a source panics, or the error of the details table. -/
theorem C130_result (job : SnapJob ρ) (before now : Disk ρ) (acts : List SnapAct) (r : Res Unit)
    (h : SnapRun job before acts now (.stopped r)) (hio : SnapAct.ioFail ∉ acts) :
    (r = .ok () ∧ job.outputIsDir = true ∧ (∃ rows, job.details = .ok rows) ∧ ∀ f ∈ SnapFile.tables, Work.crash ∉ job.works f) ∨
    (r = .panic ∧ (job.outputIsDir = false ∨ job.details = .panic ∨ ∃ f ∈ SnapFile.tables, Work.crash ∈ job.works f)) ∨
    (∃ e, r = .err e ∧ job.details = .err e) := by
  cases h with
  | step h hs =>
    rename_i acts d p a
    simp only [List.mem_append, List.mem_singleton, not_or] at hio
    have hi := snap_inv h
    cases hs with
    | notDir _ hh => exact .inr (.inl ⟨rfl, .inl hh⟩)
    | detailsPanic _ hh => exact .inr (.inl ⟨rfl, .inr (.inl hh)⟩)
    | detailsErr _ e hh => exact .inr (.inr ⟨e, rfl, hh⟩)
    | crashed _ f rest s hc =>
      obtain ⟨done, h1, _, _, _, h5, as, h6, _⟩ := hi
      obtain ⟨hw, hok, _, _⟩ := run_inv h6
      obtain ⟨t, ht, hcr⟩ := List.any_eq_true.1 hc
      refine .inr (.inl ⟨rfl, .inr (.inr ⟨f, ?_, ?_⟩)⟩)
      · have := mem_snapOrder f
        revert this h5
        cases f <;> decide
      · rw [← hw]
        refine List.mem_map.2 ⟨t, ht, ?_⟩
        have := hok t ht
        obtain ⟨w, st⟩ := t
        cases st with
        | crashed => exact this
        | _ => cases hcr
    | success =>
      obtain ⟨done, h1, h0, h2, _⟩ := hi
      rw [List.append_nil] at h1
      refine .inl ⟨rfl, snap_isDir h (by simp) (by simp), ?_, ?_⟩
      · have := (h2 .details (h1 ▸ mem_snapOrder _)).1
        unfold NewFile at this
        rw [if_pos rfl] at this
        obtain ⟨rows, hr, _⟩ := this
        exact ⟨rows, hr⟩
      · intro f hf
        refine (h2 f (h1 ▸ mem_snapOrder _)).2.2 ?_
        rintro rfl
        revert hf
        decide
    | detailsCreateFail => exact absurd rfl hio.2
    | detailsWriteFail => exact absurd rfl hio.2
    | createFail => exact absurd rfl hio.2
    | headerFail => exact absurd rfl hio.2
    | closeFail => exact absurd rfl hio.2


/-! ### Termination -/

/-- How many steps are left. -/
def SnapPhase.fuel (job : SnapJob ρ) : SnapPhase ρ → Nat
  | .check => 4 + (SnapFile.tables.map (fun f => 2 + ((Export.initial (job.works f)).tasks.map Task.fuel).sum)).sum
  | .start => 3 + (SnapFile.tables.map (fun f => 2 + ((Export.initial (job.works f)).tasks.map Task.fuel).sum)).sum
  | .detailsOpen => 2 + (SnapFile.tables.map (fun f => 2 + ((Export.initial (job.works f)).tasks.map Task.fuel).sum)).sum
  | .next rest => 1 + (rest.map (fun f => 2 + ((Export.initial (job.works f)).tasks.map Task.fuel).sum)).sum
  | .writing _ rest s => 2 + (s.tasks.map Task.fuel).sum + (rest.map (fun f => 2 + ((Export.initial (job.works f)).tasks.map Task.fuel).sum)).sum
  | .stopped _ => 0

theorem snap_fuel {job : SnapJob ρ} {d d' : Disk ρ} {a : SnapAct} {p p' : SnapPhase ρ} (h : SnapStep job a d p d' p') :
    p'.fuel job + 1 ≤ p.fuel job := by
  cases h with
  | create _ f rest =>
    simp only [SnapPhase.fuel, List.map_cons, List.sum_cons]
    omega
  | task _ f rest pre post t t' wr wr' a ht =>
    have := step_fuel ht
    simp only [SnapPhase.fuel, List.map_append, List.map_cons, List.sum_append, List.sum_cons]
    omega
  | _ => simp only [SnapPhase.fuel] <;> omega

theorem snap_run_fuel {job : SnapJob ρ} {d0 d : Disk ρ} {acts : List SnapAct} {p : SnapPhase ρ} (h : SnapRun job d0 acts d p) :
    acts.length + p.fuel job ≤ (SnapPhase.check : SnapPhase ρ).fuel job := by
  induction h with
  | nil => simp
  | step _ hs ih =>
    have := snap_fuel hs
    simp only [List.length_append, List.length_singleton]
    omega

/-- Every run comes to an end: its length is bounded by the number of sources and rows, and as long as it has not stopped
it can go on without an I/O failure. -/
theorem C130_ends (job : SnapJob ρ) (before now : Disk ρ) (acts : List SnapAct) (p : SnapPhase ρ)
    (h : SnapRun job before acts now p) :
    acts.length ≤ 4 + (SnapFile.tables.map (fun f => 2 + (3 * (job.works f).length + ((batches (job.works f)).map List.length).sum))).sum ∧
    ((∀ r, p ≠ .stopped r) → ∃ a d' p', a ≠ .ioFail ∧ a ≠ .task .fail ∧ SnapRun job before (acts ++ [a]) d' p') := by
  refine ⟨?_, ?_⟩
  · have := snap_run_fuel h
    simp only [SnapPhase.fuel, initial_fuel] at this
    omega
  · intro hr
    have hi := snap_inv h
    cases p with
    | check =>
      cases ho : job.outputIsDir with
      | true => exact ⟨_, _, _, by simp, by simp, .step h (.isDir _ ho)⟩
      | false => exact ⟨_, _, _, by simp, by simp, .step h (.notDir _ ho)⟩
    | start =>
      cases hd : job.details with
      | ok rows => exact ⟨_, _, _, by simp, by simp, .step h (.detailsCreate _ rows hd)⟩
      | err e => exact ⟨_, _, _, by simp, by simp, .step h (.detailsErr _ e hd)⟩
      | panic => exact ⟨_, _, _, by simp, by simp, .step h (.detailsPanic _ hd)⟩
    | detailsOpen =>
      obtain ⟨rows, hd⟩ : ∃ rows, job.details = .ok rows := by
        cases h with
        | step h hs =>
          cases hs with
          | detailsCreate _ rows hh => exact ⟨rows, hh⟩
      exact ⟨_, _, _, by simp, by simp, .step h (.detailsWrite _ rows hd)⟩
    | next rest =>
      cases rest with
      | nil => exact ⟨_, _, _, by simp, by simp, .step h (.success _)⟩
      | cons f rest => exact ⟨_, _, _, by simp, by simp, .step h (.create _ f rest)⟩
    | writing f rest s =>
      obtain ⟨done, h1, _, _, _, h5, as, h6, _⟩ := hi
      by_cases hd : s.finished
      · cases hc : s.tasks.any Task.isCrashed with
        | true => exact ⟨_, _, _, by simp, by simp, .step h (.crashed _ f rest s hc)⟩
        | false => exact ⟨_, _, _, by simp, by simp, .step h (.close _ f rest s hd hc)⟩
      · obtain ⟨a, pre, post, t, t', wr, wr', hne, hs, rfl⟩ := no_deadlock_step h6 hd
        exact ⟨_, _, _, by simp, by simpa using hne, .step h (.task _ f rest pre post t t' wr wr' a hs)⟩
    | stopped r => exact absurd rfl (hr r)


/-! ## C131: do the readable files belong together? -/

/-- Written into a directory without readable files, all files that can be read at any moment are of this run. -/
theorem C131_one_run_partial (job : SnapJob ρ) (before now : Disk ρ) (acts : List SnapAct) (p : SnapPhase ρ)
    (h : SnapRun job before acts now p) (hb : ∀ f, readableFile (before f) = none) (f : SnapFile)
    (hf : readableFile (now f) ≠ none) : NewFile job f (now f) := by
  obtain ⟨done, rest, ⟨h1, h2, h3, h4⟩, _⟩ := snap_point h
  have hm := mem_snapOrder f
  rw [h1, List.mem_append] at hm
  rcases hm with hm | hm
  · exact h2 f hm
  · cases rest with
    | nil => cases hm
    | cons x xs =>
      rcases List.mem_cons.1 hm with rfl | hm
      · rcases h3 f rfl with h3 | h3
        · rw [h3] at hf; exact absurd (hb f) hf
        · rw [h3] at hf; exact absurd rfl hf
      · rw [h4 f hm] at hf
        exact absurd (hb f) hf

/-- A job with the row `n` in every table. -/
def constJob (n : Nat) : SnapJob Nat := ⟨true, .ok [n], fun _ => [.batch [n]]⟩

theorem constJob_files {n : Nat} {f : SnapFile} {c : Option (FileC Nat)} (h : FullFile (constJob n) f c) : c = some (.table [[n]]) := by
  unfold FullFile at h
  split at h
  · obtain ⟨rows, hr, rfl⟩ := h
    simp only [constJob, Res.ok.injEq] at hr
    rw [← hr]
  · obtain ⟨b, rfl, hp⟩ := h
    have : b.Perm [[n]] := hp
    rw [List.perm_singleton.1 this]

/-- In general not: there is a directory left by a successful snapshot, and a later snapshot that returns an error (or is
killed) leaving seven readable files of which the details are of the later and all others of the earlier run. -/
theorem C131_one_run_refuted : ∃ (job0 job1 : SnapJob Nat) (acts0 acts1 : List SnapAct) (d0 d1 : Disk Nat) (e : Err),
    SnapRun job0 (fun _ => none) acts0 d0 (.stopped (.ok ())) ∧ SnapRun job1 d0 acts1 d1 (.stopped (.err e)) ∧
    (∀ f, readableFile (d1 f) ≠ none) ∧ NewFile job1 .details (d1 .details) ∧ ¬ NewFile job0 .details (d1 .details) ∧
    (∀ f, f ≠ .details → NewFile job0 f (d1 f) ∧ ¬ NewFile job1 f (d1 f)) := by
  obtain ⟨acts, d0, h0, hio, hfail⟩ := C130_rerun_succeeds (constJob 0) (fun _ => none) [0] rfl rfl
    (by intro f; simp [constJob])
  have hd0 : ∀ f, d0 f = some (.table [[0]]) := fun f => constJob_files ((C130_success _ _ _ _ h0).2 hfail f)
  have h1 := SnapRun.step (SnapRun.nil (job := constJob 1) (d0 := d0)) (.isDir _ rfl)
  have h2 := SnapRun.step h1 (.detailsCreate _ [1] rfl)
  have h3 := SnapRun.step h2 (.detailsWrite _ [1] rfl)
  have h4 := SnapRun.step h3 (.createFail _ .stats _ .eof)
  refine ⟨constJob 0, constJob 1, acts, _, d0, _, .eof, h0, h4, ?_, ?_, ?_, ?_⟩
  · intro f
    by_cases hf : f = .details
    · subst hf
      rw [Disk.set_same]
      simp [readableFile]
    · rw [Disk.set_other _ _ hf, Disk.set_other _ _ hf, hd0]
      simp [readableFile]
  · rw [Disk.set_same]
    unfold NewFile
    rw [if_pos rfl]
    exact ⟨[1], rfl, rfl⟩
  · rw [Disk.set_same]
    unfold NewFile
    rw [if_pos rfl]
    rintro ⟨rows, hr, hc⟩
    simp only [constJob, Res.ok.injEq] at hr
    subst hr
    revert hc
    decide
  · intro f hf
    rw [Disk.set_other _ _ hf, Disk.set_other _ _ hf, hd0]
    unfold NewFile
    rw [if_neg hf, if_neg hf]
    refine ⟨⟨[[0]], [[0]], rfl, List.Sublist.refl _, List.Perm.refl _⟩, ?_⟩
    rintro ⟨b, l, hb, hl, hp⟩
    simp only [Option.some.injEq, FileC.table.injEq] at hb
    subst hb
    have hm : ([0] : List Nat) ∈ batches ((constJob 1).works f) := hl.mem (hp.mem_iff.1 (by simp))
    simp [constJob, batches, batchOf] at hm

/-! ## C132: does a failed snapshot leave the earlier one alone? -/

/-- It does if the output is no directory or the details rows cannot be computed: nothing is touched. -/
theorem C132_failure_keeps_old_partial (job : SnapJob ρ) (before now : Disk ρ) (acts : List SnapAct) (p : SnapPhase ρ)
    (h : SnapRun job before acts now p) (hj : job.outputIsDir = false ∨ ∀ rows, job.details ≠ .ok rows) : now = before := by
  have key : now = before ∧ (p = .check ∨ (p = .start ∧ job.outputIsDir = true) ∨ ∃ r, p = .stopped r) := by
    induction h with
    | nil => exact ⟨rfl, .inl rfl⟩
    | step _ hs ih =>
      obtain ⟨rfl, hp⟩ := ih
      have bad : ∀ q : SnapPhase ρ, (q = .check ∨ (q = .start ∧ job.outputIsDir = true) ∨ ∃ r, q = .stopped r) →
          q ≠ .detailsOpen ∧ (∀ l, q ≠ .next l) ∧ (∀ f l s, q ≠ .writing f l s) := by
        rintro q (rfl | ⟨rfl, _⟩ | ⟨r, rfl⟩) <;> refine ⟨?_, ?_, ?_⟩ <;> intros <;> intro c <;> cases c
      obtain ⟨b1, b2, b3⟩ := bad _ hp
      cases hs with
      | notDir => exact ⟨rfl, .inr (.inr ⟨_, rfl⟩)⟩
      | isDir _ hh => exact ⟨rfl, .inr (.inl ⟨rfl, hh⟩)⟩
      | detailsPanic => exact ⟨rfl, .inr (.inr ⟨_, rfl⟩)⟩
      | detailsErr => exact ⟨rfl, .inr (.inr ⟨_, rfl⟩)⟩
      | detailsCreate _ rows hh =>
        rcases hj with hj | hj
        · rcases hp with hp | ⟨_, hp⟩ | ⟨r, hp⟩
          · cases hp
          · rw [hj] at hp; cases hp
          · cases hp
        · exact absurd hh (hj rows)
      | detailsCreateFail => exact ⟨rfl, .inr (.inr ⟨_, rfl⟩)⟩
      | detailsWrite => exact absurd rfl b1
      | detailsWriteFail => exact absurd rfl b1
      | create => exact absurd rfl (b2 _)
      | createFail => exact absurd rfl (b2 _)
      | headerFail => exact absurd rfl (b2 _)
      | task => exact absurd rfl (b3 _ _ _)
      | crashed => exact absurd rfl (b3 _ _ _)
      | close => exact absurd rfl (b3 _ _ _)
      | closeFail => exact absurd rfl (b3 _ _ _)
      | success => exact absurd rfl (b2 _)
  exact key.1

/-- Otherwise it does not: if one source panics while the statistics are computed, every run without I/O failures ends with a
panic and without a readable statistics file, whatever was there before (and the details file is replaced). -/
theorem C132_failure_keeps_old_refuted (job : SnapJob ρ) (before now : Disk ρ) (acts : List SnapAct) (r : Res Unit) (rows : List ρ)
    (h : SnapRun job before acts now (.stopped r)) (hio : SnapAct.ioFail ∉ acts) (ho : job.outputIsDir = true)
    (hd : job.details = .ok rows) (hc : Work.crash ∈ job.works .stats) :
    r = .panic ∧ now .stats = some .cut ∧ now .details = some (.table [rows]) := by
  have hr : r = .panic := by
    rcases C130_result job before now acts r h hio with h | h | ⟨e, _, he⟩
    · exact absurd hc (h.2.2.2 .stats (by decide))
    · exact h.1
    · rw [hd] at he; cases he
  subst hr
  refine ⟨rfl, ?_⟩
  cases h with
  | step h hs =>
    simp only [List.mem_append, List.mem_singleton, not_or] at hio
    have hi := snap_inv h
    cases hs with
    | notDir _ hh => rw [ho] at hh; cases hh
    | detailsPanic _ hh => rw [hd] at hh; cases hh
    | crashed _ f rest s hcr =>
      obtain ⟨done, h1, h2, h3, h4, h5, _⟩ := hi
      have hns : SnapFile.stats ∉ done := fun hm => (h2 _ hm).2.2 (by simp) hc
      -- `f` is `stats`: it comes right after the details
      have hf : done = [.details] ∧ f = .stats := by
        cases done with
        | nil =>
          have := congrArg List.head? h1
          simp only [snapOrder, List.head?_cons, List.nil_append, Option.some.injEq] at this
          exact absurd this.symm h5
        | cons g gs =>
          cases gs with
          | nil =>
            simp only [snapOrder, List.cons_append, List.nil_append, List.cons.injEq] at h1
            exact ⟨by rw [← h1.1], h1.2.1.symm⟩
          | cons g' gs =>
            simp only [snapOrder, List.cons_append, List.cons.injEq] at h1
            exact absurd (by rw [← h1.2.1]; simp) hns
      obtain ⟨rfl, rfl⟩ := hf
      refine ⟨h3, ?_⟩
      have := (h2 .details (by simp)).1
      unfold NewFile at this
      rw [if_pos rfl] at this
      obtain ⟨rows', hr', hn⟩ := this
      rw [hd, Res.ok.injEq] at hr'
      rw [hn, hr']

/-- Such a run exists from every directory. -/
example (before : Disk Nat) : ∃ acts now, SnapRun ⟨true, .ok [1], fun _ => [.crash, .batch [2]]⟩ before acts now (.stopped .panic) ∧
    SnapAct.ioFail ∉ acts := by
  have h1 := SnapRun.step (SnapRun.nil (job := ⟨true, .ok [1], fun _ => [.crash, .batch [2]]⟩) (d0 := before)) (.isDir _ rfl)
  have h2 := SnapRun.step h1 (.detailsCreate _ [1] rfl)
  have h3 := SnapRun.step h2 (.detailsWrite _ [1] rfl)
  have h4 := SnapRun.step h3 (.create _ .stats _)
  have h5 := SnapRun.step h4 (.task _ _ _ [] [_] _ _ _ _ _ (.crash _))
  have h6 := SnapRun.step h5 (.crashed _ _ _ _ rfl)
  exact ⟨_, _, h6, by decide⟩

/-! ## C133: what is in the files -/

/-- A batch with its rows wrapped. -/
def Work.map {α β : Type} (g : α → β) : Work α → Work β
  | .skip => .skip
  | .crash => .crash
  | .batch rows => .batch (rows.map g)

theorem tableWork_map {D α β : Type} (w : World D) (bld : Build) (table : BalTable) (rows : Nat → Item → List α) (g : α → β)
    (arrow : List β → Bool) (init : InitFile) : tableWork w bld table (fun i it => (rows i it).map g) arrow init =
    (tableWork w bld table rows (fun rs => arrow (rs.map g)) init).map g := by
  unfold tableWork
  split
  · rfl
  · rfl
  · rename_i m hm
    unfold collectRows
    cases hc : collectItems bld init.version.toNat (m.trk.data.length + m.game.data.length + 1) m with
    | none => rfl
    | some r =>
      cases r with
      | panic => rfl
      | err e => rfl
      | ok its =>
        have e : its.flatMap (fun it => (rows init.fsId it).map g) = (its.flatMap (rows init.fsId)).map g := by
          rw [List.map_flatMap]
        simp only [e]
        split <;> rfl

theorem Work.rows_map {α β : Type} (g : α → β) (x : Work α) : (x.map g).rows = x.rows.map g := by
  cases x <;> rfl

/-- The rows of one source in a table: those of the collector, if the source can be opened and its rows encoded. -/
def sourceRows {D α : Type} (w : World D) (bld : Build) (table : BalTable) (rows : Nat → Item → List α) (arrow : List α → Bool)
    (sources : List InitFile) : List α :=
  sources.flatMap (fun init => (tableWork w bld table rows arrow init).rows)

theorem snapshot_table {D α : Type} {w : World D} {bld : Build} {table : BalTable} {arrow : List (SnapRow D) → Bool}
    {sources : List InitFile} {dir : Bool} {f : SnapFile} (hf : f ≠ .details) (rows : Nat → Item → List α) (g : α → SnapRow D)
    (hr : snapRowsOf D f = fun i it => (rows i it).map g) {c : Option (FileC (SnapRow D))}
    (h : FullFile (snapshotJob w bld table arrow sources dir) f c) :
    ∃ blocks, c = some (.table blocks) ∧
      blocks.flatten.Perm ((sourceRows w bld table rows (fun rs => arrow (rs.map g)) sources).map g) := by
  unfold FullFile at h
  rw [if_neg hf] at h
  obtain ⟨blocks, rfl, hp⟩ := h
  refine ⟨blocks, rfl, ?_⟩
  have := hp.flatten
  rw [batches_flatten] at this
  refine this.trans ?_
  have e : (snapshotJob w bld table arrow sources dir).works f = sources.map (tableWork w bld table (snapRowsOf D f) arrow) := rfl
  rw [e, List.flatMap_map, sourceRows, List.map_flatMap, hr]
  simp only [tableWork_map, Work.rows_map]
  exact List.Perm.refl _

/-- The files of a successful snapshot in which no write failed: the details file has the rows of the details table in order; each
other file has, in some order, exactly the rows its collector makes of the sources that can be opened. -/
theorem C133_snapshot_contents {D : Type} (w : World D) (bld : Build) (table : BalTable) (arrow : List (SnapRow D) → Bool)
    (sources : List InitFile) (dir : Bool) (before now : Disk (SnapRow D)) (acts : List SnapAct)
    (h : SnapRun (snapshotJob w bld table arrow sources dir) before acts now (.stopped (.ok ()))) (hf : SnapAct.task .fail ∉ acts) :
    (∃ rows, detailsTable w bld sources = .ok rows ∧ now .details = some (.table [rows.map .details])) ∧
    (∃ b, now .stats = some (.table b) ∧ b.flatten.Perm ((sourceRows w bld table (fun i it => (statsRowOf i it).toList)
      (fun rs => arrow (rs.map .stats)) sources).map .stats)) ∧
    (∃ b, now .upgrades = some (.table b) ∧ b.flatten.Perm ((sourceRows w bld table (fun i it => (upgradeRowOf i it).toList)
      (fun rs => arrow (rs.map .upgrades)) sources).map .upgrades)) ∧
    (∃ b, now .unitBorn = some (.table b) ∧ b.flatten.Perm ((sourceRows w bld table (fun i it => (bornRowOf i it).toList)
      (fun rs => arrow (rs.map .unitBorn)) sources).map .unitBorn)) ∧
    (∃ b, now .unitDied = some (.table b) ∧ b.flatten.Perm ((sourceRows w bld table (fun i it => (diedRowOf i it).toList)
      (fun rs => arrow (rs.map .unitDied)) sources).map .unitDied)) ∧
    (∃ b, now .cmdTargetPoint = some (.table b) ∧ b.flatten.Perm ((sourceRows w bld table cmdPointRowsOf
      (fun rs => arrow (rs.map .cmdTargetPoint)) sources).map .cmdTargetPoint)) ∧
    (∃ b, now .cmdTargetUnit = some (.table b) ∧ b.flatten.Perm ((sourceRows w bld table cmdUnitRowsOf
      (fun rs => arrow (rs.map .cmdTargetUnit)) sources).map .cmdTargetUnit)) := by
  have hall := (C130_success _ _ _ _ h).2 hf
  refine ⟨?_, snapshot_table (by decide) _ _ rfl (hall _), snapshot_table (by decide) _ _ rfl (hall _),
    snapshot_table (by decide) _ _ rfl (hall _), snapshot_table (by decide) _ _ rfl (hall _),
    snapshot_table (by decide) _ _ rfl (hall _), snapshot_table (by decide) _ _ rfl (hall _)⟩
  have hd := hall .details
  unfold FullFile at hd
  rw [if_pos rfl] at hd
  obtain ⟨rows, hr, hn⟩ := hd
  simp only [snapshotJob, Res.bind_eq_ok] at hr
  obtain ⟨rs, h1, h2⟩ := hr
  split at h2
  · simp only [Res.pure_eq, Res.ok.injEq] at h2
    exact ⟨rs, h1, by rw [hn, h2]⟩
  · cases h2


theorem batches_rows {ρ : Type} (works : List (Work ρ)) : batches works = (works.map Work.rows).filter (fun b => !b.isEmpty) := by
  induction works with
  | nil => rfl
  | cons x xs ih =>
    unfold batches at ih ⊢
    rw [List.filterMap_cons, List.map_cons, List.filter_cons, ih]
    cases x with
    | skip => rfl
    | crash => rfl
    | batch rows => cases rows <;> rfl

/-- In each of these files the rows of one source stand together, in the order of its events: the file is a sequence of blocks,
one for every source that has rows in this table, and the block is the whole list of rows of this source. -/
theorem C133_source_blocks {D : Type} (w : World D) (bld : Build) (table : BalTable) (arrow : List (SnapRow D) → Bool)
    (sources : List InitFile) (dir : Bool) (before now : Disk (SnapRow D)) (acts : List SnapAct)
    (h : SnapRun (snapshotJob w bld table arrow sources dir) before acts now (.stopped (.ok ()))) (hf : SnapAct.task .fail ∉ acts)
    (f : SnapFile) (hnd : f ≠ .details) :
    ∃ blocks, now f = some (.table blocks) ∧
      blocks.Perm ((sources.map (fun init => (tableWork w bld table (snapRowsOf D f) arrow init).rows)).filter (fun b => !b.isEmpty)) := by
  have hall := (C130_success _ _ _ _ h).2 hf f
  unfold FullFile at hall
  rw [if_neg hnd] at hall
  obtain ⟨blocks, hb, hp⟩ := hall
  refine ⟨blocks, hb, hp.trans ?_⟩
  have e : (snapshotJob w bld table arrow sources dir).works f = sources.map (tableWork w bld table (snapRowsOf D f) arrow) := rfl
  rw [e, batches_rows, List.map_map]
  exact List.Perm.refl _

/-- A snapshot of the replay of `exportWorld`. -/
def exampleJob : SnapJob (SnapRow Nat) := snapshotJob exportWorld .release [] (fun _ => true) [exInitFile exLobby] true

theorem exampleJob_works (f : SnapFile) : ∃ rows, exampleJob.works f = [.batch rows] := by
  have h : (match tableWork exportWorld .release [] (snapRowsOf Nat f) (fun _ => true) (exInitFile exLobby) with
      | .batch _ => true
      | _ => false) = true := by
    cases f <;> decide +kernel
  have e : exampleJob.works f = [tableWork exportWorld .release [] (snapRowsOf Nat f) (fun _ => true) (exInitFile exLobby)] := rfl
  rw [e]
  cases hw : tableWork exportWorld .release [] (snapRowsOf Nat f) (fun _ => true) (exInitFile exLobby) with
  | batch rows => exact ⟨rows, rfl⟩
  | skip => rw [hw] at h; cases h
  | crash => rw [hw] at h; cases h

/-- It can be run to success from every directory. -/
example (before : Disk (SnapRow Nat)) : ∃ acts now, SnapRun exampleJob before acts now (.stopped (.ok ())) ∧
    SnapAct.ioFail ∉ acts ∧ SnapAct.task .fail ∉ acts := by
  obtain ⟨rows, hr⟩ : ∃ rows, exampleJob.details = .ok rows := by
    have h : (match exampleJob.details with | .ok _ => true | _ => false) = true := by decide +kernel
    cases hd : exampleJob.details with
    | ok rows => exact ⟨rows, rfl⟩
    | err e => rw [hd] at h; cases h
    | panic => rw [hd] at h; cases h
  refine C130_rerun_succeeds exampleJob before rows rfl hr ?_
  intro f
  obtain ⟨rows, h⟩ := exampleJob_works f
  simp [h]

/-- Its upgrades file holds the one upgrade of the replay. -/
example : sourceRows exportWorld .release [] (fun i it => (upgradeRowOf i it).toList) (fun _ => true) [exInitFile exLobby] =
    [⟨1, str "Stim", 1, 0, 0, 7⟩] := by decide +kernel

end S2
