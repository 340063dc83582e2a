import Verif.Lemmas.Folder

/-!
# C12: results of earlier runs are never overwritten

`wholeRun env cwd dt job version logfile ws` is the life of a run: the constructor of the communication object, started
in the folder `cwd` with date-time string `dt` and job name `job`, followed by the writes `ws` of result files. `env`
is what other processes do in between, `s.trace` are the file systems before and after each change made by the run.
Paths are lists of components, last component first; `R <:+ p` says that `p` is `R` or lies inside `R`.
-/

set_option linter.unusedSectionVars false
set_option linter.unusedVariables false

namespace QuOCS

open QuOCS.Folder

/-- **C12** (new folder). Whatever other processes do meanwhile: a run that starts has itself created its results folder
at a moment when nothing existed there; before that moment it has changed no file, and afterwards it changes only
files inside its folder. -/
theorem C12_new_folder (env : ℕ → FS → FS) (cwd : Path) (dt job version : String) (logfile : Bool) (ws : List RunWrite)
    (fs : FS) (r : RunFolder) (s : Proc)
    (h : wholeRun env cwd dt job version logfile ws ⟨fs, 0, []⟩ = (.ok r, s)) :
    r.path = (dt ++ "_" ++ job) :: "QuOCS_Results" :: cwd ∧
    ∃ pre before after post, s.trace = pre ++ (before, after) :: post ∧
      before.has r.path = false ∧ after.isDir r.path = true ∧
      (∀ t ∈ pre, t.2.file = t.1.file) ∧
      (∀ t ∈ post, ∀ p, t.2.file p ≠ t.1.file p → r.path <:+ p ∧ p ≠ r.path) := by
  obtain ⟨h1, pre, b, a, post, h2, h3, h4, h5⟩ :=
    (wholeRun_trip (env := env) cwd dt job version logfile ws ⟨fs, 0, []⟩ (by intro t ht; simp at ht)).1 r s h
  obtain ⟨-, q1, q2⟩ := mkdir_quiet h4
  rw [← h1] at q1 q2 h5
  exact ⟨h1, pre, b, a, post, h2, q1, q2, fun t ht => (h3 t ht).1, fun t ht p hp => (h5 t ht).1 p hp⟩

/-- **C12** (only own files). Also for runs that fail at some point: no step of the run removes a folder, every file
changed by the run lies inside its own folder, and a run that has not created its folder has changed no file. -/
theorem C12_only_own_files (env : ℕ → FS → FS) (cwd : Path) (dt job version : String) (logfile : Bool)
    (ws : List RunWrite) (fs : FS) (res : Py RunFolder) (s : Proc)
    (h : wholeRun env cwd dt job version logfile ws ⟨fs, 0, []⟩ = (res, s)) :
    (∀ t ∈ s.trace, ∀ p, t.1.isDir p = true → t.2.isDir p = true) ∧
    (∀ t ∈ s.trace, ∀ p, t.2.file p ≠ t.1.file p →
      (dt ++ "_" ++ job) :: "QuOCS_Results" :: cwd <:+ p ∧
      ∃ u ∈ s.trace, u.1.has ((dt ++ "_" ++ job) :: "QuOCS_Results" :: cwd) = false ∧
        u.2.isDir ((dt ++ "_" ++ job) :: "QuOCS_Results" :: cwd) = true) := by
  have hcase : AllQuiet s.trace ∨ Created (results cwd dt job) s.trace := by
    obtain ⟨h1, h2⟩ :=
      wholeRun_trip (env := env) cwd dt job version logfile ws ⟨fs, 0, []⟩ (by intro t ht; simp at ht)
    cases res with
    | ok r => exact Or.inr (h1 r s h).2
    | error e => exact h2 e s h
  rcases hcase with hq | ⟨pre, b, a, post, h2, h3, h4, h5⟩
  · exact ⟨fun t ht => (hq t ht).2, fun t ht p hp => absurd (congrFun (hq t ht).1 p) hp⟩
  · obtain ⟨q0, q1, q2⟩ := mkdir_quiet h4
    have hmem : (b, a) ∈ s.trace := by rw [h2]; simp
    refine ⟨?_, ?_⟩
    · intro t ht
      rw [h2, List.mem_append, List.mem_cons] at ht
      rcases ht with ht | rfl | ht
      · exact (h3 t ht).2
      · exact q0.2
      · exact (h5 t ht).2
    · intro t ht p hp
      refine ⟨?_, (b, a), hmem, q1, q2⟩
      rw [h2, List.mem_append, List.mem_cons] at ht
      rcases ht with ht | rfl | ht
      · exact absurd (congrFun (h3 t ht).1 p) hp
      · exact absurd (congrFun q0.1 p) hp
      · exact ((h5 t ht).1 p hp).1

/-- A file system in which every file and folder lies in an existing folder. -/
def FS.WellFormed (fs : FS) : Prop := ∀ x p, fs.has (x :: p) = true → fs.isDir p = true

theorem Folder.ancestor {fs : FS} (hw : fs.WellFormed) {R p : Path} (hp : fs.has p = true) (h : R <:+ p) (hne : p ≠ R) :
    fs.isDir R = true := by
  obtain ⟨l, rfl⟩ := h
  induction l with
  | nil => simp at hne
  | cons x l ih =>
    have h1 : fs.isDir (l ++ R) = true := hw x (l ++ R) hp
    by_cases hl : l = []
    · subst hl; exact h1
    · exact ih (by simp [FS.has, h1]) (by
        intro e
        have := congrArg List.length e
        simp only [List.length_append] at this
        exact hl (List.eq_nil_of_length_eq_zero (by omega)))

/-- **C12** (earlier results are kept). If no other process interferes, then after the run - successful or not - every
file that existed before still has the same content, and every folder still exists. -/
theorem C12_earlier_results_kept (cwd : Path) (dt job version : String) (logfile : Bool) (ws : List RunWrite) (fs : FS)
    (hw : fs.WellFormed) :
    let s := (wholeRun (fun _ fs => fs) cwd dt job version logfile ws ⟨fs, 0, []⟩).2
    (∀ p c, fs.file p = some c → s.fs.file p = some c) ∧ (∀ p, fs.isDir p = true → s.fs.isDir p = true) := by
  intro s
  have hl : Linked fs s.trace s.fs := Keeps.wholeRun cwd dt job version logfile ws ⟨fs, 0, []⟩ rfl
  have hcase : AllQuiet s.trace ∨ Created (results cwd dt job) s.trace := by
    obtain ⟨h1, h2⟩ :=
      wholeRun_trip (env := fun _ fs => fs) cwd dt job version logfile ws ⟨fs, 0, []⟩ (by intro t ht; simp at ht)
    rcases hr : wholeRun (fun _ fs => fs) cwd dt job version logfile ws ⟨fs, 0, []⟩ with ⟨e | r, s'⟩
    · have : s = s' := congrArg Prod.snd hr
      rw [this]; exact h2 e s' hr
    · have : s = s' := congrArg Prod.snd hr
      rw [this]; exact Or.inr (h1 r s' hr).2
  rcases hcase with hq | ⟨pre, b, a, post, h2, h3, h4, h5⟩
  · obtain ⟨e1, e2⟩ := linked_quiet hl hq
    exact ⟨fun p c hp => by rw [e1]; exact hp, e2⟩
  · rw [h2] at hl
    obtain ⟨m, l1, l2⟩ := linked_append hl
    obtain ⟨rfl, l3⟩ := l2
    obtain ⟨e1, e2⟩ := linked_quiet l1 h3
    obtain ⟨q0, q1, q2⟩ := mkdir_quiet h4
    obtain ⟨i1, i2⟩ := linked_inside l3 h5
    refine ⟨?_, fun p hp => i2 p (q0.2 p (e2 p hp))⟩
    intro p c hp
    have ha : a.file p = some c := by
      rw [show a.file = m.file from q0.1, show m.file = fs.file from e1]; exact hp
    by_contra hne
    obtain ⟨hR, hpR⟩ := i1 p (fun e => hne (by show s.fs.file p = some c; rw [show s.fs.file p = a.file p from e]; exact ha))
    have hd : fs.isDir (results cwd dt job) = true := Folder.ancestor hw (by simp [FS.has, hp]) hR hpR
    have : m.isDir (results cwd dt job) = true := e2 _ hd
    simp only [FS.has, Bool.or_eq_false_iff] at q1
    rw [show (m, a).1.isDir (results cwd dt job) = true from this] at q1
    exact absurd q1.1 (by decide)

/-- **C12** (refusal). If the results folder exists already, the run refuses to start with `FileExistsError` and changes
nothing. -/
theorem C12_refuses (cwd : Path) (dt job version : String) (logfile : Bool) (ws : List RunWrite) (fs : FS)
    (hroot : fs.isDir ("QuOCS_Results" :: cwd) = true)
    (h : fs.isDir ((dt ++ "_" ++ job) :: "QuOCS_Results" :: cwd) = true) :
    let r := wholeRun (fun _ fs => fs) cwd dt job version logfile ws ⟨fs, 0, []⟩
    r.1.map RunFolder.path = .error .fileExists ∧ r.2.fs = fs := by
  intro r
  have hr : r = (.error .fileExists, ⟨fs, 2, []⟩) := by
    show (wholeRun (fun _ fs => fs) cwd dt job version logfile ws) ⟨fs, 0, []⟩ = _
    have h1 : startRun (fun _ fs => fs) cwd dt job version logfile ⟨fs, 0, []⟩ = (.error .fileExists, ⟨fs, 2, []⟩) := by
      unfold startRun
      have he : ensureRoot (fun _ fs => fs) ("QuOCS_Results" :: cwd) ⟨fs, 0, []⟩ = (.ok (), ⟨fs, 1, []⟩) := by
        unfold ensureRoot
        rw [Prog.bind_apply]
        show (if fs.isDir ("QuOCS_Results" :: cwd) = true then (pure () : Prog Proc Unit)
          else makedirs _ _) ⟨fs, 1, []⟩ = _
        rw [if_pos hroot]; rfl
      rw [Prog.bind_ok he, Prog.bind_apply]
      show (if fs.isDir ((dt ++ "_" ++ job) :: "QuOCS_Results" :: cwd) = true then (Prog.raise .fileExists : Prog Proc RunFolder)
          else _) ⟨fs, 2, []⟩ = _
      rw [if_pos h]; rfl
    unfold wholeRun
    rw [Prog.bind_error h1]
  rw [hr]
  exact ⟨rfl, rfl⟩

/-- **C12** (two runs with the same name). A second run with the same job name and the same date-time string (for
instance started within the same second) refuses to start and leaves the results of the first one as they are. -/
theorem C12_second_run_refused (cwd : Path) (dt job version version' : String) (logfile logfile' : Bool)
    (ws ws' : List RunWrite) (fs : FS) (r : RunFolder) (s : Proc)
    (h : wholeRun (fun _ fs => fs) cwd dt job version logfile ws ⟨fs, 0, []⟩ = (.ok r, s)) :
    let r' := wholeRun (fun _ fs => fs) cwd dt job version' logfile' ws' ⟨s.fs, 0, []⟩
    r'.1.map RunFolder.path = .error .fileExists ∧ r'.2.fs = s.fs := by
  have hl : Linked fs s.trace s.fs := by
    have := Keeps.wholeRun (fs0 := fs) cwd dt job version logfile ws ⟨fs, 0, []⟩ rfl
    rw [h] at this; exact this
  obtain ⟨h1, pre, b, a, post, h2, h3, h4, h5⟩ :=
    (wholeRun_trip (env := fun _ fs => fs) cwd dt job version logfile ws ⟨fs, 0, []⟩ (by intro t ht; simp at ht)).1 r s h
  rw [h2] at hl
  obtain ⟨m, l1, l2⟩ := linked_append hl
  obtain ⟨rfl, l3⟩ := l2
  obtain ⟨i1, i2⟩ := linked_inside l3 h5
  obtain ⟨q0, q1, q2⟩ := mkdir_quiet h4
  refine C12_refuses cwd dt job version' logfile' ws' s.fs ?_ (i2 _ q2)
  have hroot : m.isDir ("QuOCS_Results" :: cwd) = true := by
    unfold FS.mkdir at h4
    split at h4
    · cases h4
    · split at h4
      · assumption
      · cases h4
  exact i2 _ (q0.2 _ hroot)

/-- An empty disk with the folder `/home`. -/
def Folder.disk : FS := ⟨fun p => p = [] ∨ p = ["home"], fun _ => none⟩

/-- A run on this disk succeeds; it creates the common folder, its own folder, the version file, the log file, and
writes two records. -/
example : (match wholeRun (fun _ fs => fs) ["home"] "20260101_120000" "run" "v" true
      [.overwrite "20260101_120000_best_controls.npz" "first", .overwrite "20260101_120000_best_controls.npz" "second"]
      ⟨Folder.disk, 0, []⟩ with
    | (.ok r, s) => decide (r.path = ["20260101_120000_run", "QuOCS_Results", "home"] ∧ s.trace.length = 6 ∧
        s.fs.file ["20260101_120000_best_controls.npz", "20260101_120000_run", "QuOCS_Results", "home"] = some "second")
    | _ => false) = true := by
  decide

example : Folder.disk.WellFormed := by
  intro x p h
  simp only [FS.has, Folder.disk, Option.isSome_none, Bool.or_false, decide_eq_true_eq] at h
  rcases h with h | h
  · simp at h
  · simp only [List.cons.injEq] at h
    simp [Folder.disk, h.2]

/-- A race: another process creates the same folder between the check and the creation. The run does not start. -/
example : (match wholeRun (fun n fs => if n = 3 then
        { fs with isDir := fun p => p = ["d_run", "QuOCS_Results", "home"] ∨ fs.isDir p } else fs)
      ["home"] "d" "run" "v" true [] ⟨⟨fun p => p = ["QuOCS_Results", "home"] ∨ p = ["home"] ∨ p = [], fun _ => none⟩, 0, []⟩ with
    | (.error e, s) => decide (e = .fileExists ∧ s.trace.length = 0)
    | _ => false) = true := by
  decide

end QuOCS
