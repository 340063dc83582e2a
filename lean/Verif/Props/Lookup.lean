import Verif.Spec.Lookup
import Mathlib.Tactic.SplitIfs

/-!
# C52 (class lookup), C53 (log levels), C60 (log files of several runs)
-/

namespace QuOCS

open Spec

variable {A : Type}

/-! ### C52 -/

theorem Lookup.typeMap_lookup (t n : String) : ((typeMap (some t)).getD []).lookup n = builtin t n := by
  have key : ∀ (l : List MapEntry) (names : List String) (p q : String),
      l.map (fun e => (e.1, e.2)) = names.map (fun m => (m, p ++ m ++ q, m ++ q)) →
      l.lookup n = if n ∈ names then some (p ++ n ++ q, n ++ q) else none := by
    intro l names p q h
    have h' : l = names.map (fun m => (m, p ++ m ++ q, m ++ q)) := by simpa using h
    subst h'
    induction names with
    | nil => rfl
    | cons m names ih =>
      rw [List.map_cons, List.lookup_cons]
      by_cases hm : n = m
      · subst hm; simp
      · have hb : (n == m) = false := by simpa using hm
        simp only [hb]
        rw [ih (by simp)]
        simp [hm]
  unfold builtin
  dsimp only
  split
  · exact key algorithmMap _ _ _ (by decide +kernel)
  · exact key dsmMap _ _ _ (by decide +kernel)
  · exact key basisMap _ _ _ (by decide +kernel)
  · exact key distributionMap _ _ _ (by decide +kernel)
  · rename_i h1 h2 h3 h4
    unfold typeMap
    simp only [if_neg h1, if_neg h2, if_neg h3, if_neg h4]
    rfl

theorem Lookup.loadClass_eq (load : String → String → Option A) (m c : Option String) :
    loadClass load m c = (both m c).bind fun mc => load mc.1 mc.2 := by
  cases m <;> cases c <;> rfl

/-- Configuration entries are resolved with the documented precedence, unless a name is given without a class type. -/
theorem C52_precedence_partial (load : String → String → Option A) (a : ImportArgs A)
    (h : a.name = none ∨ a.classType ≠ none) : dynamicImport load a = resolve load a := by
  obtain ⟨at_, m, c, n, t⟩ := a
  unfold dynamicImport resolve target
  cases at_ with
  | some x => rfl
  | none =>
    cases n with
    | none =>
      simp only [Option.none_or]
      rw [Lookup.loadClass_eq]
    | some n =>
      cases t with
      | none => simp at h
      | some t =>
        simp only [Option.none_or]
        have hk := Lookup.typeMap_lookup t n
        unfold importByName
        obtain ⟨es, hes⟩ : ∃ es, typeMap (some t) = some es := by
          unfold typeMap
          simp only
          split_ifs <;> exact ⟨_, rfl⟩
        rw [hes] at hk
        simp only [Option.getD_some] at hk
        simp only [hes]
        rw [← hk]
        cases hl : es.lookup n with
        | none =>
          simp only [Option.none_or]
          exact Lookup.loadClass_eq _ _ _
        | some mc => rfl

/-- The hypothesis is met by every configuration entry the library itself looks up, e.g. a basis given by name. -/
example (load : String → String → Option A) (m c : Option String) :
    dynamicImport load { name := some "Walsh", classType := some "basis", moduleName := m, className := c } =
      load "quocslib.pulses.basis.Walsh" "Walsh" := by
  rw [C52_precedence_partial _ _ (Or.inr (by simp))]
  have : builtin "basis" "Walsh" = some ("quocslib.pulses.basis.Walsh", "Walsh") := by decide +kernel
  simp [resolve, target, this]

/-- A name that is not built in does no harm if module and class are given. -/
theorem C52_foreign_name (load : String → String → Option A) (t n m c : String) (h : builtin t n = none) :
    dynamicImport load { name := some n, classType := some t, moduleName := some m, className := some c } = load m c := by
  rw [C52_precedence_partial _ _ (Or.inr (by simp))]
  simp [resolve, target, h, both]

example : builtin "basis" "MyBasis" = none := by decide +kernel

/-- Violated: with a name but without a class type the given module and class are ignored. -/
theorem C52_missing_type (load : String → String → Option A) (n m c : String) :
    dynamicImport load { name := some n, moduleName := some m, className := some c } = none ∧
    resolve load { name := some n, moduleName := some m, className := some c } = load m c := ⟨rfl, rfl⟩

/-! ### C53 -/

/-- After its logger was created, a message of a run is written to the log file iff there is a log file and the level of
the message is above 10. -/
theorem C53_logfile (cfg : LoggerCfg) (old : Logger) (hne : cfg.logfile ≠ cfg.debugfile) (level : ℤ) :
    Sink.file cfg.logfile ∈ printLogger (createLogger cfg old) level ↔ cfg.createLogfile = true ∧ 10 < level := by
  obtain ⟨lf, df, a, b, c⟩ := cfg
  unfold printLogger Logger.log createLogger printLevel
  cases a <;> cases b <;> cases c <;> split_ifs <;> simp_all

/-- A message is shown on the console iff its level is above 10, or above 30 if the console is restricted to errors. -/
theorem C53_console (cfg : LoggerCfg) (old : Logger) (level : ℤ) :
    Sink.console ∈ printLogger (createLogger cfg old) level ↔ (if cfg.consoleInfo then 10 < level else 30 < level) := by
  obtain ⟨lf, df, a, b, c⟩ := cfg
  unfold printLogger Logger.log createLogger printLevel
  cases a <;> cases b <;> cases c <;> split_ifs <;> simp_all <;> omega

/-- Violated: the debug log never contains a debug message, even if debugging is switched on, because the level of the
logger itself stays at `INFO`. -/
theorem C53_no_debug_messages (cfg : LoggerCfg) (old : Logger) (level : ℤ) (h : level ≤ 10) :
    printLogger (createLogger cfg old) level = [] := by
  unfold printLogger Logger.log createLogger printLevel
  simp [h]

/-- A message is logged with the smallest of the severities debug (10), info (20), warning (30) and error (40) that is not
below its level, and with error if its level is higher than all of them. -/
theorem C53_severity (level : ℤ) :
    printLevel level ∈ [10, 20, 30, 40] ∧ (level ≤ printLevel level ∨ 40 < level ∧ printLevel level = 40) ∧
    ∀ s ∈ [10, 20, 30, 40], level ≤ ((s : ℕ) : ℤ) → printLevel level ≤ s := by
  unfold printLevel
  refine ⟨?_, ?_, ?_⟩
  · split_ifs <;> simp
  · split_ifs <;> simp_all <;> omega
  · intro s hs h
    simp only [List.mem_cons, List.not_mem_nil, or_false] at hs
    split_ifs <;> omega

/-- Otherwise the debug log contains the same messages as the log file. -/
theorem C53_debug_log (cfg : LoggerCfg) (old : Logger) (hne : cfg.logfile ≠ cfg.debugfile) (level : ℤ) :
    Sink.file cfg.debugfile ∈ printLogger (createLogger cfg old) level ↔ cfg.isDebug = true ∧ 10 < level := by
  obtain ⟨lf, df, a, b, c⟩ := cfg
  have hne' : ¬ df = lf := fun h => hne h.symm
  unfold printLogger Logger.log createLogger printLevel
  cases a <;> cases b <;> cases c <;> split_ifs <;> simp_all

example : (⟨"t_logging.log", "t_logging_debug.log", true, true, false⟩ : LoggerCfg).logfile ≠ "t_logging_debug.log" ∧
    printLogger (createLogger ⟨"t_logging.log", "t_logging_debug.log", true, true, false⟩ ⟨30, []⟩) 20 =
      [.file "t_logging.log", .console] ∧
    printLogger (createLogger ⟨"t_logging.log", "t_logging_debug.log", true, false, true⟩ ⟨30, []⟩) 20 =
      [.file "t_logging.log", .file "t_logging_debug.log"] := by decide +kernel

/-! ### C60 -/

/-- With one run per process the log file of the run gets the messages of that run, whatever was done with the logger
before (e.g. by runs that are over). -/
theorem C60_last_run_partial (runs : List LoggerCfg) (cfg : LoggerCfg) (old : Logger) (level : ℤ) :
    printLogger (createRuns old (runs ++ [cfg])) level = printLogger (createLogger cfg old) level := by
  unfold createRuns
  rw [List.foldl_append]
  rfl

/-- Violated: as soon as another run is created in the same process, no message at all reaches the log file of the
first run any more; all messages go to the log file of the second one. -/
theorem C60_log_lost (runs : List LoggerCfg) (first second : LoggerCfg) (old : Logger) (level : ℤ)
    (h1 : first.logfile ≠ second.logfile) (h2 : first.logfile ≠ second.debugfile) :
    Sink.file first.logfile ∉ printLogger (createRuns old (runs ++ [first, second])) level := by
  rw [show runs ++ [first, second] = (runs ++ [first]) ++ [second] by simp, C60_last_run_partial]
  obtain ⟨lf, df, a, b, c⟩ := second
  unfold printLogger Logger.log createLogger printLevel
  simp only at h1 h2
  cases a <;> cases b <;> cases c <;> split_ifs <;> simp_all

example : Sink.file "b.log" ∈
    printLogger (createRuns ⟨30, []⟩ [⟨"a.log", "a_debug.log", true, true, false⟩, ⟨"b.log", "b_debug.log", true, true, false⟩]) 20 ∧
    Sink.file "a.log" ∉
    printLogger (createRuns ⟨30, []⟩ [⟨"a.log", "a_debug.log", true, true, false⟩, ⟨"b.log", "b_debug.log", true, true, false⟩]) 20 := by
  decide +kernel

end QuOCS
