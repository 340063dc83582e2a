/-
C109: the history of a run (the lists of figures of merit and iteration numbers) and what a graphical interface is told.
-/
import Verif.Lemmas.HistoryAD
import Verif.Props.ReEval

set_option linter.unusedSectionVars false
set_option linter.unusedVariables false

namespace QuOCS

variable {K V C O F : Type} [LE K] [DecidableLE K]
variable [Add F] [Sub F] [Mul F] [Div F] [Neg F] [Zero F] [One F] [NatCast F] [LE F] [LT F] [DecidableLE F]
  [DecidableLT F] [FloatOrder F]
variable (cfg : AlgCfg K F) (env : Env V C F) (ops : CtlOps O V C)

theorem mapValue_id (l : List (Signal C F)) : l.map (Signal.mapValue id) = l := by
  conv_rhs => rw [← List.map_id l]
  refine List.map_congr_left fun x _ => ?_
  cases x <;> rfl

/-- **C109 (iteration numbers).** Whatever the settings, the search method, the user's function, the clock and the stop
requests, and whether the run ends normally or with an exception: the list of iteration numbers has the numbers of those
calls of the user's function that returned a value with status code zero, counted from one. -/
theorem C109_iteration_numbers (dsm : Dsm K V F) (o : O) :
    (execute cfg env ops dsm o).2.iterList = usableNumbers 0 ((execute cfg env ops dsm o).2.log.map Call.seen) :=
  (execute_told (gs := fun _ => ()) (gl := fun _ => ()) (.inr fun _ _ => rfl) (.inr fun _ _ => rfl) dsm o).numbers

/-- **C109 (figures of merit).** Without repeated measurements the list of figures of merit has, in order, exactly the values
these calls returned, with the user's sign. -/
theorem C109_fom_list_partial (h : cfg.reEval = none ∨ cfg.kind = .grape) (dsm : Dsm K V F) (o : O) :
    (execute cfg env ops dsm o).2.fomList = ((execute cfg env ops dsm o).2.log.map Call.seen).filterMap usable := by
  have := (execute_told (cfg := cfg) (env := env) (ops := ops) (gs := fun _ => ()) (gl := id) (.inr fun _ _ => rfl) (.inl h)
    dsm o).values
  rw [List.map_id, List.map_id] at this
  exact this

/-- **C109 (lengths).** In any case, also with repeated measurements, there is one entry for each of these calls. -/
theorem C109_fom_list_length (dsm : Dsm K V F) (o : O) :
    (execute cfg env ops dsm o).2.fomList.length =
      (((execute cfg env ops dsm o).2.log.map Call.seen).filterMap usable).length := by
  have := (execute_told (cfg := cfg) (env := env) (ops := ops) (gs := fun _ => ()) (gl := fun _ => ())
    (.inr fun _ _ => rfl) (.inr fun _ _ => rfl) dsm o).values
  simpa only [List.length_map] using congrArg List.length this

/-- **C109 (signals).** For direct search and GRAPE, and for dCRAB without repeated measurements, a graphical interface is told
the controls before each call of the user's function, and the number and the value (in the sign of the minimization) after each
call that returned a value with status code zero, and nothing else, except that the controls told last need not have been
evaluated (the run was stopped just then). -/
theorem C109_signals (h : cfg.kind ≠ .dcrab ∨ cfg.reEval = none) (dsm : Dsm K V F) (o : O) :
    ∃ t, (execute cfg env ops dsm o).2.signals =
        signalsOf (inSign cfg.maximize) 0 ((execute cfg env ops dsm o).2.log.map Call.seen) ++ t ∧
      (t = [] ∨ ∃ c, t = [.controls c]) := by
  have := (execute_told (cfg := cfg) (env := env) (ops := ops) (gs := id) (gl := fun _ => ()) (.inl h)
    (.inr fun _ _ => rfl) dsm o).signals
  rw [mapValue_id] at this
  exact this

/-- **C109 (order of the signals).** With repeated measurements the same holds up to the values. -/
theorem C109_signals_order (dsm : Dsm K V F) (o : O) :
    ∃ t, (execute cfg env ops dsm o).2.signals.map (Signal.mapValue fun _ => ()) =
        signalsOf (fun _ => ()) 0 ((execute cfg env ops dsm o).2.log.map Call.seen) ++ t ∧
      (t = [] ∨ ∃ c, t = [.controls c]) :=
  (execute_told (cfg := cfg) (env := env) (ops := ops) (gs := fun _ => ()) (gl := fun _ => ()) (.inr fun _ _ => rfl)
    (.inr fun _ _ => rfl) dsm o).signals

/-- **C109 (plot and list).** Except for direct search with repeated measurements, the values plotted are those of the list, in
the sign of the minimization. -/
theorem C109_plot_is_list (h : cfg.kind ≠ .directSearch ∨ cfg.reEval = none) (dsm : Dsm K V F) (o : O) :
    (execute cfg env ops dsm o).2.fomList =
      ((execute cfg env ops dsm o).2.signals.filterMap Signal.plotted?).map fun p => inSign cfg.maximize p.2 :=
  (execute_told (cfg := cfg) (env := env) (ops := ops) (gs := fun _ => ()) (gl := fun _ => ()) (.inr fun _ _ => rfl)
    (.inr fun _ _ => rfl) dsm o).same h

/-- **C109 (automatic differentiation).** The same, for the calls for values: those for gradients leave no trace in the lists and
signals. -/
theorem C109_ad (lib : AdLib V C F) (o : O) :
    let r := (adExecute lib cfg env ops o).2
    let calls := (valueCalls r.gradAt r.alg.log).map Call.seen
    r.alg.iterList = usableNumbers 0 calls ∧ r.alg.fomList = calls.filterMap usable ∧
    ∃ t, r.alg.signals = signalsOf (inSign cfg.maximize) 0 calls ++ t ∧ (t = [] ∨ ∃ c, t = [.controls c]) := by
  have h := adExecute_told (cfg := cfg) (env := env) (ops := ops) lib o
  refine ⟨h.numbers, by have := h.values; rw [List.map_id, List.map_id] at this; exact this, ?_⟩
  have := h.signals
  rw [mapValue_id] at this
  exact this

/-- the answers `fs`, the one at position `k` with status code -1 -/
def exAnsStop (fs : List ℚ) (k n : ℕ) : Py (Answer ℚ) := .ok ⟨fs[n]?, none, if n = k then some (-1) else none⟩

/-- The third call has status code -1: it is not listed, not plotted, and is the last one. -/
example : let r := (execute (exCfg .dcrab 100 false none none) (exEnv (exAnsStop [5, 4, 3, 2] 2) (fun _ => .none)) exOps
      (exDsm [1, 2, 3, 4]) ()).2
    r.log.map (fun c => c.vec) = [1, 2, 3] ∧ r.fomList = [5, 4] ∧ r.iterList = [1, 2] ∧
    r.signals = [.controls 1, .plot 1 5, .controls 2, .plot 2 4, .controls 3] := by decide +kernel

/-- A stop request just after the controls of the third point were told. -/
example : let r := (execute (exCfg .dcrab 100 false none none)
      (exEnv (exAns [5, 4, 3, 2]) (fun n => if n = 9 then .guiStop else .none)) exOps (exDsm [1, 2, 3, 4]) ()).2
    r.log.map (fun c => c.vec) = [1, 2] ∧ r.fomList = [5, 4] ∧ r.iterList = [1, 2] ∧
    r.signals = [.controls 1, .plot 1 5, .controls 2, .plot 2 4, .controls 3] := by decide +kernel

/-- **C109 is violated for maximizations: the plot shows the wrong sign** (AllInOneCommunication.py:153-189): the user's values
5 and 4 are listed as such but plotted as -5 and -4. -/
theorem C109_plot_wrong_sign : ∃ (cfg : AlgCfg ℚ ℚ) (env : Env ℚ ℚ ℚ) (dsm : Dsm ℚ ℚ ℚ), cfg.maximize = true ∧
    (execute cfg env exOps dsm ()).2.log.map (fun c => usable c.seen) = [some 5, some 4] ∧
    (execute cfg env exOps dsm ()).2.fomList = [5, 4] ∧
    (execute cfg env exOps dsm ()).2.signals.filterMap Signal.plotted? = [(1, -5), (2, -4)] :=
  ⟨exCfg .directSearch 100 true none none, exEnv (exAns [5, 4]) (fun _ => .none), exDsm [1, 2],
    by decide +kernel, by decide +kernel, by decide +kernel, by decide +kernel⟩

/-- **C109 is violated for direct search with repeated measurements: plot and list differ** (DirectSearchAlgorithm.py:254-287 lists
the running mean and reports the single measurement). -/
theorem C109_plot_not_list : ∃ (cfg : AlgCfg ℚ ℚ) (env : Env ℚ ℚ ℚ) (dsm : Dsm ℚ ℚ ℚ), cfg.maximize = false ∧
    (execute cfg env exOps dsm ()).2.fomList ≠
      ((execute cfg env exOps dsm ()).2.signals.filterMap Signal.plotted?).map Prod.snd :=
  ⟨exCfg .directSearch 100 false none (some [1 / 10, 1 / 5]), exEnv (exAns [5, 5, 4, 2, 6]) (fun _ => .none), exDsm [1, 2],
    by decide +kernel, by decide +kernel⟩

end QuOCS
