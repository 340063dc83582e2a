/-
Model of `src/quocslib/parameters/BaseParameter.py`, `parameters/TimeParameter.py` and `src/quocslib/Controls.py`
(the NumPy variant, `is_AD = False`).
-/
import Verif.Model.Pulse

namespace QuOCS

/-- The user's description of a parameter (arguments of BaseParameter.py:24-33). -/
structure ParamDict (K : Type*) where
  name : String
  initialValue : K
  lower : K
  upper : K
  amplitudeVariation : K

/-- A parameter object (BaseParameter.py:44-63). -/
structure Param (K : Type*) where
  name : String
  value : K
  lower : K
  upper : K
  amplitudeVariation : K
  ctrlList : List ℕ
  lastIndex : ℤ

/-- The user's description of a time (arguments of TimeParameter.py:34-43). -/
structure TimeDict (K : Type*) where
  name : String
  initialValue : K
  isOptimization : Bool
  lower : K
  upper : K
  amplitudeVariation : K

/-- A time object (TimeParameter.py:55-77). The fields of the embedded `BaseParameter` only exist in Python when
`is_optimization` is set; the code never reads them otherwise. -/
structure TimeObj (K : Type*) where
  name : String
  isOptimization : Bool
  time : K
  timeVariation : K
  alpha : Param K

/-- The `Controls` object (Controls.py:33-96); the dictionary of times is an association list. -/
structure Controls (K : Type*) where
  pulses : List (Pulse K)
  params : List (Param K)
  times : List (String × TimeObj K)

/-- What is delivered to the user's `get_FoM` (dCRABAlgorithm.py:436-440). -/
structure ControlsOut (K : Type*) where
  pulses : List (List K)
  timegrids : List (List K)
  parameters : List K
  deriving DecidableEq, Repr

section
variable {K : Type*} [Field K] [LinearOrder K]

/-- `BaseParameter.__init__` (BaseParameter.py:44-63), one control parameter. -/
def mkParam (mapIndex : ℤ) (d : ParamDict K) : Param K :=
  { name := d.name, value := d.initialValue, lower := d.lower, upper := d.upper
    amplitudeVariation := d.amplitudeVariation
    ctrlList := ctrlIndices mapIndex 1
    lastIndex := mapIndex + 1 }

/-- `_check_limits` (BaseParameter.py:112-122). -/
def Param.checkLimits (p : Param K) (x : K) : K := min (max p.lower x) p.upper

/-- `set_parameter` (BaseParameter.py:86-92, 104-110): reads element 0 of the given vector. -/
def Param.setParameter (p : Param K) (v : List K) : Py (Param K) := do
  let x ← getIdx v 0
  pure { p with value := p.checkLimits x }

/-- `get_parameter` (BaseParameter.py:94-102): stores the limited value and returns it. -/
def Param.getParameter (p : Param K) (v : List K) : Py (Param K × K) := do
  let p' ← p.setParameter v
  pure (p', p'.value)

/-- `BaseParameter.set_control_parameters_list` (BaseParameter.py:82-84): `last_index` is not recomputed. -/
def Param.setCtrlList (p : Param K) (mapIndex : ℤ) : Param K :=
  { p with ctrlList := ctrlIndices mapIndex 1 }

/-- `TimeParameter.__init__` (TimeParameter.py:55-77); `Controls.__init__` never passes `map_index`
(Controls.py:79), so the default `-1` is used. In exact arithmetic a zero variation yields zero instead of the
`ZeroDivisionError` of Python; see `mkTime`'s guard. -/
def mkTime (d : TimeDict K) : Py (TimeObj K) :=
  if d.isOptimization && decide (d.upper - d.lower = 0) then .error .zeroDivision
  else
    let mv := d.upper - d.lower
    .ok { name := d.name, isOptimization := d.isOptimization, time := d.initialValue, timeVariation := mv
          alpha := mkParam (-1) { name := "alpha_" ++ d.name, initialValue := 0
                                  lower := (d.lower - d.initialValue) / mv
                                  upper := (d.upper - d.initialValue) / mv
                                  amplitudeVariation := d.amplitudeVariation / mv } }

/-- `get_time` (TimeParameter.py:82-93). -/
def TimeObj.getTime (t : TimeObj K) : K :=
  if t.isOptimization then t.time + t.alpha.value * t.timeVariation else t.time

/-- Python dictionary assignment `d[k] = v`: replace in place or append. -/
def dictSet {α β : Type*} [DecidableEq α] (d : List (α × β)) (k : α) (v : β) : List (α × β) :=
  match d with
  | [] => [(k, v)]
  | (k', v') :: rest => if k' = k then (k', v) :: rest else (k', v') :: dictSet rest k v

/-- Python dictionary lookup `d[k]`, `KeyError` if missing. -/
def dictGet {α β : Type*} [DecidableEq α] (d : List (α × β)) (k : α) : Py β :=
  match d.lookup k with
  | some v => .ok v
  | none => .error .keyError

/-- Creation of the pulse objects with the running `map_index` (Controls.py:53-65). -/
def mkPulses (M : MathFns K) : ℤ → List (PulseDict K) → Py (List (Pulse K) × ℤ)
  | mi, [] => .ok ([], mi)
  | mi, d :: ds => do
      let p ← mkPulse M mi d
      let (ps, mi') ← mkPulses M p.lastIndex ds
      pure (p :: ps, mi')

/-- Creation of the parameter objects with the running `map_index` (Controls.py:69-73). -/
def mkParams : ℤ → List (ParamDict K) → List (Param K)
  | _, [] => []
  | mi, d :: ds =>
      let p := mkParam mi d
      p :: mkParams p.lastIndex ds

/-- Creation of the dictionary of times (Controls.py:77-80). -/
def mkTimes : List (TimeDict K) → List (String × TimeObj K) → Py (List (String × TimeObj K))
  | [], acc => .ok acc
  | d :: ds, acc => do
      let t ← mkTime d
      mkTimes ds (dictSet acc d.name t)

/-- `Controls.__init__` (Controls.py:33-96). -/
def mkControls (M : MathFns K) (pulses : List (PulseDict K)) (times : List (TimeDict K))
    (params : List (ParamDict K)) : Py (Controls K) := do
  let (ps, mi) ← mkPulses M (-1) pulses
  let prs := mkParams mi params
  let ts ← mkTimes times []
  pure { pulses := ps, params := prs, times := ts }

/-- `get_control_parameters_number` (Controls.py:107-127). -/
def Controls.number (c : Controls K) : ℕ :=
  (c.pulses.map (·.nParams)).sum + (c.params.map (fun _ => 1)).sum

/-- `_update_control_parameter_indexes`, pulses (Controls.py:146-149): the next `map_index` is the unchanged
`last_index` attribute. -/
def reindexPulses : ℤ → List (Pulse K) → List (Pulse K) × ℤ
  | mi, [] => ([], mi)
  | mi, p :: ps =>
      let r := reindexPulses p.lastIndex ps
      (p.setCtrlList mi :: r.1, r.2)

/-- `_update_control_parameter_indexes`, parameters (Controls.py:153-156). -/
def reindexParams : ℤ → List (Param K) → List (Param K)
  | _, [] => []
  | mi, p :: ps => p.setCtrlList mi :: reindexParams p.lastIndex ps

/-- `_update_control_parameter_indexes` (Controls.py:139-161). -/
def Controls.reindex (c : Controls K) : Controls K :=
  let r := reindexPulses (-1) c.pulses
  { c with pulses := r.1, params := reindexParams r.2 c.params }

/-- Body of the loop of `select_basis` for the pulse with index `i` (Controls.py:131-137). -/
def Controls.selectBasisAt (rnd : ℕ → List K) (c : Controls K) (i : ℕ) : Py (Controls K) :=
  match c.pulses[i]? with
  | none => .ok c
  | some p =>
      if p.basis.isChopped then do
        let p' ← p.drawSuper (rnd i)
        pure ({ c with pulses := c.pulses.set i p' } : Controls K).reindex
      else .ok c

/-- `select_basis` (Controls.py:129-137); `rnd i` are the random numbers drawn for pulse `i`. -/
def Controls.selectBasis (rnd : ℕ → List K) (c : Controls K) : Py (Controls K) :=
  (List.range c.pulses.length).foldlM (fun c i => c.selectBasisAt rnd i) c

/-- `get_random_super_parameter` (Controls.py:163-174). -/
def Controls.superParameters (c : Controls K) : List (List K) :=
  (c.pulses.filter (fun p => p.basis.isChopped)).map (·.w)

/-- NumPy fancy assignment `a[idx] = vals`: `ValueError` if the number of values does not fit,
`IndexError` if an index is out of range. -/
def scatter (a : List K) (idx : List ℕ) (vals : List K) : Py (List K) :=
  if vals.length ≠ idx.length ∧ vals.length ≠ 1 then .error .valueError
  else if idx.all (fun i => decide (i < a.length)) then
    .ok ((idx.zip (if vals.length = idx.length then vals else List.replicate idx.length (vals.headD 0))).foldl
          (fun a iv => a.set iv.1 iv.2) a)
  else .error .indexError

/-- NumPy fancy indexing `a[idx]`. -/
def gather (a : List K) (idx : List ℕ) : Py (List K) := idx.mapM (fun i => getIdx a i)

/-- `get_sigma_variation` (Controls.py:176-194). -/
def Controls.sigma (c : Controls K) : Py (List K) := do
  let s ← c.pulses.foldlM (fun s p => scatter s p.ctrlList p.scaleCoeffs) (zeros c.number)
  let s ← c.params.foldlM (fun s p => scatter s p.ctrlList [p.amplitudeVariation]) s
  c.times.foldlM (fun s t => if t.2.isOptimization then scatter s t.2.alpha.ctrlList [t.2.alpha.amplitudeVariation]
    else pure s) s

/-- `get_mean_value` (Controls.py:196-211). -/
def Controls.mean (c : Controls K) : Py (List K) := do
  let s ← c.pulses.foldlM (fun s p => scatter s p.ctrlList p.offsetCoeffs) (zeros c.number)
  c.params.foldlM (fun s p => scatter s p.ctrlList [p.value]) s

/-- The loop "Set the times" (Controls.py:220-223, 244-247). -/
def setTimes (x : List K) (ts : List (String × TimeObj K)) : Py (List (String × TimeObj K)) :=
  ts.mapM (fun t =>
    if t.2.isOptimization then do
      let v ← gather x t.2.alpha.ctrlList
      let a ← t.2.alpha.setParameter v
      pure (t.1, { t.2 with alpha := a })
    else pure t)

/-- `update_base_controls` (Controls.py:213-231). -/
def Controls.updateBase (M : MathFns K) (c : Controls K) (x : List K) : Py (Controls K) := do
  let ts ← setTimes x c.times
  let ps ← c.pulses.mapM (fun p => do
    let v ← gather x p.ctrlList
    let t ← dictGet ts p.timeName
    p.setBasePulse M v t.getTime)
  let prs ← c.params.mapM (fun p => do
    let v ← gather x p.ctrlList
    p.setParameter v)
  pure { pulses := ps, params := prs, times := ts }

/-- `_get_controls_lists` (Controls.py:233-260): the updated objects and the delivered lists. -/
def Controls.getControls (M : MathFns K) (c : Controls K) (x : List K) : Py (Controls K × ControlsOut K) := do
  let ts ← setTimes x c.times
  let ps ← c.pulses.mapM (fun p => do
    let v ← gather x p.ctrlList
    let t ← dictGet ts p.timeName
    p.getPulse M v t.getTime)
  let prs ← c.params.mapM (fun p => do
    let v ← gather x p.ctrlList
    p.getParameter v)
  pure ({ pulses := ps.map (·.1), params := prs.map (·.1), times := ts },
        { pulses := ps.map (·.2), timegrids := ps.map (·.1.timeGrid), parameters := prs.map (·.2) })

/-- `get_bare_controls_lists` (Controls.py:324-340). -/
def Controls.getBare (M : MathFns K) (c : Controls K) (x : List K) : Py (Controls K × List (List K)) := do
  let ps ← c.pulses.mapM (fun p => do
    let v ← gather x p.ctrlList
    let t ← dictGet c.times p.timeName
    p.getBarePulse M v t.getTime)
  pure ({ c with pulses := ps.map (·.1) }, ps.map (·.2))

end
end QuOCS
