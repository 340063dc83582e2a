/-
Model of `optimizationalgorithms/ADAlgorithm.py`: gradients by automatic differentiation of the user's `get_FoM`.
-/
import Verif.Model.Algorithm

namespace QuOCS

/-- `scipy.optimize.minimize(f_call, jac=get_gradient, method='L-BFGS-B')` (ADAlgorithm.py:159-169) as an arbitrary
program that calls the two functions it is given. -/
inductive AdStrat (V F α : Type) : Type
  | ret (a : α)
  | value (x : V) (k : F → AdStrat V F α)
  | grad (x : V) (k : V → AdStrat V F α)
  | fail (e : PyErr)

/-- The state of the algorithm, and the positions in the log of the calls made for a gradient (not in the code). -/
structure AdState (V C O F : Type) where
  alg : AlgState V C O F
  gradAt : List ℕ

/-- Library parts: the value of a gradient (`jax.grad`, may depend on everything that happened), the random start vector
of super-iteration `k` (ADAlgorithm.py:146-151) and the search method. -/
structure AdLib (V C F : Type) where
  grad : List (Call V C F) → V → V
  start : ℕ → V → V → Py V
  search : V → AdStrat V F Unit

section
variable {K V C O F α : Type} [LE K] [DecidableLE K]
variable [Add F] [Sub F] [Mul F] [Div F] [Neg F] [Zero F] [One F] [NatCast F] [LE F] [LT F] [DecidableLE F]
  [DecidableLT F]

/-- A method of the algorithm object. -/
def onAlg (m : Prog (AlgState V C O F) α) : Prog (AdState V C O F) α := fun s =>
  ((m s.alg).1, { s with alg := (m s.alg).2 })

/-- `inner_routine_call` (ADAlgorithm.py:109-118). -/
def adValue (cfg : AlgCfg K F) (env : Env V C F) (ops : CtlOps O V C) (x : V) : Prog (AlgState V C O F) F := do
  Prog.modify (fun s => { s with isRecord := false })
  routineCall cfg env ops x 0

/-- `get_gradient` (ADAlgorithm.py:125-130, 153-154): `jax.jit(jax.grad(self.get_gradient))(x)`. A new function is
compiled in every call, so the user's `get_FoM` is called (with traced controls) in every call. Nothing is checked
before, the status code is not looked at. -/
def adGradient (lib : AdLib V C F) (env : Env V C F) (ops : CtlOps O V C) (x : V) : Prog (AdState V C O F) V := fun s =>
  match ops.getControls s.alg.ctl x with
  | .error e => (.error e, s)
  | .ok (o, c) =>
    let a := env.getFoM s.alg.log c
    let s1 := { s with
      alg := { s.alg with ctl := o, log := s.alg.log ++ [⟨x, c, a, s.alg.polls, s.alg.ticks⟩] }
      gradAt := s.gradAt ++ [s.alg.log.length] }
    match a with
    | .error e => (.error e, s1)
    | .ok a =>
      match a.fom with
      | none => (.error .typeError, s1)
      | some _ => (.ok (lib.grad s1.alg.log x), s1)

/-- Running the search method. -/
def AdStrat.interp (lib : AdLib V C F) (cfg : AlgCfg K F) (env : Env V C F) (ops : CtlOps O V C) :
    AdStrat V F α → Prog (AdState V C O F) α
  | .ret a => pure a
  | .value x k => onAlg (adValue cfg env ops x) >>= fun f => (k f).interp lib cfg env ops
  | .grad x k => adGradient lib env ops x >>= fun g => (k g).interp lib cfg env ops
  | .fail e => Prog.raise e

/-- `inner_run` (ADAlgorithm.py:144-175). -/
def adInnerRun (lib : AdLib V C F) (cfg : AlgCfg K F) (env : Env V C F) (ops : CtlOps O V C) (k : ℕ) :
    Prog (AdState V C O F) Unit := do
  let s ← Prog.get
  let sigma ← Prog.lift (ops.sigma s.alg.ctl)
  let mean ← Prog.lift (ops.mean s.alg.ctl)
  let x0 ← Prog.lift (lib.start k mean sigma)
  (lib.search x0).interp lib cfg env ops

/-- Body of the loop in `run` (ADAlgorithm.py:134-142): the running state is not looked at. -/
def adSuperIteration (lib : AdLib V C F) (cfg : AlgCfg K F) (env : Env V C F) (ops : CtlOps O V C) (k : ℕ) :
    Prog (AdState V C O F) Unit := do
  onAlg (Prog.modify (fun s => { s with superIt := k }))
  let s ← Prog.get
  let o ← Prog.lift (ops.selectBasis k s.alg.ctl)
  onAlg (Prog.modify (fun s => { s with ctl := o }))
  adInnerRun lib cfg env ops k
  onAlg (updateBasePulses ops)

/-- `run` (ADAlgorithm.py:132-142): super-iterations `k, k+1, ...`, `n` of them. -/
def adLoop (lib : AdLib V C F) (cfg : AlgCfg K F) (env : Env V C F) (ops : CtlOps O V C) :
    ℕ → ℕ → Prog (AdState V C O F) Unit
  | 0, _ => pure ()
  | n + 1, k => do
      adSuperIteration lib cfg env ops k
      adLoop lib cfg env ops n (k + 1)

/-- The settings of an AD run: evaluation and record logic are those of GRAPE (ADAlgorithm.py:202-223 and
GRAPEAlgorithm.py:107-133 do the same, neither has a `dsm_obj`). -/
def adCfg (cfg : AlgCfg K F) : AlgCfg K F := { cfg with kind := .grape }

/-- A whole AD optimization. -/
def adExecute (lib : AdLib V C F) (cfg : AlgCfg K F) (env : Env V C F) (ops : CtlOps O V C) (o : O) :
    Py Unit × AdState V C O F :=
  adLoop lib (adCfg cfg) env ops cfg.maxSI 1 ⟨initState (adCfg cfg) env o, []⟩

end
end QuOCS
