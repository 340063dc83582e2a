/-
Model of `gradientfreemethods/NelderMead.py` and of the call counter of `gradientfreemethods/DirectSearchMethod.py`.

A search vector of dimension `n` is a function `Fin n → K`; the arrays `sim` and `fsim` are functions on the `n + 1` row
numbers. The shapes are fixed by `x0` and `initial_simplex` (n+1 rows, created by `simplex_creation`).
Numbers of the search vectors are exact (a field `K`); nothing is assumed about the values `F`.
-/
import Mathlib.Algebra.Field.Basic
import Mathlib.Algebra.BigOperators.Fin
import Mathlib.Data.Fin.VecNotation
import Mathlib.Order.Fin.Basic
import Verif.Model.Algorithm

namespace QuOCS

/-- A search vector of dimension `n`. -/
abbrev Vec (K : Type) (n : ℕ) := Fin n → K

/-- `[rho, chi, psi, sigma]` (NelderMead.py:69-78). -/
structure NmCoef (K : Type) where
  rho : K
  chi : K
  psi : K
  sigma : K

/-- The settings of the search. -/
structure NmCfg (K F : Type) (n : ℕ) where
  /-- `is_adaptive` -/
  adaptive : Bool
  /-- `drift_comp_minutes` -/
  driftMinutes : ℚ
  /-- `drift_comp_num_average` -/
  driftAverage : ℕ
  /-- `np.argsort` on arrays with `n + 1` entries: row `i` of the sorted array is row `argsort f i` of the old one -/
  argsort : (Fin (n + 1) → F) → Equiv.Perm (Fin (n + 1))

/-- The local variables of `run_dsm`. -/
structure NmState (K F : Type) (n : ℕ) where
  sim : Fin (n + 1) → Vec K n
  fsim : Fin (n + 1) → F
  /-- `calls_number[0]` (DirectSearchMethod.py:25, 34) -/
  calls : ℕ
  iterations : ℕ
  /-- `last_drift_compensation_time` -/
  lastDrift : ℚ

section
variable {K F : Type} {n : ℕ} [Field K] [LinearOrder K]
variable [Add F] [Sub F] [Mul F] [Div F] [Neg F] [Zero F] [One F] [NatCast F] [LE F] [LT F] [DecidableLE F]
  [DecidableLT F]

/-- Hyper-parameters (NelderMead.py:68-78). Division by zero for dimension zero is not modelled. -/
def nmCoef (adaptive : Bool) (n : ℕ) : NmCoef K :=
  if adaptive then ⟨1, 1 + 2 / (n : K), 3 / 4 - 1 / (2 * (n : K)), 1 - 1 / (n : K)⟩
  else ⟨1, 2, 1 / 2, 1 / 2⟩

/-- A call of the wrapped objective: counted, then forwarded (DirectSearchMethod.py:28-38). -/
def nmEval (x : Vec K n) (s : NmState K F n) : Strat K (Vec K n) F (F × NmState K F n) := do
  let f ← Strat.call (.eval x s.iterations)
  pure (f, { s with calls := s.calls + 1 })

/-- Evaluation of the rows `ks` of the start simplex (NelderMead.py:97-98). -/
def nmInit : List (Fin (n + 1)) → NmState K F n → Strat K (Vec K n) F (NmState K F n)
  | [], s => pure s
  | k :: ks, s => do
      let (f, s) ← nmEval (s.sim k) s
      nmInit ks { s with fsim := Function.update s.fsim k f }

/-- Sorting (NelderMead.py:100-101, 163-164). -/
def nmSort (c : NmCfg K F n) (s : NmState K F n) : NmState K F n :=
  { s with sim := s.sim ∘ c.argsort s.fsim, fsim := s.fsim ∘ c.argsort s.fsim }

/-- `sim[-1] = x`, `fsim[-1] = f`. -/
def nmReplace (x : Vec K n) (f : F) (s : NmState K F n) : NmState K F n :=
  { s with sim := Function.update s.sim (Fin.last n) x, fsim := Function.update s.fsim (Fin.last n) f }

/-- `np.add.reduce(sim[:-1], 0) / dim` (NelderMead.py:107). -/
def nmBar (sim : Fin (n + 1) → Vec K n) : Vec K n := fun j => (∑ i : Fin n, sim i.castSucc j) / (n : K)

/-- `fsim[-2]`: `IndexError` for arrays of length one. -/
def secondWorst : {n : ℕ} → (Fin (n + 1) → F) → Py F
  | 0, _ => .error .indexError
  | n + 1, f => .ok (f (Fin.last n).castSucc)

/-- `self.sc_obj.is_converged`, read. -/
def nmConv : Strat K (Vec K n) F Bool := Strat.call .readConv

/-- Expansion (NelderMead.py:114-124); `true` means that the while loop is left by `break`. -/
def nmExpand (co : NmCoef K) (xbar xr : Vec K n) (fxr : F) (s : NmState K F n) :
    Strat K (Vec K n) F (Bool × NmState K F n) := do
  let xe := (1 + co.rho * co.chi) • xbar - (co.rho * co.chi) • s.sim (Fin.last n)
  if ← nmConv then pure (true, s)
  else do
    let (fxe, s) ← nmEval xe s
    if fxe < fxr then pure (false, nmReplace xe fxe s) else pure (false, nmReplace xr fxr s)

/-- Shrinking of the rows `js` (NelderMead.py:156-161): a row is moved before the stop is noticed. -/
def nmShrink (co : NmCoef K) : List (Fin (n + 1)) → NmState K F n → Strat K (Vec K n) F (NmState K F n)
  | [], s => pure s
  | j :: js, s => do
      let x := s.sim 0 + co.sigma • (s.sim j - s.sim 0)
      let s := { s with sim := Function.update s.sim j x }
      if ← nmConv then pure s
      else do
        let (f, s) ← nmEval x s
        nmShrink co js { s with fsim := Function.update s.fsim j f }

/-- rows `1, ..., dim` -/
def shrinkRows (n : ℕ) : List (Fin (n + 1)) := (List.finRange n).map Fin.succ

/-- Outside contraction (NelderMead.py:131-141). -/
def nmOutside (co : NmCoef K) (xbar : Vec K n) (fxr : F) (s : NmState K F n) :
    Strat K (Vec K n) F (Bool × NmState K F n) := do
  let xc := (1 + co.psi * co.rho) • xbar - (co.psi * co.rho) • s.sim (Fin.last n)
  if ← nmConv then pure (true, s)
  else do
    let (fxc, s) ← nmEval xc s
    if fxc ≤ fxr then pure (false, nmReplace xc fxc s)
    else do
      let s ← nmShrink co (shrinkRows n) s
      pure (false, s)

/-- Inside contraction (NelderMead.py:142-154). -/
def nmInside (co : NmCoef K) (xbar : Vec K n) (s : NmState K F n) :
    Strat K (Vec K n) F (Bool × NmState K F n) := do
  let xcc := (1 - co.psi) • xbar + co.psi • s.sim (Fin.last n)
  if ← nmConv then pure (true, s)
  else do
    let (fxcc, s) ← nmEval xcc s
    if fxcc < s.fsim (Fin.last n) then pure (false, nmReplace xcc fxcc s)
    else do
      let s ← nmShrink co (shrinkRows n) s
      pure (false, s)

/-- What happens when the reflected point is not better than the best one (NelderMead.py:125-161). -/
def nmContract (co : NmCoef K) (xbar xr : Vec K n) (fxr : F) (s : NmState K F n) :
    Strat K (Vec K n) F (Bool × NmState K F n) := do
  let f2 ← Strat.lift (secondWorst s.fsim)
  if fxr < f2 then pure (false, nmReplace xr fxr s)
  else if fxr < s.fsim (Fin.last n) then nmOutside co xbar fxr s
  else nmInside co xbar s

/-- One move of the simplex (NelderMead.py:106-161). -/
def nmMove (co : NmCoef K) (s : NmState K F n) : Strat K (Vec K n) F (Bool × NmState K F n) := do
  let xbar := nmBar s.sim
  let xr := (1 + co.rho) • xbar - co.rho • s.sim (Fin.last n)
  let (fxr, s) ← nmEval xr s
  if fxr < s.fsim 0 then nmExpand co xbar xr fxr s else nmContract co xbar xr fxr s

/-- Sum of `m` measurements of the row 0 (NelderMead.py:186-187). -/
def nmSum : ℕ → F → NmState K F n → Strat K (Vec K n) F (F × NmState K F n)
  | 0, acc, s => pure (acc, s)
  | m + 1, acc, s => do
      let (f, s) ← nmEval (s.sim 0) s
      nmSum m (acc + f) s

/-- The drift compensation proper (NelderMead.py:170-204): the best row is measured again, the other values are shifted
by the same amount, the new value is announced (a call of the wrapped objective, counted). -/
def nmDriftDo (c : NmCfg K F n) (s : NmState K F n) : Strat K (Vec K n) F (NmState K F n) := do
  let prev := s.fsim 0
  let (f, s) ← nmSum c.driftAverage 0 s
  if c.driftAverage = 0 then Strat.fail .zeroDivision
  else do
    let new := f / (c.driftAverage : F)
    let fsim := fun i => if i = 0 then new else s.fsim i + (new - prev)
    let t ← Strat.call .now
    let _ ← Strat.call (.drift (s.sim 0) s.iterations new)
    pure { s with fsim := fsim, lastDrift := t, calls := s.calls + 1 }

/-- Drift compensation if it is due (NelderMead.py:166-169). -/
def nmDrift (c : NmCfg K F n) (s : NmState K F n) : Strat K (Vec K n) F (NmState K F n) :=
  if c.driftMinutes > 0 then do
    if ← nmConv then pure s
    else do
      let t ← Strat.call .now
      if t - s.lastDrift ≥ c.driftMinutes then nmDriftDo c s else pure s
  else pure s

/-- `np.max(np.ravel(np.abs(sim[1:] - sim[0])))` (StoppingCriteria.py:85): `ValueError` for an empty array. -/
def simplexSize (sim : Fin (n + 1) → Vec K n) : Py K :=
  match ((List.finRange n).flatMap (fun i => (List.finRange n).map (fun j => |sim i.succ j - sim 0 j|))) with
  | [] => .error .valueError
  | x :: xs => .ok (xs.foldl max x)

/-- End of an iteration: callback and stopping criteria (NelderMead.py:205-216). The algorithms always pass a callback
(dCRABAlgorithm.py:64-66, DirectSearchAlgorithm.py). -/
def nmFinish (s : NmState K F n) : Strat K (Vec K n) F (NmState K F n) := do
  let s := { s with iterations := s.iterations + 1 }
  let b ← Strat.call .callback
  if b then pure () else Strat.call .userStop
  Strat.call (.checkNM (simplexSize s.sim) (List.ofFn s.fsim) s.calls)
  pure s

/-- The while loop (NelderMead.py:105-217), observed for at most `fuel` rounds. -/
def nmLoop (c : NmCfg K F n) (co : NmCoef K) : ℕ → NmState K F n → Strat K (Vec K n) F (NmState K F n)
  | 0, _ => Strat.fail .outOfFuel
  | fuel + 1, s => do
      if ← nmConv then pure s
      else do
        let (brk, s) ← nmMove co s
        if brk then pure s
        else do
          let s ← nmDrift c (nmSort c s)
          let s ← nmFinish s
          nmLoop c co fuel s

/-- `run_dsm` with a start simplex (NelderMead.py:41-231). -/
def nmRun (c : NmCfg K F n) (fuel : ℕ) (sim : Fin (n + 1) → Vec K n) :
    Strat K (Vec K n) F (DsmResult (Vec K n) F) := do
  Strat.call (.setConv false)
  let _ ← Strat.call .now
  let t ← Strat.call .now
  let s ← nmInit (List.finRange (n + 1)) { sim := sim, fsim := fun _ => 0, calls := 0, iterations := 0, lastDrift := t }
  let s ← nmLoop c (nmCoef c.adaptive n) fuel { nmSort c s with iterations := 1 }
  let r ← Strat.call .reason
  pure { fMin := s.fsim 0, xOpt := s.sim 0, nit := s.iterations - 1, nfev := s.calls, reason := r }

/-- The search method as it is used by the algorithms: `initial_simplex` is an array with `n + 1` rows. Other shapes are
reported as `ValueError` (NumPy may raise another exception or ignore surplus rows; `simplex_creation` never produces
them). -/
def nelderMead (c : NmCfg K F n) (fuel : ℕ) : Dsm K (Vec K n) F := fun _ _ sim _ =>
  if h : sim.length = n + 1 then nmRun c fuel (fun i => sim[i]) else Strat.fail .valueError

/-- The start simplex when none is given (NelderMead.py:80-92): row 0 is never written. -/
def nmDefaultSimplex (x0 : Vec K n) : Fin (n + 1) → Vec K n :=
  Fin.cons (fun _ => 0) (fun k => Function.update x0 k (if x0 k ≠ 0 then (1 + 5 / 100) * x0 k else 25 / 100000))

end
end QuOCS
