/-
Model of `gradientfreemethods/CMAES.py`.

A search vector of dimension `n` is a function `Fin n → K`, the arrays `arx`, `fsim`, `ind` are functions on the numbers
`0, ..., L-1` of the individuals (`L` = population size). Numbers of the search vectors are exact (a field `K`); logarithm,
exponential function, powers, square root, eigenvalue decomposition, sorting and random numbers are parameters.
-/
import Mathlib.Data.Matrix.Mul
import Mathlib.Data.Matrix.Diagonal
import Mathlib.Algebra.Order.Floor.Ring
import Verif.Model.NelderMead

namespace QuOCS

/-- The functions of NumPy / SciPy used by CMA-ES. -/
structure CmaLib (K F : Type) where
  log : K → K
  exp : K → K
  /-- `np.power` -/
  pow : K → K → K
  sqrt : K → K
  /-- `scipy.linalg.eigh`: eigenvalues and matrix of eigenvectors -/
  eigh : {n : ℕ} → Matrix (Fin n) (Fin n) K → (Fin n → K) × Matrix (Fin n) (Fin n) K
  /-- `np.argsort` -/
  argsort : {l : ℕ} → (Fin l → F) → Equiv.Perm (Fin l)
  /-- `np.random.randn(N,)`, draw number `j` of a search -/
  randn : {n : ℕ} → ℕ → Fin n → K
  /-- the same for the search in super-iteration `k` -/
  randnIn : ℕ → {n : ℕ} → ℕ → Fin n → K := fun _ => randn

/-- The functions as used in super-iteration `k`. -/
def CmaLib.inSuperIteration {K F : Type} (lib : CmaLib K F) (k : ℕ) : CmaLib K F := { lib with randn := lib.randnIn k }

/-- Strategy parameters (CMAES.py:93-105). -/
structure CmaPar (K : Type) where
  mueff : K
  cc : K
  cs : K
  c1 : K
  cmu : K
  damps : K

/-- The local variables of `run_dsm`. -/
structure CmaState (K F : Type) (n L : ℕ) where
  xmean : Vec K n
  sigma : K
  pc : Vec K n
  ps : Vec K n
  B : Matrix (Fin n) (Fin n) K
  D : Vec K n
  C : Matrix (Fin n) (Fin n) K
  invsqrtC : Matrix (Fin n) (Fin n) K
  arx : Fin L → Vec K n
  fsim : Fin L → F
  ind : Fin L → Fin L
  counteval : ℕ
  iterations : ℕ
  /-- `calls_number[0]` -/
  calls : ℕ

section
variable {K F : Type} {n L : ℕ} [Field K] [LinearOrder K]

/-- Weights before normalization (CMAES.py:90): `log(mu + 0.5) - log(i)` for `i = 1, ..., mu`. -/
def cmaRawWeights (log : K → K) (mu : ℕ) (i : Fin mu) : K := log ((mu : K) + 1 / 2) - log ((i : ℕ) + 1)

/-- `weights` (CMAES.py:90-92). -/
def cmaWeights (log : K → K) (mu : ℕ) (i : Fin mu) : K :=
  cmaRawWeights log mu i / ∑ j, cmaRawWeights log mu j

/-- `mueff` (CMAES.py:94). -/
def cmaMueff (w : Fin L → K) : K := 1 / ∑ i, w i ^ 2

/-- Strategy parameters from `mueff` and the dimension (CMAES.py:96-105). -/
def cmaPar (sqrt : K → K) (n : ℕ) (mueff : K) : CmaPar K :=
  let N : K := n
  let cs := (mueff + 2) / (N + mueff + 5)
  let c1 := 2 / ((N + 13 / 10) ^ 2 + mueff)
  { mueff := mueff
    cc := (4 + mueff / N) / (N + 4 + 2 * mueff / N)
    cs := cs
    c1 := c1
    cmu := min (1 - c1) (2 * (mueff - 2 + 1 / mueff) / ((N + 2) ^ 2 + mueff))
    damps := 1 + 2 * max 0 (sqrt ((mueff - 1) / (N + 1)) - 1) + cs }

/-- `chiN` (CMAES.py:120). -/
def cmaChi (sqrt : K → K) (n : ℕ) : K := sqrt n * (1 - 1 / (4 * (n : K)) + 1 / (21 * (n : K) ^ 2))

/-- `np.linalg.norm` of a vector. -/
def vecNorm (sqrt : K → K) (v : Vec K n) : K := sqrt (∑ i, v i ^ 2)

/-- Variables at the start (CMAES.py:76-78, 108-134). The products with `B = np.eye(N)` in lines 115-116 are elementwise
and leave the diagonal matrices as they are. -/
def cmaInit [Zero F] (hL : 0 < L) (x0 : Vec K n) (sg : Vec K n) : CmaState K F n L :=
  { xmean := x0, sigma := 1, pc := 0, ps := 0, B := 1, D := sg
    C := Matrix.diagonal (fun i => sg i ^ 2), invsqrtC := Matrix.diagonal (fun i => (sg i)⁻¹)
    arx := fun _ => 0, fsim := fun _ => 0, ind := fun _ => ⟨0, hL⟩, counteval := 0, iterations := 1, calls := 0 }

/-- Sampling and evaluation of the individuals `ks` (CMAES.py:138-148). -/
def cmaSample (lib : CmaLib K F) : List (Fin L) → CmaState K F n L → Strat K (Vec K n) F (CmaState K F n L)
  | [], s => pure s
  | k :: ks, s => do
      let x := if s.counteval = 0 then s.xmean
        else s.xmean + s.sigma • s.B.mulVec (fun i => s.D i * lib.randn s.counteval i)
      let f ← Strat.call (.eval x s.iterations)
      cmaSample lib ks { s with
        arx := Function.update s.arx k x, fsim := Function.update s.fsim k f
        counteval := s.counteval + 1, calls := s.calls + 1 }

/-- Sorting (CMAES.py:149-153). -/
def cmaSort (lib : CmaLib K F) (s : CmaState K F n L) : CmaState K F n L :=
  { s with iterations := s.iterations + 1, ind := lib.argsort s.fsim, fsim := s.fsim ∘ lib.argsort s.fsim }

/-- The `mu` best individuals: `arx[:, ind[0:mu]]` with `mu = L / 2`. -/
def cmaBest (s : CmaState K F n L) (i : Fin (L / 2)) : Vec K n := s.arx (s.ind ⟨i, by omega⟩)

/-- Recombination: the new mean (CMAES.py:168). -/
def cmaMean (lib : CmaLib K F) (s : CmaState K F n L) : Vec K n :=
  ∑ i, cmaWeights lib.log (L / 2) i • cmaBest s i

/-- The new covariance matrix (CMAES.py:184-186); `hsig` is 0 or 1. -/
def cmaCov (p : CmaPar K) (w : Fin L → K) (best : Fin L → Vec K n) (xold pc : Vec K n) (sigma hsig : K)
    (C : Matrix (Fin n) (Fin n) K) : Matrix (Fin n) (Fin n) K :=
  let artmp : Matrix (Fin n) (Fin L) K := Matrix.of fun j i => (1 / sigma) * (best i j - xold j)
  (1 - p.c1 - p.cmu) • C + p.c1 • (Matrix.vecMulVec pc pc + ((1 - hsig) * p.cc * (2 - p.cc)) • C) +
    p.cmu • (artmp * (Matrix.diagonal w * artmp.transpose))

/-- `np.triu(C) + np.triu(C, 1).T` (CMAES.py:194): the upper triangle, mirrored. -/
def cmaMirror (C : Matrix (Fin n) (Fin n) K) : Matrix (Fin n) (Fin n) K :=
  Matrix.of fun i j => if i ≤ j then C i j else C j i

/-- Update of the distribution (CMAES.py:166-198). -/
def cmaUpdate (lib : CmaLib K F) (s : CmaState K F n L) : CmaState K F n L :=
  let w := cmaWeights lib.log (L / 2)
  let p := cmaPar lib.sqrt n (cmaMueff w)
  let chiN := cmaChi lib.sqrt n
  let xmean := cmaMean lib s
  let y := xmean - s.xmean
  let z := s.invsqrtC.mulVec y
  let ps := (1 - p.cs) • s.ps + (lib.sqrt (p.cs * (2 - p.cs) * p.mueff) / s.sigma) • z
  let hsig : K := if vecNorm lib.sqrt ps / lib.sqrt (1 - lib.pow (1 - p.cs) (2 * (s.counteval : K) / (L : K))) / chiN <
    14 / 10 + 2 / ((n : K) + 1) then 1 else 0
  let pc := (1 - p.cc) • s.pc + (hsig * lib.sqrt (p.cc * (2 - p.cc) * p.mueff) / s.sigma) • y
  let C := cmaCov p w (cmaBest s) s.xmean pc s.sigma hsig s.C
  let sigma := s.sigma * lib.exp ((p.cs / p.damps) * (vecNorm lib.sqrt ps / chiN - 1))
  let s := { s with xmean := xmean, ps := ps, pc := pc, C := C, sigma := sigma }
  -- `eigeneval` is never changed from 0
  if (s.counteval : K) > (L : K) / (p.c1 + p.cmu) / (n : K) / 10 then
    let C := cmaMirror C
    let e := lib.eigh C
    let D := fun i => lib.sqrt (e.1 i)
    { s with C := C, B := e.2, D := D, invsqrtC := e.2 * (Matrix.diagonal (fun i => 1 / D i) * e.2.transpose) }
  else s

/-- End of a generation: callback and stopping criteria (CMAES.py:200-206). -/
def cmaFinish (s : CmaState K F n L) : Strat K (Vec K n) F Unit := do
  let b ← Strat.call .callback
  if b then pure () else Strat.call .userStop
  Strat.call (.checkCMA (List.ofFn s.fsim) s.calls)

/-- The while loop (CMAES.py:136-214), observed for at most `fuel` generations. -/
def cmaLoop (lib : CmaLib K F) : ℕ → CmaState K F n L → Strat K (Vec K n) F (CmaState K F n L)
  | 0, _ => Strat.fail .outOfFuel
  | fuel + 1, s => do
      if ← Strat.call .readConv then pure s
      else do
        let s ← cmaSample lib (List.finRange L) s
        let s := cmaUpdate lib (cmaSort lib s)
        cmaFinish s
        cmaLoop lib fuel s

/-- `run_dsm` with a population of `L` individuals (CMAES.py:68-227). -/
def cmaRun [Zero F] (lib : CmaLib K F) (hL : 0 < L) (fuel : ℕ) (x0 sg : Vec K n) :
    Strat K (Vec K n) F (DsmResult (Vec K n) F) := do
  Strat.call (.setConv false)
  let s ← cmaLoop lib fuel (cmaInit hL x0 sg)
  let r ← Strat.call .reason
  pure { fMin := s.fsim ⟨0, hL⟩, xOpt := s.arx (s.ind ⟨0, hL⟩), nit := s.iterations, nfev := s.calls, reason := r }

/-- `l_pop` (CMAES.py:85-87): `int(4 + np.floor(3 * np.log(N)))` or the configured population, rounded down.
For dimension 0 the logarithm is `-inf` and `int` raises `OverflowError`. -/
def cmaPopulation [FloorRing K] (log : K → K) (n : ℕ) (population : Option K) : Py ℤ :=
  if n = 0 then .error .overflowError
  else match population with
    | some p => .ok ⌊p⌋
    | none => .ok (4 + ⌊3 * log (n : K)⌋)

/-- The search method as it is used by the algorithms. For a population below 2 there are no recombination weights:
`sum([])` is zero and line 94 divides by it; for a negative population `np.linspace` refuses (CMAES.py:88-94). -/
def cmaes [FloorRing K] [Zero F] (lib : CmaLib K F) (population : Option K) (fuel : ℕ) : Dsm K (Vec K n) F :=
  fun k x0 _ sg =>
    match cmaPopulation lib.log n population with
    | .error e => do Strat.call (.setConv false); Strat.fail e
    | .ok l =>
      if h : 2 ≤ l then cmaRun (L := l.toNat) (lib.inSuperIteration k) (by omega) fuel x0 sg
      else if l < 0 then do Strat.call (.setConv false); Strat.fail .valueError
      else do Strat.call (.setConv false); Strat.fail .zeroDivision

end
end QuOCS
