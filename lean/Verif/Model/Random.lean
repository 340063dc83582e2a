/-
Model of the sources of random numbers: the generator object with a seed, NumPy's global generator, which all code of the
process shares, and which of them the algorithms use.
-/
import Verif.Model.Algorithm
import Verif.Model.CMAES

namespace QuOCS

/-- `algorithm_settings["random_number_generator"]`: not there; there, but without `"seed_number"` or no dictionary; with the seed
`None`, an integer, or an object that NumPy does not accept as a seed. -/
inductive SeedSetting
  | absent | malformed | noneSeed | int (z : ℤ) | badType
  deriving DecidableEq, Repr

/-- The attribute `rng` of an algorithm: `None`, a `RandomNumberGenerator` without a seed or one with a seed. -/
inductive RngObj
  | none | unseeded | seeded (seed : ℕ)
  deriving DecidableEq, Repr

/-- The four algorithms. -/
inductive AlgName
  | dcrab | directSearch | grape | ad
  deriving DecidableEq, Repr

/-- `RandomNumberGenerator(seed_number)` (randomgenerator.py:27-60) for NumPy 1.17 or later: `np.random.default_rng` raises
`ValueError` for negative numbers and `TypeError` for other objects. -/
def mkGenerator : SeedSetting → Py RngObj
  | .absent | .malformed => .error .keyError
  | .noneSeed => .ok .unseeded
  | .int z => if z < 0 then .error .valueError else .ok (.seeded z.toNat)
  | .badType => .error .typeError

/-- The attribute `rng` (OptimizationAlgorithm.py:64, dCRABAlgorithm.py:109-118, GRAPEAlgorithm.py:70-79, ADAlgorithm.py:74-89);
`r` is the number `np.random.randint(0, 10000)`. DirectSearch does not read the setting (DirectSearchAlgorithm.py:68-105). In GRAPE
the generator is made after the `try` block. -/
def mkRng (alg : AlgName) (setting : SeedSetting) (r : ℕ) : Py RngObj :=
  match alg with
  | .dcrab =>
    match setting with
    | .absent => .ok .none
    | st =>
      match mkGenerator st with
      | .error .typeError | .error .keyError => .ok (.seeded 2022)
      | x => x
  | .directSearch => .ok .none
  | .grape =>
    match setting with
    | .absent | .malformed => .ok (.seeded 2022)
    | st => mkGenerator st
  | .ad =>
    match setting with
    | .absent => .ok (.seeded r)
    | st =>
      match mkGenerator st with
      | .error .typeError | .error .keyError => .ok (.seeded r)
      | x => x

/-- NumPy's global generator with states `G` and the other code of the process, which may use or seed it in any way before the
`i`-th time QuOCS draws numbers. -/
structure World (G K : Type) where
  /-- one number of `np.random.rand` -/
  rand : G → K × G
  /-- one number of `np.random.randn` -/
  randn : G → K × G
  /-- `np.random.randint(0, 10000)` -/
  randint : G → ℕ × G
  other : ℕ → G → G

/-- The state of the sources: numbers taken from the generator with the seed, the global generator, number of draws so far. -/
structure RandState (G : Type) where
  pos : ℕ
  glob : G
  calls : ℕ

section
variable {G K : Type}

/-- `n` numbers of the global generator, one after the other. -/
def globalNumbers (next : G → K × G) : ℕ → G → List K × G
  | 0, g => ([], g)
  | n + 1, g =>
    let r := next g
    let rs := globalNumbers next n r.2
    (r.1 :: rs.1, rs.2)

/-- `rng.get_random_numbers(n)`, or `np.random.rand(n)` if there is no object (randomgenerator.py:62-75, Uniform.py:43-46,
linearalgebra.py:71-74). `stream s` are the numbers of `np.random.default_rng(s)`. -/
def drawNumbers (stream : ℕ → ℕ → K) (w : World G K) (rng : RngObj) (n : ℕ) (s : RandState G) : List K × RandState G :=
  let g := w.other s.calls s.glob
  match rng with
  | .seeded seed => ((List.range n).map fun i : ℕ => stream seed (s.pos + i), { pos := s.pos + n, glob := g, calls := s.calls + 1 })
  | _ =>
    let r := globalNumbers w.rand n g
    (r.1, { s with glob := r.2, calls := s.calls + 1 })

/-- The super parameters of the pulses: `some k` is a pulse with a chopped basis of `k` vectors (Controls.py:129-137,
Uniform.py:33-48). -/
def drawPulses (stream : ℕ → ℕ → K) (w : World G K) (rng : RngObj) : List (Option ℕ) → RandState G → List (List K) × RandState G
  | [], s => ([], s)
  | none :: ks, s =>
    let r := drawPulses stream w rng ks s
    ([] :: r.1, r.2)
  | some k :: ks, s =>
    let a := drawNumbers stream w rng k s
    let r := drawPulses stream w rng ks a.2
    (a.1 :: r.1, r.2)

/-- The random numbers of one super-iteration: for the super parameters and for the start simplex or start vector. -/
structure SIDraws (K : Type) where
  pulses : List (List K)
  start : List K

/-- The random numbers QuOCS draws in one super-iteration with `n` control parameters: dCRAB (dCRABAlgorithm.py:219, 253-255) and AD
(ADAlgorithm.py:137-147) for the super parameters and the start, GRAPE (GRAPEAlgorithm.py:198) only for the start, DirectSearch
(DirectSearchAlgorithm.py:300) for the start without its generator. -/
def drawSI (stream : ℕ → ℕ → K) (w : World G K) (alg : AlgName) (rng : RngObj) (sizes : List (Option ℕ)) (n : ℕ) (s : RandState G) :
    SIDraws K × RandState G :=
  match alg with
  | .dcrab | .ad =>
    let p := drawPulses stream w rng sizes s
    let x := drawNumbers stream w rng n p.2
    (⟨p.1, x.1⟩, x.2)
  | .grape =>
    let x := drawNumbers stream w rng n s
    (⟨[], x.1⟩, x.2)
  | .directSearch =>
    let x := drawNumbers stream w .none n s
    (⟨[], x.1⟩, x.2)

/-- The random numbers of super-iteration `k + 1` of a run. -/
def drawsAfter (stream : ℕ → ℕ → K) (w : World G K) (alg : AlgName) (rng : RngObj) (sizes : List (Option ℕ)) (n : ℕ) :
    ℕ → RandState G → SIDraws K
  | 0, s => (drawSI stream w alg rng sizes n s).1
  | k + 1, s => drawsAfter stream w alg rng sizes n k (drawSI stream w alg rng sizes n s).2

/-- All random numbers of a run that starts with the global generator in the state `g`: first the generator object is made (AD may
take a seed from the global generator), then the super-iterations draw from it. -/
def runDraws (stream : ℕ → ℕ → K) (w : World G K) (alg : AlgName) (setting : SeedSetting) (sizes : List (Option ℕ)) (n : ℕ) (g : G) :
    Py (ℕ → SIDraws K) :=
  let r := w.randint g
  match mkRng alg setting r.1 with
  | .error e => .error e
  | .ok rng => .ok fun k => drawsAfter stream w alg rng sizes n k ⟨0, if alg = .ad then r.2 else g, 0⟩

/-- The normal numbers of CMA-ES (CMAES.py:142): draw `j` takes `n` numbers from the global generator. -/
def cmaNormals (w : World G K) (n : ℕ) (g : G) : ℕ → List K
  | 0 => (globalNumbers w.randn n (w.other 0 g)).1
  | j + 1 => cmaNormals { w with other := fun i => w.other (i + 1) } n (globalNumbers w.randn n (w.other 0 g)).2 j

/-- The library of CMA-ES in a search, with the normal numbers of the global generator. The first individual is drawn without random numbers
(CMAES.py:139-140), so individual `j` uses draw `j - 1`. -/
def CmaLib.withGlobal {F : Type} [Zero K] (lib : CmaLib K F) (w : World G K) (g : G) : CmaLib K F :=
  { lib with randn := fun {n} j i => (cmaNormals w n g (j - 1)).getD i 0 }

end

section
variable {G K V C O F : Type} [Field K] [LinearOrder K] [Field F] [LinearOrder F]

/-- A run whose controls object and search method get their random numbers from these sources: `opsOf` says how the controls object
uses them. -/
def executeRandom (stream : ℕ → ℕ → K) (w : World G K) (alg : AlgName) (setting : SeedSetting) (sizes : List (Option ℕ)) (n : ℕ) (g : G)
    (cfg : AlgCfg K F) (env : Env V C F) (opsOf : (ℕ → SIDraws K) → CtlOps O V C) (dsm : Dsm K V F) (o : O) :
    Py (Py Unit × AlgState V C O F) :=
  match runDraws stream w alg setting sizes n g with
  | .error e => .error e
  | .ok d => .ok (execute cfg env (opsOf d) dsm o)

end
end QuOCS
