/-
Vocabulary for re-evaluation (C34-C36).
-/
import Verif.Spec.Run

namespace QuOCS

variable {K V C F : Type} [Field F] [LinearOrder F]

/-- Arithmetic mean. -/
def average (l : List F) : F := l.sum / l.length

/-- Probability that a normally distributed quantity with mean `m1` and deviation `s1` is smaller than one with mean `m2`
and deviation `s2`: `Φ((m2 - m1) / sqrt(s1² + s2²))`; the denominator is 1 if it is smaller than `tiny`. -/
def probSmaller (env : Env V C F) (tiny m1 s1 m2 s2 : F) : F :=
  env.cdf ((m2 - m1) / (if |env.sqrt (s1 * s1 + s2 * s2)| < tiny then 1 else env.sqrt (s1 * s1 + s2 * s2)))

/-- The value (in the internal sign: negated for maximization) and the deviation obtained from a measurement: those of
the answer of a call of the user's function (deviation 1 if the user gives none), or the placeholder `1e10` if the run
was stopped. -/
inductive Obtained (cfg : AlgCfg K F) : Option (Call V C F) → F × F → Prop
  | answer (c : Call V C F) (a : Answer F) (f : F) (h : c.ans = .ok a) (hf : a.fom = some f) :
      Obtained cfg (some c) (if cfg.maximize then -f else f, a.std.getD 1)
  | placeholder (sigma : F) : Obtained cfg none (cfg.fomMax, sigma)

end QuOCS
