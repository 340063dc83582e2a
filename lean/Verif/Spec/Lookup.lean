import Verif.Model.Lookup

/-!
# Specification of the class lookup
-/

namespace QuOCS.Spec

/-- The names QuOCS knows, with the class each one stands for (`(type, name) ↦ (module, class)`), as documented. -/
def builtin (type name : String) : Option (String × String) :=
  let here (names : List String) (package suffix : String) : Option (String × String) :=
    if name ∈ names then some (package ++ name ++ suffix, name ++ suffix) else none
  match type with
  | "algorithm" => here ["AD", "dCRAB", "DirectSearch", "GRAPE"] "quocslib.optimizationalgorithms." "Algorithm"
  | "dsm_settings" => here ["NelderMead", "CMAES"] "quocslib.gradientfreemethods." ""
  | "basis" => here ["Chebyshev", "ChoppedBasis", "Fourier", "PiecewiseBasis", "Sigmoid", "SigmoidTimeDep",
      "SigmoidSigmas", "SigmoidAllParas", "Sinc", "Walsh"] "quocslib.pulses.basis." ""
  | "superparameter_distribution" => here ["Uniform"] "quocslib.pulses.superparameter." ""
  | _ => none

/-- Module and class, if both are given. -/
def both : Option String → Option String → Option (String × String)
  | some m, some c => some (m, c)
  | _, _ => none

/-- The module and class an entry refers to: that of the built-in name if there is one, else the given ones. -/
def target {A : Type} (a : ImportArgs A) : Option (String × String) :=
  match a.classType, a.name with
  | some t, some n => (builtin t n).or (both a.moduleName a.className)
  | _, _ => both a.moduleName a.className

/-- Precedence: a given attribute, then a built-in name, then module and class; nothing if that cannot be loaded. -/
def resolve {A : Type} (load : String → String → Option A) (a : ImportArgs A) : Option A :=
  a.attr.or ((target a).bind fun mc => load mc.1 mc.2)

end QuOCS.Spec
