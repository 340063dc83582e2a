/-
Vocabulary for C103: the same optimization problem with other units of the amplitudes of the pulses.
-/
import Verif.Spec.Recoord

namespace QuOCS

section
variable {K : Type} [Field K] [LinearOrder K]

/-- Amplitudes in another unit: what was `u` is now `β * u`. -/
def samplesInUnit (β : K) (u : List K) : List K := u.map (β * ·)

/-- The guess in the new unit. -/
def Sampler.inAmplitude (β : K) : Sampler K → Sampler K
  | .callable f => .callable fun t => samplesInUnit β (f t)
  | .array l => .array (samplesInUnit β l)

/-- The scaling for pulses in the new unit: factors stay what they are; a function of the pulse converts it back and its result again. -/
def Scaling.inAmplitude (β : K) : Scaling K → Scaling K
  | .callable f => .callable f
  | .callable2 f => .callable2 fun t u => samplesInUnit β (f t (u.map (· / β)))
  | .array l => .array l

/-- The pulse declared in the new unit: limits, amplitude variation and guess are multiplied. -/
def PulseDict.inAmplitude (β : K) (d : PulseDict K) : PulseDict K :=
  { d with lowerLimit := β * d.lowerLimit, upperLimit := β * d.upperLimit, amplitudeVariation := β * d.amplitudeVariation
           guess := d.guess.inAmplitude β, scaling := d.scaling.inAmplitude β }

/-- one unit for every declared pulse -/
def pulsesInAmplitudes (bs : List K) (pd : List (PulseDict K)) : List (PulseDict K) := List.zipWith PulseDict.inAmplitude bs pd

/-- The bases whose coefficients are amplitudes (or are compared with the amplitude variation): not Chebyshev, whose second coefficients are phases,
and not SigmoidSigmas, whose last coefficients are used as numbers. A basis written by the user has to be homogeneous. -/
def Basis.Homogeneous (β : K) : Basis K → Prop
  | .chebyshev _ => False
  | .sigmoidSigmas _ _ _ _ => False
  | .custom _ _ f => ∀ w x t T, f w (samplesInUnit β x) t T = (f w x t T).map (samplesInUnit β)
  | _ => True

/-- One unit for every declared pulse, in which its basis is homogeneous. -/
def Homogeneous (bs : List K) (pd : List (PulseDict K)) : Prop := List.Forall₂ (fun b d => Basis.Homogeneous b d.basis) bs pd

/-- The delivered controls with the pulses in their new units; time grids and parameters are the same. -/
def ControlsOut.inAmplitudes (bs : List K) (o : ControlsOut K) : ControlsOut K :=
  { o with pulses := o.pulses.mapIdx fun i u => samplesInUnit (bs.getD i 1) u }

/-- one unit for every entry of the search vector: that of the pulse for its coefficients, then the parameters, which keep theirs -/
def amplitudeUnits (pd : List (PulseDict K)) (rd : List (ParamDict K)) (bs : List K) : List (K × K) :=
  (List.zipWith (fun b d => List.replicate d.declared (b, 0)) bs pd).flatten ++ List.replicate rd.length (1, 0)

end
end QuOCS
