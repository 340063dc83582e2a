/-
Vocabulary for C94: the same optimization problem with other origins and units of the control parameters.
-/
import Verif.Spec.Run
import Verif.Model.System
import Verif.Spec.Controls

namespace QuOCS

section
variable {K V C O F : Type}

/-- The call with the search vector and the controls expressed in the other units (same answer, same time). -/
def Call.recoord (T : V → V) (Tc : C → C) (c : Call V C F) : Call V C F := { c with vec := T c.vec, ctl := Tc c.ctl }

/-- The report with the controls expressed in the other units. -/
def DumpCall.recoord (Tc : C → C) (d : DumpCall C F) : DumpCall C F := { d with ctl := d.ctl.map Tc }

/-- `fm` is the user's function `fm0` with its controls (now, and in the earlier calls) in the other units. -/
def InUnits (T : V → V) (Tc : C → C) (fm0 fm : List (Call V C F) → C → Py (Answer F)) : Prop :=
  ∀ l c, fm (l.map (Call.recoord T Tc)) (Tc c) = fm0 l c

/-- the settings with another tolerance for the simplex -/
def AlgCfg.withTol (cfg : AlgCfg K F) (xatol : K) : AlgCfg K F := { cfg with sc := { cfg.sc with xatol := xatol } }

/-- another user function in the same environment -/
def Env.asking (env : Env V C F) (fm : List (Call V C F) → C → Py (Answer F)) : Env V C F := { env with getFoM := fm }

/-- Two runs that differ only by the units of the controls: the same end (or exception), the same calls with the same answers at the same
times, the same reports, the same best controls, the same figure of merit and the same reasons for stopping. -/
structure SameRunIn [Neg F] (ops ops' : CtlOps O V C) (cfg : AlgCfg K F) (T : V → V) (Tc : C → C)
    (r r' : Py Unit × AlgState V C O F) : Prop where
  ends : r'.1 = r.1
  calls : r'.2.log = r.2.log.map (Call.recoord T Tc)
  reports : r'.2.dumps = r.2.dumps.map (DumpCall.recoord Tc)
  best : bestControls ops' r'.2 = (bestControls ops r.2).map Tc
  final : finalFoM cfg r'.2 = finalFoM cfg r.2
  lists : r'.2.fomList = r.2.fomList ∧ r'.2.iterList = r.2.iterList
  vectors : r'.2.paraList = r.2.paraList.map T
  reasons : r'.2.hoReason = r.2.hoReason ∧ r'.2.terminateReason = r.2.terminateReason

end

section
variable {K : Type} [Add K] [Mul K]

/-- A parameter with other unit and origin: what was `x` is now `α * x + a`. -/
def ParamDict.inUnit (α a : K) (d : ParamDict K) : ParamDict K :=
  { d with initialValue := α * d.initialValue + a, lower := α * d.lower + a, upper := α * d.upper + a
           amplitudeVariation := α * d.amplitudeVariation }

/-- The units `us` (factor and offset) applied to the declared parameters, one after the other. -/
def paramsInUnits (us : List (K × K)) (rd : List (ParamDict K)) : List (ParamDict K) :=
  List.zipWith (fun u d => d.inUnit u.1 u.2) us rd

end

section
variable {K : Type} [Field K] [LinearOrder K]

/-- The delivered controls with the parameters in the other units; pulses and time grids are the same. -/
def ControlsOut.inUnits (us : List (K × K)) (o : ControlsOut K) : ControlsOut K :=
  { o with parameters := o.parameters.mapIdx fun i v => (us.getD i (1, 0)).1 * v + (us.getD i (1, 0)).2 }

/-- The tolerance `t'` says of a distance in the new unit what `t` says of it in the old one. -/
def SameTolerance (ws : List (K × K)) (t t' : K) : Prop := ∀ w ∈ ws, ∀ y, 0 ≤ y → (w.1 * y ≤ t' ↔ y ≤ t)

/-- one unit for every entry of the search vector: the coefficients of the pulses come first and keep theirs, then come the parameters -/
def slotUnits (pd : List (PulseDict K)) (us : List (K × K)) : List (K × K) :=
  List.replicate (pd.map (·.declared)).sum (1, 0) ++ us

/-- the search vector in the units `ws` of its entries -/
def vecInUnits {n : ℕ} (ws : List (K × K)) (x : Vec K n) : Vec K n := fun j => (ws.getD j (1, 0)).1 * x j + (ws.getD j (1, 0)).2

end
end QuOCS
