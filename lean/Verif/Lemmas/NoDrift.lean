/-
The search methods of the library announce no drift-compensated value unless drift compensation is configured.
-/
import Verif.Spec.Run
import Verif.Model.NelderMead
import Verif.Model.CMAES

set_option linter.unusedSectionVars false
set_option linter.unusedVariables false

namespace QuOCS

section
variable {K V F α β : Type}

theorem Strat.NoDrift.bind {st : Strat K V F α} {f : α → Strat K V F β} (h : st.NoDrift) (hf : ∀ a, (f a).NoDrift) :
    (st >>= f).NoDrift := by
  show (Strat.bind st f).NoDrift
  induction st with
  | ret a => exact hf a
  | op o k ih => exact ⟨h.1, fun r => ih r (h.2 r)⟩

theorem Strat.NoDrift.pure (a : α) : (Pure.pure a : Strat K V F α).NoDrift := trivial

theorem Strat.NoDrift.call (o : Op K V F) (h : ∀ x it v, o ≠ .drift x it v) : (Strat.call o).NoDrift :=
  ⟨h, fun _ => trivial⟩

theorem Strat.NoDrift.fail (e : PyErr) : (Strat.fail e : Strat K V F α).NoDrift :=
  ⟨fun _ _ _ h => (by cases h), fun r => nomatch r⟩

theorem Strat.NoDrift.ite {p : Prop} [Decidable p] {a b : Strat K V F α} (ha : a.NoDrift) (hb : b.NoDrift) :
    (if p then a else b).NoDrift := by
  split
  · exact ha
  · exact hb

end

section
variable {K F : Type} {n : ℕ} [Field K] [LinearOrder K] [IsStrictOrderedRing K]
variable [Add F] [Sub F] [Mul F] [Div F] [Neg F] [Zero F] [One F] [NatCast F] [LE F] [LT F] [DecidableLE F]
  [DecidableLT F]

open Strat.NoDrift in
theorem nmEval_noDrift (x : Vec K n) (s : NmState K F n) : (nmEval x s).NoDrift :=
  bind (call _ (fun _ _ _ h => by cases h)) fun _ => trivial

open Strat.NoDrift in
theorem nmConv_noDrift : (nmConv : Strat K (Vec K n) F Bool).NoDrift := call _ (fun _ _ _ h => by cases h)

open Strat.NoDrift in
theorem nmInit_noDrift (ks : List (Fin (n + 1))) (s : NmState K F n) : (nmInit ks s).NoDrift := by
  induction ks generalizing s with
  | nil => trivial
  | cons k ks ih => exact bind (nmEval_noDrift _ _) fun r => ih _

open Strat.NoDrift in
theorem nmShrink_noDrift (co : NmCoef K) (js : List (Fin (n + 1))) (s : NmState K F n) : (nmShrink co js s).NoDrift := by
  induction js generalizing s with
  | nil => trivial
  | cons k ks ih => exact bind nmConv_noDrift fun b => ite trivial (bind (nmEval_noDrift _ _) fun r => ih _)

open Strat.NoDrift in
theorem nmMove_noDrift (co : NmCoef K) (s : NmState K F n) : (nmMove co s).NoDrift := by
  have hl : ∀ {α : Type} (p : Py α), (Strat.lift p : Strat K (Vec K n) F α).NoDrift := by
    intro α p
    rcases p with e | a
    · exact fail e
    · trivial
  refine bind (nmEval_noDrift _ _) fun r => ite ?_ ?_
  · exact bind nmConv_noDrift fun b => ite trivial (bind (nmEval_noDrift _ _) fun r => ite trivial trivial)
  · refine bind (hl _) fun f2 => ite trivial (ite ?_ ?_)
    · exact bind nmConv_noDrift fun b => ite trivial (bind (nmEval_noDrift _ _) fun r => ite trivial
        (bind (nmShrink_noDrift _ _ _) fun _ => trivial))
    · exact bind nmConv_noDrift fun b => ite trivial (bind (nmEval_noDrift _ _) fun r => ite trivial
        (bind (nmShrink_noDrift _ _ _) fun _ => trivial))

open Strat.NoDrift in
/-- Nelder-Mead without `compensate_after_minutes`. -/
theorem nelderMead_noDrift (c : NmCfg K F n) (hc : c.driftMinutes ≤ 0) (fuel i : ℕ) (x : Vec K n) (sim : List (Vec K n)) (sg : Vec K n) :
    (nelderMead c fuel i x sim sg).NoDrift := by
  have hloop : ∀ fuel s, (nmLoop c (nmCoef c.adaptive n) fuel s).NoDrift := by
    intro fuel
    induction fuel with
    | zero => exact fun s => fail _
    | succ m ih =>
      refine fun s => bind nmConv_noDrift fun b => ite trivial (bind (nmMove_noDrift _ _) fun r => ite trivial (bind ?_ fun s =>
        bind ?_ fun s => ih s))
      · unfold nmDrift
        rw [if_neg (not_lt.2 hc)]
        trivial
      · refine bind (call _ (fun _ _ _ h => by cases h)) fun b => ?_
        cases b
        · exact bind (call _ (fun _ _ _ h => by cases h)) fun _ => bind (call _ (fun _ _ _ h => by cases h)) fun _ => trivial
        · exact bind (call (.checkNM _ _ _) (fun _ _ _ h => by cases h)) fun _ => trivial
  unfold nelderMead
  split
  · exact bind (call _ (fun _ _ _ h => by cases h)) fun _ => bind (call _ (fun _ _ _ h => by cases h)) fun _ =>
      bind (call _ (fun _ _ _ h => by cases h)) fun _ => bind (nmInit_noDrift _ _) fun _ => bind (hloop _ _) fun _ =>
      bind (call _ (fun _ _ _ h => by cases h)) fun _ => trivial
  · exact fail _

open Strat.NoDrift in
/-- CMA-ES has no drift compensation. -/
theorem cmaes_noDrift [FloorRing K] (lib : CmaLib K F) (p : Option K) (fuel i : ℕ) (x : Vec K n) (sim : List (Vec K n)) (sg : Vec K n) :
    (cmaes lib p fuel i x sim sg).NoDrift := by
  have hsample : ∀ (lib : CmaLib K F) {L : ℕ} (ks : List (Fin L)) (s : CmaState K F n L), (cmaSample lib ks s).NoDrift := by
    intro lib L ks
    induction ks with
    | nil => exact fun s => trivial
    | cons k ks ih => exact fun s => bind (call _ (fun _ _ _ h => by cases h)) fun _ => ih _
  have hloop : ∀ (lib : CmaLib K F) {L : ℕ} fuel (s : CmaState K F n L), (cmaLoop lib fuel s).NoDrift := by
    intro lib L fuel
    induction fuel with
    | zero => exact fun s => fail _
    | succ m ih =>
      refine fun s => bind (call _ (fun _ _ _ h => by cases h)) fun b => ite trivial (bind (hsample _ _ _) fun r =>
        bind ?_ fun _ => ih _)
      refine bind (call _ (fun _ _ _ h => by cases h)) fun b => ?_
      cases b
      · exact bind (call _ (fun _ _ _ h => by cases h)) fun _ => call _ (fun _ _ _ h => by cases h)
      · exact bind (Strat.NoDrift.pure ()) fun _ => call _ (fun _ _ _ h => by cases h)
  have hf : ∀ {e : PyErr}, (do Strat.call (.setConv false); Strat.fail e : Strat K (Vec K n) F (DsmResult (Vec K n) F)).NoDrift :=
    bind (call _ (fun _ _ _ h => by cases h)) fun _ => fail _
  unfold cmaes
  split
  · exact hf
  · split
    · exact bind (call _ (fun _ _ _ h => by cases h)) fun _ => bind (hloop _ _ _) fun _ =>
        bind (call _ (fun _ _ _ h => by cases h)) fun _ => trivial
    · split <;> exact hf

end
end QuOCS
