/-
Vocabulary for the properties of whole runs.
-/
import Mathlib.Algebra.Order.Ring.Rat
import Verif.Model.Algorithm

namespace QuOCS

/-- Floating-point style comparison: a weak order on the values that are not `NaN`; comparisons with `NaN` are false;
changing the sign reverses the order. It holds for every ordered field and for IEEE numbers. -/
class FloatOrder (F : Type) [LE F] [LT F] [Neg F] where
  IsNaN : F → Prop
  lt_irrefl : ∀ x : F, ¬ x < x
  lt_trans : ∀ x y z : F, x < y → y < z → x < z
  lt_num : ∀ x y : F, x < y → ¬ IsNaN x ∧ ¬ IsNaN y
  /-- not being smaller is transitive on numbers -/
  not_lt_trans : ∀ x y z : F, ¬ IsNaN y → ¬ x < y → ¬ y < z → ¬ x < z
  le_iff : ∀ x y : F, x ≤ y ↔ ¬ IsNaN x ∧ ¬ IsNaN y ∧ ¬ y < x
  neg_lt : ∀ x y : F, -x < -y ↔ y < x
  neg_nan : ∀ x : F, IsNaN (-x) ↔ IsNaN x
  neg_neg : ∀ x : F, -(-x) = x

/-- Every ordered field has no `NaN`. -/
instance {F : Type} [Field F] [LinearOrder F] [IsStrictOrderedRing F] : FloatOrder F where
  IsNaN _ := False
  lt_irrefl := _root_.lt_irrefl
  lt_trans _ _ _ := _root_.lt_trans
  lt_num _ _ _ := ⟨id, id⟩
  not_lt_trans x y z _ h1 h2 := by
    rw [not_lt] at *; exact h2.trans h1
  le_iff x y := by simp
  neg_lt x y := neg_lt_neg_iff
  neg_nan x := Iff.rfl
  neg_neg := _root_.neg_neg

/-- Rational numbers with a `NaN`, as a concrete type of figures of merit. -/
inductive QNaN
  | nan
  | num (q : ℚ)
  deriving DecidableEq

namespace QNaN
/-- operations: `NaN` is absorbing -/
def lift2 (f : ℚ → ℚ → ℚ) : QNaN → QNaN → QNaN
  | num a, num b => num (f a b)
  | _, _ => nan
instance : Add QNaN := ⟨lift2 (· + ·)⟩
instance : Sub QNaN := ⟨lift2 (· - ·)⟩
instance : Mul QNaN := ⟨lift2 (· * ·)⟩
instance : Div QNaN := ⟨fun a b => if b = num 0 then nan else lift2 (· / ·) a b⟩
instance : Neg QNaN := ⟨fun a => match a with | num a => num (-a) | nan => nan⟩
instance : Zero QNaN := ⟨num 0⟩
instance : One QNaN := ⟨num 1⟩
instance : NatCast QNaN := ⟨fun n => num n⟩
/-- comparisons with `NaN` are false -/
def ble : QNaN → QNaN → Bool
  | num a, num b => decide (a ≤ b)
  | _, _ => false
/-- comparisons with `NaN` are false -/
def blt : QNaN → QNaN → Bool
  | num a, num b => decide (a < b)
  | _, _ => false
instance : LE QNaN := ⟨fun a b => ble a b = true⟩
instance : LT QNaN := ⟨fun a b => blt a b = true⟩
instance : DecidableLE QNaN := fun a b => inferInstanceAs (Decidable (ble a b = true))
instance : DecidableLT QNaN := fun a b => inferInstanceAs (Decidable (blt a b = true))

theorem lt_def (a b : QNaN) : a < b ↔ blt a b = true := Iff.rfl
theorem le_def (a b : QNaN) : a ≤ b ↔ ble a b = true := Iff.rfl

instance : FloatOrder QNaN where
  IsNaN x := x = nan
  lt_irrefl x := by cases x <;> simp [lt_def, blt]
  lt_trans x y z := by
    cases x <;> cases y <;> cases z <;> simp only [lt_def, blt, decide_eq_true_eq] <;> intros <;> try contradiction
    rename_i h1 h2
    exact _root_.lt_trans h1 h2
  lt_num x y := by cases x <;> cases y <;> simp [lt_def, blt]
  not_lt_trans x y z := by
    cases x <;> cases y <;> cases z <;> simp only [lt_def, blt, decide_eq_true_eq, not_lt] <;> intros <;> try contradiction
    all_goals try simp
    rename_i h1 h2
    exact le_trans h2 h1
  le_iff x y := by cases x <;> cases y <;> simp [lt_def, le_def, blt, ble]
  neg_lt x y := by
    cases x <;> cases y <;> simp only [lt_def, Neg.neg, blt]
    rename_i a b
    rw [decide_eq_true_eq, decide_eq_true_eq]
    exact neg_lt_neg_iff (a := a) (b := b)
  neg_nan x := by cases x <;> simp [Neg.neg]
  neg_neg x := by
    cases x with
    | nan => rfl
    | num q => exact congrArg num (_root_.neg_neg q)
end QNaN

/-- A search method that never announces a drift-compensated value (the default: `compensate_after_minutes = 0`). -/
def Strat.NoDrift {K V F α : Type} : Strat K V F α → Prop
  | .ret _ => True
  | .op o k => (∀ x it v, o ≠ .drift x it v) ∧ ∀ r, (k r).NoDrift

/-- A simple search method: it evaluates the given points one after the other and returns the last value (used in
concrete examples). -/
def evalPoints {K V F : Type} (x : V) (f : F) : List V → ℕ → Strat K V F (DsmResult V F)
  | [], n => .ret ⟨f, x, n, n, ""⟩
  | y :: ys, n => .op (.eval y n) (fun g => evalPoints y g ys (n + 1))

/-- No drift compensation is configured, between super-iterations or inside the search. -/
def NoDriftRun {K V F : Type} (cfg : AlgCfg K F) (dsm : Dsm K V F) : Prop :=
  cfg.driftAfterSI = false ∧ ∀ i x sim sg, (dsm i x sim sg).NoDrift

/-- No re-evaluation is configured (GRAPE has none). -/
def NoReEval {K F : Type} (cfg : AlgCfg K F) : Prop := cfg.kind = .grape ∨ cfg.reEval = none

/-- The figure of merit returned by a call (as the user returned it), if there is one. -/
def Call.value {V C F : Type} (c : Call V C F) : Option F :=
  match c.ans with
  | .ok a => a.fom
  | .error _ => none

/-- The call returned a figure of merit and status code zero (a missing status code counts as zero). -/
def Call.Succeeded {V C F : Type} (c : Call V C F) : Prop :=
  ∃ a f, c.ans = .ok a ∧ a.fom = some f ∧ a.status.getD 0 = 0

/-- `x` is strictly better than `y` in the direction of the optimization. -/
def Better {F : Type} [LT F] (maximize : Bool) (x y : F) : Prop := if maximize then y < x else x < y

/-- `x` is at least as good as `y` in the direction of the optimization. -/
def AtLeastAsGood {F : Type} [LE F] (maximize : Bool) (x y : F) : Prop := if maximize then y ≤ x else x ≤ y

/-- Neither the user's function nor the controls object raises the marker `outOfFuel`. The marker is not a Python
exception: the model uses it to say that a loop was cut off. -/
structure NoMarker {V C O F : Type} (env : Env V C F) (ops : CtlOps O V C) : Prop where
  getFoM : ∀ h c, env.getFoM h c ≠ .error .outOfFuel
  getControls : ∀ o x, ops.getControls o x ≠ .error .outOfFuel
  mean : ∀ o, ops.mean o ≠ .error .outOfFuel
  sigma : ∀ o, ops.sigma o ≠ .error .outOfFuel
  updateBase : ∀ o x, ops.updateBase o x ≠ .error .outOfFuel
  selectBasis : ∀ k o, ops.selectBasis k o ≠ .error .outOfFuel
  simplex : ∀ k x y, ops.simplex k x y ≠ .error .outOfFuel

end QuOCS
