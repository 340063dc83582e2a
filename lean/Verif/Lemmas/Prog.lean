/-
Equations for `Prog` and `Strat`.
-/
import Verif.Model.Strat

namespace QuOCS

/-- did the computation end without exception? -/
def isOk {α : Type} : Py α → Bool
  | .ok _ => true
  | .error _ => false

namespace Prog
variable {S α β γ : Type}

theorem bind_apply (m : Prog S α) (f : α → Prog S β) (s : S) :
    (m >>= f) s = match m s with
      | (.ok a, s') => f a s'
      | (.error e, s') => (.error e, s') := rfl

@[simp] theorem pure_apply (a : α) (s : S) : (pure a : Prog S α) s = (.ok a, s) := rfl
@[simp] theorem get_apply (s : S) : (Prog.get : Prog S S) s = (.ok s, s) := rfl
@[simp] theorem modify_apply (f : S → S) (s : S) : Prog.modify f s = (.ok (), f s) := rfl
@[simp] theorem raise_apply (e : PyErr) (s : S) : (Prog.raise e : Prog S α) s = (.error e, s) := rfl
@[simp] theorem lift_apply (x : Py α) (s : S) : Prog.lift x s = (x, s) := rfl

theorem bind_ok {m : Prog S α} {f : α → Prog S β} {s s' : S} {a : α} (h : m s = (.ok a, s')) :
    (m >>= f) s = f a s' := by rw [bind_apply, h]

theorem bind_error {m : Prog S α} {f : α → Prog S β} {s s' : S} {e : PyErr} (h : m s = (.error e, s')) :
    (m >>= f) s = (.error e, s') := by rw [bind_apply, h]

@[simp] theorem get_bind (f : S → Prog S β) (s : S) : ((Prog.get : Prog S S) >>= f) s = f s s := rfl
@[simp] theorem modify_bind (g : S → S) (f : Unit → Prog S β) (s : S) : (Prog.modify g >>= f) s = f () (g s) := rfl
@[simp] theorem raise_bind (e : PyErr) (f : α → Prog S β) (s : S) :
    ((Prog.raise e : Prog S α) >>= f) s = (.error e, s) := rfl
@[simp] theorem pure_bind' (a : α) (f : α → Prog S β) (s : S) : ((pure a : Prog S α) >>= f) s = f a s := rfl

instance : LawfulMonad (Prog S) := LawfulMonad.mk'
  (id_map := fun x => by
    funext s
    show (x >>= fun a => pure a) s = x s
    rw [bind_apply]; rcases x s with ⟨_ | _, _⟩ <;> rfl)
  (pure_bind := fun a f => rfl)
  (bind_assoc := fun x f g => by
    funext s
    simp only [bind_apply]
    rcases x s with ⟨_ | _, _⟩ <;> rfl)

end Prog

namespace Strat
variable {K V F α β γ S : Type}

theorem bind_ret (a : α) (f : α → Strat K V F β) : (Strat.ret a >>= f) = f a := rfl
theorem pure_eq (a : α) : (pure a : Strat K V F α) = .ret a := rfl
theorem bind_op (o : Op K V F) (k : o.Res → Strat K V F α) (f : α → Strat K V F β) :
    (Strat.op o k >>= f) = .op o (fun r => k r >>= f) := rfl

theorem interp_ret (h : (o : Op K V F) → Prog S o.Res) (a : α) : interp h (.ret a : Strat K V F α) = pure a := rfl
theorem interp_op (h : (o : Op K V F) → Prog S o.Res) (o : Op K V F) (k : o.Res → Strat K V F α) :
    interp h (.op o k) = h o >>= fun r => interp h (k r) := rfl

theorem interp_bind (h : (o : Op K V F) → Prog S o.Res) (m : Strat K V F α) (f : α → Strat K V F β) :
    interp h (m >>= f) = interp h m >>= fun a => interp h (f a) := by
  induction m with
  | ret a => rfl
  | op o k ih =>
    rw [bind_op, interp_op, interp_op, bind_assoc]
    congr 1
    funext r
    exact ih r

instance : LawfulMonad (Strat K V F) := LawfulMonad.mk'
  (id_map := fun x => by
    induction x with
    | ret a => rfl
    | op o k ih =>
      show Strat.op o _ = _
      congr 1
      funext r
      exact ih r)
  (pure_bind := fun a f => rfl)
  (bind_assoc := fun x f g => by
    induction x with
    | ret a => rfl
    | op o k ih =>
      show Strat.op o _ = Strat.op o _
      congr 1
      funext r
      exact ih r)

end Strat
end QuOCS
