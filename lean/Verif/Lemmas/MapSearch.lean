/-
Searches in other coordinates.
-/
import Mathlib.Tactic.Ring
import Mathlib.Tactic.FieldSimp
import Mathlib.Tactic.Module
import Mathlib.Algebra.Module.BigOperators
import Verif.Spec.MapSearch
import Verif.Lemmas.Strat
import Verif.Model.CMAES

set_option linter.unusedSectionVars false
set_option linter.unusedVariables false

namespace QuOCS
variable {K V F α β γ δ : Type}

/-- The second search makes the calls of the first one in the other coordinates; the sizes of the simplex that are handed to the
stopping criteria are related by `S`. -/
inductive SimMap (T : V → V) (φ : F → F) (S : Py K → Py K → Prop) (Q : α → β → Prop) : Strat K V F α → Strat K V F β → Prop
  | ret (a b) (h : Q a b) : SimMap T φ S Q (.ret a) (.ret b)
  | op (o k k') (h : ∀ r, SimMap T φ S Q (k r) (k' (o.mapRes T φ r))) (hn : ∀ size fs m, o ≠ .checkNM size fs m := by intros; exact nofun) :
      SimMap T φ S Q (.op o k) (.op (o.map T φ) k')
  | size (m m' fs n k k') (hs : S m m') (h : ∀ r : Unit, SimMap T φ S Q (k r) (k' r)) :
      SimMap T φ S Q (.op (.checkNM m fs n) k) (.op (.checkNM m' (fs.map φ) n) k')

section
variable {T : V → V} {φ : F → F} {S : Py K → Py K → Prop} {Q : α → β → Prop} {R : γ → δ → Prop}

theorem SimMap.bind {st : Strat K V F α} {st' : Strat K V F β} (h : SimMap T φ S Q st st') {f : α → Strat K V F γ}
    {f' : β → Strat K V F δ} (hf : ∀ a b, Q a b → SimMap T φ S R (f a) (f' b)) :
    SimMap T φ S R (Strat.bind st f) (Strat.bind st' f') := by
  induction h with
  | ret a b h => exact hf a b h
  | op o k k' h hn ih => exact .op o _ _ (fun r => ih r) hn
  | size m m' fs n k k' hs h ih => exact .size m m' fs n _ _ hs fun r => ih r

theorem SimMap.fail (e : PyErr) : SimMap T φ S Q (Strat.fail e : Strat K V F α) (Strat.fail e : Strat K V F β) :=
  .op (.fail e) _ _ fun r => nomatch r

theorem SimMap.imp {st : Strat K V F α} {st' : Strat K V F β} {Q' : α → β → Prop} (h : SimMap T φ S Q st st')
    (hQ : ∀ a b, Q a b → Q' a b) : SimMap T φ S Q' st st' := by
  induction h with
  | ret a b h => exact .ret _ _ (hQ a b h)
  | op o k k' h hn ih => exact .op o _ _ ih hn
  | size m m' fs n k k' hs h ih => exact .size m m' fs n _ _ hs ih

/-- the calls of the first search are possible calls of the second one -/
theorem SimMap.plays {st : Strat K V F α} {st' : Strat K V F β} (h : SimMap T φ Eq Q st st') {evs : List (Ev K V F)} {m : Strat K V F α}
    (hp : Plays st evs m) : ∃ m', Plays st' (evs.map (Ev.map T φ)) m' ∧ SimMap T φ Eq Q m m' := by
  induction hp generalizing st' with
  | nil m => exact ⟨st', .nil _, h⟩
  | cons o k r evs m' hp ih =>
    cases h with
    | op _ _ k' h =>
      obtain ⟨m1, h1, h2⟩ := ih (h r)
      exact ⟨m1, .cons _ _ _ _ _ h1, h2⟩
    | size m m' fs n _ k' hs h =>
      subst hs
      obtain ⟨m1, h1, h2⟩ := ih (h r)
      exact ⟨m1, .cons (Op.checkNM _ _ _) _ _ _ _ h1, h2⟩

end

/-! ### Nelder-Mead -/

section
variable {n : ℕ} [Field K] [LinearOrder K]
variable [Add F] [Sub F] [Mul F] [Div F] [Neg F] [Zero F] [One F] [NatCast F] [LE F] [LT F] [DecidableLE F]
  [DecidableLT F]

/-- a transformation of the values that the search does not notice -/
structure FitsMap (φ : F → F) (c : NmCfg K F n) : Prop where
  lt : ∀ a b, φ a < φ b ↔ a < b
  le : ∀ a b, φ a ≤ φ b ↔ a ≤ b
  sort : ∀ f, c.argsort (φ ∘ f) = c.argsort f
  mean : 0 < c.driftMinutes → c.driftAverage ≠ 0 → ∀ fs : List F, fs.length = c.driftAverage →
    φ (fs.foldl (· + ·) 0 / (c.driftAverage : F)) = (fs.map φ).foldl (· + ·) 0 / (c.driftAverage : F)
  shift : 0 < c.driftMinutes → ∀ a b p, φ (a + (b - p)) = φ a + (φ b - φ p)

def NmState.map (T : Vec K n → Vec K n) (φ : F → F) (s : NmState K F n) : NmState K F n :=
  { s with sim := fun i => T (s.sim i), fsim := φ ∘ s.fsim }

/-- another origin and another unit for every entry -/
def Affine (T : Vec K n → Vec K n) : Prop := ∃ α a : Vec K n, ∀ x j, T x j = α j * x j + a j

variable {T : Vec K n → Vec K n} {φ : F → F} {c : NmCfg K F n} {S : Py K → Py K → Prop}

/-- affine combinations are kept -/
theorem Affine.comb (hT : Affine T) (p q : K) (h : p + q = 1) (x y : Vec K n) : T (p • x + q • y) = p • T x + q • T y := by
  obtain ⟨α, a, hT⟩ := hT
  funext j
  show T (p • x + q • y) j = p * T x j + q * T y j
  rw [hT, hT, hT]
  show α j * (p * x j + q * y j) + a j = _
  have : q = 1 - p := by rw [← h]; ring
  subst this
  ring

theorem nmBar_map [CharZero K] (hT : Affine T) (sim : Fin (n + 1) → Vec K n) : nmBar (fun i => T (sim i)) = T (nmBar sim) := by
  obtain ⟨α, a, hT⟩ := hT
  rcases Nat.eq_zero_or_pos n with rfl | hn
  · exact Subsingleton.elim _ _
  funext j
  have h0 : (n : K) ≠ 0 := Nat.cast_ne_zero.2 hn.ne'
  rw [hT]
  show (∑ i : Fin n, T (sim i.castSucc) j) / (n : K) = α j * ((∑ i : Fin n, sim i.castSucc j) / (n : K)) + a j
  simp only [hT]
  rw [Finset.sum_add_distrib, Finset.sum_const, Finset.card_univ, Fintype.card_fin, nsmul_eq_mul, ← Finset.mul_sum]
  field_simp

theorem update_map {ι α β : Type} [DecidableEq ι] (g : α → β) (f : ι → α) (i : ι) (x : α) :
    (fun j => g (Function.update f i x j)) = Function.update (fun j => g (f j)) i (g x) := by
  funext j
  rw [Function.update_apply, Function.update_apply]
  split <;> rfl

theorem nmReplace_map (x : Vec K n) (f : F) (s : NmState K F n) :
    nmReplace (T x) (φ f) (s.map T φ) = (nmReplace x f s).map T φ := by
  unfold nmReplace NmState.map
  simp only
  rw [update_map T s.sim]
  congr 1
  exact (update_map φ s.fsim _ _).symm

theorem nmEval_sim (x : Vec K n) (s : NmState K F n) :
    SimMap (K := K) T φ S (fun p q : F × NmState K F n => q = (φ p.1, p.2.map T φ) ∧ p.2 = { s with calls := s.calls + 1 })
      (nmEval x s) (nmEval (T x) (s.map T φ)) :=
  .op (.eval x s.iterations) _ _ fun f => .ret _ _ ⟨rfl, rfl⟩

theorem nmConv_sim {Q : α → β → Prop} {f : Bool → Strat K (Vec K n) F α} {f' : Bool → Strat K (Vec K n) F β}
    (h : ∀ b, SimMap T φ S Q (f b) (f' b)) : SimMap T φ S Q (Strat.bind nmConv f) (Strat.bind nmConv f') :=
  .op .readConv _ _ h

theorem nmInit_sim (ks : List (Fin (n + 1))) : ∀ (s s' : NmState K F n),
    s' = { s with sim := fun i => T (s.sim i), fsim := s'.fsim } → (∀ i, i ∉ ks → s'.fsim i = φ (s.fsim i)) →
    SimMap (K := K) T φ S (fun p q => q = p.map T φ) (nmInit ks s) (nmInit ks s') := by
  induction ks with
  | nil =>
    intro s s' h1 h2
    refine .ret _ _ ?_
    rw [h1]
    unfold NmState.map
    congr 1
    funext i
    exact h2 i (by simp)
  | cons k ks ih =>
    intro s s' h1 h2
    have e : s'.sim k = T (s.sim k) ∧ s'.iterations = s.iterations := by rw [h1]; exact ⟨rfl, rfl⟩
    show SimMap T φ S _ (Strat.bind (nmEval (s.sim k) s) _) (Strat.bind (nmEval (s'.sim k) s') _)
    unfold nmEval
    rw [e.1, e.2]
    refine .op (.eval _ _) _ _ fun v => ?_
    refine ih _ _ ?_ fun i hi => ?_
    · have e1 : s'.sim = fun i => T (s.sim i) := by rw [h1]
      have ec : s'.calls = s.calls := by rw [h1]
      have ed : s'.lastDrift = s.lastDrift := by rw [h1]
      simp only [e1, ec, ed]
    · show (Function.update s'.fsim k (φ v) i) = φ (Function.update s.fsim k v i)
      rw [Function.update_apply, Function.update_apply]
      by_cases hk : i = k
      · simp only [hk, if_true]
      · simp only [hk, if_false]
        exact h2 i (by simp [hk, hi])

theorem nmShrink_sim (hT : Affine T) (co : NmCoef K) (js : List (Fin (n + 1))) : ∀ (s : NmState K F n),
    SimMap (K := K) T φ S (fun p q => q = p.map T φ) (nmShrink co js s) (nmShrink co js (s.map T φ)) := by
  induction js with
  | nil => exact fun s => .ret _ _ rfl
  | cons j js ih =>
    intro s
    have hx : (s.map T φ).sim 0 + co.sigma • ((s.map T φ).sim j - (s.map T φ).sim 0) =
        T (s.sim 0 + co.sigma • (s.sim j - s.sim 0)) := by
      show T (s.sim 0) + co.sigma • (T (s.sim j) - T (s.sim 0)) = _
      have e : ∀ x y : Vec K n, x + co.sigma • (y - x) = (1 - co.sigma) • x + co.sigma • y := fun x y => by module
      rw [e, e, hT.comb _ _ (by ring)]
    have hu : ∀ x, ({ s.map T φ with sim := Function.update (s.map T φ).sim j (T x) } : NmState K F n) =
        ({ s with sim := Function.update s.sim j x } : NmState K F n).map T φ := by
      intro x
      unfold NmState.map
      simp only
      rw [update_map T s.sim]
    unfold nmShrink
    simp only []
    rw [hx, hu]
    refine nmConv_sim fun b => ?_
    rcases b with _ | _
    · refine (nmEval_sim _ _).bind ?_
      rintro ⟨f, s1⟩ q ⟨rfl, -⟩
      have hf : ({ s1.map T φ with fsim := Function.update (s1.map T φ).fsim j (φ f) } : NmState K F n) =
          ({ s1 with fsim := Function.update s1.fsim j f } : NmState K F n).map T φ := by
        unfold NmState.map
        simp only
        congr 1
        exact (update_map φ s1.fsim _ _).symm
      show SimMap T φ S _ (nmShrink co js _) (nmShrink co js { s1.map T φ with fsim := Function.update (s1.map T φ).fsim j (φ f) })
      rw [hf]
      exact ih _
    · exact .ret _ _ rfl

theorem nmExpand_sim (hT : Affine T) (hF : FitsMap φ c) (co : NmCoef K) (xbar xr : Vec K n) (fxr : F) (s : NmState K F n) :
    SimMap (K := K) T φ S (fun p q => q = (p.1, p.2.map T φ)) (nmExpand co xbar xr fxr s)
      (nmExpand co (T xbar) (T xr) (φ fxr) (s.map T φ)) := by
  have hx : (1 + co.rho * co.chi) • T xbar - (co.rho * co.chi) • ((s.map T φ).sim (Fin.last n)) =
      T ((1 + co.rho * co.chi) • xbar - (co.rho * co.chi) • s.sim (Fin.last n)) := by
    show (1 + co.rho * co.chi) • T xbar - (co.rho * co.chi) • T (s.sim (Fin.last n)) = _
    have e : ∀ x y : Vec K n, (1 + co.rho * co.chi) • x - (co.rho * co.chi) • y = (1 + co.rho * co.chi) • x + (-(co.rho * co.chi)) • y := fun x y => by module
    rw [e, e, hT.comb _ _ (by ring)]
  unfold nmExpand
  simp only []
  rw [hx]
  refine nmConv_sim fun b => ?_
  rcases b with _ | _
  · refine (nmEval_sim _ _).bind ?_
    rintro ⟨f, s1⟩ q ⟨rfl, -⟩
    show SimMap T φ S _ (if f < fxr then _ else _) (if φ f < φ fxr then _ else _)
    simp only [hF.lt]
    split
    · exact .ret _ _ (by rw [nmReplace_map])
    · exact .ret _ _ (by rw [nmReplace_map])
  · exact .ret _ _ rfl

theorem nmOutside_sim (hT : Affine T) (hF : FitsMap φ c) (co : NmCoef K) (xbar : Vec K n) (fxr : F) (s : NmState K F n) :
    SimMap (K := K) T φ S (fun p q => q = (p.1, p.2.map T φ)) (nmOutside co xbar fxr s)
      (nmOutside co (T xbar) (φ fxr) (s.map T φ)) := by
  have hx : (1 + co.psi * co.rho) • T xbar - (co.psi * co.rho) • ((s.map T φ).sim (Fin.last n)) =
      T ((1 + co.psi * co.rho) • xbar - (co.psi * co.rho) • s.sim (Fin.last n)) := by
    show (1 + co.psi * co.rho) • T xbar - (co.psi * co.rho) • T (s.sim (Fin.last n)) = _
    have e : ∀ x y : Vec K n, (1 + co.psi * co.rho) • x - (co.psi * co.rho) • y = (1 + co.psi * co.rho) • x + (-(co.psi * co.rho)) • y := fun x y => by module
    rw [e, e, hT.comb _ _ (by ring)]
  unfold nmOutside
  simp only []
  rw [hx]
  refine nmConv_sim fun b => ?_
  rcases b with _ | _
  · refine (nmEval_sim _ _).bind ?_
    rintro ⟨f, s1⟩ q ⟨rfl, -⟩
    show SimMap T φ S _ (if f ≤ fxr then _ else _) (if φ f ≤ φ fxr then _ else _)
    simp only [hF.le]
    split
    · exact .ret _ _ (by rw [nmReplace_map])
    · refine (nmShrink_sim hT co _ _).bind ?_
      rintro p q rfl
      exact .ret _ _ rfl
  · exact .ret _ _ rfl

theorem nmInside_sim (hT : Affine T) (hF : FitsMap φ c) (co : NmCoef K) (xbar : Vec K n) (s : NmState K F n) :
    SimMap (K := K) T φ S (fun p q => q = (p.1, p.2.map T φ)) (nmInside co xbar s)
      (nmInside co (T xbar) (s.map T φ)) := by
  have hx : (1 - co.psi) • T xbar + co.psi • ((s.map T φ).sim (Fin.last n)) =
      T ((1 - co.psi) • xbar + co.psi • s.sim (Fin.last n)) := by
    show (1 - co.psi) • T xbar + co.psi • T (s.sim (Fin.last n)) = _
    rw [hT.comb _ _ (by ring)]
  unfold nmInside
  simp only []
  rw [hx]
  refine nmConv_sim fun b => ?_
  rcases b with _ | _
  · refine (nmEval_sim _ _).bind ?_
    rintro ⟨f, s1⟩ q ⟨rfl, -⟩
    show SimMap T φ S _ (if f < s1.fsim (Fin.last n) then _ else _) (if φ f < φ (s1.fsim (Fin.last n)) then _ else _)
    simp only [hF.lt]
    split
    · exact .ret _ _ (by rw [nmReplace_map])
    · refine (nmShrink_sim hT co _ _).bind ?_
      rintro p q rfl
      exact .ret _ _ rfl
  · exact .ret _ _ rfl

theorem nmContract_sim (hT : Affine T) (hF : FitsMap φ c) (co : NmCoef K) (xbar xr : Vec K n) (fxr : F) (s : NmState K F n) :
    SimMap (K := K) T φ S (fun p q => q = (p.1, p.2.map T φ)) (nmContract co xbar xr fxr s)
      (nmContract co (T xbar) (T xr) (φ fxr) (s.map T φ)) := by
  unfold nmContract
  rcases n with _ | n
  · exact .op (.fail _) _ _ fun r => nomatch r
  · show SimMap _ φ S _ (if fxr < s.fsim (Fin.last n).castSucc then _ else _) (if φ fxr < φ (s.fsim (Fin.last n).castSucc) then _ else _)
    simp only [hF.lt]
    by_cases h1 : fxr < s.fsim (Fin.last n).castSucc
    · rw [if_pos h1, if_pos h1]
      exact .ret _ _ (by rw [nmReplace_map])
    · rw [if_neg h1, if_neg h1]
      show SimMap _ φ S _ (if fxr < s.fsim (Fin.last (n + 1)) then _ else _) (if φ fxr < φ (s.fsim (Fin.last (n + 1))) then _ else _)
      simp only [hF.lt]
      split
      · exact nmOutside_sim hT hF co xbar _ _
      · exact nmInside_sim hT hF co xbar _

theorem nmMove_sim [CharZero K] (hT : Affine T) (hF : FitsMap φ c) (co : NmCoef K) (s : NmState K F n) :
    SimMap (K := K) T φ S (fun p q => q = (p.1, p.2.map T φ)) (nmMove co s) (nmMove co (s.map T φ)) := by
  have hb : nmBar (s.map T φ).sim = T (nmBar s.sim) := nmBar_map hT s.sim
  have hx : (1 + co.rho) • T (nmBar s.sim) - co.rho • (s.map T φ).sim (Fin.last n) =
      T ((1 + co.rho) • nmBar s.sim - co.rho • s.sim (Fin.last n)) := by
    show (1 + co.rho) • T (nmBar s.sim) - co.rho • T (s.sim (Fin.last n)) = _
    have e : ∀ x y : Vec K n, (1 + co.rho) • x - co.rho • y = (1 + co.rho) • x + (-co.rho) • y := fun x y => by module
    rw [e, e, hT.comb _ _ (by ring)]
  unfold nmMove
  simp only []
  rw [hb, hx]
  refine (nmEval_sim _ _).bind ?_
  rintro ⟨f, s1⟩ q ⟨rfl, h⟩
  show SimMap T φ S _ (if f < s1.fsim 0 then _ else _) (if φ f < φ (s1.fsim 0) then _ else _)
  simp only [hF.lt]
  split
  · exact nmExpand_sim hT hF co _ _ _ _
  · exact nmContract_sim hT hF co _ _ _ _

theorem nmSort_map (hF : FitsMap φ c) (s : NmState K F n) : nmSort c (s.map T φ) = (nmSort c s).map T φ := by
  unfold nmSort NmState.map
  simp only [hF.sort]
  rfl

theorem nmSum_sim (m : ℕ) : ∀ (acc acc' : F) (s : NmState K F n),
    SimMap (K := K) T φ S (fun p q => ∃ fs : List F, fs.length = m ∧ p.1 = fs.foldl (· + ·) acc ∧
        q.1 = (fs.map φ).foldl (· + ·) acc' ∧ q.2 = p.2.map T φ ∧ p.2 = { s with calls := s.calls + m })
      (nmSum m acc s) (nmSum m acc' (s.map T φ)) := by
  induction m with
  | zero => exact fun acc acc' s => .ret _ _ ⟨[], rfl, rfl, rfl, rfl, rfl⟩
  | succ m ih =>
    intro acc acc' s
    refine (nmEval_sim (s.sim 0) s).bind ?_
    rintro ⟨f, s1⟩ q ⟨rfl, hs1⟩
    have hb : ∀ {p q : F × NmState K F n}, (∃ fs : List F, fs.length = m ∧ p.1 = fs.foldl (· + ·) (acc + f) ∧
        q.1 = (fs.map φ).foldl (· + ·) (acc' + φ f) ∧ q.2 = p.2.map T φ ∧ p.2 = { s1 with calls := s1.calls + m }) →
        SimMap (K := K) T φ S (fun p q : F × NmState K F n => ∃ fs : List F, fs.length = m + 1 ∧ p.1 = fs.foldl (· + ·) acc ∧
          q.1 = (fs.map φ).foldl (· + ·) acc' ∧ q.2 = p.2.map T φ ∧ p.2 = { s with calls := s.calls + (m + 1) })
          (.ret p) (.ret q) := by
      rintro p q ⟨fs, h1, h2, h3, h4, h5⟩
      refine .ret _ _ ⟨f :: fs, by simp [h1], h2, h3, h4, ?_⟩
      simp only at hs1
      rw [h5, hs1]
      simp only [Nat.add_assoc, Nat.add_comm 1 m]
    have := (ih (acc + f) (acc' + φ f) s1).bind (f := fun p => .ret p) (f' := fun p => .ret p) fun p q h => hb h
    have e : ∀ (x : Strat K (Vec K n) F (F × NmState K F n)), Strat.bind x (fun p => .ret p) = x := by
      intro x
      induction x with
      | ret a => rfl
      | op o k ih => show Strat.op o _ = _; congr 1; funext r; exact ih r
    rw [e, e] at this
    exact this

theorem nmDrift_sim (hF : FitsMap φ c) (s : NmState K F n) :
    SimMap (K := K) T φ S (fun p q => q = p.map T φ) (nmDrift c s) (nmDrift c (s.map T φ)) := by
  unfold nmDrift
  by_cases hd : c.driftMinutes > 0
  · rw [if_pos hd, if_pos hd]
    refine nmConv_sim fun b => ?_
    rcases b with _ | _
    · refine .op .now _ _ fun t => ?_
      show SimMap T φ S _ (if t - s.lastDrift ≥ c.driftMinutes then _ else _) (if t - s.lastDrift ≥ c.driftMinutes then _ else _)
      split
      · unfold nmDriftDo
        refine (nmSum_sim c.driftAverage 0 0 s).bind ?_
        rintro ⟨f, s1⟩ ⟨f', s1'⟩ ⟨fs, h1, h2, h3, h4, h5⟩
        simp only at h2 h3 h4 h5
        subst h4
        by_cases h0 : c.driftAverage = 0
        · simp only [h0, if_true]
          exact .fail _
        · simp only [h0, if_false]
          refine .op .now _ _ fun t' => ?_
          have hm : f' / (c.driftAverage : F) = φ (f / (c.driftAverage : F)) := by
            rw [h2, h3]; exact (hF.mean hd h0 fs h1).symm
          rw [hm]
          refine .op (.drift _ _ _) _ _ fun v => .ret _ _ ?_
          unfold NmState.map
          simp only
          congr 1
          funext i
          by_cases hi : i = 0
          · simp [hi]
          · simp only [Function.comp_apply, if_neg hi]
            exact (hF.shift hd _ _ _).symm
      · exact .ret _ _ rfl
    · exact .ret _ _ rfl
  · rw [if_neg hd, if_neg hd]
    exact .ret _ _ rfl

theorem nmFinish_sim (hS : ∀ sim : Fin (n + 1) → Vec K n, S (simplexSize sim) (simplexSize fun i => T (sim i))) (s : NmState K F n) :
    SimMap (K := K) T φ S (fun p q => q = p.map T φ) (nmFinish s) (nmFinish (s.map T φ)) := by
  have hf : List.ofFn (s.map T φ).fsim = (List.ofFn s.fsim).map φ := List.ofFn_comp' s.fsim φ
  unfold nmFinish
  simp only []
  rw [hf]
  refine .op .callback _ _ fun b => ?_
  rcases b with _ | _
  · exact .op .userStop _ _ fun _ => .size _ _ _ _ _ _ (hS s.sim) fun _ => .ret _ _ rfl
  · exact .size _ _ _ _ _ _ (hS s.sim) fun _ => .ret _ _ rfl

theorem nmLoop_sim [CharZero K] (hT : Affine T) (hS : ∀ sim : Fin (n + 1) → Vec K n, S (simplexSize sim) (simplexSize fun i => T (sim i)))
    (hF : FitsMap φ c) (co : NmCoef K) (fuel : ℕ) : ∀ (s : NmState K F n),
    SimMap (K := K) T φ S (fun p q => q = p.map T φ) (nmLoop c co fuel s) (nmLoop c co fuel (s.map T φ)) := by
  induction fuel with
  | zero => exact fun s => .fail _
  | succ fuel ih =>
    intro s
    refine nmConv_sim fun b => ?_
    rcases b with _ | _
    · refine (nmMove_sim hT hF co s).bind ?_
      rintro ⟨b, s1⟩ q rfl
      rcases b with _ | _
      · show SimMap T φ S _ (Strat.bind (nmDrift c (nmSort c s1)) _) (Strat.bind (nmDrift c (nmSort c (s1.map T φ))) _)
        rw [nmSort_map hF]
        refine (nmDrift_sim hF _).bind ?_
        rintro s2 q rfl
        refine (nmFinish_sim hS _).bind ?_
        rintro s3 q rfl
        exact ih s3
      · exact .ret _ _ rfl
    · exact .ret _ _ rfl

theorem nmRun_sim [CharZero K] (hT : Affine T) (hS : ∀ sim : Fin (n + 1) → Vec K n, S (simplexSize sim) (simplexSize fun i => T (sim i)))
    (hF : FitsMap φ c) (fuel : ℕ) (sim : Fin (n + 1) → Vec K n) :
    SimMap (K := K) T φ S (fun p q : DsmResult (Vec K n) F => q = { p with fMin := φ p.fMin, xOpt := T p.xOpt })
      (nmRun c fuel sim) (nmRun c fuel (fun i => T (sim i))) := by
  unfold nmRun
  refine .op (.setConv _) _ _ fun _ => .op .now _ _ fun _ => .op .now _ _ fun t => ?_
  refine (nmInit_sim (φ := φ) (T := T) _ _ _ rfl fun i hi => absurd (List.mem_finRange i) hi).bind ?_
  rintro s q rfl
  have e : ({ nmSort c (s.map T φ) with iterations := 1 } : NmState K F n) =
      ({ nmSort c s with iterations := 1 } : NmState K F n).map T φ := by rw [nmSort_map hF]; rfl
  show SimMap T φ S _ (Strat.bind (nmLoop c _ fuel _) _) (Strat.bind (nmLoop c _ fuel { nmSort c (s.map T φ) with iterations := 1 }) _)
  rw [e]
  refine (nmLoop_sim hT hS hF _ fuel _).bind ?_
  rintro s2 q rfl
  exact .op .reason _ _ fun r => .ret _ _ rfl


/-! ### CMA-ES -/

variable {L : ℕ} {lib : CmaLib K F} {a : Vec K n}

local notation "Ta" => (fun x : Vec K n => x + a)

/-- the same state in the other coordinates; the points and values of the generation may differ -/
def CmaMap (a : Vec K n) (s s' : CmaState K F n L) : Prop :=
  s' = { s with xmean := s.xmean + a, arx := s'.arx, fsim := s'.fsim }

/-- ... also the points and values -/
def CmaMapAll (a : Vec K n) (φ : F → F) (s s' : CmaState K F n L) : Prop :=
  s' = { s with xmean := s.xmean + a, arx := fun k => s.arx k + a, fsim := φ ∘ s.fsim }

theorem cmaSample_sim (ks : List (Fin L)) : ∀ (s s' : CmaState K F n L), CmaMap a s s' →
    (∀ i, i ∉ ks → s'.arx i = s.arx i + a ∧ s'.fsim i = φ (s.fsim i)) →
    SimMap (K := K) Ta φ S (CmaMapAll a φ) (cmaSample lib ks s) (cmaSample lib ks s') := by
  induction ks with
  | nil =>
    intro s s' h1 h2
    refine .ret _ _ ?_
    unfold CmaMapAll
    rw [h1]
    congr 1
    · funext i; exact (h2 i (by simp)).1
    · funext i; exact (h2 i (by simp)).2
  | cons k ks ih =>
    intro s s' h1 h2
    unfold CmaMap at h1
    have em : s'.xmean = s.xmean + a := by rw [h1]
    have e1 : s'.sigma = s.sigma := by rw [h1]
    have e2 : s'.pc = s.pc := by rw [h1]
    have e3 : s'.ps = s.ps := by rw [h1]
    have e4 : s'.B = s.B := by rw [h1]
    have e5 : s'.D = s.D := by rw [h1]
    have e6 : s'.C = s.C := by rw [h1]
    have e7 : s'.invsqrtC = s.invsqrtC := by rw [h1]
    have e8 : s'.ind = s.ind := by rw [h1]
    have e9 : s'.counteval = s.counteval := by rw [h1]
    have e10 : s'.iterations = s.iterations := by rw [h1]
    have e11 : s'.calls = s.calls := by rw [h1]
    have hx : (if s'.counteval = 0 then s'.xmean
        else s'.xmean + s'.sigma • s'.B.mulVec (fun i => s'.D i * lib.randn s'.counteval i)) =
        (if s.counteval = 0 then s.xmean
        else s.xmean + s.sigma • s.B.mulVec (fun i => s.D i * lib.randn s.counteval i)) + a := by
      rw [em, e1, e4, e5, e9]
      split
      · rfl
      · abel
    unfold cmaSample
    rw [hx]
    set x := (if s.counteval = 0 then s.xmean
        else s.xmean + s.sigma • s.B.mulVec (fun i => s.D i * lib.randn s.counteval i)) with hxdef
    rw [e10]
    refine .op (.eval x s.iterations) _ _ fun f => ?_
    refine ih _ _ ?_ fun i hi => ?_
    · unfold CmaMap
      simp only [em, e1, e2, e3, e4, e5, e6, e7, e8, e9, e11]
    · show Function.update s'.arx k (x + a) i = Function.update s.arx k x i + a ∧
        Function.update s'.fsim k (φ f) i = φ (Function.update s.fsim k f i)
      rw [Function.update_apply, Function.update_apply, Function.update_apply, Function.update_apply]
      by_cases hk : i = k
      · simp only [hk, if_true, and_self]
      · simp only [hk, if_false]
        exact h2 i (by simp [hk, hi])

theorem cmaUpdate_map (hw : ∑ i, cmaWeights lib.log (L / 2) i = 1) {s s' : CmaState K F n L}
    (h : CmaMapAll a φ s s') : CmaMapAll a φ (cmaUpdate lib s) (cmaUpdate lib s') := by
  have hb : ∀ i, cmaBest s' i = cmaBest s i + a := fun i => by unfold CmaMapAll at h; rw [h]; rfl
  have hm : cmaMean lib s' = cmaMean lib s + a := by
    unfold cmaMean
    simp only [hb, smul_add, Finset.sum_add_distrib]
    rw [← Finset.sum_smul, hw, one_smul]
  have hc : ∀ (p : CmaPar K) (pc : Vec K n) (h0 : K), cmaCov p (cmaWeights lib.log (L / 2)) (cmaBest s') (s.xmean + a) pc s.sigma h0 s.C =
      cmaCov p (cmaWeights lib.log (L / 2)) (cmaBest s) s.xmean pc s.sigma h0 s.C := by
    intro p pc h0
    unfold cmaCov
    have : ∀ i j, cmaBest s' i j - (s.xmean + a) j = cmaBest s i j - s.xmean j := fun i j => by
      rw [hb]
      show cmaBest s i j + a j - (s.xmean j + a j) = _
      rw [add_sub_add_right_eq_sub]
    simp only [this]
  have hy : cmaMean lib s' - (s.xmean + a) = cmaMean lib s - s.xmean := by rw [hm]; abel
  unfold CmaMapAll at h
  have em : s'.xmean = s.xmean + a := by rw [h]
  have e1 : s'.sigma = s.sigma := by rw [h]
  have e2 : s'.pc = s.pc := by rw [h]
  have e3 : s'.ps = s.ps := by rw [h]
  have e4 : s'.B = s.B := by rw [h]
  have e5 : s'.D = s.D := by rw [h]
  have e6 : s'.C = s.C := by rw [h]
  have e7 : s'.invsqrtC = s.invsqrtC := by rw [h]
  have e8 : s'.ind = s.ind := by rw [h]
  have e9 : s'.counteval = s.counteval := by rw [h]
  have e10 : s'.iterations = s.iterations := by rw [h]
  have e11 : s'.calls = s.calls := by rw [h]
  have e12 : s'.arx = fun k => s.arx k + a := by rw [h]
  have e13 : s'.fsim = φ ∘ s.fsim := by rw [h]
  unfold CmaMapAll cmaUpdate
  dsimp only
  rw [em, e1, e2, e3, e4, e5, e6, e7, e8, e9, e10, e11, e12, e13]
  simp only [hy, hc]
  split
  · simp only [hm]
  · simp only [hm]

theorem cmaSort_map (hs : ∀ f, lib.argsort (l := L) (φ ∘ f) = lib.argsort f) {s s' : CmaState K F n L}
    (h : CmaMapAll a φ s s') : CmaMapAll a φ (cmaSort lib s) (cmaSort lib s') := by
  unfold CmaMapAll at *
  rw [h]
  unfold cmaSort
  simp only [hs]
  rfl

theorem cmaLoop_sim (hs : ∀ f, lib.argsort (l := L) (φ ∘ f) = lib.argsort f)
    (hw : ∑ i, cmaWeights lib.log (L / 2) i = 1) (fuel : ℕ) : ∀ (s s' : CmaState K F n L), CmaMap a s s' →
    SimMap (K := K) Ta φ S (CmaMap a) (cmaLoop lib fuel s) (cmaLoop lib fuel s') := by
  induction fuel with
  | zero => exact fun s s' h => .fail _
  | succ fuel ih =>
    intro s s' h
    refine .op .readConv _ _ fun b => ?_
    rcases b with _ | _
    · refine (cmaSample_sim (List.finRange L) s s' h fun i hi => absurd (List.mem_finRange i) hi).bind ?_
      intro s1 s1' h1
      have h2 := cmaUpdate_map hw (cmaSort_map hs h1)
      have hf : List.ofFn (cmaUpdate lib (cmaSort lib s1')).fsim = (List.ofFn (cmaUpdate lib (cmaSort lib s1)).fsim).map φ := by
        unfold CmaMapAll at h2
        rw [h2]
        exact List.ofFn_comp' _ φ
      have hcl : (cmaUpdate lib (cmaSort lib s1')).calls = (cmaUpdate lib (cmaSort lib s1)).calls := by
        unfold CmaMapAll at h2
        rw [h2]
      have h3 : CmaMap a (cmaUpdate lib (cmaSort lib s1)) (cmaUpdate lib (cmaSort lib s1')) := by
        unfold CmaMapAll at h2
        unfold CmaMap
        rw [h2]
      show SimMap Ta φ S _ (Strat.bind (cmaFinish _) _) (Strat.bind (cmaFinish _) _)
      unfold cmaFinish
      rw [hf, hcl]
      refine .op .callback _ _ fun b => ?_
      rcases b with _ | _
      · exact .op .userStop _ _ fun _ => .op (.checkCMA _ _) _ _ fun _ => ih _ _ h3
      · exact .op (.checkCMA _ _) _ _ fun _ => ih _ _ h3
    · exact .ret _ _ h

theorem cmaRun_sim (hs : ∀ f, lib.argsort (l := L) (φ ∘ f) = lib.argsort f)
    (hw : ∑ i, cmaWeights lib.log (L / 2) i = 1) (hL : 0 < L) (fuel : ℕ) (x0 sg : Vec K n) :
    SimMap (K := K) Ta φ S (fun p q : DsmResult (Vec K n) F => q.reason = p.reason ∧ q.nit = p.nit ∧ q.nfev = p.nfev)
      (cmaRun lib hL fuel x0 sg) (cmaRun lib hL fuel (x0 + a) sg) := by
  unfold cmaRun
  refine .op (.setConv _) _ _ fun _ => ?_
  refine (cmaLoop_sim (a := a) hs hw fuel (cmaInit hL x0 sg) (cmaInit hL (x0 + a) sg) rfl).bind ?_
  intro s s' h
  refine .op .reason _ _ fun r => .ret _ _ ⟨rfl, ?_, ?_⟩
  · unfold CmaMap at h; rw [h]
  · unfold CmaMap at h; rw [h]

end
end QuOCS
