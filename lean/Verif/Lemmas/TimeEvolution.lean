/-
Lemmas about the model of the time evolution.
-/
import Mathlib.Algebra.BigOperators.Fin
import Verif.Model.TimeEvolution
import Verif.Spec.TimeEvolution
import Verif.Lemmas.Numpy

set_option linter.unusedSectionVars false
set_option linter.unusedVariables false

namespace QuOCS
open Matrix

namespace TE
variable {d : ℕ} {expm : CMat d → CMat d} {drive : List (List ℂ)} {A : CMat d} {B : List (CMat d)} {dt : ℝ} {n : ℕ}

theorem foldlM_append_ok {α β : Type} (f : α → β → Py α) {l : List β} {x : β} {a b : α} (h : l.foldlM f a = .ok b) :
    (l ++ [x]).foldlM f a = f b x := by
  rw [List.foldlM_append, h]
  show (f b x >>= pure) = _
  rw [bind_pure]

theorem driveAt_ok {K i k : ℕ} (h : HasShape drive K n) (hk : k < K) (hi : i < n) :
    driveAt drive k i = .ok (amplitude drive k i) := by
  obtain ⟨row, h1, h2⟩ := h k hk
  unfold driveAt amplitude
  rw [getIdx_ok.2 h1]
  show getIdx row i = _
  have : drive.getD k [] = row := by rw [List.getD_eq_getElem?_getD, h1]; rfl
  rw [getIdx_of_lt (by omega), this]
  simp [List.getElem?_eq_getElem (show i < row.length by omega)]

theorem hamiltonian_cons {Bk : CMat d} {Bs : List (CMat d)} {i : ℕ} (f : ℕ → ℂ) :
    A + ∑ j : Fin (Bk :: Bs).length, f j • (Bk :: Bs)[j] = (A + f 0 • Bk) + ∑ j : Fin Bs.length, f (j + 1) • Bs[j] := by
  rw [show (∑ j : Fin (Bk :: Bs).length, f j • (Bk :: Bs)[j]) = f 0 • Bk + ∑ j : Fin Bs.length, f (j + 1) • Bs[j] from by
    exact Fin.sum_univ_succ (n := Bs.length) fun j : Fin (Bs.length + 1) => f j • (Bk :: Bs)[j], add_assoc]

theorem sliceHamiltonian_ok {K i : ℕ} (h : HasShape drive K n) (hi : i < n) : ∀ (Bs : List (CMat d)) (k : ℕ) (H : CMat d),
    k + Bs.length ≤ K → sliceHamiltonian drive i k H Bs = .ok (H + ∑ j : Fin Bs.length, amplitude drive (k + j) i • Bs[j]) := by
  intro Bs
  induction Bs with
  | nil => intro k H _; simp [sliceHamiltonian]
  | cons Bk Bs ih =>
      intro k H hk
      simp only [List.length_cons] at hk
      unfold sliceHamiltonian
      rw [driveAt_ok h (by omega) hi]
      show sliceHamiltonian drive i (k + 1) _ Bs = _
      rw [ih (k + 1) _ (by omega)]
      rw [hamiltonian_cons (i := i) (fun j => amplitude drive (k + j) i)]
      congr 1
      rw [Nat.add_zero]
      congr 1
      exact Finset.sum_congr rfl fun j _ => by rw [show k + 1 + (j : ℕ) = k + (j + 1) by omega]

/-- the propagator of slice `i` -/
def P (expm : CMat d → CMat d) (drive : List (List ℂ)) (A : CMat d) (B : List (CMat d)) (dt : ℝ) (i : ℕ) : CMat d :=
  expm ((-Complex.I * dt) • hamiltonian drive A B i)

theorem slice_ok {i : ℕ} (h : HasShape drive B.length n) (hi : i < n) :
    slicePropagator expm drive A B dt i = .ok (P expm drive A B dt i) := by
  unfold slicePropagator
  rw [sliceHamiltonian_ok h hi B 0 A (by omega)]
  simp only [Nat.zero_add]
  rfl

theorem HasShape.mono {K m : ℕ} (h : HasShape drive K n) (hm : m ≤ n) : HasShape drive K m :=
  fun k hk => by obtain ⟨row, h1, h2⟩ := h k hk; exact ⟨row, h1, by omega⟩

theorem final_ok (h : HasShape drive B.length n) (U0 : CMat d) :
    pwFinalEvolution expm drive A B n dt U0 = .ok (ordered (P expm drive A B dt) n * U0) := by
  induction n with
  | zero => simp [pwFinalEvolution, ordered]; rfl
  | succ n ih =>
      have := ih (HasShape.mono h (by omega))
      unfold pwFinalEvolution at this ⊢
      rw [List.range_succ, foldlM_append_ok _ this]
      rw [slice_ok h (by omega)]
      show Except.ok _ = _
      rw [ordered, Matrix.mul_assoc]

theorem store_ok (h : HasShape drive B.length n) (store : List (CMat d)) (hs : n ≤ store.length) :
    ∃ st, pwEvolution expm store drive A B n dt = .ok st ∧ st.length = store.length ∧
      (∀ i < n, st[i]? = some (P expm drive A B dt i)) ∧ ∀ i, n ≤ i → st[i]? = store[i]? := by
  induction n with
  | zero => exact ⟨store, rfl, rfl, fun i hi => by omega, fun i _ => rfl⟩
  | succ n ih =>
      obtain ⟨st, h1, h2, h3, h4⟩ := ih (HasShape.mono h (by omega)) (by omega)
      unfold pwEvolution at h1
      refine ⟨st.set n (P expm drive A B dt n), ?_, by simp [h2], ?_, ?_⟩
      · unfold pwEvolution
        rw [List.range_succ, foldlM_append_ok _ h1]
        rw [slice_ok h (by omega)]
        show setIdx st n _ = _
        unfold setIdx
        rw [if_pos (by omega)]
      · intro i hi
        by_cases hin : i = n
        · subst hin
          rw [List.getElem?_set_self (by omega)]
        · rw [List.getElem?_set_ne (by omega)]
          exact h3 i (by omega)
      · intro i hi
        rw [List.getElem?_set_ne (by omega)]
        exact h4 i (by omega)

theorem ordered_eq_prod (P : ℕ → CMat d) (n : ℕ) : ordered P n = (((List.range n).map P).reverse).prod := by
  induction n with
  | zero => rfl
  | succ n ih => rw [List.range_succ, List.map_append, List.reverse_append]; simp [ordered, ih]

theorem ordered_add (P : ℕ → CMat d) (n m : ℕ) : ordered P (n + m) = ordered (fun i => P (n + i)) m * ordered P n := by
  induction m with
  | zero => simp [ordered]
  | succ m ih => rw [← Nat.add_assoc, ordered, ih, ordered, Matrix.mul_assoc]

theorem ordered_congr {P Q : ℕ → CMat d} {n : ℕ} (h : ∀ i < n, P i = Q i) : ordered P n = ordered Q n := by
  induction n with
  | zero => rfl
  | succ n ih => rw [ordered, ordered, h n (by omega), ih fun i hi => h i (by omega)]

theorem foriLoop_eq {α : Type} (body : ℕ → α → Py α) : ∀ (n lower : ℕ) (v : α),
    foriLoop body lower n v = (List.range' lower n).foldlM (fun x i => body i x) v
  | 0, _, _ => rfl
  | n + 1, lower, v => by
      rw [List.range'_succ, List.foldlM_cons, foriLoop]
      congr 1
      funext x
      exact foriLoop_eq body n (lower + 1) x

/-! ### GRAPE storages -/

variable {cast : CMat d → CMat d} {transfer : Bool} {U : List (CMat d)} {V : ℕ → CMat d}

/-- one forward step -/
def fstep (cast : CMat d → CMat d) (transfer : Bool) (V r : CMat d) : CMat d :=
  cast (if transfer then V * r * Vᴴ else V * r)

/-- one backward step -/
def bstep (cast : CMat d → CMat d) (transfer : Bool) (V c : CMat d) : CMat d :=
  cast (if transfer then Vᴴ * c * V else c * Vᴴ)

/-- forward trajectory -/
def fwd (cast : CMat d → CMat d) (transfer : Bool) (V : ℕ → CMat d) (r0 : CMat d) : ℕ → CMat d
  | 0 => r0
  | t + 1 => fstep cast transfer (V t) (fwd cast transfer V r0 t)

/-- backward trajectory, counted from the end `n` -/
def bwd (cast : CMat d → CMat d) (transfer : Bool) (V : ℕ → CMat d) (n : ℕ) (c0 : CMat d) : ℕ → CMat d
  | 0 => c0
  | s + 1 => bstep cast transfer (V (n - (s + 1))) (bwd cast transfer V n c0 s)

theorem forward_ok (hU : ∀ t < n, U[t]? = some (V t)) {st : List (CMat d)} {r0 : CMat d} (hl : n < st.length)
    (h0 : st[0]? = some r0) :
    ∃ st', grapeForward cast transfer U n st = .ok st' ∧ st'.length = st.length ∧
      (∀ t ≤ n, st'[t]? = some (fwd cast transfer V r0 t)) ∧ ∀ t, n < t → st'[t]? = st[t]? := by
  induction n with
  | zero => exact ⟨st, rfl, rfl, fun t ht => by obtain rfl : t = 0 := by omega
                                                exact h0, fun _ _ => rfl⟩
  | succ n ih =>
      obtain ⟨st', h1, h2, h3, h4⟩ := ih (fun t ht => hU t (by omega)) (by omega)
      refine ⟨st'.set (n + 1) (fwd cast transfer V r0 (n + 1)), ?_, by simp [h2], ?_, ?_⟩
      · unfold grapeForward at h1 ⊢
        rw [List.range_succ, foldlM_append_ok _ h1, getIdx_ok.2 (hU n (by omega))]
        show (getIdx st' n >>= fun r => _) = _
        rw [getIdx_ok.2 (h3 n le_rfl)]
        show setIdx st' (n + 1) _ = _
        unfold setIdx
        rw [if_pos (by omega)]
        rfl
      · intro t ht
        by_cases htn : t = n + 1
        · subst htn; rw [List.getElem?_set_self (by omega)]
        · rw [List.getElem?_set_ne (by omega)]; exact h3 t (by omega)
      · intro t ht
        rw [List.getElem?_set_ne (by omega)]; exact h4 t (by omega)

theorem backward_aux (hU : ∀ t < n, U[t]? = some (V t)) {st : List (CMat d)} {c0 : CMat d} (hl : n < st.length)
    (h0 : st[n]? = some c0) : ∀ m ≤ n,
    ∃ st', (List.range' (n - m) m).reverse.foldlM (fun st t => getIdx U t >>= fun V => getIdx st (t + 1) >>= fun c =>
        setIdx st t (cast (if transfer then Vᴴ * c * V else c * Vᴴ))) st = .ok st' ∧ st'.length = st.length ∧
      (∀ s ≤ m, st'[n - s]? = some (bwd cast transfer V n c0 s)) ∧ ∀ t, n < t → st'[t]? = st[t]? := by
  intro m
  induction m with
  | zero => exact fun _ => ⟨st, rfl, rfl, fun t ht => by obtain rfl : t = 0 := by omega
                                                         exact h0, fun _ _ => rfl⟩
  | succ m ih =>
      intro hm
      obtain ⟨st', h1, h2, h3, h4⟩ := ih (by omega)
      refine ⟨st'.set (n - (m + 1)) (bwd cast transfer V n c0 (m + 1)), ?_, by simp [h2], ?_, ?_⟩
      · rw [List.range'_succ, List.reverse_cons, show n - (m + 1) + 1 = n - m by omega, foldlM_append_ok _ h1,
          getIdx_ok.2 (hU (n - (m + 1)) (by omega))]
        show (getIdx st' (n - (m + 1) + 1) >>= fun r => _) = _
        rw [show n - (m + 1) + 1 = n - m by omega, getIdx_ok.2 (h3 m le_rfl)]
        show setIdx st' _ _ = _
        unfold setIdx
        rw [if_pos (by omega)]
        rfl
      · intro s hs
        by_cases hsm : s = m + 1
        · subst hsm; rw [List.getElem?_set_self (by omega)]
        · rw [List.getElem?_set_ne (by omega)]; exact h3 s (by omega)
      · intro t ht
        rw [List.getElem?_set_ne (by omega)]; exact h4 t (by omega)

theorem backward_ok (hU : ∀ t < n, U[t]? = some (V t)) {st : List (CMat d)} {c0 : CMat d} (hl : n < st.length)
    (h0 : st[n]? = some c0) :
    ∃ st', grapeBackward cast transfer U n st = .ok st' ∧ st'.length = st.length ∧
      (∀ s ≤ n, st'[n - s]? = some (bwd cast transfer V n c0 s)) ∧ ∀ t, n < t → st'[t]? = st[t]? := by
  obtain ⟨st', h1, h2⟩ := backward_aux (cast := cast) (transfer := transfer) hU hl h0 n le_rfl
  refine ⟨st', ?_, h2⟩
  unfold grapeBackward
  rw [List.range_eq_range']
  simpa using h1

theorem mapM_ok {α β : Type} (f : α → Py β) (g : α → β) : ∀ (l : List α), (∀ x ∈ l, f x = .ok (g x)) →
    l.mapM f = .ok (l.map g)
  | [], _ => rfl
  | x :: l, h => by
      rw [List.mapM_cons, h x (by simp), mapM_ok f g l fun y hy => h y (by simp [hy])]
      rfl

/-- everything `get_gradient` computes, in closed form -/
theorem gradient_ok {tg : List ℝ} {tend : ℝ} (htg : tg.getLast? = some tend) (hU : ∀ t < n, U[t]? = some (V t))
    {rho corho : List (CMat d)} {r0 c0 Bm : CMat d} (hr : n < rho.length) (hc : n < corho.length) (hr0 : rho[0]? = some r0)
    (hc0 : corho[n]? = some c0) :
    ∃ g rho' corho', grapeGradient cast transfer tg Bm n U rho corho = .ok (g, rho', corho') ∧
      rho'.length = rho.length ∧ corho'.length = corho.length ∧
      (∀ t ≤ n, rho'[t]? = some (fwd cast transfer V r0 t)) ∧
      (∀ t ≤ n, corho'[t]? = some (bwd cast transfer V n c0 (n - t))) ∧
      g.length = n ∧ ∀ t < n, g[t]? = some (if transfer then
        (Matrix.trace ((Complex.I * ((tend / tg.length : ℝ) : ℂ)) • (bwd cast transfer V n c0 (n - t))ᴴ *
          commutator Bm (fwd cast transfer V r0 t))).re else 0) := by
  obtain ⟨rho', h1, h2, h3, -⟩ := forward_ok (cast := cast) (transfer := transfer) hU hr hr0
  obtain ⟨corho', h5, h6, h7, -⟩ := backward_ok (cast := cast) (transfer := transfer) hU hc hc0
  have h7' : ∀ t ≤ n, corho'[t]? = some (bwd cast transfer V n c0 (n - t)) := fun t ht => by
    have := h7 (n - t) (by omega)
    rwa [show n - (n - t) = t by omega] at this
  have hdt : grapeDt tg = .ok (tend / tg.length) := by
    unfold grapeDt lastIdx
    rw [htg]; rfl
  obtain ⟨f, hf⟩ : ∃ f : ℕ → ℝ, f = fun t => if transfer then
        (Matrix.trace ((Complex.I * ((tend / tg.length : ℝ) : ℂ)) • (bwd cast transfer V n c0 (n - t))ᴴ *
          commutator Bm (fwd cast transfer V r0 t))).re else 0 := ⟨_, rfl⟩
  have hg : grapeEntries transfer (tend / tg.length) Bm n rho' corho' = .ok ((List.range n).map f) := by
    unfold grapeEntries
    refine mapM_ok _ _ _ fun t ht => ?_
    have ht' := List.mem_range.1 ht
    rw [hf]
    cases transfer
    · rfl
    · simp only [if_true]
      rw [getIdx_ok.2 (h7' t (by omega))]
      show (getIdx rho' t >>= fun r => _) = _
      rw [getIdx_ok.2 (h3 t (by omega))]
      rfl
  refine ⟨(List.range n).map f, rho', corho', ?_, h2, h6, h3, h7', by simp, ?_⟩
  · unfold grapeGradient
    rw [hdt]
    show (grapeForward _ _ _ _ _ >>= fun _ => _) = _
    rw [h1]
    show (grapeBackward _ _ _ _ _ >>= fun _ => _) = _
    rw [h5]
    show (grapeEntries _ _ _ _ _ _ >>= fun _ => _) = _
    rw [hg]
    rfl
  · intro t ht
    rw [List.getElem?_map, List.getElem?_range ht, hf]
    rfl

end TE
end QuOCS
