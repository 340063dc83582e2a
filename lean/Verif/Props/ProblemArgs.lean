/-
C116. What the control problems of the library read from their dictionary of arguments.
-/
import Verif.Model.ProblemArgs
import Verif.Props.ScriptArgs
import Verif.Props.Problems

set_option linter.unusedSectionVars false
set_option linter.unusedVariables false

namespace QuOCS
open Matrix

/-- The truth value `b` is what the dictionary says about `key`: the entry, or `False` if there is none. -/
def SaysFlag (d : PDict) (key : String) (b : Bool) : Prop := d.get? key = some (.bool b) ∨ d.get? key = none ∧ b = false

/-- The text `s` is what the dictionary says about `key`: the entry, or the default if there is none. -/
def SaysText (d : PDict) (key default s : String) : Prop := d.get? key = some (.str s) ∨ d.get? key = none ∧ s = default

/-- Every entry of `d` is an entry of `e`. -/
def KeepsEntries (d e : PDict) : Prop := ∀ k v, d.get? k = some v → e.get? k = some v

/-- How Python reads the default states. -/
structure ReadsDefaults (ev : String → Py Ket) : Prop where
  target : ev "[1.0/np.sqrt(2), -1j/np.sqrt(2)]" = .ok ![1 / (Real.sqrt 2 : ℂ), -Complex.I / (Real.sqrt 2 : ℂ)]
  initial : ev "[1.0, 0.0]" = .ok ![1, 0]

namespace ProblemArgs
open ScriptArgs

/-- A reader of settings whose result is not changed by the defaults it fills in, nor by later entries. -/
def Settled {α : Type} (m : Prog PDict α) : Prop := ∀ d a d', m d = (.ok a, d') → KeepsEntries d d' ∧ ∀ e, KeepsEntries d' e → m e = (.ok a, e)

theorem settled_setdefault (k : String) (v : PVal) : Settled (setdefault k v) := by
  intro d a d' h
  unfold setdefault at h
  split at h
  · next w hw =>
    obtain ⟨h1, rfl⟩ := Prod.mk.inj h
    obtain rfl := Except.ok.inj h1
    exact ⟨fun _ _ h => h, fun e he => by unfold setdefault; rw [he _ _ hw]⟩
  · next hn =>
    obtain ⟨h1, rfl⟩ := Prod.mk.inj h
    obtain rfl := Except.ok.inj h1
    refine ⟨fun j w hj => ?_, fun e he => ?_⟩
    · rw [get?_insert, if_neg (fun e => by rw [e, hn] at hj; cases hj)]; exact hj
    · unfold setdefault
      rw [he k v (by rw [get?_insert, if_pos rfl])]

theorem settled_lift {α : Type} (x : Py α) : Settled (Prog.lift x : Prog PDict α) := by
  intro d a d' h
  rw [Prog.lift_apply] at h
  obtain ⟨rfl, rfl⟩ := Prod.mk.inj h
  exact ⟨fun _ _ h => h, fun e _ => rfl⟩

theorem settled_pure {α : Type} (a : α) : Settled (pure a : Prog PDict α) := by
  intro d b d' h
  obtain ⟨h1, rfl⟩ := Prod.mk.inj h
  obtain rfl := Except.ok.inj h1
  exact ⟨fun _ _ h => h, fun e _ => rfl⟩

theorem settled_bind {α β : Type} {m : Prog PDict α} {f : α → Prog PDict β} (hm : Settled m) (hf : ∀ a, Settled (f a)) : Settled (m >>= f) := by
  intro d b d' h
  rw [Prog.bind_apply] at h
  rcases hmd : m d with ⟨e | a, d1⟩
  · rw [hmd] at h
    obtain ⟨h1, -⟩ := Prod.mk.inj h
    cases h1
  · rw [hmd] at h
    obtain ⟨h1, h2⟩ := hm _ _ _ hmd
    obtain ⟨h3, h4⟩ := hf a _ _ _ h
    refine ⟨fun k v hk => h3 k v (h1 k v hk), fun e he => ?_⟩
    rw [bind_run (h2 e fun k v hk => he k v (h3 k v hk))]
    exact h4 e he

theorem settled_num (k : String) (v : ℚ) : Settled (numSetting k v) := settled_bind (settled_setdefault _ _) fun _ => settled_lift _
theorem settled_flag (k : String) : Settled (flagSetting k) := settled_bind (settled_setdefault _ _) fun _ => settled_pure _
theorem settled_state (ev : String → Py Ket) (k v : String) : Settled (stateSetting ev k v) :=
  settled_bind (settled_setdefault _ _) fun x => by split <;> exact settled_lift _

theorem settled_one (ev : String → Py Ket) : Settled (oneQubitArgs ev) :=
  settled_bind (settled_state _ _ _) fun _ => settled_bind (settled_state _ _ _) fun _ => settled_bind (settled_num _ _) fun _ =>
  settled_bind (settled_num _ _) fun _ => settled_bind (settled_flag _) fun _ => settled_bind (settled_num _ _) fun _ =>
  settled_bind (settled_flag _) fun _ => settled_bind (settled_num _ _) fun _ => settled_bind (settled_num _ _) fun _ => settled_pure _

theorem settled_two (ev : String → Py Ket) : Settled (twoFieldsArgs ev) :=
  settled_bind (settled_state _ _ _) fun _ => settled_bind (settled_state _ _ _) fun _ => settled_bind (settled_num _ _) fun _ =>
  settled_bind (settled_num _ _) fun _ => settled_bind (settled_flag _) fun _ => settled_bind (settled_num _ _) fun _ => settled_pure _

theorem settled_rosenbrock : Settled rosenbrockArgs :=
  settled_bind (settled_flag _) fun _ => settled_bind (settled_num _ _) fun _ => settled_pure _

/-! what reading one setting does -/

/-- the entries under other names stay -/
def Only (key : String) (d d' : PDict) : Prop := ∀ other, other ≠ key → d'.get? other = d.get? other

theorem flag_says {d : PDict} {key : String} {b : Bool} (h : SaysFlag d key b) : ∃ d', flagSetting key d = (.ok b, d') ∧ Only key d d' := by
  rcases h with h | ⟨h, rfl⟩
  · exact ⟨d, by unfold flagSetting; rw [bind_run (val_arg h)]; rfl, fun _ _ => rfl⟩
  · refine ⟨d.insert key (.bool false), ?_, fun other ho => by rw [get?_insert, if_neg ho]⟩
    unfold flagSetting
    rw [bind_run (s' := d.insert key (.bool false)) (a := .bool false) (by unfold setdefault; rw [h])]
    rfl

theorem state_says {ev : String → Py Ket} {d : PDict} {key v s : String} {psi : Ket} (h : SaysText d key v s) (he : ev s = .ok psi) :
    ∃ d', stateSetting ev key v d = (.ok psi, d') ∧ Only key d d' := by
  rcases h with h | ⟨h, rfl⟩
  · refine ⟨d, ?_, fun _ _ => rfl⟩
    unfold stateSetting
    rw [bind_run (val_arg h)]
    show Prog.lift (ev s) d = _
    rw [he]; rfl
  · refine ⟨d.insert key (.str s), ?_, fun other ho => by rw [get?_insert, if_neg ho]⟩
    unfold stateSetting
    rw [bind_run (s' := d.insert key (.str s)) (a := .str s) (by unfold setdefault; rw [h])]
    show Prog.lift (ev s) _ = _
    rw [he]; rfl

theorem _root_.QuOCS.Says.move {d d' : PDict} {key : String} {v w : ℚ} (h : Says d key v w) (e : d'.get? key = d.get? key) : Says d' key v w := by
  unfold Says at *; rwa [e]
theorem _root_.QuOCS.SaysFlag.move {d d' : PDict} {key : String} {b : Bool} (h : SaysFlag d key b) (e : d'.get? key = d.get? key) : SaysFlag d' key b := by
  unfold SaysFlag at *; rwa [e]
theorem _root_.QuOCS.SaysText.move {d d' : PDict} {key v s : String} (h : SaysText d key v s) (e : d'.get? key = d.get? key) : SaysText d' key v s := by
  unfold SaysText at *; rwa [e]

end ProblemArgs
open ProblemArgs ScriptArgs

section
variable {ev : String → Py Ket} {d : PDict} {s1 s2 : String} {t i : Ket} {delta1 delta2 factor slope opt : ℚ} {noisy drift : Bool}

/-- **C116** (one qubit). The one-qubit problem has the states, numbers and switches of the dictionary, and the documented defaults where there is no
entry; it starts with an empty list of figures of merit. -/
theorem C116_one_qubit (h1 : SaysText d "target_state" "[1.0/np.sqrt(2), -1j/np.sqrt(2)]" s1) (e1 : ev s1 = .ok t)
    (h2 : SaysText d "initial_state" "[1.0, 0.0]" s2) (e2 : ev s2 = .ok i) (h3 : Says d "delta1" (1 / 10) delta1) (h4 : Says d "delta2" (1 / 10) delta2)
    (h5 : SaysFlag d "is_noisy" noisy) (h6 : Says d "noise_factor" (1 / 20) factor) (h7 : SaysFlag d "include_drift" drift)
    (h8 : Says d "linear_drift_val_over_iteration" (1 / 500) slope) (h9 : Says d "optimization_factor" (-1) opt) :
    oneQubitInit ev (some d) = .ok {
      target := t, psi0 := i, delta1 := delta1, delta2 := delta2, isNoisy := noisy, noiseFactor := factor,
      includeDrift := drift, driftSlope := slope, optFactor := opt, fomList := [], evalNumber := 0 } := by
  unfold oneQubitInit oneQubitArgs
  dsimp only
  obtain ⟨d1, r1, k1⟩ := state_says h1 e1
  rw [show defaultTarget = "[1.0/np.sqrt(2), -1j/np.sqrt(2)]" from rfl, bind_run r1]
  obtain ⟨d2, r2, k2⟩ := state_says (h2.move (k1 _ (by decide))) e2
  have k2 : ∀ x, x ≠ "target_state" → x ≠ "initial_state" → d2.get? x = d.get? x := fun x a b => (k2 x b).trans (k1 x a)
  rw [show defaultInitial = "[1.0, 0.0]" from rfl, bind_run r2]
  obtain ⟨d3, r3, k3⟩ := num_says (h3.move (k2 _ (by decide) (by decide)))
  rw [bind_run r3]
  obtain ⟨d4, r4, k4⟩ := num_says (h4.move ((k3 _ (by decide)).trans (k2 _ (by decide) (by decide))))
  rw [bind_run r4]
  have k4 : ∀ x, x ≠ "target_state" → x ≠ "initial_state" → x ≠ "delta1" → x ≠ "delta2" → d4.get? x = d.get? x :=
    fun x a b c e => (k4 x e).trans ((k3 x c).trans (k2 x a b))
  obtain ⟨d5, r5, k5⟩ := flag_says (h5.move (k4 _ (by decide) (by decide) (by decide) (by decide)))
  rw [bind_run r5]
  obtain ⟨d6, r6, k6⟩ := num_says (h6.move ((k5 _ (by decide)).trans (k4 _ (by decide) (by decide) (by decide) (by decide))))
  rw [bind_run r6]
  obtain ⟨d7, r7, k7⟩ := flag_says (h7.move ((k6 _ (by decide)).trans ((k5 _ (by decide)).trans (k4 _ (by decide) (by decide) (by decide) (by decide)))))
  rw [bind_run r7]
  obtain ⟨d8, r8, k8⟩ := num_says (h8.move ((k7 _ (by decide)).trans ((k6 _ (by decide)).trans ((k5 _ (by decide)).trans
    (k4 _ (by decide) (by decide) (by decide) (by decide))))))
  rw [bind_run r8]
  obtain ⟨d9, r9, k9⟩ := num_says (h9.move ((k8 _ (by decide)).trans ((k7 _ (by decide)).trans ((k6 _ (by decide)).trans ((k5 _ (by decide)).trans
    (k4 _ (by decide) (by decide) (by decide) (by decide)))))))
  rw [bind_run r9]
  rfl

/-- **C116** (two fields). The same for the problem with two fields. -/
theorem C116_two_fields (h1 : SaysText d "target_state" "[1.0/np.sqrt(2), -1j/np.sqrt(2)]" s1) (e1 : ev s1 = .ok t)
    (h2 : SaysText d "initial_state" "[1.0, 0.0]" s2) (e2 : ev s2 = .ok i) (h3 : Says d "delta1" (1 / 10) delta1) (h4 : Says d "delta2" (1 / 10) delta2)
    (h5 : SaysFlag d "is_noisy" noisy) (h6 : Says d "noise_factor" (1 / 20) factor) :
    twoFieldsInit ev (some d) = .ok { target := t, psi0 := i, delta1 := delta1, delta2 := delta2, isNoisy := noisy, noiseFactor := factor } := by
  unfold twoFieldsInit twoFieldsArgs
  dsimp only
  obtain ⟨d1, r1, k1⟩ := state_says h1 e1
  rw [show defaultTarget = "[1.0/np.sqrt(2), -1j/np.sqrt(2)]" from rfl, bind_run r1]
  obtain ⟨d2, r2, k2⟩ := state_says (h2.move (k1 _ (by decide))) e2
  have k2 : ∀ x, x ≠ "target_state" → x ≠ "initial_state" → d2.get? x = d.get? x := fun x a b => (k2 x b).trans (k1 x a)
  rw [show defaultInitial = "[1.0, 0.0]" from rfl, bind_run r2]
  obtain ⟨d3, r3, k3⟩ := num_says (h3.move (k2 _ (by decide) (by decide)))
  rw [bind_run r3]
  obtain ⟨d4, r4, k4⟩ := num_says (h4.move ((k3 _ (by decide)).trans (k2 _ (by decide) (by decide))))
  rw [bind_run r4]
  have k4 : ∀ x, x ≠ "target_state" → x ≠ "initial_state" → x ≠ "delta1" → x ≠ "delta2" → d4.get? x = d.get? x :=
    fun x a b c e => (k4 x e).trans ((k3 x c).trans (k2 x a b))
  obtain ⟨d5, r5, k5⟩ := flag_says (h5.move (k4 _ (by decide) (by decide) (by decide) (by decide)))
  rw [bind_run r5]
  obtain ⟨d6, r6, k6⟩ := num_says (h6.move ((k5 _ (by decide)).trans (k4 _ (by decide) (by decide) (by decide) (by decide))))
  rw [bind_run r6]
  rfl

/-- **C116, partial** (Rosenbrock). The same for the Rosenbrock problem. Missing: no dictionary at all, see below. -/
theorem C116_rosenbrock_partial (h5 : SaysFlag d "is_noisy" noisy) (h6 : Says d "noise_factor" (1 / 20) factor) :
    rosenbrockInit (some d) = .ok (noisy, (factor : ℝ)) := by
  unfold rosenbrockInit rosenbrockArgs
  dsimp only
  obtain ⟨d5, r5, k5⟩ := flag_says h5
  rw [bind_run r5]
  obtain ⟨d6, r6, k6⟩ := num_says (h6.move (k5 _ (by decide)))
  rw [bind_run r6]
  rfl

/-- **C116 is violated by the Rosenbrock problem** (RosenbrockProblem.py:27, 33): although the argument has the default `None`, the problem cannot be created
without a dictionary; with an empty one it can. -/
theorem C116_rosenbrock_needs_dictionary : rosenbrockInit none = .error .attributeError ∧ rosenbrockInit (some .nil) = .ok (false, 1 / 20) := by
  refine ⟨rfl, ?_⟩
  rw [C116_rosenbrock_partial (noisy := false) (factor := 1 / 20) (.inr ⟨rfl, rfl⟩) (.inr ⟨rfl, rfl⟩)]
  norm_num

/-- **C116** (same dictionary again). For every dictionary, also with entries of unexpected types: if a problem can be created, all entries of the user are
kept, and a second problem of the same kind that is created from the dictionary, which has the defaults now, is the same and does not change the dictionary
any more. -/
theorem C116_dictionary_can_be_used_again :
    (∀ o d', oneQubitArgs ev d = (.ok o, d') → KeepsEntries d d' ∧ oneQubitArgs ev d' = (.ok o, d')) ∧
    (∀ o d', twoFieldsArgs ev d = (.ok o, d') → KeepsEntries d d' ∧ twoFieldsArgs ev d' = (.ok o, d')) ∧
    (∀ o d', rosenbrockArgs d = (.ok o, d') → KeepsEntries d d' ∧ rosenbrockArgs d' = (.ok o, d')) := by
  refine ⟨fun o d' h => ?_, fun o d' h => ?_, fun o d' h => ?_⟩
  · exact ⟨(settled_one ev _ _ _ h).1, (settled_one ev _ _ _ h).2 d' fun _ _ h => h⟩
  · exact ⟨(settled_two ev _ _ _ h).1, (settled_two ev _ _ _ h).2 d' fun _ _ h => h⟩
  · exact ⟨(settled_rosenbrock _ _ _ h).1, (settled_rosenbrock _ _ _ h).2 d' fun _ _ h => h⟩

end

theorem default_target_unit : IsUnitKet ![1 / (Real.sqrt 2 : ℂ), -Complex.I / (Real.sqrt 2 : ℂ)] := by
  unfold IsUnitKet
  rw [Fin.sum_univ_two]
  simp only [Matrix.cons_val_zero, Matrix.cons_val_one, norm_div, norm_neg, Complex.norm_I, norm_one, Complex.norm_real, Real.norm_eq_abs, div_pow, sq_abs,
    Real.sq_sqrt (by norm_num : (0 : ℝ) ≤ 2)]
  norm_num

theorem default_initial_unit : IsUnitKet ![1, 0] := by
  unfold IsUnitKet
  rw [Fin.sum_univ_two]
  simp

/-- **C116** (defaults of the one-qubit problem). Without arguments the one-qubit problem can be created, and its figure of merit is the infidelity of the
state reached from |0> with the state (|0> - i|1>)/√2, between 0 and 1, for every pulse, parameter and time grid. -/
theorem C116_one_qubit_without_arguments {ev : String → Py Ket} (h : ReadsDefaults ev) :
    ∃ o, oneQubitInit ev none = .ok o ∧ o.delta1 = 1 / 10 ∧ o.delta2 = 1 / 10 ∧
      ∀ (rand t0 t1 : ℝ) (drive params ts : List ℝ) (ps gs : List (List ℝ)), ∃ f,
        (oneQubitFoM NormedSpace.exp rand (drive :: ps) params ((t0 :: t1 :: ts) :: gs) o).1 = .ok ⟨f, 1e-4⟩ ∧
        f = 1 - transition ![1 / (Real.sqrt 2 : ℂ), -Complex.I / (Real.sqrt 2 : ℂ)] (qubitPropagator o drive params (t1 - t0) *ᵥ ![1, 0]) ∧
        0 ≤ f ∧ f ≤ 1 := by
  have h0 := C116_one_qubit (ev := ev) (d := .nil) (noisy := false) (drift := false) (delta1 := 1 / 10) (delta2 := 1 / 10) (factor := 1 / 20)
    (slope := 1 / 500) (opt := -1) (.inr ⟨rfl, rfl⟩) h.target (.inr ⟨rfl, rfl⟩) h.initial (.inr ⟨rfl, rfl⟩) (.inr ⟨rfl, rfl⟩) (.inr ⟨rfl, rfl⟩)
    (.inr ⟨rfl, rfl⟩) (.inr ⟨rfl, rfl⟩) (.inr ⟨rfl, rfl⟩) (.inr ⟨rfl, rfl⟩)
  refine ⟨_, h0, by norm_num, by norm_num, fun rand t0 t1 drive params ts ps gs => ?_⟩
  have h1 := C63_is_infidelity (rand := rand) (drive := drive) (ps := ps) (params := params) (t0 := t0) (t1 := t1) (ts := ts) (gs := gs)
    (o := ⟨![1 / (Real.sqrt 2 : ℂ), -Complex.I / (Real.sqrt 2 : ℂ)], ![1, 0], ((1 / 10 : ℚ) : ℝ), ((1 / 10 : ℚ) : ℝ), false, ((1 / 20 : ℚ) : ℝ), false,
      ((1 / 500 : ℚ) : ℝ), ((-1 : ℚ) : ℝ), [], 0⟩) rfl rfl default_target_unit default_initial_unit
  have a := Ket.transition_nonneg ![1 / (Real.sqrt 2 : ℂ), -Complex.I / (Real.sqrt 2 : ℂ)]
    (qubitPropagator ⟨![1 / (Real.sqrt 2 : ℂ), -Complex.I / (Real.sqrt 2 : ℂ)], ![1, 0], ((1 / 10 : ℚ) : ℝ), ((1 / 10 : ℚ) : ℝ), false, ((1 / 20 : ℚ) : ℝ),
      false, ((1 / 500 : ℚ) : ℝ), ((-1 : ℚ) : ℝ), [], 0⟩ drive params (t1 - t0) *ᵥ ![1, 0])
  have b := Ket.transition_le_one default_target_unit (Ket.unit_mulVec (qubitPropagator_unitary ⟨![1 / (Real.sqrt 2 : ℂ), -Complex.I / (Real.sqrt 2 : ℂ)],
      ![1, 0], ((1 / 10 : ℚ) : ℝ), ((1 / 10 : ℚ) : ℝ), false, ((1 / 20 : ℚ) : ℝ), false, ((1 / 500 : ℚ) : ℝ), ((-1 : ℚ) : ℝ), [], 0⟩ drive params (t1 - t0))
      default_initial_unit)
  have e : -((-1 : ℚ) : ℝ) = 1 := by norm_num
  dsimp only at h1
  rw [e, one_mul] at h1
  exact ⟨_, h1, rfl, by linarith, by linarith⟩

/-- There are readers of states as assumed, and a dictionary with a switch, a number and a state says what is expected. -/
example : ReadsDefaults (fun s => if s = "[1.0, 0.0]" then .ok ![1, 0] else .ok ![1 / (Real.sqrt 2 : ℂ), -Complex.I / (Real.sqrt 2 : ℂ)]) ∧
    SaysFlag (dictOf [("is_noisy", .bool true), ("delta1", .num 3), ("initial_state", .str "[0.0, 1.0]")]) "is_noisy" true ∧
    Says (dictOf [("is_noisy", .bool true), ("delta1", .num 3), ("initial_state", .str "[0.0, 1.0]")]) "delta1" (1 / 10) 3 ∧
    SaysText (dictOf [("is_noisy", .bool true), ("delta1", .num 3), ("initial_state", .str "[0.0, 1.0]")]) "initial_state" "[1.0, 0.0]" "[0.0, 1.0]" ∧
    Says (dictOf [("is_noisy", .bool true)]) "delta1" (1 / 10) (1 / 10) ∧
    (rosenbrockArgs (dictOf [("noise_factor", .num 3)])).1 = .ok (false, ((3 : ℚ) : ℝ)) :=
  ⟨⟨by simp, by simp⟩, .inl rfl, .inl rfl, .inl rfl, .inr ⟨rfl, rfl⟩, rfl⟩

end QuOCS
