/-
C107 (settings). What the figures of merit in `Examples/` read from the dictionary of arguments.
-/
import Verif.Props.ScriptsFoM

set_option linter.unusedSectionVars false
set_option linter.unusedVariables false

namespace QuOCS

/-- The number `v` is what the dictionary says about `key`: the entry, or the default if there is none. -/
def Says (d : PDict) (key : String) (default v : ℚ) : Prop :=
  d.get? key = some (.num v) ∨ d.get? key = none ∧ v = default

namespace ScriptArgs

theorem says_other {d d' : PDict} {key other : String} {v w : ℚ} (h : Says d other v w) (hne : other ≠ key)
    (hd : d'.get? other = d.get? other) : Says d' other v w := by
  unfold Says at *
  rwa [hd]

/-- what reading one number does -/
theorem num_says {d : PDict} {key : String} {v w : ℚ} (h : Says d key v w) :
    ∃ d', numSetting key v d = (.ok w, d') ∧ ∀ other, other ≠ key → d'.get? other = d.get? other := by
  rcases h with h | ⟨h, rfl⟩
  · exact ⟨d, num_arg h, fun _ _ => rfl⟩
  · refine ⟨d.insert key (.num w), ?_, fun other ho => by rw [get?_insert, if_neg ho]⟩
    unfold numSetting
    rw [bind_run (s' := d.insert key (.num w)) (a := .num w) (by unfold setdefault; rw [h])]
    rfl

theorem count_says {d : PDict} {key : String} {v : ℚ} {m n : ℕ} (hv : v = m) (h : Says d key v n) :
    ∃ d', (setdefault key (.num v) >>= fun v => Prog.lift (countOf v) : Prog PDict ℕ) d = (.ok n, d') ∧
      ∀ other, other ≠ key → d'.get? other = d.get? other := by
  rcases h with h | ⟨h, h2⟩
  · exact ⟨d, count_arg h, fun _ _ => rfl⟩
  · exact ⟨_, count_default h2.symm h, fun other ho => by rw [get?_insert, if_neg ho]⟩

theorem val_says {d : PDict} {key : String} {v w : ℚ} (h : Says d key v w) :
    ∃ d', setdefault key (.num v) d = (.ok (.num w), d') ∧ ∀ other, other ≠ key → d'.get? other = d.get? other := by
  rcases h with h | ⟨h, rfl⟩
  · exact ⟨d, val_arg h, fun _ _ => rfl⟩
  · exact ⟨d.insert key (.num w), by unfold setdefault; rw [h], fun other ho => by rw [get?_insert, if_neg ho]⟩

end ScriptArgs
open ScriptArgs

section
variable {d : PDict} {q n : ℕ} {J g seed width stdev gamma E : ℚ}

/-- **C107** (settings). For every dictionary of arguments: the ring of spins has the numbers in the dictionary, and where there is no entry five
qubits, `J = 1`, `g = 2`, 100 slices, no noise, no variation and the standard deviation 1/10. There is noise exactly if the seed is not zero. -/
theorem C107_settings (hq : Says d "n_qubits" 5 q) (hJ : Says d "J" 1 J) (hg : Says d "g" 2 g) (hn : Says d "n_slices" 100 n)
    (hs : Says d "g_seed" 0 seed) (hw : Says d "g_variation" 0 width) (hd : Says d "stdev" (1 / 10) stdev) :
    ∃ s : ExIsingSettings, (exIsingArgs d).1 = .ok s ∧ s.qubits = q ∧ s.J = J ∧ s.g = g ∧ s.slices = n ∧ (s.noisy = true ↔ seed ≠ 0) ∧
      s.gVariation = width ∧ s.stdev = stdev := by
  unfold exIsingArgs
  obtain ⟨d1, h1, k1⟩ := count_says (m := 5) (by norm_num) hq
  rw [bind_run h1]
  obtain ⟨d2, h2, k2⟩ := num_says (d := d1) (says_other (key := "n_qubits") hJ (by decide) (k1 _ (by decide)))
  rw [bind_run h2]
  obtain ⟨d3, h3, k3⟩ := num_says (d := d2) (says_other (key := "n_qubits") hg (by decide) ((k2 _ (by decide)).trans (k1 _ (by decide))))
  rw [bind_run h3]
  obtain ⟨d4, h4, k4⟩ := count_says (m := 100) (by norm_num) (d := d3) (says_other (key := "n_qubits") hn (by decide)
    ((k3 _ (by decide)).trans ((k2 _ (by decide)).trans (k1 _ (by decide)))))
  rw [bind_run h4]
  obtain ⟨d5, h5, k5⟩ := val_says (d := d4) (says_other (key := "n_qubits") hs (by decide)
    ((k4 _ (by decide)).trans ((k3 _ (by decide)).trans ((k2 _ (by decide)).trans (k1 _ (by decide))))))
  rw [bind_run h5]
  obtain ⟨d6, h6, k6⟩ := num_says (d := d5) (says_other (key := "n_qubits") hw (by decide)
    ((k5 _ (by decide)).trans ((k4 _ (by decide)).trans ((k3 _ (by decide)).trans ((k2 _ (by decide)).trans (k1 _ (by decide)))))))
  rw [bind_run h6]
  obtain ⟨d7, h7, k7⟩ := num_says (d := d6) (says_other (key := "n_qubits") hd (by decide)
    ((k6 _ (by decide)).trans ((k5 _ (by decide)).trans ((k4 _ (by decide)).trans ((k3 _ (by decide)).trans ((k2 _ (by decide)).trans
      (k1 _ (by decide))))))))
  rw [bind_run h7]
  refine ⟨_, rfl, rfl, rfl, rfl, rfl, ?_, rfl, rfl⟩
  simp [equalsZero]

/-- **C107** (settings, automatic differentiation). The same for the variant for automatic differentiation, which has no noise. -/
theorem C107_settings_automatic_differentiation (hq : Says d "n_qubits" 5 q) (hJ : Says d "J" 1 J) (hg : Says d "g" 2 g) (hn : Says d "n_slices" 100 n) :
    ∃ s : ExIsingSettings, (exIsingArgsAD d).1 = .ok s ∧ s.qubits = q ∧ s.J = J ∧ s.g = g ∧ s.slices = n := by
  unfold exIsingArgsAD
  obtain ⟨d1, h1, k1⟩ := count_says (m := 5) (by norm_num) hq
  rw [bind_run h1]
  obtain ⟨d2, h2, k2⟩ := num_says (d := d1) (says_other (key := "n_qubits") hJ (by decide) (k1 _ (by decide)))
  rw [bind_run h2]
  obtain ⟨d3, h3, k3⟩ := num_says (d := d2) (says_other (key := "n_qubits") hg (by decide) ((k2 _ (by decide)).trans (k1 _ (by decide))))
  rw [bind_run h3]
  obtain ⟨d4, h4, k4⟩ := count_says (m := 100) (by norm_num) (d := d3) (says_other (key := "n_qubits") hn (by decide)
    ((k3 _ (by decide)).trans ((k2 _ (by decide)).trans (k1 _ (by decide)))))
  rw [bind_run h4]
  exact ⟨_, rfl, rfl, rfl, rfl, rfl⟩

/-- **C105** (settings). The ring of spins with dephasing has the numbers in the dictionary, and where there is no entry two qubits, `J = 1`, `g = 2`
and the rate 1/10. -/
theorem C105_settings (hq : Says d "n_qubits" 2 q) (hJ : Says d "J" 1 J) (hg : Says d "g" 2 g) (hr : Says d "gamma_dephase" (1 / 10) gamma) :
    (openIsingArgs d).1 = .ok (q, (J : ℝ), (g : ℝ), (gamma : ℝ)) := by
  unfold openIsingArgs
  obtain ⟨d1, h1, k1⟩ := count_says (m := 2) (by norm_num) hq
  rw [bind_run h1]
  obtain ⟨d2, h2, k2⟩ := num_says (d := d1) (says_other (key := "n_qubits") hJ (by decide) (k1 _ (by decide)))
  rw [bind_run h2]
  obtain ⟨d3, h3, k3⟩ := num_says (d := d2) (says_other (key := "n_qubits") hg (by decide) ((k2 _ (by decide)).trans (k1 _ (by decide))))
  rw [bind_run h3]
  obtain ⟨d4, h4, k4⟩ := num_says (d := d3) (says_other (key := "n_qubits") hr (by decide)
    ((k3 _ (by decide)).trans ((k2 _ (by decide)).trans (k1 _ (by decide)))))
  rw [bind_run h4]
  rfl

/-- **C104** (settings). The qubit with decay has the numbers in the dictionary, and where there is no entry the energy 1 and the rate 1/10. -/
theorem C104_settings (hE : Says d "E" 1 E) (hr : Says d "gamma_decay" (1 / 10) gamma) : (tlsArgs d).1 = .ok ((E : ℝ), (gamma : ℝ)) := by
  unfold tlsArgs
  obtain ⟨d1, h1, k1⟩ := num_says hr
  rw [bind_run h1]
  obtain ⟨d2, h2, k2⟩ := num_says (d := d1) (says_other (key := "gamma_decay") hE (by decide) (k1 _ (by decide)))
  rw [bind_run h2]
  rfl

end

/-- The empty dictionary gives the defaults, an entry replaces one of them. -/
example : Says (dictOf []) "n_qubits" 5 (5 : ℕ) ∧ Says (dictOf [("g", .num 3)]) "g" 2 3 ∧ Says (dictOf [("g", .num 3)]) "n_slices" 100 (100 : ℕ) ∧
    Says (dictOf [("g_seed", .num 7)]) "g_seed" 0 7 ∧ ¬ Says (dictOf [("g", .num 3)]) "g" 2 2 := by
  refine ⟨Or.inr ⟨rfl, by norm_num⟩, Or.inl rfl, Or.inr ⟨rfl, by norm_num⟩, Or.inl rfl, ?_⟩
  rintro (h | ⟨h, -⟩)
  · have h' : (some (PVal.num 3) : Option PVal) = some (.num 2) := h
    simp at h'
  · have h' : (some (PVal.num 3) : Option PVal) = none := h
    cases h'

end QuOCS
