/-
C108. What the figures of merit of the scripts in `Examples/` compute from the pulses.
-/
import Verif.Props.Scripts
import Verif.Props.Lindblad
import Verif.Props.IsingLindblad

set_option linter.unusedSectionVars false
set_option linter.unusedVariables false

namespace QuOCS
open Matrix IsingL Density IsingX

section
variable {n : ℕ} {A T : ℚ}

theorem bind_run {S α β : Type} {m : Prog S α} {f : α → Prog S β} {s s' : S} {a : α} (h : m s = (.ok a, s')) : (m >>= f) s = f a s' := by
  show Prog.bind m f s = _
  unfold Prog.bind
  rw [h]

theorem count_arg {d : PDict} {k : String} {v : PVal} (h : d.get? k = some (.num n)) :
    (setdefault k v >>= fun v => Prog.lift (countOf v) : Prog PDict ℕ) d = (.ok n, d) := by
  rw [bind_run (s' := d) (a := .num n) (by unfold setdefault; rw [h])]
  unfold Prog.lift
  rw [countOf_go]

theorem count_default {d : PDict} {k : String} {m : ℕ} {q : ℚ} (hq : q = m) (h : d.get? k = none) :
    (setdefault k (.num q) >>= fun v => Prog.lift (countOf v) : Prog PDict ℕ) d = (.ok m, d.insert k (.num m)) := by
  subst hq
  rw [bind_run (s' := d.insert k (.num m)) (a := .num m) (by unfold setdefault; rw [h])]
  unfold Prog.lift
  rw [countOf_go]

theorem num_arg {d : PDict} {k : String} {v q : ℚ} (h : d.get? k = some (.num q)) : numSetting k v d = (.ok q, d) := by
  unfold numSetting
  rw [bind_run (s' := d) (a := .num q) (by unfold setdefault; rw [h])]
  rfl

theorem val_arg {d : PDict} {k : String} {v w : PVal} (h : d.get? k = some w) : setdefault k v d = (.ok w, d) := by
  unfold setdefault
  rw [h]

/-- The figure of merit of execute_GRAPE.py uses the number of slices of the script. -/
theorem grape_args : (exIsingArgs (grapeArgs n)).1 =
    .ok { qubits := 5, J := ((1 : ℚ) : ℝ), g := ((2 : ℚ) : ℝ), slices := n, noisy := false, gVariation := ((1 : ℚ) : ℝ), stdev := ((1 / 10 : ℚ) : ℝ) } := by
  unfold exIsingArgs
  rw [bind_run (count_arg (n := 5) rfl), bind_run (num_arg (q := 1) rfl), bind_run (num_arg (q := 2) rfl), bind_run (count_arg (n := n) rfl),
    bind_run (val_arg (w := .num 0) rfl), bind_run (num_arg (q := 1) rfl), bind_run (num_arg (q := 1 / 10) rfl)]
  rfl

/-- The figure of merit of execute_dCRAB.py does not find the number of slices and uses the default 100. -/
theorem dcrab_args : (exIsingArgs (dcrabArgs n)).1 =
    .ok { qubits := 5, J := ((1 : ℚ) : ℝ), g := ((2 : ℚ) : ℝ), slices := 100, noisy := true, gVariation := ((3 / 10 : ℚ) : ℝ),
          stdev := ((1 / 1000 : ℚ) : ℝ) } := by
  unfold exIsingArgs
  rw [bind_run (count_arg (n := 5) rfl), bind_run (num_arg (q := 1) rfl), bind_run (num_arg (q := 2) rfl), bind_run (count_default (m := 100) (by norm_num) rfl),
    bind_run (val_arg (w := .num 123) rfl), bind_run (num_arg (q := 3 / 10) rfl), bind_run (num_arg (q := 1 / 1000) rfl)]
  have : equalsZero (.num 123) = false := by simp [equalsZero]
  rw [this]
  rfl

/-- The figure of merit of execute_AD.py and execute_AD_Fourier.py uses the number of slices of the script. -/
theorem ad_args : (exIsingArgsAD (adArgs 5 n)).1 =
    .ok { qubits := 5, J := ((1 : ℚ) : ℝ), g := ((2 : ℚ) : ℝ), slices := n, noisy := false, gVariation := 0, stdev := 0 } := by
  unfold exIsingArgsAD
  rw [bind_run (count_arg (n := 5) rfl), bind_run (num_arg (q := 1) rfl), bind_run (num_arg (q := 2) rfl), bind_run (count_arg (n := n) rfl)]
  rfl

/-- the last time of the grid -/
theorem grid_last {u t : List ℚ} (h : SamplesOn n A T u t) (hn : 2 ≤ n) (hg : t.map (fun (x : ℚ) => (x : ℝ)) ≠ []) :
    (t.map (fun (x : ℚ) => (x : ℝ))).getLast hg = T := by
  have hne : (n - 1 : ℕ) ≠ 0 := by omega
  have hcast : ((n - 1 : ℕ) : ℚ) ≠ 0 := by exact_mod_cast hne
  have h1 := h.grid (n - 1) (by omega)
  rw [List.getLast_map]
  have : t.getLast (by intro h; subst h; exact hg rfl) = T := by
    have h2 := List.getLast?_eq_getElem? (l := t)
    rw [h.times, h1, mul_div_cancel₀ _ hcast] at h2
    rw [List.getLast?_eq_some_getLast (by intro h; subst h; exact hg rfl)] at h2
    exact Option.some.inj h2
  rw [this]

theorem init_ok {s : ExIsingSettings} (h : 2 ≤ s.qubits) : ∃ o, exIsingInit s = .ok o := by
  obtain ⟨H, B, a, b, -⟩ := half_mats h s.J s.g
  obtain ⟨R, T, r, t, -⟩ := states h
  exact ⟨_, by unfold exIsingInit; rw [a, b, r, t]; rfl⟩

/-- **C108** (execute_GRAPE.py). With the settings of the script, the figure of merit for one pulse with `n` samples on equidistant times from 0 to `T` is,
after any history of calls, minus the probability to find the five spins down after the evolution of the ring over `n` steps of length `T / n`: the
whole pulse is used, for the whole duration. Missing: execute_dCRAB.py and execute_AD_Lindblad.py, where this fails. -/
theorem C108_grape_uses_whole_pulse_partial (hn : 2 ≤ n) {s : ExIsingSettings} (hs : (exIsingArgs (grapeArgs n)).1 = .ok s) :
    ∃ o, exIsingInit s = .ok o ∧ ∀ (sqrtm : CMat (2 ^ s.qubits) → CMat (2 ^ s.qubits)) (rnd : ℕ → ℝ) (calls : List ExIsingCall) (u t : List ℚ),
      IsSqrtm sqrtm → SamplesOn n A T u t →
      (exIsingFoM s NormedSpace.exp sqrtm rnd (inReals [u]) (inReals [t]) (exIsingAfter s NormedSpace.exp sqrtm rnd calls o)).1 =
        .ok (-transition (ringPropagator 5 1 2 (u.map fun (x : ℚ) => (x : ℝ)) (T / n) n *ᵥ allUp 5) (allDown 5), 1 / 10) := by
  rw [grape_args] at hs
  obtain rfl := Except.ok.inj hs
  obtain ⟨o, ho⟩ := init_ok (s := ⟨5, ((1 : ℚ) : ℝ), ((2 : ℚ) : ℝ), n, false, ((1 : ℚ) : ℝ), ((1 / 10 : ℚ) : ℝ)⟩) (by norm_num)
  refine ⟨o, ho, fun sqrtm rnd calls u t hq h => ?_⟩
  have hne : t.map (fun (x : ℚ) => (x : ℝ)) ≠ [] := by
    intro e
    have := congrArg List.length e
    rw [List.length_map, h.times] at this
    simp at this
    omega
  have key := C107_ring_partial (rnd := rnd) (ps := []) (gs := []) (u := u.map fun (x : ℚ) => (x : ℝ)) (by norm_num) ho hq (by show 1 ≤ n; omega)
    (by show n ≤ _; rw [List.length_map, h.number]) hne calls
  rw [grid_last h hn] at key
  unfold inReals
  rw [List.map_cons, List.map_nil, List.map_cons, List.map_nil, key]
  simp [h.times]

/-- **C108** (execute_AD.py, execute_AD_Fourier.py). The same for the figure of merit for automatic differentiation, the square root of the probability.
Missing: execute_dCRAB.py and execute_AD_Lindblad.py, where this fails. -/
theorem C108_ad_uses_whole_pulse_partial (hn : 2 ≤ n) {s : ExIsingSettings} (hs : (exIsingArgsAD (adArgs 5 n)).1 = .ok s) {u t : List ℚ}
    (h : SamplesOn n A T u t) : exIsingFoMAD s NormedSpace.exp (inReals [u]) (inReals [t]) =
      .ok (Real.sqrt (transition (ringPropagator 5 1 2 (u.map fun (x : ℚ) => (x : ℝ)) (T / n) n *ᵥ allUp 5) (allDown 5))) := by
  rw [ad_args] at hs
  obtain rfl := Except.ok.inj hs
  have hne : t.map (fun (x : ℚ) => (x : ℝ)) ≠ [] := by
    intro e
    have := congrArg List.length e
    rw [List.length_map, h.times] at this
    simp at this
    omega
  have key := C107_automatic_differentiation_partial (ps := []) (gs := []) (u := u.map fun (x : ℚ) => (x : ℝ))
    (s := { qubits := 5, J := ((1 : ℚ) : ℝ), g := ((2 : ℚ) : ℝ), slices := n, noisy := false, gVariation := 0, stdev := 0 }) (by norm_num)
    (by show n ≤ _; rw [List.length_map, h.number]) hne
  rw [grid_last h hn] at key
  unfold inReals
  rw [List.map_cons, List.map_nil, List.map_cons, List.map_nil, key]
  simp [h.times]

theorem ring_take {q : ℕ} {J g : ℝ} {u v : List ℝ} {dt : ℝ} {m : ℕ} (h : u.take m = v.take m) : ringPropagator q J g u dt m = ringPropagator q J g v dt m := by
  unfold ringPropagator
  refine TE.ordered_congr fun i hi => ?_
  have : (u.take m).getD i 0 = (v.take m).getD i 0 := by rw [h]
  simp only [List.getD_eq_getElem?_getD, List.getElem?_take_of_lt hi] at this ⊢
  rw [this]

/-- **C108 is violated by execute_dCRAB.py**: the script passes the number of slices as `N_slices`, but the figure of merit reads `n_slices` and falls back to
its default. So for `n ≥ 100` slices it evolves over 100 steps of length `T / n` (a twentieth of the duration for the 2000 slices of the script), and two
pulses with the same first 100 samples have the same figure of merit, whatever the other samples are. -/
theorem C108_dcrab_ignores_samples (hn : 100 ≤ n) {s : ExIsingSettings} (hs : (exIsingArgs (dcrabArgs n)).1 = .ok s) :
    ∃ o, exIsingInit s = .ok o ∧ ∀ (sqrtm : CMat (2 ^ s.qubits) → CMat (2 ^ s.qubits)) (rnd : ℕ → ℝ) (calls : List ExIsingCall) (u t : List ℚ),
      IsSqrtm sqrtm → SamplesOn n A T u t →
      (exIsingFoM s NormedSpace.exp sqrtm rnd (inReals [u]) (inReals [t]) (exIsingAfter s NormedSpace.exp sqrtm rnd calls o)).1 =
        .ok (-transition (ringPropagator 5 1 (noisyCoupling 2 (3 / 10) (rnd (calls.map (·.draws)).sum)) (u.map fun (x : ℚ) => (x : ℝ)) (T / n) 100 *ᵥ
          allUp 5) (allDown 5), 1 / 1000) ∧
      ∀ v, SamplesOn n A T v t → u.take 100 = v.take 100 →
        (exIsingFoM s NormedSpace.exp sqrtm rnd (inReals [u]) (inReals [t]) (exIsingAfter s NormedSpace.exp sqrtm rnd calls o)).1 =
        (exIsingFoM s NormedSpace.exp sqrtm rnd (inReals [v]) (inReals [t]) (exIsingAfter s NormedSpace.exp sqrtm rnd calls o)).1 := by
  rw [dcrab_args] at hs
  obtain rfl := Except.ok.inj hs
  obtain ⟨o, ho⟩ := init_ok (s := ⟨5, ((1 : ℚ) : ℝ), ((2 : ℚ) : ℝ), 100, true, ((3 / 10 : ℚ) : ℝ), ((1 / 1000 : ℚ) : ℝ)⟩) (by norm_num)
  refine ⟨o, ho, fun sqrtm rnd calls u t hq h => ?_⟩
  have hne : t.map (fun (x : ℚ) => (x : ℝ)) ≠ [] := by
    intro e
    have := congrArg List.length e
    rw [List.length_map, h.times] at this
    simp at this
    omega
  have val : ∀ v, SamplesOn n A T v t →
      (exIsingFoM _ NormedSpace.exp sqrtm rnd (inReals [v]) (inReals [t]) (exIsingAfter _ NormedSpace.exp sqrtm rnd calls o)).1 =
        .ok (-transition (ringPropagator 5 1 (noisyCoupling 2 (3 / 10) (rnd (calls.map (·.draws)).sum)) (v.map fun (x : ℚ) => (x : ℝ)) (T / n) 100 *ᵥ
          allUp 5) (allDown 5), 1 / 1000) := by
    intro v hv
    have key := C107_ring_partial (rnd := rnd) (ps := []) (gs := []) (u := v.map fun (x : ℚ) => (x : ℝ)) (by norm_num) ho hq (by norm_num)
      (by show 100 ≤ _; rw [List.length_map, hv.number]; exact hn) hne calls
    rw [grid_last hv (by omega)] at key
    unfold inReals
    rw [List.map_cons, List.map_nil, List.map_cons, List.map_nil, key]
    simp [h.times]
  refine ⟨val u h, fun v hv huv => ?_⟩
  rw [val u h, val v hv, ring_take (v := v.map fun (x : ℚ) => (x : ℝ)) (by rw [← List.map_take, ← List.map_take, huv])]

/-- the pulse with `n` samples that is zero before the sample `m` and one from there on -/
def stepPulse (m n : ℕ) : List ℚ := List.replicate m 0 ++ List.replicate (n - m) 1

/-- `n` equidistant times from zero to one -/
def stepGrid (n : ℕ) : List ℚ := List.ofFn fun k : Fin n => (k.val : ℚ) * (1 / (n - 1 : ℕ))

theorem step_samples {m n : ℕ} (h : m ≤ n) : SamplesOn n 1000 1 (stepPulse m n) (stepGrid n) := by
  refine ⟨?_, fun x hx => ?_, List.length_ofFn, fun k hk => ?_⟩
  · unfold stepPulse
    rw [List.length_append, List.length_replicate, List.length_replicate]
    omega
  · unfold stepPulse at hx
    rw [List.mem_append, List.mem_replicate, List.mem_replicate] at hx
    rcases hx with ⟨_, rfl⟩ | ⟨_, rfl⟩ <;> norm_num
  · unfold stepGrid
    rw [List.getElem?_ofFn, dif_pos hk]

/-- With the settings of the script, for instance with its 2000 slices, the zero pulse and the pulse that is one from the sample 100 on have the same figure
of merit. -/
example {s : ExIsingSettings} (hn : 100 < n) (hs : (exIsingArgs (dcrabArgs n)).1 = .ok s) : ∃ o, exIsingInit s = .ok o ∧ stepPulse n n ≠ stepPulse 100 n ∧
    ∀ (sqrtm : CMat (2 ^ s.qubits) → CMat (2 ^ s.qubits)) (rnd : ℕ → ℝ), IsSqrtm sqrtm →
    (exIsingFoM s NormedSpace.exp sqrtm rnd (inReals [stepPulse n n]) (inReals [stepGrid n]) o).1 =
    (exIsingFoM s NormedSpace.exp sqrtm rnd (inReals [stepPulse 100 n]) (inReals [stepGrid n]) o).1 := by
  obtain ⟨o, ho, h⟩ := C108_dcrab_ignores_samples (A := 1000) (T := 1) hn.le hs
  refine ⟨o, ho, fun e => ?_, fun sqrtm rnd hq => (h sqrtm rnd [] _ _ hq (step_samples (le_refl n))).2 _ (step_samples hn.le) ?_⟩
  · have h1 : (1 : ℚ) ∈ stepPulse 100 n := by
      unfold stepPulse
      rw [List.mem_append, List.mem_replicate, List.mem_replicate]
      exact .inr ⟨by omega, rfl⟩
    rw [← e] at h1
    unfold stepPulse at h1
    rw [Nat.sub_self, List.replicate_zero, List.append_nil, List.mem_replicate] at h1
    exact one_ne_zero h1.2
  · unfold stepPulse
    rw [List.take_append_of_le_length (by rw [List.length_replicate]; exact hn.le),
      List.take_append_of_le_length (by rw [List.length_replicate]), List.take_replicate, List.take_replicate, min_eq_left hn.le, min_self]

/-! ### The scripts with open systems -/

/-- The figure of merit of execute_AD_Lindblad.py: two qubits, and the dephasing rate by default. -/
theorem open_args : (openIsingArgs (adArgs 2 n)).1 = .ok (2, ((1 : ℚ) : ℝ), ((2 : ℚ) : ℝ), ((1 / 10 : ℚ) : ℝ)) := by
  unfold openIsingArgs
  rw [bind_run (count_arg (n := 2) rfl), bind_run (num_arg (q := 1) rfl), bind_run (num_arg (q := 2) rfl)]
  rfl

theorem tls_args : (tlsArgs lindbladArgs).1 = .ok (((1 : ℚ) : ℝ), ((1 / 10 : ℚ) : ℝ)) := by
  unfold tlsArgs
  rw [bind_run (num_arg (q := 1 / 10) rfl), bind_run (num_arg (q := 1) rfl)]
  rfl

theorem grid_linspace {u t : List ℚ} (h : SamplesOn n A T u t) : t.map (fun (x : ℚ) => (x : ℝ)) = linspace0 (T : ℝ) n := by
  refine List.ext_getElem? fun k => ?_
  rw [List.getElem?_map]
  unfold linspace0
  rw [List.getElem?_map]
  by_cases hk : k < n
  · rw [h.grid k hk, List.getElem?_range hk]
    simp
  · rw [List.getElem?_eq_none (by rw [h.times]; omega), List.getElem?_eq_none (by rw [List.length_range]; omega)]
    rfl

/-- **C108 is violated by execute_AD_Lindblad.py**: with the settings of the script the last sample of the pulse has no effect on the figure of merit, and the
Hamiltonian is not the one of the ring of two spins. -/
theorem C108_ad_lindblad_ignores_last_sample (hn : 2 ≤ n) (hT : 0 < T) {q : ℕ} {J g gamma : ℝ} (hs : (openIsingArgs (adArgs 2 n)).1 = .ok (q, J, g, gamma)) :
    ∃ o, openIsingInit q J g gamma = .ok o ∧ o.drift ≠ drivenRing q J g 0 ∧ ∀ (odeint : OdeSolver (2 ^ q)) (u v t : List ℚ), ExactSolver odeint →
      SamplesOn n A T u t → SamplesOn n A T v t → u.take (n - 1) = v.take (n - 1) →
      ∃ f, openIsingFoM odeint o (inReals [u]) (inReals [t]) = .ok f ∧ openIsingFoM odeint o (inReals [v]) (inReals [t]) = .ok f := by
  rw [open_args] at hs
  have hs := Except.ok.inj hs
  simp only [Prod.mk.injEq] at hs
  obtain ⟨rfl, rfl, rfl, rfl⟩ := hs
  obtain ⟨o, ho, hd⟩ := C105_two_qubits_wrong (J := ((1 : ℚ) : ℝ)) (g := ((2 : ℚ) : ℝ)) (gamma := ((1 / 10 : ℚ) : ℝ)) (by norm_num)
  refine ⟨o, ho, hd, fun odeint u v t hode hu hv huv => ?_⟩
  obtain ⟨m, rfl⟩ : ∃ m, n = m + 1 := ⟨n - 1, by omega⟩
  rw [Nat.add_sub_cancel] at huv
  have split : ∀ w : List ℚ, w.length = m + 1 → ∃ a, w = w.take m ++ [a] := by
    intro w hw
    refine ⟨w[m], ?_⟩
    conv_lhs => rw [← List.take_append_drop m w]
    rw [List.drop_eq_getElem_cons (by omega), List.drop_eq_nil_of_le (by omega)]
  obtain ⟨a, ha⟩ := split u hu.number
  obtain ⟨b, hb⟩ := split v hv.number
  rw [← huv] at hb
  have hl : (u.take m).length = m := by rw [List.length_take, hu.number]; omega
  obtain ⟨o', f, h1, h2, h3⟩ := C105_last_sample_ignored (n := 2) le_rfl ((1 : ℚ) : ℝ) ((2 : ℚ) : ℝ) (gamma := ((1 / 10 : ℚ) : ℝ)) (by positivity) hode
    (us := (u.take m).map fun (x : ℚ) => (x : ℝ)) (T := (T : ℝ)) (by exact_mod_cast hT)
    (by intro e; have := congrArg List.length e; rw [List.length_map, hl] at this; simp at this; omega) (a : ℝ) (b : ℝ) [] []
  rw [ho] at h1
  obtain rfl := Except.ok.inj h1
  rw [List.length_map, hl, ← grid_linspace hu] at h2 h3
  refine ⟨f, ?_, ?_⟩
  · rw [ha]
    simpa [inReals] using h2
  · rw [hb]
    simpa [inReals] using h3

theorem fold_ordered (E gamma dt : ℝ) (drive : List ℝ) (v : Fin 4 → ℂ) : drive.foldl (lbSlice E gamma dt) v =
    (ordered (fun i => NormedSpace.exp ((dt : ℂ) • (lbConst E gamma + ((drive.getD i 0 : ℝ) : ℂ) • lbDrive))) drive.length).mulVec v := by
  induction drive using List.reverseRecOn with
  | nil => simp [ordered]
  | append_singleton l a ih =>
    rw [List.foldl_append, List.foldl_cons, List.foldl_nil, ih, List.length_append, List.length_singleton, ordered]
    unfold lbSlice
    rw [Matrix.mulVec_mulVec]
    congr 2
    · simp
    · refine TE.ordered_congr fun i hi => ?_
      simp [List.getD_eq_getElem?_getD, List.getElem?_append_left hi]

/-- **C108** (execute_Lindblad.py). With the settings of the script the figure of merit uses the whole pulse: it is the overlap of the target with the
state after `n` steps of length `T / n`, one for each sample, each with the generator of C104. Missing: execute_dCRAB.py and execute_AD_Lindblad.py,
where this fails. -/
theorem C108_lindblad_uses_whole_pulse_partial (hn : 2 ≤ n) {E gamma : ℝ} (hs : (tlsArgs lindbladArgs).1 = .ok (E, gamma)) {u t : List ℚ}
    (h : SamplesOn n A T u t) : E = 1 ∧ gamma = 1 / 10 ∧ lindbladFoM NormedSpace.exp E gamma (inReals [u]) (inReals [t]) =
      .ok (fidelityLFS ((ordered (fun i => NormedSpace.exp ((((T / n : ℚ) : ℝ) : ℂ) • (lbConst 1 (1 / 10) + (((u.getD i 0 : ℚ) : ℝ) : ℂ) • lbDrive))) n).mulVec
        (toLFS lbInitial)) (toLFS lbTarget)) := by
  rw [tls_args] at hs
  have hs := Except.ok.inj hs
  simp only [Prod.mk.injEq] at hs
  obtain ⟨rfl, rfl⟩ := hs
  have hne : t.map (fun (x : ℚ) => (x : ℝ)) ≠ [] := by
    intro e
    have := congrArg List.length e
    rw [List.length_map, h.times] at this
    simp at this
    omega
  refine ⟨by norm_num, by norm_num, ?_⟩
  have key := lindbladFoM_eq (drive := u.map fun (x : ℚ) => (x : ℝ)) ((1 : ℚ) : ℝ) ((1 / 10 : ℚ) : ℝ) [] []
    (by rw [List.length_map, List.length_map, h.number, h.times]) hne
  rw [grid_last h hn, fold_ordered] at key
  unfold inReals
  rw [List.map_cons, List.map_nil, List.map_cons, List.map_nil, key, List.length_map, List.length_map, h.number, h.times]
  have : ∀ i, (u.map fun (x : ℚ) => (x : ℝ)).getD i 0 = ((u.getD i 0 : ℚ) : ℝ) := by
    intro i
    simp only [List.getD_eq_getElem?_getD, List.getElem?_map]
    cases u[i]? <;> simp
  simp only [this]
  norm_num

/-- With the 100 slices and the duration of the scripts, the zero pulse and the pulse that is one in the last sample have the same figure of merit in
execute_AD_Lindblad.py. -/
example (odeint : OdeSolver (2 ^ 2)) (hode : ExactSolver odeint) : ∃ o f, openIsingInit 2 ((1 : ℚ) : ℝ) ((2 : ℚ) : ℝ) ((1 / 10 : ℚ) : ℝ) = .ok o ∧
    openIsingFoM odeint o (inReals [stepPulse 100 100]) (inReals [stepGrid 100]) = .ok f ∧
    openIsingFoM odeint o (inReals [stepPulse 99 100]) (inReals [stepGrid 100]) = .ok f := by
  obtain ⟨o, ho, -, h⟩ := C108_ad_lindblad_ignores_last_sample (n := 100) (A := 1000) (T := 1) (by norm_num) (by norm_num) open_args
  obtain ⟨f, h1, h2⟩ := h odeint _ _ _ hode (step_samples (le_refl 100)) (step_samples (m := 99) (by norm_num)) (by decide +kernel)
  exact ⟨o, f, ho, h1, h2⟩

end
end QuOCS
