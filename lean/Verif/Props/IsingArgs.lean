/-
C116. What the Ising problems of the library read from their dictionary of arguments.
-/
import Verif.Model.IsingArgs
import Verif.Props.ProblemArgs
import Verif.Props.Ising

set_option linter.unusedSectionVars false
set_option linter.unusedVariables false

namespace QuOCS
open Matrix ProblemArgs ScriptArgs

namespace ProblemArgs

theorem settled_count (k : String) (v : PVal) : Settled (setdefault k v >>= fun v => Prog.lift (countOf v) : Prog PDict ℕ) :=
  settled_bind (settled_setdefault _ _) fun _ => settled_lift _

theorem settled_ising : Settled isingArgs :=
  settled_bind (settled_count _ _) fun _ => settled_bind (settled_num _ _) fun _ => settled_bind (settled_num _ _) fun _ =>
  settled_bind (settled_count _ _) fun _ => settled_bind (settled_flag _) fun _ => settled_pure _

theorem settled_isingAD : Settled isingArgsAD :=
  settled_bind (settled_count _ _) fun _ => settled_bind (settled_num _ _) fun _ => settled_bind (settled_num _ _) fun _ =>
  settled_bind (settled_count _ _) fun _ => settled_pure _

section
variable {d : PDict} {q n : ℕ} {J g : ℚ} {b : Bool}

theorem ising_args (hq : Says d "n_qubits" 5 q) (hJ : Says d "J" 1 J) (hg : Says d "g" 2 g) (hn : Says d "n_slices" 100 n)
    (hb : SaysFlag d "is_maximization" b) : (isingArgs d).1 = .ok ⟨q, J, g, n, b⟩ := by
  unfold isingArgs
  obtain ⟨d1, h1, k1⟩ := count_says (m := 5) (by norm_num) hq
  rw [bind_run h1]
  obtain ⟨d2, h2, k2⟩ := num_says (hJ.move (k1 _ (by decide)))
  rw [bind_run h2]
  obtain ⟨d3, h3, k3⟩ := num_says (hg.move ((k2 _ (by decide)).trans (k1 _ (by decide))))
  rw [bind_run h3]
  obtain ⟨d4, h4, k4⟩ := count_says (m := 100) (by norm_num) (hn.move ((k3 _ (by decide)).trans ((k2 _ (by decide)).trans (k1 _ (by decide)))))
  rw [bind_run h4]
  obtain ⟨d5, h5, k5⟩ := flag_says (hb.move ((k4 _ (by decide)).trans ((k3 _ (by decide)).trans ((k2 _ (by decide)).trans (k1 _ (by decide))))))
  rw [bind_run h5]
  rfl

theorem ising_argsAD (hq : Says d "n_qubits" 5 q) (hJ : Says d "J" 1 J) (hg : Says d "g" 2 g) (hn : Says d "n_slices" 100 n) :
    (isingArgsAD d).1 = .ok ⟨q, J, g, n, true⟩ := by
  unfold isingArgsAD
  obtain ⟨d1, h1, k1⟩ := count_says (m := 5) (by norm_num) hq
  rw [bind_run h1]
  obtain ⟨d2, h2, k2⟩ := num_says (hJ.move (k1 _ (by decide)))
  rw [bind_run h2]
  obtain ⟨d3, h3, k3⟩ := num_says (hg.move ((k2 _ (by decide)).trans (k1 _ (by decide))))
  rw [bind_run h3]
  obtain ⟨d4, h4, k4⟩ := count_says (m := 100) (by norm_num) (hn.move ((k3 _ (by decide)).trans ((k2 _ (by decide)).trans (k1 _ (by decide)))))
  rw [bind_run h4]
  rfl

end
end ProblemArgs

section
variable {args : Option PDict} {q n : ℕ} {J g : ℚ} {b : Bool} {u grid : List ℝ} {ps gs : List (List ℝ)}

/-- **C116** (Ising problem). For two or more qubits in the dictionary (none, or an empty one: five) the problem can be created; its figure of merit, for a
pulse with at least as many samples as slices, is the probability to find all spins down after the evolution, with a minus sign unless
`is_maximization` is set, for the number of qubits, the couplings and the number of slices of the dictionary or the defaults 5, 1, 2 and 100. -/
theorem C116_ising (hq : Says (args.getD .nil) "n_qubits" 5 q) (hJ : Says (args.getD .nil) "J" 1 J) (hg : Says (args.getD .nil) "g" 2 g)
    (hn : Says (args.getD .nil) "n_slices" 100 n) (hb : SaysFlag (args.getD .nil) "is_maximization" b) (h2 : 2 ≤ q) (h1 : 1 ≤ n) :
    ∃ (H B : Arr) (o : Ising (2 ^ q)), staticHamiltonian q J g = .ok H ∧ controlHamiltonian q = .ok B ∧ isingFrom args = .ok ⟨q, o⟩ ∧
      ∀ (sqrtm : CMat (2 ^ q) → CMat (2 ^ q)), IsSqrtm sqrtm → n ≤ u.length → ∀ hne : grid ≠ [],
      (isingFoM NormedSpace.exp sqrtm (u :: ps) (grid :: gs) o).1 = .ok ((if b then 1 else -1) *
        transition (drivenPropagator (H.mat _) (B.mat _) u (grid.getLast hne / grid.length) n *ᵥ allUp q) (allDown q)) := by
  obtain ⟨o, ho, -⟩ := C66_hermitian h2 (J : ℝ) (g : ℝ) n b
  have hf : isingFrom args = .ok ⟨q, o⟩ := by
    unfold isingFrom
    rw [ising_args hq hJ hg hn hb]
    show (isingInit q J g n b >>= fun o => _) = _
    rw [ho]
    rfl
  have ho' := ho
  unfold isingInit at ho'
  obtain ⟨H, e1, ho'⟩ := py_bind_ok.1 ho'
  obtain ⟨B, e2, ho'⟩ := py_bind_ok.1 ho'
  obtain ⟨R, e3, ho'⟩ := py_bind_ok.1 ho'
  obtain ⟨T, e4, ho'⟩ := py_bind_ok.1 ho'
  refine ⟨H, B, o, e1, e2, hf, fun sqrtm hs hu hne => ?_⟩
  rw [C67_is_transition_probability h2 ho hs h1 hu hne]
  obtain rfl := Except.ok.inj ho'
  rfl

/-- **C116** (Ising problem, automatic differentiation). The same for the variant for automatic differentiation, which returns the probability; it does not
know the direction. -/
theorem C116_ising_automatic_differentiation (hq : Says (args.getD .nil) "n_qubits" 5 q) (hJ : Says (args.getD .nil) "J" 1 J)
    (hg : Says (args.getD .nil) "g" 2 g) (hn : Says (args.getD .nil) "n_slices" 100 n) (h2 : 2 ≤ q) (hu : n ≤ u.length) (hne : grid ≠ []) :
    ∃ (H B : Arr), staticHamiltonian q J g = .ok H ∧ controlHamiltonian q = .ok B ∧
      isingFoMFromAD (fun {_} => NormedSpace.exp) args (u :: ps) (grid :: gs) =
        .ok (transition (drivenPropagator (H.mat _) (B.mat _) u (grid.getLast hne / grid.length) n *ᵥ allUp q) (allDown q)) := by
  obtain ⟨o, ho, -⟩ := C66_hermitian h2 (J : ℝ) (g : ℝ) n true
  have key := C67_automatic_differentiation (ps := ps) (gs := gs) h2 ho hu hne
  unfold isingInit at ho
  obtain ⟨H, e1, ho⟩ := py_bind_ok.1 ho
  obtain ⟨B, e2, ho⟩ := py_bind_ok.1 ho
  obtain ⟨R, e3, ho⟩ := py_bind_ok.1 ho
  obtain ⟨T, e4, ho⟩ := py_bind_ok.1 ho
  obtain rfl := Except.ok.inj ho
  refine ⟨H, B, e1, e2, ?_⟩
  unfold isingFoMFromAD
  rw [ising_argsAD hq hJ hg hn]
  show (staticHamiltonian q J g >>= fun H => _) = _
  rw [e1]
  show (controlHamiltonian q >>= fun B => _) = _
  rw [e2]
  show (isingInitial q >>= fun r => _) = _
  rw [e3]
  show (isingTarget q >>= fun t => _) = _
  rw [e4]
  exact key

/-- **C116** (same dictionary again). As for the other problems, a dictionary can be used again; also by both variants one after the other, which then agree in
the number of qubits, the couplings and the number of slices. -/
theorem C116_ising_dictionary_can_be_used_again {d : PDict} :
    (∀ a d', isingArgs d = (.ok a, d') → KeepsEntries d d' ∧ isingArgs d' = (.ok a, d') ∧ isingArgsAD d' = (.ok { a with maximize := true }, d')) ∧
    (∀ a d', isingArgsAD d = (.ok a, d') → KeepsEntries d d' ∧ isingArgsAD d' = (.ok a, d')) := by
  refine ⟨fun a d' h => ?_, fun a d' h => ?_⟩
  · obtain ⟨h1, h2⟩ := settled_ising _ _ _ h
    refine ⟨h1, h2 d' fun _ _ h => h, ?_⟩
    have hs := h2 d' fun _ _ h => h
    unfold isingArgs at hs
    have step : ∀ {α β : Type} {m : Prog PDict α} {f : α → Prog PDict β} {r : β}, Settled m → (m >>= f) d' = (.ok r, d') → (∀ a, Settled (f a)) →
        ∃ x, m d' = (.ok x, d') ∧ f x d' = (.ok r, d') := by
      intro α β m f r hm hr hf
      rw [Prog.bind_apply] at hr
      rcases hmd : m d' with ⟨e | x, d1⟩
      · rw [hmd] at hr; obtain ⟨h1, -⟩ := Prod.mk.inj hr; cases h1
      · rw [hmd] at hr
        obtain ⟨-, k2⟩ := hm _ _ _ hmd
        obtain ⟨k3, -⟩ := hf x _ _ _ hr
        have := k2 d' k3
        rw [hmd] at this
        obtain ⟨-, rfl⟩ := Prod.mk.inj this
        exact ⟨x, rfl, hr⟩
    obtain ⟨q, e1, hs⟩ := step (settled_count _ _) hs fun _ => settled_bind (settled_num _ _) fun _ => settled_bind (settled_num _ _) fun _ =>
      settled_bind (settled_count _ _) fun _ => settled_bind (settled_flag _) fun _ => settled_pure _
    obtain ⟨J, e2, hs⟩ := step (settled_num _ _) hs fun _ => settled_bind (settled_num _ _) fun _ =>
      settled_bind (settled_count _ _) fun _ => settled_bind (settled_flag _) fun _ => settled_pure _
    obtain ⟨g, e3, hs⟩ := step (settled_num _ _) hs fun _ => settled_bind (settled_count _ _) fun _ => settled_bind (settled_flag _) fun _ => settled_pure _
    obtain ⟨n, e4, hs⟩ := step (settled_count _ _) hs fun _ => settled_bind (settled_flag _) fun _ => settled_pure _
    obtain ⟨b, e5, hs⟩ := step (settled_flag _) hs fun _ => settled_pure _
    obtain ⟨h6, -⟩ := Prod.mk.inj hs
    obtain rfl := Except.ok.inj h6
    unfold isingArgsAD
    rw [bind_run e1, bind_run e2, bind_run e3, bind_run e4]
    rfl
  · exact ⟨(settled_isingAD _ _ _ h).1, (settled_isingAD _ _ _ h).2 d' fun _ _ h => h⟩

end

/-- Without a dictionary, and with one that sets the number of qubits and the direction. -/
example : Says ((none : Option PDict).getD .nil) "n_qubits" 5 (5 : ℕ) ∧ SaysFlag ((none : Option PDict).getD .nil) "is_maximization" false ∧
    Says ((some (dictOf [("n_qubits", .num 3), ("is_maximization", .bool true)])).getD .nil) "n_qubits" 5 (3 : ℕ) ∧
    SaysFlag ((some (dictOf [("n_qubits", .num 3), ("is_maximization", .bool true)])).getD .nil) "is_maximization" true ∧
    Says ((some (dictOf [("n_qubits", .num 3), ("is_maximization", .bool true)])).getD .nil) "n_slices" 100 (100 : ℕ) ∧
    (2 : ℕ) ≤ 3 ∧ 100 ≤ (List.replicate 100 (1 : ℝ)).length ∧ (isingArgs .nil).1 = .ok ⟨5, ((1 : ℚ) : ℝ), ((2 : ℚ) : ℝ), 100, false⟩ :=
  ⟨.inr ⟨rfl, by norm_num⟩, .inr ⟨rfl, rfl⟩, .inl (by norm_num; rfl), .inl rfl, .inr ⟨rfl, by norm_num⟩, by norm_num, by simp,
    ising_args (.inr ⟨rfl, by norm_num⟩) (.inr ⟨rfl, rfl⟩) (.inr ⟨rfl, rfl⟩) (.inr ⟨rfl, by norm_num⟩) (.inr ⟨rfl, rfl⟩)⟩

end QuOCS
