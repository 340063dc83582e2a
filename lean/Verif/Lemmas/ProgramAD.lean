/-
Runs of the automatic differentiation algorithm: the calls for figures of merit and the calls for gradients, and the reasons for which a
run may fail.
-/
import Verif.Model.ProgramAD
import Verif.Props.AD
import Verif.Props.UsableGrape

set_option linter.unusedSectionVars false
set_option linter.unusedVariables false

namespace QuOCS

section
variable {V C O : Type} {lib : AdLib V C ℚ} {cfg : AlgCfg ℚ ℚ} {env : Env V C ℚ} {ops : CtlOps O V C}

/-- the calls, each with a mark that tells whether it was made for a gradient -/
def AdState.marks (s : AdState V C O ℚ) : List (Bool × Call V C ℚ) := s.alg.log.zipIdx.map fun k => (decide (k.2 ∈ s.gradAt), k.1)

theorem marks_append {l : List (Call V C ℚ)} {g g' : List ℕ} (c : Call V C ℚ) (hg : ∀ i < l.length, i ∈ g' ↔ i ∈ g) :
    (l ++ [c]).zipIdx.map (fun k => (decide (k.2 ∈ g'), k.1)) =
      l.zipIdx.map (fun k => (decide (k.2 ∈ g), k.1)) ++ [(decide (l.length ∈ g'), c)] := by
  rw [List.zipIdx_append, List.map_append]
  congr 1
  · refine List.map_congr_left fun k hk => ?_
    have : k.2 < l.length := by
      have := List.snd_lt_of_mem_zipIdx hk
      omega
    simp only [hg _ this]
  · simp

/-- What holds between the steps of a run. -/
structure AdInv (cfg : AlgCfg ℚ ℚ) (env : Env V C ℚ) (s : AdState V C O ℚ) : Prop where
  wf : ∀ i ∈ s.gradAt, i < s.alg.log.length
  count : (s.marks.filter fun k => !k.1).length ≤ s.alg.iter
  budget : (s.alg.iter : ℤ) ≤ max 0 cfg.maxEvalTotal
  init : s.alg.bestFoM ≤ cfg.fomMax
  le : ∀ c, (false, c) ∈ s.marks → ∀ f, c.value = some f → s.alg.bestFoM ≤ dirMul cfg.maximize f
  mem : s.alg.bestFoM = cfg.fomMax ∨ ∃ c, (false, c) ∈ s.marks ∧ ∃ f, c.value = some f ∧ s.alg.bestFoM = dirMul cfg.maximize f
  goal : ∀ g, cfg.goal = some g → ∀ a c b, s.marks = a ++ (false, c) :: b → ∀ f, c.value = some f → dirMul cfg.maximize f ≤ g →
    ∀ e ∈ b, e.1 = true
  answers : ∀ a c b, s.alg.log = a ++ c :: b → c.ans = env.getFoM a c.ctl

namespace AdInv

theorem frame {s s' : AdState V C O ℚ} (h : AdInv cfg env s) (h1 : s'.alg.log = s.alg.log) (h2 : s'.gradAt = s.gradAt)
    (h3 : s.alg.iter ≤ s'.alg.iter) (h4 : (s'.alg.iter : ℤ) ≤ max 0 cfg.maxEvalTotal) (h5 : s'.alg.bestFoM = s.alg.bestFoM) :
    AdInv cfg env s' := by
  have hm : s'.marks = s.marks := by unfold AdState.marks; rw [h1, h2]
  refine ⟨by rw [h1, h2]; exact h.wf, by rw [hm]; exact h.count.trans h3, h4, by rw [h5]; exact h.init, by rw [hm, h5]; exact h.le,
    by rw [hm, h5]; exact h.mem, by rw [hm]; exact h.goal, by rw [h1]; exact h.answers⟩

theorem split_last {α : Type} {l a b : List α} {x y : α} (h : l ++ [x] = a ++ y :: b) :
    (b = [] ∧ a = l ∧ y = x) ∨ ∃ b', b = b' ++ [x] ∧ l = a ++ y :: b' := by
  rcases List.eq_nil_or_concat b with rfl | ⟨b', z, rfl⟩
  · have := List.append_inj' h rfl
    exact .inl ⟨rfl, this.1.symm, (List.cons.inj this.2).1.symm⟩
  · refine .inr ⟨b', ?_⟩
    rw [List.concat_eq_append, ← List.cons_append, ← List.append_assoc] at h
    have := List.append_inj' h rfl
    rw [List.concat_eq_append, ← (List.cons.inj this.2).1]
    exact ⟨rfl, this.1⟩

theorem answers_append {l : List (Call V C ℚ)} {c : Call V C ℚ} (h : ∀ a c b, l = a ++ c :: b → c.ans = env.getFoM a c.ctl)
    (hc : c.ans = env.getFoM l c.ctl) : ∀ a k b, l ++ [c] = a ++ k :: b → k.ans = env.getFoM a k.ctl := by
  intro a k b e
  rcases split_last e with ⟨_, rfl, rfl⟩ | ⟨b', _, e⟩
  · exact hc
  · exact h a k b' e

/-- the user's function was called for a figure of merit -/
theorem value {s s' : AdState V C O ℚ} (h : AdInv cfg env s) {c : Call V C ℚ} (h1 : s'.alg.log = s.alg.log ++ [c])
    (h2 : s'.gradAt = s.gradAt) (h3 : s'.alg.iter = s.alg.iter + 1) (h4 : (s.alg.iter : ℤ) < cfg.maxEvalTotal)
    (hg : ∀ g, cfg.goal = some g → ¬ s.alg.bestFoM ≤ g) (hc : c.ans = env.getFoM s.alg.log c.ctl)
    (hb : (c.value = none ∧ s'.alg.bestFoM = s.alg.bestFoM) ∨ ∃ f, c.value = some f ∧ s'.alg.bestFoM =
      if dirMul cfg.maximize f < s.alg.bestFoM then dirMul cfg.maximize f else s.alg.bestFoM) : AdInv cfg env s' := by
  have hm : s'.marks = s.marks ++ [(false, c)] := by
    unfold AdState.marks
    rw [h1, h2, marks_append c fun i _ => Iff.rfl]
    have : s.alg.log.length ∉ s.gradAt := fun hi => absurd (h.wf _ hi) (lt_irrefl _)
    simp [this]
  have hle : s'.alg.bestFoM ≤ s.alg.bestFoM ∧ ∀ f, c.value = some f → s'.alg.bestFoM ≤ dirMul cfg.maximize f := by
    rcases hb with ⟨hv, e⟩ | ⟨f, hv, e⟩
    · exact ⟨e.le, fun f hf => by rw [hv] at hf; cases hf⟩
    · rw [e]
      by_cases hlt : dirMul cfg.maximize f < s.alg.bestFoM
      · rw [if_pos hlt]
        exact ⟨hlt.le, fun f' hf' => by rw [hv] at hf'; cases hf'; exact le_rfl⟩
      · rw [if_neg hlt]
        exact ⟨le_rfl, fun f' hf' => by rw [hv] at hf'; cases hf'; exact not_lt.1 hlt⟩
  refine ⟨?_, ?_, ?_, hle.1.trans h.init, ?_, ?_, ?_, by rw [h1]; exact answers_append h.answers hc⟩
  · rw [h1, h2, List.length_append]
    exact fun i hi => Nat.lt_of_lt_of_le (h.wf i hi) (Nat.le_add_right _ _)
  · rw [hm, List.filter_append, List.length_append, h3]
    exact Nat.add_le_add h.count (List.length_filter_le _ _)
  · rw [h3]; push_cast; exact le_max_of_le_right (by omega)
  · intro k hk f hf
    rw [hm] at hk
    rcases List.mem_append.1 hk with hk | hk
    · exact hle.1.trans (h.le k hk f hf)
    · cases List.mem_singleton.1 hk
      exact hle.2 f hf
  · rw [hm]
    have old : s'.alg.bestFoM = s.alg.bestFoM → s'.alg.bestFoM = cfg.fomMax ∨ ∃ k, (false, k) ∈ s.marks ++ [(false, c)] ∧
        ∃ f, k.value = some f ∧ s'.alg.bestFoM = dirMul cfg.maximize f := by
      intro e
      rw [e]
      exact h.mem.imp id fun ⟨k, hk, r⟩ => ⟨k, List.mem_append_left _ hk, r⟩
    rcases hb with ⟨_, e⟩ | ⟨f, hv, e⟩
    · exact old e
    · by_cases hlt : dirMul cfg.maximize f < s.alg.bestFoM
      · rw [if_pos hlt] at e
        exact .inr ⟨c, by simp, f, hv, e⟩
      · rw [if_neg hlt] at e
        exact old e
  · intro g hgo a k b e f hf hle' x hx
    rw [hm] at e
    rcases split_last e with ⟨rfl, _, _⟩ | ⟨b', rfl, e'⟩
    · cases hx
    · exact absurd ((h.le k (by rw [e']; simp) f hf).trans hle') (hg g hgo)

/-- the user's function was called for a gradient -/
theorem gradient {s s' : AdState V C O ℚ} (h : AdInv cfg env s) {c : Call V C ℚ} (h1 : s'.alg.log = s.alg.log ++ [c])
    (h2 : s'.gradAt = s.gradAt ++ [s.alg.log.length]) (h3 : s'.alg.iter = s.alg.iter) (h4 : s'.alg.bestFoM = s.alg.bestFoM)
    (hc : c.ans = env.getFoM s.alg.log c.ctl) : AdInv cfg env s' := by
  have hm : s'.marks = s.marks ++ [(true, c)] := by
    unfold AdState.marks
    rw [h1, h2, marks_append (g := s.gradAt) c fun i hi => ?_]
    · simp
    · simp only [List.mem_append, List.mem_singleton]
      exact ⟨fun h => h.resolve_right (by omega), .inl⟩
  have hmem : ∀ k, (false, k) ∈ s'.marks ↔ (false, k) ∈ s.marks := by
    intro k
    rw [hm]
    simp
  refine ⟨?_, ?_, by rw [h3]; exact h.budget, by rw [h4]; exact h.init, fun k hk => by rw [h4]; exact h.le k ((hmem k).1 hk), ?_, ?_,
    by rw [h1]; exact answers_append h.answers hc⟩
  · intro i hi
    rw [h2] at hi
    rw [h1, List.length_append, List.length_singleton]
    rcases List.mem_append.1 hi with hi | hi
    · exact Nat.lt_succ_of_lt (h.wf i hi)
    · rw [List.mem_singleton.1 hi]; exact Nat.lt_succ_self _
  · rw [hm, List.filter_append, h3]
    simpa using h.count
  · rw [h4]
    exact h.mem.imp id fun ⟨k, hk, r⟩ => ⟨k, (hmem k).2 hk, r⟩
  · intro g hgo a k b e f hf hle x hx
    rw [hm] at e
    rcases split_last e with ⟨rfl, _, _⟩ | ⟨b', rfl, e'⟩
    · cases hx
    · rcases List.mem_append.1 hx with hx | hx
      · exact h.goal g hgo a k b' e' f hf hle x hx
      · rw [List.mem_singleton.1 hx]

theorem always_value (hk : cfg.kind = .grape) (x : V) :
    AD.Always (AdInv cfg env) (onAlg (O := O) (adValue cfg env ops x)) := by
  intro s h
  have hs := routineCall_spec (cfg := cfg) (env := env) (ops := ops) x 0 { s.alg with isRecord := false }
  have e : adValue cfg env ops x s.alg = routineCall cfg env ops x 0 { s.alg with isRecord := false } := rfl
  unfold onAlg
  simp only [e]
  generalize routineCall cfg env ops x 0 { s.alg with isRecord := false } = p at hs
  obtain ⟨r, s'⟩ := p
  have hmx : ∀ {i : ℕ}, (s.alg.iter : ℤ) < cfg.maxEvalTotal → i = s.alg.iter + 1 → (i : ℤ) ≤ max 0 cfg.maxEvalTotal := by
    rintro i h1 rfl
    exact le_max_of_le_right (by push_cast; omega)
  cases hs with
  | stopped s1 q hr => exact h.frame q.log rfl q.iter.ge (by dsimp only; rw [q.iter]; exact h.budget) q.bestFoM
  | sigint s1 r e q hk => exact h.frame q.log rfl q.iter.ge (by dsimp only; rw [q.iter]; exact h.budget) q.bestFoM
  | noControls s1 e q hr hi hg => exact h.frame q.log rfl (Nat.le_succ _) (hmx hi rfl) q.bestFoM
  | window s1 o c s2 q hr hi hg q2 hr2 ha =>
    exact h.frame (q2.log.trans q.log) rfl (by dsimp only; rw [q2.iter]; exact Nat.le_succ _) (hmx hi q2.iter) (q2.bestFoM.trans q.bestFoM)
  | windowSigint s1 o c s2 r e q hr hi hg q2 hk =>
    exact h.frame (q2.log.trans q.log) rfl (by dsimp only; rw [q2.iter]; exact Nat.le_succ _) (hmx hi q2.iter) (q2.bestFoM.trans q.bestFoM)
  | measured s1 o c s2 q hr hi hgo ht hg q2 hr2 =>
    have hlog : s2.log = s.alg.log := q2.log.trans q.log
    have hbest : s2.bestFoM = s.alg.bestFoM := q2.bestFoM.trans q.bestFoM
    have hit : s2.iter = s.alg.iter + 1 := q2.iter
    rcases ha : env.getFoM s2.log c with e | a
    · rw [measure_raised x c s2 e ha]
      refine h.value (c := ⟨x, c, .error e, s2.polls, s2.ticks⟩) (by dsimp only; rw [hlog]) rfl hit hi hgo ?_ (.inl ⟨rfl, hbest⟩)
      rw [← hlog]; exact ha.symm
    · rcases hf : a.fom with _ | f
      · rw [measure_noValue x c s2 a ha hf]
        refine h.value (c := ⟨x, c, .ok a, s2.polls, s2.ticks⟩) (by dsimp only; rw [hlog]) rfl hit hi hgo ?_ (.inl ⟨hf, hbest⟩)
        rw [← hlog]; exact ha.symm
      · obtain ⟨fl, il, sc', hm⟩ := measure_answered (cfg := cfg) x c s2 a f ha hf
        rw [hm]
        refine h.value (c := ⟨x, c, .ok a, s2.polls, s2.ticks⟩) (by dsimp only; rw [hlog]) rfl hit hi hgo ?_ (.inr ⟨f, hf, ?_⟩)
        · rw [← hlog]; exact ha.symm
        · have hsh : shownFoM cfg s2 (dirMul cfg.maximize f) = dirMul cfg.maximize f := by
            unfold shownFoM
            rw [if_neg (by rw [hk]; simp)]
          simp only [hsh, hk, true_or, true_and, hbest]

theorem always_gradient (x : V) : AD.Always (AdInv cfg env) (adGradient (O := O) lib env ops x) := by
  intro s h
  unfold adGradient
  rcases ops.getControls s.alg.ctl x with e | ⟨o, c⟩
  · exact h
  · have : AdInv cfg env { s with
        alg := { s.alg with ctl := o, log := s.alg.log ++ [⟨x, c, env.getFoM s.alg.log c, s.alg.polls, s.alg.ticks⟩] }
        gradAt := s.gradAt ++ [s.alg.log.length] } := h.gradient rfl rfl rfl rfl rfl
    dsimp only
    rcases ha : env.getFoM s.alg.log c with e | a
    · rw [ha] at this; exact this
    · rw [ha] at this
      rcases hf : a.fom with _ | f <;> simp only [hf] <;> exact this

theorem always_update : AD.Always (AdInv cfg env) (onAlg (V := V) (updateBasePulses ops)) := by
  intro s h
  unfold onAlg updateBasePulses
  dsimp only
  rcases s.alg.bestXX with _ | x
  · exact h
  · dsimp only
    rcases ops.updateBase s.alg.ctl x with e | o
    · exact h
    · exact h.frame rfl rfl le_rfl h.budget rfl

theorem always_loop (hk : cfg.kind = .grape) (n k : ℕ) : AD.Always (AdInv cfg env) (adLoop lib cfg env ops n k) := by
  induction n generalizing k with
  | zero => exact .pure _
  | succ n ih =>
    refine .bind (.bind (fun s h => h.frame rfl rfl le_rfl h.budget rfl) fun _ => .bind .get fun s => .bind (.lift _) fun o =>
      .bind (fun s h => h.frame rfl rfl le_rfl h.budget rfl) fun _ => .bind ?_ fun _ => always_update) fun _ => ih (k + 1)
    exact .bind .get fun s => .bind (.lift _) fun _ => .bind (.lift _) fun _ => .bind (.lift _) fun _ =>
      AD.always_interp (always_value hk) always_gradient _

/-- The whole run. -/
theorem execute (o : O) : AdInv (adCfg cfg) env (adExecute lib cfg env ops o).2 :=
  always_loop rfl _ _ _ ⟨by simp, by simp [AdState.marks, initState], by simp [initState], le_rfl, by simp [AdState.marks, initState], .inl rfl,
    fun g hg a c b e => by simp [AdState.marks, initState] at e, fun a c b e => by simp [initState] at e⟩

end AdInv

/-! ### Failures -/

/-- the reasons for which a run may fail -/
def AdFails (cfg : AlgCfg ℚ ℚ) (env : Env V C ℚ) (e : PyErr) (s : AlgState V C O ℚ) : Prop :=
  UserFailed env e s.log ∨ (e = .attributeError ∧ ∃ n, env.async n = .sigint) ∨ (e = .attributeError ∧ s.bestFoM = cfg.fomMax)

/-- what holds between the steps of a run -/
structure AdSound (cfg : AlgCfg ℚ ℚ) (I : O → Prop) (s : AlgState V C O ℚ) : Prop where
  ctl : I s.ctl
  start : s.bestXX = none → s.bestFoM = cfg.fomMax

variable {I : O → Prop} {S : List V → Prop}

namespace AdSound

theorem frame {s s' : AlgState V C O ℚ} (h : AdSound cfg I s) (h1 : s'.ctl = s.ctl) (h2 : s'.bestXX = s.bestXX)
    (h3 : s'.bestFoM = s.bestFoM) : AdSound cfg I s' := ⟨h1 ▸ h.ctl, by rw [h2, h3]; exact h.start⟩

abbrev Ok (cfg : AlgCfg ℚ ℚ) (env : Env V C ℚ) (I : O → Prop) {α : Type} (m : Prog (AlgState V C O ℚ) α) : Prop :=
  Fine (AdSound cfg I) (AdSound cfg I) (AdFails cfg env) m

theorem stopWith (r : String) : Ok cfg env I (QuOCS.stopWith cfg r : Prog (AlgState V C O ℚ) Unit) :=
  Fine.modify fun s h => h.frame rfl rfl rfl

theorem poll : Ok cfg env I (QuOCS.poll cfg env : Prog (AlgState V C O ℚ) Unit) := by
  intro s h
  have h' : AdSound cfg I { s with polls := s.polls + 1 } := h.frame rfl rfl rfl
  unfold QuOCS.poll
  rcases ha : env.async s.polls with _ | _ | _
  · exact ⟨fun _ _ => h', fun e he => by cases he⟩
  · exact ⟨fun _ _ => h.frame rfl rfl rfl, fun e he => by cases he⟩
  · dsimp only
    split
    · exact stopWith _ _ h'
    · exact ⟨fun _ he => (by cases he), fun e he => by cases he; exact .inr (.inl ⟨rfl, _, ha⟩)⟩

theorem stopChecks : Ok cfg env I (QuOCS.stopChecks cfg env : Prog (AlgState V C O ℚ) Unit) := by
  refine .bind (Q := AdSound cfg I) (fun s h => ?_) fun _ => .bind (Q := AdSound cfg I) (fun s h => ?_) fun _ => ?_
  · unfold budgetCheck
    split
    · exact stopWith _ s h
    · exact ⟨fun _ _ => h, fun e he => by cases he⟩
  · unfold goalCheck
    split
    · split
      · exact stopWith _ s h
      · exact ⟨fun _ _ => h, fun e he => by cases he⟩
    · exact ⟨fun _ _ => h, fun e he => by cases he⟩
  · refine .ite (fun _ => .bind (Q := AdSound cfg I)
      (fun s h => ⟨fun _ _ => h.frame rfl rfl rfl, fun e he => by cases he⟩) fun t => fun s h => ?_) fun _ => .pure _
    unfold timeCheckAt
    split
    · exact stopWith _ s h
    · exact ⟨fun _ _ => h, fun e he => by cases he⟩

theorem measure (x : V) (c : C) : Fine (fun s => AdSound cfg I s ∧ s.xx.isSome) (AdSound cfg I) (AdFails cfg env)
    (QuOCS.measure cfg env x c : Prog (AlgState V C O ℚ) ℚ) := by
  rintro s ⟨h, hx⟩
  rcases ha : env.getFoM s.log c with e | a
  · rw [measure_raised x c s e ha]
    exact ⟨fun _ he => (by cases he), fun e' he => by cases he; exact .inl ⟨_, _, rfl, ha.symm, .inl rfl⟩⟩
  · rcases hf : a.fom with _ | f
    · rw [measure_noValue x c s a ha hf]
      exact ⟨fun _ he => (by cases he), fun e' he => by cases he; exact .inl ⟨_, _, rfl, ha.symm, .inr ⟨rfl, a, rfl, hf⟩⟩⟩
    · obtain ⟨fl, il, sc', hm⟩ := measure_answered (cfg := cfg) x c s a f ha hf
      rw [hm]
      refine ⟨fun _ _ => ⟨h.ctl, fun hb => ?_⟩, fun e' he => by cases he⟩
      dsimp only at hb ⊢
      split at hb <;> rename_i hc
      · rw [hb] at hx; cases hx
      · rw [if_neg hc]; exact h.start hb

theorem value (hF : Faultless ops I S) (x : V) : Ok cfg env I (adValue cfg env ops x) := by
  refine .bind (Q := AdSound cfg I) (.modify fun s h => h.frame rfl rfl rfl) fun _ => ?_
  refine .bind poll fun _ => .bind stopChecks fun _ => .bind poll fun _ => .bind .get fun s =>
    .ite (fun _ => .pure _) fun _ => ?_
  refine .bind (Q := fun s => AdSound cfg I s ∧ s.xx.isSome) (.modify fun s h => ⟨h.frame rfl rfl rfl, rfl⟩) fun _ => ?_
  refine .bind (Q := fun s => AdSound cfg I s ∧ s.xx.isSome) (fun s h => ?_) fun c =>
    .bind (Q := fun s => AdSound cfg I s ∧ s.xx.isSome) (fun s h => ?_) fun _ => .bind .get fun s =>
    .ite (fun _ => (Fine.pure _).weaken (fun _ h => h) (fun _ h => h.1)) fun _ => measure x c
  · obtain ⟨o', c, h1, h2⟩ := hF.get s.ctl x h.1.ctl
    unfold sendControls
    rw [h1]
    exact ⟨fun _ _ => ⟨⟨h2, h.1.start⟩, h.2⟩, fun e he => by cases he⟩
  · have h1 := poll (env := env) s h.1
    refine ⟨fun a ha => ⟨h1.1 a ha, ?_⟩, h1.2⟩
    have hx : (QuOCS.poll cfg env s).2.xx = s.xx := by
      unfold QuOCS.poll
      dsimp only
      split
      · rfl
      · rfl
      · split <;> rfl
    rw [hx]; exact h.2

/-- the same for the state of the AD algorithm -/
abbrev AdOk (cfg : AlgCfg ℚ ℚ) (env : Env V C ℚ) (I : O → Prop) {α : Type} (m : Prog (AdState V C O ℚ) α) : Prop :=
  Fine (fun s => AdSound cfg I s.alg) (fun s => AdSound cfg I s.alg) (fun e s => AdFails cfg env e s.alg) m

theorem onAlg {α : Type} {m : Prog (AlgState V C O ℚ) α} (h : Ok cfg env I m) : AdOk cfg env I (QuOCS.onAlg m) :=
  fun s hs => ⟨fun a ha => (h s.alg hs).1 a ha, fun e he => (h s.alg hs).2 e he⟩

theorem gradient (hF : Faultless ops I S) (x : V) : AdOk cfg env I (adGradient lib env ops x) := by
  intro s h
  obtain ⟨o', c, h1, h2⟩ := hF.get s.alg.ctl x h.ctl
  unfold adGradient
  rw [h1]
  dsimp only
  rcases ha : env.getFoM s.alg.log c with e | a
  · exact ⟨fun _ he => (by cases he), fun e' he => by cases he; exact .inl ⟨_, _, rfl, ha.symm, .inl rfl⟩⟩
  · rcases hf : a.fom with _ | f
    · simp only [hf]
      exact ⟨fun _ he => (by cases he), fun e' he => by cases he; exact .inl ⟨_, _, rfl, ha.symm, .inr ⟨rfl, a, rfl, hf⟩⟩⟩
    · simp only [hf]
      exact ⟨fun _ _ => ⟨h2, h.start⟩, fun e' he => by cases he⟩

theorem interp (hF : Faultless ops I S) (m : AdMinimizer V ℚ) : AdOk cfg env I (m.calls.interp lib cfg env ops) := by
  induction m with
  | stop => exact .pure _
  | value x k ih => exact .bind (onAlg (value hF x)) fun f => ih f
  | gradient x k ih => exact .bind (gradient hF x) fun g => ih g

theorem loop (hF : Faultless ops I S) (hs : ∀ k x y, ∃ z, lib.start k x y = .ok z) (hm : ∀ x, ∃ m : AdMinimizer V ℚ, lib.search x = m.calls)
    (n k : ℕ) : AdOk cfg env I (adLoop lib cfg env ops n k) := by
  induction n generalizing k with
  | zero => exact .pure _
  | succ n ih =>
    refine .bind (.bind (Q := fun s => AdSound cfg I s.alg) (onAlg (Fine.modify (f := fun s : AlgState V C O ℚ => { s with superIt := k }) fun s h => h.frame rfl rfl rfl)) fun _ => ?_) fun _ => ih (k + 1)
    refine .get_bind fun s h => ?_
    obtain ⟨o, h1, h2⟩ := hF.select k s.alg.ctl h.ctl
    rw [h1]
    have key : AdOk cfg env I (do QuOCS.onAlg (Prog.modify (fun s => { s with ctl := o })); adInnerRun lib cfg env ops k; QuOCS.onAlg (updateBasePulses ops)) := by
      refine .bind (Q := fun s => AdSound cfg I s.alg) (onAlg (Fine.modify (f := fun s : AlgState V C O ℚ => { s with ctl := o }) fun s h => ⟨h2, h.start⟩))
        fun _ => .bind (Q := fun s => AdSound cfg I s.alg) ?_ fun _ => ?_
      · refine .get_bind fun s h => ?_
        obtain ⟨sg, e1⟩ := hF.sigma s.alg.ctl h.ctl
        obtain ⟨mn, e2⟩ := hF.mean s.alg.ctl h.ctl
        obtain ⟨z, e3⟩ := hs k mn sg
        obtain ⟨m, e4⟩ := hm z
        have := interp (lib := lib) (cfg := cfg) (env := env) hF m s h
        rw [← e4] at this
        rw [Prog.bind_apply, Prog.lift_apply, e1]
        dsimp only
        rw [Prog.bind_apply, Prog.lift_apply, e2]
        dsimp only
        rw [Prog.bind_apply, Prog.lift_apply, e3]
        exact this
      · refine onAlg fun s h => ?_
        unfold updateBasePulses
        rcases hx : s.bestXX with _ | x
        · exact ⟨fun _ he => (by cases he), fun e he => by cases he; exact .inr (.inr ⟨rfl, h.start hx⟩)⟩
        · obtain ⟨o', h1, h2⟩ := hF.update s.ctl x h.ctl
          simp only [h1]
          exact ⟨fun _ _ => ⟨h2, fun hb => by cases hb⟩, fun e he => by cases he⟩
    rw [Prog.bind_apply, Prog.lift_apply]
    exact key s h

/-- the failures of a run with a controls object that never raises -/
theorem execute_fails (hF : Faultless ops I S) (hs : ∀ k x y, ∃ z, lib.start k x y = .ok z)
    (hm : ∀ x, ∃ m : AdMinimizer V ℚ, lib.search x = m.calls) {o : O} (ho : I o) {e : PyErr} (he : (adExecute lib cfg env ops o).1 = .error e) :
    AdFails (adCfg cfg) env e (adExecute lib cfg env ops o).2.alg :=
  (loop hF hs hm _ _ _ ⟨ho, fun _ => rfl⟩).2 e he

end AdSound
end
end QuOCS
