/-
Lemmas for C114: super-iterations with automatic differentiation.
-/
import Verif.Lemmas.FollowAD
import Verif.Lemmas.UsableAD
import Verif.Props.DcrabSearch
import Verif.Spec.AdSuper

set_option linter.unusedSectionVars false
set_option linter.unusedVariables false

namespace QuOCS

section
variable {V C O : Type} {lib : AdLib V C ℚ} {cfg : AlgCfg ℚ ℚ} {env : Env V C ℚ} {ops : CtlOps O V C}

theorem Quiet.vectors {s s' : AlgState V C O ℚ} (q : Quiet env s s') : s'.bestXX = s.bestXX ∧ s'.xx = s.xx := by
  rw [q.frame]
  exact ⟨rfl, rfl⟩

/-- the vector kept in the state belongs to the best figure of merit -/
structure AdBest (cfg : AlgCfg ℚ ℚ) (s : AdState V C O ℚ) : Prop where
  wf : ∀ i ∈ s.gradAt, i < s.alg.log.length
  best : s.alg.bestXX = none ∧ s.alg.bestFoM = cfg.fomMax ∨ ∃ c, (false, c) ∈ s.marks ∧ ∃ f, c.value = some f ∧ s.alg.bestXX = some c.vec ∧
    s.alg.bestFoM = dirMul cfg.maximize f

namespace AdBest

theorem frame {s s' : AdState V C O ℚ} (h : AdBest cfg s) (h1 : s'.alg.log = s.alg.log) (h2 : s'.gradAt = s.gradAt)
    (h3 : s'.alg.bestXX = s.alg.bestXX) (h4 : s'.alg.bestFoM = s.alg.bestFoM) : AdBest cfg s' := by
  have hm : s'.marks = s.marks := by unfold AdState.marks; rw [h1, h2]
  exact ⟨by rw [h1, h2]; exact h.wf, by rw [hm, h3, h4]; exact h.best⟩

theorem value {s s' : AdState V C O ℚ} (h : AdBest cfg s) {c : Call V C ℚ} (h1 : s'.alg.log = s.alg.log ++ [c]) (h2 : s'.gradAt = s.gradAt)
    (hb : (s'.alg.bestXX = s.alg.bestXX ∧ s'.alg.bestFoM = s.alg.bestFoM) ∨
      ∃ f, c.value = some f ∧ s'.alg.bestXX = some c.vec ∧ s'.alg.bestFoM = dirMul cfg.maximize f) : AdBest cfg s' := by
  have hm : s'.marks = s.marks ++ [(false, c)] := marks_value h.wf h1 h2
  refine ⟨?_, ?_⟩
  · rw [h1, h2, List.length_append]
    exact fun i hi => Nat.lt_of_lt_of_le (h.wf i hi) (Nat.le_add_right _ _)
  · rw [hm]
    rcases hb with ⟨e1, e2⟩ | ⟨f, e1, e2, e3⟩
    · rw [e1, e2]
      exact h.best.imp id fun ⟨k, hk, r⟩ => ⟨k, List.mem_append_left _ hk, r⟩
    · exact .inr ⟨c, by simp, f, e1, e2, e3⟩

theorem gradient {s s' : AdState V C O ℚ} (h : AdBest cfg s) {c : Call V C ℚ} (h1 : s'.alg.log = s.alg.log ++ [c])
    (h2 : s'.gradAt = s.gradAt ++ [s.alg.log.length]) (h3 : s'.alg.bestXX = s.alg.bestXX) (h4 : s'.alg.bestFoM = s.alg.bestFoM) :
    AdBest cfg s' := by
  have hm : s'.marks = s.marks ++ [(true, c)] := marks_gradient h.wf h1 h2
  refine ⟨?_, ?_⟩
  · intro i hi
    rw [h2] at hi
    rw [h1, List.length_append, List.length_singleton]
    rcases List.mem_append.1 hi with hi | hi
    · exact Nat.lt_succ_of_lt (h.wf i hi)
    · rw [List.mem_singleton.1 hi]; exact Nat.lt_succ_self _
  · rw [hm, h3, h4]
    exact h.best.imp id fun ⟨k, hk, r⟩ => ⟨k, List.mem_append_left _ hk, r⟩

theorem always_value (hk : cfg.kind = .grape) (x : V) : AD.Always (AdBest cfg) (onAlg (O := O) (adValue cfg env ops x)) := by
  intro s h
  have hs := routineCall_spec (cfg := cfg) (env := env) (ops := ops) x 0 { s.alg with isRecord := false }
  have e : adValue cfg env ops x s.alg = routineCall cfg env ops x 0 { s.alg with isRecord := false } := rfl
  unfold onAlg
  simp only [e]
  generalize routineCall cfg env ops x 0 { s.alg with isRecord := false } = p at hs
  obtain ⟨r, s'⟩ := p
  cases hs with
  | stopped s1 q hr => exact h.frame q.log rfl q.vectors.1 q.bestFoM
  | sigint s1 r e q hk => exact h.frame q.log rfl q.vectors.1 q.bestFoM
  | noControls s1 e q hr hi hg => exact h.frame q.log rfl q.vectors.1 q.bestFoM
  | window s1 o c s2 q hr hi hg q2 hr2 ha =>
    exact h.frame (q2.log.trans q.log) rfl (q2.vectors.1.trans q.vectors.1) (q2.bestFoM.trans q.bestFoM)
  | windowSigint s1 o c s2 r e q hr hi hg q2 hk =>
    exact h.frame (q2.log.trans q.log) rfl (q2.vectors.1.trans q.vectors.1) (q2.bestFoM.trans q.bestFoM)
  | measured s1 o c s2 q hr hi hgo ht hg q2 hr2 =>
    have hlog : s2.log = s.alg.log := q2.log.trans q.log
    have hbest : s2.bestFoM = s.alg.bestFoM := q2.bestFoM.trans q.bestFoM
    have hvec : s2.bestXX = s.alg.bestXX := q2.vectors.1.trans q.vectors.1
    have hxx : s2.xx = some x := q2.vectors.2
    rcases ha : env.getFoM s2.log c with e | a
    · rw [measure_raised x c s2 e ha]
      exact h.value (c := ⟨x, c, .error e, s2.polls, s2.ticks⟩) (by dsimp only; rw [hlog]) rfl (.inl ⟨hvec, hbest⟩)
    · rcases hf : a.fom with _ | f
      · rw [measure_noValue x c s2 a ha hf]
        exact h.value (c := ⟨x, c, .ok a, s2.polls, s2.ticks⟩) (by dsimp only; rw [hlog]) rfl (.inl ⟨hvec, hbest⟩)
      · obtain ⟨fl, il, sc', hm⟩ := measure_answered (cfg := cfg) x c s2 a f ha hf
        have hsh : shownFoM cfg s2 (dirMul cfg.maximize f) = dirMul cfg.maximize f := by
          unfold shownFoM
          rw [if_neg (by rw [hk]; simp)]
        rw [hm]
        refine h.value (c := ⟨x, c, .ok a, s2.polls, s2.ticks⟩) (by dsimp only; rw [hlog]) rfl ?_
        dsimp only
        split
        · exact .inr ⟨f, hf, hxx, hsh⟩
        · exact .inl ⟨hvec, hbest⟩

theorem always_gradient (x : V) : AD.Always (AdBest cfg) (adGradient (O := O) lib env ops x) := by
  intro s h
  unfold adGradient
  rcases ops.getControls s.alg.ctl x with e | ⟨o, c⟩
  · exact h
  · have : AdBest cfg { s with
        alg := { s.alg with ctl := o, log := s.alg.log ++ [⟨x, c, env.getFoM s.alg.log c, s.alg.polls, s.alg.ticks⟩] }
        gradAt := s.gradAt ++ [s.alg.log.length] } := h.gradient rfl rfl rfl rfl
    dsimp only
    rcases ha : env.getFoM s.alg.log c with e | a
    · rw [ha] at this; exact this
    · rw [ha] at this
      rcases hf : a.fom with _ | f <;> simp only [hf] <;> exact this

theorem vector {s : AdState V C O ℚ} (h : AdBest cfg s) (hi : AdInv cfg env s) {x : V} (hx : s.alg.bestXX = some x) : BestVector cfg s.marks x := by
  rcases h.best with ⟨e, _⟩ | ⟨c, h1, f, h2, h3, h4⟩
  · rw [hx] at e; cases e
  · rw [hx] at h3
    refine ⟨c, ?_, f, h2, (Option.some.inj h3), fun c' hc' g hg => ?_⟩
    · exact List.mem_map.2 ⟨(false, c), List.mem_filter.2 ⟨h1, rfl⟩, rfl⟩
    · obtain ⟨⟨b, k⟩, hk, rfl⟩ := List.mem_map.1 hc'
      obtain ⟨hk1, hk2⟩ := List.mem_filter.1 hk
      obtain rfl : b = false := by simpa using hk2
      have := hi.le k hk1 g hg
      rw [h4] at this
      unfold dirMul at this
      unfold Better
      split at this <;> rename_i hm
      · rw [if_pos hm]; linarith
      · rw [if_neg hm]; linarith

end AdBest

/-! ### Searches -/

theorem AdMinimizer.Runs.makes {B : V → C → Prop} {grad : List (Call V C ℚ) → V → V} {m : AdMinimizer V ℚ} {st : Bool}
    {before l : List (Bool × Call V C ℚ)}
    (h : m.Runs (dirMul cfg.maximize) B grad cfg.fomMax (Halted cfg env) (∃ n, env.async n = .sigint) st before l) :
    m.Makes cfg env grad before l ∧ ∀ c ∈ l, B c.2.vec c.2.ctl := by
  induction m generalizing st before l with
  | stop => cases h; exact ⟨rfl, fun c hc => by cases hc⟩
  | value x k ih =>
    unfold AdMinimizer.Runs at h
    unfold AdMinimizer.Makes
    rcases h with ⟨h1, ⟨h2, rfl⟩ | h2⟩ | ⟨-, c, cs, rfl, hx, hb, h2⟩
    · exact ⟨Or.inl ⟨h1, .inl ⟨h2, rfl⟩⟩, fun c hc => by cases hc⟩
    · obtain ⟨h3, h4⟩ := ih _ h2
      exact ⟨Or.inl ⟨h1, .inr h3⟩, h4⟩
    · rcases hv : c.value with _ | f
      · rw [hv] at h2
        dsimp only at h2
        subst h2
        refine ⟨Or.inr ⟨c, [], rfl, hx, by rw [hv]⟩, fun c' hc' => ?_⟩
        rw [List.mem_singleton.1 hc']
        exact hx ▸ hb
      · rw [hv] at h2
        obtain ⟨h3, h4⟩ := ih _ h2
        refine ⟨Or.inr ⟨c, cs, rfl, hx, by rw [hv]; exact h3⟩, fun c' hc' => ?_⟩
        rcases List.mem_cons.1 hc' with rfl | hc'
        · exact hx ▸ hb
        · exact h4 c' hc'
  | gradient x k ih =>
    unfold AdMinimizer.Runs at h
    unfold AdMinimizer.Makes
    obtain ⟨c, cs, rfl, hx, hb, h2⟩ := h
    rcases hv : c.value with _ | f
    · rw [hv] at h2
      dsimp only at h2
      subst h2
      refine ⟨⟨c, [], rfl, hx, by rw [hv]⟩, fun c' hc' => ?_⟩
      rw [List.mem_singleton.1 hc']
      exact hx ▸ hb
    · rw [hv] at h2
      obtain ⟨h3, h4⟩ := ih _ h2
      refine ⟨⟨c, cs, rfl, hx, by rw [hv]; exact h3⟩, fun c' hc' => ?_⟩
      rcases List.mem_cons.1 hc' with rfl | hc'
      · exact hx ▸ hb
      · exact h4 c' hc'

theorem marks_calls (s : AdState V C O ℚ) : s.marks.map (·.2) = s.alg.log := by
  unfold AdState.marks
  generalize s.gradAt = g
  rw [List.map_map]
  conv_rhs => rw [← List.zipIdx_map_fst 0 s.alg.log]
  rfl

/-- a run that failed has a reason for it -/
theorem AdFails.reason {s : AdState V C O ℚ} (hi : AdInv cfg env s) {e : PyErr} (h : AdFails cfg env e s.alg) : EndReason cfg env s.marks := by
  rcases h with ⟨a, c, h1, -, h2⟩ | ⟨-, h⟩ | ⟨-, h⟩
  · left
    rw [← marks_calls] at h1
    obtain ⟨a', b', h3, rfl, h4⟩ := List.map_eq_append_iff.1 h1
    obtain ⟨c', rfl, rfl⟩ := List.map_eq_singleton_iff.1 h4
    refine ⟨a', c', h3, ?_⟩
    unfold Call.value
    rcases h2 with h2 | ⟨-, x, h2, h5⟩
    · rw [h2]
    · rw [h2]; exact h5
  · exact .inr (.inl h)
  · refine .inr (.inr fun c hc f hf => ?_)
    obtain ⟨⟨b, k⟩, hk, rfl⟩ := List.mem_map.1 hc
    obtain ⟨hk1, hk2⟩ := List.mem_filter.1 hk
    obtain rfl : b = false := by simpa using hk2
    rw [← h]
    exact hi.le k hk1 f hf

end
end QuOCS
