/-
Whatever is measured, written to a file or returned in a run was built by the controls object.
-/
import Verif.Lemmas.Run
import Verif.Model.AD
import Verif.Props.AD

set_option linter.unusedSectionVars false
set_option linter.unusedVariables false

namespace QuOCS

variable {K V C O F : Type} [LE K] [DecidableLE K]
variable [Add F] [Sub F] [Mul F] [Div F] [Neg F] [Zero F] [One F] [NatCast F] [LE F] [LT F] [DecidableLE F]
  [DecidableLT F]
variable {cfg : AlgCfg K F} {env : Env V C F} {ops : CtlOps O V C} {d : Bool}

/-- A property of controls objects that survives their methods. -/
structure KeptByOps (ops : CtlOps O V C) (I : O → Prop) : Prop where
  get : ∀ o x o' c, I o → ops.getControls o x = .ok (o', c) → I o'
  select : ∀ o k o', I o → ops.selectBasis k o = .ok o' → I o'
  base : ∀ o x o', I o → ops.updateBase o x = .ok o' → I o'

/-- The controls `c` were built for the search vector `x` by an object with `I`. -/
def BuiltBy (ops : CtlOps O V C) (I : O → Prop) (x : V) (c : C) : Prop :=
  ∃ o o', I o ∧ ops.getControls o x = .ok (o', c)

/-- All controls seen so far were built by objects with `I`. -/
structure AllBuilt (ops : CtlOps O V C) (I : O → Prop) (s : AlgState V C O F) : Prop where
  ctl : I s.ctl
  log : ∀ c ∈ s.log, BuiltBy ops I c.vec c.ctl
  sent : ∀ c, s.commCtl = some c → ∃ x, BuiltBy ops I x c
  dumps : ∀ e ∈ s.dumps, ∀ c, e.ctl = some c → ∃ x, BuiltBy ops I x c

variable {I : O → Prop}

theorem AllBuilt.frame {s s' : AlgState V C O F} (h : AllBuilt ops I s) (h1 : s'.ctl = s.ctl) (h2 : s'.log = s.log)
    (h3 : s'.commCtl = s.commCtl) (h4 : s'.dumps = s.dumps) : AllBuilt ops I s' :=
  ⟨h1 ▸ h.ctl, h2 ▸ h.log, h3 ▸ h.sent, h4 ▸ h.dumps⟩

theorem AllBuilt.quiet {s s' : AlgState V C O F} (h : AllBuilt ops I s) (q : Quiet env s s') : AllBuilt ops I s' :=
  h.frame q.ctl q.log q.commCtl q.dumps

theorem AllBuilt.dump {s : AlgState V C O F} (h : AllBuilt ops I s) (e : DumpCall C F) (he : e.ctl = s.commCtl) :
    ∀ e' ∈ s.dumps ++ [e], ∀ c, e'.ctl = some c → ∃ x, BuiltBy ops I x c := by
  intro e' h' c hc
  rcases List.mem_append.1 h' with h' | h'
  · exact h.dumps e' h' c hc
  · rw [List.mem_singleton.1 h', he] at hc
    exact h.sent c hc

theorem AllBuilt.call {s : AlgState V C O F} (h : AllBuilt ops I s) (k : Call V C F) (hk : BuiltBy ops I k.vec k.ctl) :
    ∀ k' ∈ s.log ++ [k], BuiltBy ops I k'.vec k'.ctl := by
  intro k' h'
  rcases List.mem_append.1 h' with h' | h'
  · exact h.log k' h'
  · rw [List.mem_singleton.1 h']; exact hk

theorem AllBuilt.measure {s : AlgState V C O F} (h : AllBuilt ops I s) {x : V} {c : C} (hb : BuiltBy ops I x c) :
    AllBuilt ops I (measure cfg env x c s).2 := by
  rcases ha : env.getFoM s.log c with e | a
  · rw [measure_raised x c s e ha]
    exact ⟨h.ctl, h.call _ hb, h.sent, h.dumps⟩
  · rcases hf : a.fom with _ | f
    · rw [measure_noValue x c s a ha hf]
      exact ⟨h.ctl, h.call _ hb, h.sent, h.dumps⟩
    · obtain ⟨fl, il, sc, he⟩ := measure_answered (cfg := cfg) x c s a f ha hf
      rw [he]
      refine ⟨h.ctl, h.call _ hb, h.sent, ?_⟩
      dsimp only
      by_cases hst : a.status.getD 0 = 0
      · rw [if_pos hst]; exact h.dump _ rfl
      · rw [if_neg hst]; exact h.dumps

theorem AllBuilt.routine (hI : KeptByOps ops I) {s : AlgState V C O F} (h : AllBuilt ops I s) (x : V) (it : ℕ) :
    AllBuilt ops I (routineCall cfg env ops x it s).2 := by
  have hs := routineCall_spec (cfg := cfg) (env := env) (ops := ops) x it s
  generalize (routineCall cfg env ops x it s).1 = r at hs
  generalize (routineCall cfg env ops x it s).2 = s' at hs
  have sent : ∀ (s1 : AlgState V C O F) (o : O) (c : C), Quiet env s s1 → ops.getControls s.ctl x = .ok (o, c) →
      AllBuilt ops I { s1 with xx := some x, algIter := it, iter := s.iter + 1, ctl := o, commCtl := some c, signals := s1.signals ++ [.controls c] } := by
    intro s1 o c q hg
    have h1 := h.quiet q
    exact ⟨hI.get _ _ _ _ h.ctl hg, h1.log, fun c' hc => by cases hc; exact ⟨x, s.ctl, o, h.ctl, hg⟩, h1.dumps⟩
  cases hs with
  | stopped s1 q hr => exact h.quiet q
  | sigint s1 r e q hk => exact (h.quiet q).frame rfl rfl rfl rfl
  | noControls s1 e q hr hi hg => exact (h.quiet q).frame rfl rfl rfl rfl
  | window s1 o c s2 q hr hi hg q2 hr2 ha => exact (sent s1 o c q hg).quiet q2
  | windowSigint s1 o c s2 r e q hr hi hg q2 hk => exact ((sent s1 o c q hg).quiet q2).frame rfl rfl rfl rfl
  | measured s1 o c s2 q hr hi hg' ht hg q2 hr2 => exact ((sent s1 o c q hg).quiet q2).measure ⟨s.ctl, o, h.ctl, hg⟩

theorem AllBuilt.act (hI : KeptByOps ops I) {b : Bool} {s s' : AlgState V C O F} (h : AllBuilt ops I s)
    (a : Act cfg env ops d b s s') : AllBuilt ops I s' := by
  cases a with
  | quiet q => exact h.quiet q
  | fresh x it s s0 r s' h0 h1 h2 hr =>
    have := AllBuilt.routine (cfg := cfg) (env := env) hI (s := s0) (h.frame (by rw [h0]) (by rw [h0]) (by rw [h0]) (by rw [h0])) x it
    rw [hr] at this
    exact this
  | again x it s hh => exact h.routine hI x it
  | record s mu sg x hk hh hx => exact ⟨h.ctl, h.log, h.sent, h.dump _ rfl⟩
  | drift s v x hd hx => exact ⟨h.ctl, h.log, h.sent, h.dump _ rfl⟩
  | grapeControls b s x o c hk hg => exact ⟨hI.get _ _ _ _ h.ctl hg, h.log, h.sent, h.dumps⟩
  | selectBasis s k o hk hg => exact ⟨hI.select _ _ _ h.ctl hg, h.log, h.sent, h.dumps⟩
  | updateBase s x o hx hg => exact ⟨hI.base _ _ _ h.ctl hg, h.log, h.sent, h.dumps⟩
  | _ => exact h.frame rfl rfl rfl rfl

/-- In every execution, whether it ends normally or with an exception. -/
theorem execute_built (hI : KeptByOps ops I) (dsm : Dsm K V F) {o : O} (ho : I o) :
    AllBuilt ops I (execute cfg env ops dsm o).2 :=
  (execute_inv (d := true) (AllBuilt ops I) (AllBuilt ops I) dsm o (.inl rfl)
    ⟨ho, by simp [initState], by simp [initState], by simp [initState]⟩
    (fun s s' a h => h.act hI a) (fun s s' a h => h.act hI a) (fun s h => h)).1

/-- The same for runs with automatic differentiation. -/
theorem adExecute_built (lib : AdLib V C F) (hI : KeptByOps ops I) {o : O} (ho : I o) :
    AllBuilt ops I (adExecute lib cfg env ops o).2.alg := by
  have hv : ∀ x, AD.Always (fun s : AdState V C O F => AllBuilt ops I s.alg) (onAlg (adValue (adCfg cfg) env ops x)) := by
    intro x s h
    have := AllBuilt.routine (cfg := adCfg cfg) (env := env) hI (s := { s.alg with isRecord := false })
      (h.frame rfl rfl rfl rfl) x 0
    exact this
  have hg : ∀ x, AD.Always (fun s : AdState V C O F => AllBuilt ops I s.alg) (adGradient lib env ops x) := by
    intro x s h
    unfold adGradient
    rcases hc : ops.getControls s.alg.ctl x with e | ⟨o', c⟩
    · exact h
    · have : ∀ a, AllBuilt ops I { s.alg with ctl := o', log := s.alg.log ++ [⟨x, c, a, s.alg.polls, s.alg.ticks⟩] } :=
        fun a => ⟨hI.get _ _ _ _ h.ctl hc, h.call _ ⟨_, _, h.ctl, hc⟩, h.sent, h.dumps⟩
      dsimp only
      rcases env.getFoM s.alg.log c with e | a
      · exact this _
      · rcases hf : a.fom with _ | f <;> simp only [hf] <;> exact this _
  have hu : AD.Always (fun s : AdState V C O F => AllBuilt ops I s.alg) (onAlg (updateBasePulses ops)) := by
    intro s h
    unfold onAlg updateBasePulses
    dsimp only
    rcases s.alg.bestXX with _ | x
    · exact h
    · dsimp only
      rcases hc : ops.updateBase s.alg.ctl x with e | o'
      · exact h
      · exact ⟨hI.base _ _ _ h.ctl hc, h.log, h.sent, h.dumps⟩
  have loop : ∀ n k, AD.Always (fun s : AdState V C O F => AllBuilt ops I s.alg) (adLoop lib (adCfg cfg) env ops n k) := by
    intro n
    induction n with
    | zero => exact fun k => .pure _
    | succ n ih =>
      intro k
      refine .bind ?_ fun _ => ih (k + 1)
      intro s h
      unfold adSuperIteration
      have h1 : AllBuilt ops I { s.alg with superIt := k } := h.frame rfl rfl rfl rfl
      show AllBuilt ops I ((do
        let s ← (Prog.get : Prog (AdState V C O F) _)
        let o ← Prog.lift (ops.selectBasis k s.alg.ctl)
        onAlg (Prog.modify (fun s => { s with ctl := o }))
        adInnerRun lib (adCfg cfg) env ops k
        onAlg (updateBasePulses ops)) { s with alg := { s.alg with superIt := k } }).2.alg
      generalize hs1 : ({ s with alg := { s.alg with superIt := k } } : AdState V C O F) = s1
      have h1 : AllBuilt ops I s1.alg := hs1 ▸ h1
      rw [Prog.get_bind]
      rcases hc : ops.selectBasis k s1.alg.ctl with e | o'
      · exact h1
      · have h2 : AllBuilt ops I { s1.alg with ctl := o' } := ⟨hI.select _ _ _ h1.ctl hc, h1.log, h1.sent, h1.dumps⟩
        show AllBuilt ops I ((do
          adInnerRun lib (adCfg cfg) env ops k
          onAlg (updateBasePulses ops)) { s1 with alg := { s1.alg with ctl := o' } }).2.alg
        refine AD.Always.bind (P := fun s : AdState V C O F => AllBuilt ops I s.alg) ?_ (fun _ => hu) _ h2
        exact .bind .get fun s => .bind (.lift _) fun _ => .bind (.lift _) fun _ => .bind (.lift _) fun _ =>
          AD.always_interp hv hg _
  exact loop cfg.maxSI 1 _ ⟨ho, by simp [initState], by simp [initState], by simp [initState]⟩

end QuOCS
