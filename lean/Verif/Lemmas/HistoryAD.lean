/-
The lists of a run and the signals, for automatic differentiation.
-/
import Verif.Lemmas.History
import Verif.Props.AD

set_option linter.unusedSectionVars false
set_option linter.unusedVariables false

namespace QuOCS

variable {K V C O F G : Type} [LE K] [DecidableLE K]
variable [Add F] [Sub F] [Mul F] [Div F] [Neg F] [Zero F] [One F] [NatCast F] [LE F] [LT F] [DecidableLE F]
  [DecidableLT F] [FloatOrder F]
variable {cfg : AlgCfg K F} {env : Env V C F} {ops : CtlOps O V C}

theorem valueCalls_value (g : List ℕ) (log : List (Call V C F)) (k : Call V C F) (h : ∀ i ∈ g, i < log.length) :
    valueCalls g (log ++ [k]) = valueCalls g log ++ [k] := by
  unfold valueCalls
  rw [List.zipIdx_append, List.filter_append, List.map_append]
  have : log.length ∉ g := fun hm => absurd (h _ hm) (by omega)
  simp [this]

theorem valueCalls_grad (g : List ℕ) (log : List (Call V C F)) (k : Call V C F) :
    valueCalls (g ++ [log.length]) (log ++ [k]) = valueCalls g log := by
  unfold valueCalls
  rw [List.zipIdx_append, List.filter_append, List.map_append]
  have h1 : log.zipIdx.filter (fun p => p.2 ∉ g ++ [log.length]) = log.zipIdx.filter (fun p => p.2 ∉ g) := by
    refine List.filter_congr fun p hp => ?_
    have := (List.mem_zipIdx hp).2.1
    have : p.2 ≠ log.length := by omega
    simp [this]
  rw [h1]
  simp

/-- `m` keeps `P` as long as it does not raise, and leads to `Q` in any case. -/
def KeepsOk {S α : Type} (P Q : S → Prop) (m : Prog S α) : Prop :=
  ∀ s, P s → Q (m s).2 ∧ (isOk (m s).1 = true → P (m s).2)

namespace KeepsOk
variable {S α β : Type} {P Q : S → Prop}

theorem pure (hPQ : ∀ s, P s → Q s) (a : α) : KeepsOk P Q (Pure.pure a : Prog S α) := fun _ h => ⟨hPQ _ h, fun _ => h⟩
theorem get (hPQ : ∀ s, P s → Q s) : KeepsOk P Q (Prog.get : Prog S S) := fun _ h => ⟨hPQ _ h, fun _ => h⟩
theorem lift (hPQ : ∀ s, P s → Q s) (x : Py α) : KeepsOk P Q (Prog.lift x : Prog S α) := fun _ h => ⟨hPQ _ h, fun _ => h⟩
theorem raise (hPQ : ∀ s, P s → Q s) (e : PyErr) : KeepsOk P Q (Prog.raise e : Prog S α) := fun _ h => ⟨hPQ _ h, fun _ => h⟩
theorem bind {m : Prog S α} {f : α → Prog S β} (hm : KeepsOk P Q m) (hf : ∀ a, KeepsOk P Q (f a)) :
    KeepsOk P Q (m >>= f) := by
  intro s h
  have h1 := hm s h
  rw [Prog.bind_apply]
  rcases hs : m s with ⟨e | a, s1⟩ <;> rw [hs] at h1
  · exact ⟨h1.1, fun h => by cases h⟩
  · exact hf a s1 (h1.2 rfl)
end KeepsOk

/-- The invariants for runs with gradients. -/
def AdTelling (cfg : AlgCfg K F) (s : AdState V C O F) : Prop :=
  (∀ i ∈ s.gradAt, i < s.alg.log.length) ∧ Telling cfg id id ((valueCalls s.gradAt s.alg.log).map Call.seen) s.alg
def AdTold (cfg : AlgCfg K F) (s : AdState V C O F) : Prop :=
  Told cfg id id ((valueCalls s.gradAt s.alg.log).map Call.seen) s.alg

theorem AdTelling.told {s : AdState V C O F} (h : AdTelling cfg s) : AdTold cfg s := h.2.toTold

theorem AdTelling.same {s : AdState V C O F} (h : AdTelling cfg s) (t : AlgState V C O F) (h0 : t.log = s.alg.log)
    (h1 : t.iterList = s.alg.iterList) (h2 : t.fomList = s.alg.fomList) (h3 : t.signals = s.alg.signals)
    (h4 : t.iter = s.alg.iter) (h5 : t.stepNumber = s.alg.stepNumber) (h6 : t.running = s.alg.running) :
    AdTelling cfg { s with alg := t } := by
  refine ⟨?_, ?_⟩
  · show ∀ i ∈ s.gradAt, i < t.log.length
    rw [h0]; exact h.1
  · show Telling cfg id id ((valueCalls s.gradAt t.log).map Call.seen) t
    rw [h0]; exact h.2.frame h1 h2 h3 h4 (fun _ h => by rw [h5]; exact h) (by rw [h6]; exact id)

theorem adValue_keeps (hk : cfg.kind = .grape) (x : V) :
    KeepsOk (AdTelling cfg) (AdTold cfg) (onAlg (adValue cfg env ops x) : Prog (AdState V C O F) F) := by
  intro s h
  obtain ⟨k, hk1, hlog, ht, hok⟩ := Telling.routine (cfg := cfg) (env := env) (ops := ops) (gs := id) (gl := id)
    (l := (valueCalls s.gradAt s.alg.log).map Call.seen) (s := { s.alg with isRecord := false }) (.inl (.inl (by rw [hk]; decide)))
    (.inl (.inr hk)) (h.2.frame rfl rfl rfl rfl (fun _ h => h) id) x 0
  have e : adValue cfg env ops x s.alg = routineCall cfg env ops x 0 { s.alg with isRecord := false } := rfl
  unfold onAlg
  simp only [e]
  generalize routineCall cfg env ops x 0 { s.alg with isRecord := false } = r at hlog ht hok
  have hv : valueCalls s.gradAt r.2.log = valueCalls s.gradAt s.alg.log ++ k := by
    rw [hlog]
    rcases k with _ | ⟨c, _ | ⟨c', k⟩⟩
    · simp
    · exact valueCalls_value _ _ _ h.1
    · simp at hk1
  unfold AdTelling AdTold
  dsimp only
  rw [hv, List.map_append]
  refine ⟨ht, fun hr => ⟨fun i hi => ?_, hok hr⟩⟩
  rw [hlog, List.length_append]
  have := h.1 i hi
  show i < s.alg.log.length + k.length
  omega

theorem adGradient_keeps (lib : AdLib V C F) (x : V) :
    KeepsOk (AdTelling cfg) (AdTold cfg) (adGradient lib env ops x : Prog (AdState V C O F) V) := by
  intro s h
  unfold adGradient
  rcases ops.getControls s.alg.ctl x with e | ⟨o, c⟩
  · exact ⟨h.told, fun _ => h⟩
  · have : ∀ l : Call V C F, AdTelling cfg
        ({ s with alg := { s.alg with ctl := o, log := s.alg.log ++ [l] }, gradAt := s.gradAt ++ [s.alg.log.length] } :
          AdState V C O F) := by
      intro l
      refine ⟨?_, ?_⟩
      · intro i hi
        simp only [List.mem_append, List.mem_singleton, List.length_append, List.length_singleton] at hi ⊢
        rcases hi with hi | hi
        · have := h.1 i hi; omega
        · omega
      · show Telling cfg id id ((valueCalls (s.gradAt ++ [s.alg.log.length]) (s.alg.log ++ [l])).map Call.seen) _
        rw [valueCalls_grad]
        exact h.2.frame rfl rfl rfl rfl (fun _ h => h) id
    dsimp only
    rcases env.getFoM s.alg.log c with e | a
    · exact ⟨(this _).told, fun _ => this _⟩
    · rcases hf : a.fom with _ | f <;> simp only [hf] <;> exact ⟨(this _).told, fun _ => this _⟩

theorem adInterp_keeps (hk : cfg.kind = .grape) (lib : AdLib V C F) {α : Type} (st : AdStrat V F α) :
    KeepsOk (AdTelling cfg) (AdTold cfg) (st.interp lib cfg env ops : Prog (AdState V C O F) α) := by
  induction st with
  | ret a => exact .pure (fun _ h => h.told) a
  | value x k ih => exact .bind (adValue_keeps hk x) fun f => ih f
  | grad x k ih => exact .bind (adGradient_keeps lib x) fun g => ih g
  | fail e => exact .raise (fun _ h => h.told) e

theorem adLoop_keeps (hk : cfg.kind = .grape) (lib : AdLib V C F) (n k : ℕ) :
    KeepsOk (AdTelling cfg) (AdTold cfg) (adLoop lib cfg env ops n k : Prog (AdState V C O F) Unit) := by
  have told : ∀ s : AdState V C O F, AdTelling cfg s → AdTold cfg s := fun _ h => h.told
  have hu : KeepsOk (AdTelling cfg) (AdTold cfg) (onAlg (updateBasePulses ops) : Prog (AdState V C O F) Unit) := by
    intro s h
    unfold onAlg updateBasePulses
    dsimp only
    rcases s.alg.bestXX with _ | x
    · exact ⟨h.told, fun _ => h⟩
    · dsimp only
      rcases ops.updateBase s.alg.ctl x with e | o
      · exact ⟨h.told, fun _ => h⟩
      · have := h.same { s.alg with ctl := o, bestXX := some x, paraList := s.alg.paraList ++ [x] } rfl rfl rfl rfl rfl rfl rfl
        exact ⟨this.told, fun _ => this⟩
  induction n generalizing k with
  | zero => exact .pure told _
  | succ n ih =>
    refine .bind (.bind ?_ fun _ => .bind (.get told) fun s => .bind (.lift told _) fun o =>
      .bind ?_ fun _ => .bind ?_ fun _ => hu) fun _ => ih (k + 1)
    · intro s h
      have := h.same { s.alg with superIt := k } rfl rfl rfl rfl rfl rfl rfl
      exact ⟨this.told, fun _ => this⟩
    · intro s h
      have := h.same { s.alg with ctl := o } rfl rfl rfl rfl rfl rfl rfl
      exact ⟨this.told, fun _ => this⟩
    · exact .bind (.get told) fun s => .bind (.lift told _) fun _ => .bind (.lift told _) fun _ =>
        .bind (.lift told _) fun _ => adInterp_keeps hk lib _

/-- In every run with automatic differentiation. -/
theorem adExecute_told (lib : AdLib V C F) (o : O) :
    AdTold (adCfg cfg) (adExecute lib cfg env ops o).2 :=
  (adLoop_keeps (cfg := adCfg cfg) (env := env) (ops := ops) rfl lib cfg.maxSI 1
    ⟨initState (adCfg cfg) env o, []⟩ ⟨by simp,
      ⟨⟨rfl, rfl, ⟨[], rfl, .inl rfl⟩, fun _ => rfl⟩, fun _ => rfl, fun _ => ⟨rfl, rfl⟩⟩⟩).1

end QuOCS
