/-
Drift compensation inside of a search: the announced value is the mean over the last evaluations, and they were made with the kept vector.
-/
import Verif.Lemmas.BestMean
import Verif.Lemmas.NoDrift
import Verif.Props.Drift

set_option linter.unusedSectionVars false
set_option linter.unusedVariables false

namespace QuOCS

section
variable {K V C O F α : Type} [LE K] [DecidableLE K] [Field F] [LinearOrder F] [IsStrictOrderedRing F]
variable {cfg : AlgCfg K F} {env : Env V C F} {ops : CtlOps O V C} {I : O → Prop} {S : O → V → C → Prop}
  {SM : O → C → Prop} {M : O → V → Prop} {D : Prop}

/-- After the calls `h`, everything the search announces is the mean over the evaluations of the same point directly before. -/
def Announces (h : List (Ev K V F)) (st : Strat K V F α) : Prop :=
  ∀ evs m pre post x it v (r : F), Plays st evs m → evs = pre ++ ⟨.drift x it v, r⟩ :: post →
    ∃ before fs t, h ++ pre = before ++ measurements x it fs ++ [⟨.now, t⟩] ∧ fs ≠ [] ∧ v = average fs

theorem Announces.step {h : List (Ev K V F)} {o : Op K V F} {k : o.Res → Strat K V F α} (ha : Announces h (.op o k)) (r : o.Res) :
    Announces (h ++ [⟨o, r⟩]) (k r) := by
  intro evs m pre post x it v r' hp he
  obtain ⟨before, fs, t, h1, h2⟩ := ha (⟨o, r⟩ :: evs) m (⟨o, r⟩ :: pre) post x it v r' (.cons _ _ _ _ _ hp) (by rw [he]; rfl)
  exact ⟨before, fs, t, by rw [← h1]; simp, h2⟩

theorem Announces.noDrift {st : Strat K V F α} (hd : st.NoDrift) (h : List (Ev K V F)) : Announces h st := by
  intro evs m pre post x it v r hp he
  exfalso
  induction hp generalizing pre with
  | nil m => simp at he
  | cons o k r0 evs m' hp ih =>
    rcases pre with _ | ⟨e, pre⟩
    · cases he
      exact hd.1 _ _ _ rfl
    · cases he
      exact ih (hd.2 _) pre rfl

/-- The last calls of the search `h` as evaluations of one point, seen from the state. -/
def TailMeasured (cfg : AlgCfg K F) (S : O → V → C → Prop) (h : List (Ev K V F)) (s : AlgState V C O F) : Prop :=
  ∀ before x it fs, (h = before ++ measurements x it fs ∨ ∃ t, h = before ++ measurements x it fs ++ [⟨.now, t⟩]) →
    ∃ group ms, List.Forall₂ (Obtained cfg) group ms ∧ ms.map Prod.fst = fs ∧ group.reduceOption <:+ s.log ∧
      (∀ c, some c ∈ group → S s.ctl x c.ctl ∧ c.vec = x) ∧ ((∃ c, some c ∈ group) → s.xx = some x)

theorem noMeasurements {s : AlgState V C O F} {x : V} :
    ∃ group ms, List.Forall₂ (Obtained cfg) group ms ∧ ms.map Prod.fst = [] ∧ group.reduceOption <:+ s.log ∧
      (∀ c, some c ∈ group → S s.ctl x c.ctl ∧ c.vec = x) ∧ ((∃ c, some c ∈ group) → s.xx = some x) :=
  ⟨[], [], .nil, rfl, List.nil_suffix, by simp, by simp⟩

/-- the last call of measurements -/
theorem measurements_last {h before : List (Ev K V F)} {e : Ev K V F} {x : V} {it : ℕ} {fs : List F}
    (he : h ++ [e] = before ++ measurements x it fs) (hne : fs ≠ []) :
    ∃ fs' f, fs = fs' ++ [f] ∧ e = ⟨.eval x it, f⟩ ∧ h = before ++ measurements x it fs' := by
  obtain ⟨fs', f, rfl⟩ := List.eq_nil_or_concat fs |>.resolve_left hne
  simp only [List.concat_eq_append] at he ⊢
  have : before ++ measurements x it (fs' ++ [f]) = (before ++ measurements x it fs') ++ [(⟨.eval x it, f⟩ : Ev K V F)] := by
    simp [measurements]
  rw [this] at he
  obtain ⟨h1, h2⟩ := List.append_inj' he rfl
  exact ⟨fs', f, rfl, by simpa using h2, h1⟩

theorem TailMeasured.eval (hR : ReproMean ops I S SM M) (hkg : cfg.kind ≠ .grape) (hre : cfg.reEval = none) {h : List (Ev K V F)} {x : V} {it : ℕ}
    {s s' : AlgState V C O F} {r : F} (hI : I s.ctl) (hT : TailMeasured cfg S h s) (he : algHandler cfg env ops (.eval x it) s = (.ok r, s')) :
    TailMeasured cfg S (h ++ [⟨.eval x it, r⟩]) s' := by
  simp only [algHandler] at he
  rw [if_neg hkg] at he
  unfold innerCall at he
  rw [Prog.modify_bind, Prog.bind_apply] at he
  rcases hc : routineCall cfg env ops x it { s with isRecord := false, stepNumber := 0 } with ⟨e | f, s1⟩
  · rw [hc] at he; simp only [Prod.mk.injEq] at he; cases he.1
  rw [hc] at he
  simp only [hre] at he
  cases he
  obtain ⟨o, ho⟩ := routine_step (s := { s with isRecord := false, stepNumber := 0 }) hR hI hc
  obtain ⟨σ, hσ⟩ := ho.obt
  intro before y jt fs hh
  by_cases hne : fs = []
  · subst hne
    exact noMeasurements
  rcases hh with hh | ⟨t, hh⟩
  · obtain ⟨fs', f, rfl, h1, h2⟩ := measurements_last hh hne
    cases h1
    obtain ⟨group, ms, g1, g2, g3, g4, g5⟩ := hT before x it fs' (.inl h2)
    refine ⟨group ++ [o], ms ++ [(r, σ)], List.rel_append g1 (.cons hσ .nil), by simp [g2], ?_, ?_, ?_⟩
    · obtain ⟨l, hl⟩ := g3
      refine ⟨l, ?_⟩
      rw [List.reduceOption_append, ← List.append_assoc, hl]
      exact ho.log.symm
    · intro c hcc
      rcases List.mem_append.1 hcc with hcc | hcc
      · exact ⟨ho.keep _ _ (g4 c hcc).1, (g4 c hcc).2⟩
      · obtain ⟨m1, m2, m3⟩ := ho.made c (List.mem_singleton.1 hcc).symm
        exact ⟨m2, m1⟩
    · rintro ⟨c, hcc⟩
      rcases List.mem_append.1 hcc with hcc | hcc
      · rcases ho.xx with hx | hx
        · exact hx.trans (g5 ⟨c, hcc⟩)
        · exact hx
      · exact (ho.made c (List.mem_singleton.1 hcc).symm).2.2
  · obtain ⟨-, h2⟩ := List.append_inj' hh rfl
    cases h2

theorem TailMeasured.quiet {h : List (Ev K V F)} {o : Op K V F} {r : o.Res} {s s' : AlgState V C O F} (hT : TailMeasured cfg S h s)
    (he : ∀ x it, o ≠ .eval x it) (h1 : s'.ctl = s.ctl) (h2 : s'.log = s.log) (h3 : s'.xx = s.xx) :
    TailMeasured cfg S (h ++ [⟨o, r⟩]) s' := by
  intro before y jt fs hh
  by_cases hne : fs = []
  · subst hne
    exact noMeasurements
  rcases hh with hh | ⟨t, hh⟩
  · obtain ⟨fs', f, rfl, e1, -⟩ := measurements_last hh hne
    cases e1
    exact absurd rfl (he _ _)
  · obtain ⟨e1, -⟩ := List.append_inj' hh rfl
    have := hT before y jt fs (.inl e1)
    rw [h1, h2, h3]
    exact this

/-- A search whose announcements are means of its last evaluations keeps the relation between the best figure of merit and the kept vector. -/
theorem InMean.interp_announces (hR : ReproMean ops I S SM M) (hk : cfg.kind = .dcrab) (hre : cfg.reEval = none) {α : Type}
    (st : Strat K V F α) : ∀ (h : List (Ev K V F)), Announces h st →
      Leads (fun s : AlgState V C O F => InMean cfg D I S s ∧ TailMeasured cfg S h s) (InMean cfg D I S) (st.interp (algHandler cfg env ops)) := by
  have hne : cfg.reEval ≠ some [] := by rw [hre]; simp
  have hkg : cfg.kind ≠ .grape := by rw [hk]; decide
  induction st with
  | ret a =>
    intro h _ s r s' hs he
    cases he
    exact hs.1
  | op o k ih =>
    intro h ha s r s' hs he
    unfold Strat.interp at he
    rw [Prog.bind_apply] at he
    rcases ho : algHandler cfg env ops o s with ⟨e | q, s1⟩
    · rw [ho] at he; simp only [Prod.mk.injEq] at he; cases he.1
    rw [ho] at he
    dsimp only at he
    refine ih q (h ++ [⟨o, q⟩]) (ha.step q) s1 r s' ?_ he
    by_cases hev : ∃ x it, o = .eval x it
    · obtain ⟨x, it, rfl⟩ := hev
      exact ⟨InMean.eval hR hk hne x it hs.1 ho, hs.2.eval hR hkg hre hs.1.inv ho⟩
    by_cases hdr : ∃ x it v, o = .drift x it v
    · obtain ⟨x, it, v, rfl⟩ := hdr
      have htab := TablesOK.handler (cfg := cfg) (env := env) (ops := ops) (.drift x it v) s q s1 hs.1.tables ho
      obtain ⟨before, fs, t, a1, a2, a3⟩ := ha [⟨.drift x it v, q⟩] (k q) [] [] x it v q (.cons _ _ _ _ _ (.nil _)) rfl
      rw [List.append_nil] at a1
      obtain ⟨group, ms, g1, g2, g3, g4, g5⟩ := hs.2 before x it fs (.inr ⟨t, a1⟩)
      simp only [algHandler] at ho
      unfold innerDrift at ho
      rcases hx : s.xx with _ | y
      · rw [hx] at ho; cases ho
      rw [hx] at ho
      cases ho
      refine ⟨⟨hs.1.inv, htab, ?_⟩, hs.2.quiet (fun _ _ h => by cases h) rfl rfl hx.symm⟩
      have hg : group ≠ [] := by
        rintro rfl
        cases g1
        exact a2 g2.symm
      have := mean_of_group (cfg := cfg) (P := fun c => S s.ctl x c.ctl ∧ (D ∨ c.vec = x ∨ c.vec ∈ s.paraList)) (log := s.log) hg g3.isInfix
        (fun c hc => ⟨(g4 c hc).1, .inr (.inl (g4 c hc).2)⟩) g1
      rw [g2, ← a3] at this
      refine this.imp_right ?_
      rintro ⟨hc, hm⟩
      rw [g5 hc] at hx
      cases hx
      exact ⟨x, rfl, hm⟩
    · have q1 := handler_quiet o (fun x it h => hev ⟨x, it, h⟩) (fun x it v h => hdr ⟨x, it, v, h⟩) s s1 q ho
      exact ⟨hs.1.frame q1.ctl q1.bestFoM q1.bestXX q1.log q1.paraList (by rw [q1.frame]) (by rw [q1.frame]),
        hs.2.quiet (fun x it h => hev ⟨x, it, h⟩) q1.ctl q1.log q1.xx⟩

end

section
variable {K F : Type} {n : ℕ} [Field K] [LinearOrder K] [Field F] [LinearOrder F] [IsStrictOrderedRing F]

/-- Nelder-Mead, with any drift compensation -/
theorem nelderMead_announces (c : NmCfg K F n) (fuel i : ℕ) (x0 : Vec K n) (sim : List (Vec K n)) (sg : Vec K n) :
    Announces [] (nelderMead c fuel i x0 sim sg) := by
  unfold nelderMead
  split
  · intro evs m pre post x it v r hp he
    obtain ⟨-, before, last, due, fs, t, h1, -, -, h2, h3, h4⟩ := C93_announcement hp he
    refine ⟨_, fs, t, h1, ?_, ?_⟩
    · rintro rfl
      exact h3 h2.symm
    · rw [h4, ← h2]
      rfl
  · exact .noDrift (Strat.NoDrift.fail _) _

end
end QuOCS
