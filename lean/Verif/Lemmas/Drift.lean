/-
When a Nelder-Mead search compensates for drift, and what it announces.
-/
import Mathlib.Algebra.Order.Field.Basic
import Mathlib.Tactic.Linarith
import Verif.Spec.Drift
import Verif.Lemmas.MapSearch

set_option linter.unusedSectionVars false
set_option linter.unusedVariables false

namespace QuOCS
variable {K V F α β : Type}

theorem Plays.bind {m : Strat K V F α} {f : α → Strat K V F β} {a : α} {e1 e2 : List (Ev K V F)} {m2 : Strat K V F β}
    (h1 : Plays m e1 (.ret a)) (h2 : Plays (f a) e2 m2) : Plays (Strat.bind m f) (e1 ++ e2) m2 := by
  generalize hr : Strat.ret a = z at h1
  induction h1 with
  | nil m => subst hr; exact h2
  | cons o k r evs m' h ih => exact .cons _ _ _ _ _ (ih hr)

/-- no announcement is made, and the result satisfies `Q` -/
def Strat.Calm (Q : α → Prop) : Strat K V F α → Prop
  | .ret a => Q a
  | .op o k => ¬ o.IsDrift ∧ ∀ r, (k r).Calm Q

theorem Strat.Calm.bind {Q : α → Prop} {R : β → Prop} {m : Strat K V F α} (hm : m.Calm Q) {f : α → Strat K V F β}
    (hf : ∀ a, Q a → (f a).Calm R) : (Strat.bind m f).Calm R := by
  induction m with
  | ret a => exact hf a hm
  | op o k ih => exact ⟨hm.1, fun r => ih r (hm.2 r)⟩

theorem Strat.Calm.fail {Q : α → Prop} (e : PyErr) : (Strat.fail e : Strat K V F α).Calm Q := ⟨id, fun r => nomatch r⟩

theorem Strat.Calm.lift {Q : α → Prop} {p : Py α} (h : ∀ a, p = .ok a → Q a) : (Strat.lift p : Strat K V F α).Calm Q := by
  cases p with
  | ok a => exact h a rfl
  | error e => exact .fail e

theorem Strat.Calm.wp {G : List (Ev K V F) → Op K V F → Prop} {A : List (Ev K V F) → Prop} {Q : α → Prop}
    {m : Strat K V F α} (hm : m.Calm Q) (hG : ∀ h o, ¬ o.IsDrift → G h o) {h : List (Ev K V F)} {t : ℚ}
    (hl : LastCompensation h t) : m.wp G A (fun h' a => LastCompensation h' t ∧ Q a) h := by
  induction m generalizing h with
  | ret a => exact ⟨hl, hm⟩
  | op o k ih => exact ⟨hG _ _ hm.1, fun r _ => ih r (hm.2 r) (.later _ _ _ hm.1 hl)⟩

section
variable {n : ℕ} [Field K] [LinearOrder K]
variable [Add F] [Sub F] [Mul F] [Div F] [Neg F] [Zero F] [One F] [NatCast F] [LE F] [LT F] [DecidableLE F]
  [DecidableLT F]
variable {c : NmCfg K F n} {co : NmCoef K} {t : ℚ}

/-- the time of the last compensation is kept -/
abbrev DriftAt (t : ℚ) (s : NmState K F n) : Prop := s.lastDrift = t
abbrev DriftAt2 (t : ℚ) (p : α × NmState K F n) : Prop := p.2.lastDrift = t

theorem nmEval_calm (x : Vec K n) {s : NmState K F n} (hs : DriftAt t s) : (nmEval x s).Calm (DriftAt2 t) := ⟨id, fun _ => hs⟩

theorem nmInit_calm (ks : List (Fin (n + 1))) : ∀ {s : NmState K F n}, DriftAt t s → (nmInit ks s).Calm (DriftAt t) := by
  induction ks with
  | nil => exact fun hs => hs
  | cons k ks ih => exact fun hs => (nmEval_calm _ hs).bind fun p hp => ih hp

theorem conv_calm {Q : α → Prop} {m : Bool → Strat K (Vec K n) F α} (h : ∀ b, (m b).Calm Q) :
    (Strat.bind nmConv m).Calm Q := ⟨id, fun b => h b⟩

theorem nmShrink_calm (js : List (Fin (n + 1))) : ∀ {s : NmState K F n}, DriftAt t s → (nmShrink co js s).Calm (DriftAt t) := by
  induction js with
  | nil => exact fun hs => hs
  | cons j js ih =>
    refine fun {s} hs => conv_calm fun b => ?_
    rcases b with _ | _
    · refine Strat.Calm.bind (Q := DriftAt2 t) (nmEval_calm _ ?_) fun p hp => ?_
      · exact hs
      · exact ih hp
    · exact hs

theorem nmExpand_calm (a b : Vec K n) (f : F) {s : NmState K F n} (hs : DriftAt t s) : (nmExpand co a b f s).Calm (DriftAt2 t) := by
  refine conv_calm fun b => ?_
  rcases b with _ | _
  · refine (nmEval_calm _ hs).bind fun p hp => ?_
    show Strat.Calm _ (if p.1 < f then _ else _)
    split <;> exact hp
  · exact hs

theorem nmOutside_calm (a : Vec K n) (f : F) {s : NmState K F n} (hs : DriftAt t s) : (nmOutside co a f s).Calm (DriftAt2 t) := by
  refine conv_calm fun b => ?_
  rcases b with _ | _
  · refine (nmEval_calm _ hs).bind fun p hp => ?_
    show Strat.Calm _ (if p.1 ≤ f then _ else _)
    split
    · exact hp
    · exact (nmShrink_calm _ hp).bind fun s1 h1 => h1
  · exact hs

theorem nmInside_calm (a : Vec K n) {s : NmState K F n} (hs : DriftAt t s) : (nmInside co a s).Calm (DriftAt2 t) := by
  refine conv_calm fun b => ?_
  rcases b with _ | _
  · refine (nmEval_calm _ hs).bind fun p hp => ?_
    show Strat.Calm _ (if p.1 < p.2.fsim (Fin.last n) then _ else _)
    split
    · exact hp
    · exact (nmShrink_calm _ hp).bind fun s1 h1 => h1
  · exact hs

theorem nmContract_calm (a b : Vec K n) (f : F) {s : NmState K F n} (hs : DriftAt t s) :
    (nmContract co a b f s).Calm (DriftAt2 t) := by
  refine (Strat.Calm.lift (Q := fun _ => True) fun _ _ => trivial).bind fun f2 _ => ?_
  show Strat.Calm _ (if f < f2 then _ else if f < s.fsim (Fin.last n) then _ else _)
  split
  · exact hs
  · split
    · exact nmOutside_calm _ _ hs
    · exact nmInside_calm _ hs

theorem nmMove_calm {s : NmState K F n} (hs : DriftAt t s) : (nmMove co s).Calm (DriftAt2 t) := by
  refine (nmEval_calm _ hs).bind fun p hp => ?_
  show Strat.Calm _ (if p.1 < p.2.fsim 0 then _ else _)
  split
  · exact nmExpand_calm _ _ _ hp
  · exact nmContract_calm _ _ _ hp

theorem nmFinish_calm {s : NmState K F n} (hs : DriftAt t s) : (nmFinish s).Calm (DriftAt t) := by
  refine ⟨id, fun b => ?_⟩
  rcases b with _ | _
  · exact ⟨id, fun _ => ⟨id, fun _ => hs⟩⟩
  · exact ⟨id, fun _ => hs⟩

theorem nmSum_wp {G : List (Ev K (Vec K n) F) → Op K (Vec K n) F → Prop} {A : List (Ev K (Vec K n) F) → Prop}
    (hG : ∀ h o, ¬ o.IsDrift → G h o) (m : ℕ) :
    ∀ (acc : F) (s : NmState K F n) {h : List (Ev K (Vec K n) F)}, (nmSum m acc s).wp G A (fun h' p => ∃ fs, fs.length = m ∧
      h' = h ++ measurements (s.sim 0) s.iterations fs ∧ p = (fs.foldl (· + ·) acc, { s with calls := s.calls + m })) h := by
  induction m with
  | zero => exact fun acc s h => ⟨[], rfl, (List.append_nil h).symm, rfl⟩
  | succ m ih =>
    intro acc s h
    refine ⟨hG _ _ id, fun f _ => Strat.wp_mono (ih (acc + f) { s with calls := s.calls + 1 }) ?_⟩
    rintro h' p ⟨fs, h1, h2, h3⟩
    refine ⟨f :: fs, by simp [h1], by rw [h2]; simp [measurements], h3.trans ?_⟩
    simp only [List.foldl_cons]
    rw [show s.calls + 1 + m = s.calls + (m + 1) by omega]

/-- what has happened when a value is announced -/
def Announced (c : NmCfg K F n) (h : List (Ev K (Vec K n) F)) (x : Vec K n) (it : ℕ) (v : F) : Prop :=
  ∃ h0 tl t0 fs t1, h = h0 ++ ⟨.readConv, false⟩ :: ⟨.now, t0⟩ :: measurements x it fs ++ [⟨.now, t1⟩] ∧
    fs.length = c.driftAverage ∧ c.driftAverage ≠ 0 ∧ v = fs.foldl (· + ·) 0 / (c.driftAverage : F) ∧
    LastCompensation h0 tl ∧ 0 < c.driftMinutes ∧ c.driftMinutes ≤ t0 - tl

/-- the calls that are allowed -/
def DriftG (c : NmCfg K F n) (h : List (Ev K (Vec K n) F)) (o : Op K (Vec K n) F) : Prop :=
  ∀ x it v, o = .drift x it v → Announced c h x it v

theorem DriftG.calm (h : List (Ev K (Vec K n) F)) (o : Op K (Vec K n) F) (ho : ¬ o.IsDrift) : DriftG c h o := by
  rintro x it v rfl
  exact absurd trivial ho

def DriftT : List (Ev K (Vec K n) F) → Prop := fun _ => True

theorem nmDrift_wp {s : NmState K F n} {h : List (Ev K (Vec K n) F)} (hl : LastCompensation h s.lastDrift) :
    (nmDrift c s).wp (DriftG c) DriftT (fun h' s' => LastCompensation h' s'.lastDrift) h := by
  unfold nmDrift
  by_cases hd : c.driftMinutes > 0
  · rw [if_pos hd]
    refine ⟨DriftG.calm _ _ id, fun b _ => ?_⟩
    have hl1 := hl.later _ _ ⟨.readConv, b⟩ id
    rcases b with _ | _
    · refine ⟨DriftG.calm _ _ id, fun t _ => ?_⟩
      have hl2 := hl1.later _ _ ⟨.now, t⟩ id
      show Strat.wp _ _ (if t - s.lastDrift ≥ c.driftMinutes then _ else _) _ _
      by_cases ht : t - s.lastDrift ≥ c.driftMinutes
      · rw [if_pos ht]
        unfold nmDriftDo
        rw [Strat.wp_bind]
        refine Strat.wp_mono (nmSum_wp DriftG.calm _ _ _) ?_
        rintro h' p ⟨fs, h1, h2, rfl⟩
        by_cases h0 : c.driftAverage = 0
        · simp only [h0, if_true]
          exact ⟨DriftG.calm _ _ id, fun r => nomatch r⟩
        · simp only [h0, if_false]
          refine ⟨DriftG.calm _ _ id, fun t' _ => ⟨?_, fun r _ => ?_⟩⟩
          · rintro x it v hv
            cases hv
            exact ⟨h, _, t, fs, t', by rw [h2]; simp, h1, h0, rfl, hl, hd, ht⟩
          · show LastCompensation _ t'
            rw [List.append_assoc]
            exact .renewed _ _ _ _ _ _
      · rw [if_neg ht]
        exact hl2
    · exact hl1
  · rw [if_neg hd]
    exact hl

theorem nmLoop_wpD (fuel : ℕ) : ∀ {s : NmState K F n} {h : List (Ev K (Vec K n) F)}, LastCompensation h s.lastDrift →
    (nmLoop c co fuel s).wp (DriftG c) DriftT (fun h' s' => LastCompensation h' s'.lastDrift) h := by
  induction fuel with
  | zero => exact fun hl => ⟨DriftG.calm _ _ id, fun r => nomatch r⟩
  | succ fuel ih =>
    intro s h hl
    refine ⟨DriftG.calm _ _ id, fun b _ => ?_⟩
    have hl1 := hl.later _ _ ⟨.readConv, b⟩ id
    rcases b with _ | _
    · show Strat.wp _ _ (nmMove co s >>= _) _ _
      rw [Strat.wp_bind]
      refine Strat.wp_mono ((nmMove_calm (t := s.lastDrift) rfl).wp DriftG.calm hl1) ?_
      rintro h' ⟨b, s1⟩ ⟨h1, h2⟩
      rcases b with _ | _
      · show Strat.wp _ _ (nmDrift c (nmSort c s1) >>= _) _ _
        rw [Strat.wp_bind]
        refine Strat.wp_mono (nmDrift_wp (s := nmSort c s1) (by rw [show (nmSort c s1).lastDrift = s.lastDrift from h2]; exact h1)) ?_
        intro h2 s2 hl2
        show Strat.wp _ _ (nmFinish s2 >>= _) _ _
        rw [Strat.wp_bind]
        refine Strat.wp_mono ((nmFinish_calm (t := s2.lastDrift) rfl).wp DriftG.calm hl2) ?_
        rintro h3 s3 ⟨h4, h5⟩
        exact ih (by rw [h5]; exact h4)
      · show LastCompensation h' s1.lastDrift
        rw [show s1.lastDrift = s.lastDrift from h2]
        exact h1
    · exact hl1

theorem nmRun_wpD (fuel : ℕ) (sim : Fin (n + 1) → Vec K n) : (nmRun c fuel sim).wp (DriftG c) DriftT (fun _ _ => True) [] := by
  unfold nmRun
  refine ⟨DriftG.calm _ _ id, fun _ _ => ⟨DriftG.calm _ _ id, fun t0 _ => ⟨DriftG.calm _ _ id, fun t _ => ?_⟩⟩⟩
  show Strat.wp _ _ (nmInit _ _ >>= _) _ _
  rw [Strat.wp_bind]
  refine Strat.wp_mono ((nmInit_calm (t := t) _ rfl).wp DriftG.calm (.start t0 t)) ?_
  rintro h s ⟨h1, h2⟩
  show Strat.wp _ _ (nmLoop c _ fuel _ >>= _) _ _
  rw [Strat.wp_bind]
  refine Strat.wp_mono (nmLoop_wpD fuel (s := { nmSort c s with iterations := 1 }) (by
    rw [show ({ nmSort c s with iterations := 1 } : NmState K F n).lastDrift = t from h2]; exact h1)) ?_
  intro h s _
  exact ⟨DriftG.calm _ _ id, fun _ _ => trivial⟩

/-- all the calls of a compensation -/
theorem nmDriftDo_plays {s s' : NmState K F n} {evs : List (Ev K (Vec K n) F)} (h : Plays (nmDriftDo c s) evs (.ret s')) :
    ∃ fs t r, fs.length = c.driftAverage ∧ c.driftAverage ≠ 0 ∧
      evs = measurements (s.sim 0) s.iterations fs ++
        [⟨.now, t⟩, ⟨.drift (s.sim 0) s.iterations (fs.foldl (· + ·) 0 / (c.driftAverage : F)), r⟩] ∧
      s' = { s with
        fsim := fun i => if i = 0 then fs.foldl (· + ·) 0 / (c.driftAverage : F) else
          s.fsim i + (fs.foldl (· + ·) 0 / (c.driftAverage : F) - s.fsim 0)
        lastDrift := t
        calls := s.calls + c.driftAverage + 1 } := by
  have key : ∀ (m : ℕ) (acc : F) (s1 : NmState K F n) (f : F × NmState K F n → Strat K (Vec K n) F (NmState K F n))
      (evs : List (Ev K (Vec K n) F)), Plays (nmSum m acc s1 >>= f) evs (.ret s') →
      ∃ fs evs', fs.length = m ∧ evs = measurements (s1.sim 0) s1.iterations fs ++ evs' ∧
        Plays (f (fs.foldl (· + ·) acc, { s1 with calls := s1.calls + m })) evs' (.ret s') := by
    intro m
    induction m with
    | zero => exact fun acc s1 f evs h => ⟨[], evs, rfl, rfl, h⟩
    | succ m ih =>
      intro acc s1 f evs h
      cases h with
      | cons _ _ v evs' _ h =>
        obtain ⟨fs, e', h1, h2, h3⟩ := ih (acc + v) { s1 with calls := s1.calls + 1 } f evs' h
        refine ⟨v :: fs, e', by simp [h1], by rw [h2]; rfl, ?_⟩
        simp only [List.foldl_cons]
        rw [show s1.calls + (m + 1) = s1.calls + 1 + m by omega]
        exact h3
  obtain ⟨fs, e', h1, h2, h3⟩ := key _ _ _ _ _ h
  by_cases h0 : c.driftAverage = 0
  · simp only [h0, if_true] at h3
    cases h3 with
    | cons _ _ r _ _ _ => exact nomatch r
  · simp only [h0, if_false] at h3
    cases h3 with
    | cons _ _ t e2 _ h3 =>
      cases h3 with
      | cons _ _ r e3 _ h3 =>
        cases h3
        exact ⟨fs, t, r, h1, h0, h2, rfl⟩

end
end QuOCS
