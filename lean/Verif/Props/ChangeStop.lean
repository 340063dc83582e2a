/-
C117: the change-based stop for an arbitrary entry of the dictionary.
-/
import Verif.Model.ChangeStop
import Verif.Props.Stopping
import Mathlib.Algebra.Order.Floor.Semiring

set_option linter.unusedSectionVars false
set_option linter.unusedVariables false

namespace QuOCS

/-- The user's entry is a dictionary with an integer `n` as `cbs_funct_evals` and the number `q` as `cbs_change` (`True` and `False` count as
1 and 0). -/
def DeclaresChange (v : PVal) (n : ℤ) (q : ℚ) : Prop :=
  ∃ d, v = .dict d ∧ d.get? "cbs_funct_evals" = some (.num n) ∧
    (d.get? "cbs_change" = some (.num q) ∨ ∃ b, d.get? "cbs_change" = some (.bool b) ∧ q = if b then 1 else 0)

/-- The settings of stopping criteria of which only the change-based one is used here. -/
def changeCfg (n : ℤ) (q : ℚ) : ScCfg ℚ ℚ := { maxEval := 0, timeLim := 0, xatol := 0, fatol := 0, cbsEvals := n, cbsChange := q }

/-- A stopping-criteria object at the start of a search. -/
def CbsState.Fresh (s : CbsState) : Prop := s.sc.isConverged = false ∧ s.sc.track = []

namespace ChangeStop

theorem limit_of {v : PVal} {n : ℤ} {q : ℚ} (h : DeclaresChange v n q) :
    subscript v "cbs_funct_evals" = .ok (.num n) ∧ ∃ w, subscript v "cbs_change" = .ok w ∧ comparable w = .ok q := by
  obtain ⟨d, rfl, h1, h2⟩ := h
  refine ⟨by simp [subscript, h1], ?_⟩
  rcases h2 with h2 | ⟨b, h2, rfl⟩
  · exact ⟨.num q, by simp only [subscript, h2], rfl⟩
  · exact ⟨.bool b, by simp only [subscript, h2], rfl⟩

theorem declares_of {v m w : PVal} {z q : ℚ} (h1 : subscript v "cbs_funct_evals" = .ok m) (hm : comparable m = .ok z) (hz : z > 1)
    (hd : z.den = 1) (h2 : subscript v "cbs_change" = .ok w) (hw : comparable w = .ok q) : DeclaresChange v z.num q := by
  unfold subscript at h1 h2
  cases v with
  | dict d =>
    dsimp only at h1 h2
    rcases e1 : d.get? "cbs_funct_evals" with _ | m'
    · rw [e1] at h1; exact absurd h1 (by simp)
    rcases e2 : d.get? "cbs_change" with _ | w'
    · rw [e2] at h2; exact absurd h2 (by simp)
    rw [e1] at h1; rw [e2] at h2
    simp only [Except.ok.injEq] at h1 h2
    subst h1 h2
    refine ⟨d, rfl, ?_, ?_⟩
    · rw [e1]
      unfold comparable at hm
      split at hm
      · simp only [Except.ok.injEq] at hm
        subst hm
        rw [show ((_ : ℚ).num : ℚ) = _ from (Rat.den_eq_one_iff _).1 hd]
      · rename_i b
        simp only [Except.ok.injEq] at hm
        subst hm
        cases b <;> norm_num at hz
      · exact absurd hm (by simp)
    · unfold comparable at hw
      split at hw
      · simp only [Except.ok.injEq] at hw
        subst hw
        exact .inl e2
      · rename_i b
        simp only [Except.ok.injEq] at hw
        exact .inr ⟨b, e2, hw.symm⟩
      · exact absurd hw (by simp)
  | _ => exact absurd h1 (by simp)

/-- with proper entries: the functions of Model/Stopping.lean -/
theorem evaluation_declared {v : PVal} {n : ℤ} {q : ℚ} (h : DeclaresChange v n q) (s : CbsState) (f : ℚ) :
    cbsEvaluation v s f = { s with sc := checkAdvanced (changeCfg n q) (addToTrack (changeCfg n q) s.sc f) } := by
  obtain ⟨h1, w, h2, h3⟩ := limit_of h
  have hc : (Except.ok (PVal.num (n : ℚ)) : Py PVal).bind comparable = .ok (n : ℚ) := rfl
  have hn : comparable (.num (n : ℚ)) = .ok (n : ℚ) := rfl
  by_cases hgt : n > 1
  · have hgt' : (n : ℚ) > 1 := by exact_mod_cast hgt
    have hlen : ∀ k : ℕ, ((k : ℚ) ≥ (n : ℚ)) ↔ k ≥ n.toNat := fun k => by
      have : ((k : ℚ) ≥ (n : ℚ)) ↔ ((k : ℤ) ≥ n) := by
        constructor <;> intro h <;> exact_mod_cast h
      rw [this]; omega
    simp only [cbsEvaluation, cbsAdd, cbsCheck, cbsCriterion, h1, hc, hgt', if_true, h2, hn, h3, Rat.den_intCast, Rat.num_intCast,
      checkAdvanced, checkCbs, addToTrack, changeCfg, hgt, hlen]
    by_cases hk : (s.sc.track ++ [f]).length ≥ n.toNat
    · simp only [hk, if_true]
      split
      · rename_i hlt; exact if_pos hlt
      · rename_i hlt; exact if_neg hlt
    · simp only [hk, if_false]
  · have hgt' : ¬ (n : ℚ) > 1 := by
      intro h; exact hgt (by exact_mod_cast h)
    simp only [cbsEvaluation, cbsAdd, cbsCheck, h1, hc, hgt', if_false, checkAdvanced, addToTrack, changeCfg, hgt]

/-- other entries never stop the search -/
theorem evaluation_other {v : PVal} (h : ∀ n q, ¬ DeclaresChange v n q) (s : CbsState) (f : ℚ) :
    (cbsEvaluation v s f).sc.isConverged = s.sc.isConverged := by
  have hcheck : ∀ s : CbsState, (cbsCheck v s).sc.isConverged = s.sc.isConverged := by
    intro s
    unfold cbsCheck
    split
    · rfl
    · rename_i z hz
      split
      · rename_i hgt
        have key : (cbsCriterion v s).2.sc.isConverged = s.sc.isConverged := by
          unfold cbsCriterion
          dsimp only
          split
          · rfl
          · rfl
          · rename_i m w h1 h2
            have hz' : comparable m = .ok z := by rw [h1] at hz; exact hz
            rw [hz']
            dsimp only
            split
            · split
              · rename_i hd
                split
                · rfl
                · rename_i q hq
                  exact absurd (declares_of h1 hz' hgt hd h2 hq) (h _ _)
              · rfl
            · rfl
        split
        · rename_i heq; rw [heq] at key; exact key
        · rename_i heq; rw [heq] at key; exact key
      · rfl
  have hadd : (cbsAdd v f s).2.sc.isConverged = s.sc.isConverged := by
    unfold cbsAdd
    split
    · rfl
    · dsimp only; split <;> rfl
  unfold cbsEvaluation
  split
  · rename_i heq; rw [heq] at hadd; rw [hcheck]; exact hadd
  · rename_i heq; rw [heq] at hadd; rw [hcheck]; exact hadd

theorem run_other {v : PVal} (h : ∀ n q, ¬ DeclaresChange v n q) (l : List ℚ) (s : CbsState) :
    (l.foldl (cbsEvaluation v) s).sc.isConverged = s.sc.isConverged := by
  induction l generalizing s with
  | nil => rfl
  | cons f l ih => rw [List.foldl_cons, ih, evaluation_other h]

theorem run_declared {v : PVal} {n : ℤ} {q : ℚ} (h : DeclaresChange v n q) (l : List ℚ) (s : CbsState) :
    (l.foldl (cbsEvaluation v) s).sc.isConverged = true ↔
      s.sc.isConverged = true ∨ ∃ t, t ≠ [] ∧ t <+: l ∧ ChangeMet (changeCfg n q) (s.sc.track ++ t) := by
  induction l generalizing s with
  | nil =>
    constructor
    · exact .inl
    · rintro (h | ⟨t, h1, h2, _⟩)
      · exact h
      · exact absurd (List.prefix_nil.1 h2) h1
  | cons f l ih =>
    rw [List.foldl_cons, ih, evaluation_declared h]
    dsimp only
    rw [C33_change_check, Progs.checkAdvanced_track, Progs.addToTrack_track]
    have hsame : (addToTrack (changeCfg n q) s.sc f).isConverged = s.sc.isConverged := by
      unfold addToTrack; split <;> rfl
    rw [hsame]
    by_cases hn : 1 < (changeCfg n q).cbsEvals
    · rw [if_pos hn, or_assoc]
      refine or_congr_right ?_
      constructor
      · rintro (h1 | ⟨t, h1, h2, h3⟩)
        · exact ⟨[f], by simp, by simp, h1⟩
        · exact ⟨f :: t, by simp, by simpa using h2, by simpa using h3⟩
      · rintro ⟨t, h1, h2, h3⟩
        cases t with
        | nil => exact absurd rfl h1
        | cons g t =>
          obtain ⟨rfl, h4⟩ := List.cons_prefix_cons.1 h2
          by_cases ht : t = []
          · subst ht; exact .inl h3
          · exact .inr ⟨t, ht, h4, by simpa using h3⟩
    · have hno : ∀ t, ¬ ChangeMet (changeCfg n q) t := fun t ht => hn ht.1
      simp [hno]

end ChangeStop

/-- **C117.** Whatever the user's entry for the change-based stop is, and for all figures of merit of a search: the search has been stopped by it
exactly if the entry has both numbers, with an integer number of evaluations, and the criterion (C33) was met after one of the evaluations. -/
theorem C117_stops_exactly_if_met (v : PVal) (foms : List ℚ) (s : CbsState) (hs : s.Fresh) :
    (foms.foldl (cbsEvaluation v) s).sc.isConverged = true ↔
      ∃ n q, DeclaresChange v n q ∧ ∃ t, t <+: foms ∧ ChangeMet (changeCfg n q) t := by
  by_cases h : ∃ n q, DeclaresChange v n q
  · obtain ⟨n, q, h⟩ := h
    have huniq : ∀ n' q', DeclaresChange v n' q' → n' = n ∧ q' = q := by
      intro n' q' h'
      obtain ⟨a1, w, a2, a3⟩ := ChangeStop.limit_of h
      obtain ⟨b1, w', b2, b3⟩ := ChangeStop.limit_of h'
      rw [a1] at b1; rw [a2] at b2
      simp only [Except.ok.injEq, PVal.atom.injEq, JAtom.num.injEq] at b1 b2
      subst b2
      rw [a3] at b3
      simp only [Except.ok.injEq] at b3
      exact ⟨by exact_mod_cast b1.symm, b3.symm⟩
    rw [ChangeStop.run_declared h, hs.1, hs.2]
    constructor
    · rintro (h1 | ⟨t, _, h2, h3⟩)
      · exact absurd h1 (by simp)
      · exact ⟨n, q, h, t, h2, h3⟩
    · rintro ⟨n', q', h', t, h2, h3⟩
      obtain ⟨rfl, rfl⟩ := huniq _ _ h'
      refine .inr ⟨t, ?_, h2, h3⟩
      rintro rfl
      have h4 := h3.1
      have h5 := h3.2.1
      simp only [List.length_nil, Nat.cast_zero] at h5
      omega
  · have h' : ∀ n q, ¬ DeclaresChange v n q := fun n q hd => h ⟨n, q, hd⟩
    rw [ChangeStop.run_other h', hs.1]
    constructor
    · intro h1; exact absurd h1 (by simp)
    · rintro ⟨n, q, hd, _⟩; exact absurd hd (h' n q)

/-- **C117.** With both numbers nothing is logged, and every evaluation does what the model of the algorithms (Model/Algorithm.lean) says for these numbers. -/
theorem C117_proper_entries (v : PVal) (n : ℤ) (q : ℚ) (h : DeclaresChange v n q) (foms : List ℚ) (s : CbsState) :
    (foms.foldl (cbsEvaluation v) s).logged = s.logged ∧
    (foms.foldl (cbsEvaluation v) s).sc =
      foms.foldl (fun sc f => checkAdvanced (changeCfg n q) (addToTrack (changeCfg n q) sc f)) s.sc := by
  induction foms generalizing s with
  | nil => exact ⟨rfl, rfl⟩
  | cons f l ih =>
    rw [List.foldl_cons, List.foldl_cons]
    have := ih (cbsEvaluation v s f)
    rw [ChangeStop.evaluation_declared h] at this ⊢
    exact this

/-- **C117.** Without a usable `cbs_funct_evals` (not a dictionary, no such entry, or not a number) every evaluation logs that the figure of merit was not
recorded and that the check failed, and nothing else happens. -/
theorem C117_without_evaluations (v : PVal)
    (h : ∀ d, v = .dict d → ∀ m, d.get? "cbs_funct_evals" = some m → (∀ z, m ≠ .num z) ∧ ∀ b, m ≠ .bool b) (foms : List ℚ) (s : CbsState) :
    (foms.foldl (cbsEvaluation v) s).sc = s.sc ∧
    (foms.foldl (cbsEvaluation v) s).logged = s.logged ++ (List.replicate foms.length
      ["FoM track for stopping criteria could not be updated!",
       "Checking change-based stop failed! cbs_funct_evals not properly defined!"]).flatten := by
  have hc : ∃ e, (subscript v "cbs_funct_evals").bind comparable = .error e := by
    unfold subscript
    split
    · rename_i d
      split
      · rename_i w hw
        obtain ⟨h1, h2⟩ := h d rfl w hw
        refine ⟨.typeError, ?_⟩
        show comparable w = _
        unfold comparable
        split
        · exact absurd rfl (h1 _)
        · exact absurd rfl (h2 _)
        · rfl
      · exact ⟨_, rfl⟩
    · exact ⟨_, rfl⟩
  obtain ⟨e, hc⟩ := hc
  induction foms generalizing s with
  | nil => exact ⟨rfl, by simp⟩
  | cons f l ih =>
    have he : cbsEvaluation v s f = { s with logged := s.logged ++ ["FoM track for stopping criteria could not be updated!"] ++
        ["Checking change-based stop failed! cbs_funct_evals not properly defined!"] } := by
      simp only [cbsEvaluation, cbsAdd, cbsCheck, hc]
    rw [List.foldl_cons, he]
    obtain ⟨h1, h2⟩ := ih { s with logged := s.logged ++ ["FoM track for stopping criteria could not be updated!"] ++
        ["Checking change-based stop failed! cbs_funct_evals not properly defined!"] }
    refine ⟨h1, ?_⟩
    rw [h2, List.length_cons, List.replicate_succ, List.flatten_cons]
    simp

/-- **C117.** With a number of evaluations above one but without `cbs_change`, the figures of merit are recorded, every evaluation logs that the check
failed, and the search goes on. -/
theorem C117_without_change (d : PDict) (z : ℚ) (h1 : d.get? "cbs_funct_evals" = some (.num z)) (hz : 1 < z)
    (h2 : d.get? "cbs_change" = none) (foms : List ℚ) (s : CbsState) :
    (foms.foldl (cbsEvaluation (.dict d)) s).sc.isConverged = s.sc.isConverged ∧
    (foms.foldl (cbsEvaluation (.dict d)) s).sc.track = s.sc.track ++ foms ∧
    (foms.foldl (cbsEvaluation (.dict d)) s).logged = s.logged ++
      List.replicate foms.length "Checking change-based stop failed! cbs_funct_evals not properly defined!" := by
  have a1 : subscript (.dict d) "cbs_funct_evals" = .ok (.num z) := by simp only [subscript, h1]
  have a2 : subscript (.dict d) "cbs_change" = .error .keyError := by simp only [subscript, h2]
  have hc : (Except.ok (PVal.num z) : Py PVal).bind comparable = .ok z := rfl
  have hz' : z > 1 := hz
  induction foms generalizing s with
  | nil => exact ⟨rfl, by simp, by simp⟩
  | cons f l ih =>
    have he : cbsEvaluation (.dict d) s f =
        ⟨{ s.sc with track := s.sc.track ++ [f], reason := "Change-based stopping criterion reached." },
         s.logged ++ ["Checking change-based stop failed! cbs_funct_evals not properly defined!"]⟩ := by
      simp only [cbsEvaluation, cbsAdd, cbsCheck, cbsCriterion, hc, a1, a2, hz', if_true]
    rw [List.foldl_cons, he]
    obtain ⟨b1, b2, b3⟩ := ih ⟨{ s.sc with track := s.sc.track ++ [f], reason := "Change-based stopping criterion reached." },
         s.logged ++ ["Checking change-based stop failed! cbs_funct_evals not properly defined!"]⟩
    refine ⟨b1, ?_, ?_⟩
    · rw [b2]; simp
    · rw [b3, List.length_cons, List.replicate_succ]; simp

/-- **C117.** With a number of evaluations of at most one (the default), or `True` or `False`, the criterion is switched off: nothing is recorded and
nothing is logged. -/
theorem C117_switched_off (d : PDict) (m : PVal) (h1 : d.get? "cbs_funct_evals" = some m)
    (hm : (∃ z : ℚ, z ≤ 1 ∧ m = .num z) ∨ ∃ b, m = .bool b) (foms : List ℚ) (s : CbsState) :
    foms.foldl (cbsEvaluation (.dict d)) s = s := by
  have a1 : subscript (.dict d) "cbs_funct_evals" = .ok m := by simp only [subscript, h1]
  have hc : ∃ z : ℚ, (subscript (.dict d) "cbs_funct_evals").bind comparable = .ok z ∧ ¬ z > 1 := by
    rw [a1]
    rcases hm with ⟨z, hz, rfl⟩ | ⟨b, rfl⟩
    · exact ⟨z, rfl, not_lt.2 hz⟩
    · exact ⟨if b then 1 else 0, rfl, by cases b <;> norm_num⟩
  obtain ⟨z, hc, hz⟩ := hc
  induction foms with
  | nil => rfl
  | cons f l ih =>
    rw [List.foldl_cons]
    have he : cbsEvaluation (.dict d) s f = s := by
      simp only [cbsEvaluation, cbsAdd, cbsCheck, hc, hz, if_false]
    rw [he, ih]

/-- **C117.** With a number `z` of evaluations above one that is not an integer, or with a change that is not a number, the search goes on and the
values are recorded; the message that the check failed comes with every evaluation from the first one on for which there are `z` values. -/
theorem C117_unusable_entries (d : PDict) (z : ℚ) (w : PVal) (h1 : d.get? "cbs_funct_evals" = some (.num z)) (hz : 1 < z)
    (h2 : d.get? "cbs_change" = some w) (hw : z.den ≠ 1 ∨ ((∀ q, w ≠ .num q) ∧ ∀ b, w ≠ .bool b))
    (foms : List ℚ) (s : CbsState) (hs : s.Fresh) :
    (foms.foldl (cbsEvaluation (.dict d)) s).sc.isConverged = false ∧
    (foms.foldl (cbsEvaluation (.dict d)) s).sc.track = foms ∧
    (foms.foldl (cbsEvaluation (.dict d)) s).logged = s.logged ++
      List.replicate (foms.length + 1 - ⌈z⌉₊) "Checking change-based stop failed! cbs_funct_evals not properly defined!" := by
  have a1 : subscript (.dict d) "cbs_funct_evals" = .ok (.num z) := by simp only [subscript, h1]
  have a2 : subscript (.dict d) "cbs_change" = .ok w := by simp only [subscript, h2]
  have hc : (Except.ok (PVal.num z) : Py PVal).bind comparable = .ok z := rfl
  have hn : comparable (.num z) = .ok z := rfl
  have hz' : z > 1 := hz
  have h1N : 1 < ⌈z⌉₊ := Nat.lt_ceil.2 (by exact_mod_cast hz)
  have hbad : z.den = 1 → comparable w = .error .typeError := by
    intro hd
    rcases hw with hw | ⟨k1, k2⟩
    · exact absurd hd hw
    · unfold comparable
      split
      · exact absurd rfl (k1 _)
      · exact absurd rfl (k2 _)
      · rfl
  induction foms using List.reverseRecOn with
  | nil => exact ⟨hs.1, hs.2, by simp [show 1 - ⌈z⌉₊ = 0 by omega]⟩
  | append_singleton l f ih =>
    obtain ⟨b1, b2, b3⟩ := ih
    rw [List.foldl_append, List.foldl_cons, List.foldl_nil]
    generalize l.foldl (cbsEvaluation (.dict d)) s = s' at b1 b2 b3 ⊢
    have hlen : (((s'.sc.track ++ [f]).length : ℚ) ≥ z) ↔ ⌈z⌉₊ ≤ l.length + 1 := by
      rw [b2, List.length_append, List.length_singleton, Nat.ceil_le]
    by_cases hk : ⌈z⌉₊ ≤ l.length + 1
    · have hk' := hlen.2 hk
      have he : cbsEvaluation (.dict d) s' f =
          ⟨{ s'.sc with track := s'.sc.track ++ [f], reason := "Change-based stopping criterion reached." },
           s'.logged ++ ["Checking change-based stop failed! cbs_funct_evals not properly defined!"]⟩ := by
        by_cases hd : z.den = 1
        · simp only [cbsEvaluation, cbsAdd, cbsCheck, cbsCriterion, a1, a2, hc, hn, hz', if_true, hk', hd, hbad hd]
        · simp only [cbsEvaluation, cbsAdd, cbsCheck, cbsCriterion, a1, a2, hc, hn, hz', if_true, hk', hd, if_false]
      rw [he]
      refine ⟨b1, by rw [b2], ?_⟩
      dsimp only
      rw [b3, List.length_append, List.length_singleton, show l.length + 1 + 1 - ⌈z⌉₊ = (l.length + 1 - ⌈z⌉₊) + 1 by omega,
        List.replicate_succ', List.append_assoc]
    · have hk' : ¬ (((s'.sc.track ++ [f]).length : ℚ) ≥ z) := fun h => hk (hlen.1 h)
      have he : cbsEvaluation (.dict d) s' f =
          ⟨{ s'.sc with track := s'.sc.track ++ [f], reason := "Change-based stopping criterion reached." }, s'.logged⟩ := by
        simp only [cbsEvaluation, cbsAdd, cbsCheck, cbsCriterion, a1, a2, hc, hn, hz', if_true, hk', if_false]
      rw [he]
      refine ⟨b1, by rw [b2], ?_⟩
      dsimp only
      rw [b3, List.length_append, List.length_singleton, show l.length + 1 + 1 - ⌈z⌉₊ = 0 by omega, show l.length + 1 - ⌈z⌉₊ = 0 by omega]

/-! ### Concrete cases -/

/-- A stopping-criteria object as it is created. -/
def exCbsState : CbsState := ⟨⟨false, "Global Stopping Criterion reached.", 0, []⟩, []⟩

example : exCbsState.Fresh := ⟨rfl, rfl⟩

/-- three evaluations, change 2 -/
example : DeclaresChange (.dict (.cons "cbs_funct_evals" (.num 3) (.cons "cbs_change" (.num 2) .nil))) 3 2 :=
  ⟨_, rfl, rfl, .inl rfl⟩

/-- the search goes on after 9, 5, 3 and is stopped after 9, 5, 3, 4 -/
example :
    ((([9, 5, 3] : List ℚ).foldl (cbsEvaluation (.dict (.cons "cbs_funct_evals" (.num 3) (.cons "cbs_change" (.num 2) .nil)))) exCbsState).sc.isConverged,
     (([9, 5, 3, 4] : List ℚ).foldl (cbsEvaluation (.dict (.cons "cbs_funct_evals" (.num 3) (.cons "cbs_change" (.num 2) .nil)))) exCbsState).sc.isConverged)
    = (false, true) := by decide +kernel

/-- entries without the number of evaluations: `None`, and a dictionary with the change only -/
example : ∀ v ∈ [PVal.null, .dict (.cons "cbs_change" (.num 2) .nil)],
    ∀ d, v = .dict d → ∀ m, d.get? "cbs_funct_evals" = some m → (∀ z, m ≠ .num z) ∧ ∀ b, m ≠ .bool b := by
  intro v hv d hd m hm
  simp only [List.mem_cons, List.not_mem_nil, or_false] at hv
  rcases hv with rfl | rfl
  · exact absurd hd (by simp)
  · simp only [PVal.dict.injEq] at hd
    subst hd
    exact absurd hm (by simp [PDict.get?])

/-- an entry without the change -/
example : (PDict.cons "cbs_funct_evals" (.num 3) .nil).get? "cbs_funct_evals" = some (.num 3) ∧ (1 : ℚ) < 3 ∧
    (PDict.cons "cbs_funct_evals" (.num 3) .nil).get? "cbs_change" = none := ⟨rfl, by norm_num, rfl⟩

/-- an entry with 5/2 evaluations, and one with a text as change -/
example : ((5 / 2 : ℚ).den ≠ 1 ∧ (1 : ℚ) < 5 / 2) ∧ (∀ q, PVal.str "0.1" ≠ .num q) ∧ ∀ b, PVal.str "0.1" ≠ .bool b := by
  refine ⟨⟨by decide +kernel, by norm_num⟩, fun q => by simp, fun b => by simp⟩

/-- with three evaluations and a text as change there is a message after the third and the fourth of four evaluations -/
example :
    (([9, 5, 3, 4] : List ℚ).foldl (cbsEvaluation (.dict (.cons "cbs_funct_evals" (.num 3) (.cons "cbs_change" (.str "0.1") .nil)))) exCbsState).logged.length
    = 2 := by decide +kernel

/-- the default entry is switched off -/
example : (PDict.cons "cbs_funct_evals" (.num 1) (.cons "cbs_change" (.num 0) .nil)).get? "cbs_funct_evals" = some (.num 1) ∧
    ∃ z : ℚ, z ≤ 1 ∧ PVal.num 1 = .num z := ⟨rfl, 1, le_refl _, rfl⟩

end QuOCS
