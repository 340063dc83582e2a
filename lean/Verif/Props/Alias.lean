/-
C74: sharing of objects with the user's program.
-/
import Verif.Spec.Alias
import Mathlib.Algebra.Ring.Parity
import Mathlib.Algebra.Group.Basic
import Mathlib.Data.List.Basic
import Mathlib.Data.Rat.Defs
import Mathlib.Tactic.Ring
import Mathlib.Tactic.NormNum

set_option linter.unusedSectionVars false
set_option linter.unusedVariables false

namespace QuOCS
variable {M C F : Type}

/-- **C74** If the user's program computes `f` (its dictionary contains `f` of the controls at the time of the return, also if it
is an object that was used before), every evaluation of every history shows the algorithm the value of `f`, with the sign of the
direction, dumps the evaluated controls and goes on. -/
theorem C74_value_of_this_call_partial [InvolutiveNeg F] (maximize : Bool) {user : UserFn M C F} {f : C → F} (hu : Computes user f)
    (cs : List C) (m : M) (h : Heap C F) :
    ∃ m' h', evalAll maximize user cs m h =
      some (cs.map fun c => ⟨if maximize then - f c else f c, c, true⟩, m', h') := by
  induction cs generalizing m h with
  | nil => exact ⟨m, h, rfl⟩
  | cons c cs ih =>
    obtain ⟨d, hd, hf, hs, ha⟩ := hu m { h with arrays := h.arrays ++ [c] } h.arrays.length c (by simp)
    have hc : (user m { h with arrays := h.arrays ++ [c] } h.arrays.length).2.1.arrays[h.arrays.length]? = some c := by rw [ha]; simp
    have he : ∃ m1 h1, evalOnce maximize user c m h = some (⟨if maximize then - f c else f c, c, true⟩, m1, h1) := by
      simp only [evalOnce, hd, hc, hf]
      rcases hs with hs | hs
      · exact ⟨_, _, by rw [hs]; rfl⟩
      · exact ⟨_, _, by rw [hs]; rfl⟩
    obtain ⟨m1, h1, he⟩ := he
    obtain ⟨m', h', hr⟩ := ih m1 h1
    exact ⟨m', h', by rw [evalAll, he]; simp only [Option.bind_eq_bind, Option.bind_some, hr]; rfl⟩

/-- Programs that make a new dictionary in every call satisfy the hypothesis. -/
theorem C74_fresh_dictionaries (f : C → F) : Computes (freshUser f) f := by
  intro m h a c hc
  simp [freshUser, hc]

/-- The dictionary references of a memo and how often each of the controls was evaluated. -/
private def MemoInv [DecidableEq C] [Neg F] (maximize : Bool) (f : C → F) (past : List C) (m : List (C × ℕ)) (h : Heap C F) : Prop :=
  (∀ c, c ∉ past → m.lookup c = none) ∧
  (∀ c ∈ past, ∃ r d, m.lookup c = some r ∧ h.dicts[r]? = some d ∧ (d.status = some 0) ∧
    d.fom = if maximize = true ∧ Odd (past.count c) then - f c else f c) ∧
  (∀ c c' r, m.lookup c = some r → m.lookup c' = some r → c = c')

/-- **C74 is violated by a program that returns a remembered dictionary** (AllInOneCommunication.py:162 multiplies the user's own
dictionary by -1): the value shown to the algorithm has the right sign in the odd evaluations of the same controls; in a
maximization the even ones have the wrong sign. In a minimization all values are right. -/
theorem C74_remembered_dictionary [DecidableEq C] [InvolutiveNeg F] (maximize : Bool) (f : C → F) (cs : List C) :
    ∃ es m' h', evalAll maximize (memoUser f) cs [] ⟨[], []⟩ = some (es, m', h') ∧ es.length = cs.length ∧
      ∀ (i : ℕ) (hi : i < cs.length) (he : i < es.length),
        es[i].value = (if maximize = true ∧ Odd ((cs.take (i + 1)).count cs[i]) then - f cs[i] else f cs[i]) := by
  have key : ∀ (cs past : List C) (m : List (C × ℕ)) (h : Heap C F), MemoInv maximize f past m h →
      ∃ es m' h', evalAll maximize (memoUser f) cs m h = some (es, m', h') ∧ es.length = cs.length ∧
      ∀ (i : ℕ) (hi : i < cs.length) (he : i < es.length),
        es[i].value = (if maximize = true ∧ Odd ((past ++ cs.take (i + 1)).count cs[i]) then - f cs[i] else f cs[i]) := by
    intro cs
    induction cs with
    | nil => intro past m h _; exact ⟨[], m, h, rfl, rfl, fun i hi => absurd hi (Nat.not_lt_zero _)⟩
    | cons c cs ih =>
      intro past m h hinv
      obtain ⟨hno, hyes, hinj⟩ := hinv
      have step : ∃ e m' h', evalOnce maximize (memoUser f) c m h = some (e, m', h') ∧
          e.value = (if maximize = true ∧ Odd ((past ++ [c]).count c) then - f c else f c) ∧ MemoInv maximize f (past ++ [c]) m' h' := by
        have hget : (h.arrays ++ [c])[h.arrays.length]? = some c := by simp
        by_cases hp : c ∈ past
        · obtain ⟨r, d, hl, hd, hs, hf⟩ := hyes c hp
          have hr : r < h.dicts.length := (List.getElem?_eq_some_iff.1 hd).1
          refine ⟨_, _, _, by simp only [evalOnce, memoUser, hget, hl, hd]; rfl, ?_, ?_, ?_, hinj⟩
          · simp only [hf, List.count_append, List.count_singleton_self, Nat.odd_add_one]
            cases maximize <;> by_cases ho : Odd (past.count c) <;> simp [ho]
          · intro c' hc'; exact hno c' (fun hx => hc' (List.mem_append_left _ hx))
          · intro c' hc'
            by_cases e : c' = c
            · subst e
              refine ⟨r, _, hl, by simp [List.getElem?_set, hr]; rfl, by simp [hs], ?_⟩
              simp only [hf, List.count_append, List.count_singleton_self, Nat.odd_add_one]
              cases maximize <;> by_cases ho : Odd (past.count c') <;> simp [ho]
            · have hc'' : c' ∈ past := by simpa [e] using hc'
              obtain ⟨r', d', hl', hd', hs', hf'⟩ := hyes c' hc''
              have hne : r ≠ r' := fun hx => e (hinj _ _ _ hl' (hx ▸ hl))
              refine ⟨r', d', hl', by simp [List.getElem?_set, hne, hd'], hs', ?_⟩
              rw [hf', List.count_append, List.count_singleton]
              simp [Ne.symm e]
        · have hl := hno c hp
          have h0 : past.count c = 0 := List.count_eq_zero.2 hp
          refine ⟨_, _, _, by simp only [evalOnce, memoUser, hget, hl, List.getElem?_concat_length]; rfl, ?_, ?_, ?_, ?_⟩
          · cases maximize <;> simp [h0]
          · intro c' hc'
            have : c' ≠ c := fun e => hc' (by simp [e])
            rw [List.lookup_cons]
            have hb : (c' == c) = false := by simpa using this
            rw [hb]; exact hno c' (fun hx => hc' (List.mem_append_left _ hx))
          · intro c' hc'
            by_cases e : c' = c
            · subst e
              refine ⟨h.dicts.length, _, by simp [List.lookup_cons], by simp; rfl, rfl, ?_⟩
              cases maximize <;> simp [h0]
            · have hc'' : c' ∈ past := by simpa [e] using hc'
              obtain ⟨r', d', hl', hd', hs', hf'⟩ := hyes c' hc''
              have hr' : r' < h.dicts.length := (List.getElem?_eq_some_iff.1 hd').1
              have hb : (c' == c) = false := by simpa using e
              refine ⟨r', d', by rw [List.lookup_cons, hb]; exact hl', ?_, hs', ?_⟩
              · simp only [List.getElem?_set, List.length_append]
                rw [if_neg (by omega), List.getElem?_append_left hr', hd']
              · rw [hf', List.count_append, List.count_singleton]
                simp [Ne.symm e]
          · have hlt : ∀ c' r', m.lookup c' = some r' → r' < h.dicts.length := by
              intro c' r' hx
              by_cases hq : c' ∈ past
              · obtain ⟨r2, d2, hl2, hd2, _⟩ := hyes c' hq
                rw [hx] at hl2; cases hl2
                exact (List.getElem?_eq_some_iff.1 hd2).1
              · rw [hno c' hq] at hx; cases hx
            intro c1 c2 r h1 h2
            rw [List.lookup_cons] at h1 h2
            by_cases e1 : c1 = c
            · by_cases e2 : c2 = c
              · rw [e1, e2]
              · have hb1 : (c1 == c) = true := by simpa using e1
                have hb2 : (c2 == c) = false := by simpa using e2
                rw [hb1] at h1; rw [hb2] at h2
                cases h1; exact absurd (hlt _ _ h2) (lt_irrefl _)
            · have hb1 : (c1 == c) = false := by simpa using e1
              rw [hb1] at h1
              by_cases e2 : c2 = c
              · have hb2 : (c2 == c) = true := by simpa using e2
                rw [hb2] at h2; cases h2; exact absurd (hlt _ _ h1) (lt_irrefl _)
              · have hb2 : (c2 == c) = false := by simpa using e2
                rw [hb2] at h2; exact hinj _ _ _ h1 h2
      obtain ⟨e, m1, h1, hev, hval, hinv1⟩ := step
      obtain ⟨es, m2, h2, hall, hlen, hes⟩ := ih _ _ _ hinv1
      refine ⟨e :: es, m2, h2, ?_, by simp [hlen], ?_⟩
      · rw [evalAll, hev]
        simp only [Option.bind_eq_bind, Option.bind_some, hall]
        rfl
      · intro i hi he
        cases i with
        | zero => simpa using hval
        | succ i =>
          have := hes i (by simpa using hi) (by simpa using he)
          simpa using this
  obtain ⟨es, m', h', h1, h2, h3⟩ := key cs [] [] ⟨[], []⟩ (by
    refine ⟨fun c _ => rfl, fun c hc => absurd hc List.not_mem_nil, fun c c' r h => ?_⟩
    simp at h)
  exact ⟨es, m', h', h1, h2, by simpa using h3⟩

/-- the same controls evaluated twice in a maximization: the algorithm first sees -3, then 3 -/
example : (evalAll true (memoUser fun c : ℕ => (c : ℤ)) [3, 3] [] ⟨[], []⟩).map (fun x => x.1.map (·.value)) = some [-3, 3] := by
  decide

/-- **C74 is violated by a program that works in place on the arrays** (AllInOneCommunication.py:143 keeps a reference to the
arrays given to the user, line 200 dumps them after the evaluation): the values are right, but the controls dumped for a record
are the changed ones. -/
theorem C74_changed_controls_dumped [InvolutiveNeg F] (maximize : Bool) (f : C → F) (w : C → C) (cs : List C) (h : Heap C F) :
    ∃ h', evalAll maximize (inPlaceUser f w) cs () h =
      some (cs.map fun c => ⟨if maximize then - f c else f c, w c, true⟩, (), h') := by
  induction cs generalizing h with
  | nil => exact ⟨h, rfl⟩
  | cons c cs ih =>
    have he : ∃ h1, evalOnce maximize (inPlaceUser f w) c () h = some (⟨if maximize then - f c else f c, w c, true⟩, (), h1) := by
      have h1 : (h.arrays ++ [c])[h.arrays.length]? = some c := by simp
      have h2 : ((h.arrays ++ [c]).set h.arrays.length (w c))[h.arrays.length]? = some (w c) := by simp
      refine ⟨⟨(h.dicts ++ [(⟨f c, none⟩ : FomObj F)]).set h.dicts.length ⟨if maximize then - f c else f c, some 0⟩,
        (h.arrays ++ [c]).set h.arrays.length (w c)⟩, ?_⟩
      simp only [evalOnce, inPlaceUser, h1, h2, List.getElem?_concat_length]
      rfl
    obtain ⟨h1, he⟩ := he
    obtain ⟨h', hr⟩ := ih h1
    exact ⟨h', by rw [evalAll, he]; simp only [Option.bind_eq_bind, Option.bind_some, hr]; rfl⟩

/-- halving the array in place: the dump has half of the evaluated amplitude -/
example : (evalAll false (inPlaceUser (fun c : ℕ => (c : ℤ)) (· / 2)) [8, 6] () ⟨[], []⟩).map (fun x => x.1.map fun e => (e.value, e.dumped))
    = some [(8, 4), (6, 3)] := by decide

end QuOCS
