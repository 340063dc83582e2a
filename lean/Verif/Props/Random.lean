/-
C75: reproducibility with a seed.
-/
import Verif.Spec.Random
import Verif.Spec.Search
import Verif.Props.CMAES
import Mathlib.Tactic.Ring
import Mathlib.Tactic.NormNum

set_option linter.unusedSectionVars false
set_option linter.unusedVariables false

namespace QuOCS
variable {G K V C O F : Type}

/-- numbers from a generator with a seed -/
theorem drawNumbers_seeded (stream : ℕ → ℕ → K) (w : World G K) (z n : ℕ) (s : RandState G) :
    (drawNumbers stream w (.seeded z) n s).1 = block (stream z) s.pos n ∧
    (drawNumbers stream w (.seeded z) n s).2.pos = s.pos + n := ⟨rfl, rfl⟩

/-- the super parameters of the pulses from a generator with a seed -/
theorem drawPulses_seeded (stream : ℕ → ℕ → K) (w : World G K) (z : ℕ) (sizes : List (Option ℕ)) (s : RandState G) :
    (drawPulses stream w (.seeded z) sizes s).1 = (List.range sizes.length).map (fun i : ℕ =>
      block (stream z) (s.pos + ((pulseDraws sizes).take i).sum) ((pulseDraws sizes).getD i 0)) ∧
    (drawPulses stream w (.seeded z) sizes s).2.pos = s.pos + (pulseDraws sizes).sum := by
  induction sizes generalizing s with
  | nil => exact ⟨rfl, rfl⟩
  | cons k ks ih =>
    cases k with
    | none =>
      obtain ⟨h1, h2⟩ := ih s
      refine ⟨?_, ?_⟩
      · show [] :: (drawPulses stream w (.seeded z) ks s).1 = _
        rw [h1, List.length_cons, List.range_succ_eq_map, List.map_cons, List.map_map]
        congr 1
        apply List.map_congr_left
        intro i hi
        simp [pulseDraws, Function.comp]
      · show (drawPulses stream w (.seeded z) ks s).2.pos = _
        rw [h2]; simp [pulseDraws]
    | some k =>
      obtain ⟨h1, h2⟩ := ih (drawNumbers stream w (.seeded z) k s).2
      rw [(drawNumbers_seeded stream w z k s).2] at h1 h2
      refine ⟨?_, ?_⟩
      · show (drawNumbers stream w (.seeded z) k s).1 :: (drawPulses stream w (.seeded z) ks (drawNumbers stream w (.seeded z) k s).2).1 = _
        rw [h1, List.length_cons, List.range_succ_eq_map, List.map_cons, List.map_map, (drawNumbers_seeded stream w z k s).1]
        congr 1
        apply List.map_congr_left
        intro i hi
        simp [pulseDraws, Function.comp, Nat.add_assoc]
      · show (drawPulses stream w (.seeded z) ks (drawNumbers stream w (.seeded z) k s).2).2.pos = _
        rw [h2]; simp [pulseDraws, Nat.add_assoc]

/-- the super-iterations of dCRAB, AD and GRAPE take consecutive numbers; GRAPE has no super parameters -/
theorem drawsAfter_seeded (stream : ℕ → ℕ → K) (w : World G K) {alg : AlgName} (ha : alg ≠ .directSearch) (z : ℕ)
    (sizes : List (Option ℕ)) (hg : alg = .grape → sizes = []) (n k : ℕ) (s : RandState G) :
    drawsAfter stream w alg (.seeded z) sizes n k s = consecutive (fun i => stream z (s.pos + i)) sizes n k := by
  have step : ∀ s : RandState G, (drawSI stream w alg (.seeded z) sizes n s).1 = consecutive (fun i => stream z (s.pos + i)) sizes n 0 ∧
      (drawSI stream w alg (.seeded z) sizes n s).2.pos = s.pos + ((pulseDraws sizes).sum + n) := by
    intro s
    have hp := drawPulses_seeded stream w z sizes s
    have key : ∀ t : List (List K) × RandState G, t = drawPulses stream w (.seeded z) sizes s →
        (⟨t.1, (drawNumbers stream w (.seeded z) n t.2).1⟩ : SIDraws K) = consecutive (fun i => stream z (s.pos + i)) sizes n 0 ∧
        (drawNumbers stream w (.seeded z) n t.2).2.pos = s.pos + ((pulseDraws sizes).sum + n) := by
      rintro t rfl
      rw [hp.1, (drawNumbers_seeded stream w z n _).1, (drawNumbers_seeded stream w z n _).2, hp.2]
      refine ⟨?_, by omega⟩
      simp only [consecutive, block, Nat.zero_mul, Nat.zero_add, Nat.add_assoc]
    cases alg with
    | directSearch => exact absurd rfl ha
    | dcrab => exact key _ rfl
    | ad => exact key _ rfl
    | grape => rw [hg rfl] at key ⊢; exact key _ rfl
  induction k generalizing s with
  | zero => exact (step s).1
  | succ k ih =>
    rw [drawsAfter, ih, (step s).2]
    have e : ∀ a b : ℕ, s.pos + ((pulseDraws sizes).sum + n) + (k * ((pulseDraws sizes).sum + n) + a + b) =
        s.pos + ((k + 1) * ((pulseDraws sizes).sum + n) + a + b) := fun a b => by ring
    simp only [consecutive, block, e]

/-- **C75** With a seed number `z`, every random number that dCRAB, AD and GRAPE draw is a number of the sequence of that seed: pulse
after pulse, super-iteration after super-iteration, without gaps and without using a number twice. Neither the state of NumPy's
global generator nor what other code does with it matters. -/
theorem C75_numbers_of_the_seed_partial (stream : ℕ → ℕ → K) (w : World G K) {alg : AlgName} (ha : alg ≠ .directSearch) (z : ℕ)
    (sizes : List (Option ℕ)) (hg : alg = .grape → sizes = []) (n : ℕ) (g : G) :
    runDraws stream w alg (.int z) sizes n g = .ok (consecutive (stream z) sizes n) := by
  have hz : ¬ ((z : ℤ) < 0) := by omega
  have hr : ∀ r, mkRng alg (.int z) r = .ok (.seeded z) := by
    intro r
    cases alg <;> first | exact absurd rfl ha | simp [mkRng, mkGenerator, hz]
  simp only [runDraws, hr]
  congr 1
  funext k
  rw [drawsAfter_seeded stream w ha z sizes hg]
  simp

/-- **C75** The same seed gives the same run: for every user program and every way the controls use their random numbers, two runs with
the same settings and the same seed evaluate the same controls and end in the same state, whatever happens to NumPy's global generator
in the two processes. -/
theorem C75_same_run_partial [Field K] [LinearOrder K] [Field F] [LinearOrder F] {G' : Type} (stream : ℕ → ℕ → K) (w : World G K) (w' : World G' K)
    {alg : AlgName} (ha : alg ≠ .directSearch) (z : ℕ) (sizes : List (Option ℕ)) (hg : alg = .grape → sizes = []) (n : ℕ) (g : G) (g' : G')
    (cfg : AlgCfg K F) (env : Env V C F) (opsOf : (ℕ → SIDraws K) → CtlOps O V C) (dsm : Dsm K V F) (o : O) :
    executeRandom stream w alg (.int z) sizes n g cfg env opsOf dsm o = executeRandom stream w' alg (.int z) sizes n g' cfg env opsOf dsm o := by
  simp only [executeRandom, C75_numbers_of_the_seed_partial stream _ ha z sizes hg]

/-- **C75** What happens without a usable seed: dCRAB takes 2022 if the setting has no seed number or one of a wrong type, GRAPE takes
2022 if there is no seed number. These runs are reproducible as well. -/
theorem C75_default_seed (stream : ℕ → ℕ → K) (w : World G K) (sizes : List (Option ℕ)) (n : ℕ) (g : G) :
    runDraws stream w .dcrab .malformed sizes n g = .ok (consecutive (stream 2022) sizes n) ∧
    runDraws stream w .dcrab .badType sizes n g = .ok (consecutive (stream 2022) sizes n) ∧
    runDraws stream w .grape .absent [] n g = .ok (consecutive (stream 2022) [] n) ∧
    runDraws stream w .grape .malformed [] n g = .ok (consecutive (stream 2022) [] n) :=
  ⟨C75_numbers_of_the_seed_partial stream w (alg := .dcrab) (by decide) 2022 sizes (by intro h; cases h) n g,
   C75_numbers_of_the_seed_partial stream w (alg := .dcrab) (by decide) 2022 sizes (by intro h; cases h) n g,
   C75_numbers_of_the_seed_partial stream w (alg := .grape) (by decide) 2022 [] (fun _ => rfl) n g,
   C75_numbers_of_the_seed_partial stream w (alg := .grape) (by decide) 2022 [] (fun _ => rfl) n g⟩

/-- **C75 is violated by seeds that are no natural numbers**: a seed of a wrong type, for which the warning announces a default, stops
GRAPE with a TypeError (GRAPEAlgorithm.py:79 is outside of the `try` block), and a negative seed stops all of dCRAB, GRAPE and AD with a
ValueError, which is not caught. -/
theorem C75_bad_seed_stops (stream : ℕ → ℕ → K) (w : World G K) (sizes : List (Option ℕ)) (n : ℕ) (g : G) {z : ℤ} (hz : z < 0) :
    runDraws stream w .grape .badType sizes n g = .error .typeError ∧
    ∀ alg, alg ≠ .directSearch → runDraws stream w alg (.int z) sizes n g = .error .valueError := by
  refine ⟨rfl, fun alg ha => ?_⟩
  cases alg <;> first | exact absurd rfl ha | simp [runDraws, mkRng, mkGenerator, hz]

/-- **C75 is violated by DirectSearch** (DirectSearchAlgorithm.py:300 calls `simplex_creation` without a generator): whatever the seed
setting is, the start simplex is made from the next numbers of NumPy's global generator. -/
theorem C75_direct_search_ignores_seed (stream : ℕ → ℕ → K) (w : World G K) (setting : SeedSetting) (sizes : List (Option ℕ)) (n : ℕ) (g : G) :
    ∃ d, runDraws stream w .directSearch setting sizes n g = .ok d ∧ (d 0).start = (globalNumbers w.rand n (w.other 0 g)).1 := by
  refine ⟨_, rfl, ?_⟩
  simp only [drawsAfter, drawSI, drawNumbers]
  rfl

/-- two processes with the same seed 7 whose global generators stand at 1 and at 5: different start simplices -/
example : ∃ (w : World ℕ ℚ) (d d' : ℕ → SIDraws ℚ), runDraws (fun s i => (s + i : ℚ)) w .directSearch (.int 7) [] 2 1 = .ok d ∧
    runDraws (fun s i => (s + i : ℚ)) w .directSearch (.int 7) [] 2 5 = .ok d' ∧ (d 0).start = [1, 2] ∧ (d' 0).start = [5, 6] := by
  refine ⟨⟨fun g => (g, g + 1), fun g => (g, g + 1), fun g => (g, g + 1), fun _ g => g⟩, _, _, rfl, rfl, ?_, ?_⟩ <;>
    simp [drawsAfter, drawSI, drawNumbers, globalNumbers]

/-- and dCRAB in the same two processes: the numbers of the seed, in both cases -/
example : ∃ (w : World ℕ ℚ) (d d' : ℕ → SIDraws ℚ), runDraws (fun s i => (s + i : ℚ)) w .dcrab (.int 7) [some 2, none, some 1] 2 1 = .ok d ∧
    runDraws (fun s i => (s + i : ℚ)) w .dcrab (.int 7) [some 2, none, some 1] 2 5 = .ok d' ∧
    (d 0).pulses = [[7, 8], [], [9]] ∧ (d 0).start = [10, 11] ∧ (d 1).pulses = [[12, 13], [], [14]] ∧ (d' 1).pulses = (d 1).pulses := by
  refine ⟨⟨fun g => (g, g + 1), fun g => (g, g + 1), fun g => (g, g + 1), fun _ g => g + 3⟩, _, _,
    C75_numbers_of_the_seed_partial _ _ (by decide) 7 _ (by intro h; cases h) _ _,
    C75_numbers_of_the_seed_partial _ _ (by decide) 7 _ (by intro h; cases h) _ _, ?_, ?_, ?_, rfl⟩ <;>
    simp [consecutive, block, pulseDraws, List.range_succ] <;> norm_num

/-- the second point evaluated by CMA-ES -/
theorem cma_second_point [Field K] [LinearOrder K] [Field F] [LinearOrder F] {n L : ℕ} (lib : CmaLib K F) (hL : 0 < L) (h2 : 2 ≤ L) (fuel : ℕ) (x0 sg : Vec K n)
    {x x' : Vec K n} {it it' : ℕ} {f f' : F} {m' : Strat K (Vec K n) F (DsmResult (Vec K n) F)}
    (hp : Plays (cmaRun lib hL (fuel + 1) x0 sg) [⟨.setConv false, ()⟩, ⟨.readConv, false⟩, ⟨.eval x it, f⟩, ⟨.eval x' it', f'⟩] m') :
    x' = x0 + fun i => sg i * lib.randn 1 i := by
  obtain ⟨l, rfl⟩ : ∃ l, L = l + 2 := ⟨L - 2, by omega⟩
  have hl : List.finRange (l + 2) = 0 :: 1 :: ((List.finRange l).map Fin.succ).map Fin.succ := by
    rw [List.finRange_succ, List.finRange_succ]; rfl
  rw [cmaRun] at hp
  cases hp with | cons o k r evs m' h =>
  change Plays ((cmaLoop lib (fuel + 1) (cmaInit hL x0 sg)).bind _) _ _ at h
  rw [cmaLoop] at h
  cases h with | cons o k r evs m' h =>
  change Plays (Strat.bind (Strat.bind (cmaSample lib (List.finRange (l + 2)) (cmaInit hL x0 sg)) _) _) _ _ at h
  rw [hl] at h
  cases h with | cons o k r evs m' h =>
  cases h with | cons o k r evs m' h =>
  simp [cmaInit, Matrix.one_mulVec]

/-- **C75 is violated by CMA-ES** (CMAES.py:142 uses `np.random.randn`): whatever the seed setting is, the second point that is evaluated
depends on the state of NumPy's global generator. -/
theorem C75_cmaes_ignores_seed [Field K] [LinearOrder K] [Field F] [LinearOrder F] {n L : ℕ} (lib : CmaLib K F) (w : World G K) (g : G) (hL : 0 < L)
    (h2 : 2 ≤ L) (fuel : ℕ) (x0 sg : Vec K n) {x x' : Vec K n} {it it' : ℕ} {f f' : F} {m' : Strat K (Vec K n) F (DsmResult (Vec K n) F)}
    (hp : Plays (cmaRun (lib.withGlobal w g) hL (fuel + 1) x0 sg)
      [⟨.setConv false, ()⟩, ⟨.readConv, false⟩, ⟨.eval x it, f⟩, ⟨.eval x' it', f'⟩] m') :
    x' = x0 + fun i => sg i * (globalNumbers w.randn n (w.other 0 g)).1.getD i 0 :=
  cma_second_point (lib.withGlobal w g) hL h2 fuel x0 sg hp

/-- one parameter, a population of two, global generators that stand at 1 and at 5: the second points are 1 and 5 -/
example : ∃ (w : World ℕ ℚ) (m m' : Strat ℚ (Vec ℚ 1) ℚ (DsmResult (Vec ℚ 1) ℚ)),
    Plays (cmaRun (L := 2) (exCmaLib.withGlobal w 1) (by decide) 1 0 1)
      [⟨.setConv false, ()⟩, ⟨.readConv, false⟩, ⟨.eval 0 1, 3⟩, ⟨.eval (fun _ => 1) 1, 4⟩] m ∧
    Plays (cmaRun (L := 2) (exCmaLib.withGlobal w 5) (by decide) 1 0 1)
      [⟨.setConv false, ()⟩, ⟨.readConv, false⟩, ⟨.eval 0 1, 3⟩, ⟨.eval (fun _ => 5) 1, 4⟩] m' := by
  have h : ∀ c : ℕ, ∃ m : Strat ℚ (Vec ℚ 1) ℚ (DsmResult (Vec ℚ 1) ℚ),
      Plays (cmaRun (L := 2) (exCmaLib.withGlobal (⟨fun g => (g, g + 1), fun g => (g, g + 1), fun g => (g, g + 1), fun _ g => g⟩ : World ℕ ℚ) c)
        (by decide) 1 0 1) [⟨.setConv false, ()⟩, ⟨.readConv, false⟩, ⟨.eval 0 1, 3⟩, ⟨.eval (fun _ => (c : ℚ)) 1, 4⟩] m := by
    intro c
    have e : (fun _ => (c : ℚ) : Vec ℚ 1) = 0 + (1 : ℚ) • (1 : Matrix (Fin 1) (Fin 1) ℚ).mulVec (fun i => (1 : Vec ℚ 1) i *
        (exCmaLib.withGlobal (⟨fun g => (g, g + 1), fun g => (g, g + 1), fun g => (g, g + 1), fun _ g => g⟩ : World ℕ ℚ) c).randn 1 i) := by
      funext i
      fin_cases i
      simp [CmaLib.withGlobal, cmaNormals, globalNumbers]
    rw [e]
    exact ⟨_, .cons _ _ _ _ _ (.cons _ _ _ _ _ (.cons _ _ _ _ _ (.cons _ _ _ _ _ (.nil _))))⟩
  obtain ⟨m, hm⟩ := h 1
  obtain ⟨m', hm'⟩ := h 5
  exact ⟨_, m, m', by simpa using hm, by simpa using hm'⟩

end QuOCS
