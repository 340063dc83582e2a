/-
Property C96, continued: the first call of a dCRAB optimization uses the initial guesses and values in the dictionary.
-/
import Verif.Props.SearchCalls
import Verif.Props.SuperIterationStart

set_option linter.unusedSectionVars false
set_option linter.unusedVariables false

namespace QuOCS

variable {w : Surroundings} {d : PDict} {r : Outcome}

theorem within_clip {lo hi : ℚ} (h : lo ≤ hi) (y : ℚ) : max (min y (max lo hi)) (min lo hi) = within lo hi y := by
  rw [min_eq_left h, max_eq_right h]
  unfold within
  split
  · rw [max_eq_right]; exact (min_le_left _ _).trans (le_of_lt ‹_›)
  · split
    · rw [min_eq_right (le_of_lt ‹_›), max_eq_left h]
    · rw [min_eq_left (not_lt.1 ‹_›), max_eq_left (not_lt.1 ‹_›)]

/-- **C96.** The first call of a dCRAB optimization with plain controls: each parameter has its initial value (if that is within
its limits), and each pulse with the default shaping that is cut to its limits has the samples of its initial guess times those of its
scaling function, in the limits, at the equidistant times from zero to the duration. -/
theorem C96_first_call (h : optimize w d = some (.ok r)) (hk : IsDcrab d) (hp : PlainControls w.lib d)
    (hr : w.Draws d) {c : Seen} {rest : List Seen} (hc : r.calls = c :: rest) :
    (∀ (j : ℕ) (p : PDict) (v lo hi : ℚ), (itemsAt d "parameters")[j]? = some p → setting p ["initial_value"] (.num 1) = .num v →
      setting p ["lower_limit"] (.num (1 / 10)) = .num lo → setting p ["upper_limit"] (.num (11 / 10)) = .num hi →
      lo ≤ v → v ≤ hi → c.1.parameters[j]? = some v) ∧
    ∀ (i : ℕ) (p : PDict) (b : ℕ) (lo hi : ℚ) (guess scaling : List ℚ → List ℚ), (itemsAt d "pulses")[i]? = some p →
      setting p ["bins_number"] (.num 101) = .num b → setting p ["lower_limit"] (.num 0) = .num lo →
      setting p ["upper_limit"] (.num 1) = .num hi → lo ≤ hi → IsFalse (setting p ["shrink_ampl_lim"] (.bool false)) →
      NoEntry (entry p ["shaping_options"]) → GuessSamples w.lib p b guess → ScalingSamples w.lib p b scaling →
      ∃ times, c.1.timegrids[i]? = some times ∧ times.length = b ∧
        (∀ T : ℚ, (∀ t ∈ itemsAt d "times", entry t ["time_name"] = some (setting p ["time_name"] (.str "time")) →
          setting t ["initial_value"] (.num 1) = .num T) → ∀ k < b, times[k]? = some (k * (T / (b - 1 : ℕ)))) ∧
        c.1.pulses[i]? = some (List.zipWith (fun s y => within lo hi (s * within lo hi y)) (scaling times) (guess times)) := by
  obtain ⟨s, cfg, dsm, o, h⟩ := optimize_parts h
  obtain ⟨hu, hf⟩ := usable_controls h.usesControls hp
  have hR := fun k => enough_random h.usesControls hp hr k
  have hK := h.dcrab hk
  have hz : ∀ x ∈ s.controls.pulses, ZeroUpdate w.lib.M x := by
    intro x hx
    obtain ⟨p, hpm, hU⟩ := forall2_mem h.usesControls.pulses hx
    exact zeroUpdate_usable (hu.pulses x hx) (library_basis hU)
  have hd : (∃ c fuel, dsm = nelderMead c fuel) ∨ ∃ lib p fuel, dsm = cmaes lib p fuel := by
    have hd := h.hdsm
    unfold SearchSettings.dsm at hd
    split at hd
    · cases hd; exact .inl ⟨_, _, rfl⟩
    · rw [Option.map_eq_some_iff] at hd
      obtain ⟨p, _, hd⟩ := hd
      exact .inr ⟨_, _, _, hd.symm⟩
    · cases hd
  have hcalls := h.calls
  unfold theRun at hcalls
  rw [hK, hc] at hcalls
  obtain ⟨first, rest', hlog, hfirst, _⟩ := List.map_eq_cons_iff.1 hcalls.symm
  obtain ⟨a1, a2⟩ := C89_first_call_is_initial_guess_partial hu hz hf hR hK hd h.hcontrols hlog
  have hctl : c.1 = first.ctl := by rw [← hfirst]
  have hb := execute_built (cfg := cfg) (env := w.env s.vars)
    (system_reach_kept (kind := .dcrab) (M := w.lib.M) (sqrt := w.sqrt) (rnd := w.rnd) (draws := w.draws)) dsm (.create h.hcontrols)
  obtain ⟨o1, o2, h1, h2⟩ := hb.log first (by rw [hlog]; exact List.mem_cons_self)
  obtain ⟨q, hq, h2⟩ := py_bind_ok.1 h2
  split at h2
  · cases h2
  · cases h2
    have hA := delivered_admissible h1 hq
    refine ⟨fun j p v lo hi hj hv hlo hhi h1 h2 => ?_, fun i p b lo hi g sc hi' hbins hlo hhi hle hshr hsha hg hs => ?_⟩
    · obtain ⟨x, hx, hU⟩ := forall2_at h.usesControls.params hj
      have e1 := hU.lower
      have e2 := hU.upper
      have e3 := hU.value
      rw [hlo] at e1
      rw [hhi] at e2
      rw [hv] at e3
      rw [hctl, ← e3.num]
      exact a1 j x hx (by rw [e1.num, e3.num]; exact h1) (by rw [e2.num, e3.num]; exact h2)
    · obtain ⟨x, hx, hU⟩ := forall2_at h.usesControls.pulses hi'
      have e1 := hU.lower
      have e2 := hU.upper
      rw [hlo] at e1
      rw [hhi] at e2
      obtain rfl := count_unique hU.bins hbins
      have hso : x.shapingOptions = none := by
        rcases hU.shaping with ⟨_, h⟩ | ⟨names, h, _⟩
        · exact h
        · rw [h] at hsha
          rcases hsha with hsha | hsha <;> cases hsha
      obtain ⟨times, ht⟩ : ∃ t, first.ctl.timegrids[i]? = some t :=
        ⟨_, List.getElem?_eq_getElem (by rw [hA.number.2.1]; exact (List.getElem?_eq_some_iff.1 hx).1)⟩
      obtain ⟨u, hu'⟩ : ∃ t, first.ctl.pulses[i]? = some t :=
        ⟨_, List.getElem?_eq_getElem (by rw [hA.number.1]; exact (List.getElem?_eq_some_iff.1 hx).1)⟩
      have hlen := (hA.pulses i x u times hx hu' ht).grid.1
      obtain ⟨g1, g2⟩ := samples_used hU.guess hg
      obtain ⟨s1, s2⟩ := samples_used hU.scaling hs
      refine ⟨times, by rw [hctl]; exact ht, hlen, fun T hT k hk => ?_, ?_⟩
      · obtain ⟨time, T', h1, h2, h3⟩ := (hA.pulses i x u times hx hu' ht).grid.2
        have hm : time ∈ s.controls.times := by simpa using List.mem_of_find?_eq_some h1
        have hname : time.name = x.timeName := by simpa using List.find?_some h1
        obtain ⟨t, htm, hUt⟩ := forall2_mem h.usesControls.times hm
        have hval := hUt.value
        rw [hT t htm (by rw [hUt.name, hname, hU.time])] at hval
        rw [h3 k hk, h2.1 (hf _ hm), hval.num]
      have := a2 i x times (sc times) (g times) hx ht hso (hU.shrink.2 hshr) ?_ ?_ (s2 _ hlen) (g2 _ hlen)
      · rw [hctl, this]
        congr 2
        funext s y
        dsimp only
        rw [within_clip (by rw [e1.num, e2.num]; exact hle), within_clip (by rw [e1.num, e2.num]; exact hle), e1.num, e2.num]
      · rcases s1 with s1 | ⟨qs, s1, _, e⟩
        · exact .inr ⟨_, s1, rfl⟩
        · rw [e]; exact .inl s1
      · rcases g1 with s1 | ⟨qs, s1, _, e⟩
        · exact .inr ⟨_, s1, rfl⟩
        · rw [e]; exact .inl s1

/-! ### A concrete optimization -/

/-- one pulse with the guess `(1, 5, -3)` and the scaling `(1, 1/2, 1)`, limits -1 and 2, and one parameter -/
def exGuessProgram : PDict :=
  exSettings ([("max_eval_total", .num 2)] ++ exAlg)
    [exPulse (exBasis "Sinc" []) [("bins_number", .num 3), ("lower_limit", .num (-1)),
      ("initial_guess", .dict (mkDict [("function_type", .str "list_function"), ("list_function", .list (numList [1, 5, -3]))])),
      ("scaling_function", .dict (mkDict [("function_type", .str "list_function"), ("list_function", .list (numList [1, 1 / 2, 1]))]))]]
    [.dict (mkDict [("parameter_name", .str "a"), ("lower_limit", .num (-1)), ("amplitude_variation", .num (1 / 2)),
      ("initial_value", .num (1 / 3)), ("upper_limit", .num 2)])] [exTime]

/-- the first call: time grids, pulses, parameters -/
def firstOf (r : Option (Py Outcome)) : Option (List (List ℚ) × List (List ℚ) × List ℚ) :=
  match r with
  | some (.ok r) => r.calls.head?.map fun c => (c.1.timegrids, c.1.pulses, c.1.parameters)
  | _ => none

/-- The guess is cut to the limits (5 to 2, -3 to -1) and multiplied by the scaling. -/
theorem exGuessProgram_first : firstOf (optimize (exAround 0) exGuessProgram) = some ([[0, 3 / 2, 3]], [[1, 1, -1]], [1 / 3]) := by
  decide +kernel

theorem numList_items {lib : PyLib} : ∀ l : List ℚ, ItemsAre lib (numList l) l
  | [] => .nil
  | q :: l => .num _ _ _ _ (.inl rfl) (numList_items l)

/-- The hypotheses of `C96_first_call` are met by this optimization. -/
theorem exGuessProgram_meets (a : ℚ) : PlainControls exLib exGuessProgram ∧ StandardDictionary exGuessProgram ∧ IsDcrab exGuessProgram ∧
    (exAround a).Draws exGuessProgram ∧ ∃ p, (itemsAt exGuessProgram "pulses")[0]? = some p ∧
      GuessSamples exLib p 3 (fun _ => [1, 5, -3]) ∧ ScalingSamples exLib p 3 (fun _ => [1, 1 / 2, 1]) := by
  obtain ⟨p, hp, hp'⟩ : ∃ p, itemsAt exGuessProgram "pulses" = [p] ∧ p = mkDict [("pulse_name", .str "p"), ("upper_limit", .num 2),
      ("time_name", .str "t"), ("basis", exBasis "Sinc" []), ("bins_number", .num 3), ("lower_limit", .num (-1)),
      ("initial_guess", .dict (mkDict [("function_type", .str "list_function"), ("list_function", .list (numList [1, 5, -3]))])),
      ("scaling_function", .dict (mkDict [("function_type", .str "list_function"), ("list_function", .list (numList [1, 1 / 2, 1]))]))] :=
    ⟨_, rfl, rfl⟩
  have ht : itemsAt exGuessProgram "times" = [mkDict [("time_name", .str "t"), ("initial_value", .num 3)]] := rfl
  have hq : itemsAt exGuessProgram "parameters" = [mkDict [("parameter_name", .str "a"), ("lower_limit", .num (-1)),
      ("amplitude_variation", .num (1 / 2)), ("initial_value", .num (1 / 3)), ("upper_limit", .num 2)]] := rfl
  have h1 : GuessSamples exLib p 3 (fun _ => [1, 5, -3]) := by
    subst hp'
    exact .inr ⟨_, rfl, .inl ⟨rfl, _, _, rfl, ⟨_, .inl rfl, numList_items _⟩, rfl, rfl⟩⟩
  have h2 : ScalingSamples exLib p 3 (fun _ => [1, 1 / 2, 1]) := by
    subst hp'
    exact .inr ⟨_, rfl, .inl ⟨rfl, _, _, rfl, ⟨_, .inl rfl, numList_items _⟩, rfl, rfl⟩⟩
  refine ⟨⟨.inl (by rw [hp]; simp), fun x h => ?_, fun t h => ?_⟩, ⟨fun x h => ?_, fun x h lo hi hlo hhi => ?_⟩, ⟨.inl rfl, rfl⟩,
    fun k i x n hx hn => ?_, p, by rw [hp]; rfl, h1, h2⟩
  · rw [hp, List.mem_singleton] at h
    subst h
    refine ⟨⟨3, by norm_num, by subst hp'; rfl, ⟨_, h1⟩, ⟨_, h2⟩⟩, ⟨1, le_refl _, by subst hp'; rfl⟩, ?_⟩
    rw [ht]
    exact ⟨_, List.mem_singleton.2 rfl, by subst hp'; rfl⟩
  · rw [ht, List.mem_singleton] at h
    subst h
    exact .inr (.inl rfl)
  · rw [hp, List.mem_singleton] at h
    subst h
    subst hp'
    exact ⟨.inl (.inl rfl), .inr (.inl rfl)⟩
  · rw [hq, List.mem_singleton] at h
    subst h
    have hlo : IsNumber (.num (-1)) lo := hlo
    have hhi : IsNumber (.num 2) hi := hhi
    rw [hlo.num, hhi.num]
    norm_num
  · rcases i with _ | i
    · rw [hp] at hx
      obtain rfl : p = x := Option.some.inj hx
      subst hp'
      have : ((1 : ℕ) : ℚ) = n := PVal_num_inj (a := ((1 : ℕ) : ℚ)) hn
      have : 1 = n := Nat.cast_injective this
      subst this
      exact le_refl _
    · rw [hp] at hx; cases hx

end QuOCS
