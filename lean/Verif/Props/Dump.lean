import Verif.Lemmas.Dump

/-!
# C11, C58, C59: what the files with the controls contain

`dumpDict pulses grids params pulseNames paramNames kwargs` is the dictionary saved by `BestDump.dump_controls`; `kwargs`
are all further entries (names lists, figure of merit, iteration number ...).
-/

set_option linter.unusedSectionVars false
set_option linter.unusedVariables false

namespace QuOCS

open QuOCS.Spec QuOCS.Dump

variable {β : Type}

/-- The general step: distinct names. -/
theorem Dump.distinct {names qnames : List String} {pulses grids params : List β} {kwargs : List (String × β)}
    (hl : pulses.length = grids.length) (hp : names.length = pulses.length) (hq : qnames.length = params.length)
    (hn : (names ++ names.map timeName ++ qnames ++ kwargs.map Prod.fst).Nodup) :
    (do let d ← dumpPulses names 0 (pulses.zip grids) []
        let d ← dumpParams qnames 0 params d
        .ok (dictMerge d kwargs) : Py (List (String × β)))
      = .ok (pulseEntries names (pulses.zip grids) ++ qnames.zip params ++ kwargs) ∧
    (keys (pulseEntries names (pulses.zip grids) ++ qnames.zip params ++ kwargs)).Nodup := by
  have hz : (pulses.zip grids).length = names.length := by simp [hl, hp]
  have hkeysP : keys (pulseEntries names (pulses.zip grids)) = names.flatMap (fun k => [k, timeName k]) :=
    keys_pulseEntries hz.symm
  have hkeysQ : keys (qnames.zip params) = qnames := keys_zip hq
  have hall : (keys (pulseEntries names (pulses.zip grids) ++ qnames.zip params ++ kwargs)).Nodup := by
    have e : keys (pulseEntries names (pulses.zip grids) ++ qnames.zip params ++ kwargs)
        = names.flatMap (fun k => [k, timeName k]) ++ qnames ++ kwargs.map Prod.fst := by
      rw [show keys (pulseEntries names (pulses.zip grids) ++ qnames.zip params ++ kwargs)
        = keys (pulseEntries names (pulses.zip grids)) ++ keys (qnames.zip params) ++ keys kwargs by simp [keys],
        hkeysP, hkeysQ]
    rw [e, ← ((keys_perm names qnames).append_right _).nodup_iff]
    exact hn
  refine ⟨?_, hall⟩
  have hn1 : (names ++ names.map timeName).Nodup := by
    rw [List.append_assoc] at hn
    exact (List.nodup_append.1 hn).1
  have hnn : names.Nodup := (List.nodup_append.1 hn1).1
  have hdisj : ∀ a ∈ names, ∀ b ∈ names, a ≠ timeName b := by
    intro a ha b hb e
    exact (List.nodup_append.1 hn1).2.2 a ha (timeName b) (List.mem_map.2 ⟨b, hb, rfl⟩) e
  -- pulses
  obtain ⟨ks, hks, hok, hnd, -, hP⟩ := dumpPulses_spec (β := β) (names := names)
    (fun i ks => ∀ k ∈ ks, k ∈ names.take i ∨ ∃ m ∈ names.take i, k = timeName m) (fun i k => names[i]? = some k)
    (by
      intro i ks nm hnm hinv key hkey
      have hmem : nm ∈ names := List.mem_of_getElem? hnm
      have hlt : i < names.length := by
        by_contra hc
        rw [List.getElem?_eq_none (by omega)] at hnm
        simp at hnm
      have hnot : nm ∉ names.take i := by
        intro hc
        rw [List.mem_take_iff_getElem] at hc
        obtain ⟨j, hj, e⟩ := hc
        rw [List.getElem?_eq_getElem hlt] at hnm
        have e2 := Option.some.inj hnm
        have := (List.Nodup.getElem_inj_iff hnn).1 (e.trans e2.symm)
        omega
      have hfresh : nm ∉ ks := by
        intro hc
        rcases hinv nm hc with h | ⟨m, hm, h⟩
        · exact hnot h
        · exact hdisj nm hmem m (List.mem_of_mem_take hm) h
      rw [if_neg hfresh] at hkey
      subst hkey
      refine ⟨hfresh, ?_, timeName_ne _, hnm, ?_⟩
      · intro hc
        rcases hinv _ hc with h | ⟨m, hm, h⟩
        · exact hdisj _ (List.mem_of_mem_take h) _ hmem rfl
        · exact hnot (timeName_inj h ▸ hm)
      · have htake : names.take (i + 1) = names.take i ++ [key] := by
          rw [List.take_add_one, hnm]; rfl
        intro k hk
        rw [htake]
        simp only [List.mem_append, List.mem_cons, List.not_mem_nil, or_false] at hk ⊢
        rcases hk with h | rfl | rfl
        · rcases hinv k h with h | ⟨m, hm, h⟩
          · exact Or.inl (Or.inl h)
          · exact Or.inr ⟨m, Or.inl hm, h⟩
        · exact Or.inl (Or.inr rfl)
        · exact Or.inr ⟨key, Or.inr rfl, rfl⟩)
    (pulses.zip grids) 0 [] (by simp) (by simp) (by omega)
  have hksn : ks = names := by
    apply List.ext_getElem (by omega)
    intro j h1 h2
    have := hP j ks[j] (List.getElem?_eq_getElem h1)
    rw [Nat.zero_add, List.getElem?_eq_getElem h2] at this
    exact (Option.some.inj this).symm
  rw [hksn] at hok hnd
  simp only [List.nil_append] at hok hnd
  -- parameters
  have hq1 : (names.flatMap (fun k => [k, timeName k]) ++ qnames).Nodup := by
    rw [← (keys_perm names qnames).nodup_iff]
    exact (List.nodup_append.1 hn).1
  obtain ⟨qs, hqs, hok2, hnd2, -, hP2⟩ := dumpParams_spec (β := β) (names := qnames)
    (fun i ks => ∀ k ∈ ks, k ∈ qnames.take i ∨ k ∈ names.flatMap (fun k => [k, timeName k]))
    (fun i k => qnames[i]? = some k)
    (by
      intro i ks nm hnm hinv key hkey
      have hmem : nm ∈ qnames := List.mem_of_getElem? hnm
      have hlt : i < qnames.length := by
        by_contra hc
        rw [List.getElem?_eq_none (by omega)] at hnm
        simp at hnm
      have hnot : nm ∉ qnames.take i := by
        intro hc
        rw [List.mem_take_iff_getElem] at hc
        obtain ⟨j, hj, e⟩ := hc
        rw [List.getElem?_eq_getElem hlt] at hnm
        have e2 := Option.some.inj hnm
        have := (List.Nodup.getElem_inj_iff (List.nodup_append.1 hq1).2.1).1 (e.trans e2.symm)
        omega
      have hfresh : nm ∉ ks := by
        intro hc
        rcases hinv nm hc with h | h
        · exact hnot h
        · exact (List.nodup_append.1 hq1).2.2 nm h nm hmem rfl
      rw [if_neg hfresh] at hkey
      subst hkey
      refine ⟨hfresh, hnm, ?_⟩
      have htake : qnames.take (i + 1) = qnames.take i ++ [key] := by
        rw [List.take_add_one, hnm]; rfl
      intro k hk
      rw [htake]
      simp only [List.mem_append, List.mem_singleton] at hk ⊢
      rcases hk with h | rfl
      · rcases hinv k h with h | h
        · exact Or.inl (Or.inl h)
        · exact Or.inr h
      · exact Or.inl (Or.inr rfl))
    params 0 (pulseEntries names (pulses.zip grids)) (by rw [hkeysP]; intro k hk; exact Or.inr hk) hnd (by omega)
  have hqsn : qs = qnames := by
    apply List.ext_getElem (by omega)
    intro j h1 h2
    have := hP2 j qs[j] (List.getElem?_eq_getElem h1)
    rw [Nat.zero_add, List.getElem?_eq_getElem h2] at this
    exact (Option.some.inj this).symm
  rw [hqsn] at hok2
  rw [hok]
  show (dumpParams qnames 0 params (pulseEntries names (pulses.zip grids)) >>= fun d => .ok (dictMerge d kwargs)) = _
  rw [hok2]
  show Except.ok (dictMerge _ _) = _
  rw [dictMerge_fresh]
  rw [show keys (pulseEntries names (pulses.zip grids) ++ qnames.zip params ++ kwargs)
    = keys (pulseEntries names (pulses.zip grids) ++ qnames.zip params) ++ keys kwargs by simp [keys]] at hall
  exact hall

/-- **C11** (distinct names). If the names of pulses, time grids (`time_grid_for_` + pulse name), parameters and the
further entries are pairwise different, the file contains every pulse under its name, every time grid under
`time_grid_for_` + the name of its pulse and every parameter under its name. -/
theorem C11_own_names_partial (pulses grids params : List β) (names qnames : List String) (kwargs : List (String × β))
    (hl : pulses.length = grids.length) (hp : names.length = pulses.length) (hq : qnames.length = params.length)
    (hn : (names ++ names.map ("time_grid_for_" ++ ·) ++ qnames ++ kwargs.map Prod.fst).Nodup) :
    ∃ file, dumpDict pulses grids params (some names) (some qnames) kwargs = .ok file ∧
      names.map (fun k => file.lookup k) = pulses.map some ∧
      names.map (fun k => file.lookup ("time_grid_for_" ++ k)) = grids.map some ∧
      qnames.map (fun k => file.lookup k) = params.map some := by
  obtain ⟨h1, h2⟩ := Dump.distinct (β := β) hl hp hq hn
  obtain ⟨h3, h4, h5, -⟩ := kept hl hp hq h2
  exact ⟨_, h1, h3, by rw [← h4, List.map_map]; rfl, h5⟩

/-- Two pulses and a parameter with different names. -/
example : (["x", "y"] ++ ["x", "y"].map ("time_grid_for_" ++ ·) ++ ["q"] ++
    [("FoM", 7), ("iteration_number", 8)].map Prod.fst).Nodup := by decide

/-- Numbered names are different. -/
theorem Dump.default_nodup (stem : String) (n : ℕ) : (defaultNames stem n).Nodup := by
  refine List.Nodup.map_on ?_ List.nodup_range
  intro a _ b _ h
  have h1 := congrArg String.toList h
  simp only [String.toList_append] at h1
  have := digits_inj (String.toList_inj.1 (List.append_cancel_left h1))
  omega

/-- **C11** (no names given). Without name lists the controls are stored as `pulse_1`, ..., `time_grid_for_pulse_1`, ...,
`parameter_1`, ..., whatever the number of controls, if no further entry has one of these names. -/
theorem C11_default_names_partial (pulses grids params : List β) (kwargs : List (String × β))
    (hl : pulses.length = grids.length) (hkw : (kwargs.map Prod.fst).Nodup)
    (hp : ∀ e ∈ kwargs, ¬ "pulse_".toList <+: e.1.toList ∧ ¬ "parameter_".toList <+: e.1.toList ∧
      ¬ "time_grid_for_".toList <+: e.1.toList) :
    ∃ file, dumpDict pulses grids params none none kwargs = .ok file ∧
      (List.range pulses.length).map (fun i => file.lookup ("pulse_" ++ toString (i + 1))) = pulses.map some ∧
      (List.range grids.length).map (fun i => file.lookup ("time_grid_for_pulse_" ++ toString (i + 1)))
        = grids.map some ∧
      (List.range params.length).map (fun i => file.lookup ("parameter_" ++ toString (i + 1))) = params.map some := by
  have hnodup : (defaultNames "pulse_" pulses.length ++ (defaultNames "pulse_" pulses.length).map timeName
      ++ defaultNames "parameter_" params.length ++ kwargs.map Prod.fst).Nodup := by
    have hpre : ∀ stem k n, k ∈ defaultNames stem n → stem.toList <+: k.toList := by
      intro stem k n hk
      simp only [defaultNames, List.mem_map] at hk
      obtain ⟨i, -, rfl⟩ := hk
      rw [String.toList_append]
      exact List.prefix_append _ _
    have hpreT : ∀ k n, k ∈ (defaultNames "pulse_" n).map timeName → "time_grid_for_".toList <+: k.toList := by
      intro k n hk
      simp only [List.mem_map] at hk
      obtain ⟨i, -, rfl⟩ := hk
      rw [timeName, String.toList_append]
      exact List.prefix_append _ _
    have hne : ∀ (a b l : List Char), a <+: l → b <+: l → a <+: b ∨ b <+: a := by
      intro a b l h1 h2
      exact List.prefix_or_prefix_of_prefix h1 h2
    rw [List.nodup_append, List.nodup_append, List.nodup_append]
    refine ⟨⟨⟨Dump.default_nodup _ _, ?_, ?_⟩, Dump.default_nodup _ _, ?_⟩, hkw, ?_⟩
    · exact (Dump.default_nodup _ _).map (fun a b h => timeName_inj h)
    · rintro a ha b hb rfl
      have := hne _ _ _ (hpre _ _ _ ha) (hpreT _ _ hb)
      revert this; decide
    · rintro a ha b hb rfl
      rw [List.mem_append] at ha
      rcases ha with ha | ha
      · have := hne _ _ _ (hpre _ _ _ ha) (hpre _ _ _ hb)
        revert this; decide
      · have := hne _ _ _ (hpreT _ _ ha) (hpre _ _ _ hb)
        revert this; decide
    · rintro a ha b hb rfl
      obtain ⟨e, he, rfl⟩ := List.mem_map.1 hb
      obtain ⟨p1, p2, p3⟩ := hp e he
      rw [List.mem_append, List.mem_append] at ha
      rcases ha with (ha | ha) | ha
      · exact p1 (hpre _ _ _ ha)
      · exact p3 (hpreT _ _ ha)
      · exact p2 (hpre _ _ _ ha)
  have hlen : ∀ stem n, (defaultNames stem n).length = n := by simp [defaultNames]
  obtain ⟨h1, h2⟩ := Dump.distinct (β := β) hl (hlen "pulse_" pulses.length) (hlen "parameter_" params.length) hnodup
  obtain ⟨h3, h4, h5, -⟩ := kept hl (hlen _ _) (hlen _ _) h2
  refine ⟨_, h1, ?_, ?_, ?_⟩
  · rw [← h3, defaultNames, List.map_map]; rfl
  · rw [← h4, defaultNames, List.map_map, List.map_map, hl]
    refine List.map_congr_left (fun i _ => ?_)
    show _ = List.lookup (timeName ("pulse_" ++ toString (i + 1))) _
    rw [timeName, ← String.append_assoc]
    rfl
  · exact (List.map_map).symm.trans h5

example : ∀ e ∈ [("FoM", 7), ("iteration_number", 8)], ¬ "pulse_".toList <+: e.1.toList ∧
    ¬ "parameter_".toList <+: e.1.toList ∧ ¬ "time_grid_for_".toList <+: e.1.toList := by decide

/-- The keys used so far by controls with plain names: for a control with name `nm` and number `j` in `S`, its name or
its name with the number; and names of time grids of keys used. -/
def Dump.Used (S : String → ℕ → Prop) (ks : List String) : Prop :=
  ∀ k ∈ ks, (∃ nm j, Plain nm ∧ S nm j ∧ (k = nm ∨ k = nm ++ toString (j + 1))) ∨ ∃ k' ∈ ks, k = timeName k'

theorem Dump.used_step {S : String → ℕ → Prop} {ks : List String} (hu : Dump.Used S ks) {nm : String} {i : ℕ}
    (hpl : Plain nm) (hi : ¬ S nm i) {key : String} (hkey : key = if nm ∈ ks then nm ++ toString (i + 1) else nm) :
    key ∉ ks ∧ timeName key ∉ ks := by
  have hk : key ∉ ks := by
    by_cases h : nm ∈ ks
    · rw [if_pos h] at hkey
      subst hkey
      intro hc
      rcases hu _ hc with ⟨nm', j, hp', hS, e | e⟩ | ⟨k', _, e⟩
      · exact plain_num_ne hpl hp' _ e
      · obtain ⟨rfl, e2⟩ := plain_num_inj hpl hp' e
        have : i = j := by omega
        subst this
        exact hi hS
      · exact plain_num_ne_time hpl _ _ e
    · rw [if_neg h] at hkey
      rw [hkey]; exact h
  refine ⟨hk, ?_⟩
  intro hc
  rcases hu _ hc with ⟨nm', j, hp', hS, e | e⟩ | ⟨k', hk', e⟩
  · exact plain_ne_time hp' _ e.symm
  · exact plain_num_ne_time hp' _ _ e.symm
  · rw [← timeName_inj e] at hk'
    exact hk hk'

/-- **C11** (repeated names). Names may be repeated: if the names contain no digits and do not begin with
`time_grid_for_`, no pulse has the name of a parameter and no further entry has the name of a control, then no
control is lost, every pulse, time grid and parameter has a key of its own in the file. -/
theorem C11_repeated_names_partial (pulses grids params : List β) (names qnames : List String)
    (kwargs : List (String × β))
    (hl : pulses.length = grids.length) (hp : names.length = pulses.length) (hq : qnames.length = params.length)
    (hplain : ∀ k ∈ names ++ qnames ++ kwargs.map Prod.fst, Plain k) (hkw : (kwargs.map Prod.fst).Nodup)
    (h1 : ∀ k ∈ names, k ∉ qnames) (h2 : ∀ k ∈ names ++ qnames, k ∉ kwargs.map Prod.fst) :
    ∃ file, dumpDict pulses grids params (some names) (some qnames) kwargs = .ok file ∧
      AllKept (fun k => file.lookup k) (pulses ++ grids ++ params) := by
  have hz : (pulses.zip grids).length = names.length := by simp [hl, hp]
  obtain ⟨ks, hks, hok, hnd, hinv, -⟩ := dumpPulses_spec (β := β) (names := names)
    (fun i ks => Dump.Used (fun nm j => nm ∈ names ∧ j < i) ks) (fun _ _ => True)
    (by
      intro i ks nm hnm hinv key hkey
      have hmem : nm ∈ names := List.mem_of_getElem? hnm
      have hpl : Plain nm := hplain nm (by simp [hmem])
      obtain ⟨hf1, hf2⟩ := Dump.used_step hinv hpl (by simp) hkey
      refine ⟨hf1, hf2, timeName_ne _, trivial, ?_⟩
      intro k hk
      simp only [List.mem_append, List.mem_cons, List.not_mem_nil, or_false] at hk
      rcases hk with h | rfl | rfl
      · rcases hinv k h with ⟨nm', j, a, ⟨b, c⟩, d⟩ | ⟨k', a, b⟩
        · exact Or.inl ⟨nm', j, a, ⟨b, by omega⟩, d⟩
        · exact Or.inr ⟨k', by simp [a], b⟩
      · refine Or.inl ⟨nm, i, hpl, ⟨hmem, by omega⟩, ?_⟩
        by_cases hh : nm ∈ ks
        · rw [if_pos hh] at hkey; exact Or.inr hkey
        · rw [if_neg hh] at hkey; exact Or.inl hkey
      · exact Or.inr ⟨key, by simp, rfl⟩)
    (pulses.zip grids) 0 [] (by intro k hk; simp [keys] at hk) (by simp) (by omega)
  simp only [List.nil_append, Nat.zero_add] at hok hnd hinv
  obtain ⟨qs, hqs, hok2, hnd2, hinv2, -⟩ := dumpParams_spec (β := β) (names := qnames)
    (fun i ks => Dump.Used (fun nm j => nm ∈ names ∨ nm ∈ qnames ∧ j < i) ks) (fun _ _ => True)
    (by
      intro i ks nm hnm hinv key hkey
      have hmem : nm ∈ qnames := List.mem_of_getElem? hnm
      have hpl : Plain nm := hplain nm (by simp [hmem])
      obtain ⟨hf1, hf2⟩ := Dump.used_step hinv hpl
        (by simp only [lt_self_iff_false, and_false, or_false]; exact fun h => h1 nm h hmem) hkey
      refine ⟨hf1, trivial, ?_⟩
      intro k hk
      simp only [List.mem_append, List.mem_singleton] at hk
      rcases hk with h | rfl
      · rcases hinv k h with ⟨nm', j, a, b, d⟩ | ⟨k', a, b⟩
        · exact Or.inl ⟨nm', j, a, b.imp_right (fun b => ⟨b.1, by omega⟩), d⟩
        · exact Or.inr ⟨k', by simp [a], b⟩
      · refine Or.inl ⟨nm, i, hpl, Or.inr ⟨hmem, by omega⟩, ?_⟩
        by_cases hh : nm ∈ ks
        · rw [if_pos hh] at hkey; exact Or.inr hkey
        · rw [if_neg hh] at hkey; exact Or.inl hkey)
    params 0 (pulseEntries ks (pulses.zip grids))
    (by
      intro k hk
      rcases hinv k hk with ⟨nm', j, a, b, d⟩ | h
      · exact Or.inl ⟨nm', j, a, Or.inl b.1, d⟩
      · exact Or.inr h)
    hnd (by omega)
  have hall : (keys (pulseEntries ks (pulses.zip grids) ++ qs.zip params) ++ keys kwargs).Nodup := by
    rw [List.nodup_append]
    refine ⟨hnd2, hkw, ?_⟩
    rintro a ha b hb rfl
    have hpa : Plain a := hplain a (by simp only [List.mem_append]; exact Or.inr hb)
    rcases hinv2 a ha with ⟨nm', j, hpn, hS, e | e⟩ | ⟨k', _, e⟩
    · subst e
      refine h2 a ?_ hb
      simp only [List.mem_append]
      exact hS.imp_right (fun h => h.1)
    · exact plain_num_ne hpn hpa _ e.symm
    · exact plain_ne_time hpa _ e
  have hdict : dumpDict pulses grids params (some names) (some qnames) kwargs
      = .ok (pulseEntries ks (pulses.zip grids) ++ qs.zip params ++ kwargs) := by
    show (dumpPulses names 0 (pulses.zip grids) [] >>= fun d => dumpParams qnames 0 params d >>= fun d =>
      Except.ok (dictMerge d kwargs)) = _
    rw [hok]
    show (dumpParams qnames 0 params (pulseEntries ks (pulses.zip grids)) >>= fun d => .ok (dictMerge d kwargs)) = _
    rw [hok2]
    show Except.ok (dictMerge _ _) = _
    rw [dictMerge_fresh hall]
  obtain ⟨h3, h4, h5, h6⟩ := kept (kwargs := kwargs) hl (by omega : ks.length = pulses.length) hqs
    (by rw [show keys (pulseEntries ks (pulses.zip grids) ++ qs.zip params ++ kwargs)
          = keys (pulseEntries ks (pulses.zip grids) ++ qs.zip params) ++ keys kwargs by simp [keys]]; exact hall)
  refine ⟨_, hdict, ks ++ ks.map timeName ++ qs, h6, ?_⟩
  rw [List.map_append, List.map_append, h3, h4, h5]
  simp

/-- Three pulses and two parameters with the default names of the pulse and parameter classes, and the entries that
dCRAB adds. -/
example : (∀ k ∈ ["pulse", "pulse", "pulse"] ++ ["parameter", "parameter"] ++
      ["pulse_names", "parameter_names", "time_names", "FoM", "iteration_number", "super_it", "status_code"], Plain k) ∧
    (∀ k ∈ ["pulse", "pulse", "pulse"], k ∉ ["parameter", "parameter"]) := by
  constructor
  · unfold Plain; decide
  · decide

theorem Dump.mem_of_lookup {d : List (String × β)} {k : String} {v : β} (h : d.lookup k = some v) : v ∈ d.map Prod.snd := by
  induction d with
  | nil => simp at h
  | cons e d ih =>
    obtain ⟨k₁, v₁⟩ := e
    simp only [List.lookup] at h
    split at h
    · simp_all
    · simp only [List.map_cons, List.mem_cons]
      exact Or.inr (ih h)

theorem Dump.lost {d : List (String × β)} {vs : List β} {v : β} (hv : v ∈ vs) (hd : v ∉ d.map Prod.snd) :
    ¬ AllKept (fun k => d.lookup k) vs := by
  rintro ⟨ks, -, h⟩
  have : some v ∈ ks.map (fun k => d.lookup k) := by rw [h]; exact List.mem_map.2 ⟨v, hv, rfl⟩
  obtain ⟨k, -, hk⟩ := List.mem_map.1 this
  exact hd (Dump.mem_of_lookup hk)

/-- **C11 is violated in general** (first witness): with pulse names `p3`, `p`, `p` the third pulse replaces the first
one. -/
theorem C11_lost_pulse : ∃ file, dumpDict [1, 2, 3] [10, 20, 30] [] (some ["p3", "p", "p"]) (some []) [] = .ok file ∧
    ¬ AllKept (fun k => file.lookup k) ([1, 2, 3] ++ [10, 20, 30] ++ []) :=
  ⟨[("p3", 3), ("time_grid_for_p3", 30), ("p", 2), ("time_grid_for_p", 20)], by decide,
    Dump.lost (v := 1) (by decide) (by decide)⟩

/-- **C11 is violated in general** (second witness): pulses `a`, `a` and parameters `b`, `a`: the second parameter
replaces the second pulse. -/
theorem C11_parameter_replaces_pulse :
    ∃ file, dumpDict [1, 2] [10, 20] [5, 6] (some ["a", "a"]) (some ["b", "a"]) [] = .ok file ∧
      ¬ AllKept (fun k => file.lookup k) ([1, 2] ++ [10, 20] ++ [5, 6]) :=
  ⟨[("a", 1), ("time_grid_for_a", 10), ("a2", 6), ("time_grid_for_a2", 20), ("b", 5)], by decide,
    Dump.lost (v := 2) (by decide) (by decide)⟩

/-- **C11 is violated in general** (third witness): a pulse with the name of one of the further entries is replaced by
this entry. -/
theorem C11_pulse_named_FoM :
    ∃ file, dumpDict [1] [10] [] (some ["FoM"]) (some []) [("FoM", 7)] = .ok file ∧
      ¬ AllKept (fun k => file.lookup k) ([1] ++ [10] ++ []) :=
  ⟨[("FoM", 7), ("time_grid_for_FoM", 10)], by decide, Dump.lost (v := 1) (by decide) (by decide)⟩

/-- A pulse with the name `file` cannot be dumped in the `npz` format: the run stops with a `TypeError` at the first
record, whatever the other controls are (as long as the names are different). -/
theorem C11_pulse_named_file (pulses grids params : List β) (names qnames : List String) (kwargs : List (String × β))
    (old : Option (List (String × β)))
    (hl : pulses.length = grids.length) (hp : names.length = pulses.length) (hq : qnames.length = params.length)
    (hn : (names ++ names.map ("time_grid_for_" ++ ·) ++ qnames ++ kwargs.map Prod.fst).Nodup) (hf : "file" ∈ names) :
    dumpControlsFile false true pulses grids params (some names) (some qnames) kwargs old = .error .typeError := by
  obtain ⟨h1, h2⟩ := Dump.distinct (β := β) hl hp hq hn
  have h3 : dumpDict pulses grids params (some names) (some qnames) kwargs
    = .ok (pulseEntries names (pulses.zip grids) ++ qnames.zip params ++ kwargs) := h1
  have h4 : dictHas (pulseEntries names (pulses.zip grids) ++ qnames.zip params ++ kwargs) "file" = true := by
    rw [dictHas_iff, keys, List.map_append, List.map_append]
    refine List.mem_append_left _ (List.mem_append_left _ ?_)
    have := keys_pulseEntries (ks := names) (pts := pulses.zip grids) (by simp [hl, hp])
    rw [keys] at this
    rw [this, List.mem_flatMap]
    exact ⟨"file", hf, by simp⟩
  rw [dumpControlsFile, h3]
  show (if (!false && dictHas _ "file") = true then _ else _) = _
  rw [h4]
  rfl

example : (["file", "y"] ++ ["file", "y"].map ("time_grid_for_" ++ ·) ++ ["q"] ++
    [("FoM", 7), ("iteration_number", 8)].map Prod.fst).Nodup ∧ "file" ∈ ["file", "y"] := by decide

/-- **C11**: without a record the file is left alone, and a dump that succeeds leaves exactly the dictionary of the new
controls. -/
theorem C11_only_records_written (json : Bool) (pulses grids params : List β) (pn qn : Option (List String))
    (kwargs : List (String × β)) (old : Option (List (String × β))) :
    dumpControlsFile json false pulses grids params pn qn kwargs old = .ok old ∧
    ∀ new, dumpControlsFile json true pulses grids params pn qn kwargs old = .ok new →
      ∃ d, dumpDict pulses grids params pn qn kwargs = .ok d ∧ new = some d := by
  refine ⟨rfl, ?_⟩
  intro new h
  cases hd : dumpDict pulses grids params pn qn kwargs with
  | error e => rw [dumpControlsFile, hd] at h; cases h
  | ok d =>
    rw [dumpControlsFile, hd] at h
    change (if (!json && dictHas d "file") = true then Except.error PyErr.typeError else Except.ok (some d)) = _ at h
    split at h
    · cases h
    · exact ⟨d, rfl, by cases h; rfl⟩

/-! ### C58: a crash while the best controls are being saved -/

/-- **C58 is violated**: the file is truncated and rewritten in place. Whatever was stored before and whatever is being
stored, there is a moment during the dump when a crash leaves neither the old nor the new best controls. -/
theorem C58_crash_loses_best {α : Type} (old new : α) :
    ∃ st ∈ dumpWriteSteps (.complete old) new, st ≠ .complete old ∧ st ≠ .complete new :=
  ⟨.partly, by simp [dumpWriteSteps], by simp, by simp⟩

/-- **C58** (partial): a crash before the dump starts leaves the old best controls, a crash after it has finished leaves
the new ones. Missing: crashes in between. -/
theorem C58_outside_the_dump_partial {α : Type} (old : FileState α) (new : α) :
    (dumpWriteSteps old new).head? = some old ∧ (dumpWriteSteps old new).getLast? = some (.complete new) := by
  simp [dumpWriteSteps]

/-! ### C59: the controls handed to an external program -/

theorem Dump.jsonPulses_eq (pts : List (β × β)) : ∀ (i : ℕ) (d : List (String × β)), (keys d).Nodup →
    (∀ k ∈ keys d, ∃ j < i, k = "pulse" ++ toString j ∨ k = "time_grid" ++ toString j) →
    jsonPulses i pts d = d ++ (pts.zipIdx i).flatMap (fun e =>
      [("pulse" ++ toString e.2, e.1.1), ("time_grid" ++ toString e.2, e.1.2)]) ∧
    (keys (jsonPulses i pts d)).Nodup ∧
    (∀ k ∈ keys (jsonPulses i pts d), ∃ j < i + pts.length, k = "pulse" ++ toString j ∨ k = "time_grid" ++ toString j) := by
  have hpt : ∀ a b : ℕ, "pulse" ++ toString a ≠ "time_grid" ++ toString b := by
    intro a b h
    have h1 := congrArg (fun s => s.toList.head?) h
    simp only [String.toList_append] at h1
    revert h1
    rw [List.head?_append_of_ne_nil _ (by decide), List.head?_append_of_ne_nil _ (by decide)]
    decide
  have hinj : ∀ (s : String) (a b : ℕ), s ++ toString a = s ++ toString b → a = b := by
    intro s a b h
    have h1 := congrArg String.toList h
    simp only [String.toList_append] at h1
    exact digits_inj (String.toList_inj.1 (List.append_cancel_left h1))
  induction pts with
  | nil => intro i d h1 h2; exact ⟨by simp [jsonPulses], by simpa [jsonPulses] using h1, by simpa [jsonPulses] using h2⟩
  | cons pt pts ih =>
    intro i d h1 h2
    obtain ⟨p, t⟩ := pt
    have hf1 : "pulse" ++ toString i ∉ keys d := by
      intro hc
      obtain ⟨j, hj, e | e⟩ := h2 _ hc
      · have := hinj _ _ _ e; omega
      · exact hpt _ _ e
    have hf2 : "time_grid" ++ toString i ∉ keys d := by
      intro hc
      obtain ⟨j, hj, e | e⟩ := h2 _ hc
      · exact hpt _ _ e.symm
      · have := hinj _ _ _ e; omega
    have hd : dictSet (dictSet d ("pulse" ++ toString i) p) ("time_grid" ++ toString i) t
        = d ++ [("pulse" ++ toString i, p), ("time_grid" ++ toString i, t)] := by
      rw [dictSet_fresh hf1, dictSet_fresh]
      · simp
      · simp only [keys, List.map_append, List.map_cons, List.map_nil, List.mem_append, List.mem_singleton, not_or]
        exact ⟨hf2, fun e => hpt _ _ e.symm⟩
    have hk : keys (d ++ [("pulse" ++ toString i, p), ("time_grid" ++ toString i, t)])
        = keys d ++ ["pulse" ++ toString i, "time_grid" ++ toString i] := by simp [keys]
    obtain ⟨e1, e2, e3⟩ := ih (i + 1) (d ++ [("pulse" ++ toString i, p), ("time_grid" ++ toString i, t)])
      (by
        rw [hk, List.nodup_append]
        refine ⟨h1, by simp [hpt i i], ?_⟩
        intro a ha b hb
        simp only [List.mem_cons, List.not_mem_nil, or_false] at hb
        rcases hb with rfl | rfl
        · rintro rfl; exact hf1 ha
        · rintro rfl; exact hf2 ha)
      (by
        intro k hkk
        rw [hk] at hkk
        simp only [List.mem_append, List.mem_cons, List.not_mem_nil, or_false] at hkk
        rcases hkk with h | h | h
        · obtain ⟨j, hj, e⟩ := h2 k h
          exact ⟨j, by omega, e⟩
        · exact ⟨i, by omega, Or.inl h⟩
        · exact ⟨i, by omega, Or.inr h⟩)
    rw [jsonPulses, hd]
    refine ⟨?_, e2, ?_⟩
    · rw [e1]; simp
    · intro k hkk
      obtain ⟨j, hj, e⟩ := e3 k hkk
      exact ⟨j, by simp only [List.length_cons]; omega, e⟩

theorem Dump.jsonParams_eq (qs : List β) : ∀ (i : ℕ) (d : List (String × β)), (keys d).Nodup →
    (∀ k ∈ keys d, (∃ j : ℕ, k = "pulse" ++ toString j ∨ k = "time_grid" ++ toString j) ∨ ∃ j < i, k = "parameter" ++ toString j) →
    jsonParams i qs d = d ++ (qs.zipIdx i).map (fun e => ("parameter" ++ toString e.2, e.1)) ∧
    (keys (jsonParams i qs d)).Nodup := by
  have hinj : ∀ (s : String) (a b : ℕ), s ++ toString a = s ++ toString b → a = b := by
    intro s a b h
    have h1 := congrArg String.toList h
    simp only [String.toList_append] at h1
    exact digits_inj (String.toList_inj.1 (List.append_cancel_left h1))
  have hne : ∀ (s t : String), s.toList[1]? ≠ t.toList[1]? → 1 < s.toList.length → 1 < t.toList.length → ∀ a b : ℕ,
      s ++ toString a ≠ t ++ toString b := by
    intro s t h hs ht a b he
    have h1 := congrArg (fun s => s.toList[1]?) he
    simp only [String.toList_append] at h1
    rw [List.getElem?_append_left hs, List.getElem?_append_left ht] at h1
    exact h h1
  induction qs with
  | nil => intro i d h1 h2; exact ⟨by simp [jsonParams], by simpa [jsonParams] using h1⟩
  | cons q qs ih =>
    intro i d h1 h2
    have hf1 : "parameter" ++ toString i ∉ keys d := by
      intro hc
      rcases h2 _ hc with ⟨j, e | e⟩ | ⟨j, hj, e⟩
      · exact hne _ _ (by decide) (by decide) (by decide) _ _ e
      · exact hne _ _ (by decide) (by decide) (by decide) _ _ e
      · have := hinj _ _ _ e; omega
    have hk : keys (d ++ [("parameter" ++ toString i, q)]) = keys d ++ ["parameter" ++ toString i] := by simp [keys]
    obtain ⟨e1, e2⟩ := ih (i + 1) (d ++ [("parameter" ++ toString i, q)])
      (by
        rw [hk, List.nodup_append]
        refine ⟨h1, by simp, ?_⟩
        intro a ha b hb
        simp only [List.mem_singleton] at hb
        subst hb
        rintro rfl; exact hf1 ha)
      (by
        intro k hkk
        rw [hk] at hkk
        simp only [List.mem_append, List.mem_singleton] at hkk
        rcases hkk with h | h
        · exact (h2 k h).imp_right (fun ⟨j, hj, e⟩ => ⟨j, by omega, e⟩)
        · exact Or.inr ⟨i, by omega, h⟩)
    rw [jsonParams, dictSet_fresh hf1]
    exact ⟨by rw [e1]; simp, e2⟩

/-- **C59**: the json file for the external program contains pulse number `i` (counted from 1) under `pulse<i>`, its time
grid under `time_grid<i>` and parameter number `i` under `parameter<i>`, for any number of controls. -/
theorem C59_json_controls (pulses grids params : List β) (hl : pulses.length = grids.length) :
    (∀ (i : ℕ) (h : i < pulses.length),
      (jsonControls pulses grids params).lookup ("pulse" ++ toString (i + 1)) = some pulses[i]) ∧
    (∀ (i : ℕ) (h : i < grids.length),
      (jsonControls pulses grids params).lookup ("time_grid" ++ toString (i + 1)) = some grids[i]) ∧
    (∀ (i : ℕ) (h : i < params.length),
      (jsonControls pulses grids params).lookup ("parameter" ++ toString (i + 1)) = some params[i]) := by
  obtain ⟨e1, e2, e3⟩ := Dump.jsonPulses_eq (pulses.zip grids) 1 [] (by simp) (by intro k hk; simp [keys] at hk)
  obtain ⟨f1, f2⟩ := Dump.jsonParams_eq params 1 (jsonPulses 1 (pulses.zip grids) []) e2
    (fun k hk => Or.inl (by obtain ⟨j, _, h⟩ := e3 k hk; exact ⟨j, h⟩))
  have hmem : ∀ k v, (k, v) ∈ jsonPulses 1 (pulses.zip grids) [] ++
      (params.zipIdx 1).map (fun e => ("parameter" ++ toString e.2, e.1)) →
      (jsonControls pulses grids params).lookup k = some v := by
    intro k v h
    refine lookup_of_mem f2 ?_
    rw [f1]; exact h
  have hzi : ∀ (i : ℕ) (h : i < pulses.length), ((pulses[i], grids[i]), i + 1) ∈ (pulses.zip grids).zipIdx 1 := by
    intro i h
    rw [List.mem_iff_getElem]
    exact ⟨i, by simp; omega, by simp; omega⟩
  refine ⟨?_, ?_, ?_⟩
  · intro i h
    refine hmem _ _ (List.mem_append_left _ ?_)
    rw [e1, List.nil_append, List.mem_flatMap]
    exact ⟨_, hzi i h, by simp⟩
  · intro i h
    refine hmem _ _ (List.mem_append_left _ ?_)
    rw [e1, List.nil_append, List.mem_flatMap]
    exact ⟨_, hzi i (by omega), by simp⟩
  · intro i h
    refine hmem _ _ (List.mem_append_right _ ?_)
    rw [List.mem_map]
    refine ⟨(params[i], i + 1), ?_, rfl⟩
    rw [List.mem_iff_getElem]
    exact ⟨i, by simp; omega, by simp; omega⟩

example : jsonControls [1, 2] [10, 20] [5] =
    [("pulse1", 1), ("time_grid1", 10), ("pulse2", 2), ("time_grid2", 20), ("parameter1", 5)] := by decide

/-- **C59** (txt format): the file has the lines pulse 1, time grid 1, pulse 2, ..., then one line per parameter. -/
theorem C59_txt_controls (fmt : β → String) (pulses grids : List (List β)) (params : List β)
    (hl : pulses.length = grids.length) :
    (txtControls fmt pulses grids params).length = 2 * pulses.length + params.length ∧
    (∀ (i : ℕ) (h : i < pulses.length), (txtControls fmt pulses grids params)[2 * i]? = some (pulses[i].map fmt)) ∧
    (∀ (i : ℕ) (h : i < grids.length), (txtControls fmt pulses grids params)[2 * i + 1]? = some (grids[i].map fmt)) ∧
    (∀ (i : ℕ) (h : i < params.length),
      (txtControls fmt pulses grids params)[2 * pulses.length + i]? = some [fmt params[i]]) := by
  induction pulses generalizing grids with
  | nil =>
    cases grids with
    | cons g gs => simp at hl
    | nil =>
      refine ⟨by simp [txtControls], by simp, by simp, ?_⟩
      intro i h
      simp [txtControls, List.getElem?_eq_getElem h]
  | cons p ps ih =>
    cases grids with
    | nil => simp at hl
    | cons g gs =>
      obtain ⟨h1, h2, h3, h4⟩ := ih gs (by simpa using hl)
      have hc : txtControls fmt (p :: ps) (g :: gs) params
          = p.map fmt :: g.map fmt :: txtControls fmt ps gs params := by simp [txtControls]
      rw [hc]
      refine ⟨by simp only [List.length_cons, h1]; omega, ?_, ?_, ?_⟩
      · intro i h
        cases i with
        | zero => simp
        | succ i =>
          have := h2 i (by simpa using h)
          simpa [Nat.mul_add] using this
      · intro i h
        cases i with
        | zero => simp
        | succ i =>
          have := h3 i (by simpa using h)
          rw [show 2 * (i + 1) + 1 = 2 * i + 1 + 2 by omega]
          simpa using this
      · intro i h
        have := h4 i h
        rw [show 2 * (p :: ps).length + i = 2 * ps.length + i + 2 by simp only [List.length_cons]; omega]
        simpa using this

end QuOCS
