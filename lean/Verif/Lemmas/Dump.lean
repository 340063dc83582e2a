import Verif.Model.Dump
import Verif.Spec.Files
import Mathlib.Data.List.Lookmap
import Mathlib.Data.List.Perm.Basic
import Mathlib.Data.List.Flatten

/-!
# Lemmas on dictionaries and the dump of the controls
-/

set_option linter.unusedSectionVars false
set_option linter.unusedVariables false

namespace QuOCS.Dump

open QuOCS.Spec

variable {β : Type}

/-- The keys of a dictionary. -/
abbrev keys (d : List (String × β)) : List String := d.map Prod.fst

theorem dictHas_iff (d : List (String × β)) (k : String) : dictHas d k = true ↔ k ∈ keys d := by
  simp only [dictHas, List.any_eq_true, beq_iff_eq, keys, List.mem_map]

theorem dictSet_fresh {d : List (String × β)} {k : String} (h : k ∉ keys d) (v : β) :
    dictSet d k v = d ++ [(k, v)] := by
  induction d with
  | nil => rfl
  | cons e d ih =>
    obtain ⟨k', v'⟩ := e
    simp only [keys, List.map_cons, List.mem_cons, not_or] at h
    rw [dictSet, if_neg (fun e => h.1 e.symm), ih h.2]
    rfl

theorem lookup_dictSet (d : List (String × β)) (k : String) (v : β) (k' : String) :
    (dictSet d k v).lookup k' = if k' = k then some v else d.lookup k' := by
  induction d with
  | nil =>
    simp only [dictSet, List.lookup]
    by_cases h : k' = k
    · subst h; simp
    · have : (k' == k) = false := by simpa using h
      simp [this, h]
  | cons e d ih =>
    obtain ⟨k₁, v₁⟩ := e
    rw [dictSet]
    split
    next hk =>
      subst hk
      by_cases h : k' = k₁
      · subst h; simp [List.lookup]
      · have : (k' == k₁) = false := by simpa using h
        simp [List.lookup, this, h]
    next hk =>
      by_cases h : k' = k₁
      · subst h
        simp [List.lookup, hk]
      · have : (k' == k₁) = false := by simpa using h
        simp only [List.lookup, this]
        exact ih

theorem lookup_of_mem {d : List (String × β)} (hn : (keys d).Nodup) {k : String} {v : β} (h : (k, v) ∈ d) :
    d.lookup k = some v := by
  induction d with
  | nil => simp at h
  | cons e d ih =>
    obtain ⟨k₁, v₁⟩ := e
    simp only [keys, List.map_cons, List.nodup_cons] at hn
    rcases List.mem_cons.1 h with h' | h'
    · cases h'
      simp [List.lookup]
    · have hne : k ≠ k₁ := by
        rintro rfl
        exact hn.1 (List.mem_map.2 ⟨(k, v), h', rfl⟩)
      have : (k == k₁) = false := by simpa using hne
      simp only [List.lookup, this]
      exact ih hn.2 h'

theorem dictMerge_fresh {d e : List (String × β)} (h : (keys d ++ keys e).Nodup) : dictMerge d e = d ++ e := by
  induction e generalizing d with
  | nil => simp [dictMerge]
  | cons x e ih =>
    have hx : x.1 ∉ keys d := by
      have := List.nodup_append.1 h
      intro hm
      exact this.2.2 _ hm _ (by simp) rfl
    have : dictMerge d (x :: e) = dictMerge (d ++ [x]) e := by
      simp only [dictMerge, List.foldl_cons]
      rw [dictSet_fresh hx]
    rw [this, ih (by simpa [keys] using h)]
    simp

/-- The entries written for the pulses. -/
def pulseEntries (ks : List String) (pts : List (β × β)) : List (String × β) :=
  (ks.zip pts).flatMap (fun e => [(e.1, e.2.1), (timeName e.1, e.2.2)])

theorem dumpPulses_spec {names : List String} (Inv : ℕ → List String → Prop) (P : ℕ → String → Prop)
    (hstep : ∀ i ks nm, names[i]? = some nm → Inv i ks →
      ∀ key, key = (if nm ∈ ks then nm ++ toString (i + 1) else nm) →
        key ∉ ks ∧ timeName key ∉ ks ∧ key ≠ timeName key ∧ P i key ∧ Inv (i + 1) (ks ++ [key, timeName key])) :
    ∀ (pts : List (β × β)) (i : ℕ) (d : List (String × β)), Inv i (keys d) → (keys d).Nodup →
      i + pts.length ≤ names.length →
      ∃ ks : List String, ks.length = pts.length ∧ dumpPulses names i pts d = .ok (d ++ pulseEntries ks pts) ∧
        (keys (d ++ pulseEntries ks pts)).Nodup ∧ Inv (i + pts.length) (keys (d ++ pulseEntries ks pts)) ∧
        ∀ j k, ks[j]? = some k → P (i + j) k := by
  intro pts
  induction pts with
  | nil => intro i d hi hn _; exact ⟨[], rfl, by simp [dumpPulses, pulseEntries], by simpa [pulseEntries] using hn,
      by simpa [pulseEntries] using hi, by simp⟩
  | cons pt pts ih =>
    intro i d hi hn hl
    obtain ⟨p, t⟩ := pt
    simp only [List.length_cons] at hl
    have hlt : i < names.length := by omega
    obtain ⟨h1, h2, h3, h4, h5⟩ := hstep i (keys d) names[i] (List.getElem?_eq_getElem hlt) hi _ rfl
    have hkey : dumpKey d names[i] i = (if names[i] ∈ keys d then names[i] ++ toString (i + 1) else names[i]) := by
      unfold dumpKey
      by_cases hh : names[i] ∈ keys d
      · rw [if_pos ((dictHas_iff _ _).2 hh), if_pos hh]
      · rw [if_neg (fun e => hh ((dictHas_iff _ _).1 e)), if_neg hh]
    rw [← hkey] at h1 h2 h3 h4 h5
    generalize hk : dumpKey d names[i] i = key at *
    have hd : dictSet (dictSet d key p) (timeName key) t = d ++ [(key, p), (timeName key, t)] := by
      rw [dictSet_fresh h1, dictSet_fresh]
      · simp
      · simp only [keys, List.map_append, List.map_cons, List.map_nil, List.mem_append, List.mem_singleton, not_or]
        exact ⟨h2, fun e => h3 e.symm⟩
    have hkeys : keys (d ++ [(key, p), (timeName key, t)]) = keys d ++ [key, timeName key] := by simp [keys]
    obtain ⟨ks, hks, hok, hnd, hinv, hP⟩ := ih (i + 1) (d ++ [(key, p), (timeName key, t)])
      (by rw [hkeys]; exact h5)
      (by
        rw [hkeys, List.nodup_append]
        refine ⟨hn, by simpa using h3, ?_⟩
        intro a ha b hb
        simp only [List.mem_cons, List.not_mem_nil, or_false] at hb
        rcases hb with rfl | rfl
        · rintro rfl; exact h1 ha
        · rintro rfl; exact h2 ha)
      (by omega)
    have hsplit : d ++ pulseEntries (key :: ks) ((p, t) :: pts)
        = d ++ [(key, p), (timeName key, t)] ++ pulseEntries ks pts := by
      simp [pulseEntries]
    refine ⟨key :: ks, by simp [hks], ?_, ?_, ?_, ?_⟩
    · rw [hsplit, ← hok, dumpPulses, getIdx, List.getElem?_eq_getElem hlt]
      show dumpPulses names (i + 1) pts (dictSet (dictSet d (dumpKey d names[i] i) p) (timeName (dumpKey d names[i] i)) t) = _
      rw [hk, hd]
    · rw [hsplit]; exact hnd
    · rw [hsplit, List.length_cons, show i + (pts.length + 1) = i + 1 + pts.length by omega]; exact hinv
    · intro j k hj
      cases j with
      | zero =>
        simp only [List.getElem?_cons_zero, Option.some.injEq] at hj
        subst hj; exact h4
      | succ j =>
        have := hP j k (by simpa using hj)
        rwa [show i + 1 + j = i + (j + 1) by omega] at this

theorem dumpParams_spec {names : List String} (Inv : ℕ → List String → Prop) (P : ℕ → String → Prop)
    (hstep : ∀ i ks nm, names[i]? = some nm → Inv i ks →
      ∀ key, key = (if nm ∈ ks then nm ++ toString (i + 1) else nm) →
        key ∉ ks ∧ P i key ∧ Inv (i + 1) (ks ++ [key])) :
    ∀ (qs : List β) (i : ℕ) (d : List (String × β)), Inv i (keys d) → (keys d).Nodup →
      i + qs.length ≤ names.length →
      ∃ ks : List String, ks.length = qs.length ∧ dumpParams names i qs d = .ok (d ++ ks.zip qs) ∧
        (keys (d ++ ks.zip qs)).Nodup ∧ Inv (i + qs.length) (keys (d ++ ks.zip qs)) ∧
        ∀ j k, ks[j]? = some k → P (i + j) k := by
  intro qs
  induction qs with
  | nil => intro i d hi hn _; exact ⟨[], rfl, by simp [dumpParams], by simpa using hn, by simpa using hi, by simp⟩
  | cons q qs ih =>
    intro i d hi hn hl
    simp only [List.length_cons] at hl
    have hlt : i < names.length := by omega
    obtain ⟨h1, h4, h5⟩ := hstep i (keys d) names[i] (List.getElem?_eq_getElem hlt) hi _ rfl
    have hkey : dumpKey d names[i] i = (if names[i] ∈ keys d then names[i] ++ toString (i + 1) else names[i]) := by
      unfold dumpKey
      by_cases hh : names[i] ∈ keys d
      · rw [if_pos ((dictHas_iff _ _).2 hh), if_pos hh]
      · rw [if_neg (fun e => hh ((dictHas_iff _ _).1 e)), if_neg hh]
    rw [← hkey] at h1 h4 h5
    generalize hk : dumpKey d names[i] i = key at *
    have hkeys : keys (d ++ [(key, q)]) = keys d ++ [key] := by simp [keys]
    obtain ⟨ks, hks, hok, hnd, hinv, hP⟩ := ih (i + 1) (d ++ [(key, q)])
      (by rw [hkeys]; exact h5)
      (by
        rw [hkeys, List.nodup_append]
        refine ⟨hn, by simp, ?_⟩
        intro a ha b hb
        simp only [List.mem_singleton] at hb
        subst hb
        rintro rfl; exact h1 ha)
      (by omega)
    have hsplit : d ++ (key :: ks).zip (q :: qs) = d ++ [(key, q)] ++ ks.zip qs := by simp
    refine ⟨key :: ks, by simp [hks], ?_, ?_, ?_, ?_⟩
    · rw [hsplit, ← hok, dumpParams, getIdx, List.getElem?_eq_getElem hlt]
      show dumpParams names (i + 1) qs (dictSet d (dumpKey d names[i] i) q) = _
      rw [hk, dictSet_fresh h1]
    · rw [hsplit]; exact hnd
    · rw [hsplit, List.length_cons, show i + (qs.length + 1) = i + 1 + qs.length by omega]; exact hinv
    · intro j k hj
      cases j with
      | zero =>
        simp only [List.getElem?_cons_zero, Option.some.injEq] at hj
        subst hj; exact h4
      | succ j =>
        have := hP j k (by simpa using hj)
        rwa [show i + 1 + j = i + (j + 1) by omega] at this

/-- The keys of the entries of the pulses. -/
theorem keys_pulseEntries {ks : List String} {pts : List (β × β)} (h : ks.length = pts.length) :
    keys (pulseEntries ks pts) = ks.flatMap (fun k => [k, timeName k]) := by
  induction ks generalizing pts with
  | nil => simp [pulseEntries]
  | cons k ks ih =>
    cases pts with
    | nil => simp at h
    | cons pt pts =>
      have := ih (pts := pts) (by simpa using h)
      simp only [pulseEntries, keys] at this
      simp only [pulseEntries, keys, List.zip_cons_cons, List.flatMap_cons, List.map_append, this]
      simp

theorem keys_zip {ks : List String} {qs : List β} (h : ks.length = qs.length) : keys (ks.zip qs) = ks := by
  exact List.map_fst_zip h.le

theorem keys_perm (ks : List String) (qk : List String) :
    (ks ++ ks.map timeName ++ qk).Perm (ks.flatMap (fun k => [k, timeName k]) ++ qk) := by
  refine List.Perm.append_right _ ?_
  have := List.flatMap_append_perm ks (fun k => [k]) (fun k => [timeName k])
  simpa [List.flatMap_singleton', List.map_eq_flatMap] using this

/-- What a file made of such entries says about the controls. -/
theorem kept {ks qk : List String} {pulses grids params : List β} {kwargs : List (String × β)}
    (hl : pulses.length = grids.length) (hk : ks.length = pulses.length) (hq : qk.length = params.length)
    (hn : (keys (pulseEntries ks (pulses.zip grids) ++ qk.zip params ++ kwargs)).Nodup) :
    let file := fun k => (pulseEntries ks (pulses.zip grids) ++ qk.zip params ++ kwargs).lookup k
    ks.map file = pulses.map some ∧ (ks.map timeName).map file = grids.map some ∧ qk.map file = params.map some ∧
      (ks ++ ks.map timeName ++ qk).Nodup := by
  intro file
  have hkz : ks.length = (pulses.zip grids).length := by simp [hk, hl]
  refine ⟨?_, ?_, ?_, ?_⟩
  · apply List.ext_getElem (by simpa using hk)
    intro i h1 h2
    simp only [List.length_map] at h1 h2
    simp only [List.getElem_map]
    refine lookup_of_mem hn ?_
    simp only [List.mem_append, pulseEntries, List.mem_flatMap]
    left; left
    refine ⟨(ks[i], (pulses[i], grids[i]'(by omega))), ?_, by simp⟩
    rw [List.mem_iff_getElem]
    exact ⟨i, by simp; omega, by simp⟩
  · apply List.ext_getElem (by simp; omega)
    intro i h1 h2
    simp only [List.length_map] at h1 h2
    simp only [List.getElem_map]
    refine lookup_of_mem hn ?_
    simp only [List.mem_append, pulseEntries, List.mem_flatMap]
    left; left
    refine ⟨(ks[i], (pulses[i]'(by omega), grids[i])), ?_, by simp⟩
    rw [List.mem_iff_getElem]
    exact ⟨i, by simp; omega, by simp⟩
  · apply List.ext_getElem (by simpa using hq)
    intro i h1 h2
    simp only [List.length_map] at h1 h2
    simp only [List.getElem_map]
    refine lookup_of_mem hn ?_
    simp only [List.mem_append]
    left; right
    rw [List.mem_iff_getElem]
    exact ⟨i, by simp; omega, by simp⟩
  · rw [(keys_perm ks qk).nodup_iff]
    have : keys (pulseEntries ks (pulses.zip grids) ++ qk.zip params ++ kwargs)
        = (ks.flatMap (fun k => [k, timeName k]) ++ qk) ++ keys kwargs := by
      rw [show keys (pulseEntries ks (pulses.zip grids) ++ qk.zip params ++ kwargs)
        = keys (pulseEntries ks (pulses.zip grids)) ++ keys (qk.zip params) ++ keys kwargs by simp [keys]]
      rw [keys_pulseEntries hkz, keys_zip hq]
    rw [this] at hn
    exact (List.nodup_append.1 hn).1

/-! ### Strings -/

theorem timeName_inj {a b : String} (h : timeName a = timeName b) : a = b := by
  have := congrArg String.toList h
  simp only [timeName, String.toList_append] at this
  exact String.toList_inj.1 (List.append_cancel_left this)

theorem timeName_ne (a : String) : a ≠ timeName a := by
  intro h
  have := congrArg (fun s => s.toList.length) h
  simp only [timeName, String.toList_append, List.length_append] at this
  have h2 : "time_grid_for_".toList.length = 14 := by decide
  omega

theorem digits_isDigit {n : ℕ} {c : Char} (h : c ∈ (toString n : String).toList) : c.isDigit = true := by
  rw [Nat.toString_eq_repr, Nat.toList_repr] at h
  exact Nat.isDigit_of_mem_toDigits (by omega) (by omega) h

theorem digits_ne_nil (n : ℕ) : (toString n : String).toList ≠ [] := by
  rw [Nat.toString_eq_repr, Nat.toList_repr]
  exact Nat.toDigits_ne_nil

theorem digits_inj {m n : ℕ} (h : (toString m : String) = toString n) : m = n := by
  have h1 := congrArg String.toList h
  rw [Nat.toString_eq_repr, Nat.toString_eq_repr, Nat.toList_repr, Nat.toList_repr] at h1
  rw [← Nat.ofDigitChars_ten_toDigits (n := m), h1, Nat.ofDigitChars_ten_toDigits]

/-- A digit-free beginning and the digits after it are determined by the whole. -/
theorem split_digits {a b : List Char} {c d : List Char} (ha : ∀ x ∈ a, x.isDigit = false)
    (hb : ∀ x ∈ b, x.isDigit = false) (hc : ∀ x ∈ c, x.isDigit = true) (hd : ∀ x ∈ d, x.isDigit = true)
    (h : a ++ c = b ++ d) : a = b ∧ c = d := by
  induction a generalizing b with
  | nil =>
    cases b with
    | nil => exact ⟨rfl, h⟩
    | cons y b =>
      exfalso
      have hy : y ∈ c := by
        have : c = (y :: b) ++ d := h
        rw [this]; simp
      have := hc y hy
      rw [hb y (by simp)] at this
      exact Bool.noConfusion this
  | cons x a ih =>
    cases b with
    | nil =>
      exfalso
      have hx : x ∈ d := by
        have : d = (x :: a) ++ c := h.symm
        rw [this]; simp
      have := hd x hx
      rw [ha x (by simp)] at this
      exact Bool.noConfusion this
    | cons y b =>
      simp only [List.cons_append, List.cons.injEq] at h
      obtain ⟨rfl, h⟩ := h
      obtain ⟨rfl, rfl⟩ := ih (fun z hz => ha z (by simp [hz])) (fun z hz => hb z (by simp [hz])) h
      exact ⟨rfl, rfl⟩

theorem plain_num_ne {a b : String} (ha : Plain a) (hb : Plain b) (n : ℕ) : a ++ toString n ≠ b := by
  intro h
  have h1 := congrArg String.toList h
  simp only [String.toList_append] at h1
  obtain ⟨c, hc⟩ := List.exists_mem_of_ne_nil _ (digits_ne_nil n)
  have h2 : c ∈ b.toList := by rw [← h1]; exact List.mem_append_right _ hc
  have := hb.1 c h2
  rw [digits_isDigit hc] at this
  exact Bool.noConfusion this

theorem plain_num_inj {a b : String} (ha : Plain a) (hb : Plain b) {m n : ℕ} (h : a ++ toString m = b ++ toString n) :
    a = b ∧ m = n := by
  have h1 := congrArg String.toList h
  simp only [String.toList_append] at h1
  obtain ⟨h2, h3⟩ := split_digits ha.1 hb.1 (fun x hx => digits_isDigit hx) (fun x hx => digits_isDigit hx) h1
  exact ⟨String.toList_inj.1 h2, digits_inj (String.toList_inj.1 h3)⟩

theorem plain_ne_time {a : String} (ha : Plain a) (k : String) : a ≠ timeName k := by
  rintro rfl
  exact ha.2 (by simp [timeName])

theorem plain_num_ne_time {a : String} (ha : Plain a) (n : ℕ) (k : String) : a ++ toString n ≠ timeName k := by
  intro h
  have h1 := congrArg String.toList h
  simp only [String.toList_append, timeName] at h1
  rcases List.append_eq_append_iff.1 h1 with ⟨t, h2, h3⟩ | ⟨t, h2, h3⟩
  · by_cases ht : t = []
    · subst ht
      exact ha.2 (by rw [h2]; simp)
    · have hlast : t.getLast ht = '_' := by
        have : "time_grid_for_".toList.getLast (by decide) = '_' := by decide
        rw [← this]
        simp only [h2]
        rw [List.getLast_append_of_ne_nil]
      have hm : '_' ∈ (toString n : String).toList := by
        rw [h3, ← hlast]
        exact List.mem_append_left _ (List.getLast_mem ht)
      have := digits_isDigit hm
      revert this; decide
  · exact ha.2 (by rw [h2]; exact List.prefix_append _ _)

end QuOCS.Dump
