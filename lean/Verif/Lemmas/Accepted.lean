import Verif.Spec.Documented
import Verif.Lemmas.SettingsUse
import Verif.Lemmas.Usable
import Verif.Props.Program

/-!
# Dictionaries of the documented form are read without an exception
-/

set_option linter.unusedSectionVars false
set_option linter.unusedVariables false

namespace QuOCS

section
variable {α β : Type} {T : Tab} {d d' : PDict}

/-- One step of a program that ends normally, started from a dictionary with some defaults filled in. -/
theorem Lawful.go {m : Prog PDict α} {f : α → Prog PDict β} (hm : Lawful T d m) (ha : Agree T d d') (h : ∃ a, (m d).1 = .ok a)
    (hf : ∀ a d'', (m d).1 = .ok a → Agree T d d'' → ∃ b, (f a d'').1 = .ok b) : ∃ b, ((m >>= f) d').1 = .ok b := by
  obtain ⟨h1, h2⟩ := hm d' ha
  obtain ⟨a, h⟩ := h
  rw [prog_bind]
  rcases hd : m d' with ⟨r, d''⟩
  rw [hd] at h1 h2
  have h1 : r = .ok a := h1.trans h
  subst h1
  exact hf a d'' h h2

theorem Lawful.same {m : Prog PDict α} (hm : Lawful T d m) (ha : Agree T d d') (h : ∃ a, (m d).1 = .ok a) : ∃ a, (m d').1 = .ok a := by
  rw [(hm d' ha).1]
  exact h

theorem setdefault_go (k : String) (v : PVal) (d : PDict) : ∃ a, (setdefault k v d).1 = .ok a := ⟨_, setdefault_result k v d⟩

theorem fillDefault_go (k : String) (v : PVal) (d : PDict) : ∃ a, (fillDefault k v d).1 = .ok a := ⟨(), rfl⟩

theorem getOpt_go (k : String) (d : PDict) : ∃ a, (getOpt k d).1 = .ok a := ⟨_, rfl⟩

theorem item_go {k : String} {d : PDict} {v : PVal} (h : d.get? k = some v) : ∃ a, (item k d).1 = .ok a := by
  unfold item
  rw [h]
  exact ⟨v, rfl⟩

theorem inDict_go {k : String} {m : Prog PDict α} {d s : PDict} (h : d.get? k = some (.dict s)) (hm : ∃ a, (m s).1 = .ok a) :
    ∃ a, (inDict k m d).1 = .ok a := by
  unfold inDict
  rw [h]
  exact hm

theorem inDictDefault_go {k : String} {m : Prog PDict α} {d s : PDict} (h : (d.get? k).getD (.dict .nil) = .dict s)
    (hm : ∃ a, (m s).1 = .ok a) : ∃ a, (inDictDefault k m d).1 = .ok a := by
  unfold inDictDefault
  rcases hd : d.get? k with _ | w
  · rw [hd] at h
    cases h
    exact hm
  · rw [hd] at h
    have h : w = .dict s := h
    subst h
    exact hm

theorem dictsIn_dictList (l : List PDict) : dictsIn (dictList l) = l := by
  induction l with
  | nil => rfl
  | cons s l ih => simp only [dictList, dictsIn, ih]

theorem forItems_go {m : Prog PDict α} {l : List PDict} (h : ∀ s ∈ l, ∃ a, (m s).1 = .ok a) : ∃ as, (forItems m (dictList l)).1 = .ok as := by
  induction l with
  | nil => exact ⟨[], rfl⟩
  | cons s l ih =>
    obtain ⟨a, ha⟩ := h s (by simp)
    obtain ⟨as, hs⟩ := ih fun s hs => h s (by simp [hs])
    refine ⟨a :: as, ?_⟩
    simp only [dictList, forItems, ha, hs]
    rfl

theorem inItems_go {k : String} {m : Prog PDict α} {d : PDict} {l : List PDict} (hl : d.get? k = some (.list (dictList l)))
    (h : ∀ s ∈ l, ∃ a, (m s).1 = .ok a) : ∃ as, (inItems k m d).1 = .ok as := by
  unfold inItems
  rw [hl]
  exact forItems_go h

theorem lift_go {x : Py α} (d : PDict) (h : ∃ a, x = .ok a) : ∃ a, (Prog.lift x d).1 = .ok a := h

theorem pure_go (x : α) (d : PDict) : ∃ a, ((pure x : Prog PDict α) d).1 = .ok a := ⟨x, rfl⟩

/-- An optional number, with the default. -/
theorem number_go {k : String} {v : ℚ} (h : OptNumber d k) : ∃ q, setting d [k] (.num v) = .num q := by
  rw [setting_one]
  rcases hd : d.get? k with _ | w
  · exact ⟨v, rfl⟩
  · obtain ⟨q, rfl⟩ := h w hd
    exact ⟨q, rfl⟩

theorem whole_go {k : String} {v : ℤ} (h : OptWhole d k) : ∃ z : ℤ, setting d [k] (.num v) = .num z := by
  rw [setting_one]
  rcases hd : d.get? k with _ | w
  · exact ⟨v, rfl⟩
  · obtain ⟨q, rfl⟩ := h w hd
    exact ⟨q, rfl⟩

theorem numArg_go {k : String} {v : ℚ} (h : OptNumber d k) : ∃ a, (numArg k v d).1 = .ok a := by
  obtain ⟨q, hq⟩ := number_go (v := v) h
  rw [setting_one] at hq
  refine ⟨q, ?_⟩
  show numOf ((d.get? k).getD (.num v)) = _
  rw [hq]
  rfl

theorem numSetting_go {k : String} {v : ℚ} (h : OptNumber d k) : ∃ a, (numSetting k v d).1 = .ok a := by
  obtain ⟨q, hq⟩ := number_go (v := v) h
  rw [setting_one] at hq
  rw [numSetting_result, hq]
  exact ⟨q, rfl⟩

theorem nameArg_go {k : String} {v : String} (h : OptString d k) : ∃ a, (nameArg k v d).1 = .ok a := by
  show ∃ a, nameOf ((d.get? k).getD (.str v)) = .ok a
  rcases hd : d.get? k with _ | w
  · exact ⟨v, rfl⟩
  · obtain ⟨q, rfl⟩ := h w hd
    exact ⟨q, rfl⟩

theorem boolArg_go (k : String) (d : PDict) : ∃ a, (boolArg k d).1 = .ok a := ⟨_, rfl⟩

theorem natCount (n : ℕ) : ((n : ℚ).den = 1) ∧ ¬ (n : ℚ) < 0 ∧ (n : ℚ).num.toNat = n := by
  refine ⟨by simp, by simp, by simp⟩

theorem lengthArg_go {k : String} {v : ℚ} {n : ℕ} (h : setting d [k] (.num v) = .num n) : (lengthArg k v d).1 = .ok n := by
  show lengthOf ((d.get? k).getD (.num v)) = _
  rw [setting_one] at h
  rw [h]
  obtain ⟨h1, h2, h3⟩ := natCount n
  simp only [lengthOf, h1, h2, if_true, if_false, h3]

theorem countOf_go (n : ℕ) : countOf (.num n) = .ok n := by
  obtain ⟨h1, h2, h3⟩ := natCount n
  simp only [countOf, h1, h2, if_true, if_false, h3]

theorem vectorNumber_go {n : ℕ} (h : setting d ["basis_vector_number"] (.num 1) = .num n) : (vectorNumber d).1 = .ok n := by
  rw [setting_one] at h
  unfold vectorNumber
  rw [prog_bind]
  have := setdefault_result "basis_vector_number" (.num 1) d
  rcases hx : setdefault "basis_vector_number" (.num 1) d with ⟨r, d'⟩
  rw [hx] at this
  have : r = .ok (.num n) := by rw [← h]; exact this
  subst this
  exact countOf_go n

theorem onlyKeys_go {allowed : List String} (h : ∀ k, d.get? k ≠ none → k ∈ allowed) : ∃ a, (onlyKeys allowed d).1 = .ok a := by
  refine ⟨(), ?_⟩
  unfold onlyKeys
  rw [if_pos]
  simp only [List.all_eq_true, mem_keyList, decide_eq_true_eq]
  exact h

theorem floatList_go (lib : PyLib) (qs : List ℚ) : floatList lib (numList qs) = .ok qs := by
  induction qs with
  | nil => rfl
  | cons q l ih =>
    simp only [numList, floatList, ih]
    rfl

theorem nameList_go (ns : List String) : nameList (strList ns) = .ok ns := by
  induction ns with
  | nil => rfl
  | cons q l ih =>
    simp only [strList, nameList, ih]
    rfl

theorem pyInt_go (lib : PyLib) (q : ℚ) : ∃ z, pyInt lib (.num q) = .ok z := ⟨_, rfl⟩

end

section
variable {lib : PyLib}

/-- The class with a known name. -/
theorem importClass_go {type name m c : String} {at_ mo cl na : PVal} (ha : at_ = .null) (hn : na = .str name) {l : List MapEntry}
    (ht : typeMap (some type) = some l) (hl : l.lookup name = some (m, c)) (he : lib.exists_ m c = true) :
    importClass lib (some at_) (some mo) (some cl) (some na) type = some (m, c) := by
  subst ha hn
  unfold importClass dynamicImport importByName
  simp only [strOpt, ht, hl, he, if_true]

theorem importClass_go' {type name m c : String} {mo cl na : PVal} (hn : na = .str name) {l : List MapEntry}
    (ht : typeMap (some type) = some l) (hl : l.lookup name = some (m, c)) (he : lib.exists_ m c = true) :
    importClass lib none (some mo) (some cl) (some na) type = some (m, c) := by
  subst hn
  unfold importClass dynamicImport importByName
  simp only [strOpt, ht, hl, he, if_true]

theorem null_of {d : PDict} {k : String} (h : NoEntry (entry d [k])) : (d.get? k).getD .null = .null := by
  have h : NoEntry (d.get? k) := h
  rcases h with h | h <;> rw [h] <;> rfl

theorem some_of {d : PDict} {k : String} {v w : PVal} (h : entry d [k] = some v) : (d.get? k).getD w = v := by
  have h : d.get? k = some v := h
  rw [h]
  rfl

theorem distribution_go (hi : Installed lib) {s : PDict} (h : DocDistribution s) : ∃ a, (readDistribution lib s).1 = .ok a := by
  unfold readDistribution
  refine Lawful.go (T := (((settingsTab lib false).below "pulses").below "basis").below "random_super_parameter_distribution")
    (Lawful.setdefault rfl) (Agree.refl _ s) (setdefault_go _ _ _) fun a d1 h1 a1 => ?_
  refine Lawful.go (Lawful.setdefault rfl) a1 (setdefault_go _ _ _) fun b d2 h2 a2 => ?_
  refine Lawful.go (Lawful.setdefault rfl) a2 (setdefault_go _ _ _) fun c d3 h3 a3 => ?_
  refine Lawful.go (Lawful.setdefault rfl) a3 (setdefault_go _ _ _) fun e d4 h4 a4 => ?_
  have hc : importClass lib (some a) (some b) (some c) (some e) "superparameter_distribution" =
      some ("quocslib.pulses.superparameter.Uniform", "Uniform") := by
    refine importClass_go (name := "Uniform") (l := distributionMap) ?_ ?_ rfl rfl hi.2.2.2
    · rw [setdefault_ok h1]; exact null_of h.name.1
    · rw [setdefault_ok h4]; exact some_of h.name.2
  rw [hc]
  dsimp only
  rw [if_pos rfl]
  refine Lawful.go (Lawful.numArg rfl) a4 (numArg_go (h.numbers _ (by simp))) fun _ d5 h5 a5 => ?_
  refine Lawful.go (Lawful.numArg rfl) a5 (numArg_go (h.numbers _ (by simp))) fun _ d6 h6 a6 => ?_
  exact pure_go _ _

theorem basis_class (hi : Installed lib) {name : String} {s : PDict} (h : DocBasis name s) :
    basisOf lib s = some ("quocslib.pulses.basis." ++ name, name) := by
  have hk := h.known
  refine importClass_go (name := name) (l := basisMap) (null_of h.chosen.1) (some_of h.chosen.2) rfl ?_ (hi.2.2.1 name h.known)
  simp only [List.mem_cons, List.not_mem_nil, or_false] at hk
  rcases hk with rfl | rfl | rfl | rfl | rfl | rfl | rfl | rfl | rfl <;> rfl

/-! ### Bases -/

/-- The numbers among the settings of a basis. -/
def BasisNumbers (n : ℕ) (s : PDict) : Prop :=
  (∀ k ∈ ["basis_max", "sigma", "offset", "tau_variation", "sigma_variation"], OptNumber s k) ∧
    setting s ["basis_vector_number"] (.num 1) = .num n

theorem basisNumbers_fill {n : ℕ} {s : PDict} (h : BasisNumbers n s) {k : String} {v : PVal}
    (hk : k ∉ ["basis_max", "sigma", "offset", "tau_variation", "sigma_variation", "basis_vector_number"]) :
    ∃ a s', setdefault k v s = (.ok a, s') ∧ BasisNumbers n s' := by
  unfold setdefault
  rcases hd : s.get? k with _ | w
  · refine ⟨v, _, rfl, fun j hj x hx => ?_, ?_⟩
    · have hx : (s.insert k v).get? j = some x := hx
      rw [get?_insert, if_neg] at hx
      · exact h.1 j hj x hx
      · rintro rfl
        simp only [List.mem_cons, List.not_mem_nil, or_false, not_or] at hk hj
        tauto
    · have := h.2
      rw [setting_one] at this ⊢
      rw [get?_insert, if_neg]
      · exact this
      · rintro rfl
        simp at hk
  · exact ⟨w, s, rfl, h⟩

theorem basisNumbers_vectors {n : ℕ} {s : PDict} (h : BasisNumbers n s) : ∃ s', vectorNumber s = (.ok n, s') ∧ BasisNumbers n s' := by
  have h2 := h.2
  rw [setting_one] at h2
  have key : ∃ s', setdefault "basis_vector_number" (.num 1) s = (.ok (.num n), s') ∧ BasisNumbers n s' := by
    unfold setdefault
    rcases hd : s.get? "basis_vector_number" with _ | w
    · rw [hd] at h2
      have h2 : PVal.num 1 = .num n := h2
      refine ⟨s.insert "basis_vector_number" (.num 1), by rw [← h2], fun j hj x hx => ?_, ?_⟩
      · have hx : (s.insert _ _).get? j = some x := hx
        rw [get?_insert, if_neg] at hx
        · exact h.1 j hj x hx
        · rintro rfl
          simp at hj
      · rw [setting_one, get?_insert, if_pos rfl]
        exact h2
    · rw [hd] at h2
      have h2 : w = .num n := h2
      exact ⟨s, by rw [h2], h⟩
  obtain ⟨s', h3, h4⟩ := key
  refine ⟨s', ?_, h4⟩
  unfold vectorNumber
  rw [prog_bind, h3]
  show (countOf (.num n), s') = _
  rw [countOf_go]

theorem basisNumbers_number {n : ℕ} {s : PDict} (h : BasisNumbers n s) {k : String} (v : ℚ)
    (hk : k ∈ ["basis_max", "sigma", "offset", "tau_variation", "sigma_variation"]) :
    ∃ q s', numSetting k v s = (.ok q, s') ∧ BasisNumbers n s' := by
  have key : ∃ q s', setdefault k (.num v) s = (.ok (.num q), s') ∧ BasisNumbers n s' := by
    unfold setdefault
    rcases hd : s.get? k with _ | w
    · refine ⟨v, _, rfl, fun j hj x hx => ?_, ?_⟩
      · have hx : (s.insert k (.num v)).get? j = some x := hx
        rw [get?_insert] at hx
        split at hx
        · cases hx; exact ⟨v, rfl⟩
        · exact h.1 j hj x hx
      · have := h.2
        rw [setting_one] at this ⊢
        rw [get?_insert, if_neg]
        · exact this
        · rintro rfl
          simp at hk
    · obtain ⟨q, rfl⟩ := h.1 k hk w hd
      exact ⟨q, s, rfl, h⟩
  obtain ⟨q, s', h3, h4⟩ := key
  refine ⟨q, s', ?_, h4⟩
  unfold numSetting
  rw [prog_bind, h3]
  rfl

theorem basis_go (hi : Installed lib) {name : String} {s : PDict} (h : DocBasis name s) {bins : Option PVal}
    (hb : name = "PiecewiseBasis" → ∃ b : ℕ, bins = some (.num b)) : ∃ x, (readBasis lib bins s).1 = .ok x := by
  obtain ⟨n, hn1, hn⟩ := h.vectors
  have hc := basis_class hi h
  have b0 : BasisNumbers n s := ⟨h.numbers, hn⟩
  unfold readBasis
  obtain ⟨a, s1, h1, b1⟩ := basisNumbers_fill (k := "basis_attribute") (v := .null) b0 (by simp)
  obtain ⟨b, s2, h2, b2⟩ := basisNumbers_fill (k := "basis_module") (v := .null) b1 (by simp)
  obtain ⟨c, s3, h3, b3⟩ := basisNumbers_fill (k := "basis_class") (v := .null) b2 (by simp)
  obtain ⟨e, s4, h4, b4⟩ := basisNumbers_fill (k := "basis_name") (v := .null) b3 (by simp)
  have hl := (Lawful.setdefault (T := ((settingsTab lib false).below "pulses").below "basis") (d₀ := s) (k := "basis_attribute") (v := .null) rfl)
  have hl2 := (Lawful.setdefault (T := ((settingsTab lib false).below "pulses").below "basis") (d₀ := s) (k := "basis_module") (v := .null) rfl)
  have hl3 := (Lawful.setdefault (T := ((settingsTab lib false).below "pulses").below "basis") (d₀ := s) (k := "basis_class") (v := .null) rfl)
  have hl4 := (Lawful.setdefault (T := ((settingsTab lib false).below "pulses").below "basis") (d₀ := s) (k := "basis_name") (v := .null) rfl)
  have a1 := hl s (Agree.refl _ s)
  rw [h1] at a1
  have a2 := hl2 s1 a1.2
  rw [h2] at a2
  have a3 := hl3 s2 a2.2
  rw [h3] at a3
  have a4 := hl4 s3 a3.2
  rw [h4] at a4
  have e1 := setdefault_ok (congrArg Prod.fst h1)
  have e2 := setdefault_ok a2.1.symm
  have e3 := setdefault_ok a3.1.symm
  have e4 := setdefault_ok a4.1.symm
  have hcl : importClass lib (some a) (some b) (some c) (some e) "basis" = some ("quocslib.pulses.basis." ++ name, name) := by
    rw [e1, e2, e3, e4]
    exact hc
  rw [prog_bind, h1]
  dsimp only
  rw [prog_bind, h2]
  dsimp only
  rw [prog_bind, h3]
  dsimp only
  rw [prog_bind, h4]
  dsimp only
  rw [hcl]
  dsimp only
  have hk := h.known
  simp only [List.mem_cons, List.not_mem_nil, or_false] at hk
  obtain ⟨s5, h5, b5⟩ := basisNumbers_vectors b4
  rcases hk with rfl | rfl | rfl | rfl | rfl | rfl | rfl | rfl | rfl <;> unfold readBasisSettings
  · refine ⟨.fourier n, ?_⟩
    rw [if_neg (by decide), if_pos (by decide), prog_bind, h5]; rfl
  · refine ⟨.chebyshev n, ?_⟩
    rw [if_neg (by decide), if_neg (by decide), if_pos (by decide), prog_bind, h5]; rfl
  · refine ⟨.walsh n, ?_⟩
    rw [if_neg (by decide), if_neg (by decide), if_neg (by decide), if_pos (by decide), prog_bind, h5]; rfl
  · obtain ⟨q, s6, h6, b6⟩ := basisNumbers_number b5 1 (k := "basis_max") (by simp)
    refine ⟨.sinc n q, ?_⟩
    rw [if_neg (by decide), if_neg (by decide), if_neg (by decide), if_neg (by decide), if_pos (by decide), prog_bind, h5]
    dsimp only
    rw [prog_bind, h6]; rfl
  · obtain ⟨m, rfl⟩ := hb rfl
    refine ⟨.piecewise, ?_⟩
    rw [if_pos (by decide)]
    dsimp only
    rw [countOf_go]
    rfl
  · obtain ⟨q, s6, h6, b6⟩ := basisNumbers_number b5 (1 / 10) (k := "offset") (by simp)
    obtain ⟨q', s7, h7, b7⟩ := basisNumbers_number b6 (1 / 10) (k := "sigma") (by simp)
    refine ⟨.sigmoid n q q', ?_⟩
    rw [if_neg (by decide), if_neg (by decide), if_neg (by decide), if_neg (by decide), if_neg (by decide), if_pos (by decide), prog_bind, h5]
    dsimp only
    rw [prog_bind, h6]
    dsimp only
    rw [prog_bind, h7]; rfl
  · obtain ⟨q, s6, h6, b6⟩ := basisNumbers_number b5 (1 / 10 ^ 10) (k := "sigma") (by simp)
    obtain ⟨q', s7, h7, b7⟩ := basisNumbers_number b6 (-10 * q) (k := "offset") (by simp)
    obtain ⟨q2, s8, h8, b8⟩ := basisNumbers_number b7 (1 / 10) (k := "tau_variation") (by simp)
    refine ⟨.sigmoidTimeDep n q' q q2, ?_⟩
    rw [if_neg (by decide), if_neg (by decide), if_neg (by decide), if_neg (by decide), if_neg (by decide), if_neg (by decide), if_pos (by decide),
      prog_bind, h5]
    dsimp only
    rw [prog_bind, h6]
    dsimp only
    rw [prog_bind, h7]
    dsimp only
    rw [prog_bind, h8]; rfl
  · obtain ⟨q, s6, h6, b6⟩ := basisNumbers_number b5 (1 / 10 ^ 10) (k := "sigma") (by simp)
    obtain ⟨q', s7, h7, b7⟩ := basisNumbers_number b6 (-10 * q) (k := "offset") (by simp)
    obtain ⟨q2, s8, h8, b8⟩ := basisNumbers_number b7 1 (k := "sigma_variation") (by simp)
    refine ⟨.sigmoidSigmas n q' q q2, ?_⟩
    rw [if_neg (by decide), if_neg (by decide), if_neg (by decide), if_neg (by decide), if_neg (by decide), if_neg (by decide),
      if_neg (by decide), if_pos (by decide), prog_bind, h5]
    dsimp only
    rw [prog_bind, h6]
    dsimp only
    rw [prog_bind, h7]
    dsimp only
    rw [prog_bind, h8]; rfl
  · obtain ⟨q, s6, h6, b6⟩ := basisNumbers_number b5 (1 / 10 ^ 10) (k := "sigma") (by simp)
    obtain ⟨q', s7, h7, b7⟩ := basisNumbers_number b6 (-10 * q) (k := "offset") (by simp)
    obtain ⟨q2, s8, h8, b8⟩ := basisNumbers_number b7 (1 / 10 ^ 20) (k := "tau_variation") (by simp)
    obtain ⟨q3, s9, h9, b9⟩ := basisNumbers_number b8 (1 / 10 ^ 20) (k := "sigma_variation") (by simp)
    refine ⟨.sigmoidAllParas n q' q q2 q3, ?_⟩
    rw [if_neg (by decide), if_neg (by decide), if_neg (by decide), if_neg (by decide), if_neg (by decide), if_neg (by decide),
      if_neg (by decide), if_neg (by decide), if_pos (by decide), prog_bind, h5]
    dsimp only
    rw [prog_bind, h6]
    dsimp only
    rw [prog_bind, h7]
    dsimp only
    rw [prog_bind, h8]
    dsimp only
    rw [prog_bind, h9]; rfl

/-! ### Functions -/

theorem fnSource_go (lib : PyLib) {A : Type} {eval : String → Py A} {file : PVal → PVal → PVal → Py A} {s : PDict} (h : DocFunction eval file s) :
    ∃ src, (readFnSource s).1 = .ok src := by
  let T := ((settingsTab lib false).below "pulses").below "initial_guess"
  unfold readFnSource
  have ht : ∃ t, s.get? "function_type" = some t := by
    rcases h with h | h | h
    · exact ⟨_, h.1⟩
    · exact ⟨_, h.1⟩
    · exact ⟨_, h.1⟩
  obtain ⟨t, ht⟩ := ht
  refine Lawful.go (T := T) (Lawful.item rfl) (Agree.refl _ s) (item_go ht) fun t' d1 h1 a1 => ?_
  have h1 := item_ok h1
  rcases h with ⟨hty, src, f, hl, _⟩ | ⟨hty, qs, hl⟩ | ⟨hty, _⟩ <;> have hty : s.get? "function_type" = some _ := hty <;>
    rw [hty] at h1 <;> cases h1
  · rw [if_pos (by rfl)]
    exact Lawful.go (Lawful.item rfl) a1 (item_go hl) fun v d2 h2 a2 => pure_go _ _
  · rw [if_neg (by decide), if_pos (by rfl)]
    exact Lawful.go (Lawful.item rfl) a1 (item_go hl) fun v d2 h2 a2 => pure_go _ _
  · rw [if_neg (by decide), if_neg (by decide), if_pos (by rfl)]
    refine Lawful.go (Lawful.setdefault rfl) a1 (setdefault_go _ _ _) fun p d2 h2 a2 => ?_
    refine Lawful.go (Lawful.setdefault rfl) a2 (setdefault_go _ _ _) fun p d3 h3 a3 => ?_
    exact Lawful.go (Lawful.setdefault rfl) a3 (setdefault_go _ _ _) fun p d4 h4 a4 => pure_go _ _

theorem fn_go (lib : PyLib) {A : Type} {eval : String → Py A} {file : PVal → PVal → PVal → Py A} {p : PDict} {k : String}
    (h : NoEntry (entry p [k]) ∨ HasDict p k (DocFunction eval file)) : ∃ src, (readFn k p).1 = .ok src := by
  unfold readFn
  rw [prog_bind]
  unfold isNone
  rcases h with h | ⟨s, hs, h⟩
  · have h : NoEntry (p.get? k) := h
    rcases h with h | h <;> rw [h] <;> exact ⟨_, rfl⟩
  · have hs : p.get? k = some _ := hs
    rw [hs]
    exact inDict_go hs (fnSource_go lib h)

theorem fn_source {A : Type} {eval : String → Py A} {file : PVal → PVal → PVal → Py A} {p : PDict} {k : String}
    (h : NoEntry (entry p [k]) ∨ HasDict p k (DocFunction eval file)) {src : FnSource} (hr : (readFn k p).1 = .ok src) :
    src = .default ∨ (∃ t f, src = .lambda (.str t) ∧ eval t = .ok f) ∨ (∃ qs, src = .list (.list (numList qs))) ∨
      ∃ a b c f, src = .file a b c ∧ file a b c = .ok f := by
  unfold readFn at hr
  rw [prog_bind] at hr
  unfold isNone at hr
  rcases h with h | ⟨s, hs, h⟩
  · have h : NoEntry (p.get? k) := h
    rcases h with h | h <;> rw [h] at hr <;> exact .inl (pure_ok hr)
  · have hs : p.get? k = some _ := hs
    rw [hs] at hr
    have hr := inDict_look hs hr
    obtain ⟨t, ht, hsrc⟩ := fnSource_is hr
    rcases h with ⟨hty, a, f, hl, he⟩ | ⟨hty, qs, hl⟩ | ⟨hty, f, hf⟩ <;> rw [hty] at ht <;> cases ht
    · rcases hsrc with ⟨_, v, hv, rfl⟩ | ⟨h0, _⟩ | ⟨h0, _⟩ | ⟨h0, _⟩
      · rw [hl] at hv
        cases hv
        exact .inr (.inl ⟨a, f, rfl, he⟩)
      · simp at h0
      · simp at h0
      · simp at h0
    · rcases hsrc with ⟨h0, _⟩ | ⟨_, v, hv, rfl⟩ | ⟨h0, _⟩ | ⟨h0, _⟩
      · simp at h0
      · rw [hl] at hv
        cases hv
        exact .inr (.inr (.inl ⟨qs, rfl⟩))
      · simp at h0
      · simp at h0
    · rcases hsrc with ⟨h0, _⟩ | ⟨h0, _⟩ | ⟨_, rfl⟩ | ⟨h0, _⟩
      · simp at h0
      · simp at h0
      · exact .inr (.inr (.inr ⟨_, _, _, f, rfl, hf⟩))
      · simp at h0

theorem guess_go {p : PDict} (h : NoEntry (entry p ["initial_guess"]) ∨ HasDict p "initial_guess" (DocFunction lib.evalGuess lib.guessFile))
    {src : FnSource} (hr : (readFn "initial_guess" p).1 = .ok src) : ∃ g, guessOf lib src = .ok g := by
  rcases fn_source h hr with rfl | ⟨t, f, rfl, hf⟩ | ⟨qs, rfl⟩ | ⟨a, b, c, f, rfl, hf⟩
  · exact ⟨_, rfl⟩
  · exact ⟨f, hf⟩
  · simp only [guessOf, valuesOf, floatList_go]
    exact ⟨_, rfl⟩
  · exact ⟨f, hf⟩

theorem scaling_go {p : PDict}
    (h : NoEntry (entry p ["scaling_function"]) ∨ HasDict p "scaling_function" (DocFunction lib.evalScaling lib.scalingFile))
    {src : FnSource} (hr : (readFn "scaling_function" p).1 = .ok src) : ∃ g, scalingOf lib src = .ok g := by
  rcases fn_source h hr with rfl | ⟨t, f, rfl, hf⟩ | ⟨qs, rfl⟩ | ⟨a, b, c, f, rfl, hf⟩
  · exact ⟨_, rfl⟩
  · exact ⟨f, hf⟩
  · simp only [scalingOf, valuesOf, floatList_go]
    exact ⟨_, rfl⟩
  · exact ⟨f, hf⟩

/-! ### Controls -/

theorem optString_of {p : PDict} {k : String} (h : ∃ s, entry p [k] = some (.str s)) : OptString p k := by
  intro v hv
  obtain ⟨s, hs⟩ := h
  rw [hs] at hv
  cases hv
  exact ⟨s, rfl⟩

theorem pulseBasis_go (hi : Installed lib) {p : PDict} (h : DocPulse lib p) : ∃ x, (readPulseBasis lib p).1 = .ok x := by
  obtain ⟨name, ⟨s, hs, hB⟩, hn⟩ := h.basis
  show ∃ x, (inDict "basis" (readBasis lib (p.get? "bins_number")) p).1 = .ok x
  refine inDict_go hs (basis_go hi hB fun he => ?_)
  obtain ⟨b, _, hb⟩ := h.bins
  have := hn he
  have hg : ∀ k, entry p [k] = p.get? k := fun _ => rfl
  rw [hg] at this
  rw [setting_one] at hb
  rcases hd : p.get? "bins_number" with _ | w
  · exact absurd hd this
  · rw [hd] at hb
    have hb : w = .num b := hb
    exact ⟨b, by rw [hb]⟩

theorem noClash_go {p : PDict} (h : DocPulse lib p) : ∃ x, (noClash p).1 = .ok x := by
  have h1 := h.reserved "map_index" (by simp [reservedNames])
  have h2 := h.reserved "rng" (by simp [reservedNames])
  have h3 := h.reserved "is_AD" (by simp [reservedNames])
  unfold noClash
  simp only [prog_bind, getOpt, h1, h2, h3]
  exact ⟨(), rfl⟩

theorem pulse_go (hi : Installed lib) {p : PDict} (h : DocPulse lib p) : ∃ x, (readPulse lib p).1 = .ok x := by
  obtain ⟨n, hn1, hn⟩ := h.bins
  obtain ⟨name, ⟨s, hs, hB⟩, hpw⟩ := h.basis
  unfold readPulse
  refine Lawful.go (T := (settingsTab lib false).below "pulses") (lawful_pulseBasis lib p) (Agree.refl _ p) (pulseBasis_go hi h)
    fun basis d2 h2 a2 => ?_
  have h2 : (inDict "basis" (readBasis lib (p.get? "bins_number")) p).1 = .ok basis := h2
  have hU := basis_use lib (inDict_look hs h2)
  refine Lawful.go (by unfold noClash; lawful) a2 (noClash_go h) fun _ d3 h3 a3 => ?_
  refine Lawful.go (Lawful.nameArg (.inr rfl)) a3 (nameArg_go (optString_of h.name)) fun _ d4 h4 a4 => ?_
  refine Lawful.go (Lawful.nameArg (.inl rfl)) a4 (nameArg_go h.time) fun _ d5 h5 a5 => ?_
  refine Lawful.go (Lawful.numArg rfl) a5 (numArg_go (h.numbers _ (by simp))) fun _ d6 h6 a6 => ?_
  refine Lawful.go (Lawful.numArg rfl) a6 (numArg_go (h.numbers _ (by simp))) fun _ d7 h7 a7 => ?_
  refine Lawful.go (Lawful.numArg rfl) a7 (numArg_go (h.numbers _ (by simp))) fun _ d8 h8 a8 => ?_
  refine Lawful.go (lawful_bins lib p) a8 ⟨n, lengthArg_go hn⟩ fun m d9 h9 a9 => ?_
  have hm : m = n := Except.ok.inj (h9.symm.trans (lengthArg_go hn))
  subst hm
  obtain ⟨v, hv1, hv⟩ := hB.vectors
  have hne := (basis_vectors hU hv hv1 hn1).1
  rw [if_neg (by omega)]
  refine Lawful.go (Lawful.getOpt rfl) a9 (getOpt_go _ _) fun so d10 h10 a10 => ?_
  refine Lawful.go (Lawful.lift _) a10 ?_ fun _ d11 h11 a11 => ?_
  · refine lift_go _ ?_
    rw [getOpt_ok h10]
    rcases h.shaping with h' | ⟨ns, h'⟩
    · have h' : NoEntry (p.get? "shaping_options") := h'
      rcases h' with h' | h' <;> rw [h'] <;> exact ⟨none, rfl⟩
    · have h' : p.get? "shaping_options" = _ := h'
      rw [h']
      simp only [shapingOf, nameList_go]
      exact ⟨_, rfl⟩
  refine Lawful.go (lawful_guess lib p) a11 (fn_go lib h.guess) fun _ d12 h12 a12 => ?_
  refine Lawful.go (Lawful.lift _) a12 (guess_go h.guess h12) fun _ d13 h13 a13 => ?_
  refine Lawful.go (lawful_scaling lib p) a13 (fn_go lib h.scaling) fun _ d14 h14 a14 => ?_
  refine Lawful.go (Lawful.lift _) a14 (scaling_go h.scaling h14) fun _ d15 h15 a15 => ?_
  refine Lawful.go (Lawful.boolArg rfl) a15 (boolArg_go _ _) fun _ d16 h16 a16 => ?_
  refine Lawful.go (Lawful.boolArg rfl) a16 (boolArg_go _ _) fun _ d17 h17 a17 => ?_
  refine Lawful.go (by
    unfold readSuper
    exact Lawful.ite (fun _ => Lawful.inDict rfl fun _ _ => Lawful.inDict rfl fun _ _ => lawful_distribution lib _)
      (fun _ => Lawful.pure _)) a17 ?_ fun w d18 h18 a18 => pure_go _ _
  unfold readSuper
  split
  · rename_i hch
    have hname : name ≠ "PiecewiseBasis" := by
      rintro rfl
      have hc := basis_class hi hB
      have hbr := inDict_look hs h2
      unfold readBasis at hbr
      obtain ⟨e1, d1', g1, b1, hbr⟩ := Lawful.step (T := ((settingsTab lib false).below "pulses").below "basis") (Lawful.setdefault rfl)
        (Agree.refl _ s) hbr
      obtain ⟨e2, d2', g2, b2, hbr⟩ := Lawful.step (Lawful.setdefault rfl) b1 hbr
      obtain ⟨e3, d3', g3, b3, hbr⟩ := Lawful.step (Lawful.setdefault rfl) b2 hbr
      obtain ⟨e4, d4', g4, b4, hbr⟩ := Lawful.step (Lawful.setdefault rfl) b3 hbr
      have hcl : importClass lib (some e1) (some e2) (some e3) (some e4) "basis" = some ("quocslib.pulses.basis." ++ "PiecewiseBasis", "PiecewiseBasis") := by
        rw [setdefault_ok g1, setdefault_ok g2, setdefault_ok g3, setdefault_ok g4]
        exact hc
      rw [hcl] at hbr
      dsimp only at hbr
      unfold readBasisSettings at hbr
      rw [if_pos (by decide)] at hbr
      rcases hd : p.get? "bins_number" with _ | w
      · rw [hd] at hbr
        cases hbr
      · rw [hd] at hbr
        dsimp only at hbr
        obtain ⟨_, d5', g5, b5, hbr⟩ := Lawful.step (Lawful.lift _) b4 hbr
        rw [pure_ok hbr] at hch
        cases hch
    obtain ⟨u, hu, hD⟩ := hB.distribution hname
    exact inDict_go hs (inDict_go hu (distribution_go hi hD))
  · exact pure_go _ _

theorem param_go (lib : PyLib) {p : PDict} (h : DocParam p) : ∃ x, (readParam p).1 = .ok x := by
  unfold readParam
  refine Lawful.go (T := (settingsTab lib false).below "parameters") (Lawful.onlyKeys (param_keys lib p)) (Agree.refl _ p)
    (onlyKeys_go h.only) fun _ d1 h1 a1 => ?_
  refine Lawful.go (Lawful.nameArg (.inr rfl)) a1 (nameArg_go (optString_of h.name)) fun _ d2 h2 a2 => ?_
  refine Lawful.go (Lawful.numArg rfl) a2 (numArg_go (h.numbers _ (by simp))) fun _ d3 h3 a3 => ?_
  refine Lawful.go (Lawful.numArg rfl) a3 (numArg_go (h.numbers _ (by simp))) fun _ d4 h4 a4 => ?_
  refine Lawful.go (Lawful.numArg rfl) a4 (numArg_go (h.numbers _ (by simp))) fun _ d5 h5 a5 => ?_
  exact Lawful.go (Lawful.numArg rfl) a5 (numArg_go (h.numbers _ (by simp))) fun _ d6 h6 a6 => pure_go _ _

theorem time_go (lib : PyLib) {p : PDict} (h : DocTime p) : ∃ x, (readTime p).1 = .ok x := by
  obtain ⟨s, hs⟩ := h.name
  unfold readTime
  refine Lawful.go (T := (settingsTab lib false).below "times") (Lawful.item rfl) (Agree.refl _ p) (item_go hs) fun v d1 h1 a1 => ?_
  have h1 := item_ok h1
  have hs : p.get? "time_name" = _ := hs
  rw [hs] at h1
  cases h1
  refine Lawful.go (Lawful.lift _) a1 ⟨s, rfl⟩ fun _ d2 h2 a2 => ?_
  refine Lawful.go (Lawful.onlyKeys (time_keys lib p)) a2 (onlyKeys_go fun k hk => List.mem_cons_of_mem _ (h.only k hk)) fun _ d3 h3 a3 => ?_
  refine Lawful.go (Lawful.numArg rfl) a3 (numArg_go (h.numbers _ (by simp))) fun _ d4 h4 a4 => ?_
  refine Lawful.go (Lawful.boolArg rfl) a4 (boolArg_go _ _) fun _ d5 h5 a5 => ?_
  refine Lawful.go (Lawful.numArg rfl) a5 (numArg_go (h.numbers _ (by simp))) fun _ d6 h6 a6 => ?_
  refine Lawful.go (Lawful.numArg rfl) a6 (numArg_go (h.numbers _ (by simp))) fun _ d7 h7 a7 => ?_
  exact Lawful.go (Lawful.numArg rfl) a7 (numArg_go (h.numbers _ (by simp))) fun _ d8 h8 a8 => pure_go _ _

/-- An optimized time has different limits. -/
theorem time_limits {p : PDict} {x : TimeDict ℚ} (h : DocTime p) (hu : UsesTime p x) (ho : x.isOptimization = true) : x.upper ≠ x.lower := by
  have hf : ¬ IsFalse (setting p ["is_optimization"] (.bool false)) := fun hf => by
    rw [hu.optimized.2 hf] at ho
    cases ho
  have hne := h.optimized hf
  obtain ⟨lo, hlo⟩ := number_go (v := 0) (h.numbers "lower_limit" (by simp))
  obtain ⟨up, hup⟩ := number_go (v := 1) (h.numbers "upper_limit" (by simp))
  have h1 := hu.lower
  have h2 := hu.upper
  rw [hlo] at h1
  rw [hup] at h2
  rw [hlo, hup] at hne
  rw [h1.num, h2.num]
  rintro rfl
  exact hne rfl

theorem itemsAt_dicts {d : PDict} {k : String} {l : List PDict} (h : entry d [k] = some (.list (dictList l))) : itemsAt d k = l := by
  have h : d.get? k = _ := h
  unfold itemsAt
  rw [h]
  exact dictsIn_dictList l

/-- `Controls` never raises if every pulse has a coefficient and optimized times have different limits. -/
theorem mkControls_go {M : MathFns ℚ} {pd : List (PulseDict ℚ)} {td : List (TimeDict ℚ)} {rd : List (ParamDict ℚ)}
    (hp : ∀ x ∈ pd, 1 ≤ basisParams x.binsNumber x.basis) (ht : ∀ t ∈ td, t.isOptimization = true → t.upper ≠ t.lower) :
    ∃ c, mkControls M pd td rd = .ok c := by
  have hps : ∀ mi, ∃ r, mkPulses M mi pd = .ok r := by
    induction pd with
    | nil => exact fun mi => ⟨_, rfl⟩
    | cons x xs ih =>
      intro mi
      have h1 := hp x (by simp)
      have e : ∃ p, mkPulse M mi x = .ok p := by
        unfold mkPulse
        dsimp only
        rw [if_neg (by omega)]
        exact ⟨_, rfl⟩
      obtain ⟨p, e⟩ := e
      obtain ⟨⟨ps, k⟩, hps⟩ := ih (fun y hy => hp y (by simp [hy])) p.lastIndex
      unfold mkPulses
      simp only [e, hps, bind, Except.bind]
      exact ⟨_, rfl⟩
  obtain ⟨⟨ps, k⟩, h1⟩ := hps (-1)
  obtain ⟨ts, h3, _⟩ := mkTimes_exists ht (acc := []) (by simp)
  unfold mkControls
  simp only [h1, h3, bind, Except.bind]
  exact ⟨_, rfl⟩

theorem controls_go (hi : Installed lib) {name : String} {d : PDict} (h : Documented lib name d) :
    ∃ c, (readControls lib d).1 = .ok c := by
  obtain ⟨lp, hlp, hp⟩ := h.pulses
  obtain ⟨lr, hlr, hr⟩ := h.params
  obtain ⟨lt, hlt, ht⟩ := h.times
  unfold readControls
  refine Lawful.go (T := settingsTab lib false) (Lawful.inItems rfl fun s => lawful_pulse lib s) (Agree.refl _ d)
    (inItems_go hlp fun s hs => pulse_go hi (hp s hs)) fun ps d1 h1 a1 => ?_
  refine Lawful.go (Lawful.inItems rfl fun s => lawful_param lib s) a1
    (inItems_go hlr fun s hs => param_go lib (hr s hs)) fun prs d2 h2 a2 => ?_
  refine Lawful.go (Lawful.inItems rfl fun s => lawful_time lib s) a2
    (inItems_go hlt fun s hs => time_go lib (ht s hs)) fun ts d3 h3 a3 => ?_
  have u1 := (inItems_ok h1).imp fun _ _ => pulse_use lib
  have u3 := (inItems_ok h3).imp fun _ _ => time_use lib
  rw [itemsAt_dicts hlp] at u1
  rw [itemsAt_dicts hlt] at u3
  refine Lawful.go (Lawful.lift _) a3 (mkControls_go (fun x hx => ?_) fun t htm hto => ?_) fun _ d4 h4 a4 => pure_go _ _
  · obtain ⟨p, hpm, hU⟩ := forall2_mem u1 hx
    have hD := hp p hpm
    obtain ⟨b, hb1, hb⟩ := hD.bins
    obtain ⟨nm, ⟨s, hs, hB⟩, _⟩ := hD.basis
    obtain ⟨v, hv1, hv⟩ := hB.vectors
    obtain ⟨s', hs', hUB⟩ := hU.basis
    rw [hs] at hs'
    cases hs'
    obtain rfl := count_unique hU.bins hb
    exact (basis_vectors hUB hv hv1 hb1).1
  · obtain ⟨p, hpm, hU⟩ := forall2_mem u3 htm
    exact time_limits (ht p hpm) hU hto

/-! ### Algorithms -/

theorem stopping_go (lib : PyLib) (s : PDict) : ∃ x, (readStopping s).1 = .ok x := by
  let T := (((settingsTab lib false).below "algorithm_settings").below "dsm_settings").below "stopping_criteria"
  unfold readStopping
  refine Lawful.go (T := T) (Lawful.setdefault rfl) (Agree.refl _ s) (setdefault_go _ _ _) fun _ d1 _ a1 => ?_
  refine Lawful.go (Lawful.setdefault rfl) a1 (setdefault_go _ _ _) fun _ d2 _ a2 => ?_
  refine Lawful.go (Lawful.setdefault rfl) a2 (setdefault_go _ _ _) fun _ d3 _ a3 => ?_
  refine Lawful.go (Lawful.setdefault rfl) a3 (setdefault_go _ _ _) fun _ d4 _ a4 => ?_
  exact Lawful.go (Lawful.setdefault rfl) a4 (setdefault_go _ _ _) fun _ d5 _ a5 => pure_go _ _

theorem gradientStopping_go (lib : PyLib) (s : PDict) : ∃ x, (readGradientStopping s).1 = .ok x := by
  let T := ((settingsTab lib false).below "algorithm_settings").below "stopping_criteria"
  unfold readGradientStopping
  refine Lawful.go (T := T) (Lawful.setdefault rfl) (Agree.refl _ s) (setdefault_go _ _ _) fun _ d1 _ a1 => ?_
  refine Lawful.go (Lawful.setdefault rfl) a1 (setdefault_go _ _ _) fun _ d2 _ a2 => ?_
  refine Lawful.go (Lawful.setdefault rfl) a2 (setdefault_go _ _ _) fun _ d3 _ a3 => ?_
  exact Lawful.go (Lawful.setdefault rfl) a3 (setdefault_go _ _ _) fun _ d4 _ a4 => pure_go _ _

theorem methodName_go (hi : Installed lib) (b : Bool) {g : PDict} (h : DocMethod g) :
    ∃ m, (readMethodName lib b g).1 = .ok m ∧ (m = .nelderMead ∨ m = .cmaes) := by
  let T := (((settingsTab lib false).below "algorithm_settings").below "dsm_settings").below "general_settings"
  have key : ∃ m, (readMethodName lib b g).1 = .ok m := by
    unfold readMethodName
    refine Lawful.go (T := T) (Lawful.getOpt rfl) (Agree.refl _ g) (getOpt_go _ _) fun o d1 _ a1 => ?_
    split
    · exact pure_go _ _
    refine Lawful.go (Lawful.setdefault rfl) a1 (setdefault_go _ _ _) fun x d2 h2 a2 => ?_
    refine Lawful.go (Lawful.setdefault rfl) a2 (setdefault_go _ _ _) fun y d3 h3 a3 => ?_
    refine Lawful.go (Lawful.setdefault rfl) a3 (setdefault_go _ _ _) fun z d4 h4 a4 => ?_
    have hz := setdefault_ok h4
    rcases h.name with hn | hn <;> rw [some_of hn] at hz
    · rw [importClass_go' (l := dsmMap) hz rfl rfl (hi.2.1 "NelderMead" (by simp))]
      exact pure_go _ _
    · rw [importClass_go' (l := dsmMap) hz rfl rfl (hi.2.1 "CMAES" (by simp))]
      exact pure_go _ _
  obtain ⟨m, hm⟩ := key
  refine ⟨m, hm, ?_⟩
  obtain ⟨h1, h2⟩ := methodName_use lib hm
  by_cases hc : b = true ∧ entry g ["dsm_name"] ≠ none
  · exact .inl (h1 hc.1 hc.2)
  · have hc : b = false ∨ entry g ["dsm_name"] = none := by
      rw [not_and_or, Bool.not_eq_true, not_not] at hc
      exact hc
    have h2 := h2 hc
    have hch : ∀ n c, entry g ["dsm_algorithm_name"] = some (.str n) → dsmMap.lookup n = some c → lib.exists_ c.1 c.2 = true →
        m.moduleAndClass = some c := by
      intro n c hn hl he
      rw [← h2, ← chosen_none, ← chosen_is, hn]
      exact importClass_go (name := n) (l := dsmMap) rfl rfl rfl hl he
    rcases h.name with hn | hn
    · have := hch _ _ hn rfl (hi.2.1 "NelderMead" (by simp))
      cases m with
      | nelderMead => exact .inl rfl
      | cmaes => exact .inr rfl
      | other a c =>
        exfalso
        have hm' := hm
        unfold readMethodName at hm'
        obtain ⟨o, d1, g1, a1, hm'⟩ := Lawful.step (T := T) (Lawful.getOpt rfl) (Agree.refl _ g) hm'
        split at hm'
        · cases hm'
        obtain ⟨x, d2, g2, a2, hm'⟩ := Lawful.step (Lawful.setdefault rfl) a1 hm'
        obtain ⟨y, d3, g3, a3, hm'⟩ := Lawful.step (Lawful.setdefault rfl) a2 hm'
        obtain ⟨z, d4, g4, a4, hm'⟩ := Lawful.step (Lawful.setdefault rfl) a3 hm'
        have hz := setdefault_ok g4
        rw [some_of hn] at hz
        rw [importClass_go' (l := dsmMap) hz rfl rfl (hi.2.1 "NelderMead" (by simp))] at hm'
        have := pure_ok hm'
        simp [methodClass] at this
    · have := hch _ _ hn rfl (hi.2.1 "CMAES" (by simp))
      cases m with
      | nelderMead => exact .inl rfl
      | cmaes => exact .inr rfl
      | other a c =>
        exfalso
        have hm' := hm
        unfold readMethodName at hm'
        obtain ⟨o, d1, g1, a1, hm'⟩ := Lawful.step (T := T) (Lawful.getOpt rfl) (Agree.refl _ g) hm'
        split at hm'
        · cases hm'
        obtain ⟨x, d2, g2, a2, hm'⟩ := Lawful.step (Lawful.setdefault rfl) a1 hm'
        obtain ⟨y, d3, g3, a3, hm'⟩ := Lawful.step (Lawful.setdefault rfl) a2 hm'
        obtain ⟨z, d4, g4, a4, hm'⟩ := Lawful.step (Lawful.setdefault rfl) a3 hm'
        have hz := setdefault_ok g4
        rw [some_of hn] at hz
        rw [importClass_go' (l := dsmMap) hz rfl rfl (hi.2.1 "CMAES" (by simp))] at hm'
        have := pure_ok hm'
        simp [methodClass] at this

theorem method_go (hi : Installed lib) (b : Bool) {g : PDict} (h : DocMethod g) : ∃ m, (readMethod lib b g).1 = .ok m := by
  obtain ⟨m, hm, hk⟩ := methodName_go hi b h
  unfold readMethod
  refine Lawful.go (methodName_lawful lib b g) (Agree.refl _ g) ⟨m, hm⟩ fun m' d1 h1 a1 => ?_
  rw [hm] at h1
  cases h1
  rcases hk with rfl | rfl
  · refine Lawful.go (Lawful.setdefault rfl) a1 (setdefault_go _ _ _) fun _ d2 _ a2 => ?_
    exact Lawful.go (Lawful.setdefault rfl) a2 (setdefault_go _ _ _) fun _ d3 _ a3 => pure_go _ _
  · refine Lawful.go (Lawful.setdefault rfl) a1 (setdefault_go _ _ _) fun _ d2 _ a2 => ?_
    refine Lawful.go (Lawful.setdefault rfl) a2 (setdefault_go _ _ _) fun _ d3 _ a3 => ?_
    exact Lawful.go (Lawful.setdefault rfl) a3 (setdefault_go _ _ _) fun _ d4 _ a4 => pure_go _ _

theorem core_go {name : String} {d : PDict} (h : Documented lib name d) : ∃ c, (readCore lib d).1 = .ok c := by
  obtain ⟨lp, hlp, hp⟩ := h.pulses
  obtain ⟨lr, hlr, hr⟩ := h.params
  obtain ⟨lt, hlt, ht⟩ := h.times
  obtain ⟨s, hs, hA⟩ := h.algorithm
  unfold readCore
  refine Lawful.go (T := settingsTab lib false) (Lawful.inItems rfl fun _ => Lawful.item rfl) (Agree.refl _ d)
    (inItems_go hlp fun p hpm => ?_) fun pn d1 h1 a1 => ?_
  · obtain ⟨n, hn⟩ := (hp p hpm).name
    exact item_go hn
  refine Lawful.go (Lawful.inItems rfl fun _ => Lawful.item rfl) a1 (inItems_go hlr fun p hpm => ?_) fun an d2 h2 a2 => ?_
  · obtain ⟨n, hn⟩ := (hr p hpm).name
    exact item_go hn
  refine Lawful.go (Lawful.inItems rfl fun _ => Lawful.item rfl) a2 (inItems_go hlt fun p hpm => ?_) fun tn d3 h3 a3 => ?_
  · obtain ⟨n, hn⟩ := (ht p hpm).name
    exact item_go hn
  refine Lawful.same (Lawful.inDict (T := settingsTab lib false) (d₀ := d) rfl (fun s hs => by lawful)) a3 (inDict_go hs ?_)
  refine Lawful.go (T := (settingsTab lib false).below "algorithm_settings") (Lawful.setdefault rfl) (Agree.refl _ s)
    (setdefault_go _ _ _) fun v4 d4 h4 a4 => ?_
  refine Lawful.go (Lawful.lift _) a4 ?_ fun v5 d5 h5 a5 => ?_
  · refine lift_go _ ?_
    obtain ⟨q, hq⟩ := number_go (v := 10 ^ 10) hA.budget
    rw [setdefault_ok h4, ← setting_one, hq]
    exact pyInt_go lib q
  refine Lawful.go (Lawful.setdefault rfl) a5 (setdefault_go _ _ _) fun v6 d6 h6 a6 => ?_
  refine Lawful.go (Lawful.setdefault rfl) a6 (setdefault_go _ _ _) fun v7 d7 h7 a7 => ?_
  refine Lawful.go (Lawful.lift _) a7 ?_ fun v8 d8 h8 a8 => ?_
  · refine lift_go _ ?_
    rw [setdefault_ok h7]
    rcases hd : s.get? "optimization_direction" with _ | w
    · exact ⟨false, by decide⟩
    · rcases hA.direction w hd with rfl | rfl
      · exact ⟨false, by decide⟩
      · exact ⟨true, by decide⟩
  refine Lawful.go (Lawful.setdefault rfl) a8 (setdefault_go _ _ _) fun v9 d9 h9 a9 => ?_
  refine Lawful.go (Lawful.lift _) a9 ?_ fun v10 d10 h10 a10 => pure_go _ _
  refine lift_go _ ?_
  rw [setdefault_ok h9]
  rcases hA.goal with hg | hg
  · rw [null_of hg]
    exact ⟨_, rfl⟩
  · rcases hd : s.get? "FoM_goal" with _ | w
    · exact ⟨_, rfl⟩
    · obtain ⟨q, rfl⟩ := hg w hd
      exact ⟨_, rfl⟩

/-- The seed. -/
theorem seed_go {name : String} {s : PDict} (h : DocAlgorithm name s) (alg : AlgName) (r : ℕ) :
    ∃ x, mkRng alg (seedOf (s.get? "random_number_generator")) r = .ok x := by
  rcases hd : s.get? "random_number_generator" with _ | w
  · cases alg <;> exact ⟨_, rfl⟩
  · obtain ⟨t, rfl, n, hn⟩ := h.seed w hd
    rw [seedOf_int hn]
    cases alg <;> exact ⟨_, rfl⟩

theorem reEval_go {s : PDict} (h : DocSearch s) : ∃ x, reEvalOf lib (s.get? "re_evaluation") = .ok x := by
  rcases hd : s.get? "re_evaluation" with _ | w
  · exact ⟨none, rfl⟩
  · obtain ⟨r, rfl, hr⟩ := h.reEval w hd
    unfold reEvalOf
    rcases he : r.get? "re_evaluation_steps" with _ | v
    · simp only [he]
      exact ⟨_, rfl⟩
    · obtain ⟨qs, rfl⟩ := hr v he
      simp only [he, floatArray, floatList_go]
      exact ⟨_, rfl⟩

/-- The dictionary `compensate_drift`. -/
theorem drift_dict {s : PDict} (h : DocSearch s) : ∃ c, (s.get? "compensate_drift").getD (.dict .nil) = .dict c ∧
    OptNumber c "compensate_after_minutes" ∧ OptWhole c "num_average" := by
  rcases hd : s.get? "compensate_drift" with _ | w
  · exact ⟨.nil, rfl, (fun v hv => by cases hv), fun v hv => by cases hv⟩
  · obtain ⟨r, rfl, hr⟩ := h.drift w hd
    exact ⟨r, rfl, hr⟩

theorem dcrab_go (hi : Installed lib) {d s : PDict} (h : Documented lib "dCRAB" d) (hs : d.get? "algorithm_settings" = some (.dict s))
    (hA : DocAlgorithm "dCRAB" s) (hc : (algOf lib s).bind algClass = some .dcrab) : ∃ x, (readDcrab lib d).1 = .ok x := by
  have hS := hA.search (.inl rfl)
  obtain ⟨ds, hds, ⟨g, hg, hM⟩, st, hst, hT⟩ := hS.dsm
  obtain ⟨cd, hcd, hn, hw⟩ := drift_dict hS
  unfold readDcrab
  refine Lawful.go (lawful_core lib (B := false) d) (Agree.refl _ d) (core_go h) fun core d1 h1 a1 => ?_
  refine Lawful.go (Lawful.inDict rfl fun _ _ => Lawful.setdefault rfl) a1 (inDict_go hs (setdefault_go _ _ _)) fun _ d2 h2 a2 => ?_
  refine Lawful.go (Lawful.inDict rfl fun _ _ => Lawful.inDict rfl fun _ _ => Lawful.inDict rfl fun _ _ => Lawful.fillDefault rfl) a2
    (inDict_go hs (inDict_go hds (inDict_go hst (fillDefault_go _ _ _)))) fun _ d3 h3 a3 => ?_
  refine Lawful.go (Lawful.inDict rfl fun _ _ => Lawful.inDict rfl fun _ _ => Lawful.inDict rfl fun _ _ => Lawful.fillDefault rfl) a3
    (inDict_go hs (inDict_go hds (inDict_go hst (fillDefault_go _ _ _)))) fun _ d4 h4 a4 => ?_
  refine Lawful.go (Lawful.inDict rfl fun _ _ => Lawful.inDict rfl fun _ _ => Lawful.inDict rfl fun _ _ => lawful_method lib _ _) a4
    (inDict_go hs (inDict_go hds (inDict_go hg (method_go hi _ hM)))) fun _ d5 h5 a5 => ?_
  refine Lawful.go (Lawful.inDict rfl fun _ _ => Lawful.inDict rfl fun _ _ => Lawful.inDict rfl fun _ _ => lawful_stopping lib _) a5
    (inDict_go hs (inDict_go hds (inDict_go hst (stopping_go lib _)))) fun _ d6 h6 a6 => ?_
  refine Lawful.go (Lawful.inDict rfl fun _ _ => Lawful.inDictDefault rfl fun _ _ => Lawful.pure _) a6
    (inDict_go hs (inDictDefault_go hcd (pure_go _ _))) fun _ d7 h7 a7 => ?_
  have hsi : ∃ q, s.get? "super_iteration_number" = some (.num q) := by
    have := hA.dcrab rfl
    rcases he : s.get? "super_iteration_number" with _ | v
    · exact absurd he this
    · obtain ⟨q, rfl⟩ := hA.superIterations v he
      exact ⟨q, rfl⟩
  obtain ⟨q, hq⟩ := hsi
  refine Lawful.go (Lawful.inDict rfl fun s' hs' => Lawful.item (by
    rw [hs] at hs'
    cases hs'
    show (if (algOf lib s).bind algClass = some .ad then _ else _) = _
    rw [hc, if_neg (by decide)])) a7 (inDict_go hs (item_go hq)) fun v d8 h8 a8 => ?_
  have h8 := item_ok (inDict_look hs h8)
  rw [hq] at h8
  cases h8
  refine Lawful.go (Lawful.lift _) a8 (pyInt_go lib q) fun _ d9 h9 a9 => ?_
  refine Lawful.go (by lawful) a9 (inDict_go hs (inDictDefault_go hcd ?_)) fun amn d10 h10 a10 => ?_
  · refine Lawful.go (T := ((settingsTab lib false).below "algorithm_settings").below "compensate_drift")
      (Lawful.setdefault rfl) (Agree.refl _ cd) (setdefault_go _ _ _) fun _ e1 _ b1 => ?_
    refine Lawful.go (Lawful.setdefault rfl) b1 (setdefault_go _ _ _) fun _ e2 _ b2 => ?_
    exact Lawful.go (Lawful.setdefault rfl) b2 (setdefault_go _ _ _) fun _ e3 _ b3 => pure_go _ _
  obtain ⟨after, minutes, average⟩ := amn
  obtain ⟨s', hs', h10⟩ := inDictDefault_ok (inDict_look hs h10)
  rw [hcd] at hs'
  cases hs'
  obtain ⟨_, e1, g1, b1, h10⟩ := Lawful.step (T := ((settingsTab lib false).below "algorithm_settings").below "compensate_drift")
    (Lawful.setdefault rfl) (Agree.refl _ cd) h10
  obtain ⟨_, e2, g2, b2, h10⟩ := Lawful.step (Lawful.setdefault rfl) b1 h10
  obtain ⟨_, e3, g3, b3, h10⟩ := Lawful.step (Lawful.setdefault rfl) b2 h10
  have h10 := pure_ok h10
  rw [Prod.mk.injEq, Prod.mk.injEq] at h10
  obtain ⟨i1, i2, i3⟩ := h10
  rw [setdefault_ok g2] at i2
  obtain ⟨q2, hq2⟩ := number_go (v := 0) hn
  rw [setting_one] at hq2
  rw [hq2] at i2
  subst i2
  refine Lawful.go (Lawful.lift _) a10 ⟨q2, rfl⟩ fun _ d11 h11 a11 => ?_
  refine Lawful.go (Lawful.inDict rfl fun _ _ => Lawful.getOpt rfl) a11 (inDict_go hs (getOpt_go _ _)) fun v d12 h12 a12 => ?_
  have h12 := getOpt_ok (inDict_look hs h12)
  subst h12
  refine Lawful.go (Lawful.lift _) a12 (reEval_go hS) fun _ d13 h13 a13 => ?_
  refine Lawful.go (Lawful.inDict rfl fun _ _ => Lawful.getOpt rfl) a13 (inDict_go hs (getOpt_go _ _)) fun v d14 h14 a14 => ?_
  have h14 := getOpt_ok (inDict_look hs h14)
  subst h14
  refine Lawful.go (Lawful.lift _) a14 (seed_go hA .dcrab lib.randint) fun _ d15 h15 a15 => ?_
  exact Lawful.go (lawful_controls lib d) a15 (controls_go hi h) fun _ d16 h16 a16 => pure_go _ _

theorem directSearch_go (hi : Installed lib) {d s : PDict} (h : Documented lib "DirectSearch" d)
    (hs : d.get? "algorithm_settings" = some (.dict s)) (hA : DocAlgorithm "DirectSearch" s) : ∃ x, (readDirectSearch lib d).1 = .ok x := by
  have hS := hA.search (.inr rfl)
  obtain ⟨ds, hds, ⟨g, hg, hM⟩, st, hst, hT⟩ := hS.dsm
  obtain ⟨cd, hcd, hn, hw⟩ := drift_dict hS
  unfold readDirectSearch
  refine Lawful.go (lawful_core lib (B := false) d) (Agree.refl _ d) (core_go h) fun core d1 h1 a1 => ?_
  refine Lawful.go (Lawful.inDict rfl fun _ _ => Lawful.setdefault rfl) a1 (inDict_go hs (setdefault_go _ _ _)) fun _ d2 h2 a2 => ?_
  refine Lawful.go (Lawful.inDict rfl fun _ _ => Lawful.inDict rfl fun _ _ => Lawful.inDict rfl fun _ _ => Lawful.fillDefault rfl) a2
    (inDict_go hs (inDict_go hds (inDict_go hst (fillDefault_go _ _ _)))) fun _ d3 h3 a3 => ?_
  refine Lawful.go (Lawful.inDict rfl fun _ _ => Lawful.inDict rfl fun _ _ => Lawful.inDict rfl fun _ _ => lawful_method lib _ _) a3
    (inDict_go hs (inDict_go hds (inDict_go hg (method_go hi _ hM)))) fun _ d5 h5 a5 => ?_
  refine Lawful.go (Lawful.inDict rfl fun _ _ => Lawful.inDict rfl fun _ _ => Lawful.inDict rfl fun _ _ => lawful_stopping lib _) a5
    (inDict_go hs (inDict_go hds (inDict_go hst (stopping_go lib _)))) fun _ d6 h6 a6 => ?_
  refine Lawful.go (by lawful) a6 (inDict_go hs (inDictDefault_go hcd ?_)) fun mn d10 h10 a10 => ?_
  · refine Lawful.go (T := ((settingsTab lib false).below "algorithm_settings").below "compensate_drift")
      (Lawful.setdefault rfl) (Agree.refl _ cd) (setdefault_go _ _ _) fun _ e1 _ b1 => ?_
    exact Lawful.go (Lawful.setdefault rfl) b1 (setdefault_go _ _ _) fun _ e2 _ b2 => pure_go _ _
  obtain ⟨minutes, average⟩ := mn
  refine Lawful.go (Lawful.inDict rfl fun _ _ => Lawful.getOpt rfl) a10 (inDict_go hs (getOpt_go _ _)) fun v d12 h12 a12 => ?_
  have h12 := getOpt_ok (inDict_look hs h12)
  subst h12
  refine Lawful.go (Lawful.lift _) a12 (reEval_go hS) fun _ d13 h13 a13 => ?_
  exact Lawful.go (lawful_controls lib d) a13 (controls_go hi h) fun _ d16 h16 a16 => pure_go _ _

/-- The dictionary `stopping_criteria` of the gradient algorithms. -/
theorem stopping_dict {name : String} {s : PDict} (h : DocAlgorithm name s) (hn : name = "GRAPE" ∨ name = "AD") :
    ∃ c, (s.get? "stopping_criteria").getD (.dict .nil) = .dict c := by
  rcases hd : s.get? "stopping_criteria" with _ | w
  · exact ⟨.nil, rfl⟩
  · obtain ⟨r, rfl, hr⟩ := h.gradient hn w hd
    exact ⟨r, rfl⟩

theorem grape_go (hi : Installed lib) {d s : PDict} (h : Documented lib "GRAPE" d)
    (hs : d.get? "algorithm_settings" = some (.dict s)) (hA : DocAlgorithm "GRAPE" s) : ∃ x, (readGrape lib d).1 = .ok x := by
  obtain ⟨st, hst⟩ := stopping_dict hA (.inl rfl)
  unfold readGrape
  refine Lawful.go (lawful_core lib (B := false) d) (Agree.refl _ d) (core_go h) fun core d1 h1 a1 => ?_
  refine Lawful.go (Lawful.setdefault rfl) a1 (setdefault_go _ _ _) fun _ d2 h2 a2 => ?_
  refine Lawful.go (Lawful.inDict rfl fun _ _ => Lawful.inDictDefault rfl fun _ _ => lawful_gradientStopping lib _) a2
    (inDict_go hs (inDictDefault_go hst (gradientStopping_go lib _))) fun _ d3 h3 a3 => ?_
  refine Lawful.go (Lawful.inDict rfl fun _ _ => Lawful.getOpt rfl) a3 (inDict_go hs (getOpt_go _ _)) fun v d4 h4 a4 => ?_
  have h4 := getOpt_ok (inDict_look hs h4)
  subst h4
  refine Lawful.go (Lawful.lift _) a4 (seed_go hA .grape lib.randint) fun _ d5 h5 a5 => ?_
  refine Lawful.go (lawful_controls lib d) a5 (controls_go hi h) fun ctl d6 h6 a6 => ?_
  have hU := (controls_use lib h6).pulses
  rw [if_neg]
  · exact pure_go _ _
  · intro he
    rw [List.isEmpty_iff] at he
    rw [he] at hU
    exact h.grape rfl (List.forall₂_nil_right_iff.1 hU)

theorem ad_go (hi : Installed lib) {d s : PDict} (h : Documented lib "AD" d)
    (hs : d.get? "algorithm_settings" = some (.dict s)) (hA : DocAlgorithm "AD" s)
    (hc : (algOf lib s).bind algClass = some .ad) : ∃ x, (readAD lib d).1 = .ok x := by
  obtain ⟨st, hst⟩ := stopping_dict hA (.inr rfl)
  unfold readAD
  refine Lawful.go (lawful_core lib (B := false) d) (Agree.refl _ d) (core_go h) fun core d1 h1 a1 => ?_
  refine Lawful.go (Lawful.setdefault rfl) a1 (setdefault_go _ _ _) fun _ d2 h2 a2 => ?_
  refine Lawful.go (Lawful.inDict rfl fun s' hs' => Lawful.setdefault (by
    rw [hs] at hs'
    cases hs'
    show (if (algOf lib s).bind algClass = some .ad then _ else _) = _
    rw [hc, if_pos rfl])) a2 (inDict_go hs (setdefault_go _ _ _)) fun v d8 h8 a8 => ?_
  have h8 := setdefault_ok (inDict_look hs h8)
  obtain ⟨q, hq⟩ := number_go (v := 1) hA.superIterations
  rw [setting_one] at hq
  rw [hq] at h8
  subst h8
  refine Lawful.go (Lawful.lift _) a8 (pyInt_go lib q) fun _ d9 h9 a9 => ?_
  refine Lawful.go (Lawful.inDict rfl fun _ _ => Lawful.inDictDefault rfl fun _ _ => lawful_gradientStopping lib _) a9
    (inDict_go hs (inDictDefault_go hst (gradientStopping_go lib _))) fun _ d3 h3 a3 => ?_
  refine Lawful.go (Lawful.inDict rfl fun _ _ => Lawful.getOpt rfl) a3 (inDict_go hs (getOpt_go _ _)) fun v d4 h4 a4 => ?_
  have h4 := getOpt_ok (inDict_look hs h4)
  subst h4
  refine Lawful.go (Lawful.lift _) a4 (seed_go hA .ad lib.randint) fun _ d5 h5 a5 => ?_
  exact Lawful.go (lawful_controls lib d) a5 (controls_go hi h) fun ctl d6 h6 a6 => pure_go _ _

theorem alg_class (hi : Installed lib) {name : String} {s : PDict} (h : DocAlgorithm name s) :
    algOf lib s = some ("quocslib.optimizationalgorithms." ++ name ++ "Algorithm", name ++ "Algorithm") := by
  have hk := h.known
  have hn : s.get? "algorithm_attribute" = none ∨ s.get? "algorithm_attribute" = some .null := h.chosen.1
  have he := hi.1 name hk
  have hna : (s.get? "algorithm_name").getD .null = .str name := some_of h.chosen.2
  unfold algOf
  rw [hna]
  unfold importClass dynamicImport importByName
  have hl : algorithmMap.lookup name = some ("quocslib.optimizationalgorithms." ++ name ++ "Algorithm", name ++ "Algorithm") := by
    simp only [List.mem_cons, List.not_mem_nil, or_false] at hk
    rcases hk with rfl | rfl | rfl | rfl <;> rfl
  have ht : typeMap (some "algorithm") = some algorithmMap := rfl
  rcases hn with hn | hn <;> rw [hn] <;> simp only [strOpt, ht, hl, he, if_true]

/-- A dictionary of the documented form is accepted. -/
theorem create_go (hi : Installed lib) {name : String} {d : PDict} (h : Documented lib name d) : ∃ c, (createOptimizer lib d).1 = .ok c := by
  obtain ⟨s, hs, hA⟩ := h.algorithm
  have hcl := alg_class hi hA
  have hs : d.get? "algorithm_settings" = some (.dict s) := hs
  unfold createOptimizer
  refine Lawful.go (T := settingsTab lib false) (Lawful.setdefault rfl) (Agree.refl _ d) (setdefault_go _ _ _) fun _ d1 h1 a1 => ?_
  refine Lawful.go (Lawful.setdefault rfl) a1 (setdefault_go _ _ _) fun _ d2 h2 a2 => ?_
  refine Lawful.go (Lawful.setdefault rfl) a2 (setdefault_go _ _ _) fun _ d3 h3 a3 => ?_
  refine Lawful.go (Lawful.setdefault rfl) a3 (setdefault_go _ _ _) fun _ d4 h4 a4 => ?_
  refine Lawful.go (Lawful.setdefault rfl) a4 (setdefault_go _ _ _) fun _ d5 h5 a5 => ?_
  refine Lawful.go (Lawful.inDict rfl fun _ _ => Lawful.setdefault rfl) a5 (inDict_go hs (setdefault_go _ _ _)) fun dir d6 h6 a6 => ?_
  refine Lawful.go (by unfold readClass; lawful) a6 (inDict_go hs ⟨_, readClass_result lib s⟩) fun cls d7 h7 a7 => ?_
  have h7 := inDict_look hs h7
  rw [readClass_result, hcl] at h7
  cases h7
  have hk := hA.known
  simp only [List.mem_cons, List.not_mem_nil, or_false] at hk
  rcases hk with rfl | rfl | rfl | rfl
  · have hb : (algOf lib s).bind algClass = some .dcrab := by rw [hcl]; decide
    have hal : readAlg lib (some ("quocslib.optimizationalgorithms." ++ "dCRAB" ++ "Algorithm", "dCRAB" ++ "Algorithm")) =
        (readDcrab lib >>= fun s => pure (.search s)) := by
      have hcc : algClass ("quocslib.optimizationalgorithms." ++ "dCRAB" ++ "Algorithm", "dCRAB" ++ "Algorithm") = some .dcrab := by decide
      simp only [readAlg, hcc]
    rw [hal]
    refine Lawful.go (Lawful.bind (lawful_dcrab lib hs hb) fun _ _ => Lawful.pure _) a7 ?_ fun _ _ _ _ => pure_go _ _
    exact Lawful.go (lawful_dcrab lib (B := false) hs hb) (Agree.refl _ d) (dcrab_go hi h hs hA hb) fun _ _ _ _ => pure_go _ _
  · have hal : readAlg lib (some ("quocslib.optimizationalgorithms." ++ "DirectSearch" ++ "Algorithm", "DirectSearch" ++ "Algorithm")) =
        (readDirectSearch lib >>= fun s => pure (.search s)) := by
      have hcc : algClass ("quocslib.optimizationalgorithms." ++ "DirectSearch" ++ "Algorithm", "DirectSearch" ++ "Algorithm") = some .directSearch := by decide
      simp only [readAlg, hcc]
    rw [hal]
    refine Lawful.go (Lawful.bind (lawful_directSearch lib d) fun _ _ => Lawful.pure _) a7 ?_ fun _ _ _ _ => pure_go _ _
    exact Lawful.go (lawful_directSearch lib (B := false) d) (Agree.refl _ d) (directSearch_go hi h hs hA) fun _ _ _ _ => pure_go _ _
  · have hal : readAlg lib (some ("quocslib.optimizationalgorithms." ++ "GRAPE" ++ "Algorithm", "GRAPE" ++ "Algorithm")) =
        (readGrape lib >>= fun s => pure (.grape s)) := by
      have hcc : algClass ("quocslib.optimizationalgorithms." ++ "GRAPE" ++ "Algorithm", "GRAPE" ++ "Algorithm") = some .grape := by decide
      simp only [readAlg, hcc]
    rw [hal]
    refine Lawful.go (Lawful.bind (lawful_grape lib d) fun _ _ => Lawful.pure _) a7 ?_ fun _ _ _ _ => pure_go _ _
    exact Lawful.go (lawful_grape lib (B := false) d) (Agree.refl _ d) (grape_go hi h hs hA) fun _ _ _ _ => pure_go _ _
  · have hb : (algOf lib s).bind algClass = some .ad := by rw [hcl]; decide
    have hal : readAlg lib (some ("quocslib.optimizationalgorithms." ++ "AD" ++ "Algorithm", "AD" ++ "Algorithm")) =
        (readAD lib >>= fun s => pure (.ad s)) := by
      have hcc : algClass ("quocslib.optimizationalgorithms." ++ "AD" ++ "Algorithm", "AD" ++ "Algorithm") = some .ad := by decide
      simp only [readAlg, hcc]
    rw [hal]
    refine Lawful.go (Lawful.bind (lawful_ad lib hs hb) fun _ _ => Lawful.pure _) a7 ?_ fun _ _ _ _ => pure_go _ _
    exact Lawful.go (lawful_ad lib (B := false) hs hb) (Agree.refl _ d) (ad_go hi h hs hA hb) fun _ _ _ _ => pure_go _ _

end
end QuOCS
