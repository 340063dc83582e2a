import Verif.Lemmas.SettingsRead
import Verif.Spec.Settings
import Verif.Props.Lookup
import Verif.Lemmas.Numpy

/-!
# The values of settings
-/

set_option linter.unusedSectionVars false
set_option linter.unusedVariables false

namespace QuOCS

theorem numOf_is {v : PVal} {q : ℚ} (h : numOf v = .ok q) : IsNumber v q := by
  unfold numOf at h
  split at h
  · exact .inl (by rw [Except.ok.inj h])
  · rename_i b
    have := Except.ok.inj h
    cases b
    · exact .inr (.inr ⟨rfl, by simpa using this.symm⟩)
    · exact .inr (.inl ⟨rfl, by simpa using this.symm⟩)
  · cases h

theorem IsNumber.num {a b : ℚ} (h : IsNumber (.num a) b) : b = a := by
  rcases h with h | ⟨h, _⟩ | ⟨h, _⟩
  · cases h; rfl
  · cases h
  · cases h

theorem IsNumber.unique {v : PVal} {a b : ℚ} (ha : IsNumber v a) (hb : IsNumber v b) : a = b := by
  rcases ha with rfl | ⟨rfl, rfl⟩ | ⟨rfl, rfl⟩ <;> rcases hb with h | ⟨h, h'⟩ | ⟨h, h'⟩ <;> cases h <;> first | rfl | exact h'.symm

theorem natNum {q : ℚ} (hd : q.den = 1) (hq : ¬ q < 0) : ((q.num.toNat : ℕ) : ℚ) = q := by
  have h1 : (q.num.toNat : ℤ) = q.num := Int.toNat_of_nonneg (Rat.num_nonneg.2 (not_lt.1 hq))
  have h2 : ((q.num : ℤ) : ℚ) = q := Rat.coe_int_num_of_den_eq_one hd
  calc ((q.num.toNat : ℕ) : ℚ) = ((q.num.toNat : ℤ) : ℚ) := by norm_cast
    _ = q := by rw [h1, h2]

theorem countOf_is {v : PVal} {n : ℕ} (h : countOf v = .ok n) : IsCount v n := by
  unfold countOf at h
  split at h
  · split at h
    · cases h
    · split at h
      · rename_i hq hd
        rw [← Except.ok.inj h]
        unfold IsCount
        rw [natNum hd hq]
      · cases h
  · cases h

theorem lengthOf_is {v : PVal} {n : ℕ} (h : lengthOf v = .ok n) : IsCount v n := by
  unfold lengthOf at h
  split at h
  · split at h
    · split at h
      · cases h
      · rename_i hd hq
        rw [← Except.ok.inj h]
        unfold IsCount
        rw [natNum hd hq]
    · cases h
  · cases h

theorem IsCount.num {q : ℚ} {n : ℕ} (h : IsCount (.num q) n) : q = n := by
  unfold IsCount at h
  cases h
  rfl

theorem pyInt_is {lib : PyLib} {v : PVal} {z : ℤ} (h : pyInt lib v = .ok z) : IsInt lib v z := by
  unfold pyInt at h
  split at h
  · rename_i q
    have h := Except.ok.inj h
    refine .inl ⟨q, rfl, ?_, ?_⟩
    · intro hq
      rw [if_pos hq] at h
      rw [← h]
      exact ⟨Int.floor_le q, Int.lt_floor_add_one q⟩
    · intro hq
      rw [← h]
      split
      · rename_i h0
        have : q = 0 := le_antisymm hq h0
        subst this
        simp
      · exact ⟨Int.le_ceil q, by linarith [Int.ceil_lt_add_one q]⟩
  · rename_i b
    have h := Except.ok.inj h
    cases b
    · exact .inr (.inr (.inl ⟨rfl, by simpa using h.symm⟩))
    · exact .inr (.inl ⟨rfl, by simpa using h.symm⟩)
  · rename_i s
    split at h
    · rename_i z' hz
      exact .inr (.inr (.inr ⟨s, rfl, by rw [hz, Except.ok.inj h]⟩))
    · cases h
  · cases h

/-- A whole number is itself as an integer. -/
theorem IsInt.int {lib : PyLib} {a z : ℤ} (h : IsInt lib (.num a) z) : z = a := by
  rcases h with ⟨q, h, h1, h2⟩ | ⟨h, _⟩ | ⟨h, _⟩ | ⟨s, h, _⟩
  · cases h
    rcases le_total (0 : ℚ) a with h0 | h0
    · obtain ⟨a1, a2⟩ := h1 h0
      have b1 : z ≤ a := by exact_mod_cast a1
      have b2 : a < z + 1 := by exact_mod_cast a2
      omega
    · obtain ⟨a1, a2⟩ := h2 h0
      have b1 : a ≤ z := by exact_mod_cast a1
      have b2 : z - 1 < a := by exact_mod_cast a2
      omega
  · cases h
  · cases h
  · cases h

theorem truthy_false_iff (v : PVal) : truthy v = false ↔ IsFalse v := by
  unfold truthy IsFalse
  split <;> simp_all

theorem truthy_iff (v : PVal) : truthy v = true ↔ ¬ IsFalse v := by
  rw [← truthy_false_iff, Bool.not_eq_false]

theorem floatList_is {lib : PyLib} : ∀ {l : PList} {qs : List ℚ}, floatList lib l = .ok qs → ItemsAre lib l qs
  | .nil, qs, h => by
    rw [← Except.ok.inj (show Except.ok [] = Except.ok qs from h)]
    exact .nil
  | .cons v l, qs, h => by
    unfold floatList at h
    dsimp only at h
    have key : ∀ {m : Py ℚ}, (m >>= fun x => floatList lib l >>= fun xs => pure (x :: xs)) = .ok qs →
        ∃ x xs, m = .ok x ∧ floatList lib l = .ok xs ∧ qs = x :: xs := by
      intro m hm
      obtain ⟨x, hx, hm⟩ := py_bind_ok.1 hm
      obtain ⟨xs, hxs, hm⟩ := py_bind_ok.1 hm
      exact ⟨x, xs, hx, hxs, (Except.ok.inj (show Except.ok (x :: xs) = Except.ok qs from hm)).symm⟩
    split at h
    · obtain ⟨x, xs, hx, hxs, rfl⟩ := key h
      exact .num _ _ _ _ (.inl (by rw [Except.ok.inj hx])) (floatList_is hxs)
    · rename_i b
      obtain ⟨x, xs, hx, hxs, rfl⟩ := key h
      have := Except.ok.inj hx
      refine .num _ _ _ _ ?_ (floatList_is hxs)
      cases b
      · exact .inr (.inr ⟨rfl, by simpa using this.symm⟩)
      · exact .inr (.inl ⟨rfl, by simpa using this.symm⟩)
    · split at h
      · rename_i s q hq
        obtain ⟨x, xs, hx, hxs, rfl⟩ := key h
        exact .str _ _ _ _ (by rw [hq, Except.ok.inj hx]) (floatList_is hxs)
      · obtain ⟨x, xs, hx, hxs, rfl⟩ := key h
        cases hx
    · obtain ⟨x, xs, hx, hxs, rfl⟩ := key h
      cases hx
    · obtain ⟨x, xs, hx, hxs, rfl⟩ := key h
      cases hx

theorem floatArray_is {lib : PyLib} {v : PVal} {qs : List ℚ} (h : floatArray lib v = .ok qs) : IsArray lib v qs := by
  unfold floatArray at h
  split at h
  · exact ⟨_, .inl rfl, floatList_is h⟩
  · exact ⟨_, .inr rfl, floatList_is h⟩
  · cases h
  · cases h
  · split at h <;> cases h
  · cases h
  · cases h

theorem valuesOf_is {lib : PyLib} {v : PVal} {qs : List ℚ} (h : valuesOf lib v = .ok qs) :
    IsArray lib v qs ∨ ∃ q, v = .num q ∧ qs = [q] := by
  unfold valuesOf at h
  split at h
  · exact .inl ⟨_, .inl rfl, floatList_is h⟩
  · exact .inl ⟨_, .inr rfl, floatList_is h⟩
  · exact .inr ⟨_, rfl, (Except.ok.inj h).symm⟩
  · cases h

theorem nameList_is : ∀ {l : PList} {ns : List String}, nameList l = .ok ns → l = strList ns
  | .nil, ns, h => by
    rw [← Except.ok.inj (show Except.ok [] = Except.ok ns from h)]
    rfl
  | .cons v l, ns, h => by
    unfold nameList at h
    obtain ⟨x, hx, h⟩ := py_bind_ok.1 h
    obtain ⟨xs, hxs, h⟩ := py_bind_ok.1 h
    rw [← Except.ok.inj (show Except.ok (x :: xs) = Except.ok ns from h), nameList_is hxs]
    unfold nameOf at hx
    split at hx
    · rw [Except.ok.inj hx]
      rfl
    · cases hx

theorem map_ok {α β : Type} {f : α → β} {m : Py α} {b : β} (h : m.map f = .ok b) : ∃ a, m = .ok a ∧ b = f a := by
  cases m with
  | error e => cases h
  | ok a => exact ⟨a, rfl, (Except.ok.inj h).symm⟩

theorem shapingOf_is {v : Option PVal} {x : Option (List String)} (h : shapingOf v = .ok x) :
    NoEntry v ∧ x = none ∨ ∃ names, v = some (.list (strList names)) ∧ x = some names := by
  unfold shapingOf at h
  split at h
  · exact .inl ⟨.inl rfl, (Except.ok.inj h).symm⟩
  · exact .inl ⟨.inr rfl, (Except.ok.inj h).symm⟩
  · obtain ⟨ns, hn, hx⟩ := map_ok h
    exact .inr ⟨ns, by rw [nameList_is hn], hx⟩
  · cases h

theorem reEvalOf_is {lib : PyLib} {v : Option PVal} {x : Option (List ℚ)} (h : reEvalOf lib v = .ok x) : UsesReEval lib v x := by
  unfold reEvalOf at h
  split at h
  · exact .inl ⟨rfl, (Except.ok.inj h).symm⟩
  · rename_i r
    refine .inr ⟨r, rfl, ?_⟩
    split at h
    · rename_i v hv
      obtain ⟨qs, hq, hx⟩ := map_ok h
      exact .inr ⟨v, qs, hv, floatArray_is hq, hx⟩
    · rename_i hv
      exact .inl ⟨hv, (Except.ok.inj h).symm⟩
  · cases h

theorem seedOf_int {r : PDict} {n : ℕ} (h : entry r ["seed_number"] = some (.num n)) : seedOf (some (.dict r)) = .int n := by
  have h : r.get? "seed_number" = some (.num n) := h
  unfold seedOf
  simp only [h]
  simp

theorem mkRng_int {alg : AlgName} {n r : ℕ} {x : RngObj} (ha : alg ≠ .directSearch) (h : mkRng alg (.int n) r = .ok x) :
    x = .seeded n := by
  have hg : mkGenerator (.int n) = .ok (.seeded n) := by
    simp [mkGenerator]
  cases alg
  · exact (show RngObj.seeded n = x by simpa [mkRng, hg] using h).symm
  · exact absurd rfl ha
  · exact (show RngObj.seeded n = x by simpa [mkRng, hg] using h).symm
  · exact (show RngObj.seeded n = x by simpa [mkRng, hg] using h).symm

theorem seed_is {alg : AlgName} {r : ℕ} {x : RngObj} {v : Option PVal} (ha : alg ≠ .directSearch)
    (h : mkRng alg (seedOf v) r = .ok x) : UsesSeed v x := by
  intro d n hv hn
  subst hv
  rw [seedOf_int hn] at h
  exact mkRng_int ha h

theorem chosen_is (lib : PyLib) (type : String) (at_ m c n : Option PVal) :
    importClass lib at_ m c n type = chosen lib type at_ m c n := by
  unfold importClass chosen
  rw [C52_precedence_partial _ _ (.inr (by simp))]
  have hs : ∀ v, strOpt v = text v := by
    intro v
    rcases v with _ | v
    · rfl
    · cases v <;> rfl
  rw [hs, hs, hs]
  rcases at_ with _ | v
  · rfl
  · cases v <;> rfl

theorem chosen_none (lib : PyLib) (type : String) (at_ m c n : Option PVal) :
    chosen lib type (some (at_.getD .null)) (some (m.getD .null)) (some (c.getD .null)) (some (n.getD .null)) =
    chosen lib type at_ m c n := by
  have ht : ∀ v : Option PVal, text (some (v.getD .null)) = text v := by
    intro v
    cases v <;> rfl
  unfold chosen
  rw [ht, ht, ht]
  cases at_ <;> rfl

theorem strOpt_some {v : PVal} {s : String} : strOpt (some v) = some s ↔ v = .str s := by
  unfold strOpt
  constructor
  · intro h
    split at h
    · rename_i heq
      rw [Option.some.inj heq, Option.some.inj h]
    · cases h
  · rintro rfl
    rfl

theorem fnSource_is {s : PDict} {src : FnSource} (h : (readFnSource s).1 = .ok src) :
    ∃ t, entry s ["function_type"] = some t ∧
      (t = .str "lambda_function" ∧ (∃ v, entry s ["lambda_function"] = some v ∧ src = .lambda v) ∨
       t = .str "list_function" ∧ (∃ v, entry s ["list_function"] = some v ∧ src = .list v) ∨
       t = .str "python_file" ∧ src = .file (setting s ["file_path"] (.str "")) (setting s ["function_name"] (.str ""))
          (setting s ["path_mode"] (.str "relative")) ∨
       t ∉ ({.str "lambda_function", .str "list_function", .str "python_file"} : Set PVal) ∧ src = .default) := by
  have hitem : ∀ {α : Type} {k : String} {f : PVal → Prog PDict α} {a : α}, ((item k >>= f) s).1 = .ok a →
      ∃ v, entry s [k] = some v ∧ (f v s).1 = .ok a := by
    intro α k f a h
    rw [prog_bind] at h
    rcases hd : s.get? k with _ | w
    · simp [item, hd] at h
    · simp only [item, hd] at h
      exact ⟨w, hd, h⟩
  have hset : ∀ (s : PDict) (k : String) (v : PVal), ∃ s', setdefault k v s = (.ok ((s.get? k).getD v), s') ∧
      ∀ j, j ≠ k → s'.get? j = s.get? j := by
    intro s k v
    unfold setdefault
    rcases hk : s.get? k with _ | w
    · exact ⟨_, rfl, fun j hj => by rw [get?_insert, if_neg hj]⟩
    · exact ⟨_, rfl, fun _ _ => rfl⟩
  unfold readFnSource at h
  obtain ⟨t, ht, h⟩ := hitem h
  refine ⟨t, ht, ?_⟩
  by_cases h1 : strOpt (some t) = some "lambda_function"
  · rw [if_pos h1] at h
    obtain ⟨v, hv, h⟩ := hitem h
    exact .inl ⟨strOpt_some.1 h1, v, hv, (Except.ok.inj h).symm⟩
  rw [if_neg h1] at h
  by_cases h2 : strOpt (some t) = some "list_function"
  · rw [if_pos h2] at h
    obtain ⟨v, hv, h⟩ := hitem h
    exact .inr (.inl ⟨strOpt_some.1 h2, v, hv, (Except.ok.inj h).symm⟩)
  rw [if_neg h2] at h
  by_cases h3 : strOpt (some t) = some "python_file"
  · rw [if_pos h3] at h
    refine .inr (.inr (.inl ⟨strOpt_some.1 h3, ?_⟩))
    obtain ⟨s1, e1, g1⟩ := hset s "file_path" (.str "")
    obtain ⟨s2, e2, g2⟩ := hset s1 "function_name" (.str "")
    obtain ⟨s3, e3, g3⟩ := hset s2 "path_mode" (.str "relative")
    rw [prog_bind, e1] at h
    dsimp only at h
    rw [prog_bind, e2] at h
    dsimp only at h
    rw [prog_bind, e3] at h
    rw [← Except.ok.inj h, g1 _ (by decide), g2 _ (by decide), g1 _ (by decide)]
    rfl
  rw [if_neg h3] at h
  refine .inr (.inr (.inr ⟨?_, (Except.ok.inj h).symm⟩))
  rw [strOpt_some] at h1 h2 h3
  rintro (h | h | h)
  · exact h1 h
  · exact h2 h
  · exact h3 h

theorem fn_is {A : Type} {lib : PyLib} {default : A → Prop} {array : List ℚ → A} {eval : String → Py A}
    {file : PVal → PVal → PVal → Py A} {of : FnSource → Py A} {k : String} {d : PDict} {src : FnSource} {f : A}
    (h1 : ∀ v f, of (.lambda v) = .ok f → ∃ s, v = .str s ∧ eval s = .ok f)
    (h2 : ∀ v, of (.list v) = (valuesOf lib v).map array) (h3 : ∀ p n m, of (.file p n m) = file p n m)
    (h4 : ∀ f, of .default = .ok f → default f) (hr : (readFn k d).1 = .ok src) (hf : of src = .ok f) :
    UsesFn lib default array eval file (entry d [k]) f := by
  unfold readFn at hr
  rw [prog_bind] at hr
  have he : entry d [k] = d.get? k := rfl
  rw [he]
  rcases hd : d.get? k with _ | w
  · simp only [isNone, hd, if_true] at hr
    rw [← Except.ok.inj hr] at hf
    exact .inl ⟨.inl rfl, h4 f hf⟩
  · by_cases hn : w = .null
    · subst hn
      simp only [isNone, hd, if_true] at hr
      rw [← Except.ok.inj hr] at hf
      exact .inl ⟨.inr rfl, h4 f hf⟩
    · have hb : (isNone k d) = (.ok false, d) := by
        unfold isNone
        rw [hd]
        rcases w with a | _ | _ | _ | _ | _ | _ <;> first | rfl | (cases a <;> first | rfl | exact absurd rfl hn)
      rw [hb] at hr
      simp only [Bool.false_eq_true, if_false] at hr
      obtain ⟨s, hs, hr⟩ := inDict_ok hr
      obtain ⟨t, ht, h⟩ := fnSource_is hr
      rw [hd] at hs
      refine .inr ⟨s, t, hs, ht, ?_⟩
      rcases h with ⟨a, v, hv, rfl⟩ | ⟨a, v, hv, rfl⟩ | ⟨a, rfl⟩ | ⟨a, rfl⟩
      · obtain ⟨x, rfl, hx⟩ := h1 _ _ hf
        exact .inl ⟨a, x, hv, hx⟩
      · rw [h2] at hf
        obtain ⟨qs, hq, hx⟩ := map_ok hf
        exact .inr (.inl ⟨a, v, qs, hv, valuesOf_is hq, hx⟩)
      · rw [h3] at hf
        exact .inr (.inr (.inl ⟨a, hf⟩))
      · exact .inr (.inr (.inr ⟨a, h4 f hf⟩))

theorem guess_is {lib : PyLib} {d : PDict} {src : FnSource} {f : Sampler ℚ} (hr : (readFn "initial_guess" d).1 = .ok src)
    (hf : guessOf lib src = .ok f) :
    UsesFn lib (fun g => ∃ f, g = .callable f ∧ ∀ t, f t = t.map fun _ => 0) .array lib.evalGuess lib.guessFile
      (entry d ["initial_guess"]) f := by
  refine fn_is (of := guessOf lib) ?_ (fun _ => rfl) (fun _ _ _ => rfl) ?_ hr hf
  · intro v f h
    unfold guessOf at h
    split at h
    · rename_i heq
      cases heq
      exact ⟨_, rfl, h⟩
    · cases h
    · rename_i heq; cases heq
    · rename_i heq; cases heq
    · rename_i heq; cases heq
  · intro f h
    exact ⟨_, (Except.ok.inj h).symm, fun t => by simp⟩

theorem scaling_is {lib : PyLib} {d : PDict} {src : FnSource} {f : Scaling ℚ} (hr : (readFn "scaling_function" d).1 = .ok src)
    (hf : scalingOf lib src = .ok f) :
    UsesFn lib (fun g => ∃ f, g = .callable f ∧ ∀ t, f t = t.map fun _ => 1) .array lib.evalScaling lib.scalingFile
      (entry d ["scaling_function"]) f := by
  refine fn_is (of := scalingOf lib) ?_ (fun _ => rfl) (fun _ _ _ => rfl) ?_ hr hf
  · intro v f h
    unfold scalingOf at h
    split at h
    · rename_i heq
      cases heq
      exact ⟨_, rfl, h⟩
    · cases h
    · rename_i heq; cases heq
    · rename_i heq; cases heq
    · rename_i heq; cases heq
  · intro f h
    exact ⟨_, (Except.ok.inj h).symm, fun t => by simp⟩

end QuOCS
