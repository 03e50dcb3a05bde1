import Verif.Props.Config
import Verif.Spec.Defaults

set_option autoImplicit false
set_option linter.unusedSectionVars false

/-! # Properties of the configuration: C162 (defaults may be stated) and C163 (misspelt keys) -/

namespace Verif.Props
open Verif Verif.Model Verif.Spec Fl

variable {K : Type} [Field K] [LinearOrder K] [IsStrictOrderedRing K]

theorem specOf_self : ∀ e ∈ configspec, specOf e.1 e.2.1 = some e.2.2 := by decide +kernel

theorem spec_intOk : ∀ e ∈ configspec, (match e.2.2 with | .integer (some m) (some (some n)) => decide (m ≤ n) | _ => true) = true := by decide +kernel

theorem states_run {s k : String} {c : Check} (hc : specOf s k = some c) {r : Raw K} (h : StatesDefault r c) : c.ofRaw r = (c.dflt : Option (Val K)) := by
  have h1 := spec_dfltOk _ (specOf_mem hc)
  have h2 := spec_intOk _ (specOf_mem hc)
  simp only at h1 h2
  cases c with
  | string d =>
    match d, h with
    | some (some t), h =>
      simp only [StatesDefault] at h
      simp only [Check.ofRaw, Check.dflt, h, Option.map_some, Option.getD_some]
  | float mn mx d =>
    match d, h with
    | some (some q), h =>
      simp only [StatesDefault] at h
      simp only [Check.ofRaw, Check.dflt, h, Option.map_some, Option.getD_some, Option.bind_some]
      have hb : inBounds mn mx (.fin (q : K)) = true := by
        rw [inBounds_iff]
        simp only [Check.dfltOk] at h1
        constructor
        · intro m hm
          rw [Option.mem_def] at hm
          subst hm
          simp at h1
          exact_mod_cast h1.1
        · intro m hm
          rw [Option.mem_def] at hm
          subst hm
          simp at h1
          exact_mod_cast h1.2
      rw [if_pos hb]
      rfl
  | integer mn d =>
    match d, h with
    | some (some n), h =>
      simp only [StatesDefault] at h
      simp only [Check.ofRaw, Check.dflt, h, Option.map_some, Option.getD_some, Option.bind_some]
      cases mn with
      | none => simp
      | some m =>
        simp only [decide_eq_true_eq] at h2
        simp only [Option.any_some, decide_eq_true_eq]
        rw [if_neg (not_lt.mpr h2)]
  | boolean d =>
    match d, h with
    | some (some b), h =>
      simp only [StatesDefault] at h
      simp only [Check.ofRaw, Check.dflt, h, Option.map_some, Option.getD_some]

/-- Two files on which all checks give the same are the same configuration. -/
theorem validate_congr {f g : String → String → Option (Raw K)} (h : ∀ s k c, specOf s k = some c → c.run (f s k) = c.run (g s k)) : validate f = validate g := by
  have e1 : (configspec.all fun e => (e.2.2.run (f e.1 e.2.1)).isSome) = configspec.all fun e => (e.2.2.run (g e.1 e.2.1)).isSome := by
    rw [Bool.eq_iff_iff, List.all_eq_true, List.all_eq_true]
    constructor
    · intro hh e he
      rw [← h _ _ _ (specOf_self e he)]
      exact hh e he
    · intro hh e he
      rw [h _ _ _ (specOf_self e he)]
      exact hh e he
  have e2 : (fun s k => ((specOf s k).bind fun c => c.run (f s k)).getD .none) = (fun s k => ((specOf s k).bind fun c => c.run (g s k)).getD (.none : Val K)) := by
    funext s k
    cases hs : specOf s k with
    | none => rfl
    | some c => simp only [Option.bind_some, h s k c hs]
  unfold validate
  rw [e1, e2]

/-- C162, partial: a default that is a number, a truth value or a text may be stated in the file: configuration and errors are the same.
Missing: defaults None, for which it is false. -/
theorem C162_partial (file : String → String → Option (Raw K)) (s k : String) (c : Check) (r : Raw K) (hc : specOf s k = some c) (hr : StatesDefault r c)
    (hmiss : file s k = none) : validate (setKey file s k (some r)) = validate file := by
  refine validate_congr fun s' k' c' hs => ?_
  unfold setKey
  by_cases hh : s' = s ∧ k' = k
  · obtain ⟨rfl, rfl⟩ := hh
    rw [hc] at hs
    cases hs
    rw [if_pos ⟨rfl, rfl⟩, hmiss]
    exact states_run hc hr
  · rw [if_neg hh]

/-- The hypotheses of C162: ShorelineErosionRate is not in the example configuration, its default is 0. -/
example : specOf "PhysicalParameters" "ShorelineErosionRate" = some (.float none none (some (some 0))) ∧ StatesDefault (rNum 0) (.float none none (some (some 0))) ∧
    simpleFile "PhysicalParameters" "ShorelineErosionRate" = none := by
  refine ⟨by decide +kernel, ?_, by decide +kernel⟩
  simp [StatesDefault, rNum]

/-- C162 is false of the code for every default None: stating it as None is never the same as leaving the key out. Numbers are refused, and a text is taken for a name. -/
theorem C162_refuted (file : String → String → Option (Raw K)) (s k : String) (c : Check) (v : Conf K) (hc : specOf s k = some c) (hn : NoneDefault c) (hmiss : file s k = none)
    (hv : validate file = .ok v) : v s k = .none ∧ validate (setKey file s k (some rNone)) ≠ .ok v := by
  have h1 := validate_get hv hc
  rw [hmiss] at h1
  have hnone : v s k = .none := by
    simp only [Check.run] at h1
    cases c with
    | string d => match d, hn with
      | some none, _ => simpa [Check.dflt] using h1.symm
    | float mn mx d => match d, hn with
      | some none, _ => simpa [Check.dflt] using h1.symm
    | integer mn d => match d, hn with
      | some none, _ => simpa [Check.dflt] using h1.symm
    | boolean d => match d, hn with
      | some none, _ => simpa [Check.dflt] using h1.symm
  refine ⟨hnone, fun hh => ?_⟩
  have h2 := validate_get hh hc
  unfold setKey at h2
  rw [if_pos ⟨rfl, rfl⟩, hnone] at h2
  simp only [Check.run] at h2
  cases c <;> simp [Check.ofRaw, rNone] at h2

/-- In the example configuration the straight coast is chosen by leaving Shoreline out. With `Shoreline = None` the model looks for shapefiles instead, and stops. -/
theorem C162_refuted_shoreline : ∃ v, validate (setKey simpleFile "SpatialInputs" "Shoreline" (some rNone)) = .ok v ∧ shoreSource v = .error (.py .type) ∧
    ∃ v' ld, validate simpleFile = .ok v' ∧ shoreSource v' = .ok ld := by
  have h1 : okAnd (validate (setKey simpleFile "SpatialInputs" "Shoreline" (some rNone))) (fun v => decide (shoreSource v = .error (.py .type))) = true := by decide +kernel
  have h2 : okAnd (validate simpleFile) (fun v => okAnd (shoreSource v) fun _ => true) = true := by decide +kernel
  obtain ⟨v, hv, hp⟩ := okAnd_iff.mp h1
  obtain ⟨v', hv', hp'⟩ := okAnd_iff.mp h2
  obtain ⟨ld, hl, _⟩ := okAnd_iff.mp hp'
  exact ⟨v, hv, of_decide_eq_true hp, v', ld, hv', hl⟩

/-! ## C163 -/

/-- The file with the key spelt differently. -/
def respell {α : Type} (file : String → String → Option α) (s k k' : String) : String → String → Option α :=
  setKey (setKey file s k none) s k' (file s k)

/-- What a misspelling comes to: the key has been left out. -/
theorem respell_eq (file : String → String → Option (Raw K)) (s k k' : String) (hk : specOf s k' = none) : validate (respell file s k k') = validate (setKey file s k none) := by
  refine validate_congr fun s' x c hs => ?_
  unfold respell
  conv_lhs => unfold setKey
  by_cases hh : s' = s ∧ x = k'
  · obtain ⟨rfl, rfl⟩ := hh
    rw [hk] at hs
    cases hs
  · rw [if_neg hh]
    rfl

/-- C163, partial: a misspelt key that has no default is reported, whatever else is in the file.
Missing: keys with a default, for which it is false. -/
theorem C163_partial (file : String → String → Option (Raw K)) (s k k' : String) (c : Check) (hc : specOf s k = some c) (hq : Required c) (hk : specOf s k' = none) :
    validate (respell file s k k') = .error .config := by
  rw [respell_eq file s k k' hk]
  unfold validate
  rw [if_neg]
  intro hh
  rw [List.all_eq_true] at hh
  have := hh _ (specOf_mem hc)
  simp only [setKey, and_self, if_true] at this
  cases c with
  | string d => match d, hq with
    | none, _ => simp [Check.run, Check.dflt] at this
  | float mn mx d => match d, hq with
    | none, _ => simp [Check.run, Check.dflt] at this
  | integer mn d => match d, hq with
    | none, _ => simp [Check.run, Check.dflt] at this
  | boolean d => match d, hq with
    | none, _ => simp [Check.run, Check.dflt] at this

/-- The hypotheses of C163. -/
example : specOf "PhysicalParameters" "RiverWidth" = some (fmin 0) ∧ Required (fmin 0) ∧ specOf "PhysicalParameters" "RiverWith" = none := by
  refine ⟨by decide +kernel, ?_, by decide +kernel⟩
  simp [Required, fmin]

/-- C163 is false of the code for every key with a default: a file accepted by the model is still accepted when the key is misspelt, and the default is used in place of
the value in the file. -/
theorem C163_refuted (file : String → String → Option (Raw K)) (s k k' : String) (c : Check) (v : Conf K) (hc : specOf s k = some c) (hq : ¬ Required c) (hk : specOf s k' = none)
    (hv : validate file = .ok v) : ∃ v', validate (respell file s k k') = .ok v' ∧ c.dflt = some (v' s k) ∧ ∀ s' x, ¬ (s' = s ∧ x = k) → v' s' x = v s' x := by
  rw [respell_eq file s k k' hk]
  have hd : ∃ d : Val K, c.dflt = some d := by
    cases c with
    | string d => cases d with
      | none => exact absurd trivial hq
      | some t => exact ⟨_, rfl⟩
    | float mn mx d => cases d with
      | none => exact absurd trivial hq
      | some t => exact ⟨_, rfl⟩
    | integer mn d => cases d with
      | none => exact absurd trivial hq
      | some t => exact ⟨_, rfl⟩
    | boolean d => cases d with
      | none => exact absurd trivial hq
      | some t => exact ⟨_, rfl⟩
  obtain ⟨d, hd⟩ := hd
  have hall : (configspec.all fun e => (e.2.2.run (setKey file s k none e.1 e.2.1)).isSome) = true := by
    rw [List.all_eq_true]
    intro e he
    have hs := specOf_self e he
    unfold setKey
    by_cases hh : e.1 = s ∧ e.2.1 = k
    · rw [if_pos hh]
      rw [hh.1, hh.2, hc] at hs
      rw [← Option.some.inj hs]
      show (c.dflt : Option (Val K)).isSome = true
      rw [hd]
      rfl
    · rw [if_neg hh, validate_get hv hs]
      rfl
  have hv' : validate (setKey file s k none) = .ok fun s' x => ((specOf s' x).bind fun c => c.run (setKey file s k none s' x)).getD .none := by
    unfold validate
    rw [if_pos hall]
  refine ⟨_, hv', ?_, ?_⟩
  · simp only [hc, Option.bind_some, setKey, and_self, if_true, Check.run, hd, Option.getD_some]
  · intro s' x hx
    have hvv := hv
    unfold validate at hvv
    split at hvv
    · rw [← Except.ok.inj hvv]
      simp only [setKey, if_neg hx]
    · cases hvv

/-- In the example configuration the seepage through the barrier is lost when BarrierPermeability is misspelt: the run goes on with a tight barrier. -/
theorem C163_refuted_example : ∃ v', validate (respell simpleFile "PhysicalParameters" "BarrierPermeability" "BarierPermeability") = .ok v' ∧
    v' "PhysicalParameters" "BarrierPermeability" = .flt (fin 0) ∧ ∃ v, validate simpleFile = .ok v ∧ v "PhysicalParameters" "BarrierPermeability" = .flt (fin (1/1000)) := by
  have h1 : okAnd (validate (respell simpleFile "PhysicalParameters" "BarrierPermeability" "BarierPermeability"))
      (fun v => decide (v "PhysicalParameters" "BarrierPermeability" = .flt (fin 0))) = true := by decide +kernel
  have h2 : okAnd (validate simpleFile) (fun v => decide (v "PhysicalParameters" "BarrierPermeability" = .flt (fin (1/1000)))) = true := by decide +kernel
  obtain ⟨v, hv, hp⟩ := okAnd_iff.mp h1
  obtain ⟨v', hv', hp'⟩ := okAnd_iff.mp h2
  exact ⟨v, hv, of_decide_eq_true hp, v', hv', of_decide_eq_true hp'⟩

end Verif.Props
