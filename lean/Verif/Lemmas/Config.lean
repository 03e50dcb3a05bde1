import Verif.Model.Config
import Verif.Lemmas.Py
import Mathlib.Tactic.Linarith

set_option autoImplicit false
set_option linter.unusedSectionVars false

/-! # Lemmas about the configuration model -/

namespace Verif.Model
open Verif Fl

variable {K : Type} [Field K] [LinearOrder K] [IsStrictOrderedRing K]

/-- A default within the bounds. -/
def Check.dfltOk : Check → Bool
  | .float mn mx (some (some q)) => !(mn.any fun m => decide (q < m)) && !(mx.any fun m => decide (m < q))
  | _ => true

theorem spec_dfltOk : ∀ e ∈ configspec, e.2.2.dfltOk = true := by decide +kernel

theorem specOf_mem {s k : String} {c : Check} (h : specOf s k = some c) : (s, k, c) ∈ configspec := by
  unfold specOf at h
  rcases hf : configspec.find? (fun e => e.1 == s && e.2.1 == k) with _ | e
  · rw [hf] at h; cases h
  · rw [hf] at h
    simp only [Option.map_some, Option.some.injEq] at h
    have h1 := List.find?_some hf
    have h2 := List.mem_of_find?_eq_some hf
    simp only [Bool.and_eq_true, beq_iff_eq] at h1
    obtain ⟨a, b, c'⟩ := e
    obtain ⟨rfl, rfl⟩ := h1
    subst h
    exact h2

theorem validate_get {file : String → String → Option (Raw K)} {v : Conf K} (h : validate file = .ok v) {s k : String} {c : Check}
    (hs : specOf s k = some c) : c.run (file s k) = some (v s k) := by
  unfold validate at h
  split at h
  · rename_i ha
    have hv := Except.ok.inj h
    rw [List.all_eq_true] at ha
    have h1 := ha _ (specOf_mem hs)
    obtain ⟨x, hx⟩ := Option.isSome_iff_exists.mp h1
    rw [← hv]
    simp only [hs, Option.bind_some]
    rw [hx]; rfl
  · cases h

theorem inBounds_iff {mn mx : Option ℚ} {x : K} :
    inBounds mn mx (fin x) = true ↔ (∀ m ∈ mn, (m : K) ≤ x) ∧ ∀ m ∈ mx, x ≤ (m : K) := by
  unfold inBounds
  rcases mn with _ | m <;> rcases mx with _ | m' <;> simp

theorem inBounds_nan (mn mx : Option ℚ) : inBounds mn mx (nan : Fl K) = true := by
  unfold inBounds
  rcases mn with _ | m <;> rcases mx with _ | m' <;> simp [Fl.blt]

theorem float_get {file : String → String → Option (Raw K)} {v : Conf K} (h : validate file = .ok v) {s k : String} {mn mx : Option ℚ}
    {d : Option (Option ℚ)} (hs : specOf s k = some (.float mn mx d)) :
    (v s k = .none ∧ file s k = none ∧ d = some none) ∨ ∃ x, v s k = .flt x ∧ inBounds mn mx x = true := by
  have hg := validate_get h hs
  have hd := spec_dfltOk _ (specOf_mem hs)
  unfold Check.run at hg
  rcases hf : file s k with _ | r
  · rw [hf] at hg
    simp only [Check.dflt] at hg
    rcases d with _ | _ | q
    · cases hg
    · left
      simp only [Option.map_some, Option.map_none, Option.getD_none, Option.some.injEq] at hg
      exact ⟨hg.symm, rfl, rfl⟩
    · right
      simp only [Option.map_some, Option.getD_some, Option.some.injEq] at hg
      refine ⟨fin (q : K), hg.symm, ?_⟩
      rw [inBounds_iff]
      simp only [Check.dfltOk] at hd
      constructor
      · intro m hm
        rw [Option.mem_def] at hm
        subst hm
        simp at hd
        exact_mod_cast hd.1
      · intro m hm
        rw [Option.mem_def] at hm
        subst hm
        simp at hd
        exact_mod_cast hd.2
  · rw [hf] at hg
    simp only [Check.ofRaw] at hg
    rcases hr : r.flt with _ | x
    · rw [hr] at hg; cases hg
    · rw [hr] at hg
      simp only [Option.bind_some] at hg
      split at hg
      · rename_i hb
        right
        exact ⟨x, (Option.some.inj hg).symm, hb⟩
      · cases hg

theorem string_get {file : String → String → Option (Raw K)} {v : Conf K} (h : validate file = .ok v) {s k : String}
    {d : Option (Option String)} (hs : specOf s k = some (.string d)) :
    (v s k = .none ∧ file s k = none ∧ d = some none) ∨ ∃ t, v s k = .str t := by
  have hg := validate_get h hs
  unfold Check.run at hg
  rcases hf : file s k with _ | r
  · rw [hf] at hg
    simp only [Check.dflt] at hg
    rcases d with _ | _ | q
    · cases hg
    · left
      simp only [Option.map_some, Option.map_none, Option.getD_none, Option.some.injEq] at hg
      exact ⟨hg.symm, rfl, rfl⟩
    · right
      simp only [Option.map_some, Option.getD_some, Option.some.injEq] at hg
      exact ⟨q, hg.symm⟩
  · rw [hf] at hg
    simp only [Check.ofRaw] at hg
    rcases hr : r.str with _ | x
    · rw [hr] at hg; cases hg
    · rw [hr] at hg
      right
      exact ⟨x, (Option.some.inj hg).symm⟩

theorem num_ok {v : Conf K} {s k : String} {x : K} : v.num s k = .ok x ↔ v s k = .flt (fin x) := by
  unfold Conf.num
  split
  · rename_i y hy; rw [hy]; simp
  · rename_i y hy hv
    rw [hv]
    constructor
    · intro h; cases h
    · intro h
      injection h with h
      exact absurd h (hy x)
  · rename_i h1 h2
    constructor
    · intro h; cases h
    · intro h; exact absurd h (h2 _)

theorem text_ok {v : Conf K} {s k t : String} : v.text s k = .ok t ↔ v s k = .str t := by
  unfold Conf.text
  split
  · rename_i y hy; rw [hy]; simp
  · rename_i h2
    constructor
    · intro h; cases h
    · intro h; exact absurd h (h2 _)

theorem liftPy_ok {α : Type} {x : Except PyErr α} {a : α} : liftPy x = .ok a ↔ x = .ok a := by
  unfold liftPy
  cases x <;> simp

end Verif.Model
