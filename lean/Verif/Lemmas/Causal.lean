import Verif.Lemmas.Run
import Verif.Spec.Run

set_option autoImplicit false
set_option linter.unusedSectionVars false

/-! # Records after the requested times do not matter -/

namespace Verif.Model
open Verif Verif.Spec Fl

variable {K : Type} [Field K] [LinearOrder K] [IsStrictOrderedRing K]

theorem whereIx_append {α : Type} (p : α → Bool) (c r : List α) :
    whereIx p (c ++ r) = whereIx p c ++ (whereIx p r).map (· + c.length) := by
  unfold whereIx
  rw [List.length_append, List.range_add, List.filter_append]
  congr 1
  · apply List.filter_congr
    intro i hi
    rw [List.mem_range] at hi
    rw [List.getElem?_append_left hi]
  · rw [List.filter_map]
    have : (fun i => c.length + i) = (fun i => i + c.length) := by funext i; omega
    rw [this]
    congr 1
    apply List.filter_congr
    intro i _
    simp only [Function.comp]
    rw [List.getElem?_append_right (by omega), Nat.add_sub_cancel]

theorem whereIx_nil_iff {α : Type} {p : α → Bool} {l : List α} (h : ∀ a ∈ l, p a = false) : whereIx p l = [] := by
  unfold whereIx
  rw [List.filter_eq_nil_iff]
  intro i hi
  rw [List.mem_range] at hi
  rw [List.getElem?_eq_getElem hi]
  simp [h _ (List.getElem_mem hi)]

theorem whereIx_ne_nil {α : Type} {p : α → Bool} {l : List α} {a : α} (ha : a ∈ l) (hp : p a = true) : whereIx p l ≠ [] := by
  obtain ⟨i, hi, rfl⟩ := List.getElem_of_mem ha
  apply List.ne_nil_of_mem (a := i)
  unfold whereIx
  simp [List.mem_filter, hi, hp]

/-- Interpolation depends only on the records up to the first one at or after the last requested time. -/
theorem interpolateAt_prefix {c r : Series K} {req : List ℤ} {T : ℤ} (hreq : ∀ t ∈ req, t ≤ T) (hr : ∀ x ∈ r, T < x.1) (hc : ∃ x ∈ c, T ≤ x.1) :
    interpolateAt (c ++ r) req = interpolateAt c req := by
  cases req with
  | nil => rfl
  | cons r0 rest =>
    obtain ⟨rN, hN⟩ : ∃ rN, (r0 :: rest).getLast? = some rN := ⟨_, List.getLast?_eq_getLast_of_ne_nil (by simp)⟩
    have h0 : r0 ≤ T := hreq _ (by simp)
    have hNT : rN ≤ T := hreq _ (List.mem_of_getLast? hN)
    have e0 : ixGet (r0 :: rest) 0 = .ok r0 := rfl
    have eN : pyGet (r0 :: rest) (-1) = .ok rN := pyGet_last.mpr hN
    have hlast : lastIx (fun x : ℤ × Fl K => decide (x.1 ≤ r0)) (c ++ r) = lastIx (fun x : ℤ × Fl K => decide (x.1 ≤ r0)) c := by
      unfold lastIx
      rw [whereIx_append, whereIx_nil_iff (l := r) (by intro a ha; have := hr a ha; simp; omega)]
      simp
    obtain ⟨x, hx, hxT⟩ := hc
    have hne := whereIx_ne_nil (p := fun y : ℤ × Fl K => decide (rN ≤ y.1)) hx (by simp; omega)
    obtain ⟨i, is, hi⟩ := List.exists_cons_of_ne_nil hne
    have hil : i < c.length := by
      have : i ∈ whereIx (fun y : ℤ × Fl K => decide (rN ≤ y.1)) c := by rw [hi]; simp
      unfold whereIx at this
      simp only [List.mem_filter, List.mem_range] at this
      exact this.1
    have hf1 : firstIx (fun y : ℤ × Fl K => decide (rN ≤ y.1)) c = .ok i := by unfold firstIx; rw [hi]
    have hf2 : firstIx (fun y : ℤ × Fl K => decide (rN ≤ y.1)) (c ++ r) = .ok i := by unfold firstIx; rw [whereIx_append, hi]; rfl
    have ht : (c ++ r).take (i + 1) = c.take (i + 1) := List.take_append_of_le_length (by omega)
    have ob : ∀ {A B : Type} (a : A) (g : A → Except PyErr B), (Except.ok a >>= g) = g a := fun _ _ => rfl
    unfold interpolateAt
    simp only [e0, eN, ob, hlast, hf1, hf2, ht]

theorem sameUntil_split {α : Type} {T : ℤ} {f f' : List (ℤ × α)} (h : SameUntil T f f') :
    ∃ c r r', f = c ++ r ∧ f' = c ++ r' ∧ (∃ x ∈ c, T ≤ x.1) ∧ (∀ x ∈ r, T < x.1) ∧ (∀ x ∈ r', T < x.1) := by
  obtain ⟨h1, h2, c, r, r', rfl, rfl, x, hx, hT⟩ := h
  refine ⟨c, r, r', rfl, rfl, ⟨x, hx, hT⟩, ?_, ?_⟩
  · intro y hy
    exact lt_of_le_of_lt hT ((List.pairwise_append.mp h1).2.2 x hx y hy)
  · intro y hy
    exact lt_of_le_of_lt hT ((List.pairwise_append.mp h2).2.2 x hx y hy)

theorem interpolateAt_same {f f' : Series K} {T : ℤ} (h : SameUntil T f f') {req : List ℤ} (hreq : ∀ t ∈ req, t ≤ T) :
    interpolateAt f' req = interpolateAt f req := by
  obtain ⟨c, r, r', rfl, rfl, hc, hr, hr'⟩ := sameUntil_split h
  rw [interpolateAt_prefix hreq hr hc, interpolateAt_prefix hreq hr' hc]

theorem wavesAt_same {w w' : List (ℤ × Wave K)} {T : ℤ} (h : SameUntil T w w') {t : ℤ} (ht : t ≤ T) : wavesAt w' t = wavesAt w t := by
  obtain ⟨c, r, r', rfl, rfl, ⟨x, hx, hxT⟩, hr, hr'⟩ := sameUntil_split h
  have hq : ∀ u ∈ [t], u ≤ T := by intro u hu; rw [List.mem_singleton] at hu; omega
  have key : ∀ g : Wave K → Fl K, interpolateAt (waveCol (c ++ r') g) [t] = interpolateAt (waveCol (c ++ r) g) [t] := by
    intro g
    unfold waveCol
    rw [List.map_append, List.map_append]
    have hc : ∃ y ∈ c.map (fun r => (r.1, g r.2)), T ≤ y.1 := ⟨_, List.mem_map_of_mem hx, hxT⟩
    rw [interpolateAt_prefix hq _ hc, interpolateAt_prefix hq _ hc]
    · intro y hy; obtain ⟨z, hz, rfl⟩ := List.mem_map.mp hy; exact hr z hz
    · intro y hy; obtain ⟨z, hz, rfl⟩ := List.mem_map.mp hy; exact hr' z hz
  unfold wavesAt
  rw [key, key, key, key, key]

theorem hydTimes_le {t dt hyd : ℤ} {w : List ℤ} (hd : 0 ≤ dt) (h : hydTimes t dt hyd = .ok w) : ∀ u ∈ w, u ≤ t + dt := by
  unfold hydTimes at h
  split at h
  · cases h
  · next hne =>
    cases h
    intro u hu
    obtain ⟨k, hk, rfl⟩ := List.mem_map.mp hu
    rw [List.mem_range] at hk
    have hk' : (k : ℤ) + 1 ≤ dt / hyd := by omega
    have hpos : 0 < hyd := by
      by_contra hneg
      have : dt / hyd ≤ 0 := Int.ediv_nonpos_of_nonneg_of_nonpos hd (by omega)
      omega
    have h1 : ((k : ℤ) + 1) * hyd ≤ dt / hyd * hyd := mul_le_mul_of_nonneg_right hk' hpos.le
    have h2 := Int.ediv_mul_le dt hpos.ne'
    omega

end Verif.Model
