import Verif.Lemmas.Sizes

set_option autoImplicit false
set_option linter.unusedSectionVars false

namespace Verif.Model
open Verif Fl

variable {K : Type} [Field K] [LinearOrder K] [IsStrictOrderedRing K] [FloorRing K]

/-! ### The river part of the assembled channel is what was put in -/

theorem mapM_get {α β : Type} {f : α → Except PyErr β} {l : List α} {r : List β} (h : l.mapM f = .ok r) {i : ℕ} {a : α} (ha : l[i]? = some a) :
    ∃ b, f a = .ok b ∧ r[i]? = some b := by
  induction l generalizing r i with
  | nil => cases ha
  | cons x l ih =>
    rw [List.mapM_cons] at h
    simp only [bind_ok, pure_ok] at h
    obtain ⟨b, h1, bs, h2, rfl⟩ := h
    cases i with
    | zero => cases ha; exact ⟨b, h1, rfl⟩
    | succ i => exact ih h2 ha

/-- Filling the gaps keeps what is not a gap. -/
theorem fillNan_keep {l v : List (Fl K)} {f : ℕ → Fl K → Fl K} {r : List (Fl K)} (h : fillNan l v f = .ok r) {i : ℕ} {x : Fl K}
    (hx : l[i]? = some x) (hn : x.isnan = false) : r[i]? = some x := by
  unfold fillNan at h
  split at h
  · obtain ⟨hi, hxi⟩ := List.getElem?_eq_some_iff.mp hx
    have hz : ((List.range l.length).zip l)[i]? = some (i, x) := by
      rw [List.getElem?_zip_eq_some]
      exact ⟨List.getElem?_range hi, hx⟩
    obtain ⟨y, hy, hr⟩ := mapM_get h hz
    simp only [hn, Bool.false_eq_true, if_false, pure_ok] at hy
    rw [hr, hy]
  · cases h; exact hx

theorem maskSel_river {n nr : ℕ} {c : ChanOut K} (h : ChanOk n nr c) {l a : List (Fl K)} (hl : l.length = c.flag.length) (ha : a.length = nr)
    (hk : ∀ (i : ℕ) (x : Fl K), a[i]? = some x → l[i]? = some x) : maskSel c.flag (· == 0) l = a := by
  have hsp : l = a ++ l.drop nr := by
    apply List.ext_getElem?
    intro i
    by_cases hi : i < nr
    · have h1 : a[i]? = some a[i] := List.getElem?_eq_getElem (by omega)
      rw [hk i _ h1, List.getElem?_append_left (by omega), h1]
    · rw [List.getElem?_append_right (by omega), List.getElem?_drop]
      congr 1
      omega
  have hrest : ∀ x ∈ (List.replicate c.online.length 1 ++ (if c.closed then [] else List.replicate c.outlet.length 2 ++ [3, 4])), (x == 0) = false := by
    intro x hx
    rcases List.mem_append.mp hx with h1 | h1
    · rw [List.eq_of_mem_replicate h1]; rfl
    · cases hc : c.closed <;> rw [hc] at h1
      · rcases List.mem_append.mp h1 with h1 | h1
        · rw [List.eq_of_mem_replicate h1]; rfl
        · simp only [List.mem_cons, List.not_mem_nil, or_false] at h1
          rcases h1 with rfl | rfl <;> rfl
      · cases h1
  have hm : ∀ (fl : List ℕ) (m : List (Fl K)), (∀ x ∈ fl, (x == 0) = false) → maskSel fl (· == 0) m = [] := by
    intro fl m hf
    unfold maskSel
    rw [List.filterMap_eq_nil_iff]
    rintro ⟨g, y⟩ hy
    have := hf g (List.of_mem_zip hy).1
    simp only [this, Bool.false_eq_true, if_false]
  rw [hsp, h.flag, List.append_assoc, maskSel_append _ _ _ _ _ (by simp [ha]), maskSel_replicate _ _ _ _ ha, hm _ _ hrest]
  simp

theorem river_kept {pp : PhysPars K} {a : ChanIn K} {c : ChanOut K} (h : assembleChannel pp a = .ok c)
    (hd : a.RivDep.length = a.RiverElev.length) (hv : a.RivVel.length = a.RiverElev.length)
    (hed : a.EndDep.length = 1 ∨ a.EndDep.length = 2) (hev : a.EndVel.length = 1 ∨ a.EndVel.length = 2)
    (hdn : ∀ x ∈ a.RivDep, x.isnan = false) (hvn : ∀ x ∈ a.RivVel, x.isnan = false) :
    maskSel c.flag (· == 0) c.dep = a.RivDep ∧ maskSel c.flag (· == 0) c.vel = a.RivVel := by
  have hok := assemble_ok h hd hv hed hev
  obtain ⟨X0, r0, w, C1, s1, s, onRows, outRows, H⟩ := assemble_inv h
  obtain ⟨wl, lv, g1, g2, d0, v0, f1, f2, hc, ho⟩ := chanHyd_inv H.hyd
  have hlv : 0 < lv.length := by
    rw [gather_length g2, ← H.online]
    exact List.length_pos_iff.mpr hok.ne
  have kd : ∀ (i : ℕ) (x : Fl K), a.RivDep[i]? = some x → d0[i]? = some x := by
    intro i x hx
    have hi := (List.getElem?_eq_some_iff.mp hx).1
    cases hcl : c.closed with
    | true => rw [(hc hcl).1, List.getElem?_append_left hi, hx]
    | false =>
      obtain ⟨od, ov, _, _, e1, _⟩ := ho hcl
      rw [e1, List.append_assoc, List.append_assoc, List.getElem?_append_left hi, hx]
  have kv : ∀ (i : ℕ) (x : Fl K), a.RivVel[i]? = some x → v0[i]? = some x := by
    intro i x hx
    have hi := (List.getElem?_eq_some_iff.mp hx).1
    cases hcl : c.closed with
    | true =>
      rw [(hc hcl).2, List.getElem?_set_ne (by rw [List.length_append]; omega), List.getElem?_append_left hi, hx]
    | false =>
      obtain ⟨od, ov, _, _, _, e1⟩ := ho hcl
      rw [e1, List.append_assoc, List.append_assoc, List.getElem?_append_left hi, hx]
  exact ⟨maskSel_river hok hok.len.dep hd (fun i x hx => fillNan_keep f1 (kd i x hx) (hdn x (List.mem_of_getElem? hx))),
    maskSel_river hok hok.len.vel hv (fun i x hx => fillNan_keep f2 (kv i x hx) (hvn x (List.mem_of_getElem? hx)))⟩

end Verif.Model
