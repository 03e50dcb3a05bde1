import Verif.Lemmas.Drift

set_option autoImplicit false
set_option linter.unusedSectionVars false

/-! # Lemmas for C204: bed and width of the outlet end -/

namespace Verif.Model
open Verif Fl Verif.Spec List Verif.Props

variable {K : Type} [Field K] [LinearOrder K] [IsStrictOrderedRing K]

/-- Which way the bed of the outlet end goes. -/
theorem end_bed {pp : PhysPars K} {a : MorIn K} {cells : List (Cell K)} {R : Rates K} (h : riverRates pp a cells = .ok R) (hc : a.Closed = false) {bs : List K} {nr : ℕ}
    (H : ChannelArrays a bs nr) {w d W : K} (hw : a.ChanWidth[nr + a.online.length + a.outlet.length + 1]? = some (fin w))
    (hd : a.ChanDep[nr + a.online.length + a.outlet.length + 1]? = some (fin d)) (hd0 : 0 < d) (hW : a.EndWidth = fin W) (hW0 : 0 < W) (hD : 0 < a.Dx) :
    ∃ p q, R.endZ = fin p ∧
      Answers pp.WidthDepthRatio w d (bs.getD (nr + a.online.length + a.outlet.length) 0 - bs.getD (nr + a.online.length + a.outlet.length + 1) 0) p q := by
  obtain ⟨ss, g1, g2, g3⟩ := sections_ok pp a bs nr a.online.length a.outlet.length H.flag H.bed H.reaches H.width H.dep
  obtain ⟨_, _, _, _, b5⟩ := sec_blocks g2
  obtain ⟨_, _, s, he, hs⟩ := b5 hc
  have hsl := (List.getElem?_eq_some_iff.mp hs).1
  have hwide := sections_wide g1 hs hw hd
  have hdv : s.dvol = fin (bs.getD (nr + a.online.length + a.outlet.length) 0 - bs.getD (nr + a.online.length + a.outlet.length + 1) 0) := by
    have := congrArg (fun l => l[nr + a.online.length + a.outlet.length]?) g3
    simp only [getElem?_map, hs, Option.map_some, hc, Bool.false_eq_true, if_false] at this
    have hnl : nr + a.online.length + a.outlet.length < (netIn bs).length := by
      have := congrArg List.length g3
      simp only [length_map, hc, Bool.false_eq_true, if_false] at this
      omega
    rw [netIn_length] at hnl
    have hget : ∀ m, m < bs.length → bs[m]? = some (bs.getD m 0) := by
      intro m hm
      rw [List.getD_eq_getElem?_getD, getElem?_eq_getElem hm]; rfl
    rw [netIn_getElem? bs (nr + a.online.length + a.outlet.length) (hget _ (by omega)) (hget _ (by omega)), Option.map_some] at this
    exact Option.some.inj this
  obtain ⟨p, q, _, e1, _, _, e4, _⟩ := section_answers hdv hd0 hwide hW0 one_pos one_pos hD
  unfold riverRates at h
  simp only [bind_ok] at h
  obtain ⟨ss', hss, onRows, hon, z3', hz3', y3', hy3', y4', hy4', h⟩ := h
  rw [g1] at hss
  cases hss
  rw [if_neg (by rw [hc]; simp)] at h
  simp only [bind_ok, pure_ok] at h
  obtain ⟨_, _, _, _, _, _, _, _, s', hs', _, _, rfl⟩ := h
  rw [he] at hs'
  cases hs'
  refine ⟨p, q, ?_, e4⟩
  show (s.bedDep - s.bedEro) / (a.EndWidth * fin a.Dx) = _
  rw [hW, e1]

/-- Waves do not change the bed of the outlet end. -/
theorem all_endZ {pp : PhysPars K} {a : MorIn K} {rb : ℕ} {cells cells' : List (Cell K)} {R R1 : Rates K} (h : allRates pp a rb cells = .ok (R, cells'))
    (hR1 : riverRates pp a cells = .ok R1) (hc : a.Closed = false) : R.endZ = R1.endZ := by
  unfold allRates at h
  simp only [bind_ok] at h
  obtain ⟨R1', g1, ⟨R2, c2⟩, g2, R3, g3, h⟩ := h
  rw [hR1] at g1
  cases g1
  obtain ⟨rfl, rfl⟩ : R3 = R ∧ c2 = cells' := by cases h; exact ⟨rfl, rfl⟩
  have k : R2.endZ = R1.endZ := by
    unfold lstRates at g2
    simp only [bind_ok] at g2
    obtain ⟨_, _, g2⟩ := g2
    rw [if_neg (by rw [hc]; simp)] at g2
    simp only [bind_ok] at g2
    obtain ⟨_, _, g2⟩ := g2
    split at g2 <;>
    · simp only [bind_ok, pure_ok] at g2
      obtain ⟨_, _, g2⟩ := g2
      cases g2
      rfl
  unfold cstRates at g3
  dsimp only at g3
  split at g3
  · cases g3
  · cases g3
    exact k

/-- The bed of the outlet end through the limiter. -/
theorem limit_endZ {R R' : Rates K} {v : Fl K} {lim : K} {dtMin dt : ℤ} (h : limitRates v lim dtMin dt R = .ok R') {z : K} (hz : R.endZ = fin z) :
    R'.endZ = fin z ∨ (0 < secs dt ∧ R'.endZ = clip (lim / (secs dt : K)) (fin z)) := by
  unfold limitRates at h
  split at h
  · simp only [bind_ok] at h
    obtain ⟨_, _, h⟩ := h
    split at h
    · cases h
    · next hne =>
      cases h
      refine Or.inr ⟨lt_of_le_of_ne (secs_nonneg dt) (Ne.symm hne), ?_⟩
      dsimp only
      rw [hz]
      unfold clip pyClip
      rw [npmax_fin, npmin_fin, pymax_fin, pymin_fin]
  · cases h; exact Or.inl hz

end Verif.Model
