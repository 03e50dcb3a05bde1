import Verif.Props.Smooth
import Mathlib.Tactic.IntervalCases

set_option autoImplicit false
set_option linter.unusedSectionVars false

/-! # C210: a higher sea never makes a beach fare better -/

namespace Verif.Props
open Verif Verif.Model Verif.Spec Fl

section
variable {K : Type} [Field K] [LinearOrder K] [IsStrictOrderedRing K]

/-- C210, flux: of two completed steps of the same closed lagoon, which differ in what the waves carry over the barrier only, the one in which they carry more at a transect on a wide barrier moves its shoreline
landward at least as fast, or seaward at most as fast (metres per second of the step, whose length may differ). -/
theorem C210_flux (pp : PhysPars K) (j1 j2 j1' j2' : ℕ → Bool) (a : MorIn K) (CST' : List (Fl K)) (o o' : MorOut K) (h : updateMorphology pp j1 j2 a = .ok o)
    (h' : updateMorphology pp j1' j2' { a with CST := CST' } = .ok o') (hs ls cs cs' : ℕ → K)
    (B : Beach pp a hs ls cs) (B' : Beach pp { a with CST := CST' } hs ls cs') (hB : 0 ≤ a.MaxMorChange) (hreg : Regular pp a) (hreg' : Regular pp { a with CST := CST' })
    (hc : a.Closed = true) (i : ℕ) (hi0 : 0 < i) (hi1 : i + 1 < a.rows.length) (r : Transect K) (hr : a.rows[i]? = some r) (y : K) (hw : WideBarrier a.MaxMorChange r y)
    (hx : |ls (i - 1) - ls i - a.Dx * cs i| * (secs o.MorDt : K) ≤ a.MaxMorChange * hs i * a.Dx)
    (hx' : |ls (i - 1) - ls i - a.Dx * cs' i| * (secs o'.MorDt : K) ≤ a.MaxMorChange * hs i * a.Dx) (hle : cs i ≤ cs' i) :
    ∃ r1 y1 r2 y2, o.rows[i]? = some r1 ∧ r1.y0 = fin y1 ∧ o'.rows[i]? = some r2 ∧ r2.y0 = fin y2 ∧ (y2 - y) * (secs o.MorDt : K) ≤ (y1 - y) * (secs o'.MorDt : K) := by
  obtain ⟨r1, y1, e1, e2, e3⟩ := C146_partial_closed pp j1 j2 a o h hs ls cs B hB hreg hc i hi0 hi1 r hr y hw hx
  obtain ⟨r2, y2, f1, f2, f3⟩ := C146_partial_closed pp j1' j2' _ o' h' hs ls cs' B' hB hreg' hc i hi0 hi1 r hr y hw hx'
  refine ⟨r1, y1, r2, y2, e1, e2, f1, f2, ?_⟩
  have hd := B.dx
  have hp := B.pos i
  have t1 : (0 : K) ≤ (secs o.MorDt : K) := by exact_mod_cast secs_nonneg o.MorDt
  have t2 : (0 : K) ≤ (secs o'.MorDt : K) := by exact_mod_cast secs_nonneg o'.MorDt
  have hpd : 0 < hs i * a.Dx := mul_pos hp hd
  have key : (a.Dx * cs i) * ((secs o.MorDt : K) * (secs o'.MorDt : K)) ≤ (a.Dx * cs' i) * ((secs o.MorDt : K) * (secs o'.MorDt : K)) :=
    mul_le_mul_of_nonneg_right (mul_le_mul_of_nonneg_left hle hd.le) (mul_nonneg t1 t2)
  have g1 := congrArg (· * (secs o'.MorDt : K)) e3
  have g2 := congrArg (· * (secs o.MorDt : K)) f3
  simp only at g1 g2
  refine le_of_mul_le_mul_right ?_ hpd
  linarith

end

/-- C210: the same for two steps that differ in sea level and wave runup only, with the flux over the barrier from `overtopping`: where sea and runup are higher or the same, no beach on a wide barrier fares better. -/
theorem C210_sea (pp : PhysPars ℝ) (hcoef : 0 < pp.OT_coef) (hexp : 1 ≤ pp.OT_exp) (j1 j2 j1' j2' : ℕ → Bool) (a : MorIn ℝ) (CST' : List (Fl ℝ)) (o o' : MorOut ℝ)
    (R S R' S' : ℝ) (ow ow' : List Bool) (hR : R ≤ R') (hS : S ≤ S') (hcst : overtopping (fin R) (fin S) a.rows pp = .ok (a.CST, ow))
    (hcst' : overtopping (fin R') (fin S') a.rows pp = .ok (CST', ow'))
    (h : updateMorphology pp j1 j2 a = .ok o) (h' : updateMorphology pp j1' j2' { a with CST := CST' } = .ok o') (hs ls cs cs' : ℕ → ℝ)
    (B : Beach pp a hs ls cs) (B' : Beach pp { a with CST := CST' } hs ls cs') (hB : 0 ≤ a.MaxMorChange) (hreg : Regular pp a) (hreg' : Regular pp { a with CST := CST' })
    (hc : a.Closed = true) (i : ℕ) (hi0 : 0 < i) (hi1 : i + 1 < a.rows.length) (r : Transect ℝ) (hr : a.rows[i]? = some r) (y : ℝ) (hw : WideBarrier a.MaxMorChange r y)
    (hx : |ls (i - 1) - ls i - a.Dx * cs i| * (secs o.MorDt : ℝ) ≤ a.MaxMorChange * hs i * a.Dx)
    (hx' : |ls (i - 1) - ls i - a.Dx * cs' i| * (secs o'.MorDt : ℝ) ≤ a.MaxMorChange * hs i * a.Dx) :
    ∃ r1 y1 r2 y2, o.rows[i]? = some r1 ∧ r1.y0 = fin y1 ∧ o'.rows[i]? = some r2 ∧ r2.y0 = fin y2 ∧ (y2 - y) * (secs o.MorDt : ℝ) ≤ (y1 - y) * (secs o'.MorDt : ℝ) := by
  refine C210_flux pp j1 j2 j1' j2' a CST' o o' h h' hs ls cs cs' B B' hB hreg hreg' hc i hi0 hi1 r hr y hw hx hx' ?_
  obtain ⟨c, c', w, w', k1, k2, k3⟩ := C10_monotone R S R' S' hR hS a.rows pp hcoef hexp (fun t ht => by
    obtain ⟨k, hk⟩ := List.mem_iff_getElem?.mp ht
    exact ⟨_, B.height k t hk⟩)
  rw [k1] at hcst
  rw [k2] at hcst'
  cases hcst
  cases hcst'
  have b1 := B.cst i (by omega)
  have b2 := B'.cst i (by show i < a.rows.length; omega)
  dsimp only at b2
  obtain ⟨hl, hg⟩ := List.forall₂_iff_get.mp k3
  obtain ⟨l1, e1⟩ := List.getElem?_eq_some_iff.mp b1
  obtain ⟨l2, e2⟩ := List.getElem?_eq_some_iff.mp b2
  obtain ⟨q, q', m1, m2, m3⟩ := hg i l1 l2
  simp only [List.get_eq_getElem] at m1 m2
  rw [e1] at m1
  rw [e2] at m2
  cases m1
  cases m2
  exact m3

/-! ## The sample of C146 under a sea of two levels -/

def seP : PhysPars ℚ := { moPP with OT_coef := 1/2000, OT_exp := 2 }
def seIn (c : ℚ) : MorIn ℚ := { buIn with CST := List.replicate 9 (fin c) }
noncomputable def seR (c : ℚ) : MorIn ℝ := icv qr (seIn c)

theorem se_len (c : ℚ) : (seR c).rows.length = 9 := by simp [seR, icv, seIn, buIn]

theorem se_height (c : ℚ) (i : ℕ) (r : Transect ℝ) (hr : (seR c).rows[i]? = some r) : r.z0 = fin 4 := by
  have e1 : (seR c).rows[i]? = ((seIn c).rows[i]?).map (tcv qr) := List.getElem?_map ..
  rw [e1] at hr
  obtain ⟨q, hq, rfl⟩ := Option.map_eq_some_iff.mp hr
  have hz : ∀ q ∈ (seIn c).rows, q.z0 = fin 4 := by
    show ∀ q ∈ (seIn 0).rows, q.z0 = fin 4
    decide +kernel
  show cv qr q.z0 = _
  rw [hz q (List.mem_of_getElem? hq), cv_fin, qr_eq]
  norm_num

theorem se_beach (c : ℚ) : Beach (ppcv qr seP) (seR c) (fun _ => 14) (fun i => (8 - i) / 100) (fun _ => (c : ℝ)) where
  height i r hr := by
    have e2 : (ppcv qr seP).ClosureDepth = 10 := by simp [ppcv, seP, moPP, qr_eq]
    rw [se_height c i r hr, e2]
    norm_num
  pos _ := by norm_num
  lst i hi := by
    rw [se_len] at hi
    have : (seR c).LST = [fin (8/100), fin (7/100), fin (6/100), fin (5/100), fin (4/100), fin (3/100), fin (2/100), fin (1/100)] := by
      simp [seR, icv, seIn, buIn, cv_fin, qr_eq]
    rw [this]
    have hi : i < 8 := by omega
    interval_cases i <;> norm_num
  lstLen := by simp [seR, icv, seIn, buIn]
  cst i hi := by
    rw [se_len] at hi
    have e1 : (seR c).CST = List.replicate 9 (fin (c : ℝ)) := by simp [seR, icv, seIn, cv_fin, qr_eq]
    rw [e1, List.getElem?_replicate, if_pos (by omega)]
  dx := by
    have e : (seIn c).Dx = 10 := rfl
    simp [seR, icv, e, qr_eq]
  spread := by
    have : (ppcv qr seP).OutletSedSpreadDist = 20 := by simp [ppcv, seP, moPP, chPP, qr_eq]
    rw [this]; norm_num

theorem se_over (c : ℚ) (r s : ℝ) (h : (c : ℝ) = 1/2000 * (max (r + s - 4) 0) ^ (2 : ℝ)) :
    overtopping (fin r) (fin s) (seR c).rows (ppcv qr seP) = .ok ((seR c).CST, (seR c).rows.map (overwashProp (ppcv qr seP))) := by
  have p1 : (ppcv qr seP).OT_coef = 1/2000 := by simp [ppcv, seP, qr_eq]
  have p2 : (ppcv qr seP).OT_exp = 2 := by simp [ppcv, seP, qr_eq]
  obtain ⟨cst, ow, k, _⟩ := C10_flux r s (seR c).rows (ppcv qr seP) (by rw [p1]; norm_num) (by rw [p2]; norm_num)
    (fun t ht => by
      obtain ⟨k, hk⟩ := List.mem_iff_getElem?.mp ht
      exact ⟨_, se_height c k t hk⟩)
  obtain ⟨e1, e2⟩ := overtopping_ok _ _ _ _ _ _ k
  rw [k, e2]
  have e3 : (seR c).CST = List.replicate 9 (fin (c : ℝ)) := by simp [seR, icv, seIn, cv_fin, qr_eq]
  have e4 : cst = List.replicate 9 (fin (c : ℝ)) := by
    refine List.eq_replicate_iff.mpr ⟨by rw [e1, List.length_map, se_len], fun v hv => ?_⟩
    rw [e1] at hv
    obtain ⟨t, ht, rfl⟩ := List.mem_map.mp hv
    obtain ⟨j, hj⟩ := List.mem_iff_getElem?.mp ht
    rw [cstTot_fin r s 4 _ t (se_height c j t hj) (by rw [p2]; norm_num), p1, p2, h]
  rw [e3, e4]

/-- Concrete case: with runup and sea together 1 m and 2 m above the crest all hypotheses of `C210_sea` hold, and the third transect gains 9 mm with the lower sea, and loses 17 mm with the higher one. -/
example : ∃ o o' r1 y1 r2 y2, updateMorphology (ppcv qr seP) cleanMem cleanMem (seR (1/2000)) = .ok o ∧
    updateMorphology (ppcv qr seP) cleanMem cleanMem { seR (1/2000) with CST := (seR (4/2000)).CST } = .ok o' ∧
    overtopping (fin 1) (fin 4) (seR (1/2000)).rows (ppcv qr seP) = .ok ((seR (1/2000)).CST, (seR (1/2000)).rows.map (overwashProp (ppcv qr seP))) ∧
    overtopping (fin 1) (fin 5) (seR (1/2000)).rows (ppcv qr seP) = .ok ((seR (4/2000)).CST, (seR (1/2000)).rows.map (overwashProp (ppcv qr seP))) ∧
    secs o.MorDt = 240 ∧ secs o'.MorDt = 240 ∧
    o.rows[2]? = some r1 ∧ r1.y0 = fin y1 ∧ o'.rows[2]? = some r2 ∧ r2.y0 = fin y2 ∧ (y2 - 100) * 240 ≤ (y1 - 100) * 240 := by
  obtain ⟨o, ho, t1⟩ := okAnd_iff.mp (show okAnd (updateMorphology seP cleanMem cleanMem (seIn (1/2000))) (fun o => decide (secs o.MorDt = 240)) = true by decide +kernel)
  obtain ⟨o', ho', t2⟩ := okAnd_iff.mp (show okAnd (updateMorphology seP cleanMem cleanMem (seIn (4/2000))) (fun o => decide (secs o.MorDt = 240)) = true by decide +kernel)
  have t1 := of_decide_eq_true t1
  have t2 := of_decide_eq_true t2
  have h1 : updateMorphology (ppcv qr seP) cleanMem cleanMem (seR (1/2000)) = .ok (ocv qr o) := by
    unfold seR
    rw [update_cv, ho]; rfl
  have e : ({ seR (1/2000) with CST := (seR (4/2000)).CST } : MorIn ℝ) = seR (4/2000) := rfl
  have h2 : updateMorphology (ppcv qr seP) cleanMem cleanMem (seR (4/2000)) = .ok (ocv qr o') := by
    unfold seR
    rw [update_cv, ho']; rfl
  have c1 := se_over (1/2000) 1 4 (by norm_num)
  have c2 : overtopping (fin 1) (fin 5) (seR (1/2000)).rows (ppcv qr seP) = .ok ((seR (4/2000)).CST, (seR (1/2000)).rows.map (overwashProp (ppcv qr seP))) :=
    se_over (4/2000) 1 5 (by rw [show (1:ℝ) + 5 - 4 = 2 by norm_num, max_eq_left (by norm_num), show ((2:ℝ) ^ (2:ℝ)) = 4 by rw [Real.rpow_two]; norm_num]; norm_num)
  have hdx : (seR (1/2000)).Dx = 10 := by
    have e : (seIn (1/2000)).Dx = 10 := rfl
    simp only [seR, icv, e, qr_eq]; norm_num
  have hm : (0:ℝ) < (seR (1/2000)).MaxMorChange ∧ (24/10 : ℝ) ≤ (seR (1/2000)).MaxMorChange * 14 * 10 := by
    have e : ∃ q : ℚ, (seIn (1/2000)).MaxMorChange = q ∧ 0 < q ∧ 24/10 ≤ q * 14 * 10 := ⟨_, rfl, by decide +kernel, by decide +kernel⟩
    obtain ⟨q, e1, e2, e3⟩ := e
    have : (seR (1/2000)).MaxMorChange = (q : ℝ) := by
      show qr (seIn (1/2000)).MaxMorChange = _
      rw [e1, qr_eq]
    rw [this]
    refine ⟨by exact_mod_cast e2, ?_⟩
    have := (Rat.cast_le (K := ℝ)).mpr e3
    push_cast at this
    exact this
  have er : (seIn (1/2000)).rows[2]? = some { brRow 0 with x := -20 } := by decide +kernel
  have g1 : (seR (1/2000)).rows[2]? = some (tcv qr { brRow 0 with x := -20 }) := by
    show ((seIn (1/2000)).rows.map (tcv qr))[2]? = _
    rw [List.getElem?_map, er]; rfl
  have g2 : WideBarrier (seR (1/2000)).MaxMorChange (tcv qr { brRow 0 with x := -20 }) 100 := by
    refine ⟨?_, rfl, rfl, 20, 0, ?_, ?_, ?_, ?_⟩ <;> simp [tcv, brRow, cv_fin, qr_eq, seR, icv, seIn, buIn, brIn, moIn] <;> norm_num
  have s1 : secs (ocv qr o).MorDt = 240 := t1
  have s2 : secs (ocv qr o').MorDt = 240 := t2
  have R1 : Regular (ppcv qr seP) (seR (1/2000)) := regular_cv qr _ _ (by decide +kernel)
  have R2 : Regular (ppcv qr seP) (seR (4/2000)) := regular_cv qr _ _ (by decide +kernel)
  have p1 : (ppcv qr seP).OT_coef = 1/2000 := by simp [ppcv, seP, qr_eq]
  have p2 : (ppcv qr seP).OT_exp = 2 := by simp [ppcv, seP, qr_eq]
  obtain ⟨r1, y1, r2, y2, k1, k2, k3, k4, k5⟩ := C210_sea (ppcv qr seP) (by rw [p1]; norm_num) (by rw [p2]; norm_num) cleanMem cleanMem cleanMem cleanMem (seR (1/2000)) (seR (4/2000)).CST
    _ _ 1 4 1 5 _ _ le_rfl (by norm_num) c1 c2 h1 (by rw [e]; exact h2) _ _ _ _ (se_beach (1/2000)) (by rw [e]; exact se_beach (4/2000)) hm.1.le R1 (by rw [e]; exact R2) rfl 2 (by norm_num)
    (by rw [se_len]; norm_num) _ g1 100 g2
    (by rw [s1, hdx]; push_cast; refine le_trans ?_ hm.2; norm_num [abs_of_nonneg])
    (by rw [s2, hdx]; push_cast; refine le_trans ?_ hm.2; norm_num [abs_of_nonneg, abs_of_nonpos])
  rw [s1, s2] at k5
  exact ⟨_, _, r1, y1, r2, y2, h1, by rw [e]; exact h2, c1, c2, s1, s2, k1, k2, k3, k4, by exact_mod_cast k5⟩

/-- The two movements, worked out with rational numbers. -/
example : okAnd (updateMorphology seP cleanMem cleanMem (seIn (1/2000))) (fun o => match o.rows[2]? with | some r => r.y0 == fin (100 + 3/350) | none => false) = true ∧
    okAnd (updateMorphology seP cleanMem cleanMem (seIn (4/2000))) (fun o => match o.rows[2]? with | some r => r.y0 == fin (100 - 6/350) | none => false) = true := by decide +kernel

end Verif.Props
