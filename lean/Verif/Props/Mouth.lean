import Verif.Lemmas.Mouth
import Verif.Props.Drift

set_option autoImplicit false
set_option linter.unusedSectionVars false

/-! # C204: the mouth narrows when waves bring more sediment than the flow takes away -/

namespace Verif.Spec

variable {K : Type} [Field K] [LinearOrder K] [IsStrictOrderedRing K]

/-- How the mouth of an outlet, whose flow is `w` wide and `d` deep, answers to `net`, the bedload it is given less the bedload it gives to the sea (negative if the flow takes sediment
away), and to the longshore transport `drift` into it.  `rise` is what its bed rises, `widen` what it widens. -/
structure MouthAnswers (ratio w d net drift rise widen : K) : Prop where
  /-- Bedload left over raises the bed. -/
  rises : 0 < net → 0 < rise
  /-- What is missing is taken from the bed if the mouth is more than `ratio` times as wide as it is deep. -/
  deepens : net < 0 → ratio * d < w → rise < 0
  /-- Otherwise the bed stays. -/
  level : net = 0 ∨ (net < 0 ∧ w ≤ ratio * d) → rise = 0
  /-- Without erosion of its banks the mouth narrows if there is longshore transport. -/
  narrows : 0 ≤ net ∨ ratio * d < w → (drift ≠ 0 → widen < 0) ∧ (drift = 0 → widen = 0)
  /-- With erosion it depends on which is more. -/
  weighs : net < 0 → w ≤ ratio * d → (0 < widen ↔ |drift| < -net) ∧ (widen < 0 ↔ -net < |drift|)

end Verif.Spec

namespace Verif.Props
open Verif Verif.Model Fl Verif.Spec

variable {K : Type} [Field K] [LinearOrder K] [IsStrictOrderedRing K]

/-- C204.  In a completed step that takes time and does not breach, an open outlet that ends at `e`, between the neighbouring transects `p` and `q`, with width `W` and bed level `z`,
answers as `MouthAnswers` says; and unless the change is limited the sand and gravel at the mouth (bed and spit) is exactly what the flow and the waves have brought. -/
theorem C204_mouth (pp : PhysPars K) (j1 j2 : ℕ → Bool) (a : MorIn K) (o : MorOut K) (h : updateMorphology pp j1 j2 a = .ok o) (ht : 0 < secs o.MorDt)
    (hB : o.Breach = false) (hc : a.Closed = false) (bs : List K) (nr : ℕ) (H : ChannelArrays a bs nr) (hbs : bs ≠ []) (hD : 0 < a.Dx) (hR : 0 < pp.RiverWidth)
    (hlim : 0 < a.MaxMorChange) (hsort : a.rows.Pairwise (·.x < ·.x)) (e W z : K) (h1 : a.EndX1 = fin e) (hW : a.EndWidth = fin W) (hW0 : 0 < W) (hz : a.EndElev = fin z)
    (hzt : z < pp.BeachTopElev) (hsp : 0 < pp.SpitWidth)
    (j : ℕ) (p q : Transect K) (hp : a.rows[j]? = some p) (hq : a.rows[j + 1]? = some q) (hpe : p.x ≤ e) (heq : e < q.x) (drift : K) (hl : a.LST[j]? = some (fin drift))
    (w d : K) (hw : a.ChanWidth[nr + a.online.length + a.outlet.length + 1]? = some (fin w))
    (hd : a.ChanDep[nr + a.online.length + a.outlet.length + 1]? = some (fin d)) (hd0 : 0 < d)
    (net : K) (hnet : net = bs.getD (nr + a.online.length + a.outlet.length) 0 - bs.getD (nr + a.online.length + a.outlet.length + 1) 0) :
    ∃ W' z', o.EndWidth = fin W' ∧ o.EndElev = fin z' ∧ MouthAnswers pp.WidthDepthRatio w d net drift (z' - z) (W' - W) ∧
      (|W' - W| < a.MaxMorChange → |z' - z| < a.MaxMorChange →
        (z' - z) * (W * a.Dx) - (W' - W) * ((pp.BeachTopElev - z) * pp.SpitWidth) = (net + |drift|) * (secs o.MorDt : K)) := by
  obtain ⟨X0, s0, g0, E1, E2⟩ := update_ends h hB
  obtain ⟨rb, cells', R, R', rate, hpre, hall, _, _, hlr, happ⟩ := force_inv g0
  have hrbj : rb = j + 1 := by
    obtain ⟨⟨f, hf', hfx⟩, hbef⟩ := firstIx_ok.mp ((precalc_rb hpre).2.1 hc)
    rw [h1] at hfx
    simp only [blt_fin, decide_eq_true_eq] at hfx
    rcases Nat.lt_trichotomy rb (j + 1) with g | g | g
    · exfalso
      have : f.x ≤ p.x := by
        rcases Nat.eq_or_lt_of_le (Nat.lt_succ_iff.mp g) with rfl | g
        · rw [hf'] at hp; cases hp; exact le_rfl
        · obtain ⟨i1, rfl⟩ := List.getElem?_eq_some_iff.mp hf'
          obtain ⟨i2, rfl⟩ := List.getElem?_eq_some_iff.mp hp
          exact (List.pairwise_iff_getElem.mp hsort rb j i1 i2 g).le
      linarith
    · exact g
    · exfalso
      have := hbef (j + 1) g q hq
      rw [h1] at this
      simp only [blt_fin, decide_eq_false_iff_not, not_lt] at this
      linarith
  subst hrbj
  have hL : a.LST[prevIx a.LST.length (j + 1)]? = some (fin drift) := by
    unfold prevIx
    rw [if_neg (Nat.succ_ne_zero j), Nat.add_sub_cancel]
    exact hl
  obtain ⟨R1, vs, hR1, v1, v2, _, _, _, _, _, v7⟩ := C35_conserves pp a (a.rows.mapIdx (mkCell pp a)) bs nr H hbs hD hR
  obtain ⟨pz, qw, v, hpz, hqw, hv, hgain, ⟨hq0, _, ow1, ow2⟩⟩ := v7 hc W z hW hz hW0 hzt hsp
  have hvn : v = net := by
    rw [hc] at v1
    simp only [Bool.false_eq_true, if_false] at v1
    rw [v2 _ (by rw [v1]; omega)] at hv
    rw [hnet]
    exact (Option.some.inj hv).symm
  subst hvn
  obtain ⟨pz', _, hpz', A1, A2, A3, A4⟩ := end_bed hR1 hc H hw hd hd0 hW hW0 hD
  rw [hpz] at hpz'
  cases hpz'
  rw [← hnet] at A1 A2 A3 A4
  have hH : 0 < (pp.BeachTopElev - z) * pp.SpitWidth := mul_pos (by linarith) hsp
  set G := (pp.BeachTopElev - z) * pp.SpitWidth with hG
  have hgain' : pz * (W * a.Dx) - qw * G = v := by rw [← hgain, hG]; ring
  have hq1 : 0 < pz ∨ pz < 0 → qw = 0 := by
    intro hne
    by_contra hn
    have := ow2 (Or.inl (lt_of_le_of_ne hq0 (Ne.symm hn)))
    rcases hne with g | g <;> linarith
  have hq2 : pz = 0 → qw * G = -v := fun g => by rw [g] at hgain'; linarith
  obtain ⟨m, hm⟩ : ∃ m, R1.endX = fin m := by
    unfold riverRates at hR1
    simp only [bind_ok] at hR1
    obtain ⟨_, _, _, _, _, _, _, _, _, _, hR1⟩ := hR1
    rw [if_neg (by rw [hc]; simp)] at hR1
    simp only [bind_ok, pure_ok] at hR1
    obtain ⟨_, _, _, _, _, _, _, _, _, _, _, _, rfl⟩ := hR1
    dsimp only at hqw ⊢
    rw [hqw, div_fin _ _ two_ne_zero, mul_fin, neg_fin]
    split
    · exact ⟨_, rfl⟩
    · split <;> exact ⟨_, rfl⟩
  obtain ⟨r1, r2⟩ := drift_rates hall hR1 hc hL hz hzt hsp hqw hm
  rw [← hG] at r1 r2
  have r3 : R.endZ = fin pz := (all_endZ hall hR1 hc).trans hpz
  obtain ⟨xw, aw, w1, w2, w3, w4⟩ := limited_step (v' := R'.endW) hlim ht ((limit_endX hlr r1 r2).imp (fun g => by rw [g]; exact r1) (fun g => ⟨g.1, g.2.1⟩))
  obtain ⟨xz, az, z1, z2, z3, z4⟩ := limited_step (v' := R'.endZ) hlim ht (limit_endZ hlr r3)
  obtain ⟨S1, S2⟩ : s0.endZ = a.EndElev + R'.endZ * fin (secs o.MorDt : K) ∧ s0.endW = a.EndWidth + R'.endW * fin (secs o.MorDt : K) := by
    unfold applyRates at happ
    simp only at happ
    split at happ
    · cases happ
    · cases happ
      simp only [hc, Bool.false_eq_true, if_false, and_self]
  rw [hz, az, mul_fin, add_fin] at S1
  rw [hW, aw, mul_fin, add_fin] at S2
  set t := (secs o.MorDt : K)
  refine ⟨W + xw * t, z + xz * t, E1.trans S2, E2.trans S1, ?_, fun b1 b2 => ?_⟩
  · rw [add_sub_cancel_left, add_sub_cancel_left]
    refine ⟨fun g => z1 (A1 g).1, fun g g' => z2 (A3 g g').1, fun g => ?_, fun g => ?_, fun g g' => ?_⟩
    · rcases g with g | ⟨g, g'⟩
      · exact z3 (A2 g).1
      · exact z3 (A4 g g').1
    · have hqz : qw = 0 := by
        rcases lt_trichotomy v 0 with k | k | k
        · rcases g with g | g
          · linarith
          · exact hq1 (Or.inr (A3 k g).1)
        · have := hq2 (A2 k).1
          rw [k, neg_zero] at this
          exact (mul_eq_zero.mp this).resolve_right hH.ne'
        · exact hq1 (Or.inl (A1 k).1)
      rw [hqz, zero_sub] at w2 w3
      exact ⟨fun k => w2 (neg_neg_of_pos (div_pos (abs_pos.mpr k) hH)), fun k => w3 (by rw [k]; simp)⟩
    · have hqv : qw = -v / G := by rw [eq_div_iff hH.ne']; exact hq2 (A4 g g').1
      have hrt : qw - |drift| / G = (-v - |drift|) / G := by rw [hqv]; ring
      rw [hrt] at w1 w2 w3
      have k1 : |drift| < -v → 0 < xw * t := fun k => w1 (div_pos (by linarith) hH)
      have k2 : -v < |drift| → xw * t < 0 := fun k => w2 (div_neg_of_neg_of_pos (by linarith) hH)
      have k3 : |drift| = -v → xw * t = 0 := fun k => w3 (by rw [k]; simp)
      rcases lt_trichotomy |drift| (-v) with k | k | k
      · exact ⟨⟨fun _ => k, k1⟩, ⟨fun b => absurd b (k1 k).le.not_gt, fun b => absurd b k.le.not_gt⟩⟩
      · exact ⟨⟨fun b => absurd (k3 k) b.ne', fun b => absurd k b.ne⟩, ⟨fun b => absurd (k3 k) b.ne, fun b => absurd k b.ne'⟩⟩
      · exact ⟨⟨fun b => absurd b (k2 k).le.not_gt, fun b => absurd b k.le.not_gt⟩, ⟨fun _ => k, k2⟩⟩
  · rw [add_sub_cancel_left] at b1 b2 ⊢
    rw [add_sub_cancel_left, w4 b1, z4 b2]
    have : |drift| / G * G = |drift| := div_mul_cancel₀ _ hH.ne'
    linear_combination t * hgain' + t * this

/-- The sample of C155 with longshore transport `s`, whose mouth, 6 m wide in water `d` deep, loses 1/500 a second more than it is given. -/
def muIn (s d : ℚ) : MorIn ℚ :=
  { spIn with
    Bedload := [fin (1/100), fin (1/100), fin (1/200), fin (3/400), fin (1/200), fin (1/250), fin (3/500)]
    LST := List.replicate 8 (fin s), ChanDep := List.replicate 8 (fin d) }

theorem muIn_arrays (s d : ℚ) : ChannelArrays (muIn s d) [1/100, 1/100, 1/200, 3/400, 1/200, 1/250, 3/500] 1 := by
  have O := spIn_outlet
  exact ⟨O.chan.flag, O.chan.width, rfl, rfl, O.chan.reaches, O.chan.onNodup, O.chan.outNodup, O.chan.onIn, O.chan.outIn⟩

/-- Concrete cases: with little longshore transport the mouth widens, with more it narrows, and its bed stays; in shallow water its bed falls and it narrows. -/
example : (1/250 - 3/500 : ℚ) = -(1/500) ∧ okAnd (updateMorphology moPP cleanMem cleanMem (muIn (1/1000) 1)) (fun o => decide (0 < secs o.MorDt) && !o.Breach &&
    (fin (6 : ℚ) <? o.EndWidth) && o.EndElev == fin (-1 : ℚ)) = true := by decide +kernel
example : okAnd (updateMorphology moPP cleanMem cleanMem (muIn (-1/100) 1)) (fun o => decide (0 < secs o.MorDt) && !o.Breach &&
    (o.EndWidth <? fin (6 : ℚ)) && o.EndElev == fin (-1 : ℚ)) = true := by decide +kernel
example : okAnd (updateMorphology moPP cleanMem cleanMem (muIn (1/1000) (1/10))) (fun o => decide (0 < secs o.MorDt) && !o.Breach &&
    (o.EndWidth <? fin (6 : ℚ)) && (o.EndElev <? fin (-1 : ℚ))) = true := by decide +kernel
example : (muIn (1/1000) 1).Closed = false ∧ 0 < (muIn (1/1000) 1).Dx ∧ 0 < moPP.RiverWidth ∧ 0 < (muIn (1/1000) 1).MaxMorChange ∧ (muIn (1/1000) 1).EndX1 = fin 24 ∧
    (muIn (1/1000) 1).EndWidth = fin 6 ∧ (muIn (1/1000) 1).EndElev = fin (-1) ∧ (-1 : ℚ) < moPP.BeachTopElev ∧ 0 < moPP.SpitWidth ∧
    ((muIn (1/1000) 1).rows[6]?).map (·.x) = some 20 ∧ ((muIn (1/1000) 1).rows[7]?).map (·.x) = some 30 ∧ (muIn (1/1000) 1).LST[6]? = some (fin (1/1000)) ∧
    (muIn (1/1000) 1).ChanWidth[1 + 2 + 2 + 1]? = some (fin 6) ∧ (muIn (1/1000) 1).ChanDep[1 + 2 + 2 + 1]? = some (fin 1) ∧ moPP.WidthDepthRatio = 30 := by decide +kernel

end Verif.Props
