import Verif.Lemmas.Drift

set_option autoImplicit false
set_option linter.unusedSectionVars false

/-! # C202: the outlet moves with the longshore drift -/

namespace Verif.Props
open Verif Verif.Model Fl Verif.Spec

variable {K : Type} [Field K] [LinearOrder K] [IsStrictOrderedRing K]

/-- One number through the limiter and the step. -/
theorem limited_step {v' : Fl K} {x lim : K} {dt : ℤ} (hlim : 0 < lim) (ht : 0 < secs dt)
    (h : v' = fin x ∨ (0 < secs dt ∧ v' = clip (lim / (secs dt : K)) (fin x))) :
    ∃ x', v' = fin x' ∧ (0 < x → 0 < x' * (secs dt : K)) ∧ (x < 0 → x' * (secs dt : K) < 0) ∧ (x = 0 → x' * (secs dt : K) = 0) ∧
      (|x' * (secs dt : K)| < lim → x' = x) := by
  have ht' : (0 : K) < (secs dt : K) := by exact_mod_cast ht
  obtain ⟨x1, h1, f1⟩ := clip_free_one (v := fin x) h rfl
  obtain ⟨x2, h2, s1, s2, s3⟩ := clip_sign (l := [fin x]) (l' := [v']) (i := 0) (x := x) hlim (by
    rcases h with rfl | ⟨g, rfl⟩
    · exact Or.inl rfl
    · exact Or.inr ⟨g, rfl⟩) rfl
  have : v' = fin x2 := by simpa using h2
  rw [h1] at this
  cases this
  exact ⟨x1, h1, fun g => mul_pos (s1 g) ht', fun g => mul_neg_of_neg_of_pos (s2 g) ht', fun g => by rw [s3 g, zero_mul], f1⟩

/-- C202.  Let the outlet of C155, not breached in this step, end at `e`, between the neighbouring transects `p` and `q`, with width `W`; let `net` be the bedload that its last section
is given less the bedload that it gives to the sea.  The end moves in the direction of the longshore transport there, unless its banks are eroded and the channel comes from the other
side.  Without erosion the outlet gets narrower from the side the transport comes from: the other bank stays where it is. -/
theorem C202_drift (pp : PhysPars K) (j1 j2 : ℕ → Bool) (a : MorIn K) (o : MorOut K) (h : updateMorphology pp j1 j2 a = .ok o) (ht : 0 < secs o.MorDt)
    (bs : List K) (nr : ℕ) (hs ls cs ws : ℕ → K) (ss : ℕ → SpitShape K) (C : OpenOutlet pp a bs nr hs ls cs ws ss) (hlim : 0 < a.MaxMorChange)
    (hB : o.Breach = false) (e0 e W z : K) (h0 : a.EndX0 = fin e0) (h1 : a.EndX1 = fin e) (hW : a.EndWidth = fin W) (hW0 : 0 < W) (hz : a.EndElev = fin z)
    (hzt : z < pp.BeachTopElev) (hsp : 0 < pp.SpitWidth) (hf : 0 ≤ pp.OutletBankEroFac)
    (j : ℕ) (p q : Transect K) (hp : a.rows[j]? = some p) (hq : a.rows[j + 1]? = some q) (hpe : p.x ≤ e) (heq : e < q.x)
    (net : K) (hnet : net = bs.getD (nr + a.online.length + a.outlet.length) 0 - bs.getD (nr + a.online.length + a.outlet.length + 1) 0) :
    ∃ e' W', o.EndX1 = fin e' ∧ o.EndWidth = fin W' ∧
      (0 < ls j → 0 ≤ net ∨ e0 ≤ e → e < e') ∧ (ls j < 0 → 0 ≤ net ∨ e ≤ e0 → e' < e) ∧
      (0 ≤ net → (ls j ≠ 0 → W' < W) ∧ (ls j = 0 → e' = e ∧ W' = W) ∧
        (|e' - e| < a.MaxMorChange → |W' - W| < a.MaxMorChange → (0 < ls j → e' + W' / 2 = e + W / 2) ∧ (ls j < 0 → e' - W' / 2 = e - W / 2))) := by
  have B := C.beach
  have hsh : ∀ j ∈ a.outlet, j + 1 < a.rows.length ∧ ∃ r, a.rows[j]? = some r ∧ HasSpit r (ss j) ∧ WideSpit a.MaxMorChange (|ls j| / (hs j * a.Dx)) (ss j) := by
    intro j hj
    obtain ⟨r, q1, q2, q3, _⟩ := C.shape j hj
    exact ⟨(C.inside j hj).2, r, q1, q2, q3⟩
  obtain ⟨X0, s0, s1, s2, s3, g0, g1, g2, g3, _, _, eX1, eW, _⟩ := update_inv h
  obtain ⟨i, _, _, _, hil, _⟩ := C.ends
  have hi : i ∈ a.outlet := List.mem_of_getLast? hil
  obtain ⟨r, hr, _⟩ := C.shape i hi
  obtain ⟨fix, fsafe, fend, fsort, rb', _, _, _, _, _, hpre', _, _, _, hrb', _, _, hc⟩ :=
    force_open g0 B C.lim C.regular C.opened C.sorted hsh C.ends hi hr
  obtain ⟨rb, cells', R, R', rate, hpre, hall, _, _, hl, happ⟩ := force_inv g0
  have hrb : rb ≠ 0 := by
    rw [hpre] at hpre'
    cases hpre'
    exact hrb'
  -- the end through the stages
  rw [C.opened] at g1 g2
  obtain ⟨_, k1⟩ := repair_open g1 fsafe fend fsort (by rw [fix]; exact hi) hc
  have k2 := breach_e1 g2 hB
  have k3 : s3.e1 = s2.e1 := by
    unfold finishStage at g3
    simp only [bind_ok, pure_ok] at g3
    obtain ⟨_, _, _, _, _, _, rfl⟩ := g3
    rfl
  have E1 : o.EndX1 = s0.e1 := by rw [eX1, k3, k2, k1]
  obtain ⟨X0', s0', g0', E2, _⟩ := update_ends h hB
  rw [g0] at g0'
  obtain ⟨rfl, rfl⟩ : X0 = X0' ∧ s0 = s0' := by cases g0'; exact ⟨rfl, rfl⟩
  -- the transport at the end
  have hrbj : rb = j + 1 := by
    obtain ⟨⟨f, hf', hfx⟩, hbef⟩ := firstIx_ok.mp ((precalc_rb hpre).2.1 C.opened)
    rw [h1] at hfx
    simp only [blt_fin, decide_eq_true_eq] at hfx
    rcases Nat.lt_trichotomy rb (j + 1) with g | g | g
    · exfalso
      have : f.x ≤ p.x := by
        rcases Nat.eq_or_lt_of_le (Nat.lt_succ_iff.mp g) with rfl | g
        · rw [hf'] at hp; cases hp; exact le_rfl
        · obtain ⟨i1, rfl⟩ := List.getElem?_eq_some_iff.mp hf'
          obtain ⟨i2, rfl⟩ := List.getElem?_eq_some_iff.mp hp
          exact (List.pairwise_iff_getElem.mp C.sorted rb j i1 i2 g).le
      linarith
    · exact g
    · exfalso
      have := hbef (j + 1) g q hq
      rw [h1] at this
      simp only [blt_fin, decide_eq_false_iff_not, not_lt] at this
      linarith
  subst hrbj
  have hL : a.LST[prevIx a.LST.length (j + 1)]? = some (fin (ls j)) := by
    unfold prevIx
    rw [if_neg hrb, Nat.add_sub_cancel]
    exact B.lst j (List.getElem?_eq_some_iff.mp hq).1
  -- the rates
  obtain ⟨R1, vs, hR1, v1, v2, _, _, _, _, _, v7⟩ := C35_conserves pp a (a.rows.mapIdx (mkCell pp a)) bs nr C.chan C.reaches B.dx C.river
  obtain ⟨pz, qw, v, _, hqw, hv, hgain, ⟨hq0, _, ow1, ow2⟩⟩ := v7 C.opened W z hW hz hW0 hzt hsp
  have hvn : v = net := by
    rw [C.opened] at v1
    simp only [Bool.false_eq_true, if_false] at v1
    rw [v2 _ (by rw [v1]; omega)] at hv
    rw [hnet]
    exact (Option.some.inj hv).symm
  subst hvn
  have hH : 0 < (pp.BeachTopElev - z) * pp.SpitWidth := mul_pos (by linarith) hsp
  have hno : 0 ≤ v → qw = 0 := by
    intro hv0
    by_contra hne
    have hpos : 0 < qw := lt_of_le_of_ne hq0 (Ne.symm hne)
    rw [ow2 (Or.inl hpos)] at hgain
    have : 0 < qw * ((pp.BeachTopElev - z) * pp.SpitWidth) := mul_pos hpos hH
    linarith
  have hm := river_endX hR1 C.opened h0 h1 hqw
  set m := (if e0 < e then qw / 2 * pp.OutletBankEroFac else if e < e0 then -(qw / 2 * pp.OutletBankEroFac) else 0) with hmdef
  obtain ⟨r1, r2⟩ := drift_rates hall hR1 C.opened hL hz hzt hsp hqw hm
  set H := (pp.BeachTopElev - z) * pp.SpitWidth with hHdef
  have hlm := limit_endX hl r1 r2
  obtain ⟨xw, aw, w1, w2, w3, w4⟩ := limited_step (v' := R'.endW) hlim ht (hlm.imp (fun g => by rw [g]; exact r1) (fun g => ⟨g.1, g.2.1⟩))
  obtain ⟨xe, ae, f1, f2, f3, f4⟩ := limited_step (v' := R'.endX) hlim ht (hlm.imp (fun g => by rw [g]; exact r2) (fun g => ⟨g.1, g.2.2⟩))
  obtain ⟨S1, S2⟩ : s0.e1 = a.EndX1 + R'.endX * fin (secs o.MorDt : K) ∧ s0.endW = a.EndWidth + R'.endW * fin (secs o.MorDt : K) := by
    unfold applyRates at happ
    simp only at happ
    split at happ
    · cases happ
    · cases happ
      simp only [C.opened, Bool.false_eq_true, if_false, and_self]
  rw [h1, ae, mul_fin, add_fin] at S1
  rw [hW, aw, mul_fin, add_fin] at S2
  have hqf : 0 ≤ qw / 2 * pp.OutletBankEroFac := by positivity
  refine ⟨e + xe * (secs o.MorDt : K), W + xw * (secs o.MorDt : K), E1.trans S1, E2.trans S2, fun hl0 hc => ?_, fun hl0 hc => ?_, fun hv0 => ?_⟩
  · have hm0 : 0 ≤ m := by
      rcases hc with hc | hc
      · rw [hmdef, hno hc]; simp
      · rw [hmdef]
        split
        · exact hqf
        · rw [if_neg (not_lt.mpr hc)]
    have := f1 (add_pos_of_nonneg_of_pos hm0 (div_pos (div_pos hl0 hH) two_pos))
    linarith
  · have hm0 : m ≤ 0 := by
      rcases hc with hc | hc
      · rw [hmdef, hno hc]; simp
      · rw [hmdef, if_neg (not_lt.mpr hc)]
        split
        · linarith
        · exact le_rfl
    have := f2 (add_neg_of_nonpos_of_neg hm0 (div_neg_of_neg_of_pos (div_neg_of_neg_of_pos hl0 hH) two_pos))
    linarith
  · have hq1 := hno hv0
    have hm1 : m = 0 := by rw [hmdef, hq1]; simp
    rw [hm1, zero_add] at f3 f4
    rw [hq1, zero_sub] at w2 w3 w4
    refine ⟨fun hl0 => ?_, fun hl0 => ?_, fun b1 b2 => ?_⟩
    · have := w2 (neg_neg_of_pos (div_pos (abs_pos.mpr hl0) hH))
      linarith
    · have e1 := f3 (by rw [hl0]; simp)
      have e2 := w3 (by rw [hl0]; simp)
      exact ⟨by rw [e1, add_zero], by rw [e2, add_zero]⟩
    · rw [add_sub_cancel_left] at b1 b2
      rw [f4 b1, w4 b2]
      refine ⟨fun hl0 => ?_, fun hl0 => ?_⟩
      · rw [abs_of_pos hl0]; ring
      · rw [abs_of_neg hl0]; ring

/-- The sample of C155 with an outlet end that is given as much bedload as it gives and longshore transport `s` everywhere. -/
def sdIn (s : ℚ) : MorIn ℚ :=
  { spIn with
    Bedload := [fin (1/100), fin (1/100), fin (1/200), fin (3/400), fin (1/200), fin (1/250), fin (1/250)]
    LST := List.replicate 8 (fin s) }

theorem sdIn_outlet (s : ℚ) (h : |s| ≤ 1) : OpenOutlet moPP (sdIn s) [1/100, 1/100, 1/200, 3/400, 1/200, 1/250, 1/250] 1 (fun _ => 14) (fun _ => s) (fun _ => 1/2000)
    (fun _ => 1/4) (fun _ => spShape) := by
  have O := spIn_outlet
  refine ⟨rfl, ?_, O.lim, O.sorted, ⟨O.chan.flag, O.chan.width, O.chan.dep, rfl, O.chan.reaches, O.chan.onNodup, O.chan.outNodup, O.chan.onIn, O.chan.outIn⟩,
    by simp, O.river, ⟨O.beach.height, O.beach.pos, ?_, O.beach.lstLen, O.beach.cst, O.beach.dx, O.beach.spread⟩, O.part, O.inside, ?_, O.ends, O.lagoon⟩
  · obtain ⟨k1, k2, _, _, k3⟩ := O.regular
    refine ⟨k1, k2, (by decide +kernel : ∀ v ∈ [fin (1/100), fin (1/100), fin (1/200), fin (3/400), fin (1/200), fin (1/250), fin (1/250 : ℚ)], IsNumber v), fun v hv => ?_, k3⟩
    rw [List.eq_of_mem_replicate hv]
    trivial
  · intro i hi
    have h9 : (sdIn s).rows.length = 9 := rfl
    show (List.replicate 8 (fin s))[i]? = _
    rw [List.getElem?_replicate, if_pos (by omega)]
  · intro i hi
    obtain ⟨r, k1, k2, ⟨w1, w2, w3, w4⟩, k4⟩ := O.shape i hi
    refine ⟨r, k1, k2, ⟨?_, w2, w3, ?_⟩, k4⟩ <;>
    · show 2 * (1/4 : ℚ) + |s| / (14 * 10) < _
      have : |s| / (14 * 10 : ℚ) ≤ 1 := by rw [div_le_one (by norm_num)]; linarith
      norm_num [spShape]
      linarith

/-- Concrete cases: with transport to the right the end of the outlet moves to the right, with transport to the left to the left, each by half of what the outlet narrows;
with `spIn` it moves to the right and its banks are eroded. -/
example : okAnd (updateMorphology moPP cleanMem cleanMem (sdIn (1/100))) (fun o => decide (0 < secs o.MorDt ∧ o.EndX1 = fin (24 + 3/200 : ℚ) ∧ o.EndWidth = fin (6 - 3/100 : ℚ)) && !o.Breach) = true := by decide +kernel
example : okAnd (updateMorphology moPP cleanMem cleanMem (sdIn (-1/100))) (fun o => decide (0 < secs o.MorDt ∧ o.EndX1 = fin (24 - 3/200 : ℚ) ∧ o.EndWidth = fin (6 - 3/100 : ℚ)) && !o.Breach) = true := by decide +kernel
example : okAnd (updateMorphology moPP cleanMem cleanMem spIn) (fun o => decide (0 < secs o.MorDt ∧ o.EndX1 = fin (96123/4000 : ℚ)) && !o.Breach) = true := by decide +kernel
example : (sdIn (1/100)).EndX0 = fin 10 ∧ (sdIn (1/100)).EndX1 = fin 24 ∧ (sdIn (1/100)).EndWidth = fin 6 ∧ (sdIn (1/100)).EndElev = fin (-1) ∧ (-1 : ℚ) < moPP.BeachTopElev ∧ 0 < moPP.SpitWidth ∧
    0 ≤ moPP.OutletBankEroFac ∧ ((sdIn (1/100)).rows[6]?).map (·.x) = some 20 ∧ ((sdIn (1/100)).rows[7]?).map (·.x) = some 30 := by decide +kernel

end Verif.Props
