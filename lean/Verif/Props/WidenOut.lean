import Verif.Lemmas.WidenOut
import Verif.Props.Spit

set_option autoImplicit false
set_option linter.unusedSectionVars false

/-! # C203: narrow sections of the outlet channel widen, wide ones deepen -/

namespace Verif.Props
open Verif Verif.Model Fl Verif.Spec

variable {K : Type} [Field K] [LinearOrder K] [IsStrictOrderedRing K]

/-- C203.  In a completed step that takes time transect `i` of the outlet of C155, its `k`-th, where the channel is `w` wide and `d` deep, answers to the bedload it is given less the bedload it
gives, unless it is breached: its bed rises, or it falls, or the bank away from the sea retreats, depending on its width and depth; and so does the bank of the spit if waves carry
nothing over the spit. -/
theorem C203_answers (pp : PhysPars K) (j1 j2 : ℕ → Bool) (a : MorIn K) (o : MorOut K) (h : updateMorphology pp j1 j2 a = .ok o) (ht : 0 < secs o.MorDt)
    (bs : List K) (nr : ℕ) (hs ls cs ws : ℕ → K) (ss : ℕ → SpitShape K) (C : OpenOutlet pp a bs nr hs ls cs ws ss) (hlim : 0 < a.MaxMorChange)
    (k i : ℕ) (hk : a.outlet[k]? = some i) (r : Transect K) (hr : a.rows[i]? = some r) (w d : K)
    (hw : a.ChanWidth[nr + a.online.length + k + 1]? = some (fin w)) (hd : a.ChanDep[nr + a.online.length + k + 1]? = some (fin d)) (hd0 : 0 < d)
    (net : K) (hnet : net = bs.getD (nr + a.online.length + k) 0 - bs.getD (nr + a.online.length + k + 1) 0) :
    BreachedAt o r.x ∨ ∃ r' y1' y2' z1', o.rows[i]? = some r' ∧ r'.y1 = fin y1' ∧ r'.y2 = fin y2' ∧ r'.z1 = fin z1' ∧
      Answers pp.WidthDepthRatio w d net (z1' - (ss i).z1) ((ss i).y2 - y2') ∧
      (cs i = 0 → Answers pp.WidthDepthRatio w d net (z1' - (ss i).z1) (y1' - (ss i).y1)) := by
  have hi : i ∈ a.outlet := List.mem_of_getElem? hk
  obtain ⟨hi0, hi1⟩ := C.inside i hi
  obtain ⟨r1, hr1, ⟨h0, h1, h2, h3, h4, hz0, hz1, hz2, hz3⟩, ⟨w1, w2, w3, w4⟩, b1, b2, _⟩ := C.shape i hi
  rw [hr] at hr1
  cases hr1
  have B := C.beach
  have hsh : ∀ j ∈ a.outlet, j + 1 < a.rows.length ∧ ∃ r, a.rows[j]? = some r ∧ HasSpit r (ss j) ∧ WideSpit a.MaxMorChange (|ls j| / (hs j * a.Dx)) (ss j) := by
    intro j hj
    obtain ⟨r, q1, q2, q3, _⟩ := C.shape j hj
    exact ⟨(C.inside j hj).2, r, q1, q2, q3⟩
  obtain ⟨X0, s0, s1, s2, s3, g0, g1, g2, g3, e, eX0, eX1, _⟩ := update_inv h
  obtain ⟨fix, fsafe, fend, fsort, rb, cells', R, R', rate, dd, hp, hall, hl, hsm, hrb, hcell, hd0', hc⟩ :=
    force_open g0 B C.lim C.regular C.opened C.sorted hsh C.ends hi hr
  set t := (secs o.MorDt : K) with htdef
  have ht' : (0 : K) < t := by rw [htdef]; exact_mod_cast ht
  set c := moveCell R' (fin t) i { mkCell pp a i r with t := { r with y0 := fin ((ss i).y0 + dd) } } with hcdef
  have hcx : c.t.x = r.x := rfl
  have hsT : SafeT c.t := by
    obtain ⟨c', hc', hs'⟩ := fsafe i (by rw [fix]; exact hi)
    rw [hc] at hc'
    cases hc'
    exact hs'
  rw [C.opened] at g1
  obtain ⟨⟨c1, hc1, k1⟩, _⟩ := repair_open g1 fsafe fend fsort (by rw [fix]; exact hi) hc
  obtain ⟨c2, hc2, k2⟩ := breach_crest g2 hc1 (by rw [k1]; exact hsT)
  rw [k1] at k2
  unfold finishStage at g3
  simp only [bind_ok, pure_ok, pyAssert_ok] at g3
  obtain ⟨_, _, _, _, _, _, rfl⟩ := g3
  rcases k2 with k2 | ⟨kB, k3, k4⟩
  swap
  · rw [hcx] at k3 k4
    exact Or.inl ⟨kB, eX0.trans k3, eX1.trans k4⟩
  have hne : (ss i).y0 ≠ (ss i).y1 := by
    have : 0 ≤ |ls i| / (hs i * a.Dx) := div_nonneg (abs_nonneg _) (mul_pos (B.pos i) B.dx).le
    intro he
    rw [he] at w1
    linarith
  have hcols := limit_cols hl
  -- rates before the limiter
  obtain ⟨R1, vs, hR1, _, _, _, _, _, v5, _⟩ := C35_conserves pp a (a.rows.mapIdx (mkCell pp a)) bs nr C.chan C.reaches B.dx C.river
  obtain ⟨p1, q1, t1, ez1, ey1, ey2, A1, A2⟩ := outlet_answers hR1 C.opened (bs := bs) (nr := nr) C.chan.flag C.chan.bed C.chan.reaches C.chan.width C.chan.dep C.chan.outNodup
    hk hr hw hd hd0 h1 h2 hz0 hz1 hz2 (by linarith) b1 b2 B.dx
  rw [← hnet] at A1 A2
  obtain ⟨v3, ky3⟩ : ∃ q, R1.y3[i]? = some (fin q) := by
    by_cases hon : i ∈ a.online
    · obtain ⟨c1, c2, c3⟩ := C.lagoon i hi hon
      have hk' : a.online[a.online.idxOf i]? = some i := by
        rw [List.getElem?_eq_getElem (List.idxOf_lt_length_of_mem hon), List.getElem_idxOf]
      obtain ⟨p, q, s, v, e1, e2, _⟩ := v5 _ i r _ _ _ _ hk' hr h3 h4 hz3 (by rw [if_neg (by rw [h1]; simp [Fl.isnan])]; exact hz2) c1 c2 c3
      exact ⟨q, e2⟩
    · exact ⟨0, (off_rates hR1 (by omega : i < a.rows.length) hon).1⟩
  obtain ⟨_, ry1, ry2, _, _, rz1, _⟩ := chan_rates hall hR1 hr h0 h1 hz0 hz1 (C.part i (by omega)) (B.cst i (by omega)) hne b1.ne' hcell ey1 ky3
  rw [← ry2] at ey2
  rw [← rz1] at ez1
  -- rates after the limiter
  obtain ⟨x1, a1, f1⟩ := clip_sign (l' := R'.y1) (lim := a.MaxMorChange) (dt := o.MorDt) hlim (hcols.imp (congrArg Rates.y1) (fun g => ⟨g.1, g.2.2.1⟩)) ry1
  obtain ⟨x2, a2, f2⟩ := clip_sign (l' := R'.y2) (lim := a.MaxMorChange) (dt := o.MorDt) hlim (hcols.imp (congrArg Rates.y2) (fun g => ⟨g.1, g.2.2.2.1⟩)) ey2
  obtain ⟨u1, d1, n1⟩ := clip_sign (l' := R'.z1) (lim := a.MaxMorChange) (dt := o.MorDt) hlim (hcols.imp (congrArg Rates.z1) (fun g => ⟨g.1, g.2.2.2.2.2.2.2.1⟩)) ez1
  have m1 : c.t.y1 = fin ((ss i).y1 + x1 * t) := by
    show r.y1 + (R'.y1[i]?).getD nan * _ = _
    rw [a1, h1, Option.getD_some, mul_fin, add_fin]
  have m2 : c.t.y2 = fin ((ss i).y2 + x2 * t) := by
    show r.y2 + (R'.y2[i]?).getD nan * _ = _
    rw [a2, h2, Option.getD_some, mul_fin, add_fin]
  have l1 : c.t.z1 = fin ((ss i).z1 + u1 * t) := by
    show r.z1 + (R'.z1[i]?).getD nan * _ = _
    rw [d1, hz1, Option.getD_some, mul_fin, add_fin]
  obtain ⟨c3, hc3, n⟩ : ∃ c3, (s2.cells.modify X0 (keepCell pp))[i]? = some c3 ∧ c3.t.y1 = c.t.y1 ∧ c3.t.y2 = c.t.y2 ∧ c3.t.z1 = c.t.z1 := by
    have hcr : c2.t.y1 = c.t.y1 ∧ c2.t.y2 = c.t.y2 ∧ c2.t.z1 = c.t.z1 := by
      rcases k2 with k2 | k2 <;> rw [k2] <;> exact ⟨rfl, rfl, rfl⟩
    rw [List.getElem?_modify, hc2, Option.map_eq_map, Option.map_some]
    refine ⟨_, rfl, ?_⟩
    split
    · unfold keepCell
      split <;> exact hcr
    · exact hcr
  refine Or.inr ⟨c3.t, (ss i).y1 + x1 * t, (ss i).y2 + x2 * t, (ss i).z1 + u1 * t, by rw [e, List.getElem?_map, hc3]; rfl, n.1.trans m1, n.2.1.trans m2, n.2.2.trans l1, ?_, fun hs0 => ?_⟩
  · have := answers_keep (q' := -x2) A2 ht' n1 ⟨fun g => by have := f2.2.1 (by linarith); linarith, fun g => by rw [f2.2.2 (by rw [g, neg_zero]), neg_zero]⟩
    convert this using 1 <;> ring
  · rw [hs0, mul_zero, zero_div, sub_zero] at f1
    have := answers_keep A1 ht' n1 ⟨f1.1, f1.2.2⟩
    convert this using 1 <;> ring

/-- The sample of C155 in water `d` deep without waves: the first section of the outlet channel, 5 m wide, loses bedload and the second gains; the ratio is 30. -/
def woIn (d : ℚ) : MorIn ℚ :=
  { spIn with
    Bedload := [fin (1/100), fin (1/100), fin (1/200), fin (1/200), fin (1/100), fin (1/250), fin (1/250)]
    ChanDep := List.replicate 8 (fin d), CST := List.replicate 9 (fin 0) }

theorem woIn_outlet (d : ℚ) : OpenOutlet moPP (woIn d) [1/100, 1/100, 1/200, 1/200, 1/100, 1/250, 1/250] 1 (fun _ => 14) (fun i => (8 - (i : ℚ)) / 100) (fun _ => 0)
    (fun _ => 1/4) (fun _ => spShape) := by
  have O := spIn_outlet
  refine ⟨rfl, ?_, O.lim, O.sorted, ⟨O.chan.flag, O.chan.width, rfl, rfl, O.chan.reaches, O.chan.onNodup, O.chan.outNodup, O.chan.onIn, O.chan.outIn⟩,
    by simp, O.river, ⟨O.beach.height, O.beach.pos, O.beach.lst, O.beach.lstLen, ?_, O.beach.dx, O.beach.spread⟩, O.part, O.inside, O.shape, O.ends, O.lagoon⟩
  · obtain ⟨k1, k2, _, k4, _, k6⟩ := O.regular
    refine ⟨k1, k2, (by decide +kernel : ∀ v ∈ [fin (1/100), fin (1/100), fin (1/200), fin (1/200), fin (1/100), fin (1/250), fin (1/250 : ℚ)], IsNumber v), k4, fun v hv => ?_, k6⟩
    rw [List.eq_of_mem_replicate hv]
    trivial
  · intro i hi
    have h9 : (woIn d).rows.length = 9 := rfl
    show (List.replicate 9 (fin 0))[i]? = _
    rw [List.getElem?_replicate, if_pos (by omega)]

/-- Concrete cases: in water 1 m deep the first section of the outlet channel widens and its bed stays; in water 10 cm deep its bed falls and its banks stay; the bed of the second section
rises. -/
example : (woIn 1).outlet = [5, 6] ∧ (woIn 1).ChanWidth[1 + 2 + 0 + 1]? = some (fin 5) ∧ (woIn 1).ChanDep[1 + 2 + 0 + 1]? = some (fin 1) ∧ moPP.WidthDepthRatio = 30 ∧
    okAnd (updateMorphology moPP cleanMem cleanMem (woIn 1)) (fun o => decide (0 < secs o.MorDt) && !o.Breach &&
    (match o.rows[5]?, o.rows[6]? with
      | some r, some q => r.z1 == fin (0 : ℚ) && (fin (60 : ℚ) <? r.y1) && (r.y2 <? fin (55 : ℚ)) && (fin (0 : ℚ) <? q.z1) && q.y1 == fin (60 : ℚ) && q.y2 == fin (55 : ℚ)
      | _, _ => false)) = true := by decide +kernel
example : okAnd (updateMorphology moPP cleanMem cleanMem (woIn (1/10))) (fun o => decide (0 < secs o.MorDt) && !o.Breach &&
    (match o.rows[5]?, o.rows[6]? with
      | some r, some q => (r.z1 <? fin (0 : ℚ)) && r.y1 == fin (60 : ℚ) && r.y2 == fin (55 : ℚ) && (fin (0 : ℚ) <? q.z1) && q.y1 == fin (60 : ℚ) && q.y2 == fin (55 : ℚ)
      | _, _ => false)) = true := by decide +kernel

end Verif.Props
