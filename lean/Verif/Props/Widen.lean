import Verif.Lemmas.Widen
import Verif.Props.Barrier
import Verif.Props.MorRiver

set_option autoImplicit false
set_option linter.unusedSectionVars false

/-! # C201: narrow sections of the lagoon widen, wide ones deepen -/

namespace Verif.Props
open Verif Verif.Model Fl Verif.Spec

variable {K : Type} [Field K] [LinearOrder K] [IsStrictOrderedRing K]

/-- The section of C201: the river, described by `nr + 1` sections and bedload `bs`, flows through transect `i` as the `k`-th of the lagoon, where the channel is `w`
wide and `d` deep.  The transect has no channel through the barrier, is away from an open outlet, and its sea, lagoon edge and cliff are farther apart than they move in a step; the lagoon
bed is lower than crest and cliff top.  Waves carry `s` over the barrier, the part `ow` to its back.  In line with the river the lagoon does not get narrower than an
outlet. -/
structure LagoonSection (pp : PhysPars K) (a : MorIn K) (bs : List K) (nr k i : ℕ) (r : Transect K) (w d y y3 y4 z0 z3 s ow : K) : Prop where
  lim : 0 < a.MaxMorChange
  regular : Regular pp a
  sorted : a.rows.Pairwise (fun r s => r.x < s.x)
  dx : 0 < a.Dx
  chan : ChannelArrays a bs nr
  row : a.rows[i]? = some r
  online : a.online[k]? = some i
  width : a.ChanWidth[nr + k + 1]? = some (fin w)
  depth : a.ChanDep[nr + k + 1]? = some (fin d)
  wet : 0 < d
  beyond : BeyondOutlet a r
  away : NotAtEnd a i r
  plain : PlainBarrier a.MaxMorChange r y y3 z0 z3
  cliff : r.y4 = fin y4
  wide : y4 < y3
  crest : z3 < z0
  top : z3 < pp.BackshoreElev
  mouth : r.x = 0 → pp.MinOutletWidth + 2 * a.MaxMorChange ≤ y3 - y4
  waves : a.CST[i]? = some (fin s)
  part : a.OverwashProp[i]? = some (fin ow)

/-- C201.  In a completed step that takes time such a section, unless the barrier is breached there, answers to the bedload it is given less the bedload it
gives: its bed rises, or it falls, or the cliff retreats, depending on its width and depth; and so does the edge of the lagoon on the side of the barrier if waves carry
nothing over the barrier. -/
theorem C201_answers (pp : PhysPars K) (j1 j2 : ℕ → Bool) (a : MorIn K) (o : MorOut K) (h : updateMorphology pp j1 j2 a = .ok o) (ht : 0 < secs o.MorDt)
    (bs : List K) (nr k i : ℕ) (r : Transect K) (w d y y3 y4 z0 z3 s ow : K) (L : LagoonSection pp a bs nr k i r w d y y3 y4 z0 z3 s ow) :
    BreachedAt o r.x ∨ ∃ r' y3' y4' z3', o.rows[i]? = some r' ∧ r'.y3 = fin y3' ∧ r'.y4 = fin y4' ∧ r'.z3 = fin z3' ∧
      Answers pp.WidthDepthRatio w d (bs.getD (nr + k) 0 - bs.getD (nr + k + 1) 0) (z3' - z3) (y4 - y4') ∧
      (s = 0 → Answers pp.WidthDepthRatio w d (bs.getD (nr + k) 0 - bs.getD (nr + k + 1) 0) (z3' - z3) (y3' - y3)) := by
  obtain ⟨h0, h1, h2, h3, hz0, hz3, w3, y4', h4', w4⟩ := L.plain
  obtain rfl : y4' = y4 := by
    have := L.cliff
    rw [h4'] at this
    exact Fl.fin.inj this
  have h4 := L.cliff
  have hr := L.row
  obtain ⟨_, rb, cells', R, R', rate, _, hall, hcell, hl, m3, m4, hres⟩ := update_plain h L.lim.le L.regular hr L.beyond
    (barrier_near L.lim.le L.sorted hr L.beyond L.away) h0 h1 h2 h3 h4 w3 w4
  rcases hres with hres | ⟨r', hr', hrow, hr4⟩
  · exact Or.inl hres
  have hlim := limit_all hl
  have ht' : (0 : K) < (secs o.MorDt : K) := by exact_mod_cast ht
  obtain ⟨R1, hR1⟩ : ∃ R1, riverRates pp a (a.rows.mapIdx (mkCell pp a)) = .ok R1 := by
    unfold allRates at hall
    simp only [bind_ok] at hall
    obtain ⟨R1, g, _⟩ := hall
    exact ⟨R1, g⟩
  obtain ⟨p, q, t, e1, e2, e3, e4, e5⟩ := lagoon_answers hR1 (bs := bs) (nr := nr) L.chan.flag L.chan.bed L.chan.reaches L.chan.width L.chan.dep L.chan.onNodup
    L.online hr L.width L.depth L.wet h1 h3 h4 hz0 hz3 L.wide L.crest L.top L.dx
  obtain ⟨g1, g2, g3⟩ := plain_rates_on hall hR1 h1 hz0 hz3 L.part L.waves L.crest.ne' hcell e2
  obtain ⟨x3, a3, b3⟩ := clip_sign (l' := R'.y3) (lim := a.MaxMorChange) (dt := o.MorDt) L.lim (hlim.imp (congrArg Rates.y3) (fun g => ⟨g.1, g.2.2.1⟩)) g1
  obtain ⟨x4, a4, b4⟩ := clip_sign (l' := R'.y4) (lim := a.MaxMorChange) (dt := o.MorDt) L.lim (hlim.imp (congrArg Rates.y4) (fun g => ⟨g.1, g.2.2.2.1⟩))
    (by rw [g2]; exact e3)
  obtain ⟨u3, c3, d3⟩ := clip_sign (l' := R'.z3) (lim := a.MaxMorChange) (dt := o.MorDt) L.lim (hlim.imp (congrArg Rates.z3) (fun g => ⟨g.1, g.2.2.2.2.2⟩))
    (by rw [g3]; exact e1)
  set T := (secs o.MorDt : K) with hT
  have n3 : (moveCell R' (fin T) i (mkCell pp a i r)).t.y3 = fin (y3 + x3 * T) := by
    show r.y3 + (R'.y3[i]?).getD nan * _ = _
    rw [a3, h3, Option.getD_some, mul_fin, add_fin]
  have n4 : (moveCell R' (fin T) i (mkCell pp a i r)).t.y4 = fin (y4' + x4 * T) := by
    show r.y4 + (R'.y4[i]?).getD nan * _ = _
    rw [a4, h4, Option.getD_some, mul_fin, add_fin]
  simp only [Transect.mk.injEq] at hrow
  obtain ⟨_, _, _, _, ey3, _, _, _, _, ez3⟩ := hrow
  have ey4 : r'.y4 = fin (y4' + x4 * T) := by
    rw [← n4]
    refine hr4 ?_
    by_cases hx : r.x = 0
    · refine Or.inr ?_
      rw [n3, n4]
      simp only [sub_fin, blt_fin, decide_eq_false_iff_not, not_lt]
      obtain ⟨_, q3, f3⟩ := m3 _ (List.mem_of_getElem? a3)
      obtain ⟨_, q4, f4⟩ := m4 _ (List.mem_of_getElem? a4)
      cases q3
      cases q4
      have := L.mouth hx
      have d3 : -(a.MaxMorChange) ≤ x3 * T := by
        have := mul_le_mul_of_nonneg_right (neg_abs_le x3) ht'.le
        linarith
      have d4 : x4 * T ≤ a.MaxMorChange := (mul_le_mul_of_nonneg_right (le_abs_self x4) ht'.le).trans f4
      linarith
    · exact Or.inl hx
  refine Or.inr ⟨r', y3 + x3 * T, y4' + x4 * T, z3 + u3 * T, hr', ey3.trans n3, ey4, ez3.trans ?_, ?_, fun hs => ?_⟩
  · show r.z3 + (R'.z3[i]?).getD nan * _ = _
    rw [c3, hz3, Option.getD_some, mul_fin, add_fin]
  · have : Answers pp.WidthDepthRatio w d (bs.getD (nr + k) 0 - bs.getD (nr + k + 1) 0) (u3 * T) (-x4 * T) :=
      answers_keep e5 ht' d3 ⟨fun g => by have := b4.2.1 (by linarith); linarith, fun g => by rw [b4.2.2 (by rw [g, neg_zero]), neg_zero]⟩
    convert this using 1 <;> ring
  · rw [hs, mul_zero, zero_div, sub_zero] at b3
    have : Answers pp.WidthDepthRatio w d (bs.getD (nr + k) 0 - bs.getD (nr + k + 1) 0) (u3 * T) (x3 * T) :=
      answers_keep e4 ht' d3 ⟨b3.1, b3.2.2⟩
    convert this using 1 <;> ring

/-- The sample with an open outlet and water `d` deep: the lagoon, 20 m wide, gains bedload at 0 m and loses at 10 m; the ratio is 30. -/
def wiIn (d : ℚ) : MorIn ℚ := { brIn with ChanDep := List.replicate 7 (fin d) }

theorem wiIn_regular (d : ℚ) : Regular moPP (wiIn d) := by
  have h : Regular moPP brIn := by decide +kernel
  exact h

theorem wiIn_section (d : ℚ) (hd : 0 < d) (k i : ℕ) (x : ℚ) (hk : k = 0 ∧ i = 4 ∧ x = 0 ∨ k = 1 ∧ i = 5 ∧ x = 10) :
    LagoonSection moPP (wiIn d) [1/100, 1/100, 1/200, 1/100, 1/100, 1/200] 1 k i (brRow x) 20 d 100 20 0 4 (-1) 0 0 where
  lim := by norm_num [wiIn, brIn, moIn]
  regular := wiIn_regular d
  sorted := by have : brIn.rows.Pairwise (fun r s => r.x < s.x) := by decide +kernel
               exact this
  dx := by norm_num [wiIn, brIn, moIn]
  chan := ⟨rfl, rfl, rfl, rfl, rfl, by show [4, 5].Nodup; decide, by show [6].Nodup; decide, by show ∀ i ∈ [4, 5], i < brIn.rows.length; decide +kernel,
    by show ∀ i ∈ [6], i < brIn.rows.length; decide +kernel⟩
  row := by rcases hk with ⟨rfl, rfl, rfl⟩ | ⟨rfl, rfl, rfl⟩ <;> rfl
  online := by rcases hk with ⟨rfl, rfl, rfl⟩ | ⟨rfl, rfl, rfl⟩ <;> rfl
  width := by rcases hk with ⟨rfl, rfl, rfl⟩ | ⟨rfl, rfl, rfl⟩ <;> rfl
  depth := by rcases hk with ⟨rfl, rfl, rfl⟩ | ⟨rfl, rfl, rfl⟩ <;> rfl
  wet := hd
  beyond := fun _ => ⟨24, brRow (-30), brRow 30, rfl, rfl, rfl, by norm_num [wiIn, brIn, moIn, brRow], by norm_num [wiIn, brIn, moIn, brRow],
    Or.inr (by
      have hrow : ∀ q ∈ brIn.rows[6]?, q = brRow 20 := by decide +kernel
      rcases hk with ⟨rfl, rfl, rfl⟩ | ⟨rfl, rfl, rfl⟩ <;>
      · refine ⟨by norm_num [wiIn, brIn, moIn, brRow], fun j hj q hq => ?_⟩
        have hj : j = 6 := by simpa [wiIn, brIn] using hj
        subst hj
        rw [hrow q hq]
        norm_num [brRow])⟩
  away := by
    intro _ e he q hq
    cases he
    have h5 : ∀ q ∈ brIn.rows[5]?, q = brRow 10 := by decide +kernel
    have h6 : ∀ q ∈ brIn.rows[6]?, q = brRow 20 := by decide +kernel
    rcases hk with ⟨rfl, rfl, rfl⟩ | ⟨rfl, rfl, rfl⟩
    · rw [h5 q hq]; norm_num [brRow]
    · rw [h6 q hq]; norm_num [brRow]
  plain := by
    rcases hk with ⟨rfl, rfl, rfl⟩ | ⟨rfl, rfl, rfl⟩ <;>
    exact ⟨rfl, rfl, rfl, rfl, rfl, rfl, by norm_num [wiIn, brIn, moIn], 0, rfl, by norm_num [wiIn, brIn, moIn]⟩
  cliff := by rcases hk with ⟨rfl, rfl, rfl⟩ | ⟨rfl, rfl, rfl⟩ <;> rfl
  wide := by norm_num
  crest := by norm_num
  top := by norm_num [moPP, chPP]
  mouth := fun _ => by norm_num [wiIn, brIn, moIn, moPP, chPP]
  waves := by rcases hk with ⟨rfl, rfl, rfl⟩ | ⟨rfl, rfl, rfl⟩ <;> rfl
  part := by rcases hk with ⟨rfl, rfl, rfl⟩ | ⟨rfl, rfl, rfl⟩ <;> rfl

/-- Concrete cases: in water 1 m deep the lagoon widens at 10 m and its bed stays; in water half a metre deep its bed falls and its banks stay; at 0 m the bed rises. -/
example : okAnd (updateMorphology moPP cleanMem cleanMem (wiIn 1)) (fun o => decide (0 < secs o.MorDt) && !o.Breach &&
    (match o.rows[4]?, o.rows[5]? with
      | some r, some q => (fin (-1 : ℚ) <? r.z3) && r.y4 == fin (0 : ℚ) && r.y3 == fin (20 : ℚ) && q.z3 == fin (-1 : ℚ) && (q.y4 <? fin (0 : ℚ)) && (fin (20 : ℚ) <? q.y3)
      | _, _ => false)) = true := by decide +kernel
example : okAnd (updateMorphology moPP cleanMem cleanMem (wiIn (1/2))) (fun o => decide (0 < secs o.MorDt) && !o.Breach &&
    (match o.rows[4]?, o.rows[5]? with
      | some r, some q => (fin (-1 : ℚ) <? r.z3) && r.y4 == fin (0 : ℚ) && r.y3 == fin (20 : ℚ) && (q.z3 <? fin (-1 : ℚ)) && q.y4 == fin (0 : ℚ) && q.y3 == fin (20 : ℚ)
      | _, _ => false)) = true := by decide +kernel

end Verif.Props
