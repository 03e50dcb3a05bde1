import Verif.Lemmas.Plain
import Verif.Spec.Barrier
import Verif.Props.Budget

set_option autoImplicit false
set_option linter.unusedSectionVars false

/-! # C151: the barrier gains what the waves carry over it

C75 is about rates; here a barrier is followed through a whole step with all repairs and breaches. -/

namespace Verif.Props
open Verif Verif.Model Fl Verif.Spec

variable {K : Type} [Field K] [LinearOrder K] [IsStrictOrderedRing K]

/-- Away from the end of the outlet the rates are for the transect as it was. -/
theorem barrier_near {pp : PhysPars K} {a : MorIn K} (hB : 0 ≤ a.MaxMorChange) (hsort : a.rows.Pairwise (fun r s => r.x < s.x)) {i : ℕ} {r : Transect K}
    (hr : a.rows[i]? = some r) (hbey : BeyondOutlet a r) (hend : NotAtEnd a i r) (X0 rb : ℕ) (cells' : List (Cell K)) (R : Rates K)
    (hpre : precalc pp a = .ok (a.rows.mapIdx (mkCell pp a), X0, rb)) (hall : allRates pp a rb (a.rows.mapIdx (mkCell pp a)) = .ok (R, cells')) :
    cells'[i]? = some (mkCell pp a i r) := by
  have hil := (List.getElem?_eq_some_iff.mp hr).1
  rw [allRates_cells hall (fun hc => ?_), List.getElem?_mapIdx, hr]
  · rfl
  · obtain ⟨e, p, q, he, hp, _, k1, _⟩ := hbey hc
    obtain ⟨⟨f, hf, hfx⟩, hbef⟩ := firstIx_ok.mp ((precalc_rb hpre).2.1 hc)
    rw [he] at hfx
    simp only [blt_fin, decide_eq_true_eq] at hfx
    have hpos : rb ≠ 0 := by
      rintro rfl
      obtain ⟨h1, rfl⟩ := List.getElem?_eq_some_iff.mp hf
      obtain ⟨h2, rfl⟩ := List.getElem?_eq_some_iff.mp hp
      have := List.pairwise_iff_getElem.mp hsort 0 1 h1 h2 (by omega)
      linarith
    unfold prevIx
    rw [if_neg hpos]
    intro hi
    have hb := hbef i (by omega) r hr
    rw [he] at hb
    have hb : r.x ≤ e := by simpa using hb
    have : i + 1 = rb := by omega
    exact hend hc e he f (this ▸ hf) ⟨hb, hfx⟩

/-- The hypotheses of C151: transect `i` of a completed step with regular arguments is a barrier without a channel away from the
outlet; waves carry `s` per second over it, the part `w` to its back, moving crest and back by no more than MaxMorChange. -/
structure Washed (pp : PhysPars K) (a : MorIn K) (o : MorOut K) (i : ℕ) (r : Transect K) (y y3 z0 z3 s w : K) : Prop where
  lim : 0 ≤ a.MaxMorChange
  regular : Regular pp a
  sorted : a.rows.Pairwise (fun r s => r.x < s.x)
  row : a.rows[i]? = some r
  barrier : PlainBarrier a.MaxMorChange r y y3 z0 z3
  beyond : BeyondOutlet a r
  away : NotAtEnd a i r
  waves : a.CST[i]? = some (fin s)
  part : a.OverwashProp[i]? = some (fin w)
  crest : |crestRise s w y y3| * (secs o.MorDt : K) ≤ a.MaxMorChange
  back : |backShift s w z0 z3| * (secs o.MorDt : K) ≤ a.MaxMorChange

theorem Washed.apart {pp : PhysPars K} {a : MorIn K} {o : MorOut K} {i : ℕ} {r : Transect K} {y y3 z0 z3 s w : K} (W : Washed pp a o i r y y3 z0 z3 s w) :
    z0 ≠ z3 := by
  obtain ⟨_, h1, _, _, hz0, hz3, _⟩ := W.barrier
  have := (W.regular.2.2.2.2.2.2.1 r (List.mem_of_getElem? W.row)).2.2
  rw [if_pos (by rw [h1]; rfl), hz0, hz3] at this
  exact this.2

/-- C151.  In a completed step such a barrier, unless it is breached there, stays without a channel and its crest rises by the
volume the waves leave on it over its width.  Where the river does not flow behind it, its back moves by the volume they carry over it
over its height, and the lagoon bed does not move, nor (but at the river) the cliff. -/
theorem C151_barrier (pp : PhysPars K) (j1 j2 : ℕ → Bool) (a : MorIn K) (o : MorOut K) (h : updateMorphology pp j1 j2 a = .ok o)
    (i : ℕ) (r : Transect K) (y y3 z0 z3 s w : K) (W : Washed pp a o i r y y3 z0 z3 s w) :
    BreachedAt o r.x ∨ ∃ r', o.rows[i]? = some r' ∧ r'.x = r.x ∧ r'.y1 = nan ∧ r'.y2 = nan ∧
      r'.z0 = fin (z0 + crestRise s w y y3 * (secs o.MorDt : K)) ∧
      (i ∉ a.online → r'.y3 = fin (y3 - backShift s w z0 z3 * (secs o.MorDt : K)) ∧ r'.z3 = fin z3 ∧ (r.x ≠ 0 → r'.y4 = r.y4)) := by
  obtain ⟨h0, h1, h2, h3, hz0, hz3, w3, y4, h4, w4⟩ := W.barrier
  have hne : y ≠ y3 := by
    have := W.lim
    intro he
    rw [he] at w3
    linarith
  have hb := W.apart
  obtain ⟨_, rb, cells', R, R', rate, _, hall, hcell, hl, _, _, hres⟩ := update_plain h W.lim W.regular W.row W.beyond (barrier_near W.lim W.sorted W.row W.beyond W.away) h0 h1 h2 h3 h4 w3 w4
  obtain ⟨k1, k2⟩ := plain_rates hall W.row h0 h1 h3 hz0 hz3 W.part W.waves hne hb hcell
  rcases hres with hres | ⟨r', hr', hrow, hr4⟩
  · exact Or.inl hres
  refine Or.inr ⟨r', hr', ?_⟩
  have hcl := limit_cases hl
  have hs0 : (0 : K) ≤ (secs o.MorDt : K) := by exact_mod_cast secs_nonneg o.MorDt
  have q1 : R'.z0[i]? = some (fin (crestRise s w y y3)) := by
    rcases hcl with rfl | ⟨hs, _, _, e, _⟩
    · exact k1
    · rw [e]; exact clip_col (by exact_mod_cast hs) k1 W.crest
  have q2 : i ∉ a.online → R'.y3[i]? = some (fin (-backShift s w z0 z3)) ∧ R'.y4[i]? = some (fin 0) ∧ R'.z3[i]? = some (fin 0) := by
    intro hi
    obtain ⟨m1, m2, m3⟩ := k2 hi
    rcases hcl with rfl | ⟨hs, e3, e4, _, e5⟩
    · exact ⟨m1, m2, m3⟩
    · have hs' : (0 : K) < (secs o.MorDt : K) := by exact_mod_cast hs
      have hz : |(0 : K)| * (secs o.MorDt : K) ≤ a.MaxMorChange := by rw [abs_zero, zero_mul]; exact W.lim
      exact ⟨by rw [e3]; exact clip_col hs' m1 (by rw [abs_neg]; exact W.back), by rw [e4]; exact clip_col hs' m2 hz, by rw [e5]; exact clip_col hs' m3 hz⟩
  simp only [Transect.mk.injEq] at hrow
  obtain ⟨ex, _, ey1, ey2, ey3, _, ez0, _, _, ez3⟩ := hrow
  refine ⟨ex, ey1.trans ?_, ey2.trans ?_, ez0.trans ?_, fun hi => ⟨ey3.trans ?_, ez3.trans ?_, fun hx => (hr4 (Or.inl hx)).trans ?_⟩⟩
  · show r.y1 + _ = nan
    rw [h1, nan_add']
  · show r.y2 + _ = nan
    rw [h2, nan_add']
  · show r.z0 + (R'.z0[i]?).getD nan * _ = _
    rw [q1, hz0, Option.getD_some, mul_fin, add_fin]
  · show r.y3 + (R'.y3[i]?).getD nan * _ = _
    rw [(q2 hi).1, h3, Option.getD_some, mul_fin, add_fin]
    congr 1; ring
  · show r.z3 + (R'.z3[i]?).getD nan * _ = _
    rw [(q2 hi).2.2, hz3, Option.getD_some, mul_fin, add_fin]
    congr 1; ring
  · show r.y4 + (R'.y4[i]?).getD nan * _ = _
    rw [(q2 hi).2.1, h4, Option.getD_some, mul_fin, add_fin]
    congr 1; ring

/-- C151 as a balance: where the river does not flow behind it, the barrier gains what the waves carry over it. -/
theorem C151_volume (pp : PhysPars K) (j1 j2 : ℕ → Bool) (a : MorIn K) (o : MorOut K) (h : updateMorphology pp j1 j2 a = .ok o)
    (i : ℕ) (r : Transect K) (y y3 z0 z3 s w : K) (W : Washed pp a o i r y y3 z0 z3 s w) (hi : i ∉ a.online) :
    BreachedAt o r.x ∨ ∃ r' z0' y3', o.rows[i]? = some r' ∧ r'.z0 = fin z0' ∧ r'.y3 = fin y3' ∧
      barrierGain (y - y3) (z0 - z3) z0 y3 z0' y3' = s * (secs o.MorDt : K) := by
  rcases C151_barrier pp j1 j2 a o h i r y y3 z0 z3 s w W with hb | ⟨r', hr', _, _, _, e1, e2⟩
  · exact Or.inl hb
  · refine Or.inr ⟨r', _, _, hr', e1, (e2 hi).1, ?_⟩
    obtain ⟨_, _, _, _, _, _, w3, _⟩ := W.barrier
    have := W.lim
    have h1 : y - y3 ≠ 0 := by intro he; rw [he] at w3; linarith
    have h2 : z0 - z3 ≠ 0 := sub_ne_zero.mpr W.apart
    unfold barrierGain crestRise backShift
    field_simp
    ring

/-- A barrier that no wave gets over keeps its height and, where the river does not flow behind it, its place. -/
theorem C151_dry (pp : PhysPars K) (j1 j2 : ℕ → Bool) (a : MorIn K) (o : MorOut K) (h : updateMorphology pp j1 j2 a = .ok o)
    (i : ℕ) (r : Transect K) (y y3 z0 z3 w : K) (W : Washed pp a o i r y y3 z0 z3 0 w) :
    BreachedAt o r.x ∨ ∃ r', o.rows[i]? = some r' ∧ r'.z0 = r.z0 ∧ (i ∉ a.online → r'.y3 = r.y3) := by
  rcases C151_barrier pp j1 j2 a o h i r y y3 z0 z3 0 w W with hb | ⟨r', hr', _, _, _, e1, e2⟩
  · exact Or.inl hb
  · obtain ⟨_, _, _, h3, hz0, _⟩ := W.barrier
    refine Or.inr ⟨r', hr', ?_, fun hi => ?_⟩
    · rw [e1, hz0]; unfold crestRise; simp
    · rw [(e2 hi).1, h3]; unfold backShift; simp

/-- With C146: beach and barrier of a closed lagoon together gain what longshore transport brings.  Waves that wash over move
sediment without making or losing any. -/
theorem C151_sum (pp : PhysPars K) (j1 j2 : ℕ → Bool) (a : MorIn K) (o : MorOut K) (h : updateMorphology pp j1 j2 a = .ok o) (hs ls cs : ℕ → K)
    (B : Beach pp a hs ls cs) (hc : a.Closed = true) (i : ℕ) (hi0 : 0 < i) (hi1 : i + 1 < a.rows.length) (hi : i ∉ a.online)
    (r : Transect K) (y y3 z0 z3 w : K) (W : Washed pp a o i r y y3 z0 z3 (cs i) w)
    (hx : |ls (i - 1) - ls i - a.Dx * cs i| * (secs o.MorDt : K) ≤ a.MaxMorChange * hs i * a.Dx) :
    BreachedAt o r.x ∨ ∃ r' y' z0' y3', o.rows[i]? = some r' ∧ r'.y0 = fin y' ∧ r'.z0 = fin z0' ∧ r'.y3 = fin y3' ∧
      (y' - y) * hs i * a.Dx + barrierGain (y - y3) (z0 - z3) z0 y3 z0' y3' * a.Dx = (ls (i - 1) - ls i) * (secs o.MorDt : K) := by
  rcases C151_volume pp j1 j2 a o h i r y y3 z0 z3 _ w W hi with hb | ⟨r', z0', y3', hr', e1, e2, e3⟩
  · exact Or.inl hb
  · obtain ⟨h0, h1, h2, h3, _, _, w3, y4, h4, w4⟩ := W.barrier
    obtain ⟨r2, y', hr2, f1, f2⟩ := C146_partial_closed pp j1 j2 a o h hs ls cs B W.lim W.regular hc i hi0 hi1 r W.row y ⟨h0, h1, h2, y3, y4, h3, h4, w3, w4⟩ hx
    rw [hr'] at hr2
    cases hr2
    refine Or.inr ⟨r', y', z0', y3', hr', f1, e1, e2, ?_⟩
    rw [f2, e3]
    ring

/-- The sample of C146 with a quarter of what the waves carry going to the back of the barrier. -/
def baIn : MorIn ℚ := { buIn with OverwashProp := List.replicate 9 (fin (1/4)) }

/-- Concrete case: transect 2 of the sample, a closed lagoon.  All hypotheses hold, there is no breach, the crest rises and
the back moves. -/
theorem baIn_washed (o : MorOut ℚ) (ho : secs o.MorDt = 240) : Washed moPP baIn o 2 { brRow 0 with x := -20 } 100 20 4 (-1) (1/2000) (1/4) where
  lim := by norm_num [baIn, buIn, brIn, moIn]
  regular := by decide +kernel
  sorted := by decide +kernel
  row := by decide +kernel
  barrier := ⟨rfl, rfl, rfl, rfl, rfl, rfl, by norm_num [baIn, buIn, brIn, moIn], 0, rfl, by norm_num [baIn, buIn, brIn, moIn]⟩
  beyond := fun hf => by cases hf
  away := fun hf => by cases hf
  waves := by decide +kernel
  part := by decide +kernel
  crest := by rw [ho]; norm_num [crestRise, baIn, buIn, brIn, moIn, abs_of_pos]
  back := by rw [ho]; norm_num [backShift, baIn, buIn, brIn, moIn, abs_of_pos]

example : okAnd (updateMorphology moPP cleanMem cleanMem baIn) (fun o => decide (secs o.MorDt = 240) && !o.Breach && !baIn.online.contains 2 && (match o.rows[2]? with
    | some r => r.z0 == fin (4 + 3/4 * (1/2000) / 80 * 240 : ℚ) && r.y3 == fin (20 - 1/4 * (1/2000) / 5 * 240 : ℚ) && !(r.z0 == fin 4)
    | none => false)) = true := by decide +kernel

/-- The same with an open outlet, at the transect right of it. -/
def boIn : MorIn ℚ := { brIn with CST := List.replicate 9 (fin (1/2000)), OverwashProp := List.replicate 9 (fin (1/4)) }

theorem boIn_washed (o : MorOut ℚ) (ho : secs o.MorDt = 240) : Washed moPP boIn o 7 (brRow 30) 100 20 4 (-1) (1/2000) (1/4) where
  lim := by norm_num [boIn, brIn, moIn]
  regular := by decide +kernel
  sorted := by decide +kernel
  row := by decide +kernel
  barrier := ⟨rfl, rfl, rfl, rfl, rfl, rfl, by norm_num [boIn, brIn, moIn], 0, rfl, by norm_num [boIn, brIn, moIn]⟩
  beyond := fun _ => ⟨24, brRow (-30), brRow 30, rfl, rfl, rfl, by norm_num [brRow, boIn, brIn, moIn],
    by norm_num [brRow, boIn, brIn, moIn], Or.inl ⟨by norm_num [brRow, boIn, brIn, moIn], by decide +kernel⟩⟩
  away := fun _ e he q _ hh => by
    have h1 : (brRow 30).x = 30 := rfl
    have h2 : boIn.EndX1 = fin 24 := rfl
    rw [h2] at he
    cases he
    rw [h1] at hh
    norm_num at hh
  waves := by decide +kernel
  part := by decide +kernel
  crest := by rw [ho]; norm_num [crestRise, boIn, brIn, moIn, abs_of_pos]
  back := by rw [ho]; norm_num [backShift, boIn, brIn, moIn, abs_of_pos]

example : okAnd (updateMorphology moPP cleanMem cleanMem boIn) (fun o => decide (secs o.MorDt = 240) && !o.Breach && !boIn.online.contains 7 && (match o.rows[7]? with
    | some r => r.z0 == fin (4 + 3/4 * (1/2000) / 80 * 240 : ℚ) && r.y3 == fin (20 - 1/4 * (1/2000) / 5 * 240 : ℚ) && !(r.z0 == fin 4)
    | none => false)) = true := by decide +kernel

end Verif.Props
