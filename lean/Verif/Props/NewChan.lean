import Verif.Lemmas.NewChan
import Verif.Props.MorSample

set_option autoImplicit false
set_option linter.unusedSectionVars false

/-! # C148: where outlet channels appear -/

namespace Verif.Props
open Verif Verif.Model Fl Verif.Spec

variable {K : Type} [Field K] [LinearOrder K] [IsStrictOrderedRing K]

/-- C148 for a closed lagoon, whatever the arguments: a transect without a channel gets one only in a breach, and then
both ends of the outlet are at that transect. -/
theorem C148_closed (pp : PhysPars K) (j1 j2 : ℕ → Bool) (a : MorIn K) (o : MorOut K) (h : updateMorphology pp j1 j2 a = .ok o) (hc : a.Closed = true)
    (i : ℕ) (r r' : Transect K) (hr : a.rows[i]? = some r) (hn : r.y1 = nan) (hr' : o.rows[i]? = some r') (hn' : r'.y1 ≠ nan) :
    o.Breach = true ∧ o.EndX0 = fin r.x ∧ o.EndX1 = fin r.x := by
  rcases update_new h hr hn hr' hn' with k | ⟨k, _⟩
  · exact k
  · rw [hc] at k; cases k

/-- C148, partial: a transect without a channel gets one only in a breach, both ends of the outlet then being at that transect, or
in an open lagoon when the end of the outlet, having moved by no more than MaxMorChange, passes it on its way from the last transect of the
outlet channel.  Missing: outlets within MaxMorChange of the second or last-but-one transect, for which it is false, see below. -/
theorem C148_partial (pp : PhysPars K) (j1 j2 : ℕ → Bool) (a : MorIn K) (o : MorOut K) (h : updateMorphology pp j1 j2 a = .ok o) (hB : 0 ≤ a.MaxMorChange)
    (hreg : Regular pp a) (x1 p q : K) (hx : a.Closed = false → a.EndX1 = fin x1)
    (hp : (a.rows[1]?).map (·.x) = some p) (hq : (a.rows[a.rows.length - 2]?).map (·.x) = some q)
    (hin : a.Closed = false → p + a.MaxMorChange ≤ x1 ∧ x1 ≤ q - a.MaxMorChange)
    (i : ℕ) (r r' : Transect K) (hr : a.rows[i]? = some r) (hn : r.y1 = nan) (hr' : o.rows[i]? = some r') (hn' : r'.y1 ≠ nan) :
    (o.Breach = true ∧ o.EndX0 = fin r.x ∧ o.EndX1 = fin r.x) ∨
    (a.Closed = false ∧ ∃ l last e, a.outlet.getLast? = some l ∧ a.rows[l]? = some last ∧ |e - x1| ≤ a.MaxMorChange ∧ Reached last.x e r.x) := by
  rcases update_new h hr hn hr' hn' with k | ⟨hc, X0, s0, s1, l, last, g0, g1, hl, hlast, hsw⟩
  · exact Or.inl k
  refine Or.inr ⟨hc, l, last, ?_⟩
  obtain ⟨fix, fx, _⟩ := force_new g0
  obtain ⟨rb, cells', R, R', rate, hpre, hall, hrt, hdt, hlim, ha⟩ := force_inv g0
  have hF := regular_finite hreg hpre hall
  obtain ⟨hsm, _⟩ := limit_small hB hF hrt hlim
  simp only [Rates.cols, List.mem_cons, List.not_mem_nil, or_false, forall_eq_or_imp, forall_eq] at hsm
  obtain ⟨_, _, _, _, _, _, _, _, _, _, _, xe, hxe, be⟩ := hsm
  have hs0 : (0 : K) ≤ (secs o.MorDt : K) := by exact_mod_cast secs_nonneg o.MorDt
  have he1 : s0.e1 = fin (x1 + xe * (secs o.MorDt : K)) := by
    unfold applyRates at ha
    simp only at ha
    split at ha
    · cases ha
    · cases ha
      show (if a.Closed = true then a.EndX1 else a.EndX1 + R'.endX * fin (secs o.MorDt : K)) = _
      rw [if_neg (by rw [hc]; simp), hx hc, hxe, mul_fin, add_fin]
  have habs : |xe * (secs o.MorDt : K)| ≤ a.MaxMorChange := by rw [abs_mul, abs_of_nonneg hs0]; exact be
  obtain ⟨hb1, hb2⟩ := abs_le.mp habs
  obtain ⟨hi1, hi2⟩ := hin hc
  have hlen : s0.cells.length = a.rows.length := by
    have := congrArg List.length fx
    simpa using this
  have pos : ∀ (j : ℕ) (v : K), (a.rows[j]?).map (·.x) = some v → ∃ c, s0.cells[j]? = some c ∧ c.t.x = v := by
    intro j v hv
    have := congrArg (fun l => l[j]?) fx
    simp only [List.getElem?_map] at this
    rw [hv] at this
    exact Option.map_eq_some_iff.mp this
  obtain ⟨cp, hcp, ep⟩ := pos 1 p hp
  obtain ⟨cq, hcq, eq⟩ := pos _ q hq
  have hend : s1.e1 = s0.e1 := edge_far g1 ⟨_, cp, cq, he1, hcp, by rw [hlen]; exact hcq, by rw [ep]; linarith, by rw [eq]; linarith⟩
  rw [hend, he1] at hsw
  refine ⟨_, hl, hlast, by rw [add_sub_cancel_left]; exact habs, ?_⟩
  unfold Swept at hsw
  simp only [ble_fin, decide_eq_true_eq] at hsw
  exact hsw

/-- Concrete case for C148: with the end of the outlet between the transects at 20 m and 30 m the transect at 30 m gets a channel in the
step in which the end moves from 29.9 m past it. -/
def ncIn : MorIn ℚ := { brIn with rows := brIn.rows ++ [brRow 50], EndX1 := fin (299/10), LST := List.replicate 9 (fin 50), CST := List.replicate 10 (fin 0),
                                   LagoonWL := List.replicate 10 (fin 1), OutletDep := List.replicate 10 (fin 1), OverwashProp := List.replicate 10 (fin 0) }

example : okAnd (updateMorphology moPP cleanMem cleanMem ncIn) (fun o => decide (Regular moPP ncIn ∧ o.rows.map (·.y1.isnan) = [true, true, true, true, true, true, false, false, true, true] ∧
    ncIn.rows.map (·.y1.isnan) = [true, true, true, true, true, true, false, true, true, true] ∧ o.EndX1 = fin (299/10 + 1/4))) = true := by
  decide +kernel

/-- An outlet along the coast which ends at the last-but-one transect, with longshore transport to the right. -/
def edIn : MorIn ℚ :=
  { brIn with
    rows := brIn.rows.set 7 { brRow 20 with x := 30 }, outlet := [6, 7], EndX1 := fin 30, LST := List.replicate 8 (fin 50),
    ChanWidth := [fin 70, fin 70, fin 20, fin 20, fin 5, fin 5, fin 6, fin 6], ChanDep := List.replicate 8 (fin 1),
    ChanFlag := [0, 0, 1, 1, 2, 2, 3, 4],
    Bedload := [fin (1/100), fin (1/100), fin (1/200), fin (1/100), fin (1/100), fin (1/100), fin (1/200)] }

/-- C148 is false as stated: when the outlet gets to the right edge of the domain, with the river at 0 m and the outlet from 15 m to 30 m,
all transects from -30 m to 10 m get a channel, without a breach. -/
theorem C148_refuted : ∃ o, updateMorphology moPP cleanMem cleanMem edIn = .ok o ∧ Regular moPP edIn ∧ o.Breach = false ∧
    edIn.rows.map (fun r => (r.x, r.y1.isnan)) = [(-40, true), (-30, true), (-20, true), (-10, true), (0, true), (10, true), (20, false), (30, false), (40, true)] ∧
    o.rows.map (fun r => (r.x, r.y1.isnan)) = [(-40, true), (-30, false), (-20, false), (-10, false), (0, false), (10, false), (20, false), (30, false), (40, true)] := by
  obtain ⟨o, h, p⟩ := ok_witness (x := updateMorphology moPP cleanMem cleanMem edIn) (fun o : MorOut ℚ => Regular moPP edIn ∧ o.Breach = false ∧
    edIn.rows.map (fun r => (r.x, r.y1.isnan)) = [(-40, true), (-30, true), (-20, true), (-10, true), (0, true), (10, true), (20, false), (30, false), (40, true)] ∧
    o.rows.map (fun r => (r.x, r.y1.isnan)) = [(-40, true), (-30, false), (-20, false), (-10, false), (0, false), (10, false), (20, false), (30, false), (40, true)]) (by decide +kernel)
  exact ⟨o, h, p⟩

/-- Concrete case for the closed lagoon: high water breaks through the barrier at 0 m, where the channel appears. -/
def ncClosed : MorIn ℚ := { moClosed with LagoonWL := List.replicate 7 (fin 5) }

example : okAnd (updateMorphology moPP cleanMem cleanMem ncClosed) (fun o => decide (o.Breach = true ∧
    (ncClosed.rows.zip o.rows).map (fun (r, s) => (r.y1.isnan, s.y1.isnan)) = (o.rows.map (fun s => if fin s.x == o.EndX0 then (true, false) else (s.y1.isnan, s.y1.isnan))))) = true := by
  decide +kernel

end Verif.Props
