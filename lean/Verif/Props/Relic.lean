import Verif.Lemmas.Relic
import Verif.Props.MorSample

set_option autoImplicit false
set_option linter.unusedSectionVars false

/-! # C149: relic channels of a closed lagoon stay -/

namespace Verif.Props
open Verif Verif.Model Fl Verif.Spec

variable {K : Type} [Field K] [LinearOrder K] [IsStrictOrderedRing K]

/-- C149: in a completed step of a closed lagoon with regular arguments and no (or only one) outlet transect, a channel at least twice
MaxMorChange wide, which is as far from the lagoon and from the sea, is still there after the step: its banks and bed have moved by at most MaxMorChange, and
the inner crest has the same height.  The only exception is a breach at that very transect. -/
theorem C149_stays (pp : PhysPars K) (j1 j2 : ℕ → Bool) (a : MorIn K) (o : MorOut K) (h : updateMorphology pp j1 j2 a = .ok o) (hB : 0 ≤ a.MaxMorChange)
    (hreg : Regular pp a) (hC : a.Closed = true) (hout : a.outlet.length ≤ 1) (i : ℕ) (r : Transect K) (hr : a.rows[i]? = some r) (y1 y2 z1 : K)
    (hw : WideChannel a.MaxMorChange r y1 y2) (hz : r.z1 = fin z1) :
    (o.Breach = true ∧ o.EndX0 = fin r.x ∧ o.EndX1 = fin r.x) ∨
    ∃ r' y1' y2' z1', o.rows[i]? = some r' ∧ r'.y1 = fin y1' ∧ r'.y2 = fin y2' ∧ r'.z1 = fin z1' ∧ r'.z2 = r.z2 ∧
      |y1' - y1| ≤ a.MaxMorChange ∧ |y2' - y2| ≤ a.MaxMorChange ∧ |z1' - z1| ≤ a.MaxMorChange := by
  obtain ⟨X0, s0, s1, s2, s3, g0, g1, g2, g3, e, eX0, eX1, _⟩ := update_inv h
  obtain ⟨y0, y3, y4, e0, e1, e2, e3, e4, w1, w2, w3, w4⟩ := hw
  obtain ⟨fix, c, hc, hx, hz2, hmv⟩ := force_moved g0 hB hreg hC hr
  simp only [List.mem_cons, List.not_mem_nil, or_false, forall_eq_or_imp, forall_eq] at hmv
  obtain ⟨m0, m1, m2, m3, m4, mz⟩ := hmv
  obtain ⟨u0, f0, d0⟩ := m0 _ e0
  obtain ⟨u1, f1, d1⟩ := m1 _ e1
  obtain ⟨u2, f2, d2⟩ := m2 _ e2
  obtain ⟨u3, f3, d3⟩ := m3 _ e3
  obtain ⟨u4, f4, d4⟩ := m4 _ e4
  obtain ⟨v1, fz, dz⟩ := mz _ hz
  have D0 := abs_le.mp d0
  have D1 := abs_le.mp d1
  have D2 := abs_le.mp d2
  have D3 := abs_le.mp d3
  have D4 := abs_le.mp d4
  have hs : SafeT c.t := ⟨u0, u1, u2, u3, u4, f0, f1, f2, f3, f4, by linarith, by linarith, by linarith, by linarith⟩
  rw [hC] at g1
  obtain ⟨c1, hc1, k1⟩ := repair_safe g1 (by rw [fix]; exact hout) hc hs
  obtain ⟨c2, hc2, k2⟩ := breach_safe g2 hc1 (by rw [k1]; exact hs)
  unfold finishStage at g3
  simp only [bind_ok, pure_ok, pyAssert_ok] at g3
  obtain ⟨_, _, _, _, _, _, rfl⟩ := g3
  rcases k2 with k2 | ⟨kB, k3, k4⟩
  · right
    rw [k1] at k2
    obtain ⟨c3, hc3, r1, r2, r3, r4⟩ := forall₂_get (forall₂_modify' (R := fun c c' : Cell K => c'.t.y1 = c.t.y1 ∧ c'.t.y2 = c.t.y2 ∧ c'.t.z1 = c.t.z1 ∧ c'.t.z2 = c.t.z2)
      (fun _ => ⟨rfl, rfl, rfl, rfl⟩) (fun c => by unfold keepCell; split <;> exact ⟨rfl, rfl, rfl, rfl⟩) s2.cells X0 (f := keepCell pp)) hc2
    unfold KeptT at k2
    rw [k2] at r1 r2 r3 r4
    exact ⟨c3.t, u1, u2, v1, by rw [e, List.getElem?_map, hc3]; rfl, r1.trans f1, r2.trans f2, r3.trans fz, r4.trans hz2, d1, d2, dz⟩
  · left
    rw [k1, hx] at k3 k4
    exact ⟨kB, eX0.trans k3, eX1.trans k4⟩

/-- A closed lagoon with a relic channel at 20 m. -/
def rlIn : MorIn ℚ :=
  { brIn with
    Closed := true, EndX0 := nan, online := [4, 5, 6, 7, 8], outlet := [], MaxMorChange := 1/4,
    ChanWidth := [fin 70, fin 70, fin 20, fin 20, fin 20, fin 20, fin 20], ChanDep := List.replicate 7 (fin 1),
    ChanFlag := [0, 0, 1, 1, 1, 1, 1], Bedload := [fin (1/100), fin (1/100), fin (1/200), fin (1/100), fin (1/100), fin 0] }

/-- Concrete case for C149: the hypotheses hold for the channel at 20 m (the seventh transect), which is still there after the step. -/
example : okAnd (updateMorphology moPP cleanMem cleanMem rlIn) (fun o => decide (o.Breach = false ∧ Regular moPP rlIn ∧
    rlIn.rows[6]? = some (brRow 20) ∧
    (o.rows[6]?).map (fun r : Transect ℚ => [r.y1, r.y2, r.z1, r.z2]) = some [fin 60, fin 55, fin 0, fin 3])) = true := by
  decide +kernel

example : WideChannel (1/4) (brRow 20) 60 55 := ⟨100, 20, 0, rfl, rfl, rfl, rfl, rfl, by norm_num, by norm_num, by norm_num, by norm_num⟩

end Verif.Props
