import Verif.Lemmas.ChannelArea
import Verif.Props.Channel

set_option autoImplicit false
set_option linter.unusedSectionVars false

/-! # Property C27: lagoon area is accounted for exactly once

The claim: `Σ LagArea + Dx * Σ (widths of online transects) = Dx * Σ (widths of all transects)`. -/

namespace Verif.Props
open Verif Verif.Model Verif.Spec Fl

variable {K : Type} [Field K] [LinearOrder K] [IsStrictOrderedRing K] [FloorRing K]

/-- C27, partial: the identity holds for lagoon widths that are non-negative numbers `W`, when the
outlet does not start in line with the river, no transect is exactly at the upstream end of an
open outlet, and at least two lagoon transects are online.  Missing: those three cases, in which it
fails (below). -/
theorem C27_partial (pp : PhysPars K) (a : ChanIn K) (out : ChanOut K) (W : Transect K → K)
    (hs : a.rows.Pairwise (fun r s => r.x < s.x))
    (hW : ∀ r ∈ a.rows, r.y3 - r.y4 = fin (W r) ∧ 0 ≤ W r)
    (h : assembleChannel pp a = .ok out)
    (hinline : (a.EndX0 ==? fin 0) = false)
    (hat : a.Closed = false → ∀ r ∈ a.rows, (fin r.x ==? a.EndX0) = false)
    (htwo : 2 ≤ out.online.length) :
    ∃ (A : K) (onRows : List (Transect K)), Fl.sum out.lagArea = fin A ∧ out.online.map (fun i => a.rows[i]?) = onRows.map some ∧
      A + a.Dx * (onRows.map W).sum = a.Dx * (a.rows.map W).sum := by
  obtain ⟨X0, r0, w, C1, s1, s, onRows, outRows, H⟩ := assemble_inv h
  obtain ⟨_, rows1, hr1, _, hsa, _, _, hc⟩ := cut_inv H.cut
  have hC1 : C1 = false → a.Closed = false := by
    intro hC
    rcases outlet_inv H.outlet with ⟨_, _, h3⟩ | ⟨h3, _⟩
    · rw [hC] at h3; cases h3
    · exact h3
  obtain ⟨A, B, hA, hB, hAB⟩ := lagoon_area (W := W) hs H.x0 hW hinline (fun hC => hat (hC1 hC)) (by
    intro r hr
    rw [H.hr0] at hr; cases hr
    have := H.w0
    rw [show lagWidth r0 = fin (W r0) from (hW r0 (List.mem_of_getElem? H.hr0)).1] at this
    simpa using this) H.lag hr1
  have hrow1 : ∀ r ∈ rows1, r ∈ a.rows := fun r hr => by
    obtain ⟨i, _, hi⟩ := mem_gather hr1 hr
    exact List.mem_of_getElem? hi
  have hend : ∃ B', s.endArea = fin B' ∧ A + B' + (onRows.map W).sum * a.Dx = (a.rows.map W).sum * a.Dx := by
    rcases hc with ⟨rfl, _, _⟩ | ⟨k, r, _, _, hk, _, _, _, hea, _⟩
    · have : onRows = rows1 := by
        have := H.hon; rw [hr1] at this; cases this; rfl
      subst this
      exact ⟨B, hB, hAB⟩
    · have h1 := gather_take k hr1
      rw [← hk, H.hon] at h1
      cases h1
      refine ⟨B + ((rows1.drop k).map W).sum * a.Dx, ?_, ?_⟩
      · rw [hea, hB, lagAreaOf_fin a.Dx W _ (fun r hr => (hW r (hrow1 r (List.mem_of_mem_drop hr))).1)]; rfl
      · rw [← hAB]
        have h3 : ((rows1.take k).map W).sum + ((rows1.drop k).map W).sum = (rows1.map W).sum := by
          rw [← List.sum_append, ← List.map_append, List.take_append_drop]
        rw [← h3]; ring
  obtain ⟨B', hB', hfin⟩ := hend
  refine ⟨A + B', onRows, ?_, by rw [H.online]; exact gather_ok.mp H.hon, by rw [mul_comm a.Dx, mul_comm a.Dx]; exact hfin⟩
  have hg := H.geom
  unfold chanGeom at hg
  simp only [Prod.mk.injEq] at hg
  rw [hg.2.2.2.2.1, hsa, hA, hB']
  rw [H.online] at htwo
  have := H.lens.1
  apply sum_set_two
  · omega
  all_goals simp; omega

/-- The claimed identity, computed. -/
def areaBalanced (a : ChanIn ℚ) (out : ChanOut ℚ) : Bool :=
  okAnd (gather a.rows out.online) (fun on =>
    Fl.sum out.lagArea + fin a.Dx * Fl.sum (on.map (fun r => r.y3 - r.y4)) ==?
      fin a.Dx * Fl.sum (a.rows.map (fun r => r.y3 - r.y4)))

/-- C27 is false when the outlet starts in line with the river. -/
theorem C27_refuted_inline : ∃ (a : ChanIn ℚ) (out : ChanOut ℚ), assembleChannel chPP a = .ok out ∧
    a.EndX0 = fin 0 ∧ out.closed = false ∧ areaBalanced a out = false := by
  let a : ChanIn ℚ := { chIn with
    rows := chIn.rows.map (fun r => { r with
      y1 := if r.x = 0 then fin 60 else nan
      y2 := if r.x = 0 then fin 55 else nan })
    EndX0 := fin 0
    EndX1 := fin 4 }
  obtain ⟨out, h1, h2, h3⟩ := ok_witness (x := assembleChannel chPP a) (fun out => out.closed = false ∧ areaBalanced a out = false) (by decide +kernel)
  exact ⟨a, out, h1, rfl, h2, h3⟩

/-- C27 is false with a single online transect: the area upstream of the river is overwritten. -/
theorem C27_refuted_single : ∃ (a : ChanIn ℚ) (out : ChanOut ℚ), assembleChannel chPP a = .ok out ∧
    out.online.length = 1 ∧ (a.EndX0 ==? fin 0) = false ∧ (∀ r ∈ a.rows, (fin r.x ==? a.EndX0) = false) ∧ areaBalanced a out = false := by
  let a : ChanIn ℚ := { chIn with
    rows := chIn.rows.map (fun r => { r with
      y1 := if r.x = 10 then fin 60 else nan
      y2 := if r.x = 10 then fin 55 else nan })
    EndX0 := fin 5
    EndX1 := fin 14 }
  obtain ⟨out, h1, h2, h3⟩ := ok_witness (x := assembleChannel chPP a) (fun out => out.online.length = 1 ∧ areaBalanced a out = false) (by decide +kernel)
  exact ⟨a, out, h1, h2, by decide +kernel, by decide +kernel, h3⟩

/-- C27 is false with a transect exactly at the upstream end of the outlet: its lagoon area is
counted nowhere. -/
theorem C27_refuted_at_end : ∃ (a : ChanIn ℚ) (out : ChanOut ℚ), assembleChannel chPP a = .ok out ∧
    2 ≤ out.online.length ∧ (a.EndX0 ==? fin 0) = false ∧ areaBalanced a out = false := by
  let a : ChanIn ℚ := { chIn with EndX0 := fin 20 }
  obtain ⟨out, h1, h2, h3⟩ := ok_witness (x := assembleChannel chPP a) (fun out => 2 ≤ out.online.length ∧ areaBalanced a out = false) (by decide +kernel)
  exact ⟨a, out, h1, h2, by decide +kernel, h3⟩

/-- The hypotheses of `C27_partial` are met, and the identity holds, for the sample channel. -/
example : okAnd (assembleChannel chPP chIn) (fun out => decide (2 ≤ out.online.length) && areaBalanced chIn out) = true := by decide +kernel
example : (chIn.EndX0 ==? fin 0) = false ∧ (∀ r ∈ chIn.rows, (fin r.x ==? chIn.EndX0) = false) ∧
    ∀ r ∈ chIn.rows, r.y3 - r.y4 = fin 20 ∧ (0:ℚ) ≤ 20 := by decide +kernel

end Verif.Props
