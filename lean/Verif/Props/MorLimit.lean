import Verif.Lemmas.MorLimit
import Verif.Lemmas.Regular
import Verif.Props.MorSample

set_option autoImplicit false
set_option linter.unusedSectionVars false

/-! # Property C34: forced change per step is limited -/

namespace Verif.Props
open Verif Verif.Model Verif.Spec Fl

variable {K : Type} [Field K] [LinearOrder K] [IsStrictOrderedRing K]

/-- No entry is infinite. -/
def PlainRow (r : Transect K) : Prop :=
  Plain r.y0 ∧ Plain r.y1 ∧ Plain r.y2 ∧ Plain r.y3 ∧ Plain r.y4 ∧ Plain r.z0 ∧ Plain r.z1 ∧ Plain r.z3

/-- Every entry of `r'` is the one of `r` moved by at most `B`, at the same `X`. -/
def RowMoved (B : K) (r r' : Transect K) : Prop :=
  r'.x = r.x ∧ Moved B r.y0 r'.y0 ∧ Moved B r.y1 r'.y1 ∧ Moved B r.y2 r'.y2 ∧ Moved B r.y3 r'.y3 ∧ Moved B r.y4 r'.y4 ∧
    Moved B r.z0 r'.z0 ∧ Moved B r.z1 r'.z1 ∧ r'.z2 = r.z2 ∧ Moved B r.z3 r'.z3

/-- C34, the part that holds: if the outlet is closed, or the longshore transport at its mouth is to the right
(positive at the segment before the first transect right of the outlet end), and the arguments are
regular (finite, and no width or height divided by is zero), then the transport rates move nothing by more than MaxMorChange: no transect entry, river bed level, outlet end
position, width or bed level.  Missing: transport to the left at the mouth, refuted below. -/
theorem C34_partial (pp : PhysPars K) (a : MorIn K) (dt : ℤ) (X0 : ℕ) (st : MorSt K) (hB : 0 ≤ a.MaxMorChange)
    (h : forceStage pp a = .ok (dt, X0, st))
    (hdir : a.Closed = true ∨ ∀ rb, firstIx (fun r : Transect K => a.EndX1 <? fin r.x) a.rows = .ok rb →
      ∃ l, a.LST[prevIx a.LST.length rb]? = some l ∧ (fin 0 <? l) = true)
    (hreg : Regular pp a)
    (hrow : ∀ r ∈ a.rows, PlainRow r) (hriv : ∀ z ∈ a.RiverElev, Plain z)
    (hx : Plain a.EndX1) (hw : Plain a.EndWidth) (hz : Plain a.EndElev) :
    (∀ (i : ℕ) r, a.rows[i]? = some r → ∃ c, st.cells[i]? = some c ∧ RowMoved a.MaxMorChange r c.t) ∧
    (∀ (i : ℕ) z, a.RiverElev[i]? = some z → ∃ z', st.riv[i]? = some z' ∧ Moved a.MaxMorChange z z') ∧
    st.e0 = a.EndX0 ∧ Moved a.MaxMorChange a.EndX1 st.e1 ∧ Moved a.MaxMorChange a.EndWidth st.endW ∧
    Moved a.MaxMorChange a.EndElev st.endZ := by
  obtain ⟨rb, cells', R, R', rate, hp, hall, hr, hd, hl, ha⟩ := force_inv h
  have hF := regular_finite hreg hp hall
  obtain ⟨hlen, hlen', hsame⟩ := allRates_len (by simp) hall
  have hnd : noDirect a rb := by
    rcases hdir with hc | hd
    · exact Or.inl hc
    · cases hc : a.Closed with
      | true => exact Or.inl hc
      | false => exact Or.inr (hd rb ((precalc_rb hp).2.1 hc))
  obtain ⟨hsm, hcols⟩ := limit_small hB hF hr hl
  have hlenR' : R'.Len cells'.length := by
    rw [hlen']
    obtain ⟨l0, l1, l2, l3, l4, l5, l6, l7⟩ := hlen
    simp only [Rates.cols, List.map_cons, List.map_nil, List.cons.injEq, and_true] at hcols
    obtain ⟨e0, e1, e2, e3, e4, e5, e6, e7, _⟩ := hcols
    exact ⟨e0.trans l0, e1.trans l1, e2.trans l2, e3.trans l3, e4.trans l4, e5.trans l5, e6.trans l6, e7.trans l7⟩
  have hst := apply_small hB ha hlenR' hsm hriv hx hw hz
  rw [hsame hnd] at hst
  obtain ⟨h1, h2, h3, h4, h5⟩ := hst
  refine ⟨?_, h2, ?_, h3, h4, h5⟩
  · intro i r hr'
    obtain ⟨p0, p1, p2, p3, p4, q0, q1, q3⟩ := hrow r (List.mem_of_getElem? hr')
    obtain ⟨c', g1, g2, g3⟩ := h1 i (mkCell pp a i r) (by rw [List.getElem?_mapIdx, hr']; rfl) p0 p1 p2 p3 p4 q0 q1 q3
    exact ⟨c', g1, g2, g3⟩
  · unfold applyRates at ha
    simp only at ha
    split at ha
    · cases ha
    · cases ha; rfl

/-- Concrete case: the open sample, transport to the right at the mouth. -/
example : moIn.LST[prevIx moIn.LST.length 6]? = some (fin (1/100)) ∧
    firstIx (fun r : Transect ℚ => moIn.EndX1 <? fin r.x) moIn.rows = .ok 6 := by decide +kernel
example : okAnd (forceStage moPP moIn) (fun _ => true) = true := by decide +kernel
example : Regular moPP moIn := by decide +kernel

/-- C34 is false for transport to the left at the mouth: with a longshore transport of 50 (to the left) at the
mouth, the shoreline of the transect left of the mouth moves by more than MaxMorChange (0.25 m), whatever the
time step. -/
theorem C34_refuted :
    ∃ o, forceStage moPP { moIn with LST := List.replicate 6 (fin (-50)) } = .ok o ∧
      ∃ c, o.2.2.cells[5]? = some c ∧ moIn.rows[5]? = some (chRow 20) ∧ ¬ Moved moIn.MaxMorChange (chRow 20).y0 c.t.y0 := by
  have : ∃ o, forceStage moPP { moIn with LST := List.replicate 6 (fin (-50)) } = .ok o ∧
      (∃ c ∈ o.2.2.cells[5]?, ∃ y ∈ c.t.y0.val?, ¬ |y - 100| ≤ 1/4) :=
    ok_witness (fun o : ℤ × ℕ × MorSt ℚ => ∃ c ∈ o.2.2.cells[5]?, ∃ y ∈ c.t.y0.val?, ¬ |y - 100| ≤ 1/4) (by decide +kernel)
  obtain ⟨o, h1, c, hc, y, hy, hn⟩ := this
  refine ⟨o, h1, c, hc, by decide +kernel, ?_⟩
  rintro (⟨h, _⟩ | ⟨x, y', h3, h4, h5⟩)
  · simp [chRow] at h
  · rw [h4] at hy
    simp only [val?_fin, Option.mem_def, Option.some.injEq] at hy
    subst hy
    have : x = 100 := by
      have : (chRow 20).y0 = fin 100 := rfl
      rw [this] at h3
      cases h3; rfl
    subst this
    exact hn h5

end Verif.Props
