import Verif.Lemmas.Cliff
import Verif.Lemmas.Regular
import Verif.Props.MorSample

set_option autoImplicit false
set_option linter.unusedSectionVars false

/-! # C142: the cliff behind the lagoon only retreats

The back of the lagoon (column 4 of ShoreY) is the toe of a cliff of height BackshoreElev: bank erosion and the
barrier pushing against it cut it back; nothing in the model builds it out again. -/

namespace Verif.Props
open Verif Verif.Model Verif.Spec Fl

variable {K : Type} [Field K] [LinearOrder K] [IsStrictOrderedRing K]

/-- C142, partial.  In a completed step with regular arguments (finite, no width or height divided by is zero), beds of the lagoon below the cliff top wherever the river flows, crests
above the closure depth and MaxMorChange smaller than the height of the cliff top over the closure depth, no cliff
advances towards the sea; when the outlet is open one transect is excepted, the downstream end of the outlet channel.
Missing: lagoon beds above the cliff top, and the excepted transect, both refuted below. -/
theorem C142_partial (pp : PhysPars K) (j1 j2 : ℕ → Bool) (a : MorIn K) (o : MorOut K) (h : updateMorphology pp j1 j2 a = .ok o) (hd : 0 < a.Dx)
    (hB : 0 ≤ a.MaxMorChange) (hroom : a.MaxMorChange < pp.BackshoreElev + pp.ClosureDepth)
    (hcrest : ∀ r ∈ a.rows, ∃ z, r.z0 = fin z ∧ 0 < pp.ClosureDepth + z)
    (hz : ∀ i ∈ a.online, ∀ r, a.rows[i]? = some r → (fin pp.BackshoreElev ≤? r.z3) = false)
    (hreg : Regular pp a) :
    ∃ k : Option ℕ, (a.Closed = true → k = none) ∧
      ∀ (i : ℕ) r r', some i ≠ k → a.rows[i]? = some r → o.rows[i]? = some r' → (r'.y4 ≤? r.y4) = true :=
  update_back h hd hB hroom hcrest hz (fun _ _ _ _ _ hp hall => regular_finite hreg hp hall)

/-- Concrete case: the closed sample meets the hypotheses, and its cliff retreats at the transect at 10 m. -/
example : okAnd (updateMorphology moPP cleanMem cleanMem moClosed) (fun o => o.rows.map (·.y4) == [fin 0, fin 0, fin 0, fin 0, fin (-3/350 : ℚ), fin 0, fin 0]) = true := by
  decide +kernel
example : 0 < moClosed.Dx ∧ 0 ≤ moClosed.MaxMorChange ∧ moClosed.MaxMorChange < moPP.BackshoreElev + moPP.ClosureDepth ∧
    (∀ r ∈ moClosed.rows, ∃ z ∈ r.z0.val?, 0 < moPP.ClosureDepth + z) ∧
    (∀ i ∈ moClosed.online, ∀ r ∈ moClosed.rows[i]?, (fin moPP.BackshoreElev ≤? r.z3) = false) := by decide +kernel
example : Regular moPP moClosed := by decide +kernel

/-- The closed sample with the bed of the lagoon at the transect at 10 m above the cliff top (6 m). -/
def clBed : MorIn ℚ :=
  { moClosed with
    rows := moClosed.rows.map (fun r => if r.x = 10 then { r with z3 := fin 7 } else r)
    Bedload := [fin (1/100), fin (1/100), fin (1/200), fin (1/10), fin (1/50)] }

/-- The sample `brIn` with the channel at 20 m against the cliff and its inner bank below its bed. -/
def clBank : MorIn ℚ :=
  { brIn with rows := brIn.rows.map (fun r => if r.x = 20 then { r with y2 := fin (-9/10), z2 := fin (-1) } else r) }

/-- C142 is false of the code: with the bed of the lagoon above the cliff top, erosion of the banks moves the
cliff at 10 m seaward, from 0 m to 0.1425 m, in a completed step. -/
theorem C142_refuted : ∃ o, updateMorphology moPP cleanMem cleanMem clBed = .ok o ∧
    ∃ r r', clBed.rows[4]? = some r ∧ o.rows[4]? = some r' ∧ (r.y4 <? r'.y4) = true := by
  have : okAnd (updateMorphology moPP cleanMem cleanMem clBed)
      (fun o => match clBed.rows[4]?, o.rows[4]? with | some r, some r' => r.y4 <? r'.y4 | _, _ => false) = true := by decide +kernel
  obtain ⟨o, ho, h⟩ := okAnd_iff.mp this
  refine ⟨o, ho, ?_⟩
  split at h
  · next r r' h1 h2 => exact ⟨r, r', h1, h2, h⟩
  · cases h

/-- And false with an open outlet, whatever the beds of the lagoon: where the channel through the barrier is pressed
against the cliff and its inner bank is lower than its bed, the repair of the last transect of the channel moves the
cliff seaward, from 0 m to 0.15 m. -/
theorem C142_refuted_bank : ∃ o, updateMorphology moPP cleanMem cleanMem clBank = .ok o ∧
    ∃ r r', clBank.rows[6]? = some r ∧ o.rows[6]? = some r' ∧ (r.y4 <? r'.y4) = true := by
  have : okAnd (updateMorphology moPP cleanMem cleanMem clBank)
      (fun o => match clBank.rows[6]?, o.rows[6]? with | some r, some r' => r.y4 <? r'.y4 | _, _ => false) = true := by decide +kernel
  obtain ⟨o, ho, h⟩ := okAnd_iff.mp this
  refine ⟨o, ho, ?_⟩
  split at h
  · next r r' h1 h2 => exact ⟨r, r', h1, h2, h⟩
  · cases h

/-- `clBank` meets every hypothesis of `C142_partial`, so its exception cannot be dropped. -/
example : 0 < clBank.Dx ∧ 0 ≤ clBank.MaxMorChange ∧ clBank.MaxMorChange < moPP.BackshoreElev + moPP.ClosureDepth ∧
    (∀ r ∈ clBank.rows, ∃ z ∈ r.z0.val?, 0 < moPP.ClosureDepth + z) ∧
    (∀ i ∈ clBank.online, ∀ r ∈ clBank.rows[i]?, (fin moPP.BackshoreElev ≤? r.z3) = false) := by decide +kernel

end Verif.Props
