import Verif.Lemmas.Remnant
import Verif.Lemmas.Core
import Verif.Props.CoreSample
import Verif.Props.MorStep

set_option autoImplicit false
set_option linter.unusedSectionVars false

/-! # C196: a channel that disappears leaves nothing behind -/

namespace Verif.Props
open Verif Verif.Model Verif.Spec Fl

section step
variable {K : Type} [Field K] [LinearOrder K] [IsStrictOrderedRing K]

/-- C196, the part that holds for one step: where the step leaves no channel, neither the other bank nor a bed is left, whether there was a channel
before the step or not.  Missing: the crest of the barrier behind the channel, see `C196_exact` and `C196_refuted`. -/
theorem C196_partial (pp : PhysPars K) (j1 j2 : ℕ → Bool) (a : MorIn K) (o : MorOut K) (h : updateMorphology pp j1 j2 a = .ok o) (hB : 0 ≤ a.MaxMorChange)
    (hreg : Regular pp a) (i : ℕ) (r r' : Transect K) (hr : a.rows[i]? = some r) (hr' : o.rows[i]? = some r')
    (hb : (IsNumber r.y1 ∧ IsNumber r.y2) ∨ (r.y1 = nan ∧ r.y2 = nan ∧ r.z1 = nan)) (h0 : IsNumber r'.y0) (h1 : r'.y1 = nan) :
    r'.y2 = nan ∧ r'.z1 = nan := by
  have hb' : Banked false r := hb.imp id (fun k => ⟨k.1, k.2.1, k.2.2, fun h => absurd h (by simp)⟩)
  have k := (update_bare h false hB hreg hr hb' hr' h0 h1).1
  exact ⟨k.2.1, k.2.2.1⟩

/-- C196, exactly: if transects without a channel had no trace of one before the step, the only thing that can be left at a transect without a channel
after it is the crest behind a channel that reached the lagoon during the step (its inner bank is not seaward of the lagoon edge after the repairs). -/
theorem C196_exact (pp : PhysPars K) (j1 j2 : ℕ → Bool) (a : MorIn K) (o : MorOut K) (h : updateMorphology pp j1 j2 a = .ok o) (hB : 0 ≤ a.MaxMorChange)
    (hreg : Regular pp a) (i : ℕ) (r r' : Transect K) (hr : a.rows[i]? = some r) (hr' : o.rows[i]? = some r')
    (hb : (IsNumber r.y1 ∧ IsNumber r.y2) ∨ (r.y1 = nan ∧ r.y2 = nan ∧ r.z1 = nan ∧ r.z2 = nan)) (h0 : IsNumber r'.y0) (h1 : r'.y1 = nan) :
    r'.y2 = nan ∧ r'.z1 = nan ∧ (r'.z2 = nan ∨ ∃ X0 s0 s1 c, forceStage pp a = .ok (o.MorDt, X0, s0) ∧ repairStage pp a.Closed a.Dx s0 = .ok s1 ∧
      s1.cells[i]? = some c ∧ c.t.y1 ≠ nan ∧ (c.t.y3 <? c.t.y2) = false ∧ r'.z2 = c.t.z2) := by
  have hb' : Banked true r := hb.imp id (fun k => ⟨k.1, k.2.1, k.2.2.1, fun _ => k.2.2.2⟩)
  have k := update_bare h true hB hreg hr hb' hr' h0 h1
  exact ⟨k.1.2.1, k.1.2.2.1, k.2 rfl⟩

/-- In particular nothing at all is left if the channels of the lagoon all stay clear of it. -/
theorem C196_clear (pp : PhysPars K) (j1 j2 : ℕ → Bool) (a : MorIn K) (o : MorOut K) (h : updateMorphology pp j1 j2 a = .ok o) (hB : 0 ≤ a.MaxMorChange)
    (hreg : Regular pp a) (i : ℕ) (r r' : Transect K) (hr : a.rows[i]? = some r) (hr' : o.rows[i]? = some r')
    (hb : (IsNumber r.y1 ∧ IsNumber r.y2) ∨ (r.y1 = nan ∧ r.y2 = nan ∧ r.z1 = nan ∧ r.z2 = nan)) (h0 : IsNumber r'.y0) (h1 : r'.y1 = nan)
    (hclear : ∀ dt X0 s0 s1 c, forceStage pp a = .ok (dt, X0, s0) → repairStage pp a.Closed a.Dx s0 = .ok s1 → s1.cells[i]? = some c → c.t.y1 ≠ nan →
      (c.t.y3 <? c.t.y2) = true) :
    r'.y2 = nan ∧ r'.z1 = nan ∧ r'.z2 = nan := by
  obtain ⟨k1, k2, k3 | ⟨X0, s0, s1, c, g0, g1, g2, g3, g4, _⟩⟩ := C196_exact pp j1 j2 a o h hB hreg i r r' hr hr' hb h0 h1
  · exact ⟨k1, k2, k3⟩
  · rw [hclear _ _ _ _ _ g0 g1 g2 g3] at g4; cases g4

end step

variable {K : Type} [Field K] [LinearOrder K] [IsStrictOrderedRing K] [FloorRing K]

/-- C196 for whole runs: started from transects without such remnants, a run of regular steps between coasts of numbers never has a bank or a bed at a
transect without a channel. -/
theorem C196_run_partial {e : Env K} {s0 s : CoreSt K} {tr : List (CoreSt K × PassOut K × CoreSt K)} (hrun : Run e s0 tr s) (hB : 0 ≤ e.MaxMorChange)
    (hstart : ∀ r ∈ s0.rows, r.y1 = nan → r.y2 = nan ∧ r.z1 = nan)
    (hreg : ∀ x ∈ tr, Regular e.pp (morIn e x.1 x.2.1.chan x.2.1.dep x.2.1.hyd x.2.1.bed x.2.1.LST x.2.1.CST x.2.1.owp) ∧
      (∀ r ∈ x.1.rows, r.y1 ≠ nan → IsNumber r.y2) ∧ ∀ r ∈ x.2.2.rows, IsNumber r.y0) :
    ∀ r ∈ s.rows, r.y1 = nan → r.y2 = nan ∧ r.z1 = nan := by
  induction hrun with
  | start => exact hstart
  | @pass tr s s' p _ _ hp ih =>
    have ih := ih (fun x hx => hreg x (by simp [hx]))
    obtain ⟨k1, k2, k3⟩ := hreg (s, p, s') (by simp)
    obtain ⟨⟨_, _, hc⟩, ha⟩ := pass_inv hp
    intro r' hr' h1
    obtain ⟨i, hi⟩ := List.mem_iff_getElem?.mp hr'
    have h0 := k3 r' hr'
    rw [ha.rows] at hi
    have hlen : p.mor.rows.length = s.rows.length := by simpa [morIn] using congrArg List.length (C72_positions hc.mor)
    have hil := (List.getElem?_eq_some_iff.mp hi).1
    obtain ⟨r, hr⟩ : ∃ r, s.rows[i]? = some r := ⟨_, List.getElem?_eq_getElem (by omega)⟩
    have hm := List.mem_of_getElem? hr
    refine C196_partial _ _ _ _ _ hc.mor hB k1 i r r' hr hi ?_ h0 h1
    by_cases hn : r.y1 = nan
    · exact Or.inr ⟨hn, ih r hm hn⟩
    · have hb := k1.2.2.2.2.2.2.1 r hm
      refine Or.inl ⟨?_, k2 r hm hn⟩
      have hm : r.y1.isnan = false := by cases hh : r.y1 <;> first | rfl | exact absurd hh hn
      have := hb.2.2
      rw [hm] at this
      exact this.1

/-! ## Witnesses -/

/-- An offline channel at -20 m that has just reached the lagoon, with a barrier of height `z` behind it. -/
def rmRow (z : ℚ) : Transect ℚ := ⟨-20, fin 100, fin 60, fin 20, fin 20, fin 0, fin 4, fin 0, fin z, fin (-1)⟩

/-- A step with that channel. -/
def rmIn (z : ℚ) : MorIn ℚ := { brIn with rows := brIn.rows.set 2 (rmRow z) }

/-- C196 is false of the code: the channel becomes part of the lagoon, and the crest of the barrier behind it, now inside the lagoon, stays in the
state.  The outlet is where it was and nothing breaches. -/
theorem C196_refuted : ∃ o r', updateMorphology moPP cleanMem cleanMem (rmIn 3) = .ok o ∧ Regular moPP (rmIn 3) ∧ (∀ r ∈ (rmIn 3).rows, Banked true r) ∧
    o.Breach = false ∧ o.rows[2]? = some r' ∧ r'.y1 = nan ∧ r'.y2 = nan ∧ r'.z1 = nan ∧ r'.z2 = fin 3 ∧ r'.y3 = fin 60 ∧ r'.z0 = fin 4 := by
  have h : okAnd (updateMorphology moPP cleanMem cleanMem (rmIn 3)) (fun o => match o.rows[2]? with
    | some r' => decide (Regular moPP (rmIn 3) ∧ (∀ r ∈ (rmIn 3).rows, Banked true r) ∧ o.Breach = false ∧ r'.y1 = nan ∧ r'.y2 = nan ∧ r'.z1 = nan ∧
        r'.z2 = fin 3 ∧ r'.y3 = fin 60 ∧ r'.z0 = fin 4)
    | none => false) = true := by decide +kernel
  obtain ⟨o, ho, k⟩ := okAnd_iff.mp h
  split at k
  · next r' hr' =>
    obtain ⟨k1, k2, k3, k4, k5, k6, k7, k8, k9⟩ := of_decide_eq_true k
    exact ⟨o, r', ho, k1, k2, k3, hr', k4, k5, k6, k7, k8, k9⟩
  · cases k

/-- The remnant even counts in the step that made it: a barrier behind the channel higher than the one in front raises the one in front by 1 m although
the channel is gone. -/
theorem C196_refuted_crest : ∃ o r', updateMorphology moPP cleanMem cleanMem (rmIn 5) = .ok o ∧ Regular moPP (rmIn 5) ∧ (∀ r ∈ (rmIn 5).rows, Banked true r) ∧
    o.Breach = false ∧ o.rows[2]? = some r' ∧ r'.y1 = nan ∧ r'.z2 = fin 5 ∧ (rmRow 5).z0 = fin 4 ∧ r'.z0 = fin 5 := by
  have h : okAnd (updateMorphology moPP cleanMem cleanMem (rmIn 5)) (fun o => match o.rows[2]? with
    | some r' => decide (Regular moPP (rmIn 5) ∧ (∀ r ∈ (rmIn 5).rows, Banked true r) ∧ o.Breach = false ∧ r'.y1 = nan ∧ r'.z2 = fin 5 ∧ r'.z0 = fin 5)
    | none => false) = true := by decide +kernel
  obtain ⟨o, ho, k⟩ := okAnd_iff.mp h
  split at k
  · next r' hr' =>
    obtain ⟨k1, k2, k3, k4, k5, k6⟩ := of_decide_eq_true k
    exact ⟨o, r', ho, k1, k2, k3, hr', k4, k5, rfl, k6⟩
  · cases k

/-- An offline channel at -20 m that the sea is about to reach: longshore transport takes sand from the beach in front of it. -/
def rmSea : MorIn ℚ :=
  { brIn with
    rows := brIn.rows.set 2 ⟨-20, fin (601/10), fin 60, fin 30, fin 20, fin 0, fin 4, fin 0, fin 3, fin (-1)⟩
    LST := [fin 0, fin 0, fin 10, fin 0, fin 0, fin 0, fin 0, fin 0] }

/-- Concrete case for `C196_partial`, `C196_exact` and `C196_clear`: that channel disappears without a trace. -/
example : okAnd (updateMorphology moPP cleanMem cleanMem rmSea) (fun o => match o.rows[2]? with
    | some r' => decide (Regular moPP rmSea ∧ (∀ r ∈ rmSea.rows, Banked true r) ∧ o.Breach = false ∧ IsNumber r'.y0 ∧ r'.y1 = nan ∧ r'.y2 = nan ∧ r'.z1 = nan ∧
        r'.z2 = nan ∧ okAnd (forceStage moPP rmSea) (fun x => okAnd (repairStage moPP rmSea.Closed rmSea.Dx x.2.2) (fun s1 => match s1.cells[2]? with
          | some c => c.t.y3 <? c.t.y2
          | none => false)) = true)
    | none => false) = true := by decide +kernel

/-- Concrete case for `C196_run_partial`: two passes of the sample run. -/
example : ∃ s0 s tr, initial coEnv coLoad = .ok s0 ∧ Run coEnv s0 tr s ∧ tr.length = 2 ∧ (∀ r ∈ s0.rows, r.y1 = nan → r.y2 = nan ∧ r.z1 = nan) ∧
    (∀ x ∈ tr, Regular coEnv.pp (morIn coEnv x.1 x.2.1.chan x.2.1.dep x.2.1.hyd x.2.1.bed x.2.1.LST x.2.1.CST x.2.1.owp) ∧
      (∀ r ∈ x.1.rows, r.y1 ≠ nan → IsNumber r.y2) ∧ ∀ r ∈ x.2.2.rows, IsNumber r.y0) := by
  have h : okAnd (initial coEnv coLoad) (fun s0 => okAnd (trace coEnv s0 2) (fun x =>
      decide ((∀ r ∈ s0.rows, r.y1 = nan → r.y2 = nan ∧ r.z1 = nan) ∧
        (∀ y ∈ x.1, Regular coEnv.pp (morIn coEnv y.1 y.2.1.chan y.2.1.dep y.2.1.hyd y.2.1.bed y.2.1.LST y.2.1.CST y.2.1.owp) ∧
          (∀ r ∈ y.1.rows, r.y1 ≠ nan → IsNumber r.y2) ∧ ∀ r ∈ y.2.2.rows, IsNumber r.y0)))) = true := by decide +kernel
  obtain ⟨s0, h0, h⟩ := okAnd_iff.mp h
  obtain ⟨⟨tr, s⟩, h1, h⟩ := okAnd_iff.mp h
  obtain ⟨k1, k2⟩ := of_decide_eq_true h
  obtain ⟨r, l⟩ := trace_run h1
  exact ⟨s0, s, tr, h0, r, l, k1, k2⟩

end Verif.Props
