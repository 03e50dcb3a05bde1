import Verif.Lemmas.Crest
import Verif.Lemmas.Coast
import Verif.Lemmas.Run
import Verif.Props.Ends

set_option autoImplicit false
set_option linter.unusedSectionVars false

/-! # C145: the barrier is never lower than the beach top or its lowest crest

Waves build the crest up, channels closed by overwash are filled, and new barrier is made at BeachTopElev: nothing in the
model erodes the top of a barrier. -/

namespace Verif.Props
open Verif Verif.Model Fl Verif.Spec

variable {K : Type} [Field K] [LinearOrder K] [IsStrictOrderedRing K]

/-- C145, one step, partial.  For any level `m` not above BeachTopElev: a transect whose crests are not below `m` has after
a completed step a crest that is a number not below `m`, and an inner crest, if any, not below `m`.  Cross-shore transport is not
negative and OverwashProp at most one, as `overtopping` gives them.  Nothing is asked of transects without a channel; if
there is one the arguments are regular (finite, nothing divided by is zero) and the barriers with channels more than twice
MaxMorChange wide.  Missing: narrow barriers with a channel, for which it is false, see below. -/
theorem C145_partial (pp : PhysPars K) (j1 j2 : ℕ → Bool) (a : MorIn K) (o : MorOut K) (h : updateMorphology pp j1 j2 a = .ok o)
    (hB : 0 ≤ a.MaxMorChange) (hcst : ∀ v ∈ a.CST, (v <? fin 0) = false) (hop : ∀ v ∈ a.OverwashProp, (fin 1 <? v) = false)
    (m : K) (hm : m ≤ pp.BeachTopElev) (i : ℕ) (r : Transect K) (hr : a.rows[i]? = some r) (hh : CrestsAbove m r)
    (hchan : r.y1.isnan = false → Regular pp a ∧ BarriersWide pp a) :
    ∃ r', o.rows[i]? = some r' ∧ (fin m ≤? r'.z0) = true ∧ CrestsAbove m r' :=
  update_high h hB hcst hop hm hr hh hchan

variable [FloorRing K]

/-- C145, whole runs, partial: if no barrier is below `m` at the start none ever is, as long as the steps with a channel
have regular arguments and wide barriers there. -/
theorem C145_partial_run {e : Env K} {ld : LoadOut K} {s0 s : CoreSt K} {tr : List (CoreSt K × PassOut K × CoreSt K)}
    (hot : ∀ ru sl rows cst owp, e.parts.overtop ru sl rows = .ok (cst, owp) → ∀ v ∈ cst, (v <? fin 0) = false)
    (h0 : initial e ld = .ok s0) (h : Run e s0 tr s) (hB : 0 ≤ e.MaxMorChange)
    (m : K) (hm : m ≤ e.pp.BeachTopElev) (hstart : ∀ r ∈ ld.rows, CrestsAbove m r)
    (hchan : ∀ x ∈ tr, (∃ r ∈ x.1.rows, r.y1.isnan = false) → Regular e.pp (stepIn e x) ∧ BarriersWide e.pp (stepIn e x)) :
    (∀ r ∈ s.rows, CrestsAbove m r) ∧ ∀ x ∈ tr, ∀ r ∈ x.2.2.rows, (fin m ≤? r.z0) = true := by
  obtain ⟨_, _, _, _, rows0, _⟩ := initial_inv h0
  induction h with
  | start => exact ⟨by rw [rows0]; exact hstart, fun x hx => by cases hx⟩
  | @pass tr s s' p hrun hle hp ih =>
    obtain ⟨i1, i2⟩ := ih (fun x hx => hchan x (List.mem_append_left _ hx))
    obtain ⟨⟨fl, sl, hc⟩, ha⟩ := pass_inv hp
    have hlen : s'.rows.length = s.rows.length := by
      have := congrArg List.length (C72_positions hc.mor)
      rw [ha.rows]
      simp only [List.length_map] at this
      exact this
    have step : ∀ r' ∈ s'.rows, (fin m ≤? r'.z0) = true ∧ CrestsAbove m r' := by
      intro r' hr'
      obtain ⟨i, hi⟩ := List.mem_iff_getElem?.mp hr'
      have hil := (List.getElem?_eq_some_iff.mp hi).1
      obtain ⟨r, hr⟩ : ∃ r, s.rows[i]? = some r := ⟨_, List.getElem?_eq_getElem (by omega)⟩
      obtain ⟨r2, h1, h2, h3⟩ := C145_partial e.pp _ _ _ _ hc.mor hB (hot _ _ _ _ _ hc.cst) (by
        intro v hv
        obtain ⟨b, _, rfl⟩ := List.mem_map.mp hv
        cases b <;> simp) m hm i r hr (i1 r (List.mem_of_getElem? hr)) (fun hn => hchan (s, p, s') (by simp) ⟨r, List.mem_of_getElem? hr, hn⟩)
      rw [ha.rows, h1] at hi
      cases hi
      exact ⟨h2, h3⟩
    refine ⟨fun r hr => (step r hr).2, ?_⟩
    intro x hx
    rw [List.mem_append] at hx
    rcases hx with hx | hx
    · exact i2 x hx
    · rw [List.mem_singleton] at hx
      subst hx
      exact fun r hr => (step r hr).1

/-- The modelled functions of coast.py never give negative cross-shore transport. -/
theorem C145_real_parts (pp : PhysPars ℝ) (np : NumPars) (Dx : ℝ) (HydDt : ℤ) (solver : Solver) (ru sl : Fl ℝ) (rows : List (Transect ℝ)) (cst : List (Fl ℝ))
    (owp : List Bool) (h : (realParts pp np Dx HydDt solver).overtop ru sl rows = .ok (cst, owp)) : ∀ v ∈ cst, (v <? fin 0) = false := by
  simp only [realParts, overtopping, bind_ok, pure_ok, pyAssert_ok] at h
  obtain ⟨_, ha, h⟩ := h
  cases h
  intro v hv
  have := List.all_eq_true.mp ha v hv
  cases v with
  | nan => rfl
  | ninf => cases this
  | pinf => rfl
  | fin x => simpa using this

/-- Concrete case: the sample with an open outlet meets the hypotheses for every level up to 3. -/
example : Regular moPP brIn ∧ BarriersWide moPP brIn ∧ (∀ r ∈ brIn.rows, CrestsAbove 3 r) ∧ (3 : ℚ) ≤ moPP.BeachTopElev ∧ (∀ v ∈ brIn.CST, (v <? fin 0) = false) ∧
    (∀ v ∈ brIn.OverwashProp, (fin 1 <? v) = false) := by decide +kernel
/-- With cross-shore transport the crests rise. -/
example : okAnd (updateMorphology moPP cleanMem cleanMem { brIn with CST := List.replicate 9 (fin (1/100)) })
    (fun o => o.rows.all (fun r => fin 4 <? r.z0)) = true := by decide +kernel

/-- Concrete case for runs: every pass of the sample run has regular arguments and wide barriers, and ends with all crests at 4 or higher. -/
example : okAnd (initial coEnv coLoad) (fun s0 => okAnd (trace coEnv s0 2) (fun x => x.1.all (fun y =>
    decide (Regular coEnv.pp (stepIn coEnv y)) && decide (BarriersWide coEnv.pp (stepIn coEnv y)) &&
    y.2.2.rows.all (fun r => fin 4 ≤? r.z0)))) = true := by decide +kernel

/-- The sample with a channel on a barrier 20 cm wide, overwashed by a storm. -/
def crThin : MorIn ℚ :=
  { brIn with
    rows := brIn.rows.set 6 { brRow 20 with y1 := fin (999/10), y2 := fin (9985/100), y3 := fin (998/10), z2 := fin 4 }
    CST := brIn.CST.set 6 (fin 10), OverwashProp := brIn.OverwashProp.set 6 (fin 1) }

/-- C145 is false of the code where a channel on a narrow barrier is closed: the sediment left over is spread over the
distance from lagoon to sea (mor.py 279-281), which is negative if the shoreline has just been pushed behind the lagoon shore.  All crests are at
4 m and BeachTopElev is 3 m; after the step there is a crest 12 m below datum. -/
theorem C145_refuted : (∀ r ∈ crThin.rows, CrestsAbove 4 r) ∧ moPP.BeachTopElev = 3 ∧
    (∀ v ∈ crThin.CST, (v <? fin 0) = false) ∧ (∀ v ∈ crThin.OverwashProp, (fin 1 <? v) = false) ∧
    ∃ o r, updateMorphology moPP cleanMem cleanMem crThin = .ok o ∧ o.rows[6]? = some r ∧ r.z0 = fin (-12 : ℚ) := by
  refine ⟨by decide +kernel, by decide +kernel, by decide +kernel, by decide +kernel, ?_⟩
  have : okAnd (updateMorphology moPP cleanMem cleanMem crThin) (fun o =>
      (match o.rows[6]? with | some r => r.z0 == fin (-12 : ℚ) | none => false)) = true := by decide +kernel
  obtain ⟨o, ho, h⟩ := okAnd_iff.mp this
  split at h
  · next r hr => exact ⟨o, r, ho, hr, eq_of_beq h⟩
  · cases h

end Verif.Props
