import Verif.Lemmas.RestRun
import Verif.Props.Core

set_option autoImplicit false
set_option linter.unusedSectionVars false

/-! # A coast at rest -/

namespace Verif.Props
open Verif Fl Model Spec

variable {K : Type} [Field K] [LinearOrder K] [IsStrictOrderedRing K] [FloorRing K]

/-! ## C118: a coast at rest stays as it is -/

/-- C118: on a coast with nothing to repair, a run in which no sediment moves and the water stays no higher than the barrier
leaves transects, river bed and outlet as they are, and makes no breach.  (A closed lagoon may lose track of the channel it
once had.) -/
theorem C118_rest {e : Env K} {L : K} (hp : RestPars e.pp e.Dx) (hmin : 0 ≤ e.pp.MinOutletWidth) (hmax : 0 ≤ e.MaxMorChange) (hL : -99999 / 10 ≤ L)
    {s0 s : CoreSt K} {tr : List (CoreSt K × PassOut K × CoreSt K)} (ht : TidyCoast e.pp s0.rows s0.EndX1 s0.EndWidth s0.EndElev)
    (hx : s0.rows.Pairwise (fun r r' => r.x < r'.x)) (hcr : ∀ t ∈ s0.rows, (fin L ≤? t.z0) = true) (h : Run e s0 tr s)
    (hq : ∀ x ∈ tr, QuietPass L x.1 x.2.1) : StillCoast s0 s ∧ ∀ x ∈ tr, x.2.1.mor.Breach = false :=
  run_rest hp hmin hmax hL ht hx hcr h hq

/-- C118: every record such a run adds to the output shows the coast as it was at the start. -/
theorem C118_records {e : Env K} {L : K} (hp : RestPars e.pp e.Dx) (hmin : 0 ≤ e.pp.MinOutletWidth) (hmax : 0 ≤ e.MaxMorChange) (hL : -99999 / 10 ≤ L)
    {s0 s : CoreSt K} {tr : List (CoreSt K × PassOut K × CoreSt K)} (ht : TidyCoast e.pp s0.rows s0.EndX1 s0.EndWidth s0.EndElev)
    (hx : s0.rows.Pairwise (fun r r' => r.x < r'.x)) (hcr : ∀ t ∈ s0.rows, (fin L ≤? t.z0) = true) (h : Run e s0 tr s)
    (hq : ∀ x ∈ tr, QuietPass L x.1 x.2.1) :
    ∃ new, s.outs = s0.outs ++ new ∧ ∀ r ∈ new, r.rows = s0.rows ∧ r.RiverElev = s0.RiverElev ∧ r.EndX1 = s0.EndX1 ∧ r.EndWidth = s0.EndWidth ∧ r.EndElev = s0.EndElev := by
  induction h with
  | start => exact ⟨[], (List.append_nil _).symm, fun r hr => by cases hr⟩
  | pass hr hle hps ih =>
    rename_i tr s s' p
    obtain ⟨new, h1, h2⟩ := ih (fun x hx => hq x (List.mem_append_left _ hx))
    have h3 := (run_rest hp hmin hmax hL ht hx hcr (hr.pass hle hps) hq).1
    obtain ⟨_, ha⟩ := pass_inv hps
    rcases ha.outs with ⟨_, ho, _⟩ | ⟨_, _, bl, ho, _⟩
    · exact ⟨new, ho.trans h1, h2⟩
    · refine ⟨new ++ [snapshot s p s'.time bl], by rw [ho, h1, List.append_assoc], fun r hr' => ?_⟩
      rcases List.mem_append.mp hr' with hr' | hr'
      · exact h2 r hr'
      · rw [List.mem_singleton] at hr'
        subst hr'
        exact ⟨ha.rows.symm.trans h3.rows, ha.riv.symm.trans h3.river, ha.endX1.symm.trans h3.pos, ha.endWidth.symm.trans h3.width, ha.endElev.symm.trans h3.bed⟩

/-- A test for tidiness. -/
def tidyB (pp : PhysPars ℚ) (t : Transect ℚ) : Bool :=
  match t with
  | ⟨_, fin y0, nan, _, fin y3, fin y4, fin z0, _, _, fin z3⟩ =>
    decide (y3 < y0 ∧ y4 < y0 ∧ z3 < z0 ∧ z3 < pp.BackshoreElev ∧ 0 < pp.ClosureDepth + z0)
  | ⟨_, fin y0, fin y1, fin y2, fin y3, fin y4, fin z0, fin z1, fin z2, fin z3⟩ =>
    decide (y1 < y0 ∧ y2 < y1 ∧ y3 < y2 ∧ y4 < y0 ∧ z1 < z2 ∧ z2 ≤ z0 ∧ z3 < z2 ∧ z3 < pp.BackshoreElev ∧ 0 < pp.ClosureDepth + z0)
  | _ => false

theorem tidyB_ok {pp : PhysPars ℚ} {t : Transect ℚ} (h : tidyB pp t = true) : Tidy pp t := by
  unfold tidyB at h
  split at h
  · rw [decide_eq_true_eq] at h
    obtain ⟨h1, h2, h3, h4, h5⟩ := h
    exact .plain _ _ _ _ _ _ _ _ _ h1 h2 h3 h4 h5
  · rw [decide_eq_true_eq] at h
    obtain ⟨h1, h2, h3, h4, h5, h6, h7, h8, h9⟩ := h
    exact .channel _ _ _ _ _ _ _ _ _ _ h1 h2 h3 h4 h5 h6 h7 h8 h9
  · cases h

/-- The hypotheses hold in the example run of three passes, with water at 1 m in the outlet and 0 m in the lagoon and a barrier
at 4 m. -/
example : ∃ (s0 : CoreSt ℚ) (tr : List (CoreSt ℚ × PassOut ℚ × CoreSt ℚ)) (s : CoreSt ℚ), initial coEnv coLoad = .ok s0 ∧
    RestPars coEnv.pp coEnv.Dx ∧ 0 ≤ coEnv.pp.MinOutletWidth ∧ 0 ≤ coEnv.MaxMorChange ∧ TidyCoast coEnv.pp s0.rows s0.EndX1 s0.EndWidth s0.EndElev ∧
    s0.rows.Pairwise (fun r r' => r.x < r'.x) ∧ (∀ t ∈ s0.rows, (fin (4 : ℚ) ≤? t.z0) = true) ∧ Run coEnv s0 tr s ∧ tr.length = 3 ∧
    ∀ x ∈ tr, QuietPass 4 x.1 x.2.1 := by
  have h : okAnd (initial coEnv coLoad) (fun s0 => okAnd (trace coEnv s0 3) (fun r =>
      s0.rows.all (tidyB coEnv.pp) && (decide (s0.EndX1 = fin 24 ∧ s0.EndWidth = fin 6 ∧ s0.EndElev = fin (-1)) &&
      (decide (s0.rows.Pairwise (fun r r' => r.x < r'.x)) && ((s0.rows.all (fun t => fin 4 ≤? t.z0) &&
      decide (s0.rows.map (·.x) = [-40, -30, -20, -10, 0, 10, 20, 30, 40])) &&
      r.1.all (fun x => x.2.1.bed.all (fun q => decide (q = fin 0)) && (x.2.1.LST.all (fun q => decide (q = fin 0)) && (x.2.1.CST.all (fun q => decide (q = fin 0)) &&
        (x.2.1.hyd.LagoonWL.all (fun w => decide (w = nan ∨ (w ≤? fin 4) = true)) &&
        (List.zipWith (fun (t : Transect ℚ) d => d + t.z1) x.1.rows x.2.1.hyd.OutletDep).all (fun w => decide (w = nan ∨ (w ≤? fin 4) = true))))))))))) = true := by
    decide +kernel
  obtain ⟨s0, h0, h⟩ := okAnd_iff.mp h
  obtain ⟨⟨tr, s⟩, h1, h⟩ := okAnd_iff.mp h
  simp only [Bool.and_eq_true, decide_eq_true_eq, List.all_eq_true] at h
  obtain ⟨a1, ⟨a2, a3, a4⟩, a5, ⟨a6, a7⟩, a8⟩ := h
  obtain ⟨hr, hl⟩ := trace_run h1
  have hx : ∀ (i : ℕ) t, s0.rows[i]? = some t → [-40, -30, -20, -10, 0, 10, 20, 30, (40 : ℚ)][i]? = some t.x := by
    intro i t hi
    rw [← a7, List.getElem?_map, hi]; rfl
  have hlen : s0.rows.length = 9 := by
    have := congrArg List.length a7
    simpa using this
  refine ⟨s0, tr, s, h0, ⟨?_, ?_, ?_, ?_, ?_⟩, ?_, ?_, ⟨fun t ht => tidyB_ok (a1 t ht), ⟨24, a2, ?_, ?_⟩, ⟨6, a3, by norm_num⟩, ⟨-1, a4, ?_⟩⟩, a5, a6, hr, hl, ?_⟩
  iterate 7 decide +kernel
  · intro t ht
    have := hx 1 t ht
    simp at this
    rw [← this]; norm_num
  · intro t ht
    rw [hlen] at ht
    have := hx 7 t ht
    simp at this
    rw [← this]; norm_num
  · decide +kernel
  · intro x hxm
    obtain ⟨b1, b2, b3, b4, b5⟩ := a8 x hxm
    refine ⟨b1, b2, b3, b4, fun i t d ht hd => b5 _ ?_⟩
    rw [List.mem_iff_getElem?]
    exact ⟨i, by rw [List.getElem?_zipWith, ht, hd]⟩

end Verif.Props
