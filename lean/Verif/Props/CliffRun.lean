import Verif.Props.Cliff
import Verif.Props.Ends

set_option autoImplicit false
set_option linter.unusedSectionVars false

/-! # C142 for whole runs with a closed lagoon

While the lagoon is closed no transect is excepted from `C142_partial`, so its conclusion adds up over the passes. -/

namespace Verif.Props
open Verif Verif.Model Verif.Spec Fl

variable {K : Type} [Field K] [LinearOrder K] [IsStrictOrderedRing K] [FloorRing K]

/-- C142, partial, for runs.  In a run whose passes all find the lagoon closed and have regular arguments, with crests
above the closure depth and lagoon beds below the cliff top in every pass, every cliff ends where it started or
farther inland.  Missing: passes with an open outlet, where one transect is excepted from the step. -/
theorem C142_partial_run {e : Env K} {ld : LoadOut K} {s0 s : CoreSt K} {tr : List (CoreSt K × PassOut K × CoreSt K)}
    (h0 : initial e ld = .ok s0) (h : Run e s0 tr s) (hd : 0 < e.Dx) (hB : 0 ≤ e.MaxMorChange)
    (hroom : e.MaxMorChange < e.pp.BackshoreElev + e.pp.ClosureDepth)
    (hclosed : ∀ x ∈ tr, x.2.1.chan.closed = true)
    (hcrest : ∀ x ∈ tr, ∀ r ∈ x.1.rows, ∃ z, r.z0 = fin z ∧ 0 < e.pp.ClosureDepth + z)
    (hz : ∀ x ∈ tr, ∀ i ∈ x.2.1.chan.online, ∀ r, x.1.rows[i]? = some r → (fin e.pp.BackshoreElev ≤? r.z3) = false)
    (hreg : ∀ x ∈ tr, Regular e.pp (stepIn e x)) (i : ℕ) (r r' : Transect K) (hr : ld.rows[i]? = some r) (hr' : s.rows[i]? = some r')
    (hn : r.y4.isnan = false) : (r'.y4 ≤? r.y4) = true := by
  obtain ⟨_, _, _, _, rows0, _⟩ := initial_inv h0
  induction h generalizing r' with
  | start =>
    rw [rows0, hr] at hr'
    cases hr'
    cases hy : r.y4 <;> simp_all [Fl.ble]
  | @pass tr s s' p hrun hle hp ih =>
    have hmem : ∀ x ∈ tr, x ∈ tr ++ [(s, p, s')] := fun x hx => List.mem_append_left _ hx
    have hlast : (s, p, s') ∈ tr ++ [(s, p, s')] := by simp
    obtain ⟨⟨fl, sl, hc⟩, ha⟩ := pass_inv hp
    have hlen : s'.rows.length = s.rows.length := by
      have := congrArg List.length (C72_positions hc.mor)
      rw [ha.rows]
      simp only [List.length_map] at this
      exact this
    have hil := (List.getElem?_eq_some_iff.mp hr').1
    obtain ⟨r1, hr1⟩ : ∃ r1, s.rows[i]? = some r1 := ⟨_, List.getElem?_eq_getElem (by omega)⟩
    have hprev := ih (fun x hx => hclosed x (hmem x hx)) (fun x hx => hcrest x (hmem x hx)) (fun x hx => hz x (hmem x hx))
      (fun x hx => hreg x (hmem x hx)) r1 hr1
    obtain ⟨k, hk, hstep⟩ := C142_partial e.pp _ _ _ _ hc.mor hd hB hroom (hcrest _ hlast) (hz _ hlast) (hreg _ hlast)
    rw [ha.rows] at hr'
    exact ble_trans (hstep i r1 r' (by rw [hk (hclosed _ hlast)]; simp) hr1 hr') hprev

/-- The sample run with a closed lagoon and bedload growing along the channel. -/
def crEnv : Env ℚ :=
  { coEnv with parts := { coParts with bedload := fun B _ _ => .ok ((List.range (B.length - 1)).map (fun i => fin ((i : ℚ) / 100))) } }
def crLoad : LoadOut ℚ := { coLoad with Closed := true }

/-- Concrete case: two passes meet every hypothesis, and cliffs retreat in both. -/
example : okAnd (initial crEnv crLoad) (fun s0 => okAnd (trace crEnv s0 2) (fun x =>
    decide (∀ y ∈ x.1, y.2.1.chan.closed = true ∧ (∀ r ∈ y.1.rows, ∃ z ∈ r.z0.val?, 0 < crEnv.pp.ClosureDepth + z) ∧
      (∀ i ∈ y.2.1.chan.online, ∀ r ∈ y.1.rows[i]?, (fin crEnv.pp.BackshoreElev ≤? r.z3) = false) ∧ Regular crEnv.pp (stepIn crEnv y)) &&
    x.1.map (fun y => y.2.2.rows.map (·.y4)) ==
      [[fin 0, fin 0, fin 0, fin 0, fin (-3/350 : ℚ), fin (-3/350), fin (-3/350), fin (-3/350), fin 0],
       [fin 0, fin (-3/350), fin (-3/350), fin (-3/350), fin (-3/175), fin (-3/350), fin (-3/350), fin (-3/350), fin 0]])) = true := by decide +kernel
example : 0 < crEnv.Dx ∧ 0 ≤ crEnv.MaxMorChange ∧ crEnv.MaxMorChange < crEnv.pp.BackshoreElev + crEnv.pp.ClosureDepth := by decide +kernel

end Verif.Props
