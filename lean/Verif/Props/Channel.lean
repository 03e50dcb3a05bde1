import Verif.Lemmas.ChannelReach
import Mathlib.Data.Rat.Floor

set_option autoImplicit false
set_option linter.unusedSectionVars false

/-! # Properties C24-C26: the assembled channel -/

namespace Verif.Props
open Verif Verif.Model Verif.Spec Fl

variable {K : Type} [Field K] [LinearOrder K] [IsStrictOrderedRing K] [FloorRing K]

/-- C24: every per-section output has the same length, reach lengths are one fewer, every width
is positive, nothing is missing, and the flags are 0 for the river sections, 1 for the (at least
one) lagoon sections, then, exactly when reported open, 2 for the (at least one) outlet sections, 3
for the outlet end and 4 for the dummy section.  The shape hypotheses say that river data have one
entry per river section, and outlet-end data one or two entries. -/
theorem C24_wellformed (pp : PhysPars K) (a : ChanIn K) (out : ChanOut K)
    (hd : a.RivDep.length = a.RiverElev.length) (hv : a.RivVel.length = a.RiverElev.length)
    (hed : a.EndDep.length = 1 ∨ a.EndDep.length = 2) (hev : a.EndVel.length = 1 ∨ a.EndVel.length = 2)
    (h : assembleChannel pp a = .ok out) :
    (∃ N, out.elev.length = N ∧ out.width.length = N ∧ out.lagArea.length = N ∧ out.lagLen.length = N ∧
      out.dep.length = N ∧ out.vel.length = N ∧ out.flag.length = N ∧ out.dx.length + 1 = N) ∧
    (∀ w ∈ out.width, (fin 0 <? w) = true) ∧
    (∀ l ∈ [out.dep, out.vel, out.width, out.elev], nan ∉ l) ∧
    0 < out.online.length ∧
    out.flag = List.replicate a.RiverElev.length 0 ++ List.replicate out.online.length 1 ++
      (if out.closed then [] else List.replicate out.outlet.length 2 ++ [3, 4]) ∧
    (out.closed = false → 0 < out.outlet.length) := by
  obtain ⟨X0, r0, w, C1, s1, s, onRows, outRows, H⟩ := assemble_inv h
  have hl := H.lens
  have hh := H.hydLen hd hv hed hev
  obtain ⟨m, hm, hon, _⟩ := H.shape
  have hg := H.geom
  unfold chanGeom at hg
  simp only [Prod.mk.injEq] at hg
  obtain ⟨g1, g2, g3, g4, g5, g6⟩ := hg
  have hon2 : 0 < out.online.length := by rw [hon]; simpa using hm
  rw [← H.online] at g1 g2 g5 g6 hl
  have e5 : out.lagArea.length = out.elev.length := by rw [g5, g3]; simp [setAt]
  refine ⟨?_, ?_, ?_, hon2, g2, fun hc => ?_⟩
  · cases hc : out.closed with
    | true =>
      rw [hc] at hh g1 g2 g3 g4
      simp only [if_true, add_zero] at hh
      have e1 : out.elev.length = a.RiverElev.length + out.online.length := by rw [g3]; simp [hl.1]
      refine ⟨_, e1, ?_, ?_, ?_, hh.1, hh.2, ?_, ?_⟩
      · rw [g4]; simp [hl.1]
      · rw [e5, e1]
      · rw [g6]; simp [addAt, hc]
      · rw [g2]; simp
      · rw [g1]; simp; omega
    | false =>
      rw [hc] at hh g1 g2 g3 g4
      simp only [Bool.false_eq_true, if_false] at hh
      obtain ⟨l1, l2, _⟩ := hl.2 hc
      have e1 : out.elev.length = a.RiverElev.length + out.online.length + (out.outlet.length + 2) := by rw [g3]; simp [hl.1, l2]; omega
      refine ⟨_, e1, ?_, ?_, ?_, hh.1, hh.2, ?_, ?_⟩
      · rw [g4]; simp [hl.1, l1]; omega
      · rw [e5, e1]
      · rw [g6]; simp [addAt, hc]; omega
      · rw [g2]; simp; omega
      · rw [g1]; simp [addAt]; omega
  · intro x hx
    have h1 := H.width0 x hx
    have h2 := H.widthN x hx
    cases x <;> simp [Fl.ble, Fl.blt] at h1 h2 ⊢
    exact h1
  · intro l hl' hn
    simp only [List.mem_cons, List.not_mem_nil, or_false] at hl'
    rcases hl' with rfl | rfl | rfl | rfl
    · cases H.depN _ hn
    · cases H.velN _ hn
    · cases H.widthN _ hn
    · cases H.elevN _ hn
  · exact List.length_pos_iff.mpr (hl.2 hc).2.2

/-- C25: closed exactly when it was closed before, or some transect between the two ends of the
outlet channel, or the outlet end, is not wider than MinOutletWidth (a missing width counts as not
wider), or some transect on the lagoon reach between the river and the outlet is narrower than
MinOutletWidth. -/
theorem C25_closed_iff (pp : PhysPars K) (hmin : 0 ≤ pp.MinOutletWidth) (a : ChanIn K) (out : ChanOut K) (e0 e1 : K)
    (hs : a.rows.Pairwise (fun r s => r.x < s.x))
    (he : a.Closed = false → a.EndX0 = fin e0 ∧ a.EndX1 = fin e1)
    (h : assembleChannel pp a = .ok out) :
    out.closed = true ↔
      a.Closed = true ∨
      (∃ r ∈ a.rows, InOutlet e0 e1 r.x ∧ (fin pp.MinOutletWidth <? r.y1 - r.y2) = false) ∨
      (a.EndWidth ≤? fin pp.MinOutletWidth) = true ∨
      (∃ r ∈ a.rows, OnReach e0 r.x ∧ (r.y3 - r.y4 <? fin pp.MinOutletWidth) = true) := by
  obtain ⟨X0, r0, w, C1, s1, s, onRows, outRows, H⟩ := assemble_inv h
  obtain ⟨_, rows1, hr1, _, _, _, _, hc⟩ := cut_inv H.cut
  rcases outlet_inv H.outlet with ⟨h1, _, h2⟩ | ⟨h1, rs, h2, h3, h4⟩
  · refine iff_of_true ?_ (Or.inl h1)
    rcases hc with ⟨_, hc, _⟩ | ⟨_, _, hc, _⟩
    · rw [hc, h2]
    · exact hc
  obtain ⟨he0, he1⟩ := he h1
  have hw : w.any (· ≤? fin pp.MinOutletWidth) = true ↔
      ∃ r ∈ a.rows, InOutlet e0 e1 r.x ∧ (fin pp.MinOutletWidth <? r.y1 - r.y2) = false := by
    rw [h3, List.any_map, List.any_eq_true]
    rw [he0, he1] at h2
    constructor
    · rintro ⟨r, hr, hp⟩
      obtain ⟨i, hi, hri⟩ := mem_gather h2 hr
      obtain ⟨r', hr', hin⟩ := (outletIx_mem _ _ _ _).mp hi
      rw [hri] at hr'; cases hr'
      refine ⟨r, List.mem_of_getElem? hri, hin, ?_⟩
      simpa [outWidth_le r _ hmin] using hp
    · rintro ⟨r, hr, hin, hp⟩
      obtain ⟨i, hi⟩ := List.mem_iff_getElem?.mp hr
      obtain ⟨r', hr', hm⟩ := gather_mem h2 ((outletIx_mem _ _ _ _).mpr ⟨r, hi, hin⟩)
      rw [hi] at hr'; cases hr'
      exact ⟨r, hm, by simp [outWidth_le r _ hmin, hp]⟩
  rcases h4 with ⟨h5, _, h6⟩ | ⟨h5, _, _, h6⟩
  · refine iff_of_true ?_ ?_
    · rcases hc with ⟨_, hc, _⟩ | ⟨_, _, hc, _⟩
      · rw [hc, h5]
      · exact hc
    · rw [Bool.or_eq_true, hw] at h6
      rcases h6 with h6 | h6
      · exact Or.inr (Or.inl h6)
      · exact Or.inr (Or.inr (Or.inl h6))
  · rw [Bool.or_eq_false_iff] at h6
    have hw' : ¬ ∃ r ∈ a.rows, InOutlet e0 e1 r.x ∧ (fin pp.MinOutletWidth <? r.y1 - r.y2) = false := by
      rw [← hw, h6.1]; simp
    have hmem := lagoon_open_mem hs H.x0 he0 (h5 ▸ H.lag)
    rw [h1, h6.2]
    simp only [hw', Bool.false_eq_true, false_or]
    rcases hc with ⟨_, hc, hn⟩ | ⟨k, r, hc, _, _, hk, hn, _⟩
    · rw [hc, h5]
      refine iff_of_false (by simp) ?_
      rintro ⟨r, hr, hreach, hlt⟩
      obtain ⟨i, hi⟩ := List.mem_iff_getElem?.mp hr
      obtain ⟨r', hr', hm⟩ := gather_mem hr1 ((hmem i).mpr ⟨r, hi, hreach⟩)
      rw [hi] at hr'; cases hr'
      have := hn r hm
      unfold lagWidth at this
      rw [hlt] at this; cases this
    · refine iff_of_true hc ?_
      obtain ⟨i, hi, hri⟩ := mem_gather hr1 (List.mem_of_getElem? hk)
      obtain ⟨r', hr', hreach⟩ := (hmem i).mp hi
      rw [hri] at hr'; cases hr'
      exact ⟨r, List.mem_of_getElem? hri, hreach, hn⟩

/-- C26: there is a transect `i0` at X = 0 such that the `k`-th online lagoon transect is `i0 + k`
if the outlet lies to the right (or in line), `i0 - k` if it lies to the left; there is at least
one; and each has lagoon width positive and at least MinOutletWidth. -/
theorem C26_contiguous (pp : PhysPars K) (a : ChanIn K) (out : ChanOut K) (h : assembleChannel pp a = .ok out) :
    ∃ i0 r0, a.rows[i0]? = some r0 ∧ r0.x = 0 ∧ out.online[0]? = some i0 ∧
      (∀ (k i : ℕ), out.online[k]? = some i → ((fin 0 ≤? a.EndX0) = true → i = i0 + k) ∧ ((fin 0 ≤? a.EndX0) = false → i + k = i0)) ∧
      ∀ i ∈ out.online, ∃ r, a.rows[i]? = some r ∧ (fin 0 <? r.y3 - r.y4) = true ∧ (fin pp.MinOutletWidth ≤? r.y3 - r.y4) = true := by
  obtain ⟨X0, r0, w, C1, s1, s, onRows, outRows, H⟩ := assemble_inv h
  obtain ⟨m, hm, hon, hb⟩ := H.shape
  obtain ⟨q, hq, hq0⟩ := x0_row H.x0
  obtain ⟨_, rows1, hr1, _, _, _, hpos, hc⟩ := cut_inv H.cut
  refine ⟨X0, q, hq, hq0, ?_, ?_, ?_⟩
  · rw [hon]
    simp [hm, step]
  · intro k i hk
    rw [hon, List.getElem?_map] at hk
    cases hr : (List.range m)[k]? with
    | none => rw [hr] at hk; cases hk
    | some j =>
      rw [hr] at hk
      obtain ⟨h1, h2⟩ := List.getElem?_eq_some_iff.mp hr
      simp at h1 h2
      subst h2
      simp only [Option.map_some, Option.some.injEq] at hk
      refine ⟨fun h3 => ?_, fun h3 => ?_⟩
      · rw [← hk]; simp [step, h3]
      · have := hb h3
        rw [← hk]; simp [step, h3]; omega
  · intro i hi
    rw [H.online] at hi
    obtain ⟨r, hr, hp⟩ := hpos i hi
    refine ⟨r, hr, hp, ?_⟩
    have hge : (lagWidth r <? fin pp.MinOutletWidth) = false := by
      rcases hc with ⟨rfl, _, hn⟩ | ⟨k, _, _, _, hk, _, _, hn, _⟩
      · obtain ⟨r', hr', hm'⟩ := gather_mem hr1 hi
        rw [hr] at hr'; cases hr'
        exact hn r hm'
      · rw [hk] at hi
        obtain ⟨r', hr', hm'⟩ := gather_mem (gather_take k hr1) hi
        rw [hr] at hr'; cases hr'
        obtain ⟨j, hj⟩ := List.mem_iff_getElem?.mp hm'
        rw [List.getElem?_take] at hj
        split at hj
        · exact hn j (by assumption) r hj
        · cases hj
    have hnn := H.nonan r (List.mem_of_getElem? hr)
    unfold lagWidth at hge hnn
    cases hx : r.y3 - r.y4 <;> rw [hx] at hge hnn <;> simp [Fl.blt, Fl.ble] at hge hnn ⊢
    exact hge

/-- C26: when the channel is reported open the online lagoon is the whole reach between the river
and the outlet. -/
theorem C26_whole_reach (pp : PhysPars K) (a : ChanIn K) (out : ChanOut K) (e0 : K)
    (hs : a.rows.Pairwise (fun r s => r.x < s.x)) (he : a.EndX0 = fin e0)
    (h : assembleChannel pp a = .ok out) (hopen : out.closed = false) (i : ℕ) :
    i ∈ out.online ↔ ∃ r, a.rows[i]? = some r ∧ OnReach e0 r.x := by
  obtain ⟨X0, r0, w, C1, s1, s, onRows, outRows, H⟩ := assemble_inv h
  obtain ⟨h1, h2⟩ := H.closed_of hopen
  rw [H.online, h2]
  exact lagoon_open_mem hs H.x0 he (h1 ▸ H.lag) i

/-! ### A concrete channel -/

/-- Parameters used in the examples. -/
def chPP : PhysPars ℚ :=
  { Gravity := 981/100, RhoRiv := 1000, RhoSed := 2650, GrainSize := 1/50, CritShieldsStress := 45/1000, VoidRatio := 3/10,
    RoughnessManning := 3/100, GrainRoughness := 2/100, MPM_coef := 8, MPM_exp := 2, K2coef := 1/1000, BreakerCoef := 1/2,
    WaveDataDepth := 10, OT_coef := 1, OT_exp := 1, BarRatSlope := 1, BarRatInt := 0, ClosureDepth := -10, BackshoreElev := 6,
    MaxOutletElev := -1, MinOutletWidth := 1, RiverWidth := 70, SpitWidth := 20, OutletBankEroFac := 1/2, OutletSedSpreadDist := 20,
    WidthDepthRatio := 30, BeachTopElev := 3, ShorelineErosionRate := 0 }

/-- Seven transects 10 m apart; lagoon 20 m wide; an outlet channel 5 m wide at X = 20. -/
def chRow (x : ℚ) : Transect ℚ :=
  ⟨x, fin 100, if x = 20 then fin 60 else nan, if x = 20 then fin 55 else nan, fin 20, fin 0, fin 4, fin 0, fin 4, fin (-1)⟩

def chIn : ChanIn ℚ :=
  { rows := [-30, -20, -10, 0, 10, 20, 30].map chRow, EndX0 := fin 15, EndX1 := fin 24, EndWidth := fin 6, EndElev := fin (-1),
    Closed := false, RiverElev := [fin 1, fin 0], RivDep := [fin 1, fin 1], RivVel := [fin 1, fin 1],
    LagoonWL := List.replicate 7 (fin 1), LagoonVel := List.replicate 7 (fin 1), OutletDep := List.replicate 7 nan,
    OutletVel := List.replicate 7 nan, EndDep := [fin 1], EndVel := [fin 1], Dx := 10 }

example : (match assembleChannel chPP chIn with
    | .ok out => out.online == [3, 4] && out.outlet == [5] && out.flag == [0, 0, 1, 1, 2, 3, 4] && !out.closed
    | _ => false) = true := by decide +kernel
example : chIn.rows.Pairwise (fun r s => r.x < s.x) := by decide +kernel
/-- A closing lagoon: transect at X = 10 narrower than the minimum. -/
example : (match assembleChannel chPP { chIn with rows := chIn.rows.set 4 { chRow 10 with y3 := fin (1/2) } } with
    | .ok out => out.online == [3] && out.closed
    | _ => false) = true := by decide +kernel

end Verif.Props
