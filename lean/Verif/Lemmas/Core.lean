import Verif.Model.Core
import Verif.Lemmas.MorDt
import Verif.Lemmas.Channel

set_option autoImplicit false
set_option linter.unusedSectionVars false

namespace Verif.Model
open Verif Fl

variable {K : Type} [Field K] [LinearOrder K] [IsStrictOrderedRing K]

theorem halve_nonneg (cond : ℤ → Bool) : ∀ (f : ℕ) (dt r : ℤ), 0 ≤ dt → halve cond f dt = .ok r → 0 ≤ r ∧ r ≤ dt := by
  intro f
  induction f with
  | zero => intro dt r _ h; cases h
  | succ f ih =>
    intro dt r h0 h
    unfold halve at h
    split at h
    · have hd : 0 ≤ dt.tdiv 2 ∧ dt.tdiv 2 ≤ dt := by
        rw [Int.tdiv_eq_ediv_of_nonneg h0]; omega
      obtain ⟨h1, h2⟩ := ih _ _ hd.1 h
      exact ⟨h1, h2.trans hd.2⟩
    · cases h; exact ⟨h0, le_rfl⟩

theorem grow_nonneg (cond : ℤ → Bool) : ∀ (f : ℕ) (dt r : ℤ), 0 ≤ dt → grow cond f dt = .ok r → dt ≤ r := by
  intro f
  induction f with
  | zero => intro dt r _ h; cases h
  | succ f ih =>
    intro dt r h0 h
    unfold grow at h
    split at h
    · split at h
      · cases h
      · have := ih _ _ (by omega) h; omega
    · cases h; exact le_rfl

theorem adapt_nonneg {rate : Fl K} {lim : K} {dtMin dtMax dt r : ℤ} (h0 : 0 ≤ dt) (h : adaptDt rate lim dtMin dtMax dt = .ok r) : 0 ≤ r := by
  unfold adaptDt at h
  obtain ⟨d, h1, h2⟩ := bind_ok.mp h
  have := halve_nonneg _ _ _ _ h0 h1
  have := grow_nonneg _ _ _ _ this.1 h2
  omega

theorem update_dt_nonneg {pp : PhysPars K} {j1 j2 : ℕ → Bool} {a : MorIn K} {o : MorOut K} (h : updateMorphology pp j1 j2 a = .ok o)
    (h0 : 0 ≤ a.MorDt) : 0 ≤ o.MorDt := by
  obtain ⟨rate, R, R', h1, _⟩ := update_dt h
  exact adapt_nonneg h0 h1

/-- Assembly never opens a closed outlet. -/
theorem assemble_keeps_closed [FloorRing K] {pp : PhysPars K} {a : ChanIn K} {out : ChanOut K} (h : assembleChannel pp a = .ok out)
    (hc : a.Closed = true) : out.closed = true := by
  unfold assembleChannel at h
  simp only [bind_ok] at h
  obtain ⟨X0, _, ⟨outlet, w, C1⟩, ho, r0, _, _, _, _, _, s1, _, ⟨s, C2⟩, hcut, onRows, _, outRows, _, ⟨dep, vel⟩, _, rest⟩ := h
  have hC1 : C1 = true := by
    unfold outletStage at ho
    rw [hc] at ho
    simp only [if_true, pure_ok] at ho
    cases ho; rfl
  have hC2 : C2 = true := by
    obtain ⟨_, _, _, _, _, _, _, hcl⟩ := cut_inv hcut
    rcases hcl with ⟨_, h2, _⟩ | ⟨k, r, h1, _⟩
    · rw [h2]; exact hC1
    · exact h1
  obtain ⟨_, _, _, _, _, _, _, _, _, _, _, _, hout⟩ := rest
  rw [pure_ok] at hout
  rw [← hout]; exact hC2

/-- What a successful computation consists of. -/
structure Computed [FloorRing K] (e : Env K) (s : CoreSt K) (p : PassOut K) (fl sl : List (Fl K)) : Prop where
  chan : assembleChannel e.pp (chanIn e s) = .ok p.chan
  window : hydTimes s.time s.dt e.tp.HydDt = .ok p.window
  flow : interpolateAt e.flow p.window = .ok fl
  sea : interpolateAt e.sea p.window = .ok sl
  flowLast : fl.getLast? = some p.flow
  seaLast : sl.getLast? = some p.sea
  hydro : hydraulics e p.chan fl sl = .ok (p.dep, p.vel)
  store : storeHydraulics p.dep p.vel p.chan.online p.chan.outlet p.chan.flag (s.rows.map (·.z3)) p.chan.closed = .ok p.hyd
  bed : e.parts.bedload p.chan.width p.dep p.vel = .ok p.bed
  bedLen : p.bed.length = p.chan.elev.length - 1
  wave : wavesAt e.waves s.time = .ok p.wave
  lst : p.LST = e.parts.lst (s.rows.map (·.y0)) p.wave
  cst : e.parts.overtop (e.parts.runup p.wave) p.sea s.rows = .ok (p.CST, p.owp)
  mor : updateMorphology e.pp (e.junk1 s.passes) (e.junk2 s.passes) (morIn e s p.chan p.dep p.hyd p.bed p.LST p.CST p.owp) = .ok p.mor

theorem compute_inv [FloorRing K] {e : Env K} {s : CoreSt K} {p : PassOut K} (h : compute e s = .ok p) : ∃ fl sl, Computed e s p fl sl := by
  unfold compute at h
  simp only [bind_ok, pure_ok, pyAssert_ok, decide_eq_true_eq, pyGet_last] at h
  obtain ⟨c, hc, win, hw, fl, hf, sl, hs, ⟨dep, vel⟩, hh, hyd, hst, bed, hb, _, hlen, w, hwv, q, hq, sq, hsq, ⟨CST, owp⟩, ho, m, hm, rfl⟩ := h
  exact ⟨fl, sl, ⟨hc, hw, hf, hs, hq, hsq, hh, hst, hb, hlen, hwv, rfl, ho, hm⟩⟩

/-- The step by which time is advanced. -/
def stepOf (e : Env K) (s : CoreSt K) (p : PassOut K) : ℤ :=
  if e.tp.EndTime - s.time < p.mor.MorDt then e.tp.EndTime - s.time else p.mor.MorDt

/-- What `advance` does. -/
structure Advanced (e : Env K) (s : CoreSt K) (p : PassOut K) (s' : CoreSt K) : Prop where
  time : s'.time = s.time + stepOf e s p
  dt : s'.dt = stepOf e s p
  passes : s'.passes = s.passes + 1
  rows : s'.rows = p.mor.rows
  endX0 : s'.EndX0 = p.mor.EndX0
  endX1 : s'.EndX1 = p.mor.EndX1
  endWidth : s'.EndWidth = p.mor.EndWidth
  endElev : s'.EndElev = p.mor.EndElev
  riv : s'.RiverElev = p.mor.RiverElev
  hyd : s'.hyd = p.hyd
  closed : s'.Closed = if p.mor.Breach then false else p.chan.closed
  outs : (s'.time < s.outTime ∧ s'.outs = s.outs ∧ s'.outTime = s.outTime) ∨
    (s.outTime ≤ s'.time ∧ s'.outTime = s.outTime + e.oo.OutInt ∧ ∃ bl, s'.outs = s.outs ++ [snapshot s p s'.time bl] ∧
      storeBedload p.bed s.rows.length p.chan.online p.chan.outlet p.chan.flag p.chan.closed = .ok bl)
  ts : (s'.time < s.tsTime ∧ s'.ts = s.ts ∧ s'.tsTime = s.tsTime) ∨
    (s.tsTime ≤ s'.time ∧ s'.tsTime = s.tsTime + e.oo.TsOutInt ∧ ∃ r, s'.ts = s.ts ++ [r] ∧ tsRecord p s'.time s'.dt = .ok r)

theorem advance_inv {e : Env K} {s s' : CoreSt K} {p : PassOut K} (h : advance e s p = .ok s') : Advanced e s p s' := by
  unfold advance at h
  simp only [bind_ok, pure_ok] at h
  change ∃ bl, (if decide (s.outTime ≤ s.time + stepOf e s p) || (decide (0 < e.oo.PlotInt) && decide (s.plotTime ≤ s.time + stepOf e s p)) then
      storeBedload p.bed s.rows.length p.chan.online p.chan.outlet p.chan.flag p.chan.closed else .ok ([], [], [])) = .ok bl ∧
      ∃ ts, (if decide (s.tsTime ≤ s.time + stepOf e s p) then do return s.ts ++ [← tsRecord p (s.time + stepOf e s p) (stepOf e s p)] else .ok s.ts : Except PyErr _) = .ok ts ∧ _ = s' at h
  obtain ⟨bl, hbl, ts, hts, rfl⟩ := h
  refine ⟨rfl, rfl, rfl, rfl, rfl, rfl, rfl, rfl, rfl, rfl, rfl, ?_, ?_⟩
  · by_cases ho : s.outTime ≤ s.time + stepOf e s p
    · right
      refine ⟨ho, ?_, bl, ?_, ?_⟩
      · exact if_pos (decide_eq_true ho)
      · exact if_pos (decide_eq_true ho)
      · rw [if_pos (by simp [ho])] at hbl; exact hbl
    · left
      refine ⟨not_le.mp ho, ?_, ?_⟩
      · exact if_neg (by rw [decide_eq_true_eq]; exact ho)
      · exact if_neg (by rw [decide_eq_true_eq]; exact ho)
  · by_cases ho : s.tsTime ≤ s.time + stepOf e s p
    · right
      rw [if_pos (decide_eq_true ho)] at hts
      simp only [bind_ok, pure_ok] at hts
      obtain ⟨r, hr, hts⟩ := hts
      refine ⟨ho, ?_, r, hts.symm, hr⟩
      exact if_pos (decide_eq_true ho)
    · left
      rw [if_neg (by simpa using ho)] at hts
      refine ⟨not_le.mp ho, (ok_inj.mp hts).symm, ?_⟩
      exact if_neg (by rw [decide_eq_true_eq]; exact ho)

theorem pass_inv [FloorRing K] {e : Env K} {s s' : CoreSt K} {p : PassOut K} (h : pass e s = .ok (p, s')) :
    (∃ fl sl, Computed e s p fl sl) ∧ Advanced e s p s' := by
  unfold pass at h
  simp only [bind_ok, pure_ok] at h
  obtain ⟨p1, h1, s1, h2, he⟩ := h
  cases he
  exact ⟨compute_inv h1, advance_inv h2⟩

/-- What `initial` establishes. -/
theorem initial_inv [FloorRing K] {e : Env K} {ld : LoadOut K} {s : CoreSt K} (h : initial e ld = .ok s) :
    s.time = e.tp.StartTime ∧ s.dt = e.tp.MorDtMin ∧ s.outTime = e.tp.StartTime + e.oo.OutInt ∧ s.tsTime = e.tp.StartTime + e.oo.TsOutInt ∧
    s.rows = ld.rows ∧ (∃ r, s.outs = [r] ∧ r.time = e.tp.StartTime ∧ r.rows = ld.rows ∧ r.Closed = s.Closed) ∧
    (∃ r, s.ts = [r] ∧ r.time = e.tp.StartTime) ∧ (ld.Closed = true → s.Closed = true) := by
  unfold initial at h
  simp only [bind_ok, pure_ok] at h
  obtain ⟨fl, _, sl, _, w, _, c, hc, q, _, sq, _, ⟨dep, vel⟩, _, hyd, _, d, _, v, _, cw, _, rfl⟩ := h
  exact ⟨rfl, rfl, rfl, rfl, rfl, ⟨_, rfl, rfl, rfl, rfl⟩, ⟨_, rfl, rfl⟩, fun hcl => assemble_keeps_closed hc hcl⟩

end Verif.Model
