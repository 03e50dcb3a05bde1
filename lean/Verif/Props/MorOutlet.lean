import Verif.Lemmas.MorOutlet
import Verif.Props.MorSample
import Mathlib.Tactic.FieldSimp
import Mathlib.Tactic.Ring
import Mathlib.Tactic.Linarith

set_option autoImplicit false
set_option linter.unusedSectionVars false

/-! # Properties C76-C81: the two ends of the outlet channel -/

namespace Verif.Props
open Verif Verif.Model Verif.Spec Fl

variable {K : Type} [Field K] [LinearOrder K] [IsStrictOrderedRing K]

/-! ## C76 -/

/-- Position `x` was passed by the end (at `e1`) of an outlet channel from `e0` that had reached `xl`. -/
def Passed (e0 e1 xl x : K) : Prop := if e0 < e1 then xl < x ∧ x ≤ e1 else e1 ≤ x ∧ x < xl

/-- `t'` is `t` with a channel of width `w` and bed level `z`, at distance `spit` behind the shoreline; the old crest is behind the channel, in front of it
one at the beach top level. -/
def NewChannel (spit top w z : K) (t t' : Transect K) : Prop :=
  t' = { t with y1 := t'.y1, y2 := t'.y2, z0 := fin top, z1 := fin z, z2 := t.z0 } ∧
    (∀ y0, t.y0 = fin y0 → ∃ y1 y2, t'.y1 = fin y1 ∧ t'.y2 = fin y2 ∧ y0 - y1 = spit ∧ y1 - y2 = w)

theorem extendChan_spec {pp : PhysPars K} {st st' : MorSt K} {m : Transect K → Bool} (h : extendChan pp st m = .ok st') {e0 e1 w z : K}
    (h0 : st.e0 = fin e0) (h1 : st.e1 = fin e1) (hw : st.endW = fin w) (hz : st.endZ = fin z) :
    (∀ (i : ℕ) c, st.cells[i]? = some c → ∃ c', st'.cells[i]? = some c' ∧ (m c.t = true → NewChannel pp.SpitWidth pp.BeachTopElev w z c.t c'.t) ∧ (m c.t = false → c' = c)) ∧
    st'.cells.length = st.cells.length ∧ { st' with cells := st.cells, ix := st.ix } = st ∧ FlowOrder (st.cells.map (·.t.x)) e0 e1 st'.ix := by
  unfold extendChan at h
  split at h
  · exact absurd h (by simp)
  · rw [ok_inj] at h; subst h
    refine ⟨fun i c hc => ?_, by simp, rfl, ?_⟩
    · refine ⟨_, by rw [List.getElem?_map, hc]; rfl, fun hm => ?_, fun hm => ?_⟩
      · dsimp only
        rw [if_pos hm]
        refine ⟨?_, fun y0 hy => ⟨y0 - pp.SpitWidth, y0 - pp.SpitWidth - w, ?_, ?_, by ring, by ring⟩⟩
        · simp only [elongCell, hz]
        · simp only [elongCell, hy, sub_fin]
        · simp only [elongCell, hy, hw, sub_fin]
      · dsimp only; rw [hm]; rfl
    · have := cellIx_flow (st.cells.map (fun c => if m c.t then elongCell pp st c else c)) e0 e1
      rw [List.map_map] at this
      have e : ((fun c : Cell K => c.t.x) ∘ fun c => if m c.t then elongCell pp st c else c) = fun c => c.t.x := by
        funext c; simp only [Function.comp]; split <;> rfl
      rw [e] at this
      simpa only [h0, h1] using this

/-- C76: for every state of an open outlet on a coast with increasing transect positions, elongation gives a channel to exactly the transects
passed and touches nothing else; if one was passed the outlet transects are those between the two
ends in flow order, and if none was passed the state is unchanged. -/
theorem C76_elongation (pp : PhysPars K) (st st' : MorSt K) (hs : (st.cells.map (·.t.x)).Pairwise (· < ·)) {e0 e1 w z : K}
    (h0 : st.e0 = fin e0) (h1 : st.e1 = fin e1) (hw : st.endW = fin w) (hz : st.endZ = fin z) {l : ℕ} {cl : Cell K} (hl : st.ix.getLast? = some l)
    (hcl : st.cells[l]? = some cl) (h : elongate pp false st = .ok st') :
    (∀ (i : ℕ) c, st.cells[i]? = some c → ∃ c', st'.cells[i]? = some c' ∧ (Passed e0 e1 cl.t.x c.t.x → NewChannel pp.SpitWidth pp.BeachTopElev w z c.t c'.t) ∧
      (¬ Passed e0 e1 cl.t.x c.t.x → c' = c)) ∧
    st'.cells.length = st.cells.length ∧ { st' with cells := st.cells, ix := st.ix } = st ∧
    ((∃ c ∈ st.cells, Passed e0 e1 cl.t.x c.t.x) → FlowOrder (st.cells.map (·.t.x)) e0 e1 st'.ix) ∧
    ((∀ c ∈ st.cells, ¬ Passed e0 e1 cl.t.x c.t.x) → st' = st) := by
  have same : (∀ c ∈ st.cells, ¬ Passed e0 e1 cl.t.x c.t.x) → (∀ (i : ℕ) c, st.cells[i]? = some c → ∃ c', st.cells[i]? = some c' ∧
      (Passed e0 e1 cl.t.x c.t.x → NewChannel pp.SpitWidth pp.BeachTopElev w z c.t c'.t) ∧ (¬ Passed e0 e1 cl.t.x c.t.x → c' = c)) ∧
      st.cells.length = st.cells.length ∧ { st with cells := st.cells, ix := st.ix } = st ∧
      ((∃ c ∈ st.cells, Passed e0 e1 cl.t.x c.t.x) → FlowOrder (st.cells.map (·.t.x)) e0 e1 st.ix) ∧ ((∀ c ∈ st.cells, ¬ Passed e0 e1 cl.t.x c.t.x) → st = st) := by
    intro hn
    exact ⟨fun i c hc => ⟨c, hc, fun hp => absurd hp (hn c (List.mem_of_getElem? hc)), fun _ => rfl⟩, rfl, rfl, fun ⟨c, hc, hp⟩ => absurd hp (hn c hc), fun _ => rfl⟩
  have ext : ∀ m : Transect K → Bool, (∀ t : Transect K, m t = true ↔ Passed e0 e1 cl.t.x t.x) → extendChan pp st m = .ok st' → _ := fun m hm he => by
    obtain ⟨a, b, c, d⟩ := extendChan_spec he h0 h1 hw hz
    refine (⟨fun i c hc => ?_, b, c, fun _ => d, fun hn => ?_⟩ : (∀ (i : ℕ) c, st.cells[i]? = some c → ∃ c', st'.cells[i]? = some c' ∧
      (Passed e0 e1 cl.t.x c.t.x → NewChannel pp.SpitWidth pp.BeachTopElev w z c.t c'.t) ∧ (¬ Passed e0 e1 cl.t.x c.t.x → c' = c)) ∧
      st'.cells.length = st.cells.length ∧ { st' with cells := st.cells, ix := st.ix } = st ∧
      ((∃ c ∈ st.cells, Passed e0 e1 cl.t.x c.t.x) → FlowOrder (st.cells.map (·.t.x)) e0 e1 st'.ix) ∧ ((∀ c ∈ st.cells, ¬ Passed e0 e1 cl.t.x c.t.x) → st' = st))
    · obtain ⟨c', g, g1, g2⟩ := a i c hc
      exact ⟨c', g, fun hp => g1 ((hm _).mpr hp), fun hp => g2 (by rw [← Bool.not_eq_true, hm]; exact hp)⟩
    · exfalso
      unfold extendChan at he
      split at he
      · exact absurd he (by simp)
      · rename_i hany
        simp only [Bool.not_eq_eq_eq_not, Bool.not_true, Bool.not_eq_false, List.any_eq_true] at hany
        obtain ⟨c, hc, hmc⟩ := hany
        exact hn c hc ((hm _).mp hmc)
  unfold elongate at h
  simp only [Bool.false_eq_true, if_false, bind_ok, pyGet_last, ixGet_ok] at h
  obtain ⟨l', hl', cl', hcl', h⟩ := h
  rw [hl] at hl'; cases hl'
  rw [hcl] at hcl'; cases hcl'
  rw [h0, h1] at h
  by_cases hd : e0 < e1
  · simp only [blt_fin, hd, decide_true, if_true, bind_ok, ixGet_ok] at h
    obtain ⟨cn, hcn, h⟩ := h
    by_cases hx : cn.t.x ≤ e1
    · simp only [ble_fin, hx, decide_true, if_true] at h
      exact ext _ (fun t => by simp [Passed, hd]) h
    · simp only [ble_fin, hx, decide_false, Bool.false_eq_true, if_false, pure_ok] at h
      subst h
      refine same (fun c hc hp => ?_)
      simp only [Passed, hd, if_true] at hp
      obtain ⟨i, hi⟩ := List.getElem?_of_mem hc
      have hli := (sorted_lt_iff hs hcl hi).mp hp.1
      rcases Nat.lt_or_eq_of_le (Nat.succ_le_of_lt hli) with h' | h'
      · have := sorted_lt hs hcn hi h'
        exact hx (this.le.trans hp.2)
      · rw [← h'] at hi
        have := hcn.symm.trans hi
        cases this
        exact hx hp.2
  · simp only [blt_fin, hd, decide_false, Bool.false_eq_true, if_false, bind_ok, ixGet_ok] at h
    obtain ⟨cn, hcn, h⟩ := h
    by_cases hx : e1 ≤ cn.t.x
    · simp only [ble_fin, hx, decide_true, if_true] at h
      exact ext _ (fun t => by simp [Passed, hd, and_comm]) h
    · simp only [ble_fin, hx, decide_false, Bool.false_eq_true, if_false, pure_ok] at h
      subst h
      refine same (fun c hc hp => ?_)
      simp only [Passed, hd, if_false] at hp
      obtain ⟨i, hi⟩ := List.getElem?_of_mem hc
      have hli := (sorted_lt_iff hs hi hcl).mp hp.2
      have hprev : prevIx st.cells.length l = l - 1 := by unfold prevIx; rw [if_neg (by omega)]
      rw [hprev] at hcn
      rcases Nat.lt_or_eq_of_le (Nat.le_sub_one_of_lt hli) with h' | h'
      · have := sorted_lt hs hi hcn h'
        exact hx (hp.1.trans this.le)
      · rw [← h'] at hcn
        have := hcn.symm.trans hi
        cases this
        exact hx hp.1

/-- C76: elongation does not fail when the last outlet transect is not at an edge of the coast. -/
theorem C76_ok (pp : PhysPars K) (st : MorSt K) (hs : (st.cells.map (·.t.x)).Pairwise (· < ·)) {e0 e1 : K} (h0 : st.e0 = fin e0) (h1 : st.e1 = fin e1) {l : ℕ}
    (hl : st.ix.getLast? = some l) (hl0 : 0 < l) (hln : l + 1 < st.cells.length) : ∃ st', elongate pp false st = .ok st' := by
  obtain ⟨cl, hcl⟩ : ∃ c, st.cells[l]? = some c := ⟨_, List.getElem?_eq_getElem (by omega)⟩
  obtain ⟨cn, hcn⟩ : ∃ c, st.cells[l + 1]? = some c := ⟨_, List.getElem?_eq_getElem hln⟩
  obtain ⟨cp, hcp⟩ : ∃ c, st.cells[l - 1]? = some c := ⟨_, List.getElem?_eq_getElem (by omega)⟩
  have hprev : prevIx st.cells.length l = l - 1 := by unfold prevIx; rw [if_neg (by omega)]
  have ext : ∀ (m : Transect K → Bool) (c : Cell K), c ∈ st.cells → m c.t = true → ∃ st', extendChan pp st m = .ok st' := by
    intro m c hc hm
    unfold extendChan
    rw [if_neg (by simp only [Bool.not_eq_eq_eq_not, Bool.not_true, Bool.not_eq_false, List.any_eq_true]; exact ⟨c, hc, hm⟩)]
    exact ⟨_, rfl⟩
  unfold elongate
  simp only [Bool.false_eq_true, if_false]
  · by_cases hd : e0 < e1
    · by_cases hx : cn.t.x ≤ e1
      · obtain ⟨r, hr⟩ := ext (fun t => (fin cl.t.x <? fin t.x) && (fin t.x ≤? st.e1)) cn (List.mem_of_getElem? hcn)
          (by rw [h1]; simp [hx, sorted_lt hs hcl hcn (by omega)])
        exact ⟨r, bind_ok.mpr ⟨_, pyGet_last.mpr hl, bind_ok.mpr ⟨_, ixGet_ok.mpr hcl, by
          rw [if_pos (by rw [h0, h1]; simp [hd])]
          exact bind_ok.mpr ⟨_, ixGet_ok.mpr hcn, by rw [if_pos (by rw [h1]; simp [hx])]; exact hr⟩⟩⟩⟩
      · exact ⟨st, bind_ok.mpr ⟨_, pyGet_last.mpr hl, bind_ok.mpr ⟨_, ixGet_ok.mpr hcl, by
          rw [if_pos (by rw [h0, h1]; simp [hd])]
          exact bind_ok.mpr ⟨_, ixGet_ok.mpr hcn, by rw [if_neg (by rw [h1]; simp [hx])]; rfl⟩⟩⟩⟩
    · by_cases hx : e1 ≤ cp.t.x
      · obtain ⟨r, hr⟩ := ext (fun t => (fin t.x <? fin cl.t.x) && (st.e1 ≤? fin t.x)) cp (List.mem_of_getElem? hcp)
          (by rw [h1]; simp [hx, sorted_lt hs hcp hcl (by omega)])
        exact ⟨r, bind_ok.mpr ⟨_, pyGet_last.mpr hl, bind_ok.mpr ⟨_, ixGet_ok.mpr hcl, by
          rw [if_neg (by rw [h0, h1]; simp [hd])]
          exact bind_ok.mpr ⟨_, ixGet_ok.mpr (by rw [hprev]; exact hcp), by rw [if_pos (by rw [h1]; simp [hx])]; exact hr⟩⟩⟩⟩
      · exact ⟨st, bind_ok.mpr ⟨_, pyGet_last.mpr hl, bind_ok.mpr ⟨_, ixGet_ok.mpr hcl, by
          rw [if_neg (by rw [h0, h1]; simp [hd])]
          exact bind_ok.mpr ⟨_, ixGet_ok.mpr (by rw [hprev]; exact hcp), by rw [if_neg (by rw [h1]; simp [hx])]; rfl⟩⟩⟩⟩

/-- A cell with the barrier of `brRow` (no channel). -/
def olCell (x : ℚ) : Cell ℚ := { t := brRow x, sfh := fin 14, cw := fin 40, bh := fin 5, op := decide (x = 20), lo := true, wl := fin 1 }

/-- Outlet from 15 m to `e1`, with its only transect at 20 m. -/
def olSt (e1 : ℚ) : MorSt ℚ :=
  { cells := [-40, -30, -20, -10, 0, 10, 20, 30, 40].map olCell, e0 := fin 15, e1 := fin e1, endW := fin 6, endZ := fin (-1), ix := [6], riv := [] }

/-- Concrete case for C76: the end of the outlet has passed the transect at 30 m. -/
example : okAnd (elongate moPP false (olSt 32)) (fun s => decide (s.ix = [6, 7] ∧ (s.cells.map (·.t.z1)) = (List.replicate 6 nan ++ [fin 0, fin (-1), nan]))) = true := by
  decide +kernel

/-- Concrete case for C76: no transect passed. -/
example : okAnd (elongate moPP false (olSt 27)) (fun s => decide (s = olSt 27)) = true := by decide +kernel

/-! ## C77 -/

/-- C77: for every open outlet whose upstream transect has a channel bed below the inner crest.  If the channel has a barrier on its seaward side
nothing happens; if not, the channel is moved landward to leave a barrier of 1 mm, the same volume being put on its seaward as
taken from its landward side, and nothing else happens. -/
theorem C77_upstream (st st' : MorSt K) (h : seaPrevent false st = .ok st') {i : ℕ} (hi : st.ix.head? = some i) {c : Cell K} (hc : st.cells[i]? = some c)
    {y0 y1 y2 z0 z1 z2 : K} (a0 : c.t.y0 = fin y0) (a1 : c.t.y1 = fin y1) (a2 : c.t.y2 = fin y2) (b0 : c.t.z0 = fin z0) (b1 : c.t.z1 = fin z1)
    (b2 : c.t.z2 = fin z2) (hz : z1 < z2) :
    (y1 < y0 → st' = st) ∧
    (y0 ≤ y1 → ∃ y1' y2' : K, st' = { st with cells := st.cells.set i { c with t := { c.t with y1 := fin y1', y2 := fin y2' } } } ∧ y0 - y1' = 1 / 1000 ∧
      (y1 - y1') * (z0 - z1) = (y2 - y2') * (z2 - z1)) := by
  unfold seaPrevent at h
  simp only [Bool.false_eq_true, if_false, bind_ok, ixGet_ok] at h
  obtain ⟨i', hi', c', hc', h⟩ := h
  rw [List.head?_eq_getElem?, hi'] at hi; cases hi
  rw [hc] at hc'; cases hc'
  rw [a0, a1] at h
  constructor
  · intro hlt
    simp only [ble_fin, hlt.not_ge, decide_false, Bool.false_eq_true, if_false, pure_ok] at h
    exact h.symm
  · intro hle
    simp only [ble_fin, hle, decide_true, if_true, pure_ok] at h
    have hne : z2 - z1 ≠ 0 := (sub_pos.mpr hz).ne'
    refine ⟨y1 - (1 / 1000 + (y1 - y0)), y2 - (1 / 1000 + (y1 - y0)) * (z0 - z1) / (z2 - z1), ?_, by ring, by field_simp; ring⟩
    rw [← h]
    congr 1
    apply List.ext_getElem? (fun k => ?_)
    rw [List.getElem?_modify, List.getElem?_set]
    by_cases hk : i = k
    · subst hk
      have hlt : i < st.cells.length := (List.getElem?_eq_some_iff.mp hc).1
      simp only [if_true, hc, Option.map_eq_map, Option.map_some, hlt]
      simp only [seaPreventCell, a0, a1, a2, b0, b1, b2, sub_fin, add_fin, mul_fin, div_fin _ _ hne]
    · simp only [hk, if_false, Option.map_eq_map, Option.map_id', id_eq]

/-- Concrete case for C77: the shoreline has eroded 2 m into the channel at 20 m. -/
def olSea : MorSt ℚ := { olSt 27 with cells := (olSt 27).cells.set 6 { olCell 20 with t := { brRow 20 with y0 := fin 58 } } }

example : okAnd (seaPrevent false olSea) (fun s => decide ((s.cells[6]?).any (fun c => c.t.y1 ==? fin (58 - 1/1000)) = true)) = true := by decide +kernel

/-! ## C78 -/

/-- C78: for every open outlet whose downstream transect has a channel bed below the inner crest and below the cliff top (`B`).  If the channel has a barrier on its
landward side nothing happens.  If not, it is left with one of 0.1 mm: the lagoon edge moves landward, and where that would
be beyond the cliff, cliff, lagoon edge and channel edge move so that the cliff supplies exactly the sediment
deposited in the channel.  Nothing else happens. -/
theorem C78_downstream (pp : PhysPars K) (st st' : MorSt K) (h : lagoonPrevent pp false st = .ok st') {i : ℕ} (hi : st.ix.getLast? = some i) {c : Cell K}
    (hc : st.cells[i]? = some c) {y2 y3 y4 z1 z2 : K} (a2 : c.t.y2 = fin y2) (a3 : c.t.y3 = fin y3) (a4 : c.t.y4 = fin y4) (b1 : c.t.z1 = fin z1)
    (b2 : c.t.z2 = fin z2) (hz : z1 < z2) (hB : z1 < pp.BackshoreElev) :
    (y3 < y2 → st' = st) ∧
    (y2 ≤ y3 → ∃ y2' y3' y4' : K, st' = { st with cells := st.cells.set i { c with t := { c.t with y2 := fin y2', y3 := fin y3', y4 := fin y4' } } } ∧
      y2' - y3' = 1 / 10000 ∧ y4' ≤ y3' ∧ (y4' - y4) * (pp.BackshoreElev - z2) = (y2 - y2') * (z2 - z1) ∧ (y4 + 1 / 10000 ≤ y2 → y2' = y2 ∧ y4' = y4) ∧
      (y2 < y4 + 1 / 10000 → y4' = y3' ∧ y4' < y4)) := by
  unfold lagoonPrevent at h
  simp only [Bool.false_eq_true, if_false, bind_ok, ixGet_ok, pyGet_last] at h
  obtain ⟨i', hi', c', hc', h⟩ := h
  rw [hi] at hi'; cases hi'
  rw [hc] at hc'; cases hc'
  rw [a2, a3] at h
  constructor
  · intro hlt
    simp only [ble_fin, hlt.not_ge, decide_false, Bool.false_eq_true, if_false, pure_ok] at h
    exact h.symm
  · intro hle
    simp only [ble_fin, hle, decide_true, if_true, pure_ok] at h
    have key : ∀ c' : Cell K, lagoonPreventCell pp c = c' → st' = { st with cells := st.cells.set i c' } := by
      intro c' e
      rw [← h]
      congr 1
      apply List.ext_getElem? (fun k => ?_)
      rw [List.getElem?_modify, List.getElem?_set]
      by_cases hk : i = k
      · subst hk
        have hlt : i < st.cells.length := (List.getElem?_eq_some_iff.mp hc).1
        simp only [if_true, hc, Option.map_eq_map, Option.map_some, hlt, e]
      · simp only [hk, if_false, Option.map_eq_map, Option.map_id', id_eq]
    have hz' : z2 - z1 ≠ 0 := (sub_pos.mpr hz).ne'
    have hB' : 0 < pp.BackshoreElev - z1 := sub_pos.mpr hB
    have hd : 1 + (pp.BackshoreElev - z2) / (z2 - z1) = (pp.BackshoreElev - z1) / (z2 - z1) := by field_simp; ring
    have hpos : 0 < 1 + (pp.BackshoreElev - z2) / (z2 - z1) := by rw [hd]; exact div_pos hB' (sub_pos.mpr hz)
    by_cases hcl : y2 - 1 / 10000 < y4
    · refine ⟨y2 + ((y4 - (y2 - 1 / 10000)) - (y4 - (y2 - 1 / 10000)) / (1 + (pp.BackshoreElev - z2) / (z2 - z1))),
        y2 - 1 / 10000 + ((y4 - (y2 - 1 / 10000)) - (y4 - (y2 - 1 / 10000)) / (1 + (pp.BackshoreElev - z2) / (z2 - z1))),
        y4 - (y4 - (y2 - 1 / 10000)) / (1 + (pp.BackshoreElev - z2) / (z2 - z1)), key _ ?_, by ring, by linarith, ?_, fun hh => by exfalso; linarith,
        fun _ => ⟨by ring, ?_⟩⟩
      · unfold lagoonPreventCell
        simp only [a2, a4, b1, b2, sub_fin, blt_fin, hcl, decide_true, if_true, add_fin, div_fin _ _ hz', div_fin _ _ hpos.ne']
      · rw [hd]
        have : pp.BackshoreElev - z1 ≠ 0 := hB'.ne'
        field_simp
        ring
      · have : 0 < (y4 - (y2 - 1 / 10000)) / (1 + (pp.BackshoreElev - z2) / (z2 - z1)) := div_pos (by linarith) hpos
        linarith
    · refine ⟨y2, y2 - 1 / 10000, y4, key _ ?_, by ring, not_lt.mp hcl, by ring, fun _ => ⟨rfl, rfl⟩, fun hh => by exfalso; exact hcl (by linarith)⟩
      unfold lagoonPreventCell
      simp only [a2, a4, sub_fin, blt_fin, hcl, decide_false, Bool.false_eq_true, if_false]

/-- Concrete cases for C78: the channel at 20 m eroded back 2 m into the lagoon, and into the cliff. -/
def olLag (y2 : ℚ) : MorSt ℚ := { olSt 27 with cells := (olSt 27).cells.set 6 { olCell 20 with t := { brRow 20 with y2 := fin y2 } } }

example : okAnd (lagoonPrevent moPP false (olLag 18)) (fun s => decide ((s.cells[6]?).any (fun c => c.t.y3 ==? fin (18 - 1/10000)) = true)) = true := by decide +kernel
example : okAnd (lagoonPrevent moPP false (olLag (-2))) (fun s => decide ((s.cells[6]?).any (fun c => c.t.y4 <? fin 0 && c.t.y3 ==? c.t.y4) = true)) = true := by decide +kernel

/-! ## C79 -/

/-- Sediment above closure depth `D` between the lagoon edge `y3` and the shoreline `y0`, per unit length of coast, with a channel (bed `z1`) from
`y2` to `y1`; signed, so that a shoreline behind the channel edge counts negative. -/
def chanSand (D y0 y1 y2 y3 z0 z1 z2 : K) : K := (z0 + D) * (y0 - y1) + (z1 + D) * (y1 - y2) + (z2 + D) * (y2 - y3)

/-- C79, with the exact error: whenever the shoreline reaches a channel that causes no breach, the channel is removed and the sediment in the
transect changes by `(z2 - z0) (y0 - y1)`. -/
theorem C79_fill (pp : PhysPars K) (junk : ℕ → Bool) (Closed : Bool) (conn : Option (ℤ × ℤ)) (st st' : MorSt K)
    (h : mergeShore pp junk Closed conn st = .ok (none, st')) {i : ℕ} {c : Cell K} (hc : st.cells[i]? = some c) {y0 y1 y2 y3 z0 z1 z2 : K} (a0 : c.t.y0 = fin y0)
    (a1 : c.t.y1 = fin y1) (a2 : c.t.y2 = fin y2) (a3 : c.t.y3 = fin y3) (b1 : c.t.z1 = fin z1) (b2 : c.t.z2 = fin z2) (hz : z2 + pp.ClosureDepth ≠ 0)
    (hit : y0 ≤ y1) :
    ∃ (c' : Cell K) (y0' : K), st'.cells[i]? = some c' ∧ c'.op = false ∧
      c'.t = { c.t with y0 := fin y0', y1 := nan, y2 := nan, z0 := fin z2, z1 := nan, z2 := nan } ∧
      (z2 + pp.ClosureDepth) * (y0' - y3) - chanSand pp.ClosureDepth y0 y1 y2 y3 z0 z1 z2 = (z2 - z0) * (y0 - y1) := by
  have hh : shoreHit junk i c = true := by
    unfold shoreHit notGreater; rw [a0, a1]; simp [isnan, hit]
  have hm : (st.cells.mapIdx (shoreHit junk))[i]? = some true := by rw [List.getElem?_mapIdx, hc]; simp [hh]
  unfold mergeShore at h
  have hany : (st.cells.mapIdx (shoreHit junk)).any id = true := List.any_eq_true.mpr ⟨true, List.mem_of_getElem? hm, rfl⟩
  simp only [hany, Bool.not_true, Bool.false_eq_true, if_false, bind_ok] at h
  obtain ⟨b, hb, h⟩ := h
  have hbn : b = none := by
    cases b with
    | none => rfl
    | some b =>
      dsimp only at h
      split at h
      · exact absurd h (by simp)
      · rw [pure_ok] at h; cases h
  subst hbn
  simp only [List.length_mapIdx, ne_eq, not_true_eq_false, if_false, pure_ok, Prod.mk.injEq, true_and] at h
  subst h
  refine ⟨mergeShoreCell pp c, y0 - (y1 - y2) * (z2 - z1) / (z2 + pp.ClosureDepth), ?_, rfl, ?_, ?_⟩
  · have hz' : (st.cells.zip (st.cells.mapIdx (shoreHit junk)))[i]? = some (c, true) := List.getElem?_zip_eq_some.mpr ⟨hc, hm⟩
    rw [List.getElem?_map, hz']
    rfl
  · unfold mergeShoreCell
    simp only [a0, a1, a2, b1, b2, sub_fin, add_fin, mul_fin, div_fin _ _ hz]
  · unfold chanSand
    field_simp
    ring

/-- C79, the part that holds: sediment is preserved if the shoreline is exactly at the channel edge or the two crests are equally high.  Missing: all
other cases, refuted below. -/
theorem C79_partial (pp : PhysPars K) (junk : ℕ → Bool) (Closed : Bool) (conn : Option (ℤ × ℤ)) (st st' : MorSt K)
    (h : mergeShore pp junk Closed conn st = .ok (none, st')) {i : ℕ} {c : Cell K} (hc : st.cells[i]? = some c) {y0 y1 y2 y3 z0 z1 z2 : K} (a0 : c.t.y0 = fin y0)
    (a1 : c.t.y1 = fin y1) (a2 : c.t.y2 = fin y2) (a3 : c.t.y3 = fin y3) (b1 : c.t.z1 = fin z1) (b2 : c.t.z2 = fin z2) (hz : z2 + pp.ClosureDepth ≠ 0)
    (hit : y0 ≤ y1) (heq : y0 = y1 ∨ z0 = z2) :
    ∃ (c' : Cell K) (y0' : K), st'.cells[i]? = some c' ∧ c'.t = { c.t with y0 := fin y0', y1 := nan, y2 := nan, z0 := fin z2, z1 := nan, z2 := nan } ∧
      (z2 + pp.ClosureDepth) * (y0' - y3) = chanSand pp.ClosureDepth y0 y1 y2 y3 z0 z1 z2 := by
  obtain ⟨c', y0', g1, _, g2, g3⟩ := C79_fill pp junk Closed conn st st' h hc (z0 := z0) a0 a1 a2 a3 b1 b2 hz hit
  refine ⟨c', y0', g1, g2, ?_⟩
  have : (z2 - z0) * (y0 - y1) = 0 := by rcases heq with e | e <;> rw [e] <;> ring
  rw [this] at g3
  exact sub_eq_zero.mp g3

/-- C79 is false: with the shoreline strictly behind the channel edge and crests of different height the sediment changes. -/
theorem C79_refuted_general (pp : PhysPars K) (junk : ℕ → Bool) (Closed : Bool) (conn : Option (ℤ × ℤ)) (st st' : MorSt K)
    (h : mergeShore pp junk Closed conn st = .ok (none, st')) {i : ℕ} {c : Cell K} (hc : st.cells[i]? = some c) {y0 y1 y2 y3 z0 z1 z2 : K} (a0 : c.t.y0 = fin y0)
    (a1 : c.t.y1 = fin y1) (a2 : c.t.y2 = fin y2) (a3 : c.t.y3 = fin y3) (b1 : c.t.z1 = fin z1) (b2 : c.t.z2 = fin z2) (hz : z2 + pp.ClosureDepth ≠ 0)
    (hit : y0 < y1) (hne : z0 ≠ z2) :
    ∃ (c' : Cell K) (y0' : K), st'.cells[i]? = some c' ∧ c'.t.y0 = fin y0' ∧ c'.t.z0 = fin z2 ∧ (z2 + pp.ClosureDepth) * (y0' - y3) ≠ chanSand pp.ClosureDepth y0 y1 y2 y3 z0 z1 z2 := by
  obtain ⟨c', y0', g1, _, g2, g3⟩ := C79_fill pp junk Closed conn st st' h hc (z0 := z0) a0 a1 a2 a3 b1 b2 hz hit.le
  refine ⟨c', y0', g1, by rw [g2], by rw [g2], fun e => ?_⟩
  rw [e, sub_self] at g3
  rcases mul_eq_zero.mp g3.symm with q | q
  · exact hne (sub_eq_zero.mp q).symm
  · exact hit.ne (sub_eq_zero.mp q)

/-- Concrete case for C79 (crests at 4 and 3, shoreline 2 m behind the channel edge). -/
example : okAnd (mergeShore moPP cleanMem false (some (6, 6)) olSea) (fun r => decide (r.1 = none ∧ (r.2.cells[6]?).any (fun c => c.t.z0 ==? fin 3 && c.t.y1.isnan) = true)) = true := by
  decide +kernel

end Verif.Props
