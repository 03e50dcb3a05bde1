import Verif.Props.MorOutlet

set_option autoImplicit false
set_option linter.unusedSectionVars false

/-! # Properties C80-C82: truncation of the outlet channel -/

namespace Verif.Props
open Verif Verif.Model Verif.Spec Fl

variable {K : Type} [Field K] [LinearOrder K] [IsStrictOrderedRing K]

/-- Transect `i` is upstream of transect `j` in an outlet channel from `e0` to `e1`. -/
def Upstream (e0 e1 : K) (i j : ℕ) : Prop := if e0 < e1 then i < j else j < i

/-- The channel has no barrier on its landward side. -/
def MeetsLagoon (t : Transect K) : Prop := (t.y2 ≤? t.y3) = true

/-- The channel has no barrier on its seaward side. -/
def MeetsSea (t : Transect K) : Prop := (t.y0 ≤? t.y1) = true

theorem mem_ixWhere {cells : List (Cell K)} {ix : List ℕ} {p : Transect K → Bool} {i : ℕ} :
    i ∈ ixWhere cells ix p ↔ i ∈ ix ∧ ∃ c, cells[i]? = some c ∧ p c.t = true := by
  unfold ixWhere
  rw [List.mem_filter, Option.any_eq_true]

theorem flow_dropLast {xs : List K} {e0 e1 : K} {ix : List ℕ} (h : FlowOrder xs e0 e1 ix) {k : ℕ} :
    k ∈ ix.dropLast ↔ k ∈ ix ∧ ∃ m ∈ ix, Upstream e0 e1 k m := mem_dropLast_iff (flow_asymm (e0 := e0) (e1 := e1)) h.2

theorem flow_tail {xs : List K} {e0 e1 : K} {ix : List ℕ} (h : FlowOrder xs e0 e1 ix) {k : ℕ} :
    k ∈ ix.tail ↔ k ∈ ix ∧ ∃ m ∈ ix, Upstream e0 e1 m k := mem_tail_iff (flow_asymm (e0 := e0) (e1 := e1)) h.2

/-! ## C80 -/

theorem extendCell_x (c : Cell K) : (extendCell c).t.x = c.t.x := rfl

/-- C80, exactly what happens: if some outlet transect but the last has its channel meet the lagoon, the transects left are those
downstream of the FIRST such transect, in flow order; otherwise nothing happens. -/
theorem C80_truncation (st st' : MorSt K) (hs : (st.cells.map (·.t.x)).Pairwise (· < ·)) {e0 e1 : K} (h0 : st.e0 = fin e0) (h1 : st.e1 = fin e1)
    (hF : FlowOrder (st.cells.map (·.t.x)) e0 e1 st.ix) (h : lagoonTrunc st = .ok st') :
    (st' = st ∧ ∀ i ∈ st.ix.dropLast, ∀ c, st.cells[i]? = some c → ¬ MeetsLagoon c.t) ∨
    ∃ (i : ℕ) (c : Cell K) (e0' : K), i ∈ st.ix.dropLast ∧ st.cells[i]? = some c ∧ MeetsLagoon c.t ∧
      (∀ j ∈ st.ix.dropLast, ∀ c, st.cells[j]? = some c → MeetsLagoon c.t → j = i ∨ Upstream e0 e1 i j) ∧
      st'.e0 = fin e0' ∧ st'.e1 = st.e1 ∧ FlowOrder (st'.cells.map (·.t.x)) e0' e1 st'.ix ∧ st'.cells.map (·.t.x) = st.cells.map (·.t.x) ∧
      (∀ k, k ∈ st'.ix ↔ k ∈ st.ix ∧ Upstream e0 e1 i k) ∧
      (∀ k, k ∈ st'.ix.dropLast ↔ k ∈ st.ix.dropLast ∧ Upstream e0 e1 i k) ∧
      (∀ (k : ℕ) c', st'.cells[k]? = some c' → ∃ c0, st.cells[k]? = some c0 ∧ (c' = c0 ∨ c'.t.y2 = nan)) ∧
      ((c.t.y2 ≤? c.t.y4) = false → st'.cells = st.cells) := by
  unfold lagoonTrunc at h
  split at h
  · rename_i hlen
    rw [pure_ok] at h
    refine Or.inl ⟨h.symm, ?_⟩
    have : st.ix.dropLast = [] := List.length_eq_zero_iff.mp (by rw [List.length_dropLast]; omega)
    rw [this]; simp
  · split at h
    · rename_i hw
      rw [pure_ok] at h
      refine Or.inl ⟨h.symm, fun i hi c hc hm => ?_⟩
      have : i ∈ ixWhere st.cells st.ix.dropLast (fun t => t.y2 ≤? t.y3) := mem_ixWhere.mpr ⟨hi, c, hc, hm⟩
      rw [hw] at this
      exact List.not_mem_nil this
    · rename_i i rest hw
      right
      simp only [bind_ok, ixGet_ok, pyAssert_ok] at h
      obtain ⟨c, hc, nb, hnb, _, hne, h⟩ := h
      have hiw : i ∈ ixWhere st.cells st.ix.dropLast (fun t => t.y2 ≤? t.y3) := by rw [hw]; exact List.mem_cons_self
      obtain ⟨hi, c0, hc0, hmeet⟩ := mem_ixWhere.mp hiw
      rw [hc] at hc0; cases hc0
      have hpw : (ixWhere st.cells st.ix.dropLast (fun t => t.y2 ≤? t.y3)).Pairwise (Upstream e0 e1) :=
        List.Pairwise.sublist (List.filter_sublist.trans (List.dropLast_sublist _)) hF.2
      have hfirst : ∀ j ∈ st.ix.dropLast, ∀ c, st.cells[j]? = some c → MeetsLagoon c.t → j = i ∨ Upstream e0 e1 i j := by
        intro j hj cj hcj hm
        have : j ∈ ixWhere st.cells st.ix.dropLast (fun t => t.y2 ≤? t.y3) := mem_ixWhere.mpr ⟨hj, cj, hcj, hm⟩
        rw [hw] at this hpw
        rcases List.mem_cons.mp this with e | e
        · exact Or.inl e
        · exact Or.inr ((List.pairwise_cons.mp hpw).1 j e)
      have hir := (flow_dropLast hF).mp hi
      obtain ⟨hi', m, hm, him⟩ := hir
      have gx : ∀ k, k ∈ st.ix ↔ ∃ c, st.cells[k]? = some c ∧ min e0 e1 ≤ c.t.x ∧ c.t.x ≤ max e0 e1 := by
        intro k
        rw [hF.1 k]
        simp only [List.getElem?_map, Option.map_eq_some_iff]
        constructor
        · rintro ⟨_, ⟨a, ha, rfl⟩, q⟩; exact ⟨a, ha, q⟩
        · rintro ⟨a, ha, q⟩; exact ⟨_, ⟨a, ha, rfl⟩, q⟩
      obtain ⟨ci, hci, hix⟩ := (gx i).mp hi'
      rw [hc] at hci; cases hci
      obtain ⟨cm, hcm, hmx⟩ := (gx m).mp hm
      have hF' := cellIx_flow st.cells nb.t.x e1
      have gx' : ∀ k, k ∈ cellIx st.cells (fin nb.t.x) (fin e1) ↔ ∃ c, st.cells[k]? = some c ∧ min nb.t.x e1 ≤ c.t.x ∧ c.t.x ≤ max nb.t.x e1 := by
        intro k
        rw [hF'.1 k]
        simp only [List.getElem?_map, Option.map_eq_some_iff]
        constructor
        · rintro ⟨_, ⟨a, ha, rfl⟩, q⟩; exact ⟨a, ha, q⟩
        · rintro ⟨a, ha, q⟩; exact ⟨_, ⟨a, ha, rfl⟩, q⟩
      have main : (∀ k, k ∈ cellIx st.cells (fin nb.t.x) (fin e1) ↔ k ∈ st.ix ∧ Upstream e0 e1 i k) ∧
          (∀ k, k ∈ (cellIx st.cells (fin nb.t.x) (fin e1)).dropLast ↔ k ∈ st.ix.dropLast ∧ Upstream e0 e1 i k) := by
        rw [h0, h1] at hnb
        by_cases hd : e0 < e1
        · simp only [blt_fin, hd, decide_true, if_true, ixGet_ok] at hnb
          simp only [min_eq_left hd.le, max_eq_right hd.le] at gx hix hmx
          simp only [Upstream, hd, if_true] at him
          have hnm : nb.t.x ≤ cm.t.x := by
            rcases Nat.lt_or_eq_of_le (Nat.succ_le_of_lt him) with q | q
            · exact (sorted_lt hs hnb hcm q).le
            · rw [← q] at hcm; have := hnb.symm.trans hcm; cases this; exact le_rfl
          have hn1 : nb.t.x ≤ e1 := hnm.trans hmx.2
          simp only [min_eq_left hn1, max_eq_right hn1] at gx'
          have mem : ∀ k, k ∈ cellIx st.cells (fin nb.t.x) (fin e1) ↔ k ∈ st.ix ∧ i < k := by
            intro k
            rw [gx' k, gx k]
            constructor
            · rintro ⟨ck, hck, q1, q2⟩
              have hxi : c.t.x < ck.t.x := (sorted_lt hs hc hnb (by omega)).trans_le q1
              exact ⟨⟨ck, hck, hix.1.trans hxi.le, q2⟩, (sorted_lt_iff hs hc hck).mp hxi⟩
            · rintro ⟨⟨ck, hck, _, q2⟩, hik⟩
              refine ⟨ck, hck, ?_, q2⟩
              rcases Nat.lt_or_eq_of_le (Nat.succ_le_of_lt hik) with q | q
              · exact (sorted_lt hs hnb hck q).le
              · rw [← q] at hck; have := hnb.symm.trans hck; cases this; exact le_rfl
          refine ⟨fun k => by rw [mem k]; simp [Upstream, hd], fun k => ?_⟩
          rw [flow_dropLast hF', flow_dropLast hF]
          simp only [mem, Upstream, hd, if_true]
          rcases hn1.lt_or_eq with hlt | heq
          · simp only [hlt, if_true]
            constructor
            · rintro ⟨⟨a, b⟩, m', ⟨q1, _⟩, q3⟩; exact ⟨⟨a, m', q1, q3⟩, b⟩
            · rintro ⟨⟨a, m', q1, q3⟩, b⟩; exact ⟨⟨a, b⟩, m', ⟨q1, by omega⟩, q3⟩
          · simp only [heq, lt_irrefl, if_false]
            have only : ∀ k, k ∈ st.ix ∧ i < k → k = i + 1 := by
              intro k hk
              obtain ⟨ck, hck, q1, q2⟩ := (gx' k).mp ((mem k).mpr hk)
              rw [heq] at q1
              by_contra hne'
              have hlt := sorted_lt hs hnb hck (by omega)
              rw [heq] at hlt
              exact absurd q2 (not_le.mpr hlt)
            constructor
            · rintro ⟨a, m', q1, q3⟩; have := only _ a; have := only _ q1; omega
            · rintro ⟨⟨a, m', q1, q3⟩, b⟩; have := only _ ⟨a, b⟩; have := only m' ⟨q1, by omega⟩; omega
        · have hd' := not_lt.mp hd
          simp only [blt_fin, hd, decide_false, Bool.false_eq_true, if_false, ixGet_ok] at hnb
          simp only [min_eq_right hd', max_eq_left hd'] at gx hix hmx
          simp only [Upstream, hd, if_false] at him
          have hprev : prevIx st.cells.length i = i - 1 := by unfold prevIx; rw [if_neg (by omega)]
          rw [hprev] at hnb
          have hnm : cm.t.x ≤ nb.t.x := by
            rcases Nat.lt_or_eq_of_le (Nat.le_sub_one_of_lt him) with q | q
            · exact (sorted_lt hs hcm hnb q).le
            · rw [← q] at hnb; have := hnb.symm.trans hcm; cases this; exact le_rfl
          have hn1 : e1 ≤ nb.t.x := hmx.1.trans hnm
          simp only [min_eq_right hn1, max_eq_left hn1] at gx'
          have mem : ∀ k, k ∈ cellIx st.cells (fin nb.t.x) (fin e1) ↔ k ∈ st.ix ∧ k < i := by
            intro k
            rw [gx' k, gx k]
            constructor
            · rintro ⟨ck, hck, q1, q2⟩
              have hxi : ck.t.x < c.t.x := q2.trans_lt (sorted_lt hs hnb hc (by omega))
              exact ⟨⟨ck, hck, q1, hxi.le.trans hix.2⟩, (sorted_lt_iff hs hck hc).mp hxi⟩
            · rintro ⟨⟨ck, hck, q2, _⟩, hik⟩
              refine ⟨ck, hck, q2, ?_⟩
              rcases Nat.lt_or_eq_of_le (Nat.le_sub_one_of_lt hik) with q | q
              · exact (sorted_lt hs hck hnb q).le
              · rw [← q] at hnb; have := hnb.symm.trans hck; cases this; exact le_rfl
          refine ⟨fun k => by rw [mem k]; simp [Upstream, hd], fun k => ?_⟩
          rw [flow_dropLast hF', flow_dropLast hF]
          simp only [mem, Upstream, hd, if_false, hn1.not_gt]
          constructor
          · rintro ⟨⟨a, b⟩, m', ⟨q1, _⟩, q3⟩; exact ⟨⟨a, m', q1, q3⟩, b⟩
          · rintro ⟨⟨a, m', q1, q3⟩, b⟩; exact ⟨⟨a, b⟩, m', ⟨q1, by omega⟩, q3⟩
      rw [h1] at h
      split at h <;> rename_i hcl4
      · simp only [bind_ok, pure_ok] at h
        obtain ⟨ext, _, rfl⟩ := h
        have hmap : (modifyIf (fun j => ext.contains j) (fun _ => extendCell) st.cells).map (·.t.x) = st.cells.map (·.t.x) := by
          apply List.ext_getElem?; intro k
          simp only [modifyIf, List.getElem?_map, List.getElem?_mapIdx]
          cases st.cells[k]? with
          | none => rfl
          | some c => simp only [Option.map_some]; split <;> rfl
        refine ⟨i, c, nb.t.x, hi, hc, hmeet, hfirst, rfl, h1.symm, ?_, hmap, main.1, main.2, ?_, fun hf => ?_⟩
        · show FlowOrder ((modifyIf _ _ st.cells).map (·.t.x)) _ _ _
          rw [hmap]; exact hF'
        · intro k c' hk
          simp only [modifyIf, List.getElem?_mapIdx, Option.map_eq_some_iff] at hk
          obtain ⟨c0, hk0, rfl⟩ := hk
          refine ⟨c0, hk0, ?_⟩
          split
          · exact Or.inr rfl
          · exact Or.inl rfl
        · rw [hcl4] at hf; cases hf
      · rw [pure_ok] at h
        subst h
        exact ⟨i, c, nb.t.x, hi, hc, hmeet, hfirst, rfl, h1.symm, hF', rfl, main.1, main.2, fun k c' hk => ⟨c', hk, Or.inl rfl⟩, fun _ => rfl⟩

/-- C80, the part that holds: if the channel meets the lagoon at no more than one transect (not counting the last), afterwards it does so at
none.  Missing: several such transects, refuted below. -/
theorem C80_partial (st st' : MorSt K) (hs : (st.cells.map (·.t.x)).Pairwise (· < ·)) {e0 e1 : K} (h0 : st.e0 = fin e0) (h1 : st.e1 = fin e1)
    (hF : FlowOrder (st.cells.map (·.t.x)) e0 e1 st.ix)
    (hone : ∀ i ∈ st.ix.dropLast, ∀ j ∈ st.ix.dropLast, ∀ ci cj, st.cells[i]? = some ci → st.cells[j]? = some cj → MeetsLagoon ci.t → MeetsLagoon cj.t → i = j)
    (h : lagoonTrunc st = .ok st') : ∀ i ∈ st'.ix.dropLast, ∀ c, st'.cells[i]? = some c → ¬ MeetsLagoon c.t := by
  rcases C80_truncation st st' hs h0 h1 hF h with ⟨rfl, hn⟩ | ⟨i, c, e0', hi, hc, hm, _, _, _, _, _, _, hd, hcell, _⟩
  · exact hn
  · intro k hk c' hc' hm'
    obtain ⟨hk1, hk2⟩ := (hd k).mp hk
    obtain ⟨c0, hc0, rfl | hnan⟩ := hcell k c' hc'
    · have := hone i hi k hk1 c c' hc hc0 hm hm'
      subst this
      unfold Upstream at hk2
      split at hk2 <;> omega
    · unfold MeetsLagoon at hm'
      rw [hnan] at hm'
      exact absurd hm' (by simp [Fl.ble])

/-- C80 is false: if the channel meets the lagoon at two transects (neither the last), and not the cliff at the first, the second one is still in use as outlet channel
and still meets the lagoon. -/
theorem C80_refuted_general (st st' : MorSt K) (hs : (st.cells.map (·.t.x)).Pairwise (· < ·)) {e0 e1 : K} (h0 : st.e0 = fin e0) (h1 : st.e1 = fin e1)
    (hF : FlowOrder (st.cells.map (·.t.x)) e0 e1 st.ix) {i j : ℕ} {ci cj : Cell K} (hi : i ∈ st.ix.dropLast) (hj : j ∈ st.ix.dropLast) (hij : Upstream e0 e1 i j)
    (hci : st.cells[i]? = some ci) (hcj : st.cells[j]? = some cj) (hmi : MeetsLagoon ci.t) (hmj : MeetsLagoon cj.t)
    (hcliff : ∀ k ∈ st.ix, ∀ c, st.cells[k]? = some c → (c.t.y2 ≤? c.t.y4) = false) (h : lagoonTrunc st = .ok st') :
    j ∈ st'.ix.dropLast ∧ st'.cells[j]? = some cj ∧ MeetsLagoon cj.t := by
  rcases C80_truncation st st' hs h0 h1 hF h with ⟨_, hn⟩ | ⟨i', c, e0', hi', hc, hm, hfirst, _, _, _, _, _, hd, _, hsame⟩
  · exact absurd hmi (hn i hi ci hci)
  · refine ⟨(hd j).mpr ⟨hj, ?_⟩, ?_, hmj⟩
    · rcases hfirst i hi ci hci hmi with rfl | q
      · exact hij
      · unfold Upstream at *
        split at q <;> rename_i hd' <;> simp only [hd', if_true, if_false] at hij ⊢ <;> omega
    · rw [hsame (hcliff i' (List.dropLast_subset _ hi') c hc)]; exact hcj

/-- A transect with a channel from `y1` to `y2`. -/
def trCell (x y1 y2 : ℚ) : Cell ℚ :=
  { t := ⟨x, fin 100, fin y1, fin y2, fin 20, fin 0, fin 4, fin 0, fin 3, fin (-1)⟩, sfh := fin 14, cw := fin 40, bh := fin 4, op := true, lo := true, wl := fin 1 }

/-- An outlet channel over the transects at 20, 30, 40 and 50 m, with given channel edges. -/
def trSt (e0 e1 : ℚ) (ix : List ℕ) (a b c d : ℚ × ℚ) : MorSt ℚ :=
  { cells := [-40, -30, -20, -10, 0, 10].map olCell ++ [trCell 20 a.1 a.2, trCell 30 b.1 b.2, trCell 40 c.1 c.2, trCell 50 d.1 d.2] ++ [60, 70].map olCell,
    e0 := fin e0, e1 := fin e1, endW := fin 6, endZ := fin (-1), ix := ix, riv := [] }

/-- Two collisions with the lagoon. -/
def trTwo : MorSt ℚ := trSt 15 55 [6, 7, 8, 9] (60, 18) (60, 55) (60, 19) (60, 55)

/-- C80 is false (witness): the transect at 40 m is still online and still meets the lagoon; the next repair makes it part of the lagoon, leaving an outlet channel with
a gap. -/
theorem C80_refuted : ∃ st', lagoonTrunc trTwo = .ok st' ∧ st'.ix = [7, 8, 9] ∧
    ((st'.cells[8]?).any (fun c => c.t.y2 ≤? c.t.y3)) = true ∧ (((mergeLagoon cleanMem st'.cells)[8]?).any (fun c => c.t.y1.isnan)) = true :=
  ok_witness (fun st' : MorSt ℚ => st'.ix = [7, 8, 9] ∧ ((st'.cells[8]?).any (fun c => c.t.y2 ≤? c.t.y3)) = true ∧
    (((mergeLagoon cleanMem st'.cells)[8]?).any (fun c => c.t.y1.isnan)) = true) (by decide +kernel)

/-- Concrete case for C80 (partial): one collision, at 30 m. -/
example : okAnd (lagoonTrunc (trSt 15 55 [6, 7, 8, 9] (60, 55) (60, 18) (60, 55) (60, 55))) (fun s => decide (s.ix = [8, 9] ∧ s.e0 = fin 40)) = true := by decide +kernel
example : okAnd (lagoonTrunc (trSt 55 15 [9, 8, 7, 6] (60, 55) (60, 18) (60, 55) (60, 55))) (fun s => decide (s.ix = [6] ∧ s.e0 = fin 20)) = true := by decide +kernel

/-! ## C81 -/

theorem mem_cells_ix {cells : List (Cell K)} {e0 e1 : K} {ix : List ℕ} (hF : FlowOrder (cells.map (·.t.x)) e0 e1 ix) (k : ℕ) :
    k ∈ ix ↔ ∃ c, cells[k]? = some c ∧ min e0 e1 ≤ c.t.x ∧ c.t.x ≤ max e0 e1 := by
  rw [hF.1 k]
  simp only [List.getElem?_map, Option.map_eq_some_iff]
  constructor
  · rintro ⟨_, ⟨a, ha, rfl⟩, q⟩; exact ⟨a, ha, q⟩
  · rintro ⟨a, ha, q⟩; exact ⟨_, ⟨a, ha, rfl⟩, q⟩

/-- What seaward truncation does: nothing if no outlet transect but the first has its channel meet the sea; otherwise the end is put half a transect
spacing before the first (channels to the right) or the last (channels to the left) transect, counted in flow order, at which the channel meets the sea. -/
theorem seaTrunc_cases (Dx : K) (st st' : MorSt K) {e0 e1 : K} (h0 : st.e0 = fin e0) (h1 : st.e1 = fin e1) (h : seaTrunc Dx st = .ok st') :
    (st' = st ∧ ∀ i ∈ st.ix.tail, ∀ c, st.cells[i]? = some c → ¬ MeetsSea c.t) ∨
    ((∃ i ∈ st.ix.tail, ∃ c, st.cells[i]? = some c ∧ MeetsSea c.t) ∧ ∃ (t : ℕ) (ct : Cell K) (e1' : K), st.cells[t]? = some ct ∧ t ∈ st.ix ∧ MeetsSea ct.t ∧
      st' = { st with e1 := fin e1', ix := st'.ix } ∧
      (e0 < e1 → (ixWhere st.cells st.ix (fun t => t.y0 ≤? t.y1)).head? = some t ∧ e1' = ct.t.x - Dx / 2 ∧
        st'.ix = whereIx (fun c : Cell K => fin e0 ≤? fin c.t.x && fin c.t.x ≤? fin e1') st.cells) ∧
      (¬ e0 < e1 → (ixWhere st.cells st.ix (fun t => t.y0 ≤? t.y1)).getLast? = some t ∧ e1' = ct.t.x + Dx / 2 ∧
        st'.ix = (whereIx (fun c : Cell K => fin e1' ≤? fin c.t.x && fin c.t.x ≤? fin e0) st.cells).reverse)) := by
  unfold seaTrunc at h
  split at h
  · rename_i hlen
    rw [pure_ok] at h
    refine Or.inl ⟨h.symm, ?_⟩
    have : st.ix.tail = [] := List.length_eq_zero_iff.mp (by rw [List.length_tail]; omega)
    rw [this]; simp
  · dsimp only at h
    split at h
    · rename_i hw
      rw [pure_ok] at h
      refine Or.inl ⟨h.symm, fun i hi c hc hm => ?_⟩
      have hmem : i ∈ ixWhere st.cells st.ix.tail (fun t => t.y0 ≤? t.y1) := mem_ixWhere.mpr ⟨hi, c, hc, hm⟩
      rw [List.isEmpty_iff.mp hw] at hmem
      exact List.not_mem_nil hmem
    · rename_i hw
      right
      refine ⟨?_, ?_⟩
      · cases hl : ixWhere st.cells st.ix.tail (fun t => t.y0 ≤? t.y1) with
        | nil => rw [hl] at hw; exact absurd rfl hw
        | cons i _ =>
          have := mem_ixWhere.mp (hl ▸ List.mem_cons_self : i ∈ ixWhere st.cells st.ix.tail (fun t => t.y0 ≤? t.y1))
          exact ⟨i, this.1, this.2⟩
      · rw [h0, h1] at h
        by_cases hd : e0 < e1
        · simp only [blt_fin, hd, decide_true, if_true, bind_ok, ixGet_ok, pure_ok] at h
          obtain ⟨t, ht, ct, hct, rfl⟩ := h
          obtain ⟨m1, c', m2, m3⟩ := mem_ixWhere.mp (List.mem_of_getElem? ht)
          rw [hct] at m2; cases m2
          refine ⟨t, ct, ct.t.x - Dx / 2, hct, m1, m3, ?_, fun _ => ⟨by rw [List.head?_eq_getElem?]; exact ht, rfl, ?_⟩, fun hn => absurd hd hn⟩
          · simp only [sub_fin, h0]
          · simp only [sub_fin]
        · simp only [blt_fin, hd, decide_false, Bool.false_eq_true, if_false, bind_ok, ixGet_ok, pyGet_last, pure_ok] at h
          obtain ⟨t, ht, ct, hct, rfl⟩ := h
          obtain ⟨m1, c', m2, m3⟩ := mem_ixWhere.mp (List.mem_of_getLast? ht)
          rw [hct] at m2; cases m2
          refine ⟨t, ct, ct.t.x + Dx / 2, hct, m1, m3, ?_, fun hn => absurd hn hd, fun _ => ⟨ht, rfl, ?_⟩⟩
          · simp only [add_fin, h0]
          · simp only [add_fin]

/-- C81, the part that holds: for a channel running to the right, or one that meets the sea at no more than one transect, no transect
of the outlet channel but the first meets the sea after the truncation.  Missing: several such transects on a channel running to the left, refuted below. -/
theorem C81_partial (Dx : K) (hDx : 0 < Dx) (st st' : MorSt K) (hs : (st.cells.map (·.t.x)).Pairwise (· < ·)) {e0 e1 : K} (h0 : st.e0 = fin e0) (h1 : st.e1 = fin e1)
    (hF : FlowOrder (st.cells.map (·.t.x)) e0 e1 st.ix)
    (hone : e0 < e1 ∨ ∀ i ∈ st.ix, ∀ j ∈ st.ix, ∀ ci cj, st.cells[i]? = some ci → st.cells[j]? = some cj → MeetsSea ci.t → MeetsSea cj.t → i = j)
    (h : seaTrunc Dx st = .ok st') : ∀ i ∈ st'.ix.tail, ∀ c, st'.cells[i]? = some c → ¬ MeetsSea c.t := by
  rcases seaTrunc_cases Dx st st' h0 h1 h with ⟨rfl, hn⟩ | ⟨_, t, ct, e1', hct, htx, hmt, hst, hlr, hrl⟩
  · exact hn
  · intro k hk c hc hm
    have hcells : st'.cells = st.cells := by rw [hst]
    rw [hcells] at hc
    have hk' := List.mem_of_mem_tail hk
    obtain ⟨_, hct', htb⟩ := (mem_cells_ix hF t).mp htx
    rw [hct] at hct'; cases hct'
    by_cases hd : e0 < e1
    · obtain ⟨hh, he, hix⟩ := hlr hd
      simp only [min_eq_left hd.le, max_eq_right hd.le] at htb
      rw [hix, mem_whereIx] at hk'
      obtain ⟨ck, hck, hb⟩ := hk'
      rw [hc] at hck; cases hck
      simp only [ble_fin, Bool.and_eq_true, decide_eq_true_eq] at hb
      have hlt : c.t.x < ct.t.x := by rw [he] at hb; linarith [hb.2]
      have hkt := (sorted_lt_iff hs hc hct).mp hlt
      have hkix : k ∈ st.ix := (mem_cells_ix hF k).mpr ⟨c, hc, by rw [min_eq_left hd.le]; exact hb.1, by rw [max_eq_right hd.le]; exact hlt.le.trans htb.2⟩
      have hkw : k ∈ ixWhere st.cells st.ix (fun t => t.y0 ≤? t.y1) := mem_ixWhere.mpr ⟨hkix, c, hc, hm⟩
      have hpw : (ixWhere st.cells st.ix (fun t => t.y0 ≤? t.y1)).Pairwise (Upstream e0 e1) := List.Pairwise.sublist List.filter_sublist hF.2
      cases hl : ixWhere st.cells st.ix (fun t => t.y0 ≤? t.y1) with
      | nil => rw [hl] at hkw; exact List.not_mem_nil hkw
      | cons a l =>
        rw [hl] at hkw hpw hh
        cases hh
        rcases List.mem_cons.mp hkw with e | e
        · omega
        · have := (List.pairwise_cons.mp hpw).1 k e
          unfold Upstream at this
          rw [if_pos hd] at this
          omega
    · obtain ⟨_, he, hix⟩ := hrl hd
      have hd' := not_lt.mp hd
      simp only [min_eq_right hd', max_eq_left hd'] at htb
      rw [hix, List.mem_reverse, mem_whereIx] at hk'
      obtain ⟨ck, hck, hb⟩ := hk'
      rw [hc] at hck; cases hck
      simp only [ble_fin, Bool.and_eq_true, decide_eq_true_eq] at hb
      have hlt : ct.t.x < c.t.x := by rw [he] at hb; linarith [hb.1]
      have hkix : k ∈ st.ix := (mem_cells_ix hF k).mpr ⟨c, hc, by rw [min_eq_right hd']; exact htb.1.trans hlt.le, by rw [max_eq_left hd']; exact hb.2⟩
      rcases hone with q | q
      · exact hd q
      · have := q k hkix t htx c ct hc hct hm hmt
        subst this
        rw [hc] at hct; cases hct
        exact lt_irrefl _ hlt

/-- C81 is false: if a channel running to the left meets the sea at two transects after the first, the upstream one of them is still in use as outlet
channel, not as its first transect, and still meets the sea. -/
theorem C81_refuted_general (Dx : K) (st st' : MorSt K) (hs : (st.cells.map (·.t.x)).Pairwise (· < ·))
    (hsp : ∀ (i j : ℕ) ci cj, i < j → st.cells[i]? = some ci → st.cells[j]? = some cj → ci.t.x + Dx / 2 ≤ cj.t.x) {e0 e1 : K} (h0 : st.e0 = fin e0) (h1 : st.e1 = fin e1)
    (hd : e1 < e0) (hF : FlowOrder (st.cells.map (·.t.x)) e0 e1 st.ix) {i j : ℕ} {ci cj : Cell K} (hi : i ∈ st.ix.tail) (hj : j ∈ st.ix.tail) (hij : Upstream e0 e1 i j)
    (hci : st.cells[i]? = some ci) (hcj : st.cells[j]? = some cj) (hmi : MeetsSea ci.t) (hmj : MeetsSea cj.t) (h : seaTrunc Dx st = .ok st') :
    i ∈ st'.ix.tail ∧ st'.cells[i]? = some ci := by
  rcases seaTrunc_cases Dx st st' h0 h1 h with ⟨_, hn⟩ | ⟨_, t, ct, e1', hct, htx, hmt, hst, _, hrl⟩
  · exact absurd hmi (hn i hi ci hci)
  · have hcells : st'.cells = st.cells := by rw [hst]
    obtain ⟨hh, he, hix⟩ := hrl hd.not_gt
    have hnd : ¬ e0 < e1 := hd.not_gt
    unfold Upstream at hij
    rw [if_neg hnd] at hij
    have hjw : j ∈ ixWhere st.cells st.ix (fun t => t.y0 ≤? t.y1) := mem_ixWhere.mpr ⟨List.mem_of_mem_tail hj, cj, hcj, hmj⟩
    have hpw : (ixWhere st.cells st.ix (fun t => t.y0 ≤? t.y1)).Pairwise (Upstream e0 e1) := List.Pairwise.sublist List.filter_sublist hF.2
    have htj : t ≤ j := by
      obtain ⟨l, hl⟩ := List.getLast?_eq_some_iff.mp hh
      rw [hl] at hjw hpw
      rcases List.mem_append.mp hjw with e | e
      · have := (List.pairwise_append.mp hpw).2.2 j e t (by simp)
        unfold Upstream at this
        rw [if_neg hnd] at this
        omega
      · rw [List.mem_singleton.mp e]
    obtain ⟨hi', m, hm, hmi'⟩ := (flow_tail hF).mp hi
    unfold Upstream at hmi'
    rw [if_neg hnd] at hmi'
    obtain ⟨_, q, hib⟩ := (mem_cells_ix hF i).mp hi'
    rw [hci] at q; cases q
    obtain ⟨cm, hcm, hmb⟩ := (mem_cells_ix hF m).mp hm
    rw [max_eq_left hd.le] at hib hmb
    refine ⟨?_, by rw [hcells]; exact hci⟩
    have hpw' : st'.ix.Pairwise (fun a b => b < a) := by rw [hix]; exact List.pairwise_reverse.mpr (whereIx_sorted _ _)
    refine (mem_tail_iff (fun a b h => by omega) hpw').mpr ⟨?_, m, ?_, hmi'⟩
    · rw [hix, List.mem_reverse, mem_whereIx]
      refine ⟨ci, hci, ?_⟩
      simp only [ble_fin, Bool.and_eq_true, decide_eq_true_eq]
      exact ⟨by rw [he]; exact hsp t i ct ci (by omega) hct hci, hib.2⟩
    · rw [hix, List.mem_reverse, mem_whereIx]
      refine ⟨cm, hcm, ?_⟩
      simp only [ble_fin, Bool.and_eq_true, decide_eq_true_eq]
      exact ⟨by rw [he]; exact hsp t m ct cm (by omega) hct hcm, hmb.2⟩

/-- C81 is false (witness): channel running to the left, meeting the sea at 40 and 30 m.  The end is put at 35 m, and the transect at 40 m stays in the outlet channel
though the sea has broken through there. -/
theorem C81_refuted : ∃ st', seaTrunc 10 (trSt 55 15 [9, 8, 7, 6] (60, 55) (102, 55) (102, 55) (60, 55)) = .ok st' ∧ st'.ix = [9, 8] ∧ st'.e1 = fin 35 ∧
    ((st'.cells[8]?).any (fun c => c.t.y0 ≤? c.t.y1)) = true :=
  ok_witness (fun st' : MorSt ℚ => st'.ix = [9, 8] ∧ st'.e1 = fin 35 ∧ ((st'.cells[8]?).any (fun c => c.t.y0 ≤? c.t.y1)) = true) (by decide +kernel)

/-- Concrete case for C81 (partial): the same to the right. -/
example : okAnd (seaTrunc 10 (trSt 15 55 [6, 7, 8, 9] (60, 55) (102, 55) (102, 55) (60, 55))) (fun s => decide (s.ix = [6] ∧ s.e1 = fin 25)) = true := by decide +kernel

/-! ## C82 -/

/-- C82, the part that holds: seaward truncation leaves at least one transect if the channel runs to the left, or if it does not meet the sea at its first
transect.  Missing: channels running to the right that meet the sea at the first transect, refuted below. -/
theorem C82_partial (Dx : K) (st st' : MorSt K) (hs : (st.cells.map (·.t.x)).Pairwise (· < ·))
    (hsp : ∀ (i j : ℕ) ci cj, i < j → st.cells[i]? = some ci → st.cells[j]? = some cj → ci.t.x + Dx / 2 ≤ cj.t.x) {e0 e1 : K} (h0 : st.e0 = fin e0) (h1 : st.e1 = fin e1)
    (hF : FlowOrder (st.cells.map (·.t.x)) e0 e1 st.ix) {f : ℕ} {cf : Cell K} (hf : st.ix.head? = some f) (hcf : st.cells[f]? = some cf)
    (hfirst : e0 < e1 → ¬ MeetsSea cf.t) (h : seaTrunc Dx st = .ok st') : f ∈ st'.ix := by
  have hfx : f ∈ st.ix := List.mem_of_head? hf
  rcases seaTrunc_cases Dx st st' h0 h1 h with ⟨rfl, _⟩ | ⟨⟨g, hg, cg, hcg, hmg⟩, t, ct, e1', hct, htx, hmt, hst, hlr, hrl⟩
  · exact hfx
  · obtain ⟨_, q, hfb⟩ := (mem_cells_ix hF f).mp hfx
    rw [hcf] at q; cases q
    have first : ∀ k ∈ st.ix, k = f ∨ Upstream e0 e1 f k := by
      intro k hk
      cases hl : st.ix with
      | nil => rw [hl] at hk; exact absurd hk List.not_mem_nil
      | cons a l =>
        have hp := hF.2
        rw [hl] at hk hf hp
        cases hf
        rcases List.mem_cons.mp hk with e | e
        · exact Or.inl e
        · exact Or.inr ((List.pairwise_cons.mp hp).1 k e)
    by_cases hd : e0 < e1
    · obtain ⟨_, he, hix⟩ := hlr hd
      rw [hix, mem_whereIx]
      refine ⟨cf, hcf, ?_⟩
      simp only [ble_fin, Bool.and_eq_true, decide_eq_true_eq]
      rw [min_eq_left hd.le] at hfb
      refine ⟨hfb.1, ?_⟩
      rcases first t htx with e | e
      · subst e; rw [hct] at hcf; cases hcf; exact absurd hmt (hfirst hd)
      · unfold Upstream at e
        rw [if_pos hd] at e
        rw [he]; linarith [hsp f t cf ct e hcf hct]
    · obtain ⟨hh, he, hix⟩ := hrl hd
      rw [hix, List.mem_reverse, mem_whereIx]
      refine ⟨cf, hcf, ?_⟩
      simp only [ble_fin, Bool.and_eq_true, decide_eq_true_eq]
      rw [max_eq_left (not_lt.mp hd)] at hfb
      refine ⟨?_, hfb.2⟩
      have htf : t < f := by
        have hgf : g < f := by
          rcases first g (List.mem_of_mem_tail hg) with e | e
          · subst e
            obtain ⟨_, m, hm, hu⟩ := (flow_tail hF).mp hg
            rcases first m hm with e' | e'
            · subst e'; unfold Upstream at hu; split at hu <;> omega
            · exact absurd e' (flow_asymm (e0 := e0) (e1 := e1) _ _ hu)
          · unfold Upstream at e; rw [if_neg hd] at e; exact e
        have hgw : g ∈ ixWhere st.cells st.ix (fun t => t.y0 ≤? t.y1) := mem_ixWhere.mpr ⟨List.mem_of_mem_tail hg, cg, hcg, hmg⟩
        have hpw : (ixWhere st.cells st.ix (fun t => t.y0 ≤? t.y1)).Pairwise (Upstream e0 e1) := List.Pairwise.sublist List.filter_sublist hF.2
        obtain ⟨l, hl⟩ := List.getLast?_eq_some_iff.mp hh
        rw [hl] at hgw hpw
        rcases List.mem_append.mp hgw with e | e
        · have := (List.pairwise_append.mp hpw).2.2 g e t (by simp)
          unfold Upstream at this
          rw [if_neg hd] at this
          omega
        · rw [← List.mem_singleton.mp e]; exact hgf
      rw [he]; exact hsp t f ct cf htf hct hcf

/-- C82 is false: whenever a channel running to the right meets the sea at its first transect and another, truncation leaves no transect at all, and the repair
that follows raises IndexError. -/
theorem C82_refuted_general (pp : PhysPars K) (Dx : K) (hDx : 0 < Dx) (st st' : MorSt K) (hs : (st.cells.map (·.t.x)).Pairwise (· < ·)) {e0 e1 : K} (h0 : st.e0 = fin e0) (h1 : st.e1 = fin e1)
    (hd : e0 < e1) (hF : FlowOrder (st.cells.map (·.t.x)) e0 e1 st.ix) {f g : ℕ} {cf cg : Cell K} (hf : st.ix.head? = some f) (hcf : st.cells[f]? = some cf)
    (hg : g ∈ st.ix.tail) (hcg : st.cells[g]? = some cg) (hmf : MeetsSea cf.t) (hmg : MeetsSea cg.t) (h : seaTrunc Dx st = .ok st') :
    st'.ix = [] ∧ lagoonPrevent pp false st' = .error .index := by
  have hnil : st'.ix = [] := by
    rcases seaTrunc_cases Dx st st' h0 h1 h with ⟨_, hn⟩ | ⟨_, t, ct, e1', hct, htx, hmt, hst, hlr, _⟩
    · exact absurd hmg (hn g hg cg hcg)
    · obtain ⟨hh, he, hix⟩ := hlr hd
      have htf : t = f := by
        cases hl : st.ix with
        | nil => rw [hl] at hf; cases hf
        | cons a l =>
          rw [hl] at hf; cases hf
          unfold ixWhere at hh
          rw [hl, List.filter_cons, if_pos (by rw [hcf]; exact hmf)] at hh
          cases hh; rfl
      subst htf
      rw [hct] at hcf; cases hcf
      rw [hix]
      apply List.eq_nil_iff_forall_not_mem.mpr
      intro k hk
      obtain ⟨ck, hck, hb⟩ := mem_whereIx.mp hk
      simp only [ble_fin, Bool.and_eq_true, decide_eq_true_eq] at hb
      have hlt : ck.t.x < cf.t.x := by rw [he] at hb; linarith [hb.2]
      have hkt := (sorted_lt_iff hs hck hct).mp hlt
      obtain ⟨_, q, htb⟩ := (mem_cells_ix hF t).mp htx
      rw [hct] at q; cases q
      rw [max_eq_right hd.le] at htb
      have hkix : k ∈ st.ix := (mem_cells_ix hF k).mpr ⟨ck, hck, by rw [min_eq_left hd.le]; exact hb.1, by rw [max_eq_right hd.le]; exact hlt.le.trans htb.2⟩
      cases hl : st.ix with
      | nil => rw [hl] at hf; cases hf
      | cons a l =>
        have hp := hF.2
        rw [hl] at hf hkix hp; cases hf
        rcases List.mem_cons.mp hkix with e | e
        · omega
        · have := (List.pairwise_cons.mp hp).1 k e
          rw [if_pos hd] at this
          omega
  refine ⟨hnil, ?_⟩
  unfold lagoonPrevent
  rw [hnil]
  rfl

/-- C82 is false (witness), in the sequence of repairs: the first transect is truncated from the lagoon, and the sea has broken through at the second and third. -/
theorem C82_refuted : repairStage moPP false 10 (trSt 15 55 [6, 7, 8, 9] (60, 18) (102, 55) (102, 55) (60, 55)) = .error .index := by decide +kernel

/-- Concrete case for C82 (partial). -/
example : okAnd (seaTrunc 10 (trSt 15 55 [6, 7, 8, 9] (60, 55) (102, 55) (102, 55) (60, 55))) (fun s => decide (6 ∈ s.ix)) = true := by decide +kernel

end Verif.Props
