import Verif.Lemmas.Rest
import Verif.Lemmas.Moved
import Verif.Lemmas.ChannelReach
import Verif.Lemmas.Causal

set_option autoImplicit false
set_option linter.unusedSectionVars false

/-! # A coast at rest: repairs and breaches leave it alone -/

namespace Verif.Model
open Verif Fl Spec List

variable {K : Type} [Field K] [LinearOrder K] [IsStrictOrderedRing K]

section
variable {pp : PhysPars K}

theorem tidy_chan {t : Transect K} (h : Tidy pp t) (hn : t.y1.isnan = false) :
    (t.y1 <? t.y2) = false ∧ (t.y0 ≤? t.y1) = false ∧ (t.y2 ≤? t.y3) = false ∧ npmax t.z0 t.z2 = t.z0 := by
  cases h with
  | plain => cases hn
  | channel x y0 y1 y2 y3 y4 z0 z1 z2 z3 hy1 hy2 hy3 hy4 hz1 hz2 hz3 hb hs =>
    simp only [blt_fin, ble_fin, npmax_fin, decide_eq_false_iff_not, not_lt, not_le, fin.injEq]
    exact ⟨hy2.le, hy1, hy3, max_eq_left hz2⟩

theorem tidy_notGreater {t : Transect K} (h : Tidy pp t) : notGreater t.y2 t.y3 (!t.y1.isnan) true = false ∧ notGreater t.y0 t.y1 (!t.y1.isnan) true = false := by
  cases h with
  | plain => exact ⟨rfl, rfl⟩
  | channel x y0 y1 y2 y3 y4 z0 z1 z2 z3 hy1 hy2 hy3 hy4 hz1 hz2 hz3 hb hs =>
    unfold notGreater
    simp [hy1, hy3]

theorem tidy_cliff {t : Transect K} (h : Tidy pp t) : (t.y0 ≤? t.y4) = false := by
  cases h <;> simp only [ble_fin, decide_eq_false_iff_not, not_le] <;> assumption

theorem tidy_bar {t : Transect K} (h : Tidy pp t) : (t.y0 ≤? t.y3) = false := by
  cases h with
  | plain => simp only [ble_fin, decide_eq_false_iff_not, not_le]; assumption
  | channel x y0 y1 y2 y3 y4 z0 z1 z2 z3 hy1 hy2 hy3 hy4 hz1 hz2 hz3 hb hs =>
    simp only [ble_fin, decide_eq_false_iff_not, not_le]
    exact hy3.trans (hy2.trans hy1)

theorem tidy_noSea {t : Transect K} (h : Tidy pp t) : (t.y0 ≤? t.y1) = false := by
  cases h with
  | plain => rfl
  | channel x y0 y1 y2 y3 y4 z0 z1 z2 z3 hy1 hy2 hy3 hy4 hz1 hz2 hz3 hb hs =>
    simpa only [ble_fin, decide_eq_false_iff_not, not_le] using hy1

theorem pyGet_neg2 {α : Type} {l : List α} {a : α} (h : pyGet l (-2) = .ok a) : l[l.length - 2]? = some a := by
  unfold pyGet at h
  rw [if_neg (by decide)] at h
  split at h
  · rename_i hl
    rw [ixGet_ok] at h
    have : ((l.length : ℤ) + -2).toNat = l.length - 2 := by omega
    rwa [this] at h
  · cases h

theorem edge_rest {st st' : MorSt K} (hx : ∃ x, st.e1 = fin x ∧ (∀ c, st.cells[1]? = some c → c.t.x ≤ x) ∧ (∀ c, st.cells[st.cells.length - 2]? = some c → x ≤ c.t.x))
    (h : edgeCheck st = .ok st') : st' = st := by
  obtain ⟨x, he, h1, h2⟩ := hx
  unfold edgeCheck at h
  obtain ⟨c1, hc1, h⟩ := bind_ok.mp h
  obtain ⟨c2, hc2, h⟩ := bind_ok.mp h
  have g1 := h1 c1 (ixGet_ok.mp hc1)
  have g2 := h2 c2 (pyGet_neg2 hc2)
  simp only [pure_ok, he, blt_fin] at h
  have k1 : ¬ (decide (x < c1.t.x) = true) := by simpa using g1
  have k2 : ¬ ((fin c2.t.x <? fin x) = true) := by simpa using g2
  simp only [if_neg k1, if_neg k2] at h
  rw [← h, ← he]

theorem cliff_rest {cells : List (Cell K)} (hc : ∀ c ∈ cells, TidyCell pp c) : cells.map (cliffCell pp) = cells := by
  rw [List.map_congr_left (g := id), List.map_id]
  intro c hcm
  unfold cliffCell
  simp only [tidy_cliff (hc c hcm).t, Bool.false_eq_true, if_false, id]

theorem negWidth_rest {c : Cell K} (hc : TidyCell pp c) : negWidth c = false := by
  unfold negWidth
  rw [hc.op]
  cases hn : c.t.y1.isnan with
  | true => rfl
  | false => simp only [(tidy_chan hc.t hn).1, Bool.and_false]

theorem overwash_rest {cells cells' : List (Cell K)} (hc : ∀ c ∈ cells, TidyCell pp c) (h : overwashRepair cells = .ok cells') : cells' = cells := by
  unfold overwashRepair at h
  have hf : cells.filter negWidth = [] := by
    rw [filter_eq_nil_iff]
    intro c hcm
    rw [negWidth_rest (hc c hcm)]
    exact Bool.false_ne_true
  have hm : cells.map overwashCell = cells := by
    rw [List.map_congr_left (g := id), List.map_id]
    intro c hcm
    unfold overwashCell
    rw [negWidth_rest (hc c hcm)]
    rfl
  simp only [hf, hm, map_nil, any_nil, Bool.false_eq_true, if_false, bind_ok, pure_ok] at h
  obtain ⟨_, _, _, _, h⟩ := h
  exact h.symm

/-- The outlet transects of a row list. -/
theorem getLast_whereIx {α : Type} {p : α → Bool} {l : List α} {i : ℕ} (h : (whereIx p l).getLast? = some i) :
    (∃ a, l[i]? = some a ∧ p a = true) ∧ ∀ (j : ℕ) b, i < j → l[j]? = some b → p b = false := by
  refine ⟨mem_whereIx.mp (mem_of_getLast? h), fun j b hj hb => ?_⟩
  by_contra hp
  have hm : j ∈ whereIx p l := mem_whereIx.mpr ⟨b, hb, by simpa using hp⟩
  obtain ⟨l', hl'⟩ := getLast?_eq_some_iff.mp h
  have hs := whereIx_sorted p l
  rw [hl'] at hm hs
  rcases mem_append.mp hm with hm | hm
  · have := (pairwise_append.mp hs).2.2 j hm i (mem_singleton_self _)
    omega
  · rw [mem_singleton] at hm
    omega

theorem head_whereIx {α : Type} {p : α → Bool} {l : List α} {i : ℕ} (h : (whereIx p l).head? = some i) :
    (∃ a, l[i]? = some a ∧ p a = true) ∧ ∀ (j : ℕ) b, j < i → l[j]? = some b → p b = false := by
  obtain ⟨l', hl'⟩ : ∃ l', whereIx p l = i :: l' := by
    cases hw : whereIx p l with
    | nil => rw [hw] at h; cases h
    | cons a t => rw [hw] at h; simp only [head?_cons, Option.some.injEq] at h; exact ⟨t, by rw [h]⟩
  refine ⟨mem_whereIx.mp (by rw [hl']; exact mem_cons_self), fun j b hj hb => ?_⟩
  by_contra hp
  have hm : j ∈ whereIx p l := mem_whereIx.mpr ⟨b, hb, by simpa using hp⟩
  have hs := whereIx_sorted p l
  rw [hl'] at hm hs
  rcases mem_cons.mp hm with hm | hm
  · omega
  · have := (pairwise_cons.mp hs).1 j hm
    omega

theorem elongate_rest {C : Bool} {st st' : MorSt K} (hx : st.cells.Pairwise (fun c d => c.t.x < d.t.x))
    (h1 : ∃ x, st.e1 = fin x ∧ ∀ c, st.cells[1]? = some c → c.t.x ≤ x) (h2 : 1 < st.cells.length) (hix : C = false → st.ix = cellIx st.cells st.e0 st.e1)
    (h : elongate pp C st = .ok st') : st' = st := by
  unfold elongate at h
  split at h
  · simp only [pure_ok] at h; exact h.symm
  · rename_i hC
    have hix := hix (by simpa using hC)
    obtain ⟨last, hl, h⟩ := bind_ok.mp h
    obtain ⟨cl, hcl, h⟩ := bind_ok.mp h
    rw [ixGet_ok] at hcl
    rw [pyGet_last, hix] at hl
    have hlt : ∀ {i j : ℕ} {c d : Cell K}, i < j → st.cells[i]? = some c → st.cells[j]? = some d → c.t.x < d.t.x := by
      intro i j c d hij hc hd
      obtain ⟨h1, e1⟩ := List.getElem?_eq_some_iff.mp hc
      obtain ⟨h2, e2⟩ := List.getElem?_eq_some_iff.mp hd
      have := pairwise_iff_getElem.mp hx i j h1 h2 hij
      rwa [e1, e2] at this
    unfold cellIx outletIx at hl
    split at h
    · rename_i hlt01
      rw [if_pos hlt01, whereIx_map] at hl
      obtain ⟨⟨a, ha, hpa⟩, hafter⟩ := getLast_whereIx hl
      rw [hcl] at ha
      cases ha
      obtain ⟨cn, hcn, h⟩ := bind_ok.mp h
      rw [ixGet_ok] at hcn
      have hgt := hlt (Nat.lt_succ_self last) hcl hcn
      have hno := hafter _ cn (Nat.lt_succ_self last) hcn
      rw [Bool.and_eq_true] at hpa
      have h0 : (st.e0 ≤? fin cn.t.x) = true := by
        have := hpa.1
        cases he : st.e0 with
        | fin y => rw [he, ble_fin, decide_eq_true_eq] at this; rw [ble_fin, decide_eq_true_eq]; exact this.trans hgt.le
        | ninf => rfl
        | nan => rw [he] at this; cases this
        | pinf => rw [he] at this; cases this
      rw [h0, Bool.true_and] at hno
      rw [if_neg (by simp [hno])] at h
      simp only [pure_ok] at h; exact h.symm
    · rename_i hlt01
      rw [if_neg hlt01, getLast?_reverse, whereIx_map] at hl
      obtain ⟨⟨a, ha, hpa⟩, hbefore⟩ := head_whereIx hl
      rw [hcl] at ha
      cases ha
      obtain ⟨cn, hcn, h⟩ := bind_ok.mp h
      rw [ixGet_ok] at hcn
      rw [Bool.and_eq_true] at hpa
      have hpos : 0 < last := by
        rcases Nat.eq_zero_or_pos last with rfl | hp
        · exfalso
          obtain ⟨x, hex, hx1⟩ := h1
          unfold prevIx at hcn
          rw [if_pos rfl] at hcn
          have hc1 := getElem?_eq_getElem h2
          have := hlt Nat.zero_lt_one hcl hc1
          rw [hex, ble_fin, decide_eq_true_eq] at hpa
          exact absurd (hx1 _ hc1) (not_le.mpr (lt_of_le_of_lt hpa.1 this))
        · exact hp
      unfold prevIx at hcn
      rw [if_neg (by omega)] at hcn
      have hgt := hlt (show last - 1 < last by omega) hcn hcl
      have hno := hbefore _ cn (show last - 1 < last by omega) hcn
      have h0 : (fin cn.t.x ≤? st.e0) = true := by
        have := hpa.2
        cases he : st.e0 with
        | fin y => rw [he, ble_fin, decide_eq_true_eq] at this; rw [ble_fin, decide_eq_true_eq]; exact hgt.le.trans this
        | pinf => rfl
        | nan => rw [he] at this; cases this
        | ninf => rw [he] at this; cases this
      rw [h0, Bool.and_true] at hno
      rw [if_neg (by simp [hno])] at h
      simp only [pure_ok] at h; exact h.symm

theorem seaPrevent_rest {C : Bool} {st st' : MorSt K} (hc : ∀ c ∈ st.cells, TidyCell pp c) (h : seaPrevent C st = .ok st') : st' = st := by
  unfold seaPrevent at h
  split at h
  · simp only [pure_ok] at h; exact h.symm
  · obtain ⟨i, _, h⟩ := bind_ok.mp h
    obtain ⟨c, hci, h⟩ := bind_ok.mp h
    rw [if_neg (by rw [tidy_noSea (hc c (mem_of_getElem? (ixGet_ok.mp hci))).t]; exact Bool.false_ne_true)] at h
    simp only [pure_ok] at h; exact h.symm

/-- The transects of the outlet have a channel. -/
def ChanAt (st : MorSt K) : Prop := ∀ i ∈ st.ix, ∀ c, st.cells[i]? = some c → c.t.y1.isnan = false

theorem ixWhere_rest {st : MorSt K} {l : List ℕ} {p : Transect K → Bool} (hl : ∀ i ∈ l, i ∈ st.ix) (h : ChanAt st)
    (hp : ∀ c ∈ st.cells, c.t.y1.isnan = false → p c.t = false) : ixWhere st.cells l p = [] := by
  unfold ixWhere
  rw [filter_eq_nil_iff]
  intro i hi
  cases hc : st.cells[i]? with
  | none => simp
  | some c =>
    have := hp c (mem_of_getElem? hc) (h i (hl i hi) c hc)
    simp [this]

theorem lagoonTrunc_rest {st st' : MorSt K} (hc : ∀ c ∈ st.cells, TidyCell pp c) (hch : ChanAt st) (h : lagoonTrunc st = .ok st') : st' = st := by
  unfold lagoonTrunc at h
  split at h
  · simp only [pure_ok] at h; exact h.symm
  · rw [ixWhere_rest (fun i hi => mem_of_mem_dropLast hi) hch (fun c hcm hn => (tidy_chan (hc c hcm).t hn).2.2.1)] at h
    simp only [pure_ok] at h; exact h.symm

theorem seaTrunc_rest {Dx : K} {st st' : MorSt K} (hc : ∀ c ∈ st.cells, TidyCell pp c) (hch : ChanAt st) (h : seaTrunc Dx st = .ok st') : st' = st := by
  unfold seaTrunc at h
  split at h
  · simp only [pure_ok] at h; exact h.symm
  · simp only at h
    rw [ixWhere_rest (fun i hi => mem_of_mem_tail hi) hch (fun c hcm hn => (tidy_chan (hc c hcm).t hn).2.1), isEmpty_nil, if_pos rfl] at h
    simp only [pure_ok] at h; exact h.symm

theorem lagoonPrevent_rest {C : Bool} {st st' : MorSt K} (hc : ∀ c ∈ st.cells, TidyCell pp c) (hch : ChanAt st)
    (h : lagoonPrevent pp C st = .ok st') : st' = st := by
  unfold lagoonPrevent at h
  split at h
  · simp only [pure_ok] at h; exact h.symm
  · obtain ⟨i, hi, h⟩ := bind_ok.mp h
    obtain ⟨c, hci, h⟩ := bind_ok.mp h
    rw [ixGet_ok] at hci
    rw [pyGet_last] at hi
    have := (tidy_chan (hc c (mem_of_getElem? hci)).t (hch i (mem_of_getLast? hi) c hci)).2.2.1
    rw [if_neg (by rw [this]; exact Bool.false_ne_true)] at h
    simp only [pure_ok] at h; exact h.symm

theorem repair_rest {C : Bool} {Dx : K} {st st' : MorSt K} (hc : ∀ c ∈ st.cells, TidyCell pp c) (hch : ChanAt st)
    (hx : st.cells.Pairwise (fun c d => c.t.x < d.t.x))
    (h1 : ∃ x, st.e1 = fin x ∧ (∀ c, st.cells[1]? = some c → c.t.x ≤ x) ∧ (∀ c, st.cells[st.cells.length - 2]? = some c → x ≤ c.t.x))
    (hix : C = false → st.ix = cellIx st.cells st.e0 st.e1) (h : repairStage pp C Dx st = .ok st') : st' = st := by
  unfold repairStage at h
  simp only [bind_ok] at h
  obtain ⟨s1, e1, cs, e2, s3, e3, s4, e4, s5, e5, s6, e6, e7⟩ := h
  have hlen : 1 < st.cells.length := by
    unfold edgeCheck at e1
    obtain ⟨c, hcg, _⟩ := bind_ok.mp e1
    exact (List.getElem?_eq_some_iff.mp (ixGet_ok.mp hcg)).1
  rw [edge_rest h1 e1, cliff_rest hc] at e2
  rw [edge_rest h1 e1, overwash_rest hc e2] at e3
  obtain ⟨x, hx1, hx2, _⟩ := h1
  rw [elongate_rest (st := st) hx ⟨x, hx1, hx2⟩ hlen hix e3] at e4
  rw [seaPrevent_rest hc e4] at e5
  rw [lagoonTrunc_rest hc hch e5] at e6
  rw [seaTrunc_rest hc hch e6] at e7
  exact lagoonPrevent_rest hc hch e7

/-! ## Breaches -/

/-- The water is not above `L`, and `L` not above the crest. -/
def Below (L : K) (c : Cell K) : Prop := (c.wl ≤? fin L) = true ∧ (fin L ≤? c.t.z0) = true

theorem walk_rest {L : K} {d : ℤ} : ∀ {f : ℕ} {c : ℤ} {cells : List (Cell K)} {r : ℤ × List (Cell K)}, walk pp d f c cells = .ok r →
    (∀ c ∈ cells, TidyCell pp c ∧ Below L c) → (∀ c ∈ r.2, TidyCell pp c ∧ Below L c) ∧ r.2.map (·.t) = cells.map (·.t) := by
  intro f
  induction f with
  | zero => intro c cells r h; cases h
  | succ f ih =>
    intro c cells r h hc
    unfold walk at h
    split at h
    · cases h
    · rename_i j hj
      obtain ⟨nxt, _, h⟩ := bind_ok.mp h
      split at h
      · split at h
        · cases h
        · obtain ⟨cur, hcur, h⟩ := bind_ok.mp h
          have hw := (hc cur (mem_of_getElem? (ixGet_ok.mp hcur))).2.1
          have key : ∀ x ∈ cells.modify j (fun x => { x with wl := cur.wl }), TidyCell pp x ∧ Below L x := by
            intro x hx
            obtain ⟨k, hk⟩ := mem_iff_getElem?.mp hx
            rw [getElem?_modify] at hk
            cases hck : cells[k]? with
            | none => rw [hck] at hk; cases hk
            | some y =>
              rw [hck] at hk
              obtain ⟨h1, h2⟩ := hc y (mem_of_getElem? hck)
              by_cases e : j = k
              · simp only [e, if_true, Option.map_eq_map, Option.map_some, Option.some.injEq] at hk
                subst hk
                exact ⟨⟨h1.t, h1.sfh, h1.cw, h1.bh, h1.op⟩, hw, h2.2⟩
              · simp only [e, if_false, Option.map_eq_map, Option.map_some, Option.some.injEq, id] at hk
                subst hk
                exact ⟨h1, h2⟩
          obtain ⟨g1, g2⟩ := ih h key
          refine ⟨g1, g2.trans ?_⟩
          apply ext_getElem?
          intro k
          rw [getElem?_map, getElem?_map, getElem?_modify]
          cases cells[k]? with
          | none => rfl
          | some y => by_cases e : j = k <;> simp [e]
      · simp only [pure_ok] at h
        subst h
        exact ⟨hc, rfl⟩

theorem connected_rest {L : K} {C : Bool} {X0 : ℕ} {st st' : MorSt K} {conn : Option (ℤ × ℤ)} (h : connected pp C X0 st = .ok (conn, st'))
    (hc : ∀ c ∈ st.cells, TidyCell pp c ∧ Below L c) :
    (∀ c ∈ st'.cells, TidyCell pp c ∧ Below L c) ∧ st'.cells.map (·.t) = st.cells.map (·.t) ∧ (st'.e0 = st.e0 ∨ C = true ∧ st'.e0 = nan) ∧
      st'.e1 = st.e1 ∧ st'.endW = st.endW ∧ st'.endZ = st.endZ ∧ st'.riv = st.riv := by
  unfold connected at h
  obtain ⟨⟨mm, e0⟩, hcs, h⟩ := bind_ok.mp h
  have he : e0 = st.e0 ∨ C = true ∧ e0 = nan := by
    unfold connStart at hcs
    cases C with
    | false =>
      simp only [Bool.not_false, if_true, bind_ok, pure_ok, Prod.mk.injEq] at hcs
      obtain ⟨_, _, _, _, _, h⟩ := hcs
      exact .inl h.symm
    | true =>
      simp only [Bool.not_true, Bool.false_eq_true, if_false] at hcs
      split at hcs
      · obtain ⟨_, _, hcs⟩ := bind_ok.mp hcs
        split at hcs
        · simp only [pure_ok, Prod.mk.injEq] at hcs; exact .inr ⟨rfl, hcs.2.symm⟩
        · split at hcs
          · simp only [pure_ok, Prod.mk.injEq] at hcs; exact .inr ⟨rfl, hcs.2.symm⟩
          · simp only [pure_ok, Prod.mk.injEq] at hcs; exact .inl hcs.2.symm
      · simp only [pure_ok, Prod.mk.injEq] at hcs; exact .inl hcs.2.symm
  cases mm with
  | none =>
    simp only [bind_ok, pure_ok] at h
    obtain ⟨_, _, h⟩ := h
    cases h
    exact ⟨hc, rfl, he, rfl, rfl, rfl, rfl⟩
  | some p =>
    obtain ⟨lo, hi⟩ := p
    simp only [bind_ok, pure_ok] at h
    obtain ⟨⟨l1, c1⟩, h1, ⟨l2, c2⟩, h2, _, _, h⟩ := h
    cases h
    obtain ⟨g1, g2⟩ := walk_rest h1 hc
    obtain ⟨k1, k2⟩ := walk_rest h2 g1
    exact ⟨k1, k2.trans g2, he, rfl, rfl, rfl, rfl⟩

theorem mergeLagoon_rest {cells : List (Cell K)} (hc : ∀ c ∈ cells, TidyCell pp c) : mergeLagoon (fun _ => true) cells = cells := by
  unfold mergeLagoon
  apply ext_getElem?
  intro i
  rw [getElem?_mapIdx]
  cases hi : cells[i]? with
  | none => rfl
  | some c =>
    have : lagoonHit (fun _ => true) i c = false := (tidy_notGreater (hc c (mem_of_getElem? hi)).t).1
    simp only [Option.map_some, this, Bool.false_eq_true, if_false]

theorem mergeShore_rest {C : Bool} {conn : Option (ℤ × ℤ)} {st : MorSt K} {r : Option ℕ × MorSt K} (hc : ∀ c ∈ st.cells, TidyCell pp c)
    (h : mergeShore pp (fun _ => true) C conn st = .ok r) : r = (none, st) := by
  unfold mergeShore at h
  have hn : (st.cells.mapIdx (shoreHit (fun _ => true))).any id = false := by
    rw [List.any_eq_false]
    intro b hb
    obtain ⟨i, hi⟩ := mem_iff_getElem?.mp hb
    rw [getElem?_mapIdx] at hi
    cases hci : st.cells[i]? with
    | none => rw [hci] at hi; cases hi
    | some c =>
      rw [hci] at hi
      simp only [Option.map_some, Option.some.injEq] at hi
      rw [← hi]
      unfold shoreHit
      rw [(tidy_notGreater (hc c (mem_of_getElem? hci)).t).2]
      exact Bool.false_ne_true
  simp only [hn, Bool.not_false, if_true, pure_ok] at h
  exact h.symm

theorem erosion_rest {C : Bool} {X0 : ℕ} {b : Option ℕ} {st : MorSt K} {r : Option ℕ × MorSt K} (hc : ∀ c ∈ st.cells, TidyCell pp c)
    (h : erosionBreach C X0 b st = .ok r) : r = (b, st) := by
  unfold erosionBreach at h
  have hn : whereIx (fun c : Cell K => eroded c.t) st.cells = [] := by
    apply whereIx_nil_iff
    intro c hcm
    unfold eroded
    rw [tidy_bar (hc c hcm).t, Bool.false_and]
  simp only [hn, isEmpty_nil, if_true, pure_ok] at h
  exact h.symm

theorem overtop_rest {L : K} {C : Bool} {X0 : ℕ} {conn : Option (ℤ × ℤ)} {b : Option ℕ} {st : MorSt K} {r : Option ℕ × MorSt K}
    (hc : ∀ c ∈ st.cells, TidyCell pp c ∧ Below L c) (h : overtopBreach pp C X0 conn b st = .ok r) : r = (b, st) := by
  unfold overtopBreach at h
  have hm : st.cells.map crestCell = st.cells := by
    rw [List.map_congr_left (g := id), List.map_id]
    intro c hcm
    have ht := (hc c hcm).1
    unfold crestCell
    split
    · rename_i ho
      rw [ht.op, Bool.not_eq_true'] at ho
      rw [(tidy_chan ht.t ho).2.2.2]
      rfl
    · rfl
  have hn : whereIx (fun c : Cell K => c.t.z0 <? c.wl) st.cells = [] := by
    apply whereIx_nil_iff
    intro c hcm
    obtain ⟨h1, h2⟩ := (hc c hcm).2
    cases hz : c.t.z0 <;> cases hw : c.wl <;> rw [hz] at h2 <;> rw [hw] at h1 <;> try rfl
    all_goals first | cases h1 | cases h2 | skip
    rw [ble_fin, decide_eq_true_eq] at h1 h2
    rw [blt_fin, decide_eq_false_iff_not, not_lt]
    exact h1.trans h2
  simp only [hm, hn, isEmpty_nil, Bool.or_true, if_true, bind_ok, pure_ok] at h
  obtain ⟨_, _, h⟩ := h
  exact h.symm

theorem breach_rest {L : K} {C : Bool} {X0 : ℕ} {st st' : MorSt K} {b : Bool} (hc : ∀ c ∈ st.cells, TidyCell pp c ∧ Below L c)
    (h : breachStage pp (fun _ => true) (fun _ => true) C X0 st = .ok (b, st')) :
    b = false ∧ st'.cells.map (·.t) = st.cells.map (·.t) ∧ (st'.e0 = st.e0 ∨ C = true ∧ st'.e0 = nan) ∧
      st'.e1 = st.e1 ∧ st'.endW = st.endW ∧ st'.endZ = st.endZ ∧ st'.riv = st.riv := by
  unfold breachStage at h
  rw [mergeLagoon_rest (fun c hcm => (hc c hcm).1)] at h
  obtain ⟨⟨conn, s1⟩, h1, h⟩ := bind_ok.mp h
  obtain ⟨g1, g2, g3⟩ := connected_rest (st := st) h1 hc
  obtain ⟨r2, h2, h⟩ := bind_ok.mp h
  rw [mergeShore_rest (fun c hcm => (g1 c hcm).1) h2] at h
  obtain ⟨r3, h3, h⟩ := bind_ok.mp h
  rw [erosion_rest (fun c hcm => (g1 c hcm).1) h3] at h
  obtain ⟨r4, h4, h⟩ := bind_ok.mp h
  rw [overtop_rest g1 h4] at h
  simp only [createBreach, bind_ok, pure_ok, Prod.mk.injEq] at h
  obtain ⟨s5, h5, hb, hs⟩ := h
  subst h5
  subst hs
  exact ⟨hb.symm, g2, g3⟩

end
end Verif.Model
