import Verif.Lemmas.MorBreach
import Verif.Props.MorSample

set_option autoImplicit false
set_option linter.unusedSectionVars false

/-! # C45-C51: breaches and the final state -/

namespace Verif.Props
open Verif Verif.Model Verif.Spec Fl

variable {K : Type} [Field K] [LinearOrder K] [IsStrictOrderedRing K]

/-! ## C45 -/

/-- Transect `i` has lost its barrier and is connected to the river at `X0` through open lagoon. -/
def ErodedAtRiver (cells : List (Cell K)) (X0 i : ℕ) (c : Cell K) : Prop :=
  cells[i]? = some c ∧ (c.t.y0 ≤? c.t.y3) = true ∧ (c.t.y4 <? c.t.y3) = true ∧ Linked (fun j => ∃ d, cells[j]? = some d ∧ d.lo = true) X0 i

theorem linked_lo {cells : List (Cell K)} {X0 i : ℕ} :
    riverLinked (cells.map (·.lo)) X0 i = true ↔ Linked (fun j => ∃ d, cells[j]? = some d ∧ d.lo = true) X0 i := by
  rw [riverLinked_iff]
  unfold Linked
  simp only [List.getElem?_map, Option.map_eq_some_iff]

theorem mem_poss {cells : List (Cell K)} {X0 i : ℕ} :
    i ∈ (whereIx (fun c : Cell K => eroded c.t) cells).filter (riverLinked (cells.map (·.lo)) X0) ↔ ∃ c, ErodedAtRiver cells X0 i c := by
  rw [List.mem_filter, mem_whereIx, linked_lo]
  constructor
  · rintro ⟨⟨c, hc, he⟩, hl⟩
    unfold eroded at he
    rw [Bool.and_eq_true] at he
    exact ⟨c, hc, he.1, he.2, hl⟩
  · rintro ⟨c, hc, h1, h2, hl⟩
    exact ⟨⟨c, hc, by unfold eroded; rw [h1, h2]; rfl⟩, hl⟩

/-- C45: the decision whether complete erosion of the barrier breaches the lagoon, and where.  The check never
fails; without an earlier breach in the same step, a closed lagoon breaches exactly when an eroded
transect is connected to the river, an open one exactly when such a transect is closer to the river than the
start of the outlet; and the breach is at the closest one. -/
theorem C45_erosion (Closed : Bool) (X0 : ℕ) (st : MorSt K) :
    ∃ b st', erosionBreach Closed X0 none st = .ok (b, st') ∧
      (b.isSome = true ↔ ∃ i c, ErodedAtRiver st.cells X0 i c ∧ (Closed = false → (fin |c.t.x| <? st.e0.abs) = true)) ∧
      ∀ k, b = some k → ∃ c, ErodedAtRiver st.cells X0 k c ∧ st'.cells[k]? = some c ∧
        ∀ i d, ErodedAtRiver st.cells X0 i d → |c.t.x| ≤ |d.t.x| := by
  set ero := whereIx (fun c : Cell K => eroded c.t) st.cells with hero
  set poss := ero.filter (riverLinked (st.cells.map (·.lo)) X0) with hposs
  have mp : ∀ i, i ∈ poss ↔ ∃ c, ErodedAtRiver st.cells X0 i c := fun i => mem_poss
  have hlt : ∀ i ∈ poss, i < st.cells.length := by
    intro i hi
    obtain ⟨c, hc, _⟩ := (mp i).mp hi
    exact (List.getElem?_eq_some_iff.mp hc).1
  obtain ⟨xs, hxs, hlen, hget⟩ := absX_eq hlt
  unfold erosionBreach
  by_cases he : ero.isEmpty = true
  · refine ⟨none, st, by simp only [← hero, he, if_true]; rfl, ⟨by simp, ?_⟩, by simp⟩
    rintro ⟨i, c, hc, _⟩
    have : i ∈ ero := (List.mem_filter.mp ((mp i).mpr ⟨c, hc⟩)).1
    rw [List.isEmpty_iff.mp he] at this
    simp at this
  · by_cases hb : erosionBreaches Closed st.e0 (absX st.cells poss) = true
    · have hne : xs ≠ [] := by
        intro e
        rw [hxs, e] at hb
        simp [erosionBreaches] at hb
      obtain ⟨m, hm, hmin⟩ := argmin_spec hne
      have hk : argmin (absX st.cells poss) < poss.length := by
        rw [hxs, ← hlen]; exact (List.getElem?_eq_some_iff.mp hm).1
      have hkget := List.getElem?_eq_getElem hk
      obtain ⟨c, hc⟩ := (mp _).mp (List.getElem_mem hk)
      have hmc : m = |c.t.x| := by
        have := hget _ _ c hkget hc.1
        rw [hxs, hm] at this
        exact Option.some.inj this
      have hall : ∀ i d, ErodedAtRiver st.cells X0 i d → |c.t.x| ≤ |d.t.x| := by
        intro i d hd
        obtain ⟨k', hk'⟩ := List.mem_iff_getElem?.mp ((mp i).mpr ⟨d, hd⟩)
        rw [← hmc]
        exact hmin _ (List.mem_of_getElem? (hget k' i d hk' hd.1))
      refine ⟨some (poss[argmin (absX st.cells poss)]), { st with cells := modifyIf (fun i => (ero.filter (· != poss[argmin (absX st.cells poss)])).contains i) (fun _ => restoreCell) st.cells }, ?_, ?_, ?_⟩
      · rw [if_neg he]
        refine bind_ok.mpr ⟨(some (poss[argmin (absX st.cells poss)]), ero.filter (· != poss[argmin (absX st.cells poss)])), ?_, rfl⟩
        unfold erosionDecide
        dsimp only
        rw [← hero, ← hposs, if_pos hb]
        refine bind_ok.mpr ⟨_, ixGet_ok.mpr hkget, rfl⟩
      · simp only [Option.isSome_some, true_iff]
        refine ⟨_, c, hc, fun hcl => ?_⟩
        subst hcl
        have hb' := hb
        rw [hxs] at hb'
        cases xs with
        | nil => exact absurd rfl hne
        | cons x t =>
          simp only [erosionBreaches, List.map_cons, List.isEmpty_cons, Bool.false_eq_true, if_false, foldl_npmin_fin] at hb'
          have h1 := (foldl_min_spec t x)
          have : t.foldl min x = |c.t.x| := le_antisymm (by
              rw [← hmc]; exact h1.2 _ (List.mem_of_getElem? hm)) (by rw [← hmc]; exact hmin _ h1.1)
          rwa [this] at hb'
      · intro k hk'
        cases hk'
        refine ⟨c, hc, ?_, hall⟩
        simp only [modifyIf, List.getElem?_mapIdx, hc.1, Option.map_some]
        simp
    · refine ⟨none, { st with cells := modifyIf (fun i => ero.contains i) (fun _ => restoreCell) st.cells }, ?_, ⟨by simp, ?_⟩, by simp⟩
      · rw [if_neg he]
        refine bind_ok.mpr ⟨(none, ero), ?_, rfl⟩
        unfold erosionDecide
        dsimp only
        rw [← hero, ← hposs, if_neg hb]
      · rintro ⟨i, c, hc, hcl⟩
        exfalso
        apply hb
        obtain ⟨k', hk'⟩ := List.mem_iff_getElem?.mp ((mp i).mpr ⟨c, hc⟩)
        have hx := List.mem_of_getElem? (hget k' i c hk' hc.1)
        rw [hxs]
        cases xs with
        | nil => simp at hx
        | cons x t =>
          cases Closed with
          | true => simp [erosionBreaches]
          | false =>
            simp only [erosionBreaches, List.map_cons, List.isEmpty_cons, Bool.false_eq_true, if_false, foldl_npmin_fin]
            have h1 := (foldl_min_spec t x).2 _ hx
            have h2 := hcl rfl
            cases he0 : st.e0.abs with
            | nan => rw [he0] at h2; simp at h2
            | ninf => rw [he0] at h2; exact absurd h2 (by simp [Fl.blt])
            | pinf => simp [Fl.blt]
            | fin e =>
              rw [he0] at h2
              simp only [blt_fin, decide_eq_true_eq] at h2 ⊢
              exact lt_of_le_of_lt h1 h2

/-- C45: a breach on a relic channel earlier in the step is kept. -/
theorem C45_kept (Closed : Bool) (X0 k : ℕ) (st : MorSt K) : ∃ st', erosionBreach Closed X0 (some k) st = .ok (some k, st') := by
  unfold erosionBreach
  by_cases he : (whereIx (fun c : Cell K => eroded c.t) st.cells).isEmpty = true
  · exact ⟨st, by simp only [he, if_true]; rfl⟩
  · exact ⟨{ st with cells := modifyIf (fun i => (whereIx (fun c : Cell K => eroded c.t) st.cells).contains i) (fun _ => restoreCell) st.cells },
      by rw [if_neg he]; rfl⟩

/-- C45: once complete erosion has opened the barrier, water that spills elsewhere in the same step does not move
the breach: the check for overtopping keeps the place, or stops on a barrier without a crest. -/
theorem C45_first (pp : PhysPars K) (Closed : Bool) (X0 k : ℕ) (conn : Option (ℤ × ℤ)) (st : MorSt K) :
    (∃ st', overtopBreach pp Closed X0 conn (some k) st = .ok (some k, st')) ∨
      overtopBreach pp Closed X0 conn (some k) st = .error .assertion := by
  by_cases ha : (!(st.cells.map crestCell).any (·.t.z0.isnan)) = true
  · left
    refine ⟨{ st with cells := st.cells.map crestCell }, ?_⟩
    unfold overtopBreach
    simp only [ha]
    rfl
  · right
    have ha' := Bool.eq_false_iff.mpr ha
    unfold overtopBreach
    simp only [ha']
    rfl

/-! ## C46, C47 -/

/-- At transect `i` water stands at `w`, above a barrier crest at `h`. -/
def SpillAt (cells : List (Cell K)) (i : ℕ) (c : Cell K) (h w : K) : Prop :=
  cells[i]? = some c ∧ Crest c.op c.t.z0 c.t.z2 h ∧ c.wl = fin w ∧ h < w

/-- Transect `i` is on the connected channel, or linked to the river through lagoon wider than `m`. -/
def Reachable (m : K) (conn : Option (ℤ × ℤ)) (cells : List (Cell K)) (X0 i : ℕ) : Prop :=
  (∃ lo hi, conn = some (lo, hi) ∧ lo ≤ i ∧ i ≤ hi) ∨ Linked (fun j => ∃ d, cells[j]? = some d ∧ (fin m <? (d.t.y3 - d.t.y4)) = true) X0 i

/-- Crest and water levels are all numbers. -/
def Levels (cells : List (Cell K)) : Prop := ∀ c ∈ cells, ∃ h w, Crest c.op c.t.z0 c.t.z2 h ∧ c.wl = fin w

theorem crest_z0 {c : Cell K} {h : K} (hc : Crest c.op c.t.z0 c.t.z2 h) : (crestCell c).t.z0 = fin h := by
  unfold Crest at hc
  unfold crestCell
  by_cases ho : c.op = true
  · rw [if_pos ho] at hc ⊢
    obtain ⟨a, b, h1, h2, rfl⟩ := hc
    simp [h1, h2]
  · rw [if_neg ho] at hc ⊢
    exact hc

theorem crest_wl (c : Cell K) : (crestCell c).wl = c.wl ∧ (crestCell c).t.y3 = c.t.y3 ∧ (crestCell c).t.y4 = c.t.y4 ∧ (crestCell c).t.x = c.t.x := by
  unfold crestCell; split <;> exact ⟨rfl, rfl, rfl, rfl⟩

theorem crest_unique {o : Bool} {a b : Fl K} {h h' : K} (h1 : Crest o a b h) (h2 : Crest o a b h') : h = h' := by
  unfold Crest at h1 h2
  split at h1
  · rename_i ho
    rw [if_pos ho] at h2
    obtain ⟨x, y, rfl, rfl, rfl⟩ := h1
    obtain ⟨x', y', e1, e2, rfl⟩ := h2
    cases e1; cases e2; rfl
  · rename_i ho
    rw [if_neg ho, h1] at h2
    cases h2; rfl

theorem mem_spill {cells : List (Cell K)} (hl : Levels cells) {i : ℕ} :
    i ∈ whereIx (fun c : Cell K => c.t.z0 <? c.wl) (cells.map crestCell) ↔ ∃ c h w, SpillAt cells i c h w := by
  rw [mem_whereIx]
  constructor
  · rintro ⟨c', hc', hs⟩
    rw [List.getElem?_map] at hc'
    obtain ⟨c, hc, rfl⟩ := Option.map_eq_some_iff.mp hc'
    obtain ⟨h, w, h1, h2⟩ := hl c (List.mem_of_getElem? hc)
    rw [crest_z0 h1, (crest_wl c).1, h2] at hs
    exact ⟨c, h, w, hc, h1, h2, by simpa using hs⟩
  · rintro ⟨c, h, w, hc, h1, h2, hs⟩
    exact ⟨crestCell c, by rw [List.getElem?_map, hc]; rfl, by rw [crest_z0 h1, (crest_wl c).1, h2]; simpa using hs⟩

theorem inConn_iff {conn : Option (ℤ × ℤ)} {i : ℕ} : inConn conn i = true ↔ ∃ lo hi, conn = some (lo, hi) ∧ lo ≤ i ∧ i ≤ hi := by
  unfold inConn
  cases conn with
  | none => simp
  | some p => obtain ⟨lo, hi⟩ := p; simp

theorem mem_cands {m : K} {conn : Option (ℤ × ℤ)} {cells : List (Cell K)} (hl : Levels cells) {X0 i : ℕ} :
    i ∈ overtopCands conn ((cells.map crestCell).map (fun c => fin m <? (c.t.y3 - c.t.y4))) X0
        (whereIx (fun c : Cell K => c.t.z0 <? c.wl) (cells.map crestCell)) ↔
      (∃ c h w, SpillAt cells i c h w) ∧ Reachable m conn cells X0 i := by
  have hr : riverLinked ((cells.map crestCell).map (fun c => fin m <? (c.t.y3 - c.t.y4))) X0 i = true ↔
      Linked (fun j => ∃ d, cells[j]? = some d ∧ (fin m <? (d.t.y3 - d.t.y4)) = true) X0 i := by
    rw [riverLinked_iff]
    unfold Linked
    simp only [List.map_map, List.getElem?_map, Option.map_eq_some_iff, Function.comp_apply, crest_wl]
  unfold overtopCands Reachable
  rw [List.mem_flatMap]
  constructor
  · rintro ⟨j, hj, hi⟩
    rw [List.mem_append] at hi
    rcases hi with hi | hi
    · split at hi
      · rename_i hc
        cases List.mem_singleton.mp hi
        exact ⟨(mem_spill hl).mp hj, Or.inl (inConn_iff.mp hc)⟩
      · simp at hi
    · split at hi
      · rename_i hc
        cases List.mem_singleton.mp hi
        exact ⟨(mem_spill hl).mp hj, Or.inr (hr.mp hc)⟩
      · simp at hi
  · rintro ⟨hs, h⟩
    refine ⟨i, (mem_spill hl).mpr hs, ?_⟩
    rw [List.mem_append]
    rcases h with h | h
    · left; rw [if_pos (inConn_iff.mpr h)]; simp
    · right; rw [if_pos (hr.mpr h)]; simp

theorem levels_assert {cells : List (Cell K)} (hl : Levels cells) : (!(cells.map crestCell).any (·.t.z0.isnan)) = true := by
  rw [Bool.not_eq_true', List.any_eq_false]
  intro c' hc'
  obtain ⟨c, hc, rfl⟩ := List.mem_map.mp hc'
  obtain ⟨h, w, h1, _⟩ := hl c hc
  rw [crest_z0 h1]
  simp

/-- C46, partial: overtopping breaches exactly when water spills at a place that can be reached from the river, and
a spill elsewhere does no harm if the lagoon is closed.  (Missing: with an open outlet the place
need not be closer to the river, and a spill elsewhere is an error; see `C46_refuted_general`.) -/
theorem C46_partial {pp : PhysPars K} {Closed : Bool} {X0 : ℕ} {conn : Option (ℤ × ℤ)} {st : MorSt K} (hl : Levels st.cells) :
    ((∃ k st', overtopBreach pp Closed X0 conn none st = .ok (some k, st')) ↔
      ∃ i c h w, SpillAt st.cells i c h w ∧ Reachable pp.MinOutletWidth conn st.cells X0 i) ∧
    ((∃ st', overtopBreach pp Closed X0 conn none st = .ok (none, st')) ↔
      (¬ ∃ i c h w, SpillAt st.cells i c h w ∧ Reachable pp.MinOutletWidth conn st.cells X0 i) ∧
        (Closed = true ∨ ¬ ∃ i c h w, SpillAt st.cells i c h w)) ∧
    (∀ e, overtopBreach pp Closed X0 conn none st = .error e ↔ e = .index ∧ Closed = false ∧
      (¬ ∃ i c h w, SpillAt st.cells i c h w ∧ Reachable pp.MinOutletWidth conn st.cells X0 i) ∧ ∃ i c h w, SpillAt st.cells i c h w) := by
  have hassert := levels_assert hl
  set poss := overtopCands conn ((st.cells.map crestCell).map (fun c => fin pp.MinOutletWidth <? (c.t.y3 - c.t.y4))) X0
    (whereIx (fun c : Cell K => c.t.z0 <? c.wl) (st.cells.map crestCell)) with hposs
  have mp : ∀ i, i ∈ poss ↔ (∃ c h w, SpillAt st.cells i c h w) ∧ Reachable pp.MinOutletWidth conn st.cells X0 i := fun i => mem_cands hl
  have ms : ∀ i, i ∈ whereIx (fun c : Cell K => c.t.z0 <? c.wl) (st.cells.map crestCell) ↔ ∃ c h w, SpillAt st.cells i c h w := fun i => mem_spill hl
  have key : overtopBreach pp Closed X0 conn none st =
      (if (whereIx (fun c : Cell K => c.t.z0 <? c.wl) (st.cells.map crestCell)).isEmpty then .ok (none, { st with cells := st.cells.map crestCell })
        else if poss.isEmpty then (if !Closed then .error .index else .ok (none, { st with cells := st.cells.map crestCell }))
        else do
          let cs ← gather (st.cells.map crestCell) poss
          let k ← ixGet poss (argmax (cs.map (fun c => c.wl - c.t.z0)))
          return (some k, { st with cells := st.cells.map crestCell })) := by
    unfold overtopBreach
    simp only [hassert]
    rfl
  have e1 : poss = [] ↔ ¬ ∃ i c h w, SpillAt st.cells i c h w ∧ Reachable pp.MinOutletWidth conn st.cells X0 i := by
    rw [List.eq_nil_iff_forall_not_mem]
    constructor
    · rintro h ⟨i, c, hh, w, h1, h2⟩
      exact h i ((mp i).mpr ⟨⟨c, hh, w, h1⟩, h2⟩)
    · intro h i hi
      obtain ⟨⟨c, hh, w, h1⟩, h2⟩ := (mp i).mp hi
      exact h ⟨i, c, hh, w, h1, h2⟩
  have e2 : whereIx (fun c : Cell K => c.t.z0 <? c.wl) (st.cells.map crestCell) = [] ↔ ¬ ∃ i c h w, SpillAt st.cells i c h w := by
    rw [List.eq_nil_iff_forall_not_mem]
    constructor
    · rintro h ⟨i, c, hh, w, h1⟩
      exact h i ((ms i).mpr ⟨c, hh, w, h1⟩)
    · intro h i hi
      obtain ⟨c, hh, w, h1⟩ := (ms i).mp hi
      exact h ⟨i, c, hh, w, h1⟩
  by_cases hs : whereIx (fun c : Cell K => c.t.z0 <? c.wl) (st.cells.map crestCell) = []
  · have hno := e2.mp hs
    have hno' : ¬ ∃ i c h w, SpillAt st.cells i c h w ∧ Reachable pp.MinOutletWidth conn st.cells X0 i :=
      fun ⟨i, c, h, w, h1, _⟩ => hno ⟨i, c, h, w, h1⟩
    rw [key, hs]
    have e1' := eq_false hno'
    have e2' := eq_false hno
    rw [e1', e2']
    simp
  · have hyes := not_not.mp (mt e2.mpr hs)
    have hs' : (whereIx (fun c : Cell K => c.t.z0 <? c.wl) (st.cells.map crestCell)).isEmpty = false := by
      rw [List.isEmpty_eq_false_iff]; exact hs
    by_cases hp : poss = []
    · have hno' := e1.mp hp
      rw [key, hs', hp]
      have e1' := eq_false hno'
      have e2' := eq_true hyes
      rw [e1', e2']
      cases Closed <;> simp [eq_comm]
    · have hyes' := not_not.mp (mt e1.mpr hp)
      have hp' : poss.isEmpty = false := by rw [List.isEmpty_eq_false_iff]; exact hp
      have hr : ∀ i ∈ poss, i < (st.cells.map crestCell).length := by
        intro i hi
        obtain ⟨⟨c, _, _, hc, _⟩, _⟩ := (mp i).mp hi
        simpa using (List.getElem?_eq_some_iff.mp hc).1
      obtain ⟨cs, hcs⟩ := gather_range hr
      have hk : argmax (cs.map (fun c => c.wl - c.t.z0)) < poss.length := by
        have := gather_length hcs
        have h2 := argmax_lt (l := cs.map (fun c => c.wl - c.t.z0)) (by
          intro e
          rw [List.map_eq_nil_iff] at e
          rw [e] at this
          exact hp (List.length_eq_zero_iff.mp this.symm))
        rw [List.length_map] at h2
        omega
      have hres : overtopBreach pp Closed X0 conn none st = .ok (some poss[argmax (cs.map (fun c => c.wl - c.t.z0))], { st with cells := st.cells.map crestCell }) := by
        rw [key, hs', hp']
        exact bind_ok.mpr ⟨cs, hcs, bind_ok.mpr ⟨_, ixGet_ok.mpr (List.getElem?_eq_getElem hk), rfl⟩⟩
      rw [hres]
      have e1' := eq_true hyes'
      rw [e1']
      simp

/-- C46 refuted, in general: with an open outlet, whenever water spills at a place that can be reached from the
river there is a breach, however far from the river; and whenever water spills only at places that cannot
be reached the step fails with an IndexError. -/
theorem C46_refuted_general {pp : PhysPars K} {X0 : ℕ} {conn : Option (ℤ × ℤ)} {st : MorSt K} (hl : Levels st.cells) {i : ℕ} {c : Cell K} {h w : K}
    (hs : SpillAt st.cells i c h w) :
    (Reachable pp.MinOutletWidth conn st.cells X0 i → ∃ k st', overtopBreach pp false X0 conn none st = .ok (some k, st')) ∧
    ((∀ i c h w, SpillAt st.cells i c h w → ¬ Reachable pp.MinOutletWidth conn st.cells X0 i) → overtopBreach pp false X0 conn none st = .error .index) := by
  obtain ⟨h1, _, h3⟩ := C46_partial (pp := pp) (Closed := false) (X0 := X0) (conn := conn) hl
  exact ⟨fun hr => h1.mpr ⟨i, c, h, w, hs, hr⟩,
    fun hno => (h3 .index).mpr ⟨rfl, rfl, fun ⟨i, c, h, w, h1, h2⟩ => hno i c h w h1 h2, ⟨i, c, h, w, hs⟩⟩⟩

/-- C47: the overtopping breach is at a spilling place that can be reached from the river, and at no other such
place is the spill deeper. -/
theorem C47_deepest {pp : PhysPars K} {Closed : Bool} {X0 k : ℕ} {conn : Option (ℤ × ℤ)} {st st' : MorSt K} (hl : Levels st.cells)
    (hr : overtopBreach pp Closed X0 conn none st = .ok (some k, st')) :
    Reachable pp.MinOutletWidth conn st.cells X0 k ∧ ∃ c h w, SpillAt st.cells k c h w ∧
      ∀ i d h' w', SpillAt st.cells i d h' w' → Reachable pp.MinOutletWidth conn st.cells X0 i → w' - h' ≤ w - h := by
  unfold overtopBreach at hr
  simp only [bind_ok] at hr
  obtain ⟨_, _, hr⟩ := hr
  split at hr
  · simp only [pure_ok] at hr; cases hr
  · split at hr
    · split at hr
      · cases hr
      · simp only [pure_ok] at hr; cases hr
    · rename_i hne
      simp only [bind_ok, ixGet_ok, pure_ok] at hr
      obtain ⟨cs, hcs, k', hk, hr⟩ := hr
      cases hr
      obtain ⟨⟨c, h, w, hsp⟩, hreach⟩ := (mem_cands hl).mp (List.mem_of_getElem? hk)
      refine ⟨hreach, c, h, w, hsp, ?_⟩
      -- depths are numbers
      have hdep : ∃ ds : List K, cs.map (fun c => c.wl - c.t.z0) = ds.map fin := by
        have : ∀ l : List (Cell K), (∀ c ∈ l, ∃ d, c.wl - c.t.z0 = fin d) → ∃ ds : List K, l.map (fun c => c.wl - c.t.z0) = ds.map fin := by
          intro l
          induction l with
          | nil => intro _; exact ⟨[], rfl⟩
          | cons a t ih =>
            intro hall
            obtain ⟨d, hd⟩ := hall a (by simp)
            obtain ⟨ds, hds⟩ := ih (fun c hc => hall c (by simp [hc]))
            exact ⟨d :: ds, by simp [hd, hds]⟩
        apply this
        intro c' hc'
        obtain ⟨i, _, hi⟩ := mem_gather hcs hc'
        rw [List.getElem?_map] at hi
        obtain ⟨c, hc, rfl⟩ := Option.map_eq_some_iff.mp hi
        obtain ⟨h, w, h1, h2⟩ := hl c (List.mem_of_getElem? hc)
        exact ⟨w - h, by rw [crest_z0 h1, (crest_wl c).1, h2]; simp⟩
      obtain ⟨ds, hds⟩ := hdep
      have depth : ∀ (j i : ℕ) d h' w', (overtopCands conn ((st.cells.map crestCell).map (fun c => fin pp.MinOutletWidth <? (c.t.y3 - c.t.y4))) X0
          (whereIx (fun c : Cell K => c.t.z0 <? c.wl) (st.cells.map crestCell)))[j]? = some i → SpillAt st.cells i d h' w' → ds[j]? = some (w' - h') := by
        intro j i d h' w' hj hd
        have hg := gather_getElem? hcs j
        rw [hj] at hg
        have : cs[j]? = some (crestCell d) := by
          rw [hg]
          simp [List.getElem?_map, hd.1]
        have h2 : (cs.map (fun c => c.wl - c.t.z0))[j]? = some (fin (w' - h')) := by
          rw [List.getElem?_map, this]
          simp [crest_z0 hd.2.1, (crest_wl d).1, hd.2.2.1]
        rw [hds, List.getElem?_map] at h2
        obtain ⟨x, hx, e⟩ := Option.map_eq_some_iff.mp h2
        cases e
        exact hx
      have hdk := depth _ _ _ _ _ hk hsp
      have hdsne : ds ≠ [] := by
        intro e; rw [e] at hdk; simp at hdk
      obtain ⟨m, hm, hmax⟩ := argmax_spec hdsne
      rw [hds, hm] at hdk
      cases hdk
      intro i d h' w' hd hri
      obtain ⟨j, hj⟩ := List.mem_iff_getElem?.mp ((mem_cands (m := pp.MinOutletWidth) (conn := conn) (X0 := X0) hl).mpr ⟨⟨d, h', w', hd⟩, hri⟩)
      exact hmax _ (List.mem_of_getElem? (depth j i d h' w' hj hd))

/-- C46 refuted: a breach at -20 m although the open outlet starts at 15 m, and an IndexError for a spill on a
disconnected part of the lagoon. -/
theorem C46_refuted :
    (∃ o, updateMorphology moPP cleanMem cleanMem brFar = .ok o ∧ o.Breach = true ∧ o.EndX0 = fin (-20) ∧ brFar.Closed = false ∧ brFar.EndX0 = fin 15) ∧
      updateMorphology moPP cleanMem cleanMem brApart = .error .index :=
  ⟨ok_witness (x := updateMorphology moPP cleanMem cleanMem brFar)
    (fun o : MorOut ℚ => o.Breach = true ∧ o.EndX0 = fin (-20) ∧ brFar.Closed = false ∧ brFar.EndX0 = fin 15) (by decide +kernel), by decide +kernel⟩

/-- State of `brIn` as the overtopping check sees it (before any movement), with high water at two transects. -/
def brSt : MorSt ℚ :=
  { cells := (brIn.rows.mapIdx (mkCell moPP brIn)).mapIdx (fun i c => if i = 2 then { c with wl := fin 6 } else if i = 3 then { c with wl := fin 7 } else c)
    e0 := fin 15, e1 := fin 24, endW := fin 6, endZ := fin (-1), ix := [6], riv := [fin 1, fin 0] }

/-- The hypothesis of C46 and C47 holds of `brSt`, with a breach at transect 3. -/
example : Levels brSt.cells := by
  intro c hc
  have h : (brSt.cells.map (fun c => (c.op, c.t.z0, c.t.z2, c.wl))) =
      [(false, fin 4, nan, fin 1), (false, fin 4, nan, fin 1), (false, fin 4, nan, fin 6), (false, fin 4, nan, fin 7), (false, fin 4, nan, fin 1),
       (false, fin 4, nan, fin 1), (true, fin 4, fin 3, fin 1), (false, fin 4, nan, fin 1), (false, fin 4, nan, fin 1)] := by decide +kernel
  have hm := List.mem_map_of_mem (f := fun c : Cell ℚ => (c.op, c.t.z0, c.t.z2, c.wl)) hc
  rw [h] at hm
  simp only [List.mem_cons, List.not_mem_nil, or_false, Prod.mk.injEq] at hm
  rcases hm with ⟨a, b, d, e⟩ | ⟨a, b, d, e⟩ | ⟨a, b, d, e⟩ | ⟨a, b, d, e⟩ | ⟨a, b, d, e⟩ | ⟨a, b, d, e⟩ | ⟨a, b, d, e⟩ | ⟨a, b, d, e⟩ | ⟨a, b, d, e⟩ <;>
    rw [a, b, d, e]
  case inr.inr.inr.inr.inr.inr.inl => exact ⟨_, _, ⟨4, 3, rfl, rfl, rfl⟩, rfl⟩
  all_goals exact ⟨_, _, rfl, rfl⟩
example : okAnd (overtopBreach moPP false 4 (some (6, 6)) none brSt) (fun r => r.1 == some 3) = true := by decide +kernel

/-- C45: the same spill does not move a breach that erosion made at transect 1. -/
example : okAnd (overtopBreach moPP false 4 (some (6, 6)) (some 1) brSt) (fun r => r.1 == some 1) = true := by decide +kernel

/-! ## C48 -/

/-- C48 refuted, in general: whatever the outcome, at a transect whose channel has an inner barrier higher than the
outer one, the check for overtopping raises the outer barrier to the height of the inner one. -/
theorem C48_refuted_general {pp : PhysPars K} {Closed : Bool} {X0 i : ℕ} {conn : Option (ℤ × ℤ)} {b b' : Option ℕ} {st st' : MorSt K} {c : Cell K} {z0 z2 : K}
    (h : overtopBreach pp Closed X0 conn b st = .ok (b', st')) (hc : st.cells[i]? = some c) (ho : c.op = true)
    (h0 : c.t.z0 = fin z0) (h2 : c.t.z2 = fin z2) (hlt : z0 < z2) :
    ∃ c', st'.cells[i]? = some c' ∧ c'.t.z0 = fin z2 ∧ c'.t.z0 ≠ c.t.z0 := by
  rw [overtop_cells h]
  refine ⟨crestCell c, by rw [List.getElem?_map, hc]; rfl, ?_⟩
  have : (crestCell c).t.z0 = fin z2 := by
    rw [crest_z0 (h := z2)]
    unfold Crest
    rw [if_pos ho]
    exact ⟨z0, z2, h0, h2, (max_eq_right hlt.le).symm⟩
  rw [this, h0]
  refine ⟨rfl, ?_⟩
  intro e
  cases e
  exact lt_irrefl _ hlt

/-- C48, partial: where no channel has an inner barrier higher than the outer one, the check for overtopping changes
nothing.  (Missing: other states, see `C48_refuted_general`.) -/
theorem C48_partial {pp : PhysPars K} {Closed : Bool} {X0 : ℕ} {conn : Option (ℤ × ℤ)} {b b' : Option ℕ} {st st' : MorSt K}
    (h : overtopBreach pp Closed X0 conn b st = .ok (b', st'))
    (hz : ∀ c ∈ st.cells, c.op = true → ∃ z0 z2, c.t.z0 = fin z0 ∧ c.t.z2 = fin z2 ∧ z2 ≤ z0) : st' = st := by
  have e := overtop_cells h
  rw [e]
  have : st.cells.map crestCell = st.cells := by
    conv_rhs => rw [← List.map_id st.cells]
    apply List.map_congr_left
    intro c hc
    unfold crestCell
    split
    · rename_i ho
      obtain ⟨z0, z2, h0, h2, hle⟩ := hz c hc ho
      rw [h0, h2, npmax_fin, max_eq_left hle, ← h0]
      rfl
    · rfl
  rw [this]

/-- C48 refuted: a step without breach that raises the outer barrier of the outlet channel by 1 m, there being no
cross-shore transport. -/
theorem C48_refuted : ∃ o, updateMorphology moPP cleanMem cleanMem brInner = .ok o ∧
    o.Breach = false ∧ (brInner.rows[6]?).map (·.z0) = some (fin 4) ∧ (o.rows[6]?).map (·.z0) = some (fin 5) ∧ brInner.CST = List.replicate 9 (fin 0) :=
  ok_witness (x := updateMorphology moPP cleanMem cleanMem brInner)
    (fun o : MorOut ℚ => o.Breach = false ∧ (brInner.rows[6]?).map (·.z0) = some (fin 4) ∧ (o.rows[6]?).map (·.z0) = some (fin 5) ∧
      brInner.CST = List.replicate 9 (fin 0)) (by decide +kernel)

/-! ## C49 -/

/-- A breach at transect `k` has created a new outlet of the lagoon in state `st'`. -/
def NewOutlet (k : ℕ) (st st' : MorSt K) : Prop :=
  ∃ c c', st.cells[k]? = some c ∧ st'.cells[k]? = some c' ∧ st'.e0 = fin c.t.x ∧ st'.e1 = fin c.t.x ∧ c'.t.y2 = c'.t.y1 - st'.endW ∧ c'.t.z2 = c.t.z0

/-- C49 refuted, in general: a breach at any but the first two transects makes a new outlet, whether or not it is on
a connected channel. -/
theorem C49_refuted_general {pp : PhysPars K} {conn : Option (ℤ × ℤ)} {k : ℕ} {st st' : MorSt K} (hk : 2 ≤ k)
    (h : createBreach pp conn (some k) st = .ok st') : NewOutlet k st st' := by
  unfold createBreach at h
  simp only [bind_ok, ixGet_ok] at h
  obtain ⟨c, hc, h⟩ := h
  have hno : inBools conn st.cells.length k = false := by
    unfold inBools
    rw [List.any_eq_false]
    intro i _
    split <;> simp <;> omega
  rw [hno] at h
  simp only [Bool.false_eq_true, if_false, pure_ok] at h
  subst h
  refine ⟨c, breachCell pp (pymax st.endW (fin (2 * pp.MinOutletWidth))) (pymin st.endZ (fin pp.MaxOutletElev)) c, hc, ?_, rfl, rfl, ?_, ?_⟩
  · simp [List.getElem?_modify, hc]
  · rfl
  · rfl

/-- C49, partial: a breach at the second transect, if that is on the connected channel, or at the first, if that
is but not all transects are, only moves the end of the outlet.  (Missing: all other transects.) -/
theorem C49_partial {pp : PhysPars K} {conn : Option (ℤ × ℤ)} {k : ℕ} {st : MorSt K} {c : Cell K} (hc : st.cells[k]? = some c)
    (hk : (k = 1 ∧ ∃ lo hi, conn = some (lo, hi) ∧ lo ≤ 1 ∧ 1 ≤ hi) ∨
      (k = 0 ∧ ∃ i < st.cells.length, ¬ ∃ lo hi : ℤ, conn = some (lo, hi) ∧ lo ≤ i ∧ (i : ℤ) ≤ hi)) :
    createBreach pp conn (some k) st = .ok { st with e1 := fin c.t.x } := by
  have hyes : inBools conn st.cells.length k = true := by
    unfold inBools
    rw [List.any_eq_true]
    rcases hk with ⟨rfl, h⟩ | ⟨rfl, i, hi, h⟩
    · refine ⟨1, List.mem_range.mpr (List.getElem?_eq_some_iff.mp hc).1, ?_⟩
      rw [if_pos (inConn_iff.mpr (by simpa using h))]
      rfl
    · refine ⟨i, List.mem_range.mpr hi, ?_⟩
      rw [if_neg (fun hh => h (inConn_iff.mp hh))]
      rfl
  unfold createBreach
  refine bind_ok.mpr ⟨c, ixGet_ok.mpr hc, ?_⟩
  rw [if_pos hyes]
  rfl

/-- C49 refuted: water spills over the barrier of the outlet channel itself at 20 m; the outlet, which started at 15 m, is
replaced by a new one starting at 20 m. -/
theorem C49_refuted : ∃ o, updateMorphology moPP cleanMem cleanMem brChan = .ok o ∧
    o.Breach = true ∧ brChan.outlet = [6] ∧ brChan.EndX0 = fin 15 ∧ o.EndX0 = fin 20 ∧ o.EndX1 = fin 20 :=
  ok_witness (x := updateMorphology moPP cleanMem cleanMem brChan)
    (fun o : MorOut ℚ => o.Breach = true ∧ brChan.outlet = [6] ∧ brChan.EndX0 = fin 15 ∧ o.EndX0 = fin 20 ∧ o.EndX1 = fin 20) (by decide +kernel)

/-- A case of the partial theorem. -/
example : okAnd (createBreach moPP (some (1, 6)) (some 1) brSt) (fun s => s.e0 == fin 15 && s.e1 == fin (-30)) = true := by decide +kernel

/-! ## C50 -/

/-- The channel of width `w` at transect `r` fits between lagoon, cliff and a spit of width `spit`. -/
def Fits (r : Transect K) (w spit : K) : Prop :=
  ∃ y0 y1 y2 y3 y4, r.y0 = fin y0 ∧ r.y1 = fin y1 ∧ r.y2 = fin y2 ∧ r.y3 = fin y3 ∧ r.y4 = fin y4 ∧
    y1 - y2 = w ∧ y1 ≤ y0 - spit ∧ y3 < y2 ∧ y4 < y2

theorem breach_fits {pp : PhysPars K} {c : Cell K} {w y0 y3 y4 : K} (z : Fl K) (hy0 : c.t.y0 = fin y0) (hy3 : c.t.y3 = fin y3) (hy4 : c.t.y4 = fin y4) :
    Fits (breachCell pp (fin w) z c).t w pp.SpitWidth := by
  set y1 := min (y0 - pp.SpitWidth) ((y0 + y3) / 2 + w / 2)
  have e : (2 : K) ≠ 0 := two_ne_zero
  have h1 : (breachCell pp (fin w) z c).t.y1 = fin y1 := by
    simp [breachCell, hy0, hy3, div_fin _ _ e, y1]
  have h2 : (breachCell pp (fin w) z c).t.y2 = fin (y1 - w) := by
    have : (breachCell pp (fin w) z c).t.y2 = (breachCell pp (fin w) z c).t.y1 - fin w := rfl
    rw [this, h1, sub_fin]
  have h3 : (breachCell pp (fin w) z c).t.y3 = fin (if y1 - w ≤ y3 then y1 - w - 1 / 1000 else y3) := by
    have : (breachCell pp (fin w) z c).t.y3 =
        if (breachCell pp (fin w) z c).t.y2 ≤? c.t.y3 then (breachCell pp (fin w) z c).t.y2 - fin (1 / 1000) else c.t.y3 := rfl
    rw [this, h2, hy3]
    simp only [ble_fin, decide_eq_true_eq, sub_fin]
    split <;> rfl
  have h4 : (breachCell pp (fin w) z c).t.y4 = fin (if y1 - w ≤ y4 then y1 - w - 1 / 1000 else y4) := by
    have : (breachCell pp (fin w) z c).t.y4 =
        if (breachCell pp (fin w) z c).t.y2 ≤? c.t.y4 then (breachCell pp (fin w) z c).t.y2 - fin (1 / 1000) else c.t.y4 := rfl
    rw [this, h2, hy4]
    simp only [ble_fin, decide_eq_true_eq, sub_fin]
    split <;> rfl
  have hpos : (0 : K) < 1 / 1000 := by norm_num
  refine ⟨y0, y1, y1 - w, _, _, hy0, h1, h2, h3, h4, by ring, min_le_left _ _, ?_, ?_⟩
  · split
    · linarith
    · rename_i h; exact not_le.mp h
  · split
    · linarith
    · rename_i h; exact not_le.mp h

theorem keep_fits {pp : PhysPars K} {c : Cell K} {w : K} (hmin : 0 ≤ pp.MinOutletWidth) (h : Fits c.t w pp.SpitWidth) : Fits (keepCell pp c).t w pp.SpitWidth := by
  unfold keepCell
  split
  · obtain ⟨y0, y1, y2, y3, y4, h0, h1, h2, h3, h4, hw, hs, a, b⟩ := h
    have hpos : (0 : K) < 1 / 1000 := by norm_num
    refine ⟨y0, y1, y2, y3, y3 - pp.MinOutletWidth - 1 / 1000, h0, h1, h2, h3, by simp [h3], hw, hs, a, by linarith⟩
  · exact h

/-- C50: a newly created outlet.  A breach at transect `k` that does not re-use a channel (see C49 for what the code
takes that to mean), followed by the end of the step.  Shoreline, lagoon edge and cliff at `k`, outlet end width and bed
level are numbers. -/
theorem C50_viable {pp : PhysPars K} {conn : Option (ℤ × ℤ)} {k X0 : ℕ} {st s1 s2 : MorSt K} {c : Cell K} {y0 y3 y4 w0 z0 : K}
    (h : createBreach pp conn (some k) st = .ok s1) (hf : finishStage pp X0 s1 = .ok s2)
    (hc : st.cells[k]? = some c)
    (hnew : 2 ≤ k ∨ (k = 1 ∧ conn = none) ∨ (k = 0 ∧ ∃ lo hi, conn = some (lo, hi) ∧ lo ≤ 0 ∧ st.cells.length ≤ hi + 1))
    (hy0 : c.t.y0 = fin y0) (hy3 : c.t.y3 = fin y3) (hy4 : c.t.y4 = fin y4) (hw : st.endW = fin w0) (hz : st.endZ = fin z0)
    (hmin : 0 ≤ pp.MinOutletWidth) :
    ∃ r w z, s2.cells[k]? = some r ∧ s2.e0 = fin r.t.x ∧ s2.e1 = fin r.t.x ∧ s2.endW = fin w ∧ s2.endZ = fin z ∧
      2 * pp.MinOutletWidth ≤ w ∧ w0 ≤ w ∧ z ≤ pp.MaxOutletElev ∧ z ≤ z0 ∧ Fits r.t w pp.SpitWidth := by
  obtain ⟨ef, _⟩ := finish_inv hf
  unfold createBreach at h
  simp only [bind_ok, ixGet_ok] at h
  obtain ⟨c', hc', h⟩ := h
  rw [hc] at hc'
  cases hc'
  have hno : inBools conn st.cells.length k = false := by
    unfold inBools
    rw [List.any_eq_false]
    intro i hi
    rcases hnew with hk | ⟨rfl, rfl⟩ | ⟨rfl, lo, hi', rfl, h1, h2⟩
    · split <;> simp <;> omega
    · simp [inConn]
    · have := List.mem_range.mp hi
      have : inConn (some (lo, hi')) i = true := inConn_iff.mpr ⟨lo, hi', rfl, by omega, by omega⟩
      simp [this]
  rw [hno] at h
  simp only [Bool.false_eq_true, if_false, pure_ok, hw, hz, pymax_fin, pymin_fin] at h
  have hbf := breach_fits (pp := pp) (w := max w0 (2 * pp.MinOutletWidth)) (fin (min z0 pp.MaxOutletElev)) hy0 hy3 hy4
  have hg : s2.cells[k]? = some (if X0 = k then keepCell pp (breachCell pp (fin (max w0 (2 * pp.MinOutletWidth))) (fin (min z0 pp.MaxOutletElev)) c)
      else breachCell pp (fin (max w0 (2 * pp.MinOutletWidth))) (fin (min z0 pp.MaxOutletElev)) c) := by
    rw [ef, ← h]
    simp only [List.getElem?_modify, hc, if_pos rfl, Option.map_eq_map, Option.map_some]
    split <;> rfl
  have hx : ∀ c : Cell K, (keepCell pp c).t.x = c.t.x := by intro c; unfold keepCell; split <;> rfl
  have e0 : s2.e0 = fin c.t.x := by rw [ef, ← h]
  have e1 : s2.e1 = fin c.t.x := by rw [ef, ← h]
  refine ⟨_, max w0 (2 * pp.MinOutletWidth), min z0 pp.MaxOutletElev, hg, ?_, ?_, by rw [ef, ← h], by rw [ef, ← h],
    le_max_right _ _, le_max_left _ _, min_le_right _ _, min_le_left _ _, ?_⟩
  · rw [e0]; split
    · rw [hx]; rfl
    · rfl
  · rw [e1]; split
    · rw [hx]; rfl
    · rfl
  · split
    · exact keep_fits hmin hbf
    · exact hbf

/-- The hypotheses of C50 hold for the breach of `brSt` at transect 3. -/
example : okAnd (createBreach moPP (some (6, 6)) (some 3) brSt) (fun s => okAnd (finishStage moPP 4 s) (fun s => s.e0 == fin (-10))) = true ∧
    (brSt.cells[3]?).map (fun c => (c.t.y0, c.t.y3, c.t.y4)) = some (fin 100, fin 20, fin 0) := by decide +kernel

/-- C50 for a whole step: after a step with a breach, the outlet ends at some transect; and unless that is one of
the first two, the outlet also starts there and, if the resulting values are numbers, it is viable. -/
theorem C50_step {pp : PhysPars K} {j1 j2 : ℕ → Bool} {a : MorIn K} {o : MorOut K} (h : updateMorphology pp j1 j2 a = .ok o) (hb : o.Breach = true) :
    ∃ (k : ℕ) (r : Transect K), o.rows[k]? = some r ∧ o.EndX1 = fin r.x ∧
      (2 ≤ k → o.EndX0 = fin r.x ∧ r.y2 = r.y1 - o.EndWidth ∧ r.z2 = r.z0 ∧
        (∀ w, o.EndWidth = fin w → 2 * pp.MinOutletWidth ≤ w) ∧ (∀ z, o.EndElev = fin z → z ≤ pp.MaxOutletElev) ∧
        (∀ y0 y1 w y3, r.y0 = fin y0 → r.y1 = fin y1 → o.EndWidth = fin w → r.y3 = fin y3 → y1 ≤ y0 - pp.SpitWidth ∧ y3 < y1 - w)) := by
  obtain ⟨X0, s0, s1, s2, s3, h0, h1, h2, h3, er, e0, e1, ew, ez, _⟩ := update_inv h
  obtain ⟨ef, hfin⟩ := finish_inv h3
  unfold breachStage at h2
  simp only [bind_ok] at h2
  obtain ⟨⟨conn, t1⟩, g1, ⟨b2, t2⟩, g2, ⟨b3, t3⟩, g3, ⟨b4, t4⟩, g4, t5, g5, g6⟩ := h2
  simp only [pure_ok] at g6
  have hB : b4.isSome = true := by rw [Prod.mk.injEq] at g6; rw [g6.1]; exact hb
  have hst : s2 = t5 := by rw [Prod.mk.injEq] at g6; exact g6.2.symm
  subst hst
  obtain ⟨k, rfl⟩ := Option.isSome_iff_exists.mp hB
  have hx : ∀ c : Cell K, (keepCell pp c).t.x = c.t.x := by intro c; unfold keepCell; split <;> rfl
  by_cases hk : 2 ≤ k
  · obtain ⟨c, c', hc, hc', q0, q1, q2, q3⟩ := C49_refuted_general hk g5
    unfold createBreach at g5
    simp only [bind_ok, ixGet_ok] at g5
    obtain ⟨c1, hc1, g5⟩ := g5
    rw [hc] at hc1; cases hc1
    have hno : inBools conn t4.cells.length k = false := by
      unfold inBools
      rw [List.any_eq_false]
      intro i _
      split <;> simp <;> omega
    rw [hno] at g5
    simp only [Bool.false_eq_true, if_false, pure_ok] at g5
    have hW : s3.endW = pymax t4.endW (fin (2 * pp.MinOutletWidth)) := by rw [ef, ← g5]
    have hZ : s3.endZ = pymin t4.endZ (fin pp.MaxOutletElev) := by rw [ef, ← g5]
    have hcell : s3.cells[k]? = some (if X0 = k then keepCell pp (breachCell pp s3.endW s3.endZ c) else breachCell pp s3.endW s3.endZ c) := by
      rw [hW, hZ, ef, ← g5]
      simp only [List.getElem?_modify, hc, if_pos rfl, Option.map_eq_map, Option.map_some]
      split <;> rfl
    have hrow : ∀ (p : Transect K → Prop), p (breachCell pp s3.endW s3.endZ c).t → (∀ y, p (breachCell pp s3.endW s3.endZ c).t → p { (breachCell pp s3.endW s3.endZ c).t with y4 := y }) →
        ∃ r, s3.cells[k]? = some r ∧ p r.t := by
      intro p hp hy
      refine ⟨_, hcell, ?_⟩
      split
      · unfold keepCell; split
        · exact hy _ hp
        · exact hp
      · exact hp
    obtain ⟨r, hr, hp⟩ := hrow (fun r => r.x = c.t.x ∧ r.y0 = c.t.y0 ∧ r.y1 = (breachCell pp s3.endW s3.endZ c).t.y1 ∧ r.y2 = r.y1 - s3.endW ∧ r.z2 = r.z0 ∧
      r.y3 = (breachCell pp s3.endW s3.endZ c).t.y3) ⟨rfl, rfl, rfl, rfl, rfl, rfl⟩ (fun y h => h)
    obtain ⟨p1, p2, p3, p4, p5, p6⟩ := hp
    refine ⟨k, r.t, by rw [er, List.getElem?_map, hr]; rfl, ?_, fun _ => ⟨?_, by rw [ew, p4], p5, ?_, ?_, ?_⟩⟩
    · rw [e1, ef, ← g5, p1]
    · rw [e0, ef, ← g5, p1]
    · intro w hw
      rw [ew, hW] at hw
      unfold pymax at hw
      split at hw
      · cases hw; exact le_refl _
      · rename_i hlt
        rw [hw] at hlt
        simpa using hlt
    · intro z hz
      rw [ez, hZ] at hz
      unfold pymin at hz
      split at hz
      · cases hz; exact le_refl _
      · rename_i hlt
        rw [hz] at hlt
        simpa using hlt
    · intro y0 y1 w y3 a0 a1 aw a3
      rw [ew] at aw
      rw [p2] at a0
      rw [p3] at a1
      rw [p6] at a3
      constructor
      · have : (breachCell pp s3.endW s3.endZ c).t.y1 = pymin (c.t.y0 - fin pp.SpitWidth) ((c.t.y0 + c.t.y3) / fin 2 + s3.endW / fin 2) := rfl
        rw [this, a0, sub_fin] at a1
        unfold pymin at a1
        split at a1
        · rename_i hlt
          rw [a1] at hlt
          exact le_of_lt (by simpa using hlt)
        · cases a1; exact le_refl _
      · have e2 : (breachCell pp s3.endW s3.endZ c).t.y2 = fin (y1 - w) := by
          have : (breachCell pp s3.endW s3.endZ c).t.y2 = (breachCell pp s3.endW s3.endZ c).t.y1 - s3.endW := rfl
          rw [this, a1, aw, sub_fin]
        have e3 : (breachCell pp s3.endW s3.endZ c).t.y3 =
          if (breachCell pp s3.endW s3.endZ c).t.y2 ≤? c.t.y3 then (breachCell pp s3.endW s3.endZ c).t.y2 - fin (1 / 1000) else c.t.y3 := rfl
        rw [e3, e2] at a3
        have hpos : (0 : K) < 1 / 1000 := by norm_num
        split at a3
        · rw [sub_fin] at a3
          cases a3
          linarith
        · rename_i hle
          rw [a3] at hle
          simp only [ble_fin, decide_eq_true_eq, not_le] at hle
          exact hle
  · unfold createBreach at g5
    simp only [bind_ok, ixGet_ok] at g5
    obtain ⟨c, hc, g5⟩ := g5
    have hsame := (create_rel (sameX_breach pp) (conn := conn) (b := some k) (st := t4) (st' := s2) (by
      unfold createBreach; exact bind_ok.mpr ⟨c, ixGet_ok.mpr hc, g5⟩))
    obtain ⟨c', hc', hxx⟩ := forall₂_get hsame hc
    have he1 : s2.e1 = fin c.t.x := by
      split at g5
      · simp only [pure_ok] at g5; rw [← g5]
      · simp only [pure_ok] at g5; rw [← g5]
    refine ⟨k, (if X0 = k then keepCell pp c' else c').t, ?_, ?_, fun h => absurd h hk⟩
    · rw [er, List.getElem?_map, ef]
      simp only [List.getElem?_modify, hc', Option.map_eq_map, Option.map_some]
    · rw [e1, ef]
      show s2.e1 = _
      rw [he1]
      have : (if X0 = k then keepCell pp c' else c').t.x = c'.t.x := by split <;> simp [hx]
      rw [this]
      exact congrArg fin hxx.symm

/-- A whole step with a new outlet at transect 2. -/
example : okAnd (updateMorphology moPP cleanMem cleanMem brFar) (fun o => o.Breach && o.EndX0 == fin (-20) && o.EndX1 == fin (-20)) = true := by decide +kernel

end Verif.Props
