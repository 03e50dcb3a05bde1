import Verif.Spec.Offline
import Verif.Lemmas.Offline
import Verif.Props.ChannelArea
import Mathlib.Tactic.LinearCombination

set_option autoImplicit false
set_option linter.unusedSectionVars false

/-! # C191 and C192: the length of the lagoon, and where the lagoon outside the channel is attached -/

namespace Verif.Props
open Verif Verif.Model Verif.Spec Fl

variable {K : Type} [Field K] [LinearOrder K] [IsStrictOrderedRing K]

theorem sum_wetOne (W : Transect K → K) (l : List (Transect K)) : (l.map (wetOne W)).sum = ((l.countP (fun r => decide (0 < W r)) : ℕ) : K) := by
  induction l with
  | nil => simp
  | cons r l ih =>
    rw [List.map_cons, List.sum_cons, ih, List.countP_cons]
    by_cases h : 0 < W r
    · simp [wetOne, h, add_comm]
    · simp [wetOne, h]

variable [FloorRing K]

/-- The offline areas and lengths after the cut. -/
theorem offline_sums {pp : PhysPars K} {a : ChanIn K} {out : ChanOut K} {W : Transect K → K}
    {X0 : ℕ} {r0 : Transect K} {w : List (Fl K)} {C1 : Bool} {s1 s : LagStage K} {onRows outRows : List (Transect K)}
    (hs : a.rows.Pairwise (fun r s => r.x < s.x))
    (hW : ∀ r ∈ a.rows, r.y3 - r.y4 = fin (W r) ∧ 0 ≤ W r)
    (H : Assembled pp a out X0 r0 w C1 s1 s onRows outRows)
    (hinline : (a.EndX0 ==? fin 0) = false)
    (hat : a.Closed = false → ∀ r ∈ a.rows, (fin r.x ==? a.EndX0) = false) :
    ∃ j last, s.online.getLast? = some j ∧ a.rows[j]? = some last ∧
      s.startArea = fin (planArea W a.Dx (behindRiver (fin 0 <? a.EndX0) a.rows)) ∧
      s.startLen = fin (wetLength W a.Dx (behindRiver (fin 0 <? a.EndX0) a.rows)) ∧
      s.endArea = fin (planArea W a.Dx (beyondX (fin 0 <? a.EndX0) last.x a.rows)) ∧
      s.endLen = fin (wetLength W a.Dx (beyondX (fin 0 <? a.EndX0) last.x a.rows)) ∧
      ∀ V : Transect K → K, ((behindRiver (fin 0 <? a.EndX0) a.rows).map V).sum + (onRows.map V).sum +
        ((beyondX (fin 0 <? a.EndX0) last.x a.rows).map V).sum = (a.rows.map V).sum := by
  obtain ⟨_, rows1, hr1, hne, hsa, hsl, _, hc⟩ := cut_inv H.cut
  have hC1 : C1 = false → a.Closed = false := by
    intro hC
    rcases outlet_inv H.outlet with ⟨_, _, h3⟩ | ⟨h3, _⟩
    · rw [hC] at h3; cases h3
    · exact h3
  obtain ⟨e, he1, he2, hsides⟩ := lagoon_lists (W := W) hs H.x0 hW hinline (fun hC => hat (hC1 hC)) (by
    intro r hr
    rw [H.hr0] at hr; cases hr
    have := H.w0
    rw [show lagWidth r0 = fin (W r0) from (hW r0 (List.mem_of_getElem? H.hr0)).1] at this
    simpa using this) H.lag
  obtain ⟨q, hq, hq0⟩ := x0_row H.x0
  have hA : ∀ l : List (Transect K), (∀ r ∈ l, r ∈ a.rows) → lagAreaOf a.Dx l = fin (planArea W a.Dx l) := fun l hl => by
    rw [lagAreaOf_fin a.Dx W l (fun r hr => (hW r (hl r hr)).1), planArea, mul_comm]
  have hL : ∀ l : List (Transect K), (∀ r ∈ l, r ∈ a.rows) → lagLenOf a.Dx l = fin (wetLength W a.Dx l) := fun l hl => by
    rw [lagLenOf_fin a.Dx W l (fun r hr => (hW r (hl r hr)).1), wetLength, mul_comm, sum_wetOne]
  have hrow1 : ∀ r ∈ rows1, r ∈ a.rows := fun r hr => by
    obtain ⟨i, _, hi⟩ := mem_gather hr1 hr
    exact List.mem_of_getElem? hi
  have hlastrow : ∀ j, s.online.getLast? = some j → ∃ r, a.rows[j]? = some r := by
    intro j hj
    obtain ⟨r, hr, _⟩ := gather_mem H.hon (List.mem_of_getLast? hj)
    exact ⟨r, hr⟩
  -- how the amounts at the end come about
  have hend : ∀ b : List (Transect K), (∀ V : Transect K → K, (∀ r ∈ a.rows, W r = 0 → V r = 0) →
        (b.map V).sum = (e.map V).sum + (rows1.map V).sum - (onRows.map V).sum) → (∀ r ∈ e, r ∈ a.rows) →
      s.endArea = fin (planArea W a.Dx b) ∧ s.endLen = fin (wetLength W a.Dx b) := by
    intro b hb hemem
    have hbW := hb W (fun _ _ h => h)
    have hbL := hb (wetOne W) (fun r _ h => by simp [wetOne, h])
    rw [sum_wetOne] at hbL
    rcases hc with ⟨rfl, _, _⟩ | ⟨k, r, _, _, hk, _, _, _, hea, hel⟩
    · have : onRows = rows1 := by
        have := H.hon; rw [hr1] at this; cases this; rfl
      subst this
      rw [he1, he2, hA e hemem, hL e hemem]
      simp only [planArea, wetLength, hbL, hbW, sum_wetOne]
      constructor <;> congr 2 <;> ring
    · have h1 := gather_take k hr1
      rw [← hk, H.hon] at h1
      cases h1
      have hsp : ∀ V : Transect K → K, (rows1.map V).sum = ((rows1.take k).map V).sum + ((rows1.drop k).map V).sum := by
        intro V; rw [← List.sum_append, ← List.map_append, List.take_append_drop]
      have hdm : ∀ r ∈ rows1.drop k, r ∈ a.rows := fun r hr => hrow1 r (List.mem_of_mem_drop hr)
      rw [hea, hel, he1, he2, hA e hemem, hL e hemem, hA _ hdm, hL _ hdm, add_fin, add_fin]
      have e1 := hsp W
      have e2 := hsp (wetOne W)
      simp only [planArea, wetLength, hbL, hbW]
      rw [e1, e2]
      simp only [sum_wetOne]
      constructor <;> congr 1 <;> ring
  rcases hsides with ⟨hpos, hs1, hs2, l, hXl, hon1, hel⟩ | ⟨hpos, hs1, hs2, l, hXl, hon1, hel⟩
  · -- outlet to the right
    have hm : ∃ m, X0 < m ∧ s.online = arangeUp X0 m := by
      rcases hc with ⟨rfl, _, _⟩ | ⟨k, r, _, hk0, hk, hkr, _⟩
      · exact ⟨l, hXl, hon1⟩
      · have hkl : k < l - X0 := by
          have := (List.getElem?_eq_some_iff.mp hkr).1
          rw [gather_length hr1, hon1, arangeUp_length] at this
          exact this
        exact ⟨X0 + k, by omega, by rw [hk, hon1, arangeUp_take _ _ _ (by omega)]⟩
    obtain ⟨m, hXm, hon⟩ := hm
    have hj : s.online.getLast? = some (m - 1) := by rw [hon]; exact arangeUp_getLast _ _ hXm
    obtain ⟨last, hlast⟩ := hlastrow _ hj
    have hbeh : behindRiver (fin 0 <? a.EndX0) a.rows = a.rows.take X0 := by
      rw [hpos]
      apply filter_lt_take hs
      intro i r hi
      simp only [if_true, decide_eq_true_eq]
      rw [← hq0]; exact SortedX.lt hs hi hq
    have hbey : beyondX (fin 0 <? a.EndX0) last.x a.rows = a.rows.drop m := by
      rw [hpos]
      apply filter_gt_drop hs
      intro i r hi
      simp only [if_true, decide_eq_true_eq]
      rw [SortedX.lt hs hlast hi]; omega
    have hg := H.hon
    rw [hon] at hg
    rw [hon1] at hr1
    have hem : ∀ r ∈ e, r ∈ a.rows := by
      rcases hel with rfl | ⟨rfl, _⟩
      · exact fun r hr => List.mem_of_mem_drop hr
      · intro r hr; cases hr
    have := hend (a.rows.drop m) (by
      intro V hV
      have h1 := split_up V _ _ hXl.le hr1
      have h2 := split_up V _ _ hXm.le hg
      have h3 : (e.map V).sum = ((a.rows.drop l).map V).sum := by
        rcases hel with rfl | ⟨rfl, hz⟩
        · rfl
        · have : (a.rows.drop l).map V = (a.rows.drop l).map (fun _ => (0:K)) :=
            List.map_congr_left (fun r hr => hV r (List.mem_of_mem_drop hr) (hz r hr))
          rw [this]; simp
      rw [h3]; linear_combination h2 - h1) hem
    refine ⟨m - 1, last, hj, hlast, ?_, ?_, ?_, ?_, ?_⟩
    · rw [hsa, hs1, hbeh]; exact hA _ (fun r hr => List.mem_of_mem_take hr)
    · rw [hsl, hs2, hbeh]; exact hL _ (fun r hr => List.mem_of_mem_take hr)
    · rw [hbey]; exact this.1
    · rw [hbey]; exact this.2
    · intro V; rw [hbey, hbeh]; exact split_up V _ _ hXm.le hg
  · -- outlet to the left
    have hm : ∃ m, m ≤ X0 ∧ s.online = arangeDown X0 m := by
      rcases hc with ⟨rfl, _, _⟩ | ⟨k, r, _, hk0, hk, hkr, _⟩
      · exact ⟨l, hXl, hon1⟩
      · have hkl : k < X0 + 1 - l := by
          have := (List.getElem?_eq_some_iff.mp hkr).1
          rw [gather_length hr1, hon1, arangeDown_length] at this
          exact this
        exact ⟨X0 + 1 - k, by omega, by rw [hk, hon1, arangeDown_take _ _ _ (by omega)]⟩
    obtain ⟨m, hXm, hon⟩ := hm
    have hj : s.online.getLast? = some m := by rw [hon]; exact arangeDown_getLast _ _ hXm
    obtain ⟨last, hlast⟩ := hlastrow _ hj
    have hbeh : behindRiver (fin 0 <? a.EndX0) a.rows = a.rows.drop (X0 + 1) := by
      rw [hpos]
      apply filter_gt_drop hs
      intro i r hi
      simp only [Bool.false_eq_true, if_false, decide_eq_true_eq]
      rw [← hq0]; exact (SortedX.lt hs hq hi).trans (by omega)
    have hbey : beyondX (fin 0 <? a.EndX0) last.x a.rows = a.rows.take m := by
      rw [hpos]
      apply filter_lt_take hs
      intro i r hi
      simp only [Bool.false_eq_true, if_false, decide_eq_true_eq]
      rw [SortedX.lt hs hi hlast]
    have hg := H.hon
    rw [hon] at hg
    rw [hon1] at hr1
    have hem : ∀ r ∈ e, r ∈ a.rows := by
      rcases hel with rfl | ⟨rfl, _⟩
      · exact fun r hr => List.mem_of_mem_take hr
      · intro r hr; cases hr
    have := hend (a.rows.take m) (by
      intro V hV
      have h1 := split_down V _ _ (by omega) hr1
      have h2 := split_down V _ _ (by omega) hg
      have h3 : (e.map V).sum = ((a.rows.take l).map V).sum := by
        rcases hel with rfl | ⟨rfl, hz⟩
        · rfl
        · have : (a.rows.take l).map V = (a.rows.take l).map (fun _ => (0:K)) :=
            List.map_congr_left (fun r hr => hV r (List.mem_of_mem_take hr) (hz r hr))
          rw [this]; simp
      rw [h3]; linear_combination h2 - h1) hem
    refine ⟨m, last, hj, hlast, ?_, ?_, ?_, ?_, ?_⟩
    · rw [hsa, hs1, hbeh]; exact hA _ (fun r hr => List.mem_of_mem_drop hr)
    · rw [hsl, hs2, hbeh]; exact hL _ (fun r hr => List.mem_of_mem_drop hr)
    · rw [hbey]; exact this.1
    · rw [hbey]; exact this.2
    · intro V; rw [hbey, hbeh]; exact split_down V _ _ (by omega) hg

/-- The flags of the sections: river, lagoon, then outlet. -/
theorem flag_len (Dx : K) (nr no : ℕ) (rest : List ℕ) (hrest : ∀ f ∈ rest, f ≠ 1) (k : ℕ) (hk : k < nr + no + rest.length) :
    ((List.replicate nr 0 ++ List.replicate no 1 ++ rest).map (fun f => if f = 1 then (fin Dx : Fl K) else fin 0))[k]? =
      some (fin (if nr ≤ k ∧ k < nr + no then Dx else 0)) := by
  rw [List.getElem?_map]
  by_cases h1 : k < nr
  · rw [List.append_assoc, List.getElem?_append_left (by simpa using h1), List.getElem?_replicate]
    simp [h1, show ¬ nr ≤ k by omega]
  · by_cases h2 : k < nr + no
    · rw [List.getElem?_append_left (by simpa using h2), List.getElem?_append_right (by simpa using h1), List.getElem?_replicate]
      simp [h1, h2, show nr ≤ k by omega, show k - nr < no by omega]
    · rw [List.getElem?_append_right (by simp; omega)]
      simp only [List.length_append, List.length_replicate]
      have h3 : k - (nr + no) < rest.length := by omega
      rw [List.getElem?_eq_getElem h3]
      simp [h2, hrest _ (List.getElem_mem h3)]

theorem entry_add (l : List (Fl K)) (nr no k : ℕ) (b A B : K) (hno : 0 < no) (h : l[k]? = some (fin b)) :
    (addAt (addAt l nr (fin A)) (nr + no - 1) (fin B))[k]? =
      some (fin (b + (if k = nr then A else 0) + (if k + 1 = nr + no then B else 0))) := by
  unfold addAt
  rw [List.getElem?_modify, List.getElem?_modify, h]
  by_cases h1 : nr = k
  · by_cases h2 : nr + no - 1 = k
    · rw [if_pos h1.symm, if_pos (show k + 1 = nr + no by omega)]
      simp [h1, h2, show k + no - 1 = k by omega]
    · rw [if_pos h1.symm, if_neg (show ¬ k + 1 = nr + no by omega)]
      simp [h1, show ¬ k + no - 1 = k by omega]
  · by_cases h2 : nr + no - 1 = k
    · rw [if_neg (Ne.symm h1), if_pos (show k + 1 = nr + no by omega)]
      simp [h1, h2]
    · rw [if_neg (Ne.symm h1), if_neg (show ¬ k + 1 = nr + no by omega)]
      simp [h1, h2]

theorem entry_set (n nr no k : ℕ) (A B : K) (hno : 2 ≤ no) (hk : k < n) :
    (setAt (setAt (List.replicate n (fin 0)) nr (fin A)) (nr + no - 1) (fin B))[k]? =
      some (fin (if k = nr then A else if k + 1 = nr + no then B else 0)) := by
  unfold setAt
  rw [List.getElem?_set, List.getElem?_set]
  by_cases h1 : nr = k
  · rw [if_neg (show ¬ nr + no - 1 = k by omega), if_pos h1, if_pos h1.symm]
    simp; omega
  · by_cases h2 : nr + no - 1 = k
    · rw [if_pos h2, if_neg (Ne.symm h1), if_pos (show k + 1 = nr + no by omega)]
      simp; omega
    · rw [if_neg h2, if_neg h1, if_neg (Ne.symm h1), if_neg (show ¬ k + 1 = nr + no by omega)]
      simp [hk]

/-- C192, partial: the lagoon outside the channel is attached to the nearest section of the
channel.  With lagoon widths `W` that are non-negative numbers, an outlet not starting in line with
the river, and no transect exactly at the upstream end of an open outlet:

* the length of lagoon at a section is `Dx` for a lagoon section and zero elsewhere, plus, at the
  first lagoon section, the wet length on the other side of the river, plus, at the last lagoon
  section, the wet length beyond it;
* with at least two lagoon sections the extra area is that on the other side of the river at the
  first, that beyond at the last, and zero elsewhere.

Missing: the case of an outlet in line with the river and of a single lagoon section (for the
area), in which it fails (below), and of a transect exactly at the end of the outlet (C191). -/
theorem C192_partial (pp : PhysPars K) (a : ChanIn K) (out : ChanOut K) (W : Transect K → K)
    (hs : a.rows.Pairwise (fun r s => r.x < s.x))
    (hW : ∀ r ∈ a.rows, r.y3 - r.y4 = fin (W r) ∧ 0 ≤ W r)
    (h : assembleChannel pp a = .ok out)
    (hinline : (a.EndX0 ==? fin 0) = false)
    (hat : a.Closed = false → ∀ r ∈ a.rows, (fin r.x ==? a.EndX0) = false) :
    ∃ j last, out.online.getLast? = some j ∧ a.rows[j]? = some last ∧ ∀ k, k < out.elev.length →
      out.lagLen[k]? = some (fin (
        (if a.RiverElev.length ≤ k ∧ k < a.RiverElev.length + out.online.length then a.Dx else 0) +
        (if k = a.RiverElev.length then wetLength W a.Dx (behindRiver (fin 0 <? a.EndX0) a.rows) else 0) +
        (if k + 1 = a.RiverElev.length + out.online.length then wetLength W a.Dx (beyondX (fin 0 <? a.EndX0) last.x a.rows) else 0))) ∧
      (2 ≤ out.online.length → out.lagArea[k]? = some (fin (
        if k = a.RiverElev.length then planArea W a.Dx (behindRiver (fin 0 <? a.EndX0) a.rows)
        else if k + 1 = a.RiverElev.length + out.online.length then planArea W a.Dx (beyondX (fin 0 <? a.EndX0) last.x a.rows) else 0))) := by
  obtain ⟨X0, r0, w, C1, s1, s, onRows, outRows, H⟩ := assemble_inv h
  obtain ⟨j, last, hj, hlast, hsa, hsl, hea, hel, _⟩ := offline_sums hs hW H hinline hat
  obtain ⟨_, _, _, hne, _⟩ := cut_inv H.cut
  have hno : 0 < s.online.length := List.length_pos_iff.mpr hne
  refine ⟨j, last, by rw [H.online]; exact hj, hlast, ?_⟩
  intro k hk
  have hlens := H.lens
  have hg := H.geom
  unfold chanGeom at hg
  simp only [Prod.mk.injEq] at hg
  obtain ⟨_, hflag, helev, _, harea, hlen⟩ := hg
  rw [H.online, hlen, harea, hsa, hsl, hea, hel]
  have hk' : k < a.RiverElev.length + s.online.length + (if out.closed then [] else List.replicate out.outlet.length 2 ++ [3, 4]).length := by
    rw [helev] at hk
    cases hc : out.closed with
    | true => simp [hc, hlens.1] at hk ⊢; omega
    | false => simp [hc, hlens.1, (hlens.2 hc).2.1] at hk ⊢; omega
  have hrest : ∀ f ∈ (if out.closed then [] else List.replicate out.outlet.length 2 ++ [3, 4]), f ≠ 1 := by
    intro f hf
    split at hf
    · cases hf
    · simp only [List.mem_append, List.mem_replicate, List.mem_cons, List.not_mem_nil, or_false] at hf
      omega
  have hel' : k < (a.RiverElev ++ onRows.map (·.z3) ++ (if out.closed then [] else outRows.map (·.z1) ++ [a.EndElev, pymin (fin pp.MaxOutletElev) a.EndElev])).length := by
    rw [← helev]; exact hk
  exact ⟨entry_add _ _ _ _ _ _ _ hno (flag_len a.Dx _ _ _ hrest k hk'), fun htwo => entry_set _ _ _ _ _ _ htwo hel'⟩

theorem sum_modify_add (l : List K) (i : ℕ) (A : K) (h : i < l.length) : (l.modify i (· + A)).sum = l.sum + A := by
  induction l generalizing i with
  | nil => simp at h
  | cons x l ih =>
    cases i with
    | zero => simp; ring
    | succ i =>
      rw [List.modify_succ_cons, List.sum_cons, ih i (by simpa using h), List.sum_cons]
      ring

theorem sum_addAt (l : List K) (i : ℕ) (A : K) (h : i < l.length) :
    ∃ l' : List K, addAt (l.map fin) i (fin A) = l'.map fin ∧ l'.length = l.length ∧ l'.sum = l.sum + A := by
  refine ⟨l.modify i (· + A), ?_, by simp, sum_modify_add l i A h⟩
  unfold addAt
  apply List.ext_getElem?
  intro k
  rw [List.getElem?_modify, List.getElem?_map, List.getElem?_map, List.getElem?_modify]
  cases l[k]? with
  | none => rfl
  | some x => by_cases h1 : i = k <;> simp [h1]

/-- C191, partial: the lengths of lagoon given to the sections of the channel, over which the
seepage through the barrier is spread, add up to `Dx` for every transect where the lagoon is wet:
each counted once, and no dry one.  Under the hypotheses of `C192_partial`; a single lagoon section
is included here.  Missing: an outlet in line with the river, and a transect exactly at the upstream
end of an open outlet, in which cases it fails (below). -/
theorem C191_partial (pp : PhysPars K) (a : ChanIn K) (out : ChanOut K) (W : Transect K → K)
    (hs : a.rows.Pairwise (fun r s => r.x < s.x))
    (hW : ∀ r ∈ a.rows, r.y3 - r.y4 = fin (W r) ∧ 0 ≤ W r)
    (h : assembleChannel pp a = .ok out)
    (hinline : (a.EndX0 ==? fin 0) = false)
    (hat : a.Closed = false → ∀ r ∈ a.rows, (fin r.x ==? a.EndX0) = false) :
    Fl.sum out.lagLen = fin (wetLength W a.Dx a.rows) := by
  obtain ⟨X0, r0, w, C1, s1, s, onRows, outRows, H⟩ := assemble_inv h
  obtain ⟨j, last, hj, hlast, hsa, hsl, hea, hel, hsum⟩ := offline_sums hs hW H hinline hat
  obtain ⟨_, _, _, hne, _, _, hwet, _⟩ := cut_inv H.cut
  have hno : 0 < s.online.length := List.length_pos_iff.mpr hne
  have hg := H.geom
  unfold chanGeom at hg
  simp only [Prod.mk.injEq] at hg
  obtain ⟨_, hflag, helev, _, harea, hlen⟩ := hg
  rw [hlen, hsl, hel]
  have hrest : ∀ f ∈ (if out.closed then [] else List.replicate out.outlet.length 2 ++ [3, 4]), f ≠ 1 := by
    intro f hf
    split at hf
    · cases hf
    · simp only [List.mem_append, List.mem_replicate, List.mem_cons, List.not_mem_nil, or_false] at hf
      omega
  generalize (if out.closed then [] else List.replicate out.outlet.length 2 ++ [3, 4]) = rest at hrest
  have e0 : (List.replicate a.RiverElev.length 0 ++ List.replicate s.online.length 1 ++ rest).map (fun f => if f = 1 then (fin a.Dx : Fl K) else fin 0) =
      (List.replicate a.RiverElev.length 0 ++ List.replicate s.online.length a.Dx ++ List.replicate rest.length 0).map fin := by
    have : rest.map (fun f => if f = 1 then (fin a.Dx : Fl K) else fin 0) = List.replicate rest.length (fin 0) := by
      rw [List.eq_replicate_iff]
      refine ⟨by simp, ?_⟩
      intro x hx
      obtain ⟨f, hf, rfl⟩ := List.mem_map.mp hx
      rw [if_neg (hrest f hf)]
    rw [List.map_append, List.map_append, this]
    simp
  rw [e0]
  obtain ⟨l1, e1, n1, s1'⟩ := sum_addAt (List.replicate a.RiverElev.length 0 ++ List.replicate s.online.length a.Dx ++ List.replicate rest.length 0)
    a.RiverElev.length (wetLength W a.Dx (behindRiver (fin 0 <? a.EndX0) a.rows)) (by simp; omega)
  obtain ⟨l2, e2, n2, s2'⟩ := sum_addAt l1 (a.RiverElev.length + s.online.length - 1) (wetLength W a.Dx (beyondX (fin 0 <? a.EndX0) last.x a.rows))
    (by rw [n1]; simp; omega)
  rw [e1, e2, sum_map_fin, s2', s1']
  have hV := hsum (wetOne W)
  have hone : (onRows.map (wetOne W)).sum = (s.online.length : K) := by
    have : onRows.map (wetOne W) = List.replicate onRows.length 1 := by
      rw [List.eq_replicate_iff]
      refine ⟨by simp, ?_⟩
      intro x hx
      obtain ⟨r, hr, rfl⟩ := List.mem_map.mp hx
      obtain ⟨i, hi, hri⟩ := mem_gather H.hon hr
      obtain ⟨r', hr', hp⟩ := hwet i hi
      rw [hri] at hr'; cases hr'
      rw [show lagWidth r = fin (W r) from (hW r (List.mem_of_getElem? hri)).1] at hp
      have hp : 0 < W r := by simpa using hp
      simp [wetOne, hp]
    rw [this, H.lens.1]; simp
  rw [hone, sum_wetOne, sum_wetOne, sum_wetOne] at hV
  congr 1
  simp only [wetLength, List.sum_append, List.sum_replicate, smul_zero, nsmul_eq_mul]
  rw [← hV]; ring

/-! ## The cases in which it fails -/

/-- The claim of C191, computed. -/
def lenBalanced (a : ChanIn ℚ) (out : ChanOut ℚ) : Bool :=
  Fl.sum out.lagLen ==? fin (a.Dx * ((a.rows.countP (fun r => fin 0 <? (r.y3 - r.y4)) : ℕ) : ℚ))

/-- The sample channel with the outlet in line with the river and one transect fewer at the left. -/
def inlineIn : ChanIn ℚ := { chIn with
  rows := (chIn.rows.map (fun r => { r with
    y1 := if r.x = 0 then fin 60 else nan
    y2 := if r.x = 0 then fin 55 else nan })).drop 1
  LagoonWL := List.replicate 6 (fin 1)
  LagoonVel := List.replicate 6 (fin 1)
  OutletDep := List.replicate 6 nan
  OutletVel := List.replicate 6 nan
  EndX0 := fin 0
  EndX1 := fin 4 }

/-- C191 is false when the outlet starts in line with the river: the lagoon to the right of the
river is counted twice and that to the left not at all. -/
theorem C191_refuted_inline : ∃ (a : ChanIn ℚ) (out : ChanOut ℚ), assembleChannel chPP a = .ok out ∧
    a.EndX0 = fin 0 ∧ out.closed = false ∧ (∀ r ∈ a.rows, r.y3 - r.y4 = fin 20) ∧ lenBalanced a out = false := by
  obtain ⟨out, h1, h2, h3⟩ := ok_witness (x := assembleChannel chPP inlineIn) (fun out => out.closed = false ∧ lenBalanced inlineIn out = false) (by decide +kernel)
  exact ⟨inlineIn, out, h1, rfl, h2, by decide +kernel, h3⟩

/-- C191 is false with a transect exactly at the upstream end of the outlet: it is left out. -/
theorem C191_refuted_at_end : ∃ (a : ChanIn ℚ) (out : ChanOut ℚ), assembleChannel chPP a = .ok out ∧
    (a.EndX0 ==? fin 0) = false ∧ (∀ r ∈ a.rows, r.y3 - r.y4 = fin 20) ∧ lenBalanced a out = false := by
  let a : ChanIn ℚ := { chIn with EndX0 := fin 20 }
  obtain ⟨out, h1, h2⟩ := ok_witness (x := assembleChannel chPP a) (fun out => lenBalanced a out = false) (by decide +kernel)
  exact ⟨a, out, h1, by decide +kernel, by decide +kernel, h2⟩

/-- C192 is false when the outlet starts in line with the river: the only lagoon section (section 2)
is given 70 m, its own 10 m and twice the 30 m to the right of the river; the 20 m to the left are
given to no section. -/
theorem C192_refuted_inline : ∃ (a : ChanIn ℚ) (out : ChanOut ℚ), assembleChannel chPP a = .ok out ∧
    out.online = [2] ∧ a.rows.map (·.x) = [-20, -10, 0, 10, 20, 30] ∧ (∀ r ∈ a.rows, r.y3 - r.y4 = fin 20) ∧ a.Dx = 10 ∧
    out.lagLen = [fin 0, fin 0, fin 70, fin 0, fin 0, fin 0] := by
  obtain ⟨out, h1, h2, h3⟩ := ok_witness (x := assembleChannel chPP inlineIn) (fun out => out.online = [2] ∧ out.lagLen = [fin 0, fin 0, fin 70, fin 0, fin 0, fin 0]) (by decide +kernel)
  exact ⟨inlineIn, out, h1, h2, by decide +kernel, by decide +kernel, rfl, h3⟩

/-- C192 is false with a single lagoon section: the area on the other side of the river is lost, only
that beyond the section (three transects) is attached. -/
theorem C192_refuted_single : ∃ (a : ChanIn ℚ) (out : ChanOut ℚ), assembleChannel chPP a = .ok out ∧
    out.online = [3] ∧ a.rows.map (·.x) = [-30, -20, -10, 0, 10, 20, 30] ∧ (∀ r ∈ a.rows, r.y3 - r.y4 = fin 20) ∧ a.Dx = 10 ∧
    out.lagArea = [fin 0, fin 0, fin (3 * 20 * 10), fin 0, fin 0, fin 0] := by
  let a : ChanIn ℚ := { chIn with
    rows := chIn.rows.map (fun r => { r with
      y1 := if r.x = 10 then fin 60 else nan
      y2 := if r.x = 10 then fin 55 else nan })
    EndX0 := fin 5
    EndX1 := fin 14 }
  obtain ⟨out, h1, h2, h3⟩ := ok_witness (x := assembleChannel chPP a) (fun out => out.online = [3] ∧ out.lagArea = [fin 0, fin 0, fin (3 * 20 * 10), fin 0, fin 0, fin 0]) (by decide +kernel)
  exact ⟨a, out, h1, h2, by decide +kernel, by decide +kernel, rfl, h3⟩

/-- The hypotheses are met by the sample channel (see also C27), with this outcome: two lagoon sections, three transects
to the left of the river and two beyond. -/
example : okAnd (assembleChannel chPP chIn) (fun out =>
    out.lagLen == [fin 0, fin 0, fin (10 + 30), fin (10 + 20), fin 0, fin 0, fin 0] &&
    out.lagArea == [fin 0, fin 0, fin 600, fin 400, fin 0, fin 0, fin 0] && lenBalanced chIn out) = true := by decide +kernel
example : (chIn.EndX0 ==? fin 0) = false ∧ (∀ r ∈ chIn.rows, (fin r.x ==? chIn.EndX0) = false) ∧
    ∀ r ∈ chIn.rows, r.y3 - r.y4 = fin 20 ∧ (0:ℚ) ≤ 20 := by decide +kernel
/-- A dry transect beyond the end counts for nothing. -/
example : okAnd (assembleChannel chPP { chIn with rows := chIn.rows.set 6 { chRow 30 with y3 := (chRow 30).y4 } }) (fun out =>
    out.lagLen == [fin 0, fin 0, fin (10 + 30), fin (10 + 10), fin 0, fin 0, fin 0]) = true := by decide +kernel

end Verif.Props
