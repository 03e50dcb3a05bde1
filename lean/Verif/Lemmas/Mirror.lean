import Verif.Spec.Mirror
import Verif.Lemmas.Moved
import Verif.Lemmas.Causal
import Verif.Lemmas.Out
import Verif.Lemmas.Channel
import Verif.Lemmas.ChannelReach
import Mathlib.Algebra.Order.Floor.Ring

set_option autoImplicit false
set_option linter.unusedSectionVars false

/-! # Left and right exchanged: lists and the channel -/

namespace Verif.Model
open Verif Fl Spec

variable {K : Type} [Field K] [LinearOrder K] [IsStrictOrderedRing K]

section gen
variable {ε α α' β β' : Type}

theorem bind_mv' {x : Except ε α} {x' : Except ε α'} {g : α → α'} {f : α → Except ε β} {f' : α' → Except ε β'} {k : β → β'} (hx : x' = x.map g)
    (hf : ∀ a, x = .ok a → f' (g a) = (f a).map k) : (x' >>= f') = (x >>= f).map k := by
  subst hx
  cases x with
  | error e => rfl
  | ok a => exact hf a rfl

theorem bind_same' {x x' : Except ε α} {f : α → Except ε β} {f' : α → Except ε β'} {k : β → β'} (hx : x' = x) (hf : ∀ a, x = .ok a → f' a = (f a).map k) :
    (x' >>= f') = (x >>= f).map k := by
  subst hx
  cases x' with
  | error e => rfl
  | ok a => exact hf a rfl

theorem whereIx_lt {p : α → Bool} {l : List α} {i : ℕ} (h : i ∈ whereIx p l) : i < l.length := by
  unfold whereIx at h
  exact List.mem_range.mp (List.mem_filter.mp h).1

theorem flipIx_flip {n i : ℕ} (h : i < n) : flipIx n (flipIx n i) = i := by unfold flipIx; omega

theorem whereIx_reverse (p : α → Bool) (l : List α) : whereIx p l.reverse = ((whereIx p l).map (flipIx l.length)).reverse := by
  induction l with
  | nil => rfl
  | cons a l ih =>
    have e : whereIx p (a :: l) = whereIx p [a] ++ (whereIx p l).map (· + 1) := whereIx_append p [a] l
    rw [List.reverse_cons, whereIx_append, ih, e, List.map_append, List.reverse_append, List.length_reverse]
    congr 1
    · rw [List.map_map]
      congr 1
      apply List.map_congr_left
      intro i hi
      have := whereIx_lt hi
      simp only [flipIx, Function.comp, List.length_cons]
      omega
    · have : whereIx p [a] = if p a then [0] else [] := by
        unfold whereIx
        simp only [List.length_singleton, List.range_one, List.filter_cons, List.filter_nil, List.getElem?_cons_zero, Option.any_some]
      rw [this]
      split <;> simp [flipIx]

theorem firstIx_reverse (p : α → Bool) (l : List α) : firstIx p l.reverse = (lastIx p l).map (flipIx l.length) := by
  unfold firstIx lastIx
  rw [whereIx_reverse]
  cases h : (whereIx p l).getLast? with
  | none =>
    rw [List.getLast?_eq_none_iff] at h
    rw [h]; rfl
  | some i =>
    obtain ⟨t, ht⟩ := List.getLast?_eq_some_iff.mp h
    rw [ht]
    simp only [List.map_append, List.map_cons, List.map_nil, List.reverse_append, List.reverse_cons, List.reverse_nil, List.nil_append, List.cons_append]
    rfl

theorem lastIx_reverse (p : α → Bool) (l : List α) : lastIx p l.reverse = (firstIx p l).map (flipIx l.length) := by
  unfold firstIx lastIx
  rw [whereIx_reverse]
  cases h : whereIx p l with
  | nil => rfl
  | cons i t => simp [Except.map]

theorem ixGet_reverse {l : List α} {i : ℕ} (h : i < l.length) : ixGet l.reverse (flipIx l.length i) = ixGet l i := by
  unfold ixGet flipIx
  rw [List.getElem?_reverse (by omega)]
  congr 2
  omega

theorem gather_reverse {l : List α} : ∀ {ix : List ℕ}, (∀ i ∈ ix, i < l.length) → gather l.reverse (ix.map (flipIx l.length)) = gather l ix
  | [], _ => rfl
  | i :: ix, h => by
    have h1 := ixGet_reverse (h i (by simp))
    have h2 := gather_reverse (l := l) (ix := ix) (fun j hj => h j (by simp [hj]))
    unfold gather at h2 ⊢
    rw [List.map_cons, List.mapM_cons, List.mapM_cons, h1, h2]

theorem gather_lt {l : List α} {ix : List ℕ} {r : List α} (h : gather l ix = .ok r) : ∀ i ∈ ix, i < l.length := by
  intro i hi
  obtain ⟨a, ha, _⟩ := gather_mem h hi
  exact (List.getElem?_eq_some_iff.mp ha).1

theorem arangeDown_flip {n a b : ℕ} (ha : a < n) (hb : b < n) : arangeDown (flipIx n a) (flipIx n b) = (arangeUp a (b + 1)).map (flipIx n) := by
  unfold arangeDown arangeUp flipIx
  rw [List.map_map]
  have : n - 1 - a + 1 - (n - 1 - b) = b + 1 - a := by omega
  rw [this]
  apply List.map_congr_left
  intro i hi
  rw [List.mem_range] at hi
  simp only [Function.comp]
  omega

theorem arangeUp_flip {n a b : ℕ} (ha : a < n) (hb : b < n) : arangeUp (flipIx n a) (flipIx n b + 1) = (arangeDown a b).map (flipIx n) := by
  unfold arangeDown arangeUp flipIx
  rw [List.map_map]
  have : n - 1 - b + 1 - (n - 1 - a) = a + 1 - b := by omega
  rw [this]
  apply List.map_congr_left
  intro i hi
  rw [List.mem_range] at hi
  simp only [Function.comp]
  omega

end gen

/-! ## Numbers -/

theorem neg_neg' (a : Fl K) : - -a = a := by cases a <;> first | rfl | simp
theorem neg_blt_neg (a b : Fl K) : (-a <? -b) = (b <? a) := by
  cases a <;> cases b <;> first | rfl | simp
theorem neg_ble_neg (a b : Fl K) : (-a ≤? -b) = (b ≤? a) := by
  cases a <;> cases b <;> first | rfl | simp
theorem neg_isnan (a : Fl K) : (-a).isnan = a.isnan := by cases a <;> rfl
theorem fl_add_assoc (a b c : Fl K) : a + b + c = a + (b + c) := by
  cases a <;> cases b <;> cases c <;> first | rfl | simp only [add_fin, add_assoc]
theorem sum_append' (l m : List (Fl K)) : Fl.sum (l ++ m) = Fl.sum l + Fl.sum m := by
  induction l with
  | nil =>
    show Fl.sum m = fin 0 + Fl.sum m
    generalize Fl.sum m = u
    cases u <;> first | rfl | simp
  | cons a l ih =>
    show a + Fl.sum (l ++ m) = a + Fl.sum l + Fl.sum m
    rw [ih, fl_add_assoc]
theorem sum_reverse' (l : List (Fl K)) : Fl.sum l.reverse = Fl.sum l := by
  induction l with
  | nil => rfl
  | cons a l ih =>
    rw [List.reverse_cons, sum_append', ih]
    show Fl.sum l + (a + fin 0) = a + Fl.sum l
    rw [fl_add_comm (Fl.sum l), fl_add_assoc]
    congr 1
    generalize Fl.sum l = u
    cases u <;> first | rfl | simp
theorem nansum_reverse (l : List (Fl K)) : nansum l.reverse = nansum l := by
  unfold nansum
  rw [List.filter_reverse, sum_reverse']

theorem flMod_neg [FloorRing K] {x d : K} (hd : d ≠ 0) (h : ∀ k : ℤ, x ≠ k * d) : fin d - flMod (fin (-x)) d = flMod (fin x) d := by
  have hfr : ∀ y : K, y - d * (⌊y / d⌋ : K) = d * Int.fract (y / d) := by
    intro y
    unfold Int.fract
    field_simp
  have hne : Int.fract (x / d) ≠ 0 := by
    intro hz
    apply h ⌊x / d⌋
    have := hfr x
    rw [hz, mul_zero] at this
    rw [mul_comm]
    exact sub_eq_zero.mp this
  unfold flMod
  simp only [hd, if_false, sub_fin, hfr]
  rw [neg_div, Int.fract_neg hne]
  congr 1
  ring

/-! ## Stages of `assembleChannel` -/

theorem flip_len (l : List (Transect K)) : (flipRows l).length = l.length := by simp [flipRows]

theorem gather_flip {l : List (Transect K)} {ix : List ℕ} (h : ∀ i ∈ ix, i < l.length) :
    gather (flipRows l) (ix.map (flipIx l.length)) = (gather l ix).map (List.map flipT) := by
  unfold flipRows
  rw [← gather_mv]
  have := gather_reverse (l := l.map flipT) (ix := ix) (by simpa using h)
  rw [List.length_map] at this
  exact this

theorem lagWidth_flip (r : Transect K) : lagWidth (flipT r) = lagWidth r := rfl
theorem outWidth_flip (r : Transect K) : outWidth (flipT r) = outWidth r := rfl

theorem whereIx_flip {p q : Transect K → Bool} (h : ∀ r, q (flipT r) = p r) (l : List (Transect K)) :
    whereIx q (flipRows l) = ((whereIx p l).map (flipIx l.length)).reverse := by
  unfold flipRows
  rw [whereIx_reverse, whereIx_map, List.length_map, whereIx_congr h]

theorem firstIx_flip {p q : Transect K → Bool} (h : ∀ r, q (flipT r) = p r) (l : List (Transect K)) :
    firstIx q (flipRows l) = (lastIx p l).map (flipIx l.length) := by
  unfold flipRows
  rw [firstIx_reverse, lastIx_map, List.length_map]
  congr 1
  unfold lastIx
  rw [whereIx_congr h]

theorem lastIx_flip {p q : Transect K → Bool} (h : ∀ r, q (flipT r) = p r) (l : List (Transect K)) :
    lastIx q (flipRows l) = (firstIx p l).map (flipIx l.length) := by
  unfold flipRows
  rw [lastIx_reverse, firstIx_map, List.length_map]
  congr 1
  unfold firstIx
  rw [whereIx_congr h]

theorem fin_neg (x : K) : (fin (-x) : Fl K) = -fin x := rfl

theorem outletIx_flip {rows : List (Transect K)} {e0 e1 : Fl K} (h : (e0 <? e1) = !(e1 <? e0)) :
    outletIx (flipRows rows) (-e0) (-e1) = (outletIx rows e0 e1).map (flipIx rows.length) := by
  unfold outletIx
  rw [neg_blt_neg]
  cases hb : e0 <? e1 with
  | true =>
    have h' : (e1 <? e0) = false := by rw [hb] at h; cases hc : e1 <? e0 <;> simp_all
    rw [h']
    simp only [Bool.false_eq_true, if_false, if_true]
    rw [whereIx_flip (p := fun r => e0 ≤? fin r.x && fin r.x ≤? e1), List.reverse_reverse]
    intro r
    simp only [flipT, fin_neg, neg_ble_neg, Bool.and_comm]
  | false =>
    have h' : (e1 <? e0) = true := by rw [hb] at h; cases hc : e1 <? e0 <;> simp_all
    rw [h']
    simp only [Bool.false_eq_true, if_false, if_true]
    rw [whereIx_flip (p := fun r => e1 ≤? fin r.x && fin r.x ≤? e0), List.map_reverse]
    intro r
    simp only [flipT, fin_neg, neg_ble_neg, Bool.and_comm]

theorem outletIx_lt {rows : List (Transect K)} {e0 e1 : Fl K} : ∀ i ∈ outletIx rows e0 e1, i < rows.length := by
  intro i hi
  unfold outletIx at hi
  split at hi
  · exact whereIx_lt hi
  · exact whereIx_lt (List.mem_reverse.mp hi)

theorem aside_lt {d : K} {e0 e1 : Fl K} {C : Bool} (h : Aside C d e0 e1) (hC : C = false) : (e0 <? e1) = !(e1 <? e0) := by
  obtain ⟨⟨x, rfl, _⟩, h⟩ := h
  obtain ⟨y, rfl, hne, _⟩ := h hC
  have hxy : x ≠ y := fun e => hne (by rw [e])
  rcases lt_or_gt_of_ne hxy with hlt | hlt
  · simp [hlt, hlt.le]
  · simp [hlt, hlt.le]

theorem outletStage_flip (pp : PhysPars K) {a : ChanIn K} (h : Aside a.Closed a.Dx a.EndX0 a.EndX1) :
    outletStage pp (flipIn a) = (outletStage pp a).map fun o => (o.1.map (flipIx a.rows.length), o.2) := by
  unfold outletStage
  cases hc : a.Closed with
  | true => simp only [flipIn, hc]; rfl
  | false =>
    have : (flipIn a).Closed = false := hc
    rw [this]
    simp only [Bool.false_eq_true, if_false]
    have e : outletIx (flipIn a).rows (flipIn a).EndX0 (flipIn a).EndX1 = (outletIx a.rows a.EndX0 a.EndX1).map (flipIx a.rows.length) :=
      outletIx_flip (aside_lt h hc)
    rw [e]
    refine bind_mv (g := List.map flipT) (gather_flip outletIx_lt) (fun rs => ?_)
    have e2 : List.map outWidth (List.map flipT rs) = List.map outWidth rs := by
      rw [List.map_map]; rfl
    rw [e2]
    have e3 : (flipIn a).EndWidth = a.EndWidth := rfl
    rw [e3]
    split
    · rfl
    · split
      · rfl
      · rfl

theorem lagAreaOf_flip (d : K) (l : List (Transect K)) : lagAreaOf d (flipRows l) = lagAreaOf d l := by
  unfold lagAreaOf flipRows
  rw [List.map_reverse, nansum_reverse, List.map_map]
  rfl
theorem lagLenOf_flip (d : K) (l : List (Transect K)) : lagLenOf d (flipRows l) = lagLenOf d l := by
  unfold lagLenOf flipRows
  rw [List.map_reverse, nansum_reverse, List.map_map]
  rfl

theorem filter_flip {p q : Transect K → Bool} (h : ∀ r, q (flipT r) = p r) (l : List (Transect K)) : (flipRows l).filter q = flipRows (l.filter p) := by
  unfold flipRows
  rw [List.filter_reverse, List.filter_map]
  congr 2
  apply List.filter_congr
  intro r _
  exact h r

theorem take_flip {l : List (Transect K)} {i : ℕ} (h : i < l.length) : (flipRows l).take (flipIx l.length i) = flipRows (l.drop (i + 1)) := by
  unfold flipRows flipIx
  rw [List.take_reverse, List.map_drop, List.length_map]
  congr 2
  omega

theorem drop_flip {l : List (Transect K)} {i : ℕ} (h : i < l.length) : (flipRows l).drop (flipIx l.length i + 1) = flipRows (l.take i) := by
  unfold flipRows flipIx
  rw [List.drop_reverse, List.map_take, List.length_map]
  congr 2
  omega

/-- A lagoon with its transects counted from the other end. -/
def flipLag (n : ℕ) (s : LagStage K) : LagStage K := { s with online := s.online.map (flipIx n) }

theorem lagoonStage_flip {a : ChanIn K} (h : ∃ x, a.EndX0 = fin x ∧ x ≠ 0) {X0 : ℕ} (hX : X0 < a.rows.length) (C : Bool) :
    lagoonStage (flipIn a) (flipIx a.rows.length X0) C = (lagoonStage a X0 C).map (flipLag a.rows.length) := by
  obtain ⟨x, hx, hne⟩ := h
  unfold lagoonStage
  have e1 : (flipIn a).rows = flipRows a.rows := rfl
  have e2 : (flipIn a).EndX0 = -a.EndX0 := rfl
  have e3 : (flipIn a).Dx = a.Dx := rfl
  rw [e1, e2, e3]
  have hz : (a.EndX0 ==? fin 0) = false := by rw [hx]; simpa using hne
  have hz' : (-a.EndX0 ==? fin 0) = false := by rw [hx]; simpa using hne
  rw [hz, hz']
  simp only [Bool.false_eq_true, if_false]
  have hw : ∀ r : Transect K, (fin 0 <? lagWidth (flipT r)) = (fin 0 <? lagWidth r) := fun _ => rfl
  have hr1 : ∀ r : Transect K, (fin (flipT r).x <? -a.EndX0) = (a.EndX0 <? fin r.x) := fun r => by simp only [flipT, fin_neg, neg_blt_neg]
  have hr2 : ∀ r : Transect K, (-a.EndX0 <? fin (flipT r).x) = (fin r.x <? a.EndX0) := fun r => by simp only [flipT, fin_neg, neg_blt_neg]
  rcases lt_or_gt_of_ne hne with hlt | hlt
  · have c1 : (fin 0 <? a.EndX0) = false := by rw [hx]; simpa using hlt.le
    have c2 : (fin 0 <? -a.EndX0) = true := by rw [hx]; simpa using hlt
    rw [c1, c2]
    simp only [Bool.false_eq_true, if_false, if_true]
    rw [filter_flip hr2, take_flip hX]
    simp only [lagAreaOf_flip, lagLenOf_flip]
    cases C with
    | true =>
      simp only [if_true]
      refine bind_mv' (lastIx_flip hw a.rows) (fun i hi => ?_)
      have hi' := (List.getElem?_eq_some_iff.mp (firstIx_ok.mp hi).1.choose_spec.1).1
      rw [arangeUp_flip hX hi']
      rfl
    | false =>
      simp only [Bool.false_eq_true, if_false]
      refine bind_mv' (lastIx_flip hr1 a.rows) (fun i hi => ?_)
      have hi' := (List.getElem?_eq_some_iff.mp (firstIx_ok.mp hi).1.choose_spec.1).1
      rw [arangeUp_flip hX hi']
      rfl
  · have c1 : (fin 0 <? a.EndX0) = true := by rw [hx]; simpa using hlt
    have c2 : (fin 0 <? -a.EndX0) = false := by rw [hx]; simpa using hlt.le
    rw [c1, c2]
    simp only [Bool.false_eq_true, if_false, if_true]
    rw [filter_flip hr1, drop_flip hX]
    simp only [lagAreaOf_flip, lagLenOf_flip]
    cases C with
    | true =>
      simp only [if_true]
      refine bind_mv' (firstIx_flip hw a.rows) (fun i hi => ?_)
      have hi' := (List.getElem?_eq_some_iff.mp (lastIx_ok.mp hi).1.choose_spec.1).1
      rw [arangeDown_flip hX hi']
      rfl
    | false =>
      simp only [Bool.false_eq_true, if_false]
      refine bind_mv' (firstIx_flip hr2 a.rows) (fun i hi => ?_)
      have hi' := (List.getElem?_eq_some_iff.mp (lastIx_ok.mp hi).1.choose_spec.1).1
      rw [arangeDown_flip hX hi']
      rfl

theorem cutStage_flip (pp : PhysPars K) (a : ChanIn K) (s : LagStage K) (C : Bool) (h : ∀ i ∈ s.online, i < a.rows.length) :
    cutStage pp (flipIn a) (flipLag a.rows.length s) C = (cutStage pp a s C).map fun o => (flipLag a.rows.length o.1, o.2) := by
  unfold cutStage
  have e1 : (flipIn a).rows = flipRows a.rows := rfl
  have e3 : (flipIn a).Dx = a.Dx := rfl
  rw [e1, e3]
  refine bind_same' (by simp [flipLag]) (fun _ _ => ?_)
  refine bind_mv' (gather_flip h) (fun onRows hon => ?_)
  have hw : ∀ (s' : LagStage K) (C' : Bool), (∀ i ∈ s'.online, i < a.rows.length) →
      (do
        let first ← ixGet (flipLag a.rows.length s').online 0
        let last ← pyGet (flipLag a.rows.length s').online (-1)
        pyAssert (((last : ℤ) - first).natAbs == (flipLag a.rows.length s').online.length - 1)
        pyAssert ((← gather (flipRows a.rows) (flipLag a.rows.length s').online).all (fun r => fin 0 <? lagWidth r))
        return (flipLag a.rows.length s', C') : Except PyErr (LagStage K × Bool)) =
      (do
        let first ← ixGet s'.online 0
        let last ← pyGet s'.online (-1)
        pyAssert (((last : ℤ) - first).natAbs == s'.online.length - 1)
        pyAssert ((← gather a.rows s'.online).all (fun r => fin 0 <? lagWidth r))
        return (s', C') : Except PyErr (LagStage K × Bool)).map fun o => (flipLag a.rows.length o.1, o.2) := by
    intro s' C' h'
    refine bind_mv' (ixGet_map _ _ _) (fun f hf => ?_)
    refine bind_mv' (pyGet_map _ _ _) (fun l hl => ?_)
    have hf' := h' f (List.mem_of_getElem? (ixGet_ok.mp hf))
    have hl' := h' l (List.mem_of_getLast? (pyGet_last.mp hl))
    refine bind_same' ?_ (fun _ _ => ?_)
    · congr 2
      · unfold flipIx; omega
      · simp [flipLag]
    refine bind_mv' (gather_flip h') (fun rs _ => ?_)
    refine bind_same' ?_ (fun _ _ => rfl)
    congr 1
    rw [List.all_map]
    rfl
  have hwh : whereIx (fun r => lagWidth r <? fin pp.MinOutletWidth) (List.map flipT onRows) = whereIx (fun r => lagWidth r <? fin pp.MinOutletWidth) onRows := by
    rw [whereIx_map]
    rfl
  have hA : ∀ l : List (Transect K), lagAreaOf a.Dx (l.map flipT) = lagAreaOf a.Dx l := fun l => by
    unfold lagAreaOf; rw [List.map_map]; rfl
  have hL : ∀ l : List (Transect K), lagLenOf a.Dx (l.map flipT) = lagLenOf a.Dx l := fun l => by
    unfold lagLenOf; rw [List.map_map]; rfl
  dsimp only
  rw [hwh]
  cases hk : whereIx (fun r => lagWidth r <? fin pp.MinOutletWidth) onRows with
  | nil => exact hw s C h
  | cons k t =>
    have := hw { s with online := s.online.take k, endArea := s.endArea + lagAreaOf a.Dx (onRows.drop k), endLen := s.endLen + lagLenOf a.Dx (onRows.drop k) } true
      (fun i hi => h i (List.mem_of_mem_take hi))
    simp only [← List.map_drop, hA, hL]
    have e : flipLag a.rows.length { s with online := s.online.take k, endArea := s.endArea + lagAreaOf a.Dx (onRows.drop k), endLen := s.endLen + lagLenOf a.Dx (onRows.drop k) } =
        { flipLag a.rows.length s with online := (flipLag a.rows.length s).online.take k, endArea := s.endArea + lagAreaOf a.Dx (onRows.drop k), endLen := s.endLen + lagLenOf a.Dx (onRows.drop k) } := by
      simp [flipLag]
    rw [e] at this
    exact this

theorem addAt_flip [FloorRing K] {a : ChanIn K} (h : Aside a.Closed a.Dx a.EndX0 a.EndX1) (hc : a.Closed = false) (hd : a.Dx ≠ 0) :
    (if -a.EndX0 <? -a.EndX1 then flMod (-a.EndX1) a.Dx else fin a.Dx - flMod (-a.EndX1) a.Dx) =
      (if a.EndX0 <? a.EndX1 then flMod a.EndX1 a.Dx else fin a.Dx - flMod a.EndX1 a.Dx) := by
  have hlt := aside_lt h hc
  obtain ⟨x, hx, _, hk⟩ := h.ends hc
  rw [neg_blt_neg]
  have h1 := flMod_neg hd hk
  have h2 := flMod_neg (x := -x) hd (fun k hk' => hk (-k) (by push_cast; rw [neg_mul, ← hk', neg_neg]))
  rw [neg_neg] at h2
  cases hb : a.EndX0 <? a.EndX1 with
  | true =>
    have h' : (a.EndX1 <? a.EndX0) = false := by rw [hb] at hlt; cases hc : a.EndX1 <? a.EndX0 <;> simp_all
    rw [h']
    simp only [Bool.false_eq_true, if_false, if_true]
    rw [hx]
    exact h1
  | false =>
    have h' : (a.EndX1 <? a.EndX0) = true := by rw [hb] at hlt; cases hc : a.EndX1 <? a.EndX0 <;> simp_all
    rw [h']
    simp only [Bool.false_eq_true, if_false, if_true]
    rw [hx]
    exact h2.symm

theorem chanGeom_flip [FloorRing K] (pp : PhysPars K) {a : ChanIn K} (h : Aside a.Closed a.Dx a.EndX0 a.EndX1) (hd : a.Dx ≠ 0) (s : LagStage K) {C : Bool} (hC : C = false → a.Closed = false) (outlet : List ℕ)
    (ow : List (Fl K)) (onRows outRows : List (Transect K)) :
    chanGeom pp (flipIn a) (flipLag a.rows.length s) C (outlet.map (flipIx a.rows.length)) ow (onRows.map flipT) (outRows.map flipT) =
      chanGeom pp a s C outlet ow onRows outRows := by
  have e1 : (onRows.map flipT).map (·.z3) = onRows.map (·.z3) := by rw [List.map_map]; rfl
  have e2 : (outRows.map flipT).map (·.z1) = outRows.map (·.z1) := by rw [List.map_map]; rfl
  have e3 : (onRows.map flipT).map lagWidth = onRows.map lagWidth := by rw [List.map_map]; rfl
  unfold chanGeom
  simp only [flipLag, flipIn, List.length_map, e1, e2, e3]
  cases C with
  | true => rfl
  | false => exact congrArg (fun q => ((addAt _ _ q : List (Fl K)), _)) (addAt_flip h (hC rfl) hd)

theorem chanHyd_flip {a : ChanIn K} (hs : SizedIn a) {online outlet : List ℕ} (h1 : ∀ i ∈ online, i < a.rows.length) (h2 : ∀ i ∈ outlet, i < a.rows.length) (C : Bool)
    (onRows : List (Transect K)) :
    chanHyd (flipIn a) (online.map (flipIx a.rows.length)) (outlet.map (flipIx a.rows.length)) C (onRows.map flipT) = chanHyd a online outlet C onRows := by
  have g1 : gather a.LagoonWL.reverse (online.map (flipIx a.rows.length)) = gather a.LagoonWL online := by
    rw [← hs.wl]; exact gather_reverse (by rw [hs.wl]; exact h1)
  have g2 : gather a.LagoonVel.reverse (online.map (flipIx a.rows.length)) = gather a.LagoonVel online := by
    rw [← hs.lv]; exact gather_reverse (by rw [hs.lv]; exact h1)
  have g3 : gather a.OutletDep.reverse (outlet.map (flipIx a.rows.length)) = gather a.OutletDep outlet := by
    rw [← hs.od]; exact gather_reverse (by rw [hs.od]; exact h2)
  have g4 : gather a.OutletVel.reverse (outlet.map (flipIx a.rows.length)) = gather a.OutletVel outlet := by
    rw [← hs.ov]; exact gather_reverse (by rw [hs.ov]; exact h2)
  have g5 : ∀ wl : List (Fl K), List.zipWith (fun w (r : Transect K) => w - r.z3) wl (onRows.map flipT) = List.zipWith (fun w (r : Transect K) => w - r.z3) wl onRows := by
    intro wl
    rw [List.zipWith_map_right]
    rfl
  unfold chanHyd
  simp only [flipIn, g1, g2, g3, g4, g5]

theorem lagoonStage_lt {a : ChanIn K} {X0 : ℕ} (hX : X0 < a.rows.length) {C : Bool} {s : LagStage K} (h : lagoonStage a X0 C = .ok s) :
    ∀ i ∈ s.online, i < a.rows.length := by
  unfold lagoonStage at h
  intro i hi
  split at h
  · split at h
    · rw [bind_ok] at h
      obtain ⟨l, hl, h⟩ := h
      cases h
      have := (List.getElem?_eq_some_iff.mp (lastIx_ok.mp hl).1.choose_spec.1).1
      have := (mem_arangeUp.mp hi).2
      omega
    · cases h
      rw [List.mem_singleton.mp hi]; exact hX
  · split at h
    · split at h
      all_goals
        rw [bind_ok] at h
        obtain ⟨l, hl, h⟩ := h
        cases h
        have := (List.getElem?_eq_some_iff.mp (lastIx_ok.mp hl).1.choose_spec.1).1
        have := (mem_arangeUp.mp hi).2
        omega
    · split at h
      all_goals
        rw [bind_ok] at h
        obtain ⟨l, hl, h⟩ := h
        cases h
        have := (mem_arangeDown.mp hi).2
        omega

theorem cutStage_sub {pp : PhysPars K} {a : ChanIn K} {s s' : LagStage K} {C C' : Bool} (h : cutStage pp a s C = .ok (s', C')) : ∀ i ∈ s'.online, i ∈ s.online := by
  unfold cutStage at h
  simp only [bind_ok, pure_ok] at h
  obtain ⟨_, _, on, _, h⟩ := h
  cases hk : whereIx (fun r : Transect K => lagWidth r <? fin pp.MinOutletWidth) on with
  | nil =>
    rw [hk] at h
    obtain ⟨_, _, _, _, _, _, _, _, _, _, e⟩ := h
    intro i hi
    rw [← (Prod.mk.inj e).1] at hi
    exact hi
  | cons k t =>
    rw [hk] at h
    obtain ⟨_, _, _, _, _, _, _, _, _, _, e⟩ := h
    intro i hi
    rw [← (Prod.mk.inj e).1] at hi
    exact List.mem_of_mem_take hi

/-- A single transect in line with the river is found from both ends. -/
theorem river_flip {rows : List (Transect K)} (hx : (rows.map (·.x)).Nodup) :
    firstIx (fun r : Transect K => fin r.x ==? fin 0) (flipRows rows) = (firstIx (fun r : Transect K => fin r.x ==? fin 0) rows).map (flipIx rows.length) := by
  rw [firstIx_flip (p := fun r : Transect K => fin r.x ==? fin 0)]
  · congr 1
    have key : ∀ i j, i ∈ whereIx (fun r : Transect K => fin r.x ==? fin 0) rows → j ∈ whereIx (fun r : Transect K => fin r.x ==? fin 0) rows → i = j := by
      intro i j hi hj
      obtain ⟨r, hr, pr⟩ := mem_whereIx.mp hi
      obtain ⟨r', hr', pr'⟩ := mem_whereIx.mp hj
      simp only [beq_fin, decide_eq_true_eq] at pr pr'
      obtain ⟨h1, e1⟩ := List.getElem?_eq_some_iff.mp hr
      obtain ⟨h2, e2⟩ := List.getElem?_eq_some_iff.mp hr'
      have := hx.getElem_inj_iff (hi := (by simpa using h1 : i < (rows.map (·.x)).length)) (hj := (by simpa using h2 : j < (rows.map (·.x)).length))
      rw [← this]
      simp only [List.getElem_map, e1, e2, pr, pr']
    unfold lastIx firstIx
    cases hw : whereIx (fun r : Transect K => fin r.x ==? fin 0) rows with
    | nil => rfl
    | cons i t =>
      rw [hw] at key
      cases hl : (i :: t).getLast? with
      | none => simp at hl
      | some j => rw [key i j (by simp) (List.mem_of_getLast? hl)]
  · intro r
    simp [flipT]

theorem assemble_flip [FloorRing K] (pp : PhysPars K) {a : ChanIn K} (h : Aside a.Closed a.Dx a.EndX0 a.EndX1) (hd : a.Dx ≠ 0) (hs : SizedIn a) (hx : (a.rows.map (·.x)).Nodup) :
    assembleChannel pp (flipIn a) = (assembleChannel pp a).map (flipChan a.rows.length) := by
  unfold assembleChannel
  refine bind_mv' (river_flip hx) (fun X0 hX0 => ?_)
  have hX := (List.getElem?_eq_some_iff.mp (firstIx_ok.mp hX0).1.choose_spec.1).1
  refine bind_mv' (outletStage_flip pp h) (fun o ho => ?_)
  obtain ⟨outlet, ow, C⟩ := o
  have ho1 := ho
  have hout : ∀ i ∈ outlet, i < a.rows.length := by
    unfold outletStage at ho
    split at ho
    · cases ho; simp
    · rw [bind_ok] at ho
      obtain ⟨rs, _, ho⟩ := ho
      dsimp only at ho
      split at ho
      · cases ho; simp
      · split at ho
        · cases ho
        · cases ho
          exact outletIx_lt
  have hr0 : ixGet (flipIn a).rows (flipIx a.rows.length X0) = (ixGet a.rows X0).map flipT := by
    have := ixGet_reverse (l := a.rows.map flipT) (i := X0) (by simpa using hX)
    rw [List.length_map, ixGet_map] at this
    exact this
  refine bind_mv' hr0 (fun r0 _ => ?_)
  refine bind_same' (by rfl) (fun _ _ => ?_)
  refine bind_same' ?_ (fun _ _ => ?_)
  · congr 1
    show (flipRows a.rows).all _ = _
    unfold flipRows
    rw [List.all_reverse, List.all_map]
    rfl
  refine bind_mv' (lagoonStage_flip h.river hX C) (fun s hsx => ?_)
  have hon := lagoonStage_lt hX hsx
  refine bind_mv' (cutStage_flip pp a s C hon) (fun o hcut => ?_)
  obtain ⟨s', C'⟩ := o
  have hon' : ∀ i ∈ s'.online, i < a.rows.length := fun i hi => hon i (cutStage_sub hcut i hi)
  refine bind_mv' (gather_flip hon') (fun onRows _ => ?_)
  refine bind_mv' (g := List.map flipT) ?_ (fun outRows _ => ?_)
  · cases C' with
    | true => rfl
    | false => exact gather_flip hout
  have hC' : C' = false → a.Closed = false := by
    rintro rfl
    cases hc : a.Closed with
    | false => rfl
    | true =>
      unfold outletStage at ho1
      rw [hc] at ho1
      cases ho1
      obtain ⟨_, _, _, _, _, _, _, h | ⟨_, _, h, _⟩⟩ := cut_inv hcut
      · exact h.2.1.symm
      · exact absurd h (by simp)
  dsimp only
  rw [chanGeom_flip pp h hd _ hC']
  have : (flipLag a.rows.length s').online = s'.online.map (flipIx a.rows.length) := rfl
  rw [this]
  refine bind_same' (chanHyd_flip hs hon' hout C' onRows) (fun dv _ => ?_)
  refine bind_same' rfl (fun _ _ => bind_same' rfl (fun _ _ => bind_same' rfl (fun _ _ => bind_same' rfl (fun _ _ => bind_same' rfl (fun _ _ => ?_)))))
  refine bind_same' (by rw [List.length_map]) (fun _ _ => rfl)

end Verif.Model
