import Verif.Lemmas.ChannelReach
import Mathlib.Tactic.Abel

set_option autoImplicit false
set_option linter.unusedSectionVars false

namespace Verif.Model
open Verif Fl Verif.Spec

section gen
variable {α β : Type}

theorem scatter_inv {f : α → β → α} {l l' : List α} {is : List ℕ} {vs : List β} (h : scatter f l is vs = .ok l') (hn : is.Nodup) :
    is.length = vs.length ∧ l'.length = l.length ∧ (∀ i ∈ is, i < l.length) ∧
      (∀ (k i : ℕ) v, is[k]? = some i → vs[k]? = some v → l'[i]? = (l[i]?).map (fun old => f old v)) ∧
      (∀ i, i ∉ is → l'[i]? = l[i]?) := by
  induction is generalizing l vs with
  | nil =>
    cases vs with
    | nil => unfold scatter at h; cases h; simp
    | cons v vs => unfold scatter at h; cases h
  | cons i is ih =>
    cases vs with
    | nil => unfold scatter at h; cases h
    | cons v vs =>
      unfold scatter at h
      simp only [bind_ok, ixGet_ok] at h
      obtain ⟨old, hold, h2⟩ := h
      obtain ⟨hni, hn2⟩ := List.nodup_cons.mp hn
      obtain ⟨h3, h4, h5, h6, h7⟩ := ih h2 hn2
      have hlt := (List.getElem?_eq_some_iff.mp hold).1
      refine ⟨by simp [h3], by simpa using h4, ?_, ?_, ?_⟩
      · intro j hj
        rcases List.mem_cons.mp hj with rfl | hj
        · exact hlt
        · simpa using h5 j hj
      · intro k j u hk hu
        cases k with
        | zero =>
          simp at hk hu
          subst hk; subst hu
          rw [h7 _ hni, List.getElem?_set_self hlt, hold]; rfl
        | succ k =>
          simp at hk hu
          have hj := List.mem_of_getElem? hk
          rw [h6 k j u hk hu]
          have : i ≠ j := by rintro rfl; exact hni hj
          rw [List.getElem?_set_ne this]
      · intro j hj
        have h8 : i ≠ j := by rintro rfl; exact hj (by simp)
        rw [h7 j (fun h9 => hj (List.mem_cons_of_mem _ h9)), List.getElem?_set_ne h8]

theorem scatter_total (f : α → β → α) (l : List α) (is : List ℕ) (vs : List β) (hl : is.length = vs.length) (hb : ∀ i ∈ is, i < l.length) :
    ∃ l', scatter f l is vs = .ok l' := by
  induction is generalizing l vs with
  | nil => cases vs with
    | nil => exact ⟨l, rfl⟩
    | cons v vs => simp at hl
  | cons i is ih => cases vs with
    | nil => simp at hl
    | cons v vs =>
      obtain ⟨l', h'⟩ := ih (l.set i (f (l[i]'(hb i (by simp))) v)) vs (by simpa using hl) (by
        intro j hj; simpa using hb j (List.mem_cons_of_mem _ hj))
      refine ⟨l', ?_⟩
      unfold scatter
      simp only [bind_ok, ixGet_ok]
      exact ⟨_, List.getElem?_eq_getElem _, h'⟩

/-- Reading back what was written. -/
theorem gather_scatter {γ : Type} {f : α → β → α} {l l' : List α} {is : List ℕ} {vs : List β} (h : scatter f l is vs = .ok l') (hn : is.Nodup)
    (l'' : List γ) (g : ℕ → β → γ) (hl : ∀ (k i : ℕ) v, is[k]? = some i → vs[k]? = some v → l''[i]? = some (g i v)) :
    gather l'' is = .ok (List.zipWith g is vs) := by
  have hlen := (scatter_inv h hn).1
  rw [gather_ok]
  apply List.ext_getElem?
  intro k
  rw [List.getElem?_map, List.getElem?_map, List.getElem?_zipWith]
  cases hk : is[k]? with
  | none =>
    simp
  | some i =>
    have h1 := (List.getElem?_eq_some_iff.mp hk).1
    have hv : vs[k]? = some (vs[k]'(by omega)) := List.getElem?_eq_getElem _
    rw [hv]
    simp [hl k i _ hk hv]

theorem listMin_inv {l : List ℕ} {m : ℕ} (h : listMin l = .ok m) : m ∈ l ∧ ∀ j ∈ l, m ≤ j := by
  cases l with
  | nil => cases h
  | cons a t =>
    unfold listMin at h
    rw [ok_inj] at h
    subst h
    induction t generalizing a with
    | nil => simp
    | cons b t ih =>
      simp only [List.foldl_cons]
      obtain ⟨h1, h2⟩ := ih (min a b)
      constructor
      · rcases List.mem_cons.mp h1 with h3 | h3
        · rcases min_choice a b with h4 | h4
          · rw [h3, h4]; simp
          · rw [h3, h4]; simp
        · exact List.mem_cons_of_mem _ (List.mem_cons_of_mem _ h3)
      · intro j hj
        have h3 := h2 (min a b) (by simp)
        rcases List.mem_cons.mp hj with rfl | hj
        · omega
        · rcases List.mem_cons.mp hj with rfl | hj
          · omega
          · exact h2 j (List.mem_cons_of_mem _ hj)

theorem listMax_inv {l : List ℕ} {m : ℕ} (h : listMax l = .ok m) : m ∈ l ∧ ∀ j ∈ l, j ≤ m := by
  cases l with
  | nil => cases h
  | cons a t =>
    unfold listMax at h
    rw [ok_inj] at h
    subst h
    induction t generalizing a with
    | nil => simp
    | cons b t ih =>
      simp only [List.foldl_cons]
      obtain ⟨h1, h2⟩ := ih (max a b)
      constructor
      · rcases List.mem_cons.mp h1 with h3 | h3
        · rcases max_choice a b with h4 | h4
          · rw [h3, h4]; simp
          · rw [h3, h4]; simp
        · exact List.mem_cons_of_mem _ (List.mem_cons_of_mem _ h3)
      · intro j hj
        have h3 := h2 (max a b) (by simp)
        rcases List.mem_cons.mp hj with rfl | hj
        · omega
        · rcases List.mem_cons.mp hj with rfl | hj
          · omega
          · exact h2 j (List.mem_cons_of_mem _ hj)

theorem listMin_total {l : List ℕ} (h : l ≠ []) : ∃ m, listMin l = .ok m := by
  cases l with
  | nil => exact absurd rfl h
  | cons a t => exact ⟨_, rfl⟩
theorem listMax_total {l : List ℕ} (h : l ≠ []) : ∃ m, listMax l = .ok m := by
  cases l with
  | nil => exact absurd rfl h
  | cons a t => exact ⟨_, rfl⟩

theorem maskSel_append (p : ℕ → Bool) (f1 f2 : List ℕ) (l1 l2 : List α) (h : f1.length = l1.length) :
    maskSel (f1 ++ f2) p (l1 ++ l2) = maskSel f1 p l1 ++ maskSel f2 p l2 := by
  unfold maskSel
  rw [List.zip_append h, List.filterMap_append]

theorem maskSel_replicate (p : ℕ → Bool) (n c : ℕ) (l : List α) (h : l.length = n) :
    maskSel (List.replicate n c) p l = if p c then l else [] := by
  subst h
  unfold maskSel
  induction l with
  | nil => simp
  | cons a l ih =>
    simp only [List.length_cons, List.replicate_succ, List.zip_cons_cons, List.filterMap_cons]
    rw [ih]
    cases p c <;> simp

end gen

variable {K : Type} [Field K] [LinearOrder K] [IsStrictOrderedRing K]

/-- Everything established on the way to a successful return of `storeHydraulics`. -/
theorem store_inv {dep vel : List (Fl K)} {online outlet flag : List ℕ} {E : List (Fl K)} {C : Bool} {st : HydStore K}
    (h : storeHydraulics dep vel online outlet flag E C = .ok st) :
    ∃ wl0 mn mx wmin wmax lv, scatter (fun z d => z + d) E online (maskSel flag (· == 1) dep) = .ok wl0 ∧
      listMin online = .ok mn ∧ listMax online = .ok mx ∧ wl0[mn]? = some wmin ∧
      (wl0.mapIdx (fun i w => if i < mn then wmin else w))[mx]? = some wmax ∧
      st.LagoonWL = (wl0.mapIdx (fun i w => if i < mn then wmin else w)).mapIdx (fun i w => if mx < i then wmax else w) ∧
      scatter (fun _ v => v) (List.replicate E.length nan) online (maskSel flag (· == 1) vel) = .ok lv ∧ st.LagoonVel = lv ∧
      (C = true → st.OutletDep = List.replicate E.length nan ∧ st.OutletVel = List.replicate E.length nan ∧
        st.EndDep = [nan, nan] ∧ st.EndVel = [nan, nan]) ∧
      (C = false → scatter (fun _ v => v) (List.replicate E.length nan) outlet (maskSel flag (· == 2) dep) = .ok st.OutletDep ∧
        scatter (fun _ v => v) (List.replicate E.length nan) outlet (maskSel flag (· == 2) vel) = .ok st.OutletVel ∧
        st.EndDep = maskSel flag (fun f => f == 3 || f == 4) dep ∧ st.EndVel = maskSel flag (fun f => f == 3 || f == 4) vel) := by
  unfold storeHydraulics at h
  simp only [bind_ok, ixGet_ok] at h
  obtain ⟨wl0, h1, mn, h2, mx, h3, wmin, h4, wmax, h5, lv, h6, h7⟩ := h
  refine ⟨wl0, mn, mx, wmin, wmax, lv, h1, h2, h3, h4, h5, ?_⟩
  cases C with
  | true =>
    simp only [if_true, pure_ok] at h7
    subst h7
    exact ⟨rfl, h6, rfl, fun _ => ⟨rfl, rfl, rfl, rfl⟩, by simp⟩
  | false =>
    simp only [Bool.false_eq_true, if_false, bind_ok, pure_ok] at h7
    obtain ⟨od, h8, ov, h9, rfl⟩ := h7
    exact ⟨rfl, h6, rfl, by simp, fun _ => ⟨h8, h9, rfl, rfl⟩⟩

theorem store_total (dep vel : List (Fl K)) (online outlet flag : List ℕ) (E : List (Fl K)) (C : Bool)
    (hne : online ≠ []) (hn : online.Nodup) (hb : ∀ i ∈ online, i < E.length)
    (hd : (maskSel flag (· == 1) dep).length = online.length) (hv : (maskSel flag (· == 1) vel).length = online.length)
    (ho : C = false → (∀ i ∈ outlet, i < E.length) ∧ (maskSel flag (· == 2) dep).length = outlet.length ∧
      (maskSel flag (· == 2) vel).length = outlet.length) :
    ∃ st, storeHydraulics dep vel online outlet flag E C = .ok st := by
  obtain ⟨wl0, h1⟩ := scatter_total (fun (z d : Fl K) => z + d) E online (maskSel flag (· == 1) dep) hd.symm hb
  obtain ⟨mn, h2⟩ := listMin_total hne
  obtain ⟨mx, h3⟩ := listMax_total hne
  have hl := (scatter_inv h1 hn).2.1
  have hmn : mn < wl0.length := by rw [hl]; exact hb _ (listMin_inv h2).1
  have hmx : mx < wl0.length := by rw [hl]; exact hb _ (listMax_inv h3).1
  obtain ⟨lv, h6⟩ := scatter_total (fun (_ v : Fl K) => v) (List.replicate E.length nan) online (maskSel flag (· == 1) vel) hv.symm (by simpa using hb)
  unfold storeHydraulics
  simp only [bind_ok, ixGet_ok]
  cases C with
  | true =>
    simp only [if_true, pure_ok]
    exact ⟨_, wl0, h1, mn, h2, mx, h3, _, List.getElem?_eq_getElem hmn, _, List.getElem?_eq_getElem (by simpa using hmx), lv, h6, rfl⟩
  | false =>
    obtain ⟨ho1, ho2, ho3⟩ := ho rfl
    obtain ⟨od, h8⟩ := scatter_total (fun (_ v : Fl K) => v) (List.replicate E.length nan) outlet (maskSel flag (· == 2) dep) ho2.symm (by simpa using ho1)
    obtain ⟨ov, h9⟩ := scatter_total (fun (_ v : Fl K) => v) (List.replicate E.length nan) outlet (maskSel flag (· == 2) vel) ho3.symm (by simpa using ho1)
    simp only [Bool.false_eq_true, if_false, bind_ok, pure_ok]
    exact ⟨_, wl0, h1, mn, h2, mx, h3, _, List.getElem?_eq_getElem hmn, _, List.getElem?_eq_getElem (by simpa using hmx), lv, h6, od, h8, ov, h9, rfl⟩

/-- Water level at the online transects. -/
theorem store_wl {dep vel : List (Fl K)} {online outlet flag : List ℕ} {E : List (Fl K)} {C : Bool} {st : HydStore K}
    (h : storeHydraulics dep vel online outlet flag E C = .ok st) (hn : online.Nodup)
    {k i : ℕ} {z d : Fl K} (hk : online[k]? = some i) (hz : E[i]? = some z) (hd : (maskSel flag (· == 1) dep)[k]? = some d) :
    st.LagoonWL[i]? = some (z + d) := by
  obtain ⟨wl0, mn, mx, wmin, wmax, lv, h1, h2, h3, h4, h5, h6, _⟩ := store_inv h
  have h7 := (scatter_inv h1 hn).2.2.2.1 k i d hk hd
  rw [hz] at h7
  have hi := List.mem_of_getElem? hk
  have h8 := (listMin_inv h2).2 i hi
  have h9 := (listMax_inv h3).2 i hi
  rw [h6, List.getElem?_mapIdx, List.getElem?_mapIdx, h7]
  simp [not_lt.mpr h8, not_lt.mpr h9]


/-! ### Re-assembling after a closure -/

theorem lastIx_total {α : Type} {p : α → Bool} {l : List α} {a : α} (ha : a ∈ l) (hp : p a = true) : ∃ i, lastIx p l = .ok i := by
  unfold lastIx
  obtain ⟨k, hk⟩ := List.mem_iff_getElem?.mp ha
  have : k ∈ whereIx p l := mem_whereIx.mpr ⟨a, hk, hp⟩
  cases hw : (whereIx p l).getLast? with
  | none => rw [List.getLast?_eq_none_iff] at hw; rw [hw] at this; cases this
  | some i => exact ⟨i, rfl⟩

theorem firstIx_total {α : Type} {p : α → Bool} {l : List α} {a : α} (ha : a ∈ l) (hp : p a = true) : ∃ i, firstIx p l = .ok i := by
  cases h : firstIx p l with
  | ok i => exact ⟨i, rfl⟩
  | error e => have := (firstIx_err h).2 a ha; rw [hp] at this; cases this

/-- The checks made on the online lagoon after the cut. -/
def CutCheck (a : ChanIn K) (online : List ℕ) : Prop :=
  ∃ (first last : ℕ) (rs : List (Transect K)), online[0]? = some first ∧ online.getLast? = some last ∧
    (((last : ℤ) - first).natAbs == online.length - 1) = true ∧ gather a.rows online = .ok rs ∧
    (rs.all (fun r => fin 0 <? lagWidth r)) = true

theorem cut_check {pp : PhysPars K} {a : ChanIn K} {s1 s : LagStage K} {C1 C : Bool} (h : cutStage pp a s1 C1 = .ok (s, C)) :
    CutCheck a s.online := by
  unfold cutStage at h
  simp only [bind_ok, pyAssert_ok, ixGet_ok, pyGet_last] at h
  obtain ⟨_, h1, rows1, h2, h3⟩ := h
  obtain ⟨i, hi, j, hj, _, h7, onr, h4, _, h5, h6⟩ := h3
  rw [pure_ok] at h6
  cases h6
  exact ⟨i, j, onr, hi, hj, h7, h4, h5⟩

theorem cut_mk_none {pp : PhysPars K} {a : ChanIn K} {s1 : LagStage K} {C1 : Bool} {rows1 : List (Transect K)}
    (hg : gather a.rows s1.online = .ok rows1) (hn : ∀ r ∈ rows1, (lagWidth r <? fin pp.MinOutletWidth) = false)
    (hc : CutCheck a s1.online) : cutStage pp a s1 C1 = .ok (s1, C1) := by
  obtain ⟨i, j, rs, h1, h2, h3, h4, h5⟩ := hc
  unfold cutStage
  simp only [bind_ok, pyAssert_ok, ixGet_ok, pyGet_last]
  have hne : s1.online ≠ [] := by intro h; rw [h] at h1; cases h1
  have hw : whereIx (fun r : Transect K => lagWidth r <? fin pp.MinOutletWidth) rows1 = [] := by
    rw [List.eq_nil_iff_forall_not_mem]
    intro k hk
    obtain ⟨r, hr, hp⟩ := mem_whereIx.mp hk
    rw [hn r (List.mem_of_getElem? hr)] at hp; cases hp
  refine ⟨(), by simpa using hne, rows1, hg, ?_⟩
  rw [hw]
  exact ⟨i, h1, j, h2, (), h3, rs, h4, (), h5, rfl⟩

theorem cut_mk_some {pp : PhysPars K} {a : ChanIn K} {s1 : LagStage K} {C1 : Bool} {rows1 : List (Transect K)} {k : ℕ} {r : Transect K}
    (hg : gather a.rows s1.online = .ok rows1) (hk : rows1[k]? = some r) (hp : (lagWidth r <? fin pp.MinOutletWidth) = true)
    (hmin : ∀ (j : ℕ), j < k → ∀ b, rows1[j]? = some b → (lagWidth b <? fin pp.MinOutletWidth) = false)
    (hc : CutCheck a (s1.online.take k)) : ∃ s, cutStage pp a s1 C1 = .ok (s, true) ∧ s.online = s1.online.take k := by
  obtain ⟨i, j, rs, h1, h2, h3, h4, h5⟩ := hc
  unfold cutStage
  simp only [bind_ok, pyAssert_ok, ixGet_ok, pyGet_last]
  have hne : s1.online ≠ [] := by intro h; rw [h] at h1; simp at h1
  have hf := firstIx_ok.mpr ⟨⟨r, hk, hp⟩, hmin⟩
  refine ⟨{ s1 with
          online := s1.online.take k
          endArea := s1.endArea + lagAreaOf a.Dx (rows1.drop k)
          endLen := s1.endLen + lagLenOf a.Dx (rows1.drop k) }, ⟨(), by simpa using hne, rows1, hg, ?_⟩, rfl⟩
  · unfold firstIx at hf
    cases hw : whereIx (fun r : Transect K => lagWidth r <? fin pp.MinOutletWidth) rows1 with
    | nil => rw [hw] at hf; cases hf
    | cons k' t =>
      rw [hw] at hf
      cases hf
      exact ⟨i, h1, j, h2, (), h3, rs, h4, (), h5, rfl⟩

/-- The online reach of a closed lagoon before the cut. -/
theorem lagoon_closed {a : ChanIn K} {X0 : ℕ} {r0 : Transect K} (h0 : a.rows[X0]? = some r0) (hw : (fin 0 <? lagWidth r0) = true) :
    ∃ s m, lagoonStage a X0 true = .ok s ∧ s.online = (List.range m).map (step a.EndX0 X0) ∧
      (∀ i ∈ s.online, i < a.rows.length) ∧
      (∀ (j : ℕ) r, ((fin 0 ≤? a.EndX0) = false → j ≤ X0) → a.rows[step a.EndX0 X0 j]? = some r → (fin 0 <? lagWidth r) = true → j < m) := by
  have hm := List.mem_of_getElem? h0
  have hlen := (List.getElem?_eq_some_iff.mp h0).1
  unfold lagoonStage
  simp only [if_true]
  have right : (fin 0 ≤? a.EndX0) = true → ∃ l, lastIx (fun r : Transect K => fin 0 <? lagWidth r) a.rows = .ok l ∧
      arangeUp X0 (l+1) = (List.range (l + 1 - X0)).map (step a.EndX0 X0) ∧ (∀ i ∈ arangeUp X0 (l+1), i < a.rows.length) ∧
      ∀ (j : ℕ) r, ((fin 0 ≤? a.EndX0) = false → j ≤ X0) → a.rows[step a.EndX0 X0 j]? = some r → (fin 0 <? lagWidth r) = true → j < l + 1 - X0 := by
    intro hb
    obtain ⟨l, hl⟩ := lastIx_total (p := fun r : Transect K => fin 0 <? lagWidth r) hm hw
    obtain ⟨⟨q, hq, _⟩, hmax⟩ := lastIx_ok.mp hl
    refine ⟨l, hl, ?_, ?_, ?_⟩
    · unfold arangeUp; apply List.map_congr_left; intro j _; simp [step, hb]
    · intro i hi
      have := (mem_arangeUp.mp hi).2
      have := (List.getElem?_eq_some_iff.mp hq).1
      omega
    · intro j r _ hj hr
      simp only [step, hb, if_true] at hj
      by_contra hc
      have := hmax (X0 + j) (by omega) r hj
      rw [hr] at this; cases this
  split
  · rename_i he
    obtain ⟨l, h1, h2, h3, h4⟩ := right (ble_of _ (Or.inl he))
    exact ⟨_, _, bind_ok.mpr ⟨l, h1, pure_ok.mpr rfl⟩, h2, h3, h4⟩
  · rename_i he
    split
    · rename_i he2
      obtain ⟨l, h1, h2, h3, h4⟩ := right (ble_of _ (Or.inr he2))
      exact ⟨_, _, bind_ok.mpr ⟨l, h1, pure_ok.mpr rfl⟩, h2, h3, h4⟩
    · rename_i he2
      have hb := not_ble_of _ he he2
      obtain ⟨l, hl⟩ := firstIx_total (p := fun r : Transect K => fin 0 <? lagWidth r) hm hw
      obtain ⟨_, hmin⟩ := firstIx_ok.mp hl
      refine ⟨_, X0 + 1 - l, bind_ok.mpr ⟨l, hl, pure_ok.mpr rfl⟩, ?_, ?_, ?_⟩
      · unfold arangeDown; apply List.map_congr_left; intro j _; simp [step, hb]
      · intro i hi
        have := (mem_arangeDown.mp hi).2
        omega
      · intro j r hj0 hj hr
        have := hj0 hb
        simp only [step, hb, Bool.false_eq_true, if_false] at hj
        by_contra hc
        have := hmin (X0 - j) (by omega) r hj
        rw [hr] at this; cases this

/-- Re-assembling after a closure in the lagoon gives the same online lagoon. -/
theorem reclose {pp : PhysPars K} {a : ChanIn K} {X0 : ℕ} {r0 : Transect K} {s1 s : LagStage K} {C1 : Bool}
    (h0 : a.rows[X0]? = some r0) (hw : (fin 0 <? lagWidth r0) = true)
    (h1 : lagoonStage a X0 C1 = .ok s1) (h2 : cutStage pp a s1 C1 = .ok (s, true)) :
    ∃ s1' s', lagoonStage a X0 true = .ok s1' ∧ cutStage pp a s1' true = .ok (s', true) ∧ s'.online = s.online := by
  cases C1 with
  | true => exact ⟨s1, s, h1, h2, rfl⟩
  | false =>
    obtain ⟨_, rows1, hr1, hne, _, _, hpos, hc⟩ := cut_inv h2
    rcases hc with ⟨_, hc, _⟩ | ⟨k, r, _, hk0, hk, hkr, hkn, hkm, _⟩
    · cases hc
    obtain ⟨m, hm, hb⟩ := lagoon_shape h1
    obtain ⟨s1', m', hl', hm', hlt', hin'⟩ := lagoon_closed h0 hw
    obtain ⟨rows1', hr1'⟩ := gather_range hlt'
    have hck := cut_check h2
    have hkm1 : k < m := by
      have := (List.getElem?_eq_some_iff.mp hkr).1
      rw [gather_length hr1, hm] at this
      simpa using this
    have hon : s.online = (List.range k).map (step a.EndX0 X0) := by
      rw [hk, hm, ← List.map_take, List.take_range, min_eq_left (by omega)]
    have hkm' : k ≤ m' := by
      obtain ⟨q, hq, hqp⟩ := hpos (step a.EndX0 X0 (k-1)) (by rw [hon]; exact List.mem_map.mpr ⟨k-1, List.mem_range.mpr (by omega), rfl⟩)
      have := hin' (k-1) q (fun h => by have := hb h; omega) hq hqp
      omega
    have htake : s1'.online.take k = s.online := by
      rw [hm', hon, ← List.map_take, List.take_range, min_eq_left hkm']
    have hrow : ∀ (j : ℕ), j < m → j < m' → rows1'[j]? = rows1[j]? := by
      intro j hj hj'
      rw [gather_getElem? hr1', gather_getElem? hr1, hm, hm']
      simp [hj, hj']
    rcases Nat.eq_or_lt_of_le hkm' with heq | hlt
    · have hs1' : s1'.online = s.online := by rw [hm', hon, heq]
      refine ⟨s1', s1', hl', cut_mk_none hr1' ?_ (by rw [hs1']; exact hck), hs1'⟩
      intro q hq
      obtain ⟨j, hj⟩ := List.mem_iff_getElem?.mp hq
      have hj2 : j < m' := by
        have := (List.getElem?_eq_some_iff.mp hj).1
        rw [gather_length hr1', hm'] at this
        simpa using this
      rw [hrow j (by omega) hj2] at hj
      exact hkm j (by omega) q hj
    · obtain ⟨s', hs', hon'⟩ := cut_mk_some (C1 := true) hr1' (by rw [hrow k hkm1 hlt]; exact hkr) hkn (by
        intro j hj b hb'
        rw [hrow j (by omega) (by omega)] at hb'
        exact hkm j hj b hb') (by rw [htake]; exact hck)
      exact ⟨s1', s', hl', hs', by rw [hon', htake]⟩

end Verif.Model
