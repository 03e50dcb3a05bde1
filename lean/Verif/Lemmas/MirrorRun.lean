import Verif.Lemmas.Mirror
import Verif.Lemmas.DatumRun
import Verif.Lemmas.ChannelStore

set_option autoImplicit false
set_option linter.unusedSectionVars false

/-! # Left and right exchanged: forcing and stored hydraulics -/

namespace Verif.Model
open Verif Fl Spec

variable {K : Type} [Field K] [LinearOrder K] [IsStrictOrderedRing K]

/-! ## Interpolation of changed signs -/

theorem neg_sub_neg' (a b : Fl K) : -a - -b = -(a - b) := by
  cases a <;> cases b <;> first | rfl | (simp; ring)
theorem neg_add' (a b : Fl K) : -a + -b = -(a + b) := by
  cases a <;> cases b <;> first | rfl | (simp; ring)
theorem infOfSign_flip (x : K) : infOfSign (-x) = -infOfSign x := by
  unfold infOfSign
  rcases lt_trichotomy x 0 with h | h | h
  · simp [h, h.not_gt, h.ne]; rfl
  · subst h; simp
  · simp [h, h.not_gt, h.ne']; rfl
theorem neg_mul_fin (a : Fl K) (x : K) : -a * fin x = -(a * fin x) := by
  cases a with
  | nan => rfl
  | fin y => simp
  | pinf => show infOfSign (-x) = -infOfSign x; exact infOfSign_flip x
  | ninf =>
    show infOfSign x = -infOfSign (-x)
    rw [infOfSign_flip, neg_neg']
theorem neg_div_fin (a : Fl K) (x : K) : -a / fin x = -(a / fin x) := by
  cases a with
  | nan => rfl
  | fin y =>
    rw [neg_fin, div_fin_def, div_fin_def]
    split
    · exact infOfSign_flip y
    · rw [neg_fin, neg_div]
  | pinf =>
    show (if (0:K) ≤ x then ninf else pinf : Fl K) = -(if (0:K) ≤ x then pinf else ninf)
    split <;> rfl
  | ninf =>
    show (if (0:K) ≤ x then pinf else ninf : Fl K) = -(if (0:K) ≤ x then ninf else pinf)
    split <;> rfl

/-- A series with changed signs. -/
def nser (ts : Series K) : Series K := ts.map (fun r => (r.1, -r.2))

theorem interpScan_ng (x0 : K) (f0 : Fl K) (l : List (K × Fl K)) (x : K) :
    interpScan x0 (-f0) (l.map (fun r => (r.1, -r.2))) x = -(interpScan x0 f0 l x) := by
  induction l generalizing x0 f0 with
  | nil => rfl
  | cons r l ih =>
    obtain ⟨x1, f1⟩ := r
    simp only [List.map_cons, interpScan, ih, neg_sub_neg', neg_div_fin, neg_mul_fin, neg_add']
    split
    · split <;> rfl
    · rfl

theorem fillAt_ng (l : Series K) (t : ℤ) : fillAt (nser l) t = -(fillAt l t) := by
  cases l with
  | nil => rfl
  | cons r l =>
    obtain ⟨t0, v0⟩ := r
    simp only [nser, List.map_cons, fillAt]
    split
    · rfl
    · rw [← interpScan_ng]
      congr 1
      rw [List.map_map, List.map_map]
      rfl

theorem interpTime_ng (l : Series K) : interpTime (nser l) = nser (interpTime l) := by
  unfold interpTime
  have hf : (nser l).filter (fun r => !r.2.isnan) = nser (l.filter (fun r => !r.2.isnan)) := by
    unfold nser
    rw [List.filter_map]
    congr 2
    funext r
    simp only [Function.comp_def, neg_isnan]
  simp only [hf]
  conv_lhs => unfold nser
  conv_rhs => unfold nser
  rw [List.map_map, List.map_map]
  apply List.map_congr_left
  intro r _
  simp only [Function.comp_def, neg_isnan]
  split
  · congr 1
    exact fillAt_ng _ _
  · rfl

theorem lookup_ng (l : Series K) (t : ℤ) : (nser l).lookup t = (l.lookup t).map (fun v => -v) := by
  induction l with
  | nil => rfl
  | cons r l ih =>
    unfold nser at *
    obtain ⟨t0, v⟩ := r
    simp only [List.map_cons, List.lookup, ih]
    split <;> rfl

theorem fst_ng (l : Series K) : (nser l).map Prod.fst = l.map Prod.fst := by
  unfold nser
  rw [List.map_map]
  rfl

theorem orderedInsert_ng (a : ℤ × Fl K) (l : Series K) :
    (nser l).orderedInsert (fun a b => a.1 ≤ b.1) (a.1, -a.2) = nser (l.orderedInsert (fun a b => a.1 ≤ b.1) a) := by
  induction l with
  | nil => rfl
  | cons r l ih =>
    unfold nser at *
    simp only [List.map_cons, List.orderedInsert]
    split
    · rfl
    · rw [ih]; rfl

theorem sort_ng (l : Series K) : (nser l).insertionSort (fun a b => a.1 ≤ b.1) = nser (l.insertionSort (fun a b => a.1 ≤ b.1)) := by
  induction l with
  | nil => rfl
  | cons r l ih =>
    show ((nser l).insertionSort _).orderedInsert _ _ = nser ((l.insertionSort _).orderedInsert _ _)
    rw [ih, orderedInsert_ng]

theorem requestRows_ng (sel : Series K) (req : List ℤ) : requestRows (nser sel) req = (requestRows sel req).map nser := by
  unfold requestRows
  rw [show (nser sel).map (·.1) = sel.map (·.1) from fst_ng sel]
  split
  · show Except.ok _ = Except.ok _
    congr 1
    rw [← sort_ng]
    congr 1
    unfold nser
    rw [List.map_append, List.map_map]
    rfl
  · rfl

theorem interpolateAt_ng (ts : Series K) (req : List ℤ) : interpolateAt (nser ts) req = (interpolateAt ts req).map (List.map fun v => -v) := by
  unfold interpolateAt
  refine bind_same rfl (fun r0 => ?_)
  refine bind_same ?_ (fun fromIx => bind_same rfl (fun rN => ?_))
  · unfold nser
    rw [lastIx_map]
  refine bind_same ?_ (fun toIx => ?_)
  · unfold nser
    rw [firstIx_map]
  refine bind_mv (g := nser) ?_ (fun rows => ?_)
  · rw [← requestRows_ng]
    unfold nser
    rw [List.map_drop, List.map_take]
  simp only [interpTime_ng, lookup_ng]
  refine mapM_mv (γ := Unit) (fun t => ?_) _
  cases (interpTime rows).lookup t <;> rfl

theorem wavesAt_flip (ws : List (ℤ × Wave K)) (t : ℤ) : wavesAt (ws.map fun r => (r.1, flipWave r.2)) t = (wavesAt ws t).map flipWave := by
  have c1 : waveCol (ws.map fun r => (r.1, flipWave r.2)) (·.EDir_h) = nser (waveCol ws (·.EDir_h)) := by
    unfold waveCol nser
    rw [List.map_map, List.map_map]; rfl
  have c2 : ∀ f : Wave K → Fl K, (∀ w, f (flipWave w) = f w) → waveCol (ws.map fun r => (r.1, flipWave r.2)) f = waveCol ws f := by
    intro f hf
    unfold waveCol
    rw [List.map_map]
    apply List.map_congr_left
    intro r _
    simp [hf]
  unfold wavesAt
  rw [c1, c2 (·.WavePower) (fun _ => rfl), c2 (·.WavePeriod) (fun _ => rfl), c2 (·.Wlen_h) (fun _ => rfl), c2 (·.Hsig_Offshore) (fun _ => rfl)]
  refine bind_mv (interpolateAt_ng _ _) (fun v => bind_mv (ixGet_map _ _ _) (fun d => ?_))
  exact bind_same rfl fun _ => bind_same rfl fun _ => bind_same rfl fun _ => bind_same rfl fun _ => bind_same rfl fun _ => bind_same rfl fun _ =>
    bind_same rfl fun _ => bind_same rfl fun _ => rfl

/-! ## Storing -/

section store
variable {α β : Type}

theorem set_reverse' {l : List α} {i : ℕ} (h : i < l.length) (v : α) : l.reverse.set (flipIx l.length i) v = (l.set i v).reverse := by
  apply List.ext_getElem?
  intro j
  by_cases hj : j < l.length
  · rw [List.getElem?_reverse (by simpa using hj), List.getElem?_set, List.getElem?_set, List.length_set, List.length_reverse]
    unfold flipIx
    by_cases e : l.length - 1 - i = j
    · have : i = l.length - 1 - j := by omega
      rw [if_pos e, if_pos this, if_pos (by omega), if_pos h]
    · have : i ≠ l.length - 1 - j := by omega
      rw [if_neg e, if_neg this, List.getElem?_reverse hj]
  · rw [List.getElem?_eq_none (by simpa using hj), List.getElem?_eq_none (by simpa using hj)]

theorem scatter_flip (f : α → β → α) : ∀ (l : List α) (ix : List ℕ) (vs : List β), (∀ i ∈ ix, i < l.length) →
    scatter f l.reverse (ix.map (flipIx l.length)) vs = (scatter f l ix vs).map List.reverse
  | l, [], [], _ => rfl
  | l, [], _ :: _, _ => rfl
  | l, _ :: _, [], _ => rfl
  | l, i :: is, v :: vs, h => by
    have hi := h i (by simp)
    rw [List.map_cons]
    unfold scatter
    refine bind_same (ixGet_reverse hi) (fun old => ?_)
    rw [set_reverse' hi]
    have := scatter_flip f (l.set i (f old v)) is vs (fun j hj => by rw [List.length_set]; exact h j (by simp [hj]))
    rw [List.length_set] at this
    exact this

theorem foldl_min_le : ∀ (l : List ℕ) (a : ℕ), (∀ x ∈ a :: l, l.foldl min a ≤ x) ∧ l.foldl min a ∈ a :: l
  | [], a => by simp
  | b :: l, a => by
    obtain ⟨h1, h2⟩ := foldl_min_le l (min a b)
    rw [List.foldl_cons]
    have h0 := h1 (min a b) (by simp)
    refine ⟨?_, ?_⟩
    · intro x hx
      rcases List.mem_cons.mp hx with rfl | hx
      · exact h0.trans (min_le_left _ _)
      · rcases List.mem_cons.mp hx with rfl | hx
        · exact h0.trans (min_le_right _ _)
        · exact h1 x (by simp [hx])
    · rcases List.mem_cons.mp h2 with h | h
      · rw [h]
        rcases min_choice a b with e | e <;> rw [e] <;> simp
      · simp [h]

theorem foldl_max_ge : ∀ (l : List ℕ) (a : ℕ), (∀ x ∈ a :: l, x ≤ l.foldl max a) ∧ l.foldl max a ∈ a :: l
  | [], a => by simp
  | b :: l, a => by
    obtain ⟨h1, h2⟩ := foldl_max_ge l (max a b)
    rw [List.foldl_cons]
    have h0 := h1 (max a b) (by simp)
    refine ⟨?_, ?_⟩
    · intro x hx
      rcases List.mem_cons.mp hx with rfl | hx
      · exact (le_max_left _ _).trans h0
      · rcases List.mem_cons.mp hx with rfl | hx
        · exact (le_max_right _ _).trans h0
        · exact h1 x (by simp [hx])
    · rcases List.mem_cons.mp h2 with h | h
      · rw [h]
        rcases max_choice a b with e | e <;> rw [e] <;> simp
      · simp [h]

theorem listMin_ok {l : List ℕ} {m : ℕ} (h : listMin l = .ok m) : (∀ x ∈ l, m ≤ x) ∧ m ∈ l := by
  unfold listMin at h
  cases l with
  | nil => cases h
  | cons a t => cases h; exact foldl_min_le t a
theorem listMax_ok {l : List ℕ} {m : ℕ} (h : listMax l = .ok m) : (∀ x ∈ l, x ≤ m) ∧ m ∈ l := by
  unfold listMax at h
  cases l with
  | nil => cases h
  | cons a t => cases h; exact foldl_max_ge t a

theorem listMin_flip {n : ℕ} {l : List ℕ} (h : ∀ i ∈ l, i < n) : listMin (l.map (flipIx n)) = (listMax l).map (flipIx n) := by
  cases l with
  | nil => rfl
  | cons a t =>
    obtain ⟨m, hm⟩ : ∃ m, listMax (a :: t) = .ok m := ⟨_, rfl⟩
    obtain ⟨m', hm'⟩ : ∃ m', listMin ((a :: t).map (flipIx n)) = .ok m' := ⟨_, rfl⟩
    obtain ⟨g1, g2⟩ := listMax_ok hm
    obtain ⟨g3, g4⟩ := listMin_ok hm'
    rw [hm, hm']
    show Except.ok _ = Except.ok _
    congr 1
    apply le_antisymm
    · exact g3 _ (List.mem_map_of_mem g2)
    · obtain ⟨i, hi, rfl⟩ := List.mem_map.mp g4
      have := g1 i hi
      unfold flipIx; omega

theorem listMax_flip {n : ℕ} {l : List ℕ} (h : ∀ i ∈ l, i < n) : listMax (l.map (flipIx n)) = (listMin l).map (flipIx n) := by
  cases l with
  | nil => rfl
  | cons a t =>
    obtain ⟨m, hm⟩ : ∃ m, listMin (a :: t) = .ok m := ⟨_, rfl⟩
    obtain ⟨m', hm'⟩ : ∃ m', listMax ((a :: t).map (flipIx n)) = .ok m' := ⟨_, rfl⟩
    obtain ⟨g1, g2⟩ := listMin_ok hm
    obtain ⟨g3, g4⟩ := listMax_ok hm'
    rw [hm, hm']
    show Except.ok _ = Except.ok _
    congr 1
    apply le_antisymm
    · obtain ⟨i, hi, rfl⟩ := List.mem_map.mp g4
      have := g1 i hi
      unfold flipIx; omega
    · exact g3 _ (List.mem_map_of_mem g2)

theorem ok_bind_eq {ε γ : Type} (a : α) (f : α → Except ε γ) : ((.ok a : Except ε α) >>= f) = f a := rfl

theorem scatter_len {f : α → β → α} : ∀ {l : List α} {ix : List ℕ} {vs : List β} {l' : List α}, scatter f l ix vs = .ok l' → l'.length = l.length
  | l, [], [], l', h => by cases h; rfl
  | l, [], _ :: _, l', h => by cases h
  | l, _ :: _, [], l', h => by cases h
  | l, i :: is, v :: vs, l', h => by
    unfold scatter at h
    rw [bind_ok] at h
    obtain ⟨old, _, h⟩ := h
    rw [scatter_len h, List.length_set]

end store

theorem store_flip {dep vel : List (Fl K)} {online outlet flag : List ℕ} {z : List (Fl K)} (h1 : ∀ i ∈ online, i < z.length) (h2 : ∀ i ∈ outlet, i < z.length) (C : Bool) :
    storeHydraulics dep vel (online.map (flipIx z.length)) (outlet.map (flipIx z.length)) flag z.reverse C =
      (storeHydraulics dep vel online outlet flag z C).map flipHyd := by
  have hrep : (List.replicate z.length (nan : Fl K)) = (List.replicate z.length (nan : Fl K)).reverse := by rw [List.reverse_replicate]
  have hsc : ∀ (ix : List ℕ) (vs : List (Fl K)), (∀ i ∈ ix, i < z.length) →
      scatter (fun _ v => v) (List.replicate z.length (nan : Fl K)) (ix.map (flipIx z.length)) vs =
        (scatter (fun _ v => v) (List.replicate z.length (nan : Fl K)) ix vs).map List.reverse := by
    intro ix vs hix
    have := scatter_flip (fun (_ : Fl K) (v : Fl K) => v) (List.replicate z.length (nan : Fl K)) ix vs (by simpa using hix)
    rw [List.reverse_replicate, List.length_replicate] at this
    exact this
  unfold storeHydraulics
  rw [List.length_reverse]
  refine bind_mv' (scatter_flip _ z online _ h1) (fun wl hwl => ?_)
  have hlen := scatter_len hwl
  rw [listMin_flip h1, listMax_flip h1]
  cases hmn : listMin online with
  | error e =>
    have : listMax online = .error e := by
      cases online with
      | nil => cases hmn; rfl
      | cons a t => cases hmn
    rw [this]; rfl
  | ok mn =>
  cases hmx : listMax online with
  | error e =>
    exfalso
    cases online with
    | nil => cases hmn
    | cons a t => cases hmx
  | ok mx =>
  obtain ⟨n1, n2⟩ := listMin_ok hmn
  obtain ⟨x1, x2⟩ := listMax_ok hmx
  have hmnz := h1 _ n2
  have hmxz := h1 _ x2
  have hle := n1 _ x2
  show (ixGet wl.reverse (flipIx z.length mx) >>= _) = Except.map flipHyd (ixGet wl mn >>= _)
  obtain ⟨wmn, hwmn⟩ : ∃ w, wl[mn]? = some w := ⟨_, List.getElem?_eq_getElem (by omega)⟩
  obtain ⟨wmx, hwmx⟩ : ∃ w, wl[mx]? = some w := ⟨_, List.getElem?_eq_getElem (by omega)⟩
  have a1 : ixGet wl mn = .ok wmn := ixGet_ok.mpr hwmn
  have a2 : ixGet wl.reverse (flipIx z.length mx) = .ok wmx := by
    rw [← hlen, ixGet_reverse (by omega)]; exact ixGet_ok.mpr hwmx
  rw [a1, a2, ok_bind_eq, ok_bind_eq]
  have b1 : ixGet (wl.mapIdx (fun i w => if i < mn then wmn else w)) mx = .ok wmx := by
    rw [ixGet_ok, List.getElem?_mapIdx, hwmx]
    simp only [Option.map_some]
    rw [if_neg (by omega)]
  have b2 : ixGet (wl.reverse.mapIdx (fun i w => if i < flipIx z.length mx then wmx else w)) (flipIx z.length mn) = .ok wmn := by
    rw [ixGet_ok, List.getElem?_mapIdx]
    have : wl.reverse[flipIx z.length mn]? = some wmn := by
      rw [← hlen]; exact ixGet_ok.mp ((ixGet_reverse (by omega)).trans a1)
    rw [this]
    simp only [Option.map_some]
    rw [if_neg (by unfold flipIx; omega)]
  have b3 : ((wl.reverse.mapIdx (fun i w => if i < flipIx z.length mx then wmx else w)).mapIdx (fun i w => if flipIx z.length mn < i then wmn else w)) =
      ((wl.mapIdx (fun i w => if i < mn then wmn else w)).mapIdx (fun i w => if mx < i then wmx else w)).reverse := by
    apply List.ext_getElem?
    intro j
    by_cases hj : j < z.length
    · rw [List.getElem?_reverse (by simp [hlen, hj])]
      simp only [List.getElem?_mapIdx, List.length_mapIdx]
      rw [List.getElem?_reverse (by omega)]
      obtain ⟨v, hv⟩ : ∃ v, wl[wl.length - 1 - j]? = some v := ⟨_, List.getElem?_eq_getElem (by omega)⟩
      rw [hv]
      simp only [Option.map_some, Option.some.injEq]
      unfold flipIx
      by_cases c1 : j < z.length - 1 - mx
      · rw [if_pos c1, if_neg (by omega), if_pos (by omega)]
      · rw [if_neg c1]
        by_cases c2 : z.length - 1 - mn < j
        · rw [if_pos c2, if_neg (by omega), if_pos (by omega)]
        · rw [if_neg c2, if_neg (by omega), if_neg (by omega)]
    · rw [List.getElem?_eq_none (by simp; omega), List.getElem?_eq_none (by simp; omega)]
  dsimp only
  rw [b1, b2, ok_bind_eq, ok_bind_eq, b3]
  refine bind_mv' (hsc _ _ h1) (fun lv _ => ?_)
  cases C with
  | true =>
    simp only [if_true]
    show Except.ok _ = Except.ok _
    simp [flipHyd, List.reverse_replicate]
  | false =>
    simp only [Bool.false_eq_true, if_false]
    exact bind_mv' (hsc _ _ h2) (fun od _ => bind_mv' (hsc _ _ h2) (fun ov _ => rfl))

theorem storeBedload_flip {bed : List (Fl K)} {n : ℕ} {online outlet flag : List ℕ} (h1 : ∀ i ∈ online, i < n) (h2 : ∀ i ∈ outlet, i < n) (C : Bool) :
    storeBedload bed n (online.map (flipIx n)) (outlet.map (flipIx n)) flag C =
      (storeBedload bed n online outlet flag C).map fun o => (o.1.reverse, o.2.1.reverse, o.2.2) := by
  have hsc : ∀ (ix : List ℕ) (vs : List (Fl K)), (∀ i ∈ ix, i < n) →
      scatter (fun _ v => v) (List.replicate n (fin 0 : Fl K)) (ix.map (flipIx n)) vs =
        (scatter (fun _ v => v) (List.replicate n (fin 0 : Fl K)) ix vs).map List.reverse := by
    intro ix vs hix
    have := scatter_flip (fun (_ : Fl K) (v : Fl K) => v) (List.replicate n (fin 0 : Fl K)) ix vs (by simpa using hix)
    rw [List.reverse_replicate, List.length_replicate] at this
    exact this
  unfold storeBedload
  dsimp only
  split
  · rfl
  · cases C with
    | true =>
      simp only [if_true]
      rw [← List.map_dropLast]
      refine bind_mv' (hsc _ _ (fun i hi => h1 i (List.mem_of_mem_dropLast hi))) (fun lb _ => ?_)
      show Except.ok _ = Except.ok _
      simp [List.reverse_replicate]
    | false =>
      simp only [Bool.false_eq_true, if_false]
      exact bind_mv' (hsc _ _ h2) (fun ob _ => bind_mv' (hsc _ _ h1) (fun lb _ => rfl))

/-! ## A pass up to the morphological update -/

theorem chan_lt [FloorRing K] {pp : PhysPars K} {a : ChanIn K} {c : ChanOut K} (h : assembleChannel pp a = .ok c) :
    (∀ i ∈ c.online, i < a.rows.length) ∧ (∀ i ∈ c.outlet, i < a.rows.length) := by
  unfold assembleChannel at h
  rw [bind_ok] at h
  obtain ⟨X0, hX0, h⟩ := h
  have hX := (List.getElem?_eq_some_iff.mp (firstIx_ok.mp hX0).1.choose_spec.1).1
  rw [bind_ok] at h
  obtain ⟨⟨outlet, ow, C⟩, ho, h⟩ := h
  have hout : ∀ i ∈ outlet, i < a.rows.length := by
    unfold outletStage at ho
    split at ho
    · cases ho; simp
    · rw [bind_ok] at ho
      obtain ⟨rs, _, ho⟩ := ho
      dsimp only at ho
      split at ho
      · cases ho; simp
      · split at ho
        · cases ho
        · cases ho
          exact outletIx_lt
  simp only [bind_ok, pure_ok] at h
  obtain ⟨_, _, _, _, _, _, s, hs, ⟨s', C'⟩, hcut, _, _, _, _, _, _, _, _, _, _, _, _, _, _, _, _, _, _, rfl⟩ := h
  exact ⟨fun i hi => lagoonStage_lt hX hs i (cutStage_sub hcut i hi), hout⟩

/-- Arguments of `updateMorphology` with left and right exchanged. -/
def flipMorIn (a : MorIn K) : MorIn K :=
  { a with rows := flipRows a.rows, EndX0 := -a.EndX0, EndX1 := -a.EndX1, online := a.online.map (flipIx a.rows.length),
           outlet := a.outlet.map (flipIx a.rows.length), LagoonWL := a.LagoonWL.reverse, OutletDep := a.OutletDep.reverse,
           LST := (a.LST.map (fun q => -q)).reverse, CST := a.CST.reverse, OverwashProp := a.OverwashProp.reverse }

theorem compute_flip [FloorRing K] {e : Env K} {s : CoreSt K} (hI : Impartial e.parts) (hA : Aside s.Closed e.Dx s.EndX0 s.EndX1) (hd : e.Dx ≠ 0)
    (hs : SizedIn (chanIn e s)) (hx : (s.rows.map (·.x)).Nodup) {p : PassOut K} (h : compute e s = .ok p) :
    compute (flipEnv e) (flipSt s) =
      (updateMorphology e.pp (e.junk1 s.passes) (e.junk2 s.passes) (flipMorIn (morIn e s p.chan p.dep p.hyd p.bed p.LST p.CST p.owp))).map fun m =>
        { p with chan := flipChan s.rows.length p.chan, hyd := flipHyd p.hyd, wave := flipWave p.wave, LST := (p.LST.map (fun q => -q)).reverse,
                 CST := p.CST.reverse, owp := p.owp.reverse, mor := m } := by
  obtain ⟨fl, sl, hc⟩ := compute_inv h
  obtain ⟨c1, c2⟩ := chan_lt hc.chan
  have n3 : (s.rows.map (·.z3)).length = s.rows.length := by simp
  have e1 : assembleChannel e.pp (chanIn (flipEnv e) (flipSt s)) = .ok (flipChan s.rows.length p.chan) := by
    have := assemble_flip e.pp (a := chanIn e s) hA hd hs hx
    rw [hc.chan] at this
    exact this
  have e2 : hydraulics (flipEnv e) (flipChan s.rows.length p.chan) fl sl = .ok (p.dep, p.vel) := by
    rw [← hc.hydro]
    unfold hydraulics
    show (match e.parts.unsteady (flipChan s.rows.length p.chan) (fl.zip sl) with | .ok hv => _ | .error _ => _) = _
    rw [hI.unsteady]
    cases e.parts.unsteady p.chan (fl.zip sl) with
    | ok hv => rfl
    | error er =>
      show (do let q ← pyGet fl (-1); let w ← pyGet sl (-1); e.parts.steady (flipChan s.rows.length p.chan) q w) = _
      simp only [hI.steady]
  have e3 : storeHydraulics p.dep p.vel (flipChan s.rows.length p.chan).online (flipChan s.rows.length p.chan).outlet (flipChan s.rows.length p.chan).flag
      ((flipSt s).rows.map (·.z3)) (flipChan s.rows.length p.chan).closed = .ok (flipHyd p.hyd) := by
    have hz : (flipSt s).rows.map (·.z3) = (s.rows.map (·.z3)).reverse := by
      show (flipRows s.rows).map (·.z3) = _
      unfold flipRows
      rw [List.map_reverse, List.map_map]
      rfl
    have := store_flip (dep := p.dep) (vel := p.vel) (flag := p.chan.flag) (z := s.rows.map (·.z3)) (online := p.chan.online) (outlet := p.chan.outlet)
      (by rw [n3]; exact c1) (by rw [n3]; exact c2) p.chan.closed
    rw [hc.store, n3] at this
    rw [hz]
    exact this
  have e4 : wavesAt (flipEnv e).waves s.time = .ok (flipWave p.wave) := by
    have := wavesAt_flip e.waves s.time
    rw [hc.wave] at this
    exact this
  have e5 : (flipEnv e).parts.lst ((flipSt s).rows.map (·.y0)) (flipWave p.wave) = (p.LST.map (fun q => -q)).reverse := by
    have hy : (flipSt s).rows.map (·.y0) = (s.rows.map (·.y0)).reverse := by
      show (flipRows s.rows).map (·.y0) = _
      unfold flipRows
      rw [List.map_reverse, List.map_map]
      rfl
    rw [hy, hc.lst]
    exact hI.lst _ _
  have e6 : (flipEnv e).parts.overtop ((flipEnv e).parts.runup (flipWave p.wave)) p.sea (flipSt s).rows = .ok (p.CST.reverse, p.owp.reverse) := by
    have := hI.overtop (e.parts.runup p.wave) p.sea s.rows
    rw [hc.cst] at this
    rw [← hI.runup] at this
    exact this
  have e7 : morIn (flipEnv e) (flipSt s) (flipChan s.rows.length p.chan) p.dep (flipHyd p.hyd) p.bed (p.LST.map (fun q => -q)).reverse p.CST.reverse p.owp.reverse =
      flipMorIn (morIn e s p.chan p.dep p.hyd p.bed p.LST p.CST p.owp) := by
    have : boolFl (K := K) p.owp.reverse = (boolFl p.owp).reverse := by unfold boolFl; rw [List.map_reverse]
    unfold morIn flipMorIn
    rw [this]
    rfl
  unfold compute
  show (assembleChannel e.pp (chanIn (flipEnv e) (flipSt s)) >>= _) = _
  rw [e1, ok_bind_eq]
  show (hydTimes s.time s.dt e.tp.HydDt >>= _) = _
  rw [hc.window, ok_bind_eq]
  show (interpolateAt e.flow p.window >>= _) = _
  rw [hc.flow, ok_bind_eq]
  show (interpolateAt e.sea p.window >>= _) = _
  rw [hc.sea, ok_bind_eq, e2, ok_bind_eq]
  dsimp only
  rw [e3, ok_bind_eq]
  show (e.parts.bedload p.chan.width p.dep p.vel >>= _) = _
  rw [hc.bed, ok_bind_eq]
  show (pyAssert (decide (p.bed.length = p.chan.elev.length - 1)) >>= _) = _
  rw [(pyAssert_ok (u := ())).mpr (decide_eq_true hc.bedLen), ok_bind_eq]
  show (wavesAt (flipEnv e).waves s.time >>= _) = _
  rw [e4, ok_bind_eq, e5, pyGet_last.mpr hc.flowLast, ok_bind_eq, pyGet_last.mpr hc.seaLast, ok_bind_eq, e6, ok_bind_eq]
  dsimp only
  rw [e7]
  show (updateMorphology e.pp (e.junk1 s.passes) (e.junk2 s.passes) _ >>= _) = _
  cases updateMorphology e.pp (e.junk1 s.passes) (e.junk2 s.passes) (flipMorIn (morIn e s p.chan p.dep p.hyd p.bed p.LST p.CST p.owp)) <;> rfl

end Verif.Model
