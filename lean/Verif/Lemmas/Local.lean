import Verif.Lemmas.Relic
import Verif.Lemmas.Plain
import Verif.Spec.Local

set_option autoImplicit false
set_option linter.unusedSectionVars false

/-! # A single transect through a step with a closed lagoon -/

namespace Verif.Model
open Verif Fl Verif.Spec List

variable {K : Type} [Field K] [LinearOrder K] [IsStrictOrderedRing K]

/-! ## The rates at one transect -/

theorem scatter_same {f : Fl K → Fl K → Fl K} {i : ℕ} : ∀ {l l' : List (Fl K)} {ix : List ℕ} {vs vs' r r' : List (Fl K)},
    scatter f l ix vs = .ok r → scatter f l' ix vs' = .ok r' → l'[i]? = l[i]? → (∀ k : ℕ, ix[k]? = some i → vs'[k]? = vs[k]?) → r'[i]? = r[i]?
  | l, l', [], [], [], r, r', h, h', e, _ => by cases h; cases h'; exact e
  | l, l', [], [], _ :: _, r, r', h, h', e, _ => by cases h'
  | l, l', [], _ :: _, _, r, r', h, h', e, _ => by cases h
  | l, l', _ :: _, [], _, r, r', h, h', e, _ => by cases h
  | l, l', _ :: _, _ :: _, [], r, r', h, h', e, _ => by cases h'
  | l, l', j :: ix, v :: vs, v' :: vs', r, r', h, h', e, hv => by
    simp only [scatter, bind_ok, ixGet_ok] at h h'
    obtain ⟨old, ho, h⟩ := h
    obtain ⟨old', ho', h'⟩ := h'
    refine scatter_same h h' ?_ (fun k hk => hv (k + 1) hk)
    by_cases hj : j = i
    · subst hj
      have hl := (List.getElem?_eq_some_iff.mp ho).1
      have hl' := (List.getElem?_eq_some_iff.mp ho').1
      rw [e, ho] at ho'
      cases ho'
      have := hv 0 rfl
      cases this
      rw [getElem?_set_self hl, getElem?_set_self hl']
    · rw [getElem?_set_ne hj, getElem?_set_ne hj, e]

theorem addCol_same {i : ℕ} {l l' r r' : List (Fl K)} {ix : List ℕ} {ss : List (Sec K)} {rs rs' : List (Transect K)} {f : Sec K → Transect K → Fl K}
    (h : addCol l ix ss rs f = .ok r) (h' : addCol l' ix ss rs' f = .ok r') (e : l'[i]? = l[i]?)
    (hr : ∀ k : ℕ, ix[k]? = some i → rs'[k]? = rs[k]?) : r'[i]? = r[i]? := by
  unfold addCol at h h'
  split at h
  · cases h
  · split at h'
    · cases h'
    · refine scatter_same h h' e (fun k hk => ?_)
      rw [getElem?_zipWith, getElem?_zipWith, hr k hk]

/-- The same rates at transect `i`. -/
def SameRates (i : ℕ) (R R' : Rates K) : Prop :=
  R'.y0[i]? = R.y0[i]? ∧ R'.y1[i]? = R.y1[i]? ∧ R'.y2[i]? = R.y2[i]? ∧ R'.y3[i]? = R.y3[i]? ∧ R'.y4[i]? = R.y4[i]? ∧
    R'.z0[i]? = R.z0[i]? ∧ R'.z1[i]? = R.z1[i]? ∧ R'.z3[i]? = R.z3[i]?

theorem river_same {pp : PhysPars K} {i : ℕ} {a a' : MorIn K} (hs : SameHere i a a') {cells cells' : List (Cell K)} {R R' : Rates K}
    (h : riverRates pp a cells = .ok R) (h' : riverRates pp a' cells' = .ok R') : SameRates i R R' := by
  have hsec : sections pp a' = sections pp a := by
    unfold sections
    rw [hs.closed.1, hs.closed.2, hs.river.2.1, hs.river.2.2.1, hs.river.2.2.2.1, hs.river.2.2.2.2]
  have hn : a'.rows.length = a.rows.length := by simpa using congrArg length hs.grid
  unfold riverRates at h h'
  rw [hsec, hs.river.1, hn, hs.dx] at h'
  simp only [bind_ok] at h h'
  obtain ⟨ss, h1, on, h2, z3, h3, y3, h4, y4, h5, h⟩ := h
  obtain ⟨ss', h1', on', h2', z3', h3', y3', h4', y4', h5', h'⟩ := h'
  rw [h1] at h1'
  cases h1'
  rw [if_pos hs.closed.1] at h
  rw [if_pos hs.closed.2] at h'
  cases h; cases h'
  have hr : ∀ k : ℕ, a.online[k]? = some i → on'[k]? = on[k]? := by
    intro k hk
    rw [gather_getElem? h2, gather_getElem? h2', hk]
    exact hs.row
  exact ⟨rfl, rfl, rfl, addCol_same h4 h4' rfl hr, addCol_same h5 h5' rfl hr, rfl, rfl, addCol_same h3 h3' rfl hr⟩

/-- A transect which differs in nothing but the water level. -/
def SameDry (c c' : Cell K) : Prop := ∃ w, c' = { c with wl := w }

theorem zip_at {α β : Type} {l l' : List α} {m m' : List β} {i : ℕ} {c c' : β} (hl : l'[i]? = l[i]?) (hm : m[i]? = some c) (hm' : m'[i]? = some c') :
    (l.zip m)[i]? = l[i]?.map (·, c) ∧ (l'.zip m')[i]? = l[i]?.map (·, c') := by
  constructor
  · cases hx : l[i]? with
    | none => rw [List.getElem?_eq_none_iff] at hx; exact getElem?_eq_none (by simp; omega)
    | some x => rw [getElem?_zip_eq_some (z := (x, c)) |>.mpr ⟨hx, hm⟩]; rfl
  · cases hx : l[i]? with
    | none => rw [hx, List.getElem?_eq_none_iff] at hl; exact getElem?_eq_none (by simp; omega)
    | some x => rw [getElem?_zip_eq_some (z := (x, c')) |>.mpr ⟨hl.trans hx, hm'⟩]; rfl

theorem mapIdx_at {α β γ : Type} {l l' : List α} {m m' : List β} {i : ℕ} {c c' : β} {f f' : ℕ → α × β → γ} (hl : l'[i]? = l[i]?)
    (hm : m[i]? = some c) (hm' : m'[i]? = some c') (hf : ∀ x, f' i (x, c') = f i (x, c)) :
    ((l'.zip m').mapIdx f')[i]? = ((l.zip m).mapIdx f)[i]? := by
  obtain ⟨e, e'⟩ := zip_at hl hm hm'
  rw [getElem?_mapIdx, getElem?_mapIdx, e, e']
  cases l[i]? with
  | none => rfl
  | some x => exact congrArg some (hf x)

theorem lst_same {pp : PhysPars K} {i rb rb' : ℕ} {a a' : MorIn K} (hs : SameHere i a a') {cells cells' C C' : List (Cell K)} {R R' S S' : Rates K} {c c' : Cell K}
    (hR : SameRates i R R') (hlen : cells'.length = cells.length) (hc : cells[i]? = some c) (hc' : cells'[i]? = some c') (hd : SameDry c c')
    (h : lstRates pp a rb cells R = .ok (S, C)) (h' : lstRates pp a' rb' cells' R' = .ok (S', C')) : SameRates i S S' ∧ C = cells ∧ C' = cells' := by
  unfold lstRates at h h'
  simp only [bind_ok] at h h'
  obtain ⟨y0, hy, h⟩ := h
  obtain ⟨y0', hy', h'⟩ := h'
  rw [if_pos hs.closed.1] at h
  rw [if_pos hs.closed.2] at h'
  cases h; cases h'
  obtain ⟨r0, r1, r2, r3, r4, r5, r6, r7⟩ := hR
  refine ⟨⟨?_, r1, r2, r3, r4, r5, r6, r7⟩, rfl, rfl⟩
  unfold lstInterior at hy hy'
  simp only at hy hy'
  split at hy
  · cases hy
  · split at hy'
    · cases hy'
    · cases hy; cases hy'
      show (mapIdx _ (R'.y0.zip cells'))[i]? = (mapIdx _ (R.y0.zip cells))[i]?
      refine mapIdx_at r0 hc hc' (fun x => ?_)
      obtain ⟨w, rfl⟩ := hd
      dsimp only
      rw [hlen, hs.dx]
      split
      · next h0 => rw [hs.alongshore i (Or.inl rfl), hs.alongshore (i - 1) (Or.inr (by omega))]
      · rfl

theorem cst_same {pp : PhysPars K} {i : ℕ} {a a' : MorIn K} (hs : SameHere i a a') {cells cells' : List (Cell K)} {R R' S S' : Rates K} {c c' : Cell K}
    (hR : SameRates i R R') (hlen : cells'.length = cells.length) (hc : cells[i]? = some c) (hc' : cells'[i]? = some c') (hd : SameDry c c')
    (h : cstRates pp a cells R = .ok S) (h' : cstRates pp a' cells' R' = .ok S') : SameRates i S S' := by
  unfold cstRates at h h'
  simp only at h h'
  split at h
  · cases h
  · split at h'
    · cases h'
    · cases h; cases h'
      obtain ⟨r0, r1, r2, r3, r4, r5, r6, r7⟩ := hR
      obtain ⟨w, rfl⟩ := hd
      refine ⟨mapIdx_at r0 hc hc' (fun x => ?_), mapIdx_at r1 hc hc' (fun x => ?_), r2, mapIdx_at r3 hc hc' (fun x => ?_), r4,
        mapIdx_at r5 hc hc' (fun x => ?_), r6, r7⟩ <;> dsimp only <;> simp only [hlen, hs.across.1, hs.across.2]

/-- Limiting keeps the rates at a transect the same, though only one of the two may have been limited. -/
theorem limit_same {l l' m m' : List (Fl K)} {lim s : K} {i : ℕ} (hs : 0 < s) (e : l'[i]? = l[i]?)
    (h : m = l ∨ m = l.map (clip (lim / s))) (h' : m' = l' ∨ m' = l'.map (clip (lim / s)))
    (hm : ∀ v ∈ m, Small lim s v) (hm' : ∀ v ∈ m', Small lim s v) : m'[i]? = m[i]? := by
  rcases h with rfl | rfl <;> rcases h' with rfl | rfl
  · exact e
  · rw [getElem?_map, e]
    cases hv : m[i]? with
    | none => rfl
    | some v =>
      obtain ⟨x, rfl, hx⟩ := hm v (mem_of_getElem? hv)
      rw [Option.map_some, clip_keeps hs hx]
  · rw [getElem?_map, ← e]
    cases hv : m'[i]? with
    | none => rfl
    | some v =>
      obtain ⟨x, rfl, hx⟩ := hm' v (mem_of_getElem? hv)
      rw [Option.map_some, clip_keeps hs hx]
  · rw [getElem?_map, getElem?_map, e]

theorem limit_or {R R' : Rates K} {v : Fl K} {lim : K} {dtMin dt : ℤ} (h : limitRates v lim dtMin dt R = .ok R') :
    R' = R ∨ (0 < secs dt ∧ R'.y0 = R.y0.map (clip (lim / (secs dt : K))) ∧ R'.y1 = R.y1.map (clip (lim / (secs dt : K))) ∧
      R'.y2 = R.y2.map (clip (lim / (secs dt : K))) ∧ R'.y3 = R.y3.map (clip (lim / (secs dt : K))) ∧
      R'.y4 = R.y4.map (clip (lim / (secs dt : K))) ∧ R'.z0 = R.z0.map (clip (lim / (secs dt : K))) ∧
      R'.z1 = R.z1.map (clip (lim / (secs dt : K))) ∧ R'.z3 = R.z3.map (clip (lim / (secs dt : K)))) := by
  unfold limitRates at h
  split at h
  · simp only [bind_ok] at h
    obtain ⟨_, _, h⟩ := h
    split at h
    · cases h
    · next hne =>
      cases h
      exact Or.inr ⟨lt_of_le_of_ne (secs_nonneg dt) (Ne.symm hne), rfl, rfl, rfl, rfl, rfl, rfl, rfl, rfl⟩
  · cases h; exact Or.inl rfl

theorem num_isnan {v : Fl K} (h : IsNumber v) : v.isnan = false := by cases v <;> first | rfl | cases h

/-- Forcing: the same transect, up to the water level, and its channel is known to be there. -/
theorem force_same {pp : PhysPars K} {i : ℕ} {a a' : MorIn K} (hs : SameHere i a a') (hB : 0 ≤ a.MaxMorChange) (hreg : Regular pp a) (hreg' : Regular pp a')
    {dt : ℤ} {X0 X0' : ℕ} {st st' : MorSt K} (h : forceStage pp a = .ok (dt, X0, st)) (h' : forceStage pp a' = .ok (dt, X0', st'))
    {r : Transect K} (hr : a.rows[i]? = some r) :
    X0' = X0 ∧ st.ix = a.outlet ∧ st'.ix = a'.outlet ∧ ∃ c c', st.cells[i]? = some c ∧ st'.cells[i]? = some c' ∧ SameDry c c' ∧ c.t.x = r.x ∧
      c.op = !c.t.y1.isnan ∧ (c.t.y1 = nan ∨ IsNumber c.t.y1) := by
  obtain ⟨rb, cells1, R, S, rate, hp, hall, hrt, hdt, hl, ha⟩ := force_inv h
  obtain ⟨rb', cells1', R', S', rate', hp', hall', hrt', hdt', hl', ha'⟩ := force_inv h'
  have hn : a'.rows.length = a.rows.length := by simpa using congrArg length hs.grid
  have hX : X0' = X0 := by
    unfold precalc at hp hp'
    simp only [bind_ok] at hp hp'
    obtain ⟨x, hx, _, _, hp⟩ := hp
    obtain ⟨x', hx', _, _, hp'⟩ := hp'
    have ex : x' = x := by
      have e1 : firstIx (fun v : K => fin v ==? fin 0) (a.rows.map (·.x)) = firstIx (fun r : Transect K => fin r.x ==? fin 0) a.rows := by
        unfold firstIx whereIx; simp [getElem?_map, Option.any_map]
      have e2 : firstIx (fun v : K => fin v ==? fin 0) (a'.rows.map (·.x)) = firstIx (fun r : Transect K => fin r.x ==? fin 0) a'.rows := by
        unfold firstIx whereIx; simp [getElem?_map, Option.any_map]
      rw [← e1] at hx
      rw [← e2, hs.grid, hx] at hx'
      cases hx'; rfl
    have o1 : X0 = x := by
      split at hp
      · cases hp
      · split at hp
        · cases hp
        · simp only [bind_ok, pure_ok] at hp
          obtain ⟨_, _, _, _, hp⟩ := hp
          cases hp; rfl
    have o2 : X0' = x' := by
      split at hp'
      · cases hp'
      · split at hp'
        · cases hp'
        · simp only [bind_ok, pure_ok] at hp'
          obtain ⟨_, _, _, _, hp'⟩ := hp'
          cases hp'; rfl
    rw [o1, o2, ex]
  have hr' : a'.rows[i]? = some r := hs.row.trans hr
  have hF := regular_finite hreg hp hall
  have hF' := regular_finite hreg' hp' hall'
  have hm : (a.rows.mapIdx (mkCell pp a)).length = a.rows.length := by simp
  have hm' : (a'.rows.mapIdx (mkCell pp a')).length = a'.rows.length := by simp
  have hc0 : (a.rows.mapIdx (mkCell pp a))[i]? = some (mkCell pp a i r) := by rw [getElem?_mapIdx, hr]; rfl
  have hc0' : (a'.rows.mapIdx (mkCell pp a'))[i]? = some (mkCell pp a' i r) := by rw [getElem?_mapIdx, hr']; rfl
  have hd0 : SameDry (mkCell pp a i r) (mkCell pp a' i r) := ⟨(mkCell pp a' i r).wl, rfl⟩
  have hll : (a'.rows.mapIdx (mkCell pp a')).length = (a.rows.mapIdx (mkCell pp a)).length := by rw [hm, hm', hn]
  obtain ⟨hlen, -, -⟩ := allRates_len hm hall
  unfold allRates at hall hall'
  simp only [bind_ok] at hall hall'
  obtain ⟨R1, g1, ⟨R2, C2⟩, g2, R3, g3, hall⟩ := hall
  obtain ⟨R1', g1', ⟨R2', C2'⟩, g2', R3', g3', hall'⟩ := hall'
  cases hall; cases hall'
  obtain ⟨q2, rfl, rfl⟩ := lst_same hs (river_same hs g1 g1') hll hc0 hc0' hd0 g2 g2'
  obtain ⟨q0, q1, q2, q3, q4, q5, q6, q7⟩ := cst_same hs q2 hll hc0 hc0' hd0 g3 g3'
  have hB' : 0 ≤ a'.MaxMorChange := by rw [hs.limit]; exact hB
  obtain ⟨hsm, hcl⟩ := limit_small hB hF hrt hl
  obtain ⟨hsm', -⟩ := limit_small hB' hF' hrt' hl'
  rw [hs.limit] at hsm' hl'
  have o1 := limit_or hl
  have o2 := limit_or hl'
  have hq : SameRates i S S' := by
    simp only [Rates.cols, List.mem_cons, List.not_mem_nil, or_false, forall_eq_or_imp, forall_eq] at hsm hsm'
    obtain ⟨s0, s1, s2, s3, s4, s5, s6, s7, _, _, _, _⟩ := hsm
    obtain ⟨s0', s1', s2', s3', s4', s5', s6', s7', _, _, _, _⟩ := hsm'
    by_cases hpos : 0 < secs dt
    · have hp0 : (0 : K) < (secs dt : K) := by exact_mod_cast hpos
      have p : ∀ {T T' : Rates K}, T' = T ∨ (0 < secs dt ∧ T'.y0 = T.y0.map (clip (a.MaxMorChange / (secs dt : K))) ∧ T'.y1 = T.y1.map (clip (a.MaxMorChange / (secs dt : K))) ∧
          T'.y2 = T.y2.map (clip (a.MaxMorChange / (secs dt : K))) ∧ T'.y3 = T.y3.map (clip (a.MaxMorChange / (secs dt : K))) ∧
          T'.y4 = T.y4.map (clip (a.MaxMorChange / (secs dt : K))) ∧ T'.z0 = T.z0.map (clip (a.MaxMorChange / (secs dt : K))) ∧
          T'.z1 = T.z1.map (clip (a.MaxMorChange / (secs dt : K))) ∧ T'.z3 = T.z3.map (clip (a.MaxMorChange / (secs dt : K)))) →
          (T'.y0 = T.y0 ∨ T'.y0 = T.y0.map (clip (a.MaxMorChange / (secs dt : K)))) ∧ (T'.y1 = T.y1 ∨ T'.y1 = T.y1.map (clip (a.MaxMorChange / (secs dt : K)))) ∧
          (T'.y2 = T.y2 ∨ T'.y2 = T.y2.map (clip (a.MaxMorChange / (secs dt : K)))) ∧ (T'.y3 = T.y3 ∨ T'.y3 = T.y3.map (clip (a.MaxMorChange / (secs dt : K)))) ∧
          (T'.y4 = T.y4 ∨ T'.y4 = T.y4.map (clip (a.MaxMorChange / (secs dt : K)))) ∧ (T'.z0 = T.z0 ∨ T'.z0 = T.z0.map (clip (a.MaxMorChange / (secs dt : K)))) ∧
          (T'.z1 = T.z1 ∨ T'.z1 = T.z1.map (clip (a.MaxMorChange / (secs dt : K)))) ∧ (T'.z3 = T.z3 ∨ T'.z3 = T.z3.map (clip (a.MaxMorChange / (secs dt : K)))) := by
        rintro T T' (rfl | ⟨_, u⟩)
        · simp
        · obtain ⟨u0, u1, u2, u3, u4, u5, u6, u7⟩ := u
          exact ⟨Or.inr u0, Or.inr u1, Or.inr u2, Or.inr u3, Or.inr u4, Or.inr u5, Or.inr u6, Or.inr u7⟩
      obtain ⟨w0, w1, w2, w3, w4, w5, w6, w7⟩ := p o1
      obtain ⟨w0', w1', w2', w3', w4', w5', w6', w7'⟩ := p o2
      exact ⟨limit_same hp0 q0 w0 w0' s0 s0', limit_same hp0 q1 w1 w1' s1 s1', limit_same hp0 q2 w2 w2' s2 s2', limit_same hp0 q3 w3 w3' s3 s3',
        limit_same hp0 q4 w4 w4' s4 s4', limit_same hp0 q5 w5 w5' s5 s5', limit_same hp0 q6 w6 w6' s6 s6', limit_same hp0 q7 w7 w7' s7 s7'⟩
    · rcases o1 with rfl | ⟨k, _⟩
      · rcases o2 with rfl | ⟨k, _⟩
        · exact ⟨q0, q1, q2, q3, q4, q5, q6, q7⟩
        · exact absurd k hpos
      · exact absurd k hpos
  obtain ⟨q0, q1, q2, q3, q4, q5, q6, q7⟩ := hq
  unfold applyRates at ha ha'
  simp only at ha ha'
  split at ha
  · cases ha
  · split at ha'
    · cases ha'
    · cases ha; cases ha'
      refine ⟨hX, rfl, rfl, moveCell S (fin (secs dt : K)) i (mkCell pp a i r), moveCell S' (fin (secs dt : K)) i (mkCell pp a' i r),
        by rw [getElem?_mapIdx, hc0]; rfl, by rw [getElem?_mapIdx, hc0']; rfl, ⟨(mkCell pp a' i r).wl, ?_⟩, rfl, ?_⟩
      · unfold moveCell
        dsimp only
        rw [q0, q1, q2, q3, q4, q5, q6, q7]
        rfl
      · have hreg1 := hreg.2.2.2.2.2.2.1 r (mem_of_getElem? hr)
        simp only [Rates.cols, List.mem_cons, List.not_mem_nil, or_false, forall_eq_or_imp, forall_eq] at hsm
        obtain ⟨_, s1, _⟩ := hsm
        simp only [Rates.cols, List.map_cons, List.map_nil, List.cons.injEq, and_true] at hcl
        have hl1 : i < S.y1.length := by
          rw [hcl.2.1, hlen.2.1]; exact (List.getElem?_eq_some_iff.mp hr).1
        obtain ⟨x, hx, _⟩ := s1 _ (getElem_mem hl1)
        have hg : (S.y1[i]?).getD nan = fin x := by rw [getElem?_eq_getElem hl1, Option.getD_some, hx]
        have hy1 : (moveCell S (fin (secs dt : K)) i (mkCell pp a i r)).t.y1 = r.y1 + fin (x * (secs dt : K)) := by
          unfold moveCell; dsimp only; rw [hg, mul_fin]; rfl
        have hop : (moveCell S (fin (secs dt : K)) i (mkCell pp a i r)).op = !r.y1.isnan := rfl
        rw [hop, hy1]
        unfold RegularBarrier at hreg1
        cases hv : r.y1 with
        | nan => exact ⟨rfl, Or.inl rfl⟩
        | fin y => exact ⟨rfl, Or.inr trivial⟩
        | pinf => rw [hv] at hreg1; simp [isnan, IsNumber] at hreg1
        | ninf => rw [hv] at hreg1; simp [isnan, IsNumber] at hreg1

/-! ## Repairs -/

theorem sameDry_refl (c : Cell K) : SameDry c c := ⟨c.wl, rfl⟩

theorem sameDry_symm {c d : Cell K} (h : SameDry c d) : SameDry d c := by
  obtain ⟨w, rfl⟩ := h; exact ⟨c.wl, rfl⟩

theorem sameDry_trans {c d e : Cell K} (h : SameDry c d) (h' : SameDry d e) : SameDry c e := by
  obtain ⟨w, rfl⟩ := h; obtain ⟨w', rfl⟩ := h'; exact ⟨w', rfl⟩

theorem SameDry.t {c d : Cell K} (h : SameDry c d) : d.t = c.t := by obtain ⟨w, rfl⟩ := h; rfl

/-- The repairs of a closed lagoon at one transect. -/
def repairOne (pp : PhysPars K) (c : Cell K) : Cell K :=
  let d := overwashCell (cliffCell pp c)
  { d with op := !d.t.y1.isnan }

theorem cliff_dry (pp : PhysPars K) (c : Cell K) (w : Fl K) : cliffCell pp { c with wl := w } = { cliffCell pp c with wl := w } := by
  unfold cliffCell; dsimp only; split <;> rfl

theorem overwash_dry (c : Cell K) (w : Fl K) : overwashCell { c with wl := w } = { overwashCell c with wl := w } := by
  unfold overwashCell
  have e : negWidth { c with wl := w } = negWidth c := rfl
  have e' : overwashOf { c with wl := w } = overwashOf c := rfl
  rw [e, e']
  split
  · dsimp only; split <;> rfl
  · rfl

theorem repairOne_dry (pp : PhysPars K) {c d : Cell K} (h : SameDry c d) : SameDry (repairOne pp c) (repairOne pp d) := by
  obtain ⟨w, rfl⟩ := h
  refine ⟨w, ?_⟩
  unfold repairOne
  rw [cliff_dry, overwash_dry]

theorem cliff_keep (pp : PhysPars K) (c : Cell K) : (cliffCell pp c).op = c.op ∧ (cliffCell pp c).t.y1 = c.t.y1 ∧ (cliffCell pp c).t.x = c.t.x := by
  unfold cliffCell; dsimp only; split <;> exact ⟨rfl, rfl, rfl⟩

theorem overwash_x (c : Cell K) : (overwashCell c).t.x = c.t.x := by
  unfold overwashCell
  split
  · dsimp only; split <;> split <;> split <;> rfl
  · rfl

theorem overwash_op (c : Cell K) (ho : c.op = !c.t.y1.isnan) (hy : c.t.y1 = nan ∨ IsNumber c.t.y1) (hl : negWidth c = true → (overwashOf c).leveled = false) :
    { overwashCell c with op := !(overwashCell c).t.y1.isnan } = overwashCell c := by
  unfold overwashCell
  by_cases hn : negWidth c = true
  · rw [if_pos hn]
    dsimp only
    rw [hl hn]
    simp only [Bool.false_eq_true, if_false]
    have hop : c.op = true := by unfold negWidth at hn; exact (Bool.and_eq_true_iff.mp hn).1
    have hlt : (c.t.y1 <? c.t.y2) = true := by unfold negWidth at hn; exact (Bool.and_eq_true_iff.mp hn).2
    have hnn : (c.t.y1 + (overwashOf c).width).isnan = false := by
      show (c.t.y1 + (c.t.y2 - c.t.y1)).isnan = false
      rcases hy with e | e
      · rw [ho, e] at hop; cases hop
      · cases h1 : c.t.y1 with
        | fin y =>
          rw [h1] at hlt
          cases h2 : c.t.y2 with
          | fin z => rfl
          | pinf => rfl
          | nan => rw [h2] at hlt; cases hlt
          | ninf => rw [h2] at hlt; cases hlt
        | nan => rw [h1] at e; cases e
        | pinf => rw [h1] at e; cases e
        | ninf => rw [h1] at e; cases e
    split <;> split <;> dsimp only <;> rw [hnn, hop] <;> rfl
  · rw [if_neg hn, ← ho]

theorem overwash_one {cs cs' : List (Cell K)} (h : overwashRepair cs = .ok cs') {i : ℕ} {c : Cell K} (hc : cs[i]? = some c)
    (ho : c.op = !c.t.y1.isnan) (hy : c.t.y1 = nan ∨ IsNumber c.t.y1) :
    cs'[i]? = some { overwashCell c with op := !(overwashCell c).t.y1.isnan } := by
  unfold overwashRepair at h
  simp only [bind_ok] at h
  obtain ⟨_, _, _, _, h⟩ := h
  split at h
  · simp only [pure_ok] at h
    subst h
    rw [getElem?_map, getElem?_map, hc]; rfl
  · next hany =>
    simp only [pure_ok] at h
    subst h
    rw [overwash_op c ho hy, getElem?_map, hc]; rfl
    intro hn
    by_contra hlev
    apply hany
    rw [any_map, any_eq_true]
    exact ⟨c, mem_filter.mpr ⟨mem_of_getElem? hc, hn⟩, by simpa using hlev⟩

theorem repair_one {pp : PhysPars K} {Dx : K} {st st' : MorSt K} (h : repairStage pp true Dx st = .ok st') (hix : st.ix.length ≤ 1) {i : ℕ} {c : Cell K}
    (hc : st.cells[i]? = some c) (ho : c.op = !c.t.y1.isnan) (hy : c.t.y1 = nan ∨ IsNumber c.t.y1) :
    st'.cells[i]? = some (repairOne pp c) := by
  unfold repairStage at h
  simp only [bind_ok] at h
  obtain ⟨s1, h1, cs, h2, s3, h3, s4, h4, s5, h5, s6, h6, h7⟩ := h
  have e1 : s1.cells = st.cells ∧ s1.ix = st.ix := by
    unfold edgeCheck at h1
    simp only [bind_ok, pure_ok] at h1
    obtain ⟨_, _, _, _, rfl⟩ := h1
    exact ⟨rfl, rfl⟩
  have e3 : { s1 with cells := cs } = s3 := by unfold elongate at h3; simpa [pure_ok] using h3
  have e4 : s3 = s4 := by unfold seaPrevent at h4; simpa [pure_ok] using h4
  have e7 : s6 = st' := by unfold lagoonPrevent at h7; simpa [pure_ok] using h7
  have hl : s4.ix.length ≤ 1 := by rw [← e4, ← e3]; show s1.ix.length ≤ 1; rw [e1.2]; exact hix
  have e5 : s4 = s5 := by unfold lagoonTrunc at h5; rw [if_pos hl] at h5; simpa [pure_ok] using h5
  have e6 : s5 = s6 := by unfold seaTrunc at h6; rw [if_pos (by rw [← e5]; exact hl)] at h6; simpa [pure_ok] using h6
  subst e7 e6 e5 e4 e3
  obtain ⟨k1, k2, k3⟩ := cliff_keep pp c
  have hcl : (s1.cells.map (cliffCell pp))[i]? = some (cliffCell pp c) := by rw [e1.1, getElem?_map, hc, Option.map_some]
  exact overwash_one h2 hcl (by rw [k1, k2]; exact ho) (by rw [k2]; exact hy)

/-! ## Merging and breaches -/

theorem modify_dry {cells : List (Cell K)} (w : Fl K) (j : ℕ) : Forall₂ SameDry cells (cells.modify j (fun x => { x with wl := w })) :=
  forall₂_modify' sameDry_refl (fun _ => ⟨w, rfl⟩) _ _

theorem walk_dry {pp : PhysPars K} (d : ℤ) : ∀ (f : ℕ) (c : ℤ) (cells : List (Cell K)) (r : ℤ × List (Cell K)), walk pp d f c cells = .ok r → Forall₂ SameDry cells r.2 := by
  intro f
  induction f with
  | zero => intro c cells r h; cases h
  | succ f ih =>
    intro c cells r h
    unfold walk at h
    split at h
    · cases h
    · simp only [bind_ok] at h
      obtain ⟨nxt, _, h⟩ := h
      split at h
      · split at h
        · cases h
        · simp only [bind_ok] at h
          obtain ⟨cur, _, h⟩ := h
          exact forall₂_trans (R := SameDry) (fun _ _ _ h h' => sameDry_trans h h') (modify_dry _ _) (ih _ _ _ h)
      · simp only [pure_ok] at h
        subst h
        exact forall₂_rfl sameDry_refl _

theorem connected_dry {pp : PhysPars K} {C : Bool} {X0 : ℕ} {st st' : MorSt K} {conn : Option (ℤ × ℤ)} (h : connected pp C X0 st = .ok (conn, st')) :
    Forall₂ SameDry st.cells st'.cells := by
  unfold connected at h
  simp only [bind_ok] at h
  obtain ⟨⟨mm, e0⟩, _, h⟩ := h
  cases mm with
  | none =>
    simp only [bind_ok, pure_ok] at h
    obtain ⟨_, _, h⟩ := h
    cases h
    exact forall₂_rfl sameDry_refl _
  | some p =>
    obtain ⟨lo, hi⟩ := p
    simp only [bind_ok, pure_ok] at h
    obtain ⟨⟨l1, c1⟩, h1, ⟨l2, c2⟩, h2, _, _, h⟩ := h
    cases h
    exact forall₂_trans (R := SameDry) (fun _ _ _ h h' => sameDry_trans h h') (walk_dry _ _ _ _ _ h1) (walk_dry _ _ _ _ _ h2)

/-- Merging at one transect where there is no breach. -/
def mergeOne (pp : PhysPars K) (j1 j2 : ℕ → Bool) (i : ℕ) (c : Cell K) : Cell K :=
  let c := if lagoonHit j1 i c then mergeLagoonCell c else c
  let c := if shoreHit j2 i c then mergeShoreCell pp c else c
  let c := if eroded c.t then restoreCell c else c
  crestCell c

theorem crest_dry (c : Cell K) (w : Fl K) : crestCell { c with wl := w } = { crestCell c with wl := w } := by
  unfold crestCell; dsimp only; split <;> rfl

theorem late_dry (pp : PhysPars K) (j2 : ℕ → Bool) (i : ℕ) (c : Cell K) (w : Fl K) :
    (let c := if shoreHit j2 i { c with wl := w } then mergeShoreCell pp { c with wl := w } else { c with wl := w }
     let c := if eroded c.t then restoreCell c else c
     crestCell c) =
    { (let c := if shoreHit j2 i c then mergeShoreCell pp c else c
       let c := if eroded c.t then restoreCell c else c
       crestCell c) with wl := w } := by
  have e : shoreHit j2 i { c with wl := w } = shoreHit j2 i c := rfl
  dsimp only
  rw [e]
  by_cases h1 : shoreHit j2 i c = true
  · rw [if_pos h1, if_pos h1]
    have e2 : mergeShoreCell pp { c with wl := w } = { mergeShoreCell pp c with wl := w } := rfl
    rw [e2]
    dsimp only
    by_cases h2 : eroded (mergeShoreCell pp c).t = true
    · rw [if_pos h2, if_pos h2]
      exact crest_dry (restoreCell (mergeShoreCell pp c)) w
    · rw [if_neg h2, if_neg h2]
      exact crest_dry (mergeShoreCell pp c) w
  · rw [if_neg h1, if_neg h1]
    dsimp only
    by_cases h2 : eroded c.t = true
    · rw [if_pos h2, if_pos h2]
      exact crest_dry (restoreCell c) w
    · rw [if_neg h2, if_neg h2]
      exact crest_dry c w

theorem mergeOne_dry (pp : PhysPars K) (j1 j2 : ℕ → Bool) (i : ℕ) {c d : Cell K} (h : SameDry c d) :
    SameDry (mergeOne pp j1 j2 i c) (mergeOne pp j1 j2 i d) := by
  obtain ⟨w, rfl⟩ := h
  refine ⟨w, ?_⟩
  unfold mergeOne
  have e : lagoonHit j1 i { c with wl := w } = lagoonHit j1 i c := rfl
  have e' : (if lagoonHit j1 i { c with wl := w } then mergeLagoonCell { c with wl := w } else { c with wl := w }) =
      { (if lagoonHit j1 i c then mergeLagoonCell c else c) with wl := w } := by
    rw [e]; split <;> rfl
  rw [e']
  exact late_dry pp j2 i _ w

theorem erosion_one {C : Bool} {X0 : ℕ} {b b' : Option ℕ} {st st' : MorSt K} (h : erosionBreach C X0 b st = .ok (b', st')) {i : ℕ} {c : Cell K}
    (hc : st.cells[i]? = some c) (hb : b' ≠ some i) : st'.cells[i]? = some (if eroded c.t then restoreCell c else c) := by
  unfold erosionBreach at h
  simp only at h
  split at h
  · next he =>
    simp only [pure_ok] at h; cases h
    rw [if_neg, hc]
    intro k
    have : i ∈ whereIx (fun c : Cell K => eroded c.t) st.cells := mem_whereIx.mpr ⟨c, hc, k⟩
    rw [isEmpty_iff.mp he] at this
    cases this
  · simp only [bind_ok, pure_ok] at h
    obtain ⟨⟨b1, rest⟩, hd, h⟩ := h
    cases h
    have hsub : i ∈ rest ↔ i ∈ whereIx (fun c : Cell K => eroded c.t) st.cells := by
      unfold erosionDecide at hd
      split at hd
      · cases hd; exact Iff.rfl
      · dsimp only at hd
        split at hd
        · simp only [bind_ok, pure_ok] at hd
          obtain ⟨k, _, hd⟩ := hd
          cases hd
          have : i ≠ k := fun e => hb (by rw [e])
          simp [mem_filter, this]
        · cases hd; exact Iff.rfl
    show (modifyIf _ _ st.cells)[i]? = _
    unfold modifyIf
    rw [getElem?_mapIdx, hc, Option.map_some]
    congr 1
    have hm : (rest.contains i = true) ↔ eroded c.t = true := by
      rw [contains_iff_mem, hsub, mem_whereIx]
      constructor
      · rintro ⟨d, hd', he⟩; rw [hc] at hd'; cases hd'; exact he
      · intro he; exact ⟨c, hc, he⟩
    by_cases k : eroded c.t = true
    · rw [if_pos k, if_pos (hm.mpr k)]
    · rw [if_neg k, if_neg (fun q => k (hm.mp q))]

theorem overtop_one {pp : PhysPars K} {C : Bool} {X0 : ℕ} {conn : Option (ℤ × ℤ)} {b b' : Option ℕ} {st st' : MorSt K}
    (h : overtopBreach pp C X0 conn b st = .ok (b', st')) : st'.cells = st.cells.map crestCell ∧ (∀ k, b = some k → b' = some k) := by
  unfold overtopBreach at h
  simp only [bind_ok] at h
  obtain ⟨_, _, h⟩ := h
  split at h
  · simp only [pure_ok] at h; cases h; exact ⟨rfl, fun k e => e⟩
  · next hn =>
    have hb : b = none := by
      cases b with
      | none => rfl
      | some k => simp at hn
    split at h
    · split at h
      · cases h
      · simp only [pure_ok] at h; cases h; exact ⟨rfl, fun k e => by rw [hb] at e; cases e⟩
    · simp only [bind_ok, pure_ok] at h
      obtain ⟨_, _, _, _, h⟩ := h
      cases h; exact ⟨rfl, fun k e => by rw [hb] at e; cases e⟩

/-- A transect through merging and breaches: what it becomes without a breach, unless the breach is there. -/
theorem breach_one {pp : PhysPars K} {j1 j2 : ℕ → Bool} {C B : Bool} {X0 : ℕ} {st st' : MorSt K} (h : breachStage pp j1 j2 C X0 st = .ok (B, st')) {i : ℕ}
    {c : Cell K} (hc : st.cells[i]? = some c) (hno : ¬ (B = true ∧ st'.e1 = fin c.t.x)) :
    ∃ c', st'.cells[i]? = some c' ∧ SameDry (mergeOne pp j1 j2 i c) c' := by
  obtain ⟨cx, hcx, hx⟩ := forall₂_get (breach_rel (sameX_breach pp) h) hc
  unfold breachStage at h
  simp only [bind_ok] at h
  obtain ⟨⟨conn, t1⟩, g1, ⟨b2, t2⟩, g2, ⟨b3, t3⟩, g3, ⟨b4, t4⟩, g4, t5, g5, g6⟩ := h
  simp only [pure_ok] at g6
  cases g6
  obtain ⟨v1, v2⟩ := overtop_one g4
  have hb4 : b4 ≠ some i := by
    rintro rfl
    apply hno
    refine ⟨rfl, ?_⟩
    unfold createBreach at g5
    simp only [bind_ok, ixGet_ok] at g5
    obtain ⟨d, hd, g5⟩ := g5
    split at g5
    · simp only [pure_ok] at g5; subst g5
      have e : d = cx := Option.some.inj (hd.symm.trans hcx)
      rw [e]
      exact congrArg fin hx
    · simp only [pure_ok] at g5; subst g5
      have : (t4.cells.modify i (breachCell pp (pymax t4.endW (fin (2 * pp.MinOutletWidth))) (pymin t4.endZ (fin pp.MaxOutletElev))))[i]? = some cx := hcx
      rw [getElem?_modify, hd] at this
      simp only [if_true, Option.map_some, Option.map_eq_map, Option.some.injEq] at this
      show fin d.t.x = _
      have hx' : cx.t.x = c.t.x := hx
      rw [← hx', ← this]; rfl
  have hb3 : b3 ≠ some i := fun e => hb4 (v2 i e)
  have hc0 : (mergeLagoon j1 st.cells)[i]? = some (if lagoonHit j1 i c then mergeLagoonCell c else c) := by
    unfold mergeLagoon
    rw [getElem?_mapIdx, hc, Option.map_some]
  obtain ⟨c1, hc1, w, rfl⟩ := forall₂_get (connected_dry g1) hc0
  generalize hm : (if lagoonHit j1 i c then mergeLagoonCell c else c) = m at *
  have hc2 : t2.cells[i]? = some (if shoreHit j2 i { m with wl := w } then mergeShoreCell pp { m with wl := w } else { m with wl := w }) := by
    rw [mergeShore_inv g2]
    show ((t1.cells.zip (t1.cells.mapIdx (shoreHit j2))).map _)[i]? = _
    have hz : (t1.cells.zip (t1.cells.mapIdx (shoreHit j2)))[i]? = some ({ m with wl := w }, shoreHit j2 i { m with wl := w }) := by
      rw [getElem?_zip_eq_some]
      refine ⟨hc1, ?_⟩
      rw [getElem?_mapIdx, hc1, Option.map_some]
    rw [getElem?_map, hz]
    rfl
  have hc3 := erosion_one g3 hc2 hb3
  have hc4 := congrArg (fun l : List (Cell K) => l[i]?) v1
  dsimp only at hc4
  rw [getElem?_map, hc3, Option.map_some] at hc4
  have hc5 : st'.cells[i]? = t4.cells[i]? := by
    unfold createBreach at g5
    cases b4 with
    | none => simp only [pure_ok] at g5; subst g5; rfl
    | some b =>
      simp only [bind_ok, ixGet_ok] at g5
      obtain ⟨d, hd, g5⟩ := g5
      split at g5
      · simp only [pure_ok] at g5; subst g5; rfl
      · simp only [pure_ok] at g5; subst g5
        have : b ≠ i := fun e => hb4 (by rw [e])
        simp [getElem?_modify, this]
  refine ⟨_, hc5.trans hc4, w, ?_⟩
  have := late_dry pp j2 i m w
  dsimp only at this
  rw [this]
  unfold mergeOne
  rw [hm]

/-- A transect through a whole step with a closed lagoon. -/
theorem closed_one {pp : PhysPars K} {j1 j2 : ℕ → Bool} {Dx : K} {B : Bool} {X0 : ℕ} {s0 s1 s2 s3 : MorSt K} {i : ℕ} {c : Cell K}
    (h1 : repairStage pp true Dx s0 = .ok s1) (h2 : breachStage pp j1 j2 true X0 s1 = .ok (B, s2)) (h3 : finishStage pp X0 s2 = .ok s3)
    (hix : s0.ix.length ≤ 1) (hc : s0.cells[i]? = some c) (ho : c.op = !c.t.y1.isnan) (hy : c.t.y1 = nan ∨ IsNumber c.t.y1)
    (hno : ¬ (B = true ∧ s3.e1 = fin c.t.x)) :
    ∃ c', s3.cells[i]? = some c' ∧ SameDry (if X0 = i then keepCell pp (mergeOne pp j1 j2 i (repairOne pp c)) else mergeOne pp j1 j2 i (repairOne pp c)) c' := by
  have k1 := repair_one h1 hix hc ho hy
  have hx : (repairOne pp c).t.x = c.t.x := by
    unfold repairOne; dsimp only; rw [overwash_x]; exact (cliff_keep pp c).2.2
  have e3 : s3.e1 = s2.e1 ∧ s3.cells = s2.cells.modify X0 (keepCell pp) := by
    unfold finishStage at h3
    simp only [bind_ok, pure_ok] at h3
    obtain ⟨_, _, _, _, _, _, rfl⟩ := h3
    exact ⟨rfl, rfl⟩
  obtain ⟨c', hc', w, rfl⟩ := breach_one h2 k1 (by rw [hx, ← e3.1]; exact hno)
  rw [e3.2, getElem?_modify, hc']
  by_cases e : X0 = i
  · rw [if_pos e]
    refine ⟨_, rfl, w, ?_⟩
    dsimp only
    rw [if_pos e]
    unfold keepCell
    dsimp only
    split <;> rfl
  · rw [if_neg e]
    exact ⟨_, rfl, w, by dsimp only; rw [if_neg e]⟩

theorem keep_dry (pp : PhysPars K) {c d : Cell K} (h : SameDry c d) : SameDry (keepCell pp c) (keepCell pp d) := by
  obtain ⟨w, rfl⟩ := h
  refine ⟨w, ?_⟩
  unfold keepCell
  dsimp only
  split <;> rfl

end Verif.Model
