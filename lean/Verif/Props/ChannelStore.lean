import Verif.Lemmas.ChannelStore
import Verif.Props.Channel

set_option autoImplicit false
set_option linter.unusedSectionVars false

/-! # Properties C28-C30: storing hydraulics and bedload -/

namespace Verif.Model
open Verif Fl
variable {K : Type} [Field K] [LinearOrder K] [IsStrictOrderedRing K]

theorem gather_back {α : Type} {l l' : List α} {is : List ℕ} {vs : List α} (h : scatter (fun _ v => v) l is vs = .ok l') (hn : is.Nodup) :
    gather l' is = .ok vs := by
  obtain ⟨h1, h2, h3, h4, _⟩ := scatter_inv h hn
  rw [gather_scatter h hn l' (fun _ v => v) (by
    intro k i v hk hv
    rw [h4 k i v hk hv]
    have := h3 i (List.mem_of_getElem? hk)
    rw [List.getElem?_eq_getElem this]; rfl)]
  congr 1
  apply List.ext_getElem?
  intro k
  rw [List.getElem?_zipWith]
  cases hk : is[k]? with
  | none =>
    have : vs[k]? = none := by rw [List.getElem?_eq_none_iff] at hk ⊢; omega
    rw [this]
  | some i =>
    have : k < vs.length := by have := (List.getElem?_eq_some_iff.mp hk).1; omega
    rw [List.getElem?_eq_getElem this]

theorem exists_split {α : Type} (l : List α) (a b : ℕ) (h : l.length = a + b) : ∃ l1 l2, l = l1 ++ l2 ∧ l1.length = a ∧ l2.length = b :=
  ⟨l.take a, l.drop a, (List.take_append_drop a l).symm, by simp; omega, by simp; omega⟩

theorem not_nan_map (l : List K) : ∀ x ∈ l.map (fin : K → Fl K), x.isnan = false := by
  intro x hx; obtain ⟨y, _, rfl⟩ := List.mem_map.mp hx; rfl

end Verif.Model

namespace Verif.Props
open Verif Verif.Model Verif.Spec Fl

variable {K : Type} [Field K] [LinearOrder K] [IsStrictOrderedRing K] [FloorRing K]

/-- C28: take a channel assembled from any state, any depths `D` and velocities `V` (numbers, one per
section), store them, and assemble again from the same geometry with what was stored (river values
are those of the sections flagged 0): both calls succeed and return the same sections with the same
depths and velocities, except that the last velocity of a closed channel is zero. -/
theorem C28_round_trip (pp : PhysPars K) (a : ChanIn K) (out : ChanOut K) (D V : List K)
    (hd : a.RivDep.length = a.RiverElev.length) (hv : a.RivVel.length = a.RiverElev.length)
    (hed : a.EndDep.length = 1 ∨ a.EndDep.length = 2) (hev : a.EndVel.length = 1 ∨ a.EndVel.length = 2)
    (hz : ∀ r ∈ a.rows, ∃ z, r.z3 = fin z)
    (h : assembleChannel pp a = .ok out) (hD : D.length = out.flag.length) (hV : V.length = out.flag.length) :
    ∃ st, storeHydraulics (D.map fin) (V.map fin) out.online out.outlet out.flag (a.rows.map (·.z3)) out.closed = .ok st ∧
      ∃ out2, assembleChannel pp { a with
          Closed := out.closed
          RivDep := maskSel out.flag (· == 0) (D.map fin)
          RivVel := maskSel out.flag (· == 0) (V.map fin)
          LagoonWL := st.LagoonWL
          LagoonVel := st.LagoonVel
          OutletDep := st.OutletDep
          OutletVel := st.OutletVel
          EndDep := st.EndDep
          EndVel := st.EndVel } = .ok out2 ∧
        out2.dep = D.map fin ∧
        out2.vel = (if out.closed then (V.map fin).set (V.length - 1) (fin 0) else V.map fin) ∧
        out2.online = out.online ∧ out2.flag = out.flag ∧ out2.closed = out.closed ∧
        out2.dx = out.dx ∧ out2.elev = out.elev ∧ out2.width = out.width := by
  obtain ⟨_, _, _, _, hflag, _⟩ := C24_wellformed pp a out hd hv hed hev h
  obtain ⟨X0, r0, w, C1, s1, s, onRows, outRows, H⟩ := assemble_inv h
  obtain ⟨m, hm0, hshape, hbnd⟩ := H.shape
  have hnod : out.online.Nodup := by rw [hshape]; exact nodup_step _ _ _ hbnd
  have hne : out.online ≠ [] := by rw [hshape]; simp; omega
  have hlens := H.lens
  have hon : gather a.rows out.online = .ok onRows := by rw [H.online]; exact H.hon
  have hbon : ∀ i ∈ out.online, i < (a.rows.map (·.z3)).length := by
    intro i hi
    obtain ⟨r, hr, _⟩ := gather_mem hon hi
    simpa using (List.getElem?_eq_some_iff.mp hr).1
  have honlen : onRows.length = out.online.length := gather_length hon
  -- reading the lagoon back
  have back : ∀ (st : HydStore K) (D1 V1 : List K) (dep vel : List (Fl K)) (C : Bool), D1.length = out.online.length → V1.length = out.online.length →
      maskSel out.flag (· == 1) dep = D1.map fin → maskSel out.flag (· == 1) vel = V1.map fin →
      storeHydraulics dep vel out.online out.outlet out.flag (a.rows.map (·.z3)) C = .ok st →
      ∃ wl, gather st.LagoonWL out.online = .ok wl ∧ gather st.LagoonVel out.online = .ok (V1.map fin) ∧
        List.zipWith (fun w (r : Transect K) => w - r.z3) wl onRows = D1.map fin := by
    intro st D1 V1 dep vel C hD1 hV1 hm1 hm2 hst
    obtain ⟨wl0, _, _, _, _, lv, h1, _, _, _, _, _, h2, h3, _⟩ := store_inv hst
    rw [hm1] at h1
    rw [hm2] at h2
    have hwl : ∀ (k i : ℕ) v, out.online[k]? = some i → (D1.map (fin : K → Fl K))[k]? = some v →
        st.LagoonWL[i]? = some (((a.rows.map (·.z3))[i]?).getD nan + v) := by
      intro k i v hk hv
      have hi : (a.rows.map (·.z3))[i]? = some ((a.rows.map (·.z3))[i]'(hbon i (List.mem_of_getElem? hk))) := List.getElem?_eq_getElem _
      rw [store_wl hst hnod hk hi (by rw [hm1]; exact hv), hi]
      rfl
    refine ⟨_, gather_scatter h1 hnod st.LagoonWL _ hwl, by rw [h3]; exact gather_back h2 hnod, ?_⟩
    apply List.ext_getElem?
    intro k
    rw [List.getElem?_zipWith, List.getElem?_zipWith, gather_getElem? hon]
    cases hk : out.online[k]? with
    | none =>
      have : (D1.map (fin : K → Fl K))[k]? = none := by rw [List.getElem?_eq_none_iff] at hk ⊢; simpa [hD1] using hk
      rw [this]
    | some i =>
      obtain ⟨r, hr, _⟩ := gather_mem hon (List.mem_of_getElem? hk)
      have hkl : k < D1.length := by rw [hD1]; exact (List.getElem?_eq_some_iff.mp hk).1
      obtain ⟨z, hz'⟩ := hz r (List.mem_of_getElem? hr)
      simp [hr, hkl, hz']
  have hg := H.geom
  unfold chanGeom at hg
  simp only [Prod.mk.injEq] at hg
  obtain ⟨g1, g2, g3, g4, g5, g6⟩ := hg
  cases hc : out.closed with
  | true =>
    rw [hc] at hflag
    simp only [if_true, List.append_nil] at hflag
    obtain ⟨D0, D1, rfl, hD0, hD1⟩ := exists_split D a.RiverElev.length out.online.length (by rw [hD, hflag]; simp)
    obtain ⟨V0, V1, rfl, hV0, hV1⟩ := exists_split V a.RiverElev.length out.online.length (by rw [hV, hflag]; simp)
    have mD0 : maskSel out.flag (· == 0) ((D0 ++ D1).map (fin : K → Fl K)) = D0.map fin := by
      rw [hflag, List.map_append, maskSel_append _ _ _ _ _ (by simp [hD0]), maskSel_replicate _ _ _ _ (by simp [hD0]), maskSel_replicate _ _ _ _ (by simp [hD1])]; simp
    have mV0 : maskSel out.flag (· == 0) ((V0 ++ V1).map (fin : K → Fl K)) = V0.map fin := by
      rw [hflag, List.map_append, maskSel_append _ _ _ _ _ (by simp [hV0]), maskSel_replicate _ _ _ _ (by simp [hV0]), maskSel_replicate _ _ _ _ (by simp [hV1])]; simp
    have mD1 : maskSel out.flag (· == 1) ((D0 ++ D1).map (fin : K → Fl K)) = D1.map fin := by
      rw [hflag, List.map_append, maskSel_append _ _ _ _ _ (by simp [hD0]), maskSel_replicate _ _ _ _ (by simp [hD0]), maskSel_replicate _ _ _ _ (by simp [hD1])]; simp
    have mV1 : maskSel out.flag (· == 1) ((V0 ++ V1).map (fin : K → Fl K)) = V1.map fin := by
      rw [hflag, List.map_append, maskSel_append _ _ _ _ _ (by simp [hV0]), maskSel_replicate _ _ _ _ (by simp [hV0]), maskSel_replicate _ _ _ _ (by simp [hV1])]; simp
    obtain ⟨st, hst⟩ := store_total ((D0 ++ D1).map fin) ((V0 ++ V1).map fin) out.online out.outlet out.flag (a.rows.map (·.z3)) true hne hnod hbon
      (by rw [mD1]; simpa using hD1) (by rw [mV1]; simpa using hV1) (by simp)
    refine ⟨st, hst, ?_⟩
    obtain ⟨wl, b1, b2, b3⟩ := back st D1 V1 _ _ true hD1 hV1 mD1 mV1 hst
    obtain ⟨s1', s', hl', hcut', hon'⟩ := reclose H.hr0 H.w0 H.lag (hc ▸ H.cut)
    rw [mD0, mV0]
    obtain ⟨geo, hgeo⟩ : ∃ geo, geo = chanGeom pp a s' true [] [] onRows [] := ⟨_, rfl⟩
    have hlen' : s'.online.length = out.online.length := by rw [hon', H.online]
    have gg1 : geo.1 = out.dx := by
      rw [hgeo, g1]; simp only [chanGeom, hc, if_true, hon']
    have gg2 : geo.2.1 = out.flag := by
      rw [hgeo, g2]; simp only [chanGeom, hc, if_true, hon']
    have gg3 : geo.2.2.1 = out.elev := by
      rw [hgeo, g3]; simp only [chanGeom, hc, if_true]
    have gg4 : geo.2.2.2.1 = out.width := by
      rw [hgeo, g4]; simp only [chanGeom, hc, if_true]
    have velN : ∀ x ∈ ((V0 ++ V1).map (fin : K → Fl K)).set ((V0 ++ V1).length - 1) (fin 0), x.isnan = false := by
      intro x hx
      rcases List.mem_or_eq_of_mem_set hx with hx | rfl
      · exact not_nan_map _ x hx
      · rfl
    refine ⟨⟨geo.1, geo.2.2.1, geo.2.2.2.1, geo.2.2.2.2.1, geo.2.2.2.2.2, (D0 ++ D1).map fin, ((V0 ++ V1).map fin).set ((V0 ++ V1).length - 1) (fin 0),
      s'.online, [], geo.2.1, true⟩, ?_, rfl, by simp, by rw [hon', H.online], gg2, rfl, gg1, gg3, gg4⟩
    apply Assembled.mk_ok (X0 := X0) (r0 := r0) (w := []) (C1 := true) (s1 := s1') (s := s') (onRows := onRows) (outRows := [])
    refine ⟨H.x0, ?_, H.hr0, H.w0, H.nonan, hl', hcut', rfl, by rw [hon']; exact H.hon, by simp, hgeo, ?_, ?_, ?_, ?_, velN, not_nan_map _, ?_⟩
    · simp only [outletStage, if_true]; rfl
    · refine chanHyd_mk (wl := wl) (lv := V1.map fin) (d0 := (D0 ++ D1).map fin) (v0 := ((V0 ++ V1).map fin).set ((V0 ++ V1).length - 1) (fin 0))
        (by rw [hon', ← H.online]; exact b1) (by rw [hon', ← H.online]; exact b2) (fillNan_id (not_nan_map _)) (fillNan_id velN) ?_ (by simp)
      intro _
      refine ⟨?_, ?_⟩
      · simp only; rw [b3, List.map_append]
      · simp
    · simp only [gg4]; exact H.width0
    · simp only [gg4]; exact H.widthN
    · simp only [gg3]; exact H.elevN
    · simp only [gg2, hon']; exact H.count
  | false =>
    rw [hc] at hflag
    simp only [Bool.false_eq_true, if_false] at hflag
    obtain ⟨hC1, hss⟩ := H.closed_of hc
    obtain ⟨hwl, hol, hone⟩ := hlens.2 hc
    obtain ⟨D012, D3, rfl, hD012, hD3⟩ := exists_split D (a.RiverElev.length + out.online.length + out.outlet.length) 2 (by rw [hD, hflag]; simp; omega)
    obtain ⟨D01, D2, rfl, hD01, hD2⟩ := exists_split D012 (a.RiverElev.length + out.online.length) out.outlet.length hD012
    obtain ⟨D0, D1, rfl, hD0, hD1⟩ := exists_split D01 a.RiverElev.length out.online.length hD01
    obtain ⟨V012, V3, rfl, hV012, hV3⟩ := exists_split V (a.RiverElev.length + out.online.length + out.outlet.length) 2 (by rw [hV, hflag]; simp; omega)
    obtain ⟨V01, V2, rfl, hV01, hV2⟩ := exists_split V012 (a.RiverElev.length + out.online.length) out.outlet.length hV012
    obtain ⟨V0, V1, rfl, hV0, hV1⟩ := exists_split V01 a.RiverElev.length out.online.length hV01
    have m34 : ∀ (p : ℕ → Bool) (l : List (Fl K)), l.length = 2 → maskSel [3, 4] p l = if p 3 && p 4 then l else maskSel [3,4] p l := by
      intro p l hl
      match l, hl with
      | [x, y], _ => simp only [maskSel, List.zip_cons_cons, List.zip_nil_right, List.filterMap_cons, List.filterMap_nil]; cases p 3 <;> cases p 4 <;> simp
    have mask : ∀ (p : ℕ → Bool) (L0 L1 L2 L3 : List K), L0.length = a.RiverElev.length → L1.length = out.online.length → L2.length = out.outlet.length →
        L3.length = 2 → maskSel out.flag p ((L0 ++ L1 ++ L2 ++ L3).map (fin : K → Fl K)) =
          (if p 0 then L0.map fin else []) ++ (if p 1 then L1.map fin else []) ++ (if p 2 then L2.map fin else []) ++ maskSel [3,4] p (L3.map fin) := by
      intro p L0 L1 L2 L3 e0 e1 e2 e3
      rw [hflag, List.map_append, List.map_append, List.map_append, ← List.append_assoc, maskSel_append _ _ _ _ _ (by simp [e0, e1, e2]),
        maskSel_append _ _ _ _ _ (by simp [e0, e1]), maskSel_append _ _ _ _ _ (by simp [e0]), maskSel_replicate _ _ _ _ (by simp [e0]),
        maskSel_replicate _ _ _ _ (by simp [e1]), maskSel_replicate _ _ _ _ (by simp [e2])]
    have nil34 : ∀ (p : ℕ → Bool) (L3 : List K), p 3 = false → p 4 = false → L3.length = 2 → maskSel [3,4] p (L3.map (fin : K → Fl K)) = [] := by
      intro p l h3 h4 hl
      match l, hl with
      | [x, y], _ => simp [maskSel, h3, h4]
    have mk0 : ∀ (L0 L1 L2 L3 : List K), L0.length = a.RiverElev.length → L1.length = out.online.length → L2.length = out.outlet.length →
        L3.length = 2 → maskSel out.flag (· == 0) ((L0 ++ L1 ++ L2 ++ L3).map (fin : K → Fl K)) = L0.map fin ∧
        maskSel out.flag (· == 1) ((L0 ++ L1 ++ L2 ++ L3).map (fin : K → Fl K)) = L1.map fin ∧
        maskSel out.flag (· == 2) ((L0 ++ L1 ++ L2 ++ L3).map (fin : K → Fl K)) = L2.map fin ∧
        maskSel out.flag (fun f => f == 3 || f == 4) ((L0 ++ L1 ++ L2 ++ L3).map (fin : K → Fl K)) = L3.map fin := by
      intro L0 L1 L2 L3 e0 e1 e2 e3
      refine ⟨?_, ?_, ?_, ?_⟩
      · rw [mask _ L0 L1 L2 L3 e0 e1 e2 e3, nil34 _ _ rfl rfl e3]; simp
      · rw [mask _ L0 L1 L2 L3 e0 e1 e2 e3, nil34 _ _ rfl rfl e3]; simp
      · rw [mask _ L0 L1 L2 L3 e0 e1 e2 e3, nil34 _ _ rfl rfl e3]; simp
      · rw [mask _ L0 L1 L2 L3 e0 e1 e2 e3, m34 _ _ (by simpa using e3)]; simp
    obtain ⟨mD0, mD1, mD2, mD3⟩ := mk0 D0 D1 D2 D3 hD0 hD1 hD2 hD3
    obtain ⟨mV0, mV1, mV2, mV3⟩ := mk0 V0 V1 V2 V3 hV0 hV1 hV2 hV3
    have hox : out.outlet = outletIx a.rows a.EndX0 a.EndX1 := by
      rcases outlet_inv H.outlet with ⟨_, _, h3⟩ | ⟨_, rs, _, _, h5⟩
      · rw [hC1] at h3; cases h3
      · rcases h5 with ⟨h5, _⟩ | ⟨_, h5, _⟩
        · rw [hC1] at h5; cases h5
        · exact h5
    have honod : out.outlet.Nodup := by rw [hox]; exact outletIx_nodup _ _ _
    have hout : gather a.rows out.outlet = .ok outRows := by have := H.hout; rw [hc] at this; simpa using this
    obtain ⟨st, hst⟩ := store_total ((D0 ++ D1 ++ D2 ++ D3).map fin) ((V0 ++ V1 ++ V2 ++ V3).map fin) out.online out.outlet out.flag (a.rows.map (·.z3)) false hne hnod hbon
      (by rw [mD1]; simpa using hD1) (by rw [mV1]; simpa using hV1) (fun _ => ⟨by
        intro i hi
        obtain ⟨r, hr, _⟩ := gather_mem hout hi
        simpa using (List.getElem?_eq_some_iff.mp hr).1, by rw [mD2]; simpa using hD2, by rw [mV2]; simpa using hV2⟩)
    refine ⟨st, hst, ?_⟩
    obtain ⟨wl, b1, b2, b3⟩ := back st D1 V1 _ _ false hD1 hV1 mD1 mV1 hst
    obtain ⟨_, _, _, _, _, _, _, _, _, _, _, _, _, _, _, hopen⟩ := store_inv hst
    obtain ⟨o1, o2, o3, o4⟩ := hopen rfl
    rw [mD2] at o1
    rw [mV2] at o2
    rw [mD0, mV0]
    refine ⟨{ out with dep := (D0 ++ D1 ++ D2 ++ D3).map fin, vel := (V0 ++ V1 ++ V2 ++ V3).map fin }, ?_, rfl, by simp, rfl, rfl, hc, rfl, rfl, rfl⟩
    apply Assembled.mk_ok (X0 := X0) (r0 := r0) (w := w) (C1 := C1) (s1 := s1) (s := s) (onRows := onRows) (outRows := outRows)
    have hac : a.Closed = false := by
      rcases outlet_inv H.outlet with ⟨_, _, h3⟩ | ⟨h3, _⟩
      · rw [hC1] at h3; cases h3
      · exact h3
    refine ⟨H.x0, ?_, H.hr0, H.w0, H.nonan, H.lag, H.cut, H.online, H.hon, H.hout, H.geom, ?_, H.width0, H.widthN, H.elevN, not_nan_map _, not_nan_map _, H.count⟩
    · rw [← H.outlet]
      unfold outletStage
      simp only [hac]
    · refine chanHyd_mk (wl := wl) (lv := V1.map fin) (d0 := (D0 ++ D1 ++ D2 ++ D3).map fin) (v0 := (V0 ++ V1 ++ V2 ++ V3).map fin)
        (by rw [← H.online]; exact b1) (by rw [← H.online]; exact b2) (fillNan_id (not_nan_map _)) (fillNan_id (not_nan_map _)) ?_ ?_
      · intro h'; simp only at h'; rw [hc] at h'; cases h'
      · intro _
        refine ⟨D2.map fin, V2.map fin, gather_back o1 honod, gather_back o2 honod, ?_, ?_⟩
        · simp only
          rw [b3, o3, mD3, padEnd, if_neg (by simp [hD3])]; simp
        · simp only
          rw [o4, mV3, padEnd, if_neg (by simp [hV3])]; simp

/-- C29: after `storeHydraulics` (online transects all different): the `k`-th online transect has
bed level plus the `k`-th lagoon depth and the `k`-th lagoon velocity; every transect beyond an end
of the online lagoon has the water level of that end; every offline velocity is missing.  Outlet
depths and velocities are those of the outlet sections when open, and missing elsewhere. -/
theorem C29_stored (dep vel : List (Fl K)) (online outlet flag : List ℕ) (E : List (Fl K)) (C : Bool) (st : HydStore K)
    (hn : online.Nodup) (hno : outlet.Nodup) (h : storeHydraulics dep vel online outlet flag E C = .ok st) :
    st.LagoonWL.length = E.length ∧ st.LagoonVel.length = E.length ∧
    (∀ (k i : ℕ) z d v, online[k]? = some i → E[i]? = some z → (maskSel flag (· == 1) dep)[k]? = some d →
      (maskSel flag (· == 1) vel)[k]? = some v → st.LagoonWL[i]? = some (z + d) ∧ st.LagoonVel[i]? = some v) ∧
    (∃ lo ∈ online, (∀ j ∈ online, lo ≤ j) ∧ ∀ i < lo, st.LagoonWL[i]? = st.LagoonWL[lo]?) ∧
    (∃ hi ∈ online, (∀ j ∈ online, j ≤ hi) ∧ ∀ i, hi < i → i < E.length → st.LagoonWL[i]? = st.LagoonWL[hi]?) ∧
    (∀ i < E.length, i ∉ online → st.LagoonVel[i]? = some nan) ∧
    (∀ i < E.length, (C = true ∨ i ∉ outlet) → st.OutletDep[i]? = some nan ∧ st.OutletVel[i]? = some nan) ∧
    (C = false → ∀ (k i : ℕ) d v, outlet[k]? = some i → (maskSel flag (· == 2) dep)[k]? = some d → (maskSel flag (· == 2) vel)[k]? = some v →
      st.OutletDep[i]? = some d ∧ st.OutletVel[i]? = some v) := by
  obtain ⟨wl0, mn, mx, wmin, wmax, lv, h1, h2, h3, h4, h5, h6, h7, h8, h9, h10⟩ := store_inv h
  obtain ⟨i1, i2, i3, i4, i5⟩ := scatter_inv h1 hn
  obtain ⟨j1, j2, j3, j4, j5⟩ := scatter_inv h7 hn
  obtain ⟨a1, a2⟩ := listMin_inv h2
  obtain ⟨b1, b2⟩ := listMax_inv h3
  have hmm : mn ≤ mx := a2 _ b1
  rw [List.getElem?_mapIdx] at h5
  have hmx : wl0[mx]? = some wmax := by
    have : wl0[mx]? = some (wl0[mx]'(by rw [i2]; exact i3 _ b1)) := List.getElem?_eq_getElem _
    rw [this] at h5 ⊢
    simpa [not_lt.mpr hmm] using h5
  refine ⟨by rw [h6]; simp [i2], by rw [h8, j2]; simp, ?_, ⟨mn, a1, a2, ?_⟩, ⟨mx, b1, b2, ?_⟩, ?_, ?_, ?_⟩
  · intro k i z d v hk hz hd hv
    refine ⟨store_wl h hn hk hz hd, ?_⟩
    have hi := i3 i (List.mem_of_getElem? hk)
    rw [h8, j4 k i v hk hv]
    simp [hi]
  · intro i hi
    rw [h6]
    simp only [List.getElem?_mapIdx]
    have : wl0[i]? = some (wl0[i]'(by have := i3 _ a1; omega)) := List.getElem?_eq_getElem _
    rw [this, h4]
    simp [hi, not_lt.mpr hmm, show ¬ mx < i by omega]
  · intro i hi hl
    rw [h6]
    simp only [List.getElem?_mapIdx]
    have : wl0[i]? = some (wl0[i]'(by omega)) := List.getElem?_eq_getElem _
    rw [this, hmx]
    simp [hi, not_lt.mpr hmm]
  · intro i hi hni
    rw [h8, j5 i hni]; simp [hi]
  · intro i hi hor
    cases C with
    | true =>
      obtain ⟨c1, c2, _⟩ := h9 rfl
      rw [c1, c2]; simp [hi]
    | false =>
      obtain ⟨c1, c2, _⟩ := h10 rfl
      have hni : i ∉ outlet := by simpa using hor
      rw [(scatter_inv c1 hno).2.2.2.2 i hni, (scatter_inv c2 hno).2.2.2.2 i hni]
      simp [hi]
  · intro hC k i d v hk hd hv
    obtain ⟨c1, c2, _⟩ := h10 hC
    have hi := (scatter_inv c1 hno).2.2.1 i (List.mem_of_getElem? hk)
    rw [(scatter_inv c1 hno).2.2.2.1 k i d hk hd, (scatter_inv c2 hno).2.2.2.1 k i v hk hv]
    simp at hi
    simp [hi]

/-- C29: the call succeeds whenever the online transects are different existing transects, at least
one, with one lagoon section each (and likewise the outlet when open). -/
theorem C29_succeeds (dep vel : List (Fl K)) (online outlet flag : List ℕ) (E : List (Fl K)) (C : Bool)
    (hne : online ≠ []) (hn : online.Nodup) (hb : ∀ i ∈ online, i < E.length)
    (hd : (maskSel flag (· == 1) dep).length = online.length) (hv : (maskSel flag (· == 1) vel).length = online.length)
    (ho : C = false → (∀ i ∈ outlet, i < E.length) ∧ (maskSel flag (· == 2) dep).length = outlet.length ∧
      (maskSel flag (· == 2) vel).length = outlet.length) :
    ∃ st, storeHydraulics dep vel online outlet flag E C = .ok st := store_total dep vel online outlet flag E C hne hn hb hd hv ho

/-- C30: `storeBedload` of a channel with `nr` river, `n1` lagoon and `n2` outlet sections (flags as
returned by `assembleChannel`), one value per reach: the value of the `k`-th lagoon reach is stored at
the `k`-th online transect and that of the `k`-th outlet reach at the `k`-th outlet transect; the
outlet end value is that of the reach to the dummy section; all else is zero.  When closed the last
online transect has no reach. -/
theorem C30_bedload (bed : List (Fl K)) (n nr : ℕ) (online outlet : List ℕ) (C : Bool)
    (hne : online ≠ []) (hn : online.Nodup) (hno : outlet.Nodup) (hb : ∀ i ∈ online, i < n) (hbo : ∀ i ∈ outlet, i < n)
    (hbed : bed.length + 1 = nr + online.length + (if C then 0 else outlet.length + 2)) :
    ∃ lb ob eb, storeBedload bed n online outlet
        (List.replicate nr 0 ++ List.replicate online.length 1 ++ (if C then [] else List.replicate outlet.length 2 ++ [3, 4])) C = .ok (lb, ob, eb) ∧
      lb.length = n ∧ ob.length = n ∧
      (∀ (k i : ℕ), online[k]? = some i → (C = false ∨ k + 1 < online.length) → lb[i]? = bed[nr + k]?) ∧
      (∀ i < n, i ∉ online → lb[i]? = some (fin 0)) ∧
      (C = true → (∀ i, online.getLast? = some i → lb[i]? = some (fin 0)) ∧ ob = List.replicate n (fin 0) ∧ eb = [fin 0]) ∧
      (C = false → (∀ (k i : ℕ), outlet[k]? = some i → ob[i]? = bed[nr + online.length + k]?) ∧
        (∀ i < n, i ∉ outlet → ob[i]? = some (fin 0)) ∧ eb.head? = bed.getLast? ∧ eb.length = 1) := by
  have hpos : 0 < online.length := List.length_pos_iff.mpr hne
  cases C with
  | true =>
    simp only [if_true, List.append_nil, add_zero] at hbed ⊢
    have hdl : (List.replicate nr 0 ++ List.replicate online.length 1).dropLast = List.replicate nr 0 ++ List.replicate (online.length - 1) 1 := by
      obtain ⟨q, hq⟩ : ∃ q, online.length = q + 1 := ⟨online.length - 1, by omega⟩
      rw [hq, List.replicate_succ', ← List.append_assoc, List.dropLast_concat]; simp
    obtain ⟨B0, B1, rfl, hB0, hB1⟩ := exists_split bed nr (online.length - 1) (by omega)
    have hmask : maskSel (List.replicate nr 0 ++ List.replicate (online.length - 1) 1) (· == 1) (B0 ++ B1) = B1 := by
      rw [maskSel_append _ _ _ _ _ (by simp [hB0]), maskSel_replicate _ _ _ _ hB0, maskSel_replicate _ _ _ _ hB1]; simp
    obtain ⟨lb, hlb⟩ := scatter_total (fun (_ v : Fl K) => v) (List.replicate n (fin 0)) online.dropLast B1 (by simp [hB1]) (by
      intro i hi; simpa using hb i (List.dropLast_subset _ hi))
    have hnd : online.dropLast.Nodup := (List.dropLast_sublist online).nodup hn
    obtain ⟨h1, h2, h3, h4, h5⟩ := scatter_inv hlb hnd
    refine ⟨lb, List.replicate n (fin 0), [fin 0], ?_, by simpa using h2, by simp, ?_, ?_, ?_, by simp⟩
    · unfold storeBedload
      simp only [hdl]
      rw [if_neg (by simp [hB0, hB1]), hmask]
      simp only [if_true, bind_ok, pure_ok]
      exact ⟨lb, hlb, rfl⟩
    · intro k i hk hor
      have hk2 : k + 1 < online.length := by simpa using hor
      have hk3 : online.dropLast[k]? = some i := by rw [List.getElem?_dropLast, if_pos (by omega)]; exact hk
      have hB : B1[k]? = some (B1[k]'(by omega)) := List.getElem?_eq_getElem _
      rw [h4 k i _ hk3 hB, List.getElem?_append_right (by omega), show nr + k - B0.length = k by omega, hB]
      have := h3 i (List.mem_of_getElem? hk3)
      simp at this
      simp [this]
    · intro i hi hni
      rw [h5 i (fun hm => hni (List.dropLast_subset _ hm))]; simp [hi]
    · intro _
      refine ⟨?_, rfl, rfl⟩
      intro i hi
      have hm : i ∈ online := List.mem_of_getLast? hi
      have : i ∉ online.dropLast := by
        intro hm2
        obtain ⟨t, ht⟩ := List.getLast?_eq_some_iff.mp hi
        rw [ht, List.dropLast_concat] at hm2
        rw [ht] at hn
        exact (List.nodup_append.mp hn).2.2 i hm2 i (by simp) rfl
      rw [h5 i this]
      simp [hb i hm]
  | false =>
    simp only [Bool.false_eq_true, if_false] at hbed ⊢
    have hdl : (List.replicate nr 0 ++ List.replicate online.length 1 ++ (List.replicate outlet.length 2 ++ [3, 4])).dropLast =
        List.replicate nr 0 ++ List.replicate online.length 1 ++ List.replicate outlet.length 2 ++ [3] := by
      rw [show ([3, 4] : List ℕ) = [3] ++ [4] from rfl, ← List.append_assoc, ← List.append_assoc, List.dropLast_concat]
    obtain ⟨B012, B3, rfl, hB012, hB3⟩ := exists_split bed (nr + online.length + outlet.length) 1 (by omega)
    obtain ⟨B01, B2, rfl, hB01, hB2⟩ := exists_split B012 (nr + online.length) outlet.length hB012
    obtain ⟨B0, B1, rfl, hB0, hB1⟩ := exists_split B01 nr online.length hB01
    have hmask : ∀ p : ℕ → Bool, maskSel (List.replicate nr 0 ++ List.replicate online.length 1 ++ List.replicate outlet.length 2 ++ [3]) p (B0 ++ B1 ++ B2 ++ B3) =
        (if p 0 then B0 else []) ++ (if p 1 then B1 else []) ++ (if p 2 then B2 else []) ++ (if p 3 then B3 else []) := by
      intro p
      rw [maskSel_append _ _ _ _ _ (by simp [hB0, hB1, hB2]), maskSel_append _ _ _ _ _ (by simp [hB0, hB1]), maskSel_append _ _ _ _ _ (by simp [hB0]),
        maskSel_replicate _ _ _ _ hB0, maskSel_replicate _ _ _ _ hB1, maskSel_replicate _ _ _ _ hB2,
        show ([3] : List ℕ) = List.replicate 1 3 from rfl, maskSel_replicate _ _ _ _ hB3]
    obtain ⟨lb, hlb⟩ := scatter_total (fun (_ v : Fl K) => v) (List.replicate n (fin 0)) online B1 hB1.symm (by simpa using hb)
    obtain ⟨ob, hob⟩ := scatter_total (fun (_ v : Fl K) => v) (List.replicate n (fin 0)) outlet B2 hB2.symm (by simpa using hbo)
    obtain ⟨h1, h2, h3, h4, h5⟩ := scatter_inv hlb hn
    obtain ⟨k1, k2, k3, k4, k5⟩ := scatter_inv hob hno
    refine ⟨lb, ob, B3, ?_, by simpa using h2, by simpa using k2, ?_, ?_, by simp, ?_⟩
    · unfold storeBedload
      simp only [hdl, hmask]
      rw [if_neg (by simp [hB0, hB1, hB2, hB3])]
      simp only [Bool.false_eq_true, if_false, bind_ok, pure_ok]
      exact ⟨ob, by simpa using hob, lb, by simpa using hlb, by simp⟩
    · intro k i hk _
      have hkl := (List.getElem?_eq_some_iff.mp hk).1
      have hB : B1[k]? = some (B1[k]'(by omega)) := List.getElem?_eq_getElem _
      rw [h4 k i _ hk hB, List.append_assoc, List.append_assoc, List.getElem?_append_right (by omega), show nr + k - B0.length = k by omega,
        List.getElem?_append_left (by omega), hB]
      have := h3 i (List.mem_of_getElem? hk)
      simp at this
      simp [this]
    · intro i hi hni
      rw [h5 i hni]; simp [hi]
    · intro _
      refine ⟨?_, ?_, ?_, hB3⟩
      · intro k i hk
        have hkl := (List.getElem?_eq_some_iff.mp hk).1
        have hB : B2[k]? = some (B2[k]'(by omega)) := List.getElem?_eq_getElem _
        rw [k4 k i _ hk hB, List.append_assoc (B0 ++ B1), List.getElem?_append_right (by simp; omega),
          show nr + online.length + k - (B0 ++ B1).length = k by simp; omega, List.getElem?_append_left (by omega), hB]
        have := k3 i (List.mem_of_getElem? hk)
        simp at this
        simp [this]
      · intro i hi hni
        rw [k5 i hni]; simp [hi]
      · match B3, hB3 with
        | [x], _ => simp

/-! ### Concrete instances -/

example : okAnd (assembleChannel chPP chIn) (fun out => okAnd
    (storeHydraulics ([1, 2, 3, 4, 5, 6, 7].map fin) ([7, 6, 5, 4, 3, 2, 1].map fin) out.online out.outlet out.flag (chIn.rows.map (·.z3)) out.closed)
    (fun st => st.LagoonWL == [2, 2, 2, 2, 3, 3, 3].map fin && st.LagoonVel == [nan, nan, nan, fin 5, fin 4, nan, nan] &&
      st.OutletDep == [nan, nan, nan, nan, nan, fin 5, nan])) = true := by decide +kernel
example : okAnd (storeBedload ([1, 2, 3, 4, 5, 6].map (fin : ℚ → Fl ℚ)) 7 [3, 4] [5] [0, 0, 1, 1, 2, 3, 4] false)
    (fun r => r == ([0, 0, 0, 3, 4, 0, 0].map fin, [0, 0, 0, 0, 0, 5, 0].map fin, [fin 6])) = true := by decide +kernel
example : ∀ r ∈ chIn.rows, ∃ z, r.z3 = fin z := by
  intro r hr
  refine ⟨-1, ?_⟩
  revert r
  decide +kernel

end Verif.Props
