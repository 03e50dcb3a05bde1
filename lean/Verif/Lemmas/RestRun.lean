import Verif.Lemmas.RestRepair
import Verif.Lemmas.MorJunk
import Verif.Lemmas.Channel
import Verif.Lemmas.Run

set_option autoImplicit false
set_option linter.unusedSectionVars false

/-! # A coast at rest: the step and the run -/

namespace Verif.Model
open Verif Fl Spec List

variable {K : Type} [Field K] [LinearOrder K] [IsStrictOrderedRing K]

section
variable {pp : PhysPars K} {a : MorIn K}

/-- What is needed of the transects taken to be in the channel. -/
structure RestChan (a : MorIn K) : Prop where
  online : ∀ i ∈ a.online, ∀ t, a.rows[i]? = some t → (t.y4 <? t.y3) = true
  outlet : ∀ i ∈ a.outlet, ∀ t, a.rows[i]? = some t → t.y1.isnan = false
  ix : a.Closed = false → a.outlet = outletIx a.rows a.EndX0 a.EndX1

theorem mkCell_below {L : K} (hr : AtRest a L) {i : ℕ} {t : Transect K} (ht : a.rows[i]? = some t) (hn : (mkCell pp a i t).wl.isnan = false) :
    Below L (mkCell pp a i t) := by
  refine ⟨?_, hr.crest t (mem_of_getElem? ht)⟩
  have nn : ∀ {x : Fl K}, x.isnan = false → (x = nan ∨ (x ≤? fin L) = true) → (x ≤? fin L) = true := by
    intro x h1 h2
    rcases h2 with rfl | h2
    · cases h1
    · exact h2
  refine nn hn ?_
  unfold mkCell
  dsimp only
  split
  · cases hd : a.OutletDep[i]? with
    | none => exact .inl rfl
    | some d => exact hr.outlet i t d ht hd
  · split
    · cases hd : a.LagoonWL[i]? with
      | none => exact .inl rfl
      | some d => exact hr.lagoon d (mem_of_getElem? hd)
    · right
      rw [ble_fin, decide_eq_true_eq]
      exact hr.dry

theorem force_rest {L : K} (hp : RestPars pp a.Dx) (hm : 0 ≤ a.MaxMorChange) (hr : AtRest a L)
    (ht : TidyCoast pp a.rows a.EndX1 a.EndWidth a.EndElev) (hok : RestChan a) {dt : ℤ} {X0 : ℕ} {st : MorSt K}
    (h : forceStage pp a = .ok (dt, X0, st)) :
    firstIx (fun r : Transect K => fin r.x ==? fin 0) a.rows = .ok X0 ∧
    (∀ c ∈ st.cells, TidyCell pp c ∧ Below L c) ∧ st = { cells := a.rows.mapIdx (mkCell pp a), e0 := a.EndX0, e1 := a.EndX1, endW := a.EndWidth, endZ := a.EndElev, ix := a.outlet, riv := a.RiverElev } := by
  unfold forceStage at h
  obtain ⟨⟨cells, X0', rb⟩, h1, h⟩ := bind_ok.mp h
  obtain ⟨⟨R, cells2⟩, h2, h⟩ := bind_ok.mp h
  obtain ⟨rate, _, h⟩ := bind_ok.mp h
  obtain ⟨dt', _, h⟩ := bind_ok.mp h
  obtain ⟨R', h5, h⟩ := bind_ok.mp h
  obtain ⟨st', h6, h⟩ := bind_ok.mp h
  simp only [pure_ok, Prod.mk.injEq] at h
  obtain ⟨rfl, rfl, rfl⟩ := h
  unfold precalc at h1
  obtain ⟨X0'', hx0, h1⟩ := bind_ok.mp h1
  obtain ⟨rb', _, h1⟩ := bind_ok.mp h1
  split at h1
  · cases h1
  · split at h1
    · cases h1
    · simp only [bind_ok, pyAssert_ok, pure_ok, Prod.mk.injEq] at h1
      obtain ⟨_, hnan, _, _, hcells, rfl, rfl⟩ := h1
      have hl : cells.length = a.rows.length := by rw [← hcells, length_mapIdx]
      have hboth : ∀ c ∈ cells, TidyCell pp c ∧ Below L c := by
        intro c hcm
        have hn : c.wl.isnan = false := by
          rw [hcells] at hnan
          exact not_any_iff.mp hnan c hcm
        rw [← hcells] at hcm
        obtain ⟨i, hi⟩ := mem_iff_getElem?.mp hcm
        rw [getElem?_mapIdx] at hi
        cases hti : a.rows[i]? with
        | none => rw [hti] at hi; cases hi
        | some t =>
          rw [hti] at hi
          simp only [Option.map_some, Option.some.injEq] at hi
          rw [← hi] at hn ⊢
          exact ⟨mkCell_tidy a i (ht.tidy t (mem_of_getElem? hti)), mkCell_below hr hti hn⟩
      have htc : ∀ c ∈ cells, TidyCell pp c := fun c hcm => (hboth c hcm).1
      unfold allRates at h2
      obtain ⟨R1, g1, h2⟩ := bind_ok.mp h2
      obtain ⟨⟨R2, cells3⟩, g2, h2⟩ := bind_ok.mp h2
      obtain ⟨R3, g3, h2⟩ := bind_ok.mp h2
      simp only [pure_ok, Prod.mk.injEq] at h2
      obtain ⟨rfl, rfl⟩ := h2
      have z1 := riverRates_rest hp ht.tidy hr.bed hok.online (fun _ => hok.outlet) (fun _ => ht) htc hl g1
      obtain ⟨z2, e2⟩ := lstRates_rest hp hr.lst (fun _ => ht) htc hl z1 g2
      subst e2
      have z3 := cstRates_rest hp hr.cst hr.owp htc hl z2 g3
      have z4 := limit_rest hm z3 h5
      have := apply_rest hl z4 h6
      subst this
      exact ⟨hx0, hboth, by rw [hcells]⟩

theorem mapIdx_t (l : List (Transect K)) : (l.mapIdx (mkCell pp a)).map (·.t) = l := by
  apply ext_getElem?
  intro i
  rw [getElem?_map, getElem?_mapIdx]
  cases l[i]? <;> rfl

/-- One step. -/
theorem update_rest {L : K} {j1 j2 : ℕ → Bool} (hp : RestPars pp a.Dx) (hm : 0 ≤ a.MaxMorChange) (hr : AtRest a L)
    (ht : TidyCoast pp a.rows a.EndX1 a.EndWidth a.EndElev) (hok : RestChan a) (hx : a.rows.Pairwise (fun r r' => r.x < r'.x))
    (hmouth : ∀ (i : ℕ) t, firstIx (fun r : Transect K => fin r.x ==? fin 0) a.rows = .ok i → a.rows[i]? = some t → ((t.y3 - t.y4) <? fin pp.MinOutletWidth) = false)
    {o : MorOut K} (h : updateMorphology pp j1 j2 a = .ok o) :
    o.Breach = false ∧ o.rows = a.rows ∧ o.RiverElev = a.RiverElev ∧ o.EndX1 = a.EndX1 ∧ o.EndWidth = a.EndWidth ∧ o.EndElev = a.EndElev ∧
      (o.EndX0 = a.EndX0 ∨ a.Closed = true ∧ o.EndX0 = nan) := by
  have h := update_junk h
  unfold updateMorphology at h
  obtain ⟨⟨dt, X0, s0⟩, h0, h⟩ := bind_ok.mp h
  obtain ⟨s1, h1, h⟩ := bind_ok.mp h
  obtain ⟨⟨b, s2⟩, h2, h⟩ := bind_ok.mp h
  obtain ⟨s3, h3, h⟩ := bind_ok.mp h
  simp only [pure_ok] at h
  obtain ⟨hX0, hc, hs0⟩ := force_rest hp hm hr ht hok h0
  have hcells : s0.cells = a.rows.mapIdx (mkCell pp a) := by rw [hs0]
  have hct : s0.cells.map (·.t) = a.rows := by rw [hcells, mapIdx_t]
  have hget : ∀ (i : ℕ) c, s0.cells[i]? = some c → a.rows[i]? = some c.t := by
    intro i c hci
    rw [← hct, getElem?_map, hci]; rfl
  have hlen : s0.cells.length = a.rows.length := by rw [hcells, length_mapIdx]
  have e1 : s0.e1 = a.EndX1 := by rw [hs0]
  have e0 : s0.e0 = a.EndX0 := by rw [hs0]
  have eix : s0.ix = a.outlet := by rw [hs0]
  have r1 : s1 = s0 := by
    refine repair_rest (fun c hcm => (hc c hcm).1) ?_ ?_ ?_ ?_ h1
    · intro i hi c hci
      exact hok.outlet i (eix ▸ hi) c.t (hget i c hci)
    · have := hct ▸ hx
      rwa [pairwise_map] at this
    · obtain ⟨x, p1, p2, p3⟩ := ht.pos
      exact ⟨x, e1.trans p1, fun c hci => p2 _ (hget _ c hci), fun c hci => p3 c.t (by rw [← hlen]; exact hget _ c hci)⟩
    · intro hcl
      unfold cellIx
      rw [eix, e0, e1, hct]
      exact hok.ix hcl
  rw [r1] at h2
  obtain ⟨b1, b2, b3, b4, b5, b6, b7⟩ := breach_rest hc h2
  have hrows2 : s2.cells.map (·.t) = a.rows := b2.trans hct
  obtain ⟨f1, _⟩ := finish_inv h3
  have hrows3 : s3.cells.map (·.t) = a.rows := by
    rw [f1, ← hrows2]
    apply ext_getElem?
    intro i
    rw [getElem?_map, getElem?_map, getElem?_modify]
    cases hi : s2.cells[i]? with
    | none => rfl
    | some c =>
      by_cases e : X0 = i
      · have hw : ((c.t.y3 - c.t.y4) <? fin pp.MinOutletWidth) = false := by
          refine hmouth X0 c.t hX0 ?_
          rw [e, ← hrows2, getElem?_map, hi]; rfl
        simp [e, keepCell, hw]
      · simp [e]
  subst h
  refine ⟨b1, hrows3, ?_, ?_, ?_, ?_, ?_⟩
  · show s3.riv = _
    rw [f1]; exact b7.trans (by rw [hs0])
  · show s3.e1 = _
    rw [f1]; exact b4.trans e1
  · show s3.endW = _
    rw [f1]; exact b5.trans (by rw [hs0])
  · show s3.endZ = _
    rw [f1]; exact b6.trans (by rw [hs0])
  · show s3.e0 = _ ∨ _ ∧ s3.e0 = _
    rw [f1]
    rw [e0] at b3
    exact b3

end

section
variable [FloorRing K]

theorem assembled_mouth {pp : PhysPars K} {a : ChanIn K} {out : ChanOut K} {X0 r0 w C1 s1 s onRows outRows}
    (h : Assembled pp a out X0 r0 w C1 s1 s onRows outRows) : (lagWidth r0 <? fin pp.MinOutletWidth) = false := by
  obtain ⟨m, hm, _⟩ := lagoon_shape h.lag
  obtain ⟨hne, rows1, hg, _, _, _, _, hc⟩ := cut_inv h.cut
  have hm0 : 0 < m := by
    rcases Nat.eq_zero_or_pos m with rfl | h0
    · rw [hm] at hne; simp at hne
    · exact h0
  have h0 : s1.online[0]? = some X0 := by
    rw [hm, getElem?_map, getElem?_range hm0]
    simp [step]
  have hr : rows1[0]? = some r0 := by
    rw [gather_getElem? hg, h0]
    exact h.hr0
  rcases hc with ⟨_, _, hall⟩ | ⟨k, r, _, hk, _, _, _, hall, _⟩
  · exact hall r0 (mem_of_getElem? hr)
  · exact hall 0 hk r0 hr

theorem assembled_outlet {pp : PhysPars K} (hmin : 0 ≤ pp.MinOutletWidth) {a : ChanIn K} {out : ChanOut K} {X0 r0 w C1 s1 s onRows outRows}
    (h : Assembled pp a out X0 r0 w C1 s1 s onRows outRows) {i : ℕ} (hi : i ∈ out.outlet) {t : Transect K} (ht : a.rows[i]? = some t) :
    t.y1.isnan = false := by
  rcases outlet_inv h.outlet with ⟨_, h1, _⟩ | ⟨_, rs, hg, hw, ⟨_, h1, _⟩ | ⟨_, h1, _, h2⟩⟩
  · rw [h1] at hi; cases hi
  · rw [h1] at hi; cases hi
  · rw [h1] at hi
    obtain ⟨r, hr, hrm⟩ := gather_mem hg hi
    rw [ht] at hr
    cases hr
    rw [Bool.or_eq_false_iff] at h2
    have := List.any_eq_false.mp h2.1 (outWidth t) (by rw [hw]; exact mem_map_of_mem hrm)
    cases hy : t.y1 with
    | nan =>
      exfalso
      apply this
      unfold outWidth
      rw [hy]
      show (fin 0 ≤? fin pp.MinOutletWidth) = true
      simpa using hmin
    | fin _ => rfl
    | ninf => rfl
    | pinf => rfl

theorem pass_rest {e : Env K} {L : K} (hp : RestPars e.pp e.Dx) (hmin : 0 ≤ e.pp.MinOutletWidth) (hmax : 0 ≤ e.MaxMorChange) (hL : -99999 / 10 ≤ L)
    {s s' : CoreSt K} {p : PassOut K} (ht : TidyCoast e.pp s.rows s.EndX1 s.EndWidth s.EndElev) (hx : s.rows.Pairwise (fun r r' => r.x < r'.x))
    (hcr : ∀ t ∈ s.rows, (fin L ≤? t.z0) = true) (hq : QuietPass L s p) (h : pass e s = .ok (p, s')) : p.mor.Breach = false ∧ StillCoast s s' := by
  obtain ⟨⟨fl, sl, hc⟩, ha⟩ := pass_inv h
  obtain ⟨X0, r0, w, C1, s1, sg, onRows, outRows, hA⟩ := assemble_inv hc.chan
  have hr : AtRest (morIn e s p.chan p.dep p.hyd p.bed p.LST p.CST p.owp) L :=
    { bed := hq.bed, lst := hq.lst, cst := hq.cst
      owp := by
        intro q hqm
        obtain ⟨b, _, rfl⟩ := mem_map.mp hqm
        cases b
        · exact ⟨0, rfl⟩
        · exact ⟨1, rfl⟩
      lagoon := hq.lagoon, outlet := hq.outlet, dry := hL, crest := hcr }
  have hok : RestChan (morIn e s p.chan p.dep p.hyd p.bed p.LST p.CST p.owp) :=
    { online := by
        intro i hi t hti
        obtain ⟨_, _, _, _, _, _, hon, _⟩ := cut_inv hA.cut
        obtain ⟨r, hr, hw⟩ := hon i (hA.online ▸ hi)
        have : r = t := by
          have : s.rows[i]? = some r := hr
          rw [show s.rows[i]? = some t from hti] at this
          exact (Option.some.inj this).symm
        subst this
        unfold lagWidth at hw
        cases h3 : r.y3 <;> cases h4 : r.y4 <;> rw [h3, h4] at hw <;> first | rfl | cases hw | skip
        rw [sub_fin, blt_fin, decide_eq_true_eq, sub_pos] at hw
        simpa using hw
      outlet := fun i hi t hti => assembled_outlet hmin hA hi hti
      ix := by
        intro hcl
        have h1 := (hA.closed_of hcl).1
        rcases outlet_inv hA.outlet with ⟨_, _, h3⟩ | ⟨_, rs, _, _, ⟨h3, _⟩ | ⟨_, h3, _⟩⟩
        · rw [h1] at h3; cases h3
        · rw [h1] at h3; cases h3
        · exact h3 }
  have := update_rest hp hmax hr ht hok hx (by
    intro i t hi hti
    have e1 : i = X0 := by
      exact Except.ok.inj (hi.symm.trans hA.x0)
    subst e1
    have e2 : t = r0 := by
      exact Option.some.inj (hti.symm.trans hA.hr0)
    subst e2
    exact assembled_mouth hA) hc.mor
  obtain ⟨h1, h2, h3, h4, h5, h6, h7⟩ := this
  refine ⟨h1, ha.rows.trans h2, ha.riv.trans h3, ha.endX1.trans h4, ha.endWidth.trans h5, ha.endElev.trans h6, ?_⟩
  rw [ha.endX0, ha.closed, h1]
  rcases h7 with h7 | ⟨h7, h8⟩
  · exact .inl h7
  · exact .inr ⟨h7, h8⟩

theorem StillCoast.refl (s : CoreSt K) : StillCoast s s := ⟨rfl, rfl, rfl, rfl, rfl, .inl rfl⟩

theorem run_rest {e : Env K} {L : K} (hp : RestPars e.pp e.Dx) (hmin : 0 ≤ e.pp.MinOutletWidth) (hmax : 0 ≤ e.MaxMorChange) (hL : -99999 / 10 ≤ L)
    {s0 s : CoreSt K} {tr : List (CoreSt K × PassOut K × CoreSt K)} (ht : TidyCoast e.pp s0.rows s0.EndX1 s0.EndWidth s0.EndElev)
    (hx : s0.rows.Pairwise (fun r r' => r.x < r'.x)) (hcr : ∀ t ∈ s0.rows, (fin L ≤? t.z0) = true) (h : Run e s0 tr s)
    (hq : ∀ x ∈ tr, QuietPass L x.1 x.2.1) : StillCoast s0 s ∧ ∀ x ∈ tr, x.2.1.mor.Breach = false := by
  induction h with
  | start => exact ⟨StillCoast.refl _, fun x hx => by cases hx⟩
  | pass hr hle hps ih =>
    rename_i tr s s' p
    obtain ⟨i1, i2⟩ := ih (fun x hx => hq x (mem_append_left _ hx))
    have hq1 : QuietPass L s p := hq (s, p, s') (mem_append_right _ (mem_singleton_self _))
    obtain ⟨g1, g2⟩ := pass_rest hp hmin hmax hL (s := s) (by rw [i1.rows, i1.pos, i1.width, i1.bed]; exact ht) (by rw [i1.rows]; exact hx)
      (by rw [i1.rows]; exact hcr) hq1 hps
    refine ⟨⟨g2.rows.trans i1.rows, g2.river.trans i1.river, g2.pos.trans i1.pos, g2.width.trans i1.width, g2.bed.trans i1.bed, ?_⟩, ?_⟩
    · rcases g2.start with h1 | h1
      · rcases i1.start with h2 | ⟨h2, h3⟩
        · exact .inl (h1.trans h2)
        · refine .inr ⟨?_, h1.trans h3⟩
          obtain ⟨⟨fl, sl, hc⟩, ha⟩ := pass_inv hps
          rw [ha.closed, g1]
          exact assemble_keeps_closed hc.chan h2
      · exact .inr h1
    · intro x hx
      rcases mem_append.mp hx with hx | hx
      · exact i2 x hx
      · rw [mem_singleton] at hx
        subst hx
        exact g1

end
end Verif.Model
