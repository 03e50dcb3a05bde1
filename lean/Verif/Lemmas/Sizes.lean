import Verif.Lemmas.MorKeep
import Verif.Lemmas.Run
import Verif.Props.Channel
import Verif.Props.ChannelStore
import Verif.Props.MorStep
import Verif.Lemmas.Out

set_option autoImplicit false
set_option linter.unusedSectionVars false

/-! # Sizes of the arrays during a run -/

namespace Verif.Model
open Verif Verif.Spec Verif.Props Fl

variable {K : Type} [Field K] [LinearOrder K] [IsStrictOrderedRing K] [FloorRing K]

theorem maskSel_length {α : Type} (p : ℕ → Bool) : ∀ (f : List ℕ) (l : List α), f.length = l.length → (maskSel f p l).length = (f.filter p).length := by
  intro f
  induction f with
  | nil => intro l _; simp [maskSel]
  | cons a f ih =>
    intro l h
    cases l with
    | nil => cases h
    | cons b l =>
      have := ih l (by simpa using h)
      unfold maskSel at this ⊢
      by_cases hp : p a <;> simp [hp, this]

/-- All arrays of an assembled channel have one entry per section, `dx` one per reach. -/
structure ChanLen (c : ChanOut K) (N : ℕ) : Prop where
  elev : c.elev.length = N
  width : c.width.length = N
  area : c.lagArea.length = N
  len : c.lagLen.length = N
  dep : c.dep.length = N
  vel : c.vel.length = N
  flag : c.flag.length = N
  dx : c.dx.length + 1 = N

/-- The hydraulic solvers return one depth and velocity per section, longshore transport one rate per pair of
neighbouring transects, overtopping one rate and flag per transect. -/
structure PartsLen (P : Parts K) : Prop where
  unsteady : ∀ c N bdy hv, ChanLen c N → P.unsteady c bdy = .ok hv → hv.length = N
  steady : ∀ c N q w d v, ChanLen c N → P.steady c q w = .ok (d, v) → d.length = N ∧ v.length = N
  lst : ∀ y w, (P.lst y w).length = y.length - 1
  overtop : ∀ r sl rows q f, P.overtop r sl rows = .ok (q, f) → q.length = rows.length ∧ f.length = rows.length

/-- What is known about a channel assembled from arrays of the right sizes. -/
structure ChanOk (n nr : ℕ) (c : ChanOut K) : Prop where
  len : ChanLen c c.flag.length
  flag : c.flag = List.replicate nr 0 ++ List.replicate c.online.length 1 ++ (if c.closed then [] else List.replicate c.outlet.length 2 ++ [3, 4])
  ne : c.online ≠ []
  nodup : c.online.Nodup
  bound : ∀ i ∈ c.online, i < n
  onodup : c.outlet.Nodup
  obound : ∀ i ∈ c.outlet, i < n

theorem outletIx_bound (rows : List (Transect K)) (e0 e1 : Fl K) : ∀ i ∈ outletIx rows e0 e1, i < rows.length := by
  intro i hi
  unfold outletIx at hi
  have key : ∀ p, ∀ j ∈ whereIx p rows, j < rows.length := by
    intro p j hj
    unfold whereIx at hj
    simp only [List.mem_filter, List.mem_range] at hj
    exact hj.1
  split at hi
  · exact key _ i hi
  · exact key _ i (List.mem_reverse.mp hi)

theorem assemble_ok {pp : PhysPars K} {a : ChanIn K} {c : ChanOut K} (h : assembleChannel pp a = .ok c)
    (hd : a.RivDep.length = a.RiverElev.length) (hv : a.RivVel.length = a.RiverElev.length)
    (hed : a.EndDep.length = 1 ∨ a.EndDep.length = 2) (hev : a.EndVel.length = 1 ∨ a.EndVel.length = 2) :
    ChanOk a.rows.length a.RiverElev.length c := by
  obtain ⟨⟨N, l1, l2, l3, l4, l5, l6, l7, l8⟩, _, _, hpos, hflag, _⟩ := C24_wellformed pp a c hd hv hed hev h
  obtain ⟨X0, r0, w, C1, s1, s, onRows, outRows, H⟩ := assemble_inv h
  obtain ⟨m, hm0, hshape, hbnd⟩ := H.shape
  have hon : gather a.rows c.online = .ok onRows := by rw [H.online]; exact H.hon
  have ho : c.outlet = [] ∨ c.outlet = outletIx a.rows a.EndX0 a.EndX1 := by
    rcases outlet_inv H.outlet with ⟨_, h2, _⟩ | ⟨_, rs, _, _, h5⟩
    · exact .inl h2
    · rcases h5 with ⟨_, h5, _⟩ | ⟨_, h5, _⟩
      · exact .inl h5
      · exact .inr h5
  subst l7
  refine ⟨⟨l1, l2, l3, l4, l5, l6, rfl, l8⟩, hflag, List.length_pos_iff.mp hpos, by rw [hshape]; exact nodup_step _ _ _ hbnd, ?_, ?_, ?_⟩
  · intro i hi
    obtain ⟨r, hr, _⟩ := gather_mem hon hi
    exact (List.getElem?_eq_some_iff.mp hr).1
  · rcases ho with ho | ho <;> rw [ho]
    · exact List.nodup_nil
    · exact outletIx_nodup _ _ _
  · rcases ho with ho | ho <;> rw [ho]
    · simp
    · exact outletIx_bound _ _ _

theorem ChanOk.count {n nr : ℕ} {c : ChanOut K} (h : ChanOk n nr c) : c.flag.length = nr + c.online.length + (if c.closed then 0 else c.outlet.length + 2) := by
  rw [h.flag]
  cases c.closed <;> simp <;> omega

theorem ChanOk.river {n nr : ℕ} {c : ChanOut K} (h : ChanOk n nr c) {l : List (Fl K)} (hl : l.length = c.flag.length) :
    (maskSel c.flag (· == 0) l).length = nr := by
  rw [maskSel_length _ _ _ hl.symm]
  have hf := h.flag
  cases hc : c.closed <;> rw [hc] at hf <;> rw [hf] <;> simp [List.filter_append, List.filter_replicate]

theorem ChanOk.ends {n nr : ℕ} {c : ChanOut K} (h : ChanOk n nr c) (hc : c.closed = false) {l : List (Fl K)} (hl : l.length = c.flag.length) :
    (maskSel c.flag (fun f => f == 3 || f == 4) l).length = 2 := by
  rw [maskSel_length _ _ _ hl.symm]
  have hf := h.flag
  rw [hc] at hf
  rw [hf]; simp [List.filter_append, List.filter_replicate]

/-- River bedload written to file has one value per river section. -/
theorem ChanOk.riverBed {n nr : ℕ} {c : ChanOut K} (h : ChanOk n nr c) {l : List (Fl K)} (hl : l.length + 1 = c.flag.length) :
    (maskSel c.flag.dropLast (· == 0) l).length = nr := by
  rw [maskSel_length _ _ _ (by simp; omega)]
  have hf := h.flag
  have hne := List.length_pos_iff.mpr h.ne
  obtain ⟨q, hq⟩ : ∃ q, c.online.length = q + 1 := ⟨c.online.length - 1, by omega⟩
  cases hc : c.closed <;> rw [hc] at hf <;> rw [hf]
  · simp only [Bool.false_eq_true, if_false]
    rw [show ([3, 4] : List ℕ) = [3] ++ [4] from rfl, ← List.append_assoc, ← List.append_assoc, List.dropLast_concat]
    simp [List.filter_append, List.filter_replicate]
  · simp only [if_true, List.append_nil]
    rw [hq, List.replicate_succ', ← List.append_assoc, List.dropLast_concat]
    simp [List.filter_append, List.filter_replicate]

/-- Sizes of the stored hydraulics. -/
structure HydSize (n : ℕ) (y : HydStore K) : Prop where
  wl : y.LagoonWL.length = n
  vel : y.LagoonVel.length = n
  od : y.OutletDep.length = n
  ov : y.OutletVel.length = n
  ed : y.EndDep.length = 2
  ev : y.EndVel.length = 2

theorem store_size {n nr : ℕ} {c : ChanOut K} (h : ChanOk n nr c) {d v : List (Fl K)} (hd : d.length = c.flag.length) (hv : v.length = c.flag.length)
    {E : List (Fl K)} (hE : E.length = n) {y : HydStore K} (hs : storeHydraulics d v c.online c.outlet c.flag E c.closed = .ok y) : HydSize n y := by
  obtain ⟨w1, w2, _⟩ := C29_stored d v c.online c.outlet c.flag E c.closed y h.nodup h.onodup hs
  obtain ⟨wl0, mn, mx, wmin, wmax, lv, h1, h2, h3, h4, h5, h6, h7, h8, h9, h10⟩ := store_inv hs
  cases hc : c.closed with
  | true =>
    obtain ⟨a1, a2, a3, a4⟩ := h9 hc
    exact ⟨by rw [w1, hE], by rw [w2, hE], by rw [a1]; simp [hE], by rw [a2]; simp [hE], by rw [a3]; rfl, by rw [a4]; rfl⟩
  | false =>
    obtain ⟨a1, a2, a3, a4⟩ := h10 hc
    have b1 := (scatter_inv a1 h.onodup).2.1
    have b2 := (scatter_inv a2 h.onodup).2.1
    exact ⟨by rw [w1, hE], by rw [w2, hE], by rw [b1]; simp [hE], by rw [b2]; simp [hE], by rw [a3]; exact h.ends hc hd, by rw [a4]; exact h.ends hc hv⟩

/-- Storing the bedload succeeds. -/
theorem storeBedload_total {n nr : ℕ} {c : ChanOut K} (h : ChanOk n nr c) {bed : List (Fl K)} (hb : bed.length = c.elev.length - 1) :
    ∃ bl, storeBedload bed n c.online c.outlet c.flag c.closed = .ok bl ∧ bl.1.length = n ∧ bl.2.1.length = n ∧ bl.2.2.length = 1 := by
  have hc := h.count
  have hne := List.length_pos_iff.mpr h.ne
  have hbed : bed.length + 1 = nr + c.online.length + (if c.closed then 0 else c.outlet.length + 2) := by
    rw [← hc, hb, h.len.elev]; omega
  obtain ⟨lb, ob, eb, h1, h2, h3, _, _, h4, h5⟩ := C30_bedload bed n nr c.online c.outlet c.closed h.ne h.nodup h.onodup h.bound h.obound hbed
  rw [← h.flag] at h1
  refine ⟨_, h1, h2, h3, ?_⟩
  cases hcl : c.closed with
  | true => rw [(h4 hcl).2.2]; rfl
  | false => exact (h5 hcl).2.2.2

/-- Sizes of everything that lives from one pass to the next. -/
structure Sized (xs : List K) (nr : ℕ) (s : CoreSt K) : Prop where
  rows : s.rows.map (·.x) = xs
  riv : s.RiverElev.length = nr
  rd : s.RivDep.length = nr
  rv : s.RivVel.length = nr
  wl : s.hyd.LagoonWL.length = xs.length
  vel : s.hyd.LagoonVel.length = xs.length
  od : s.hyd.OutletDep.length = xs.length
  ov : s.hyd.OutletVel.length = xs.length
  ed : s.hyd.EndDep.length = 1 ∨ s.hyd.EndDep.length = 2
  ev : s.hyd.EndVel.length = 1 ∨ s.hyd.EndVel.length = 2

/-- The sizes of what is computed in a pass. -/
structure PassOk (xs : List K) (nr : ℕ) (p : PassOut K) : Prop where
  chan : ChanOk xs.length nr p.chan
  dep : p.dep.length = p.chan.flag.length
  vel : p.vel.length = p.chan.flag.length
  hyd : HydSize xs.length p.hyd
  bed : p.bed.length + 1 = p.chan.flag.length
  rows : p.mor.rows.map (·.x) = xs
  riv : p.mor.RiverElev.length = nr
  pos : 0 < nr
  lst : p.LST.length = xs.length - 1
  cst : p.CST.length = xs.length
  owp : p.owp.length = xs.length

theorem compute_ok {e : Env K} (hP : PartsLen e.parts) {xs : List K} {nr : ℕ} {s : CoreSt K} (hs : Sized xs nr s) {p : PassOut K}
    (h : compute e s = .ok p) : PassOk xs nr p := by
  obtain ⟨fl, sl, hc⟩ := compute_inv h
  have hn : s.rows.length = xs.length := by rw [← hs.rows, List.length_map]
  have hk : ChanOk xs.length nr p.chan := by
    have := assemble_ok hc.chan (by simp [chanIn, hs.rd, hs.riv]) (by simp [chanIn, hs.rv, hs.riv]) hs.ed hs.ev
    simp only [chanIn, hn, hs.riv] at this
    exact this
  have hdv : p.dep.length = p.chan.flag.length ∧ p.vel.length = p.chan.flag.length := by
    have hh := hc.hydro
    unfold hydraulics at hh
    split at hh
    · next hv hu =>
      have hl := hP.unsteady _ _ _ _ hk.len hu
      simp only [Except.ok.injEq, Prod.mk.injEq] at hh
      rw [← hh.1, ← hh.2, List.length_map, List.length_map]
      exact ⟨hl, hl⟩
    · simp only [bind_ok] at hh
      obtain ⟨q, _, w, _, hh⟩ := hh
      exact hP.steady _ _ _ _ _ _ hk.len hh
  have hbl := hc.bedLen
  have hne := List.length_pos_iff.mpr hk.ne
  have hcount := hk.count
  obtain ⟨hr1, hr2⟩ := update_riv_length hc.mor
  simp only [morIn, hs.riv] at hr1 hr2
  refine ⟨hk, hdv.1, hdv.2, store_size hk hdv.1 hdv.2 (by simp [hn]) hc.store, ?_, ?_, hr1, hr2, ?_, ?_, ?_⟩
  · rw [hbl, hk.len.elev]; omega
  · rw [C72_positions hc.mor]; exact hs.rows
  · rw [hc.lst, hP.lst, List.length_map, hn]
  · rw [(hP.overtop _ _ _ _ _ hc.cst).1, hn]
  · rw [(hP.overtop _ _ _ _ _ hc.cst).2, hn]

/-- Once everything is computed, advancing never raises, whatever the output options. -/
theorem advance_total {e : Env K} {xs : List K} {nr : ℕ} {s : CoreSt K} (hs : Sized xs nr s) {p : PassOut K} (hp : PassOk xs nr p) :
    ∃ s', advance e s p = .ok s' := by
  have hn : s.rows.length = xs.length := by rw [← hs.rows, List.length_map]
  have hbed : p.bed.length = p.chan.elev.length - 1 := by have := hp.bed; rw [hp.chan.len.elev]; omega
  obtain ⟨bl, hbl, _⟩ := storeBedload_total hp.chan hbed
  have hne := List.length_pos_iff.mpr hp.chan.ne
  have hcount := hp.chan.count
  have hpos := hp.pos
  have hb := hp.bed
  have hF : 2 ≤ p.chan.flag.length := by omega
  have hts : ∀ t dt, ∃ r, tsRecord p t dt = .ok r := by
    intro t dt
    have g : ∀ l : List (Fl K), l.length = p.chan.flag.length → ∃ a, pyGet l (-1) = .ok a := by
      intro l hl
      have : l ≠ [] := by intro h0; rw [h0] at hl; simp at hl; omega
      exact ⟨l.getLast this, by rw [pyGet_last]; exact List.getLast?_eq_getLast_of_ne_nil this⟩
    obtain ⟨d, hd⟩ := g _ hp.dep
    obtain ⟨v, hv⟩ := g _ hp.vel
    obtain ⟨w, hw⟩ := g _ hp.chan.len.width
    have hb0 : ∃ b, ixGet p.bed 0 = .ok b := ⟨p.bed[0]'(by omega), by rw [ixGet_ok]; exact List.getElem?_eq_getElem _⟩
    obtain ⟨b, hb0⟩ := hb0
    unfold tsRecord
    rw [hd, hv, hw, hb0]
    exact ⟨_, rfl⟩
  unfold advance
  simp only [bind_ok, pure_ok]
  rw [hn, hbl]
  obtain ⟨r, hr⟩ := hts (s.time + stepOf e s p) (stepOf e s p)
  change ∃ s' : CoreSt K, ∃ b, (if decide (s.outTime ≤ s.time + stepOf e s p) || (decide (0 < e.oo.PlotInt) && decide (s.plotTime ≤ s.time + stepOf e s p)) then
      Except.ok bl else .ok ([], [], [])) = .ok b ∧
      ∃ ts, (if decide (s.tsTime ≤ s.time + stepOf e s p) then do return s.ts ++ [← tsRecord p (s.time + stepOf e s p) (stepOf e s p)] else .ok s.ts : Except PyErr _) = .ok ts ∧ _ = s'
  rw [hr]
  refine ⟨_, if decide (s.outTime ≤ s.time + stepOf e s p) || (decide (0 < e.oo.PlotInt) && decide (s.plotTime ≤ s.time + stepOf e s p)) then
      bl else ([], [], []), ?_, if decide (s.tsTime ≤ s.time + stepOf e s p) then s.ts ++ [r] else s.ts, ?_, rfl⟩
  · split <;> rfl
  · split <;> rfl

/-- The sizes of what `loadModel` returns.  Velocities that are not all zero come from an output file (hot start), with
both end sections. -/
structure LoadSized (ld : LoadOut K) : Prop where
  rwl : ld.RiverWL.length = ld.RiverElev.length
  rv : ld.RiverVel.length = ld.RiverElev.length
  wl : ld.LagoonWL.length = ld.rows.length
  vel : ld.LagoonVel.length = ld.rows.length
  od : ld.OutletDep.length = ld.rows.length
  ov : ld.OutletVel.length = ld.rows.length
  ed : ld.EndDep.length = 2
  ev : ld.EndVel.length = 2

/-- A record fits a file with `n` transects and `nr` river sections. -/
structure RecOk (xs : List K) (nr : ℕ) (r : Snapshot K) : Prop where
  x : r.rows.map (·.x) = xs
  sizes : SizesOk xs.length nr r
  ed : r.EndDep.length = 2
  ev : r.EndVel.length = 2

theorem initial_sized {e : Env K} (hP : PartsLen e.parts) {ld : LoadOut K} (hl : LoadSized ld) {s : CoreSt K} (h : initial e ld = .ok s) :
    Sized (ld.rows.map (·.x)) ld.RiverElev.length s ∧ ∀ r ∈ s.outs, RecOk (ld.rows.map (·.x)) ld.RiverElev.length r := by
  unfold initial at h
  simp only [bind_ok, pure_ok] at h
  obtain ⟨fl, _, sl, _, w, _, c, hc, q, _, sq, _, ⟨dep, vel⟩, hdv, hyd, hh, d, _, v, _, cw, _, rfl⟩ := h
  have hk : ChanOk ld.rows.length ld.RiverElev.length c := by
    have := assemble_ok hc (by simp [firstChan, hl.rwl]) (by simp [firstChan, hl.rv]) (.inr hl.ed) (.inr hl.ev)
    simpa only [firstChan] using this
  have hdl : dep.length = c.flag.length ∧ vel.length = c.flag.length := by
    split at hdv
    · exact hP.steady _ _ _ _ _ _ hk.len hdv
    · cases hdv
      exact ⟨hk.len.dep, hk.len.vel⟩
  have hyd' : HydSize ld.rows.length hyd := by
    split at hh
    · exact store_size hk hdl.1 hdl.2 (by simp) hh
    · cases hh
      exact ⟨hl.wl, hl.vel, hl.od, hl.ov, hl.ed, hl.ev⟩
  have r1 := hk.river hdl.1
  have r2 := hk.river hdl.2
  obtain ⟨y1, y2, y3, y4, y5, y6⟩ := hyd'
  refine ⟨⟨rfl, rfl, r1, r2, by simp [y1], by simp [y2], by simp [y3], by simp [y4], .inr y5, .inr y6⟩, ?_⟩
  intro r hr
  rw [List.mem_singleton] at hr
  subst hr
  exact ⟨rfl, ⟨by simp, by simp [y1], by simp [y2], by simp, by simp [y3], by simp [y4], by simp, by simp, by simp, by simp, rfl, r1, r2, by simp⟩, y5, y6⟩

theorem pass_sized {e : Env K} (hP : PartsLen e.parts) {xs : List K} {nr : ℕ} {s s' : CoreSt K} {p : PassOut K} (hs : Sized xs nr s)
    (h : pass e s = .ok (p, s')) : Sized xs nr s' ∧ PassOk xs nr p ∧ ((∀ r ∈ s.outs, RecOk xs nr r) → ∀ r ∈ s'.outs, RecOk xs nr r) := by
  unfold pass at h
  simp only [bind_ok, pure_ok] at h
  obtain ⟨p1, h1, s1, h2, he⟩ := h
  cases he
  have hk := compute_ok hP hs h1
  have ha := advance_inv h2
  have hn : s.rows.length = xs.length := by rw [← hs.rows, List.length_map]
  have hrd : s'.RivDep = maskSel p.chan.flag (· == 0) p.dep ∧ s'.RivVel = maskSel p.chan.flag (· == 0) p.vel := by
    unfold advance at h2
    simp only [bind_ok, pure_ok] at h2
    obtain ⟨_, _, _, _, rfl⟩ := h2
    exact ⟨rfl, rfl⟩
  have r1 := hk.chan.river hk.dep
  have r2 := hk.chan.river hk.vel
  have r3 := hk.chan.riverBed hk.bed
  obtain ⟨y1, y2, y3, y4, y5, y6⟩ := hk.hyd
  refine ⟨⟨by rw [ha.rows]; exact hk.rows, by rw [ha.riv]; exact hk.riv, by rw [hrd.1]; exact r1, by rw [hrd.2]; exact r2, by rw [ha.hyd, y1],
    by rw [ha.hyd, y2], by rw [ha.hyd, y3], by rw [ha.hyd, y4], by rw [ha.hyd]; exact .inr y5, by rw [ha.hyd]; exact .inr y6⟩, hk, ?_⟩
  intro ho r hr
  rcases ha.outs with ⟨_, h3, _⟩ | ⟨_, _, bl, h3, hbl⟩
  · rw [h3] at hr; exact ho r hr
  · rw [h3] at hr
    rcases List.mem_append.mp hr with hr | hr
    · exact ho r hr
    · rw [List.mem_singleton] at hr
      subst hr
      have hbed : p.bed.length = p.chan.elev.length - 1 := by have := hk.bed; rw [hk.chan.len.elev]; omega
      obtain ⟨bl', hbl', b1, b2, _⟩ := storeBedload_total hk.chan hbed
      rw [hn, hbl'] at hbl
      cases hbl
      refine ⟨hk.rows, ⟨?_, y1, y2, b1, y3, y4, b2, hk.cst, ?_, hk.lst, hk.riv, r1, r2, r3⟩, y5, y6⟩
      · have := congrArg List.length hk.rows
        simpa [snapshot] using this
      · simp [snapshot, boolFl, hk.owp]

theorem run_sized {e : Env K} (hP : PartsLen e.parts) {ld : LoadOut K} (hl : LoadSized ld) {s0 s : CoreSt K}
    {tr : List (CoreSt K × PassOut K × CoreSt K)} (h0 : initial e ld = .ok s0) (h : Run e s0 tr s) :
    Sized (ld.rows.map (·.x)) ld.RiverElev.length s ∧ ∀ r ∈ s.outs, RecOk (ld.rows.map (·.x)) ld.RiverElev.length r := by
  induction h with
  | start => exact initial_sized hP hl h0
  | pass _ _ hp ih =>
    obtain ⟨a, _, c⟩ := pass_sized hP ih.1 hp
    exact ⟨a, c ih.2⟩

end Verif.Model
