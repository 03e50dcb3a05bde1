import Verif.Spec.Stretch
import Verif.Props.ScaleModel
import Verif.Props.Solvable

set_option autoImplicit false
set_option linter.unusedSectionVars false

/-! # C176: a longer and wider river with more water flows alike -/

namespace Verif.Props
open Verif Fl Verif.Model Verif.Spec Real

section alg
variable {q r : ℝ}
theorem outL (hq : 0 < q) (a b : Fl ℝ) : sc q a * b = sc q (a * b) := (sc_mul_left q hq a b).symm
theorem outR (hq : 0 < q) (a b : Fl ℝ) : a * sc q b = sc q (a * b) := (sc_mul_right q hq a b).symm
theorem outD (hq : 0 < q) (a b : Fl ℝ) : sc q a / b = sc q (a / b) := (sc_div q hq a b).symm
theorem outA (a b : Fl ℝ) : sc q a + sc q b = sc q (a + b) := (sc_add q a b).symm
theorem outS (a b : Fl ℝ) : sc q a - sc q b = sc q (a - b) := (sc_sub q a b).symm
theorem sc_eq_one (h : q = 1) (a : Fl ℝ) : sc q a = a := by rw [h, sc_one]
end alg

section stretch
variable {l b : ℝ} (hl : 0 < l) (hb : 0 < b) (p : PrePars)

/-- The working arrays of the longer and wider river. -/
noncomputable def nodeSt (l b : ℝ) (a : PreNode) : PreNode := { a with B := sc b a.B, Be := sc b a.Be, A := sc b a.A, Sf := sc l⁻¹ a.Sf }
noncomputable def reachSt (l : ℝ) (r : PreReach) : PreReach := { r with S0 := sc l⁻¹ r.S0 }

include hl in
theorem preSf_st (h V : Fl ℝ) : preSf (stretchPars l b p) h V = sc l⁻¹ (preSf p h V) := by
  have hi := inv_pos.mpr hl
  have e : fin ((stretchPars l b p).n ^ 2) = sc l⁻¹ (fin (p.n ^ 2)) := by
    rw [sc_fin]
    congr 1
    show (p.n / √l) ^ 2 = _
    rw [div_pow, sq_sqrt hl.le]
    field_simp
  unfold preSf
  rw [e, outR hi, outD hi]

theorem dt_st : fin (stretchPars l b p).dt = sc l (fin p.dt) := rfl
theorem perm_st : fin (stretchPars l b p).P = sc (b / l) (fin p.P) := by
  rw [sc_fin]
  congr 1
  show p.P * b / l = _
  ring
include hl in
theorem seep_st : fin ((stretchPars l b p).dt * (stretchPars l b p).P * (stretchPars l b p).Theta) = sc b (fin (p.dt * p.P * p.Theta)) := by
  rw [sc_fin]
  congr 1
  show l * p.dt * (p.P * b / l) * p.Theta = _
  field_simp
theorem gdt_st (t : ℝ) : fin ((stretchPars l b p).g * (stretchPars l b p).dt * t) = sc l (fin (p.g * p.dt * t)) := by
  rw [sc_fin]
  congr 1
  show p.g * (l * p.dt) * t = _
  ring
theorem gdt2_st (t : ℝ) : fin (2 * ((stretchPars l b p).g * (stretchPars l b p).dt * t)) = sc l (fin (2 * (p.g * p.dt * t))) := by
  rw [sc_fin]
  congr 1
  show 2 * (p.g * (l * p.dt) * t) = _
  ring

include hl hb in
theorem c1_st (D D' : Fl ℝ) (r : PreReach) (a c : PreNode) :
    preC1 (stretchPars l b p) D D' (reachSt l r) (nodeSt l b a) (nodeSt l b c) = sc b (preC1 p D D' r a c) := by
  have hi := inv_pos.mpr hl
  have hbl : 0 < b / l := by positivity
  unfold preC1
  rw [dt_st, perm_st]
  simp only [nodeSt, reachSt, outR hb, outR hl, outR hbl, outA, outS, outL hb, outL hl, outL hbl, sc_sc]
  have e : b / l * l = b := by field_simp
  simp only [e, outL hb, outA, outS]
  rfl

include hl hb in
theorem cont_st (C : Fl ℝ) (r : PreReach) (a c : PreNode) :
    preCont (stretchPars l b p) (sc b C) (reachSt l r) (nodeSt l b a) (nodeSt l b c) = sc b (preCont p C r a c) := by
  unfold preCont
  rw [seep_st hl]
  simp only [nodeSt, reachSt, outR hb, outA, outS, outL hb]
  rfl

include hl hb in
theorem force_st (a0 a1 s0 s1 s t : Fl ℝ) : sc l t * (sc b a1 * (sc l⁻¹ s - sc l⁻¹ s1) + sc b a0 * (sc l⁻¹ s - sc l⁻¹ s0)) = sc b (t * (a1 * (s - s1) + a0 * (s - s0))) := by
  have hi := inv_pos.mpr hl
  rw [outS, outS, sc_mul2 hb hi, sc_mul2 hb hi, outA, sc_mul2 hl (mul_pos hb hi)]
  congr 1
  field_simp

include hl hb in
theorem c2_st (r : PreReach) (a c : PreNode) : preC2 (stretchPars l b p) (reachSt l r) (nodeSt l b a) (nodeSt l b c) = sc b (preC2 p r a c) := by
  unfold preC2
  simp only [gdt_st, nodeSt, reachSt, force_st hl hb]
  simp only [outR hb, outS, outA, outL hb]
  rfl

include hl hb in
theorem mom_st (C : Fl ℝ) (r : PreReach) (a c : PreNode) :
    preMom (stretchPars l b p) (sc b C) (reachSt l r) (nodeSt l b a) (nodeSt l b c) = sc b (preMom p C r a c) := by
  unfold preMom
  simp only [gdt_st, nodeSt, reachSt, force_st hl hb]
  simp only [outR hb, outS, outA, outL hb]
  rfl

/-- The derivatives of a reach, all multiplied by `b`. -/
noncomputable def derivSt (b : ℝ) (d : ReachDeriv (Fl ℝ)) : ReachDeriv (Fl ℝ) := ⟨sc b d.ch0, sc b d.cv0, sc b d.ch1, sc b d.cv1, sc b d.mh0, sc b d.mv0, sc b d.mh1, sc b d.mv1⟩

include hl hb in
theorem deriv_st (r : PreReach) (a c : PreNode) : preDeriv (stretchPars l b p) (reachSt l r) (nodeSt l b a) (nodeSt l b c) = derivSt b (preDeriv p r a c) := by
  have hi := inv_pos.mpr hl
  have e1 : ∀ t x s s' : Fl ℝ, sc l t * sc b x * (sc l⁻¹ s + fin (1/3) * sc l⁻¹ s') = sc b (t * x * (s + fin (1/3) * s')) := by
    intro t x s s'
    rw [outR hi, outA, sc_mul2 hl hb, sc_mul2 (mul_pos hl hb) hi]
    congr 1
    field_simp
  have e2 : ∀ t x s v : Fl ℝ, sc l t * sc b x * sc l⁻¹ s / v = sc b (t * x * s / v) := by
    intro t x s v
    rw [sc_mul2 hl hb, sc_mul2 (mul_pos hl hb) hi, outD (by positivity)]
    congr 1
    field_simp
  unfold preDeriv derivSt
  simp only [gdt_st, gdt2_st, seep_st hl, nodeSt, reachSt, e1, e2]
  simp only [outR hb, outL hb, outS, outA]
  rfl

/-! ## Assembling the equations -/

theorem lookup_zip_map {α β : Type} (f : α → β) : ∀ (cols : List ℕ) (vals : List α) (c : ℕ),
    (cols.zip (vals.map f)).lookup c = ((cols.zip vals).lookup c).map f
  | [], _, _ => rfl
  | _ :: _, [], _ => rfl
  | k :: cols, x :: vals, c => by
    simp only [List.map_cons, List.zip_cons_cons, List.lookup_cons]
    cases c == k
    · exact lookup_zip_map f cols vals c
    · rfl

theorem lookup_mem {α : Type} : ∀ (l : List (ℕ × α)) (c : ℕ) (x : α), l.lookup c = some x → (c, x) ∈ l
  | [], _, _, h => by cases h
  | (k, y) :: l, c, x, h => by
    rw [List.lookup_cons] at h
    by_cases hk : c = k
    · subst hk
      simp only [beq_self_eq_true] at h
      cases h
      exact List.mem_cons_self
    · rw [beq_false_of_ne hk] at h
      exact List.mem_cons_of_mem _ (lookup_mem l c x h)

/-- Rows of the matrix multiplied by the factors `D`. -/
def Rows (D : ℕ → ℝ) (a' a : ℕ → ℕ → Fl ℝ) : Prop := ∀ r c, 2 ≤ r + c → a' r c = sc (D (r + c - 2)) (a r c)

theorem rows_set {D : ℕ → ℝ} {a' a : ℕ → ℕ → Fl ℝ} (h : Rows D a' a) (row : ℕ) (cols : List ℕ) (vals : List (Fl ℝ)) (k : ℝ)
    (hc : ∀ c ∈ cols, D (row + c - 2) = k) : Rows D (setRow a' row cols (vals.map (sc k))) (setRow a row cols vals) := by
  intro r c hrc
  unfold setRow
  by_cases hr : r = row
  · subst hr
    rw [if_pos rfl, if_pos rfl]
    unfold setCells
    rw [lookup_zip_map]
    cases hx : (cols.zip vals).lookup c with
    | none => exact h r c hrc
    | some x =>
      rw [hc c (List.of_mem_zip (lookup_mem _ _ _ hx)).1]
      rfl
  · rw [if_neg hr, if_neg hr]
    exact h r c hrc

theorem rows_band {b : ℝ} (N : ℕ) (hN : 0 < N) (usV usH : Fl ℝ) (ds : List (ReachDeriv (Fl ℝ))) (dsV dsH : Fl ℝ) :
    Rows (fun i => if i = 2 * N - 1 then 1 else b) (bandAssemble (fin 0) N (sc b usV) (sc b usH) (ds.map (derivSt b)) dsV dsH) (bandAssemble (fin 0) N usV usH ds dsV dsH) := by
  have hm : ∀ f : ReachDeriv (Fl ℝ) → Fl ℝ, (∀ d, f (derivSt b d) = sc b (f d)) → (ds.map (derivSt b)).map f = (ds.map f).map (sc b) := by
    intro f hf
    rw [List.map_map, List.map_map]
    exact List.map_congr_left fun d _ => hf d
  have h1 : ∀ x : Fl ℝ, [x] = [x].map (sc 1) := fun x => by rw [List.map_cons, sc_one]; rfl
  have ha : ∀ s e c, c ∈ arange2 s e → s ≤ c ∧ c < e ∧ ∃ k, c = s + 2 * k := by
    intro s e c hc
    unfold arange2 at hc
    simp only [List.mem_map, List.mem_range] at hc
    obtain ⟨k, hk, rfl⟩ := hc
    exact ⟨by omega, by omega, k, rfl⟩
  unfold bandAssemble
  rw [hm (·.ch0) (fun _ => rfl), hm (·.cv0) (fun _ => rfl), hm (·.ch1) (fun _ => rfl), hm (·.cv1) (fun _ => rfl), hm (·.mh0) (fun _ => rfl), hm (·.mv0) (fun _ => rfl),
    hm (·.mh1) (fun _ => rfl), hm (·.mv1) (fun _ => rfl), show [sc b usV] = [usV].map (sc b) from rfl, show [sc b usH] = [usH].map (sc b) from rfl]
  dsimp only
  have z : Rows (fun i => if i = 2 * N - 1 then 1 else b) (fun _ _ => fin 0) (fun _ _ => fin 0) := fun r c _ => (sc_zero _).symm
  have g1 := rows_set z 1 [1] [usV] b (by intro c hc; simp only [List.mem_singleton] at hc; subst hc; exact if_neg (by omega))
  have g2 := rows_set g1 2 [0] [usH] b (by intro c hc; simp only [List.mem_singleton] at hc; subst hc; exact if_neg (by omega))
  have g3 := rows_set g2 3 (arange2 0 (2*N-2)) (ds.map (·.ch0)) b (by intro c hc; obtain ⟨x, y, k, e⟩ := ha _ _ _ hc; exact if_neg (by omega))
  have g4 := rows_set g3 2 (arange2 1 (2*N-2)) (ds.map (·.cv0)) b (by intro c hc; obtain ⟨x, y, k, e⟩ := ha _ _ _ hc; exact if_neg (by omega))
  have g5 := rows_set g4 1 (arange2 2 (2*N)) (ds.map (·.ch1)) b (by intro c hc; obtain ⟨x, y, k, e⟩ := ha _ _ _ hc; exact if_neg (by omega))
  have g6 := rows_set g5 0 (arange2 3 (2*N)) (ds.map (·.cv1)) b (by intro c hc; obtain ⟨x, y, k, e⟩ := ha _ _ _ hc; exact if_neg (by omega))
  have g7 := rows_set g6 4 (arange2 0 (2*N-2)) (ds.map (·.mh0)) b (by intro c hc; obtain ⟨x, y, k, e⟩ := ha _ _ _ hc; exact if_neg (by omega))
  have g8 := rows_set g7 3 (arange2 1 (2*N-2)) (ds.map (·.mv0)) b (by intro c hc; obtain ⟨x, y, k, e⟩ := ha _ _ _ hc; exact if_neg (by omega))
  have g9 := rows_set g8 2 (arange2 2 (2*N)) (ds.map (·.mh1)) b (by intro c hc; obtain ⟨x, y, k, e⟩ := ha _ _ _ hc; exact if_neg (by omega))
  have g10 := rows_set g9 1 (arange2 3 (2*N)) (ds.map (·.mv1)) b (by intro c hc; obtain ⟨x, y, k, e⟩ := ha _ _ _ hc; exact if_neg (by omega))
  have g11 := rows_set g10 2 [2*N-1] [dsV] 1 (by intro c hc; simp only [List.mem_singleton] at hc; subst hc; exact if_pos (by omega))
  have g12 := rows_set g11 3 [2*N-2] [dsH] 1 (by intro c hc; simp only [List.mem_singleton] at hc; subst hc; exact if_pos (by omega))
  rw [← h1 dsV, ← h1 dsH] at g12
  exact g12

/-- Right-hand sides multiplied by the factors `D`. -/
def Sides (D : ℕ → ℝ) (e' e : ℕ → Fl ℝ) : Prop := ∀ i, e' i = sc (D i) (e i)

theorem sides_set {D : ℕ → ℝ} {e' e : ℕ → Fl ℝ} (h : Sides D e' e) (cols : List ℕ) (vals : List (Fl ℝ)) (k : ℝ)
    (hc : ∀ c ∈ cols, D c = k) : Sides D (setCells e' cols (vals.map (sc k))) (setCells e cols vals) := by
  intro c
  unfold setCells
  rw [lookup_zip_map]
  cases hx : (cols.zip vals).lookup c with
  | none => exact h c
  | some x =>
    rw [hc c (List.of_mem_zip (lookup_mem _ _ _ hx)).1]
    rfl

theorem sides_err {b : ℝ} (N : ℕ) (hN : 0 < N) (us : Fl ℝ) (cont mom : List (Fl ℝ)) (dsErr : Fl ℝ) :
    ∀ i < 2 * N, (errAssemble (fin 0) N (sc b us) (cont.map (sc b)) (mom.map (sc b)) dsErr)[i]? =
      ((errAssemble (fin 0) N us cont mom dsErr)[i]?).map (sc (if i = 2 * N - 1 then 1 else b)) := by
  have h1 : ∀ x : Fl ℝ, [x] = [x].map (sc 1) := fun x => by rw [List.map_cons, sc_one]; rfl
  have ha : ∀ s e c, c ∈ arange2 s e → s ≤ c ∧ c < e ∧ ∃ k, c = s + 2 * k := by
    intro s e c hc
    unfold arange2 at hc
    simp only [List.mem_map, List.mem_range] at hc
    obtain ⟨k, hk, rfl⟩ := hc
    exact ⟨by omega, by omega, k, rfl⟩
  have z : Sides (fun i => if i = 2 * N - 1 then 1 else b) (fun _ => fin 0) (fun _ => fin 0) := fun i => (sc_zero _).symm
  have g1 := sides_set z [0] [us] b (by intro c hc; simp only [List.mem_singleton] at hc; subst hc; exact if_neg (by omega))
  have g2 := sides_set g1 (arange2 1 (2*N-1)) cont b (by intro c hc; obtain ⟨x, y, k, e⟩ := ha _ _ _ hc; exact if_neg (by omega))
  have g3 := sides_set g2 (arange2 2 (2*N-1)) mom b (by intro c hc; obtain ⟨x, y, k, e⟩ := ha _ _ _ hc; exact if_neg (by omega))
  have g4 := sides_set g3 [2*N-1] [dsErr] 1 (by intro c hc; simp only [List.mem_singleton] at hc; subst hc; exact if_pos (by omega))
  rw [← h1 dsErr] at g4
  intro i hi
  unfold errAssemble
  simp only [List.getElem?_map, List.getElem?_range hi, Option.map_some]
  exact congrArg some (g4 i)

/-! ## The iteration -/

theorem reaches_st (rs : List PreReach) (ns : List PreNode) :
    preReaches (rs.map (reachSt l)) (ns.map (nodeSt l b)) = (preReaches rs ns).map (fun x => (reachSt l x.1, nodeSt l b x.2.1, nodeSt l b x.2.2)) := by
  unfold preReaches
  rw [← List.map_tail, List.zip_map, List.zip_map]
  rfl

theorem zipWith_st {α β γ : Type} (f : α → α) (g : β → β) (k : γ → γ) (F F' : α → β → γ) (h : ∀ x y, F' (f x) (g y) = k (F x y)) :
    ∀ (xs : List α) (ys : List β), List.zipWith F' (xs.map f) (ys.map g) = (List.zipWith F xs ys).map k
  | [], _ => rfl
  | _ :: _, [] => rfl
  | x :: xs, y :: ys => by
    simp only [List.map_cons, List.zipWith_cons_cons]
    rw [h, zipWith_st f g k F F' h xs ys]

include hl hb in
theorem system_st (Closed : Bool) (Q D : ℝ) (C : List (Fl ℝ × Fl ℝ)) (rs : List PreReach) (ns : List PreNode) :
    (∃ e, preErr p Closed Q D C rs ns = .error e ∧ preErr (stretchPars l b p) Closed (b * Q) D (C.map fun c => (sc b c.1, sc b c.2)) (rs.map (reachSt l)) (ns.map (nodeSt l b)) = .error e) ∨
    ∃ err err' band band', preErr p Closed Q D C rs ns = .ok err ∧ preBand p Closed rs ns = .ok band ∧
      preErr (stretchPars l b p) Closed (b * Q) D (C.map fun c => (sc b c.1, sc b c.2)) (rs.map (reachSt l)) (ns.map (nodeSt l b)) = .ok err' ∧
      preBand (stretchPars l b p) Closed (rs.map (reachSt l)) (ns.map (nodeSt l b)) = .ok band' ∧ SameEquations (2 * ns.length) band err band' err' := by
  unfold preErr preBand
  simp only [pyGet_map, get_map, List.length_map]
  cases h0 : ixGet ns 0 with
  | error e => exact .inl ⟨e, rfl, rfl⟩
  | ok n0 =>
  cases pyGet ns (-1) with
  | error e => exact .inl ⟨e, rfl, rfl⟩
  | ok nN =>
  right
  have hN : 0 < ns.length := by
    cases ns with
    | nil => cases h0
    | cons => simp
  refine ⟨_, _, _, _, rfl, rfl, rfl, rfl, ?_, ?_, fun i => if i = 2 * ns.length - 1 then 1 else b, ?_, ?_, ?_⟩
  · unfold errAssemble; simp
  · unfold errAssemble; simp
  · intro i
    dsimp only
    split_ifs
    · exact one_pos
    · exact hb
  · intro i hi
    rw [show times = sc from funext fun q => funext (times_eq q)]
    have := sides_err (b := b) ns.length hN (n0.A * n0.V - fin Q) (List.zipWith (fun c (x : PreReach × PreNode × PreNode) => preCont p c.1 x.1 x.2.1 x.2.2) C (preReaches rs ns))
      (List.zipWith (fun c (x : PreReach × PreNode × PreNode) => preMom p c.2 x.1 x.2.1 x.2.2) C (preReaches rs ns)) (if Closed then nN.h * nN.V else nN.z + nN.h - fin D) i hi
    rw [← this]
    congr 2
    · show sc b n0.A * n0.V - sc b (fin Q) = _
      rw [outL hb, outS]
    · rw [reaches_st]
      exact zipWith_st _ _ (sc b) _ _ (fun c x => cont_st hl hb p c.1 x.1 x.2.1 x.2.2) C _
    · rw [reaches_st]
      exact zipWith_st _ _ (sc b) _ _ (fun c x => mom_st hl hb p c.2 x.1 x.2.1 x.2.2) C _
  · intro i j hi hj h1 h2
    rw [times_eq]
    unfold banded
    have := rows_band (b := b) ns.length hN n0.A (n0.V * n0.B) ((preReaches rs ns).map (fun x => preDeriv p x.1 x.2.1 x.2.2)) (if Closed then nN.h else fin 0) (if Closed then nN.V else fin 1)
      (2 + i - j) j (by omega)
    rw [show 2 + i - j + j - 2 = i by omega] at this
    rw [← this]
    have e1 : (nodeSt l b n0).V * (nodeSt l b n0).B = sc b (n0.V * n0.B) := outR hb _ _
    have e2 : (preReaches (rs.map (reachSt l)) (ns.map (nodeSt l b))).map (fun x => preDeriv (stretchPars l b p) x.1 x.2.1 x.2.2) =
        ((preReaches rs ns).map (fun x => preDeriv p x.1 x.2.1 x.2.2)).map (derivSt b) := by
      rw [reaches_st, List.map_map, List.map_map]
      exact List.map_congr_left fun x _ => deriv_st hl hb p x.1 x.2.1 x.2.2
    show bandAssemble _ _ (sc b n0.A) ((nodeSt l b n0).V * (nodeSt l b n0).B) _ _ _ _ _ = _
    rw [e1, e2]
    rfl

include hl hb in
theorem update_st (a : PreNode) (dh dV : Fl ℝ) : preUpdate (stretchPars l b p) (nodeSt l b a) dh dV = nodeSt l b (preUpdate p a dh dV) := by
  unfold preUpdate nodeSt
  dsimp only
  rw [preSf_st hl, outR hb]

/-- The state of the longer and wider river. -/
noncomputable def stateSt (l b : ℝ) (s : PreState) : PreState := { s with nodes := s.nodes.map (nodeSt l b) }

include hl hb in
theorem newton_st (Closed : Bool) (solver : Solver) (hs : FactorBlind solver) (Q D : ℝ) (C : List (Fl ℝ × Fl ℝ)) (rs : List PreReach) : ∀ (fuel : ℕ) (s : PreState),
    preNewton (stretchPars l b p) Closed solver (b * Q) D (C.map fun c => (sc b c.1, sc b c.2)) (rs.map (reachSt l)) fuel (stateSt l b s) =
      (preNewton p Closed solver Q D C rs fuel s).map (fun x => (stateSt l b x.1, x.2)) := by
  intro fuel
  induction fuel with
  | zero => intro s; rfl
  | succ f ih =>
    intro s
    unfold preNewton
    show (preErr (stretchPars l b p) Closed (b * Q) D (C.map fun c => (sc b c.1, sc b c.2)) (rs.map (reachSt l)) (s.nodes.map (nodeSt l b)) >>= _) = Except.map _ (preErr p Closed Q D C rs s.nodes >>= _)
    rcases system_st hl hb p Closed Q D C rs s.nodes with ⟨e, h1, h2⟩ | ⟨err, err', band, band', h1, h2, h3, h4, h5⟩
    · rw [h1, h2]; rfl
    · rw [h1, h3]
      show (preBand (stretchPars l b p) Closed (rs.map (reachSt l)) (s.nodes.map (nodeSt l b)) >>= _) = Except.map _ (preBand p Closed rs s.nodes >>= _)
      rw [h2, h4]
      simp only [bind, Except.bind]
      rw [hs _ _ _ _ _ h5]
      have key : ∀ d : List (Fl ℝ),
          ((do
            let dh ← gather d ((List.range (s.nodes.map (nodeSt l b)).length).map (fun i => 2 * i))
            let dV ← gather d ((List.range (s.nodes.map (nodeSt l b)).length).map (fun i => 2 * i + 1))
            let ns := List.zipWith (fun a (x : Fl ℝ × Fl ℝ) => preUpdate (stretchPars l b p) a x.1 x.2) (s.nodes.map (nodeSt l b)) (dh.zip dV)
            let s' : PreState := { stateSt l b s with nodes := ns, Delta := some d }
            if d.all (fun x => x.abs <? fin p.Tol) then .ok (s', true)
            else preNewton (stretchPars l b p) Closed solver (b * Q) D (C.map fun c => (sc b c.1, sc b c.2)) (rs.map (reachSt l)) f s') : Except PyErr (PreState × Bool)) =
          (do
            let dh ← gather d ((List.range s.nodes.length).map (fun i => 2 * i))
            let dV ← gather d ((List.range s.nodes.length).map (fun i => 2 * i + 1))
            let ns := List.zipWith (fun a (x : Fl ℝ × Fl ℝ) => preUpdate p a x.1 x.2) s.nodes (dh.zip dV)
            let s' : PreState := { s with nodes := ns, Delta := some d }
            if d.all (fun x => x.abs <? fin p.Tol) then .ok (s', true)
            else preNewton p Closed solver Q D C rs f s' : Except PyErr (PreState × Bool)).map (fun x => (stateSt l b x.1, x.2)) := by
        intro d
        rw [List.length_map]
        cases gather d ((List.range s.nodes.length).map (fun i => 2 * i)) with
        | error e => rfl
        | ok dh =>
        cases gather d ((List.range s.nodes.length).map (fun i => 2 * i + 1)) with
        | error e => rfl
        | ok dV =>
          have e : List.zipWith (fun a (x : Fl ℝ × Fl ℝ) => preUpdate (stretchPars l b p) a x.1 x.2) (s.nodes.map (nodeSt l b)) (dh.zip dV) =
              (List.zipWith (fun a (x : Fl ℝ × Fl ℝ) => preUpdate p a x.1 x.2) s.nodes (dh.zip dV)).map (nodeSt l b) := by
            have := zipWith_st (nodeSt l b) id (nodeSt l b) (fun a (x : Fl ℝ × Fl ℝ) => preUpdate p a x.1 x.2) (fun a (x : Fl ℝ × Fl ℝ) => preUpdate (stretchPars l b p) a x.1 x.2)
              (fun a x => update_st hl hb p a x.1 x.2) s.nodes (dh.zip dV)
            rw [List.map_id] at this
            exact this
          simp only [bind, Except.bind]
          rw [e]
          split
          · rfl
          · exact ih ⟨_, some d, s.caller⟩
      cases solver band err with
      | ok d => exact key d
      | singular =>
        show (match (stateSt l b s).Delta with | none => _ | some d => _) = Except.map _ (match s.Delta with | none => _ | some d => _)
        cases s with
        | mk nodes Delta caller =>
          cases Delta with
          | none => rfl
          | some d => exact key d
      | raised e => rfl

include hl hb in
theorem steady_st (sp : SteadyPars) (dx z B : List (Fl ℝ)) :
    solveSteady { sp with n := sp.n / √l, Q := b * sp.Q } (dx.map (sc l)) z (B.map (sc b)) = solveSteady sp dx z B := by
  have et : ∀ q : ℝ, times q = sc q := fun q => funext (times_eq q)
  have e1 : ∀ l : List (Fl ℝ), l.map (sc 1) = l := fun l => by
    rw [show sc (1:ℝ) = id from funext fun a => sc_one a, List.map_id]
  have ep : scalePars 1 l b sp = { sp with n := sp.n / √l, Q := b * sp.Q } := by
    unfold scalePars
    simp only [one_rpow, mul_one, one_mul]
  have := C175_flow 1 l b one_pos hl hb sp dx z B
  rw [ep, et, et, et, sqrt_one, et, e1] at this
  rw [this]
  cases solveSteady sp dx z B with
  | error e => rfl
  | ok x => show Except.ok (x.1.map (sc 1), x.2.map (sc 1)) = _; rw [e1, e1]

include hl hb in
theorem prestep_st (Closed : Bool) (solver : Solver) (hs : FactorBlind solver) (dx : List (Fl ℝ)) (rs : List PreReach) (Ql Dl : ℝ) (sd : PreState × Fl ℝ) (bdy : ℝ × ℝ) :
    preStep (stretchPars l b p) Closed solver (dx.map (sc l)) (rs.map (reachSt l)) (b * Ql) Dl (stateSt l b sd.1, sd.2) (b * bdy.1, bdy.2) =
      (preStep p Closed solver dx rs Ql Dl sd bdy).map (fun x => (stateSt l b x.1, x.2)) := by
  unfold preStep
  dsimp only
  have eC : (preReaches (rs.map (reachSt l)) (stateSt l b sd.1).nodes).map (fun x => (preC1 (stretchPars l b p) (fin bdy.2) sd.2 x.1 x.2.1 x.2.2, preC2 (stretchPars l b p) x.1 x.2.1 x.2.2)) =
      ((preReaches rs sd.1.nodes).map (fun x => (preC1 p (fin bdy.2) sd.2 x.1 x.2.1 x.2.2, preC2 p x.1 x.2.1 x.2.2))).map fun c => (sc b c.1, sc b c.2) := by
    show (preReaches (rs.map (reachSt l)) (sd.1.nodes.map (nodeSt l b))).map _ = _
    rw [reaches_st, List.map_map, List.map_map]
    refine List.map_congr_left fun x _ => ?_
    show (preC1 _ _ _ _ _ _, preC2 _ _ _ _) = _
    rw [c1_st hl hb, c2_st hl hb]
    rfl
  rw [eC, show (stretchPars l b p).MaxIt = p.MaxIt from rfl, newton_st hl hb p Closed solver hs]
  cases preNewton p Closed solver bdy.1 bdy.2 ((preReaches rs sd.1.nodes).map (fun x => (preC1 p (fin bdy.2) sd.2 x.1 x.2.1 x.2.2, preC2 p x.1 x.2.1 x.2.2))) rs p.MaxIt sd.1 with
  | error e => rfl
  | ok x =>
    obtain ⟨s, conv⟩ := x
    cases conv with
    | true => rfl
    | false =>
      have e2 := steady_st hl hb { n := p.n, Q := Ql, DsWL := Dl, Beta := p.Beta, Tol := p.Tol, MaxIt := p.MaxIt } dx (s.nodes.map (·.z)) (s.nodes.map (·.B))
      have e3 : (stateSt l b s).nodes.map (·.B) = (s.nodes.map (·.B)).map (sc b) := by
        show (s.nodes.map (nodeSt l b)).map _ = _
        rw [List.map_map, List.map_map]; rfl
      have e4 : (stateSt l b s).nodes.map (·.z) = s.nodes.map (·.z) := by
        show (s.nodes.map (nodeSt l b)).map _ = _
        rw [List.map_map]; rfl
      show (solveSteady { n := p.n / √l, Q := b * Ql, DsWL := Dl, Beta := p.Beta, Tol := p.Tol, MaxIt := p.MaxIt } (dx.map (sc l)) ((stateSt l b s).nodes.map (·.z)) ((stateSt l b s).nodes.map (·.B)) >>= _) =
        Except.map _ (solveSteady _ dx _ _ >>= _)
      rw [e3, e4, e2]
      cases solveSteady { n := p.n, Q := Ql, DsWL := Dl, Beta := p.Beta, Tol := p.Tol, MaxIt := p.MaxIt } dx (s.nodes.map (·.z)) (s.nodes.map (·.B)) with
      | error e => rfl
      | ok y =>
        obtain ⟨h, V⟩ := y
        refine congrArg Except.ok ?_
        have e5 : List.zipWith (fun (a : PreNode) (x : Fl ℝ × Fl ℝ) => ({ a with h := x.1, V := x.2 } : PreNode)) (s.nodes.map (nodeSt l b)) (h.zip V) =
            (List.zipWith (fun (a : PreNode) (x : Fl ℝ × Fl ℝ) => ({ a with h := x.1, V := x.2 } : PreNode)) s.nodes (h.zip V)).map (nodeSt l b) := by
          have := zipWith_st (nodeSt l b) id (nodeSt l b) (fun (a : PreNode) (x : Fl ℝ × Fl ℝ) => ({ a with h := x.1, V := x.2 } : PreNode))
            (fun (a : PreNode) (x : Fl ℝ × Fl ℝ) => ({ a with h := x.1, V := x.2 } : PreNode)) (fun _ _ => rfl) s.nodes (h.zip V)
          rw [List.map_id] at this
          exact this
        have e6 : (stateSt l b s).nodes.map (fun a => (a.h, a.V)) = s.nodes.map (fun a => (a.h, a.V)) := by
          show (s.nodes.map (nodeSt l b)).map _ = _
          rw [List.map_map]; rfl
        refine Prod.ext ?_ rfl
        show ({ nodes := List.zipWith _ (s.nodes.map (nodeSt l b)) (h.zip V), Delta := s.Delta, caller := match s.caller with | some c => some c | none => some ((stateSt l b s).nodes.map (fun a => (a.h, a.V))) } : PreState) =
          { nodes := (List.zipWith _ s.nodes (h.zip V)).map (nodeSt l b), Delta := s.Delta, caller := match s.caller with | some c => some c | none => some (s.nodes.map (fun a => (a.h, a.V))) }
        rw [e5, e6]

include hl hb in
theorem presteps_st (Closed : Bool) (solver : Solver) (hs : FactorBlind solver) (dx : List (Fl ℝ)) (rs : List PreReach) (Ql Dl : ℝ) : ∀ (bdy : List (ℝ × ℝ)) (sd : PreState × Fl ℝ),
    (bdy.map fun x => (b * x.1, x.2)).foldlM (preStep (stretchPars l b p) Closed solver (dx.map (sc l)) (rs.map (reachSt l)) (b * Ql) Dl) (stateSt l b sd.1, sd.2) =
      (bdy.foldlM (preStep p Closed solver dx rs Ql Dl) sd).map (fun x => (stateSt l b x.1, x.2))
  | [], sd => rfl
  | x :: bdy, sd => by
    rw [List.map_cons, List.foldlM_cons, List.foldlM_cons, prestep_st hl hb p Closed solver hs]
    cases preStep p Closed solver dx rs Ql Dl sd x with
    | error e => rfl
    | ok y => exact presteps_st Closed solver hs dx rs Ql Dl bdy y

include hl in
theorem dx2_st (dx : List (Fl ℝ)) : preDx2 (dx.map (sc l)) = (preDx2 dx).map (List.map (sc l)) := by
  unfold preDx2
  simp only [get_map, pyGet_map]
  cases ixGet dx 0 with
  | error e => rfl
  | ok d0 =>
  cases pyGet dx (-1) with
  | error e => rfl
  | ok dN =>
    refine congrArg Except.ok ?_
    show sc l d0 :: (List.zipWith _ _ _ ++ [sc l dN]) = _
    rw [← List.map_dropLast, ← List.map_tail, zipWith_st (sc l) (sc l) (sc l) (fun a b => (a + b) / fin 2) _ (fun x y => by rw [outA, outD hl]), List.map_cons, List.map_append]
    rfl

include hl hb in
theorem init_st (dx : List (Fl ℝ)) (nodes : List (ChanNode (Fl ℝ))) :
    preInit (stretchPars l b p) (dx.map (sc l)) (nodes.map (stretchNode l b)) = (preInit p dx nodes).map (fun x => (x.1.map (nodeSt l b), x.2.map (reachSt l))) := by
  unfold preInit
  rw [dx2_st hl]
  cases preDx2 dx with
  | error e => rfl
  | ok dx2 =>
    refine congrArg Except.ok ?_
    refine Prod.ext ?_ ?_
    · refine zipWith_st (stretchNode l b) (sc l) (nodeSt l b) _ _ (fun c d => ?_) nodes dx2
      unfold preNode nodeSt stretchNode
      dsimp only
      rw [preSf_st hl, times_eq, times_eq, outR hb, sc_div2 (mul_pos hl hb) hl, show l * b / l = b by field_simp, outA]
    · show List.zipWith _ (dx.map (sc l)) ((nodes.map (stretchNode l b)).zip (nodes.map (stretchNode l b)).tail) = _
      rw [← List.map_tail, List.zip_map]
      refine zipWith_st (sc l) (Prod.map (stretchNode l b) (stretchNode l b)) (reachSt l) _ _ (fun d x => ?_) dx _
      unfold preReach reachSt stretchNode
      dsimp only [Prod.map_fst, Prod.map_snd]
      have h2 : ∀ x : Fl ℝ, fin 2 * sc l x = sc l (fin 2 * x) := outR hl _
      rw [times_eq, times_eq, outA, h2, sc_div2 hl hl, dt_st, sc_div2 hl hl, div_self hl.ne', sc_one, sc_one, div_sc hl]

end stretch

/-- C176: in a river `l` times as long and `b` times as wide, with timesteps `l` times as long, `b` times the inflow, and roughness and permeability changed so that friction and seepage go along, the unsteady
solver gives after any series of inflows and sea levels the same depths and velocities, or fails with the same error: outlet open or closed, whether or not the iteration converges, for every linear solver
whose answer does not depend on factors in front of the equations. -/
theorem C176_unsteady (l b : ℝ) (hl : 0 < l) (hb : 0 < b) (p : PrePars) (Closed : Bool) (solver : Solver) (hs : FactorBlind solver) (dx : List (Fl ℝ)) (nodes : List (ChanNode (Fl ℝ)))
    (bdy : List (ℝ × ℝ)) :
    solveFullPreissmann (stretchPars l b p) Closed solver (dx.map (times l)) (nodes.map (stretchNode l b)) (bdy.map fun x => (b * x.1, x.2)) = solveFullPreissmann p Closed solver dx nodes bdy := by
  rw [show times l = sc l from funext (times_eq l)]
  unfold solveFullPreissmann
  rw [init_st hl hb]
  cases preInit p dx nodes with
  | error e => rfl
  | ok x =>
    obtain ⟨ns, rs⟩ := x
    show (pyGet (ns.map (nodeSt l b)) (-1) >>= _) = (pyGet ns (-1) >>= _)
    rw [pyGet_map]
    cases pyGet ns (-1) with
    | error e => rfl
    | ok nN =>
      have eL : (bdy.map fun x => (b * x.1, x.2)).getLast?.getD (0, 0) = (b * (bdy.getLast?.getD (0, 0)).1, (bdy.getLast?.getD (0, 0)).2) := by
        rw [List.getLast?_map]
        cases bdy.getLast? with
        | none => simp
        | some x => rfl
      simp only [bind, Except.bind, Except.map, eL]
      have h := presteps_st hl hb p Closed solver hs dx rs (bdy.getLast?.getD (0, 0)).1 (bdy.getLast?.getD (0, 0)).2 bdy (⟨ns, none, none⟩, nN.z + nN.h)
      rw [show (nodeSt l b nN).z + (nodeSt l b nN).h = nN.z + nN.h from rfl, show (⟨ns.map (nodeSt l b), none, none⟩ : PreState) = stateSt l b ⟨ns, none, none⟩ from rfl, h]
      cases bdy.foldlM (preStep p Closed solver dx rs (bdy.getLast?.getD (0, 0)).1 (bdy.getLast?.getD (0, 0)).2) (⟨ns, none, none⟩, nN.z + nN.h) with
      | error e => rfl
      | ok y =>
        obtain ⟨s, d⟩ := y
        show Except.ok _ = Except.ok _
        refine congrArg Except.ok ?_
        cases s with
        | mk nodes Delta caller =>
          cases caller with
          | none => show (nodes.map (nodeSt l b)).map _ = _; rw [List.map_map]; rfl
          | some c => rfl

/-! ## Exact linear solvers -/

open Classical in
/-- The linear solver that finds the solution where there is exactly one. -/
noncomputable def onlySolver (n : ℕ) : Solver := fun band err => if h : ∃! d, SolvesBand n band err d then .ok h.choose else .singular

theorem solves_same {m n : ℕ} {band band' : ℕ → ℕ → Fl ℝ} {err err' : List (Fl ℝ)} (h : SameEquations m band err band' err') (d : List (Fl ℝ)) :
    SolvesBand n band' err' d ↔ SolvesBand n band err d := by
  obtain ⟨l1, l2, D, hD, he, hb⟩ := h
  by_cases hnm : n ≤ m
  swap
  · constructor
    · rintro ⟨-, h⟩
      obtain ⟨-, -, c, -, -, h3, -⟩ := h m (by omega)
      rw [List.getElem?_eq_none (by omega)] at h3
      cases h3
    · rintro ⟨-, h⟩
      obtain ⟨-, -, c, -, -, h3, -⟩ := h m (by omega)
      rw [List.getElem?_eq_none (by omega)] at h3
      cases h3
  replace he : ∀ i < n, err'[i]? = (err[i]?).map (times (D i)) := fun i hi => he i (by omega)
  replace hb : ∀ i j, i < n → j < n → i ≤ j + 2 → j ≤ i + 2 → banded band' i j = times (D i) (banded band i j) := fun i j hi hj => hb i j (by omega) (by omega)
  have sum_mul : ∀ (l : List ℕ) (k : ℝ) (f : ℕ → ℝ), (l.map (fun j => k * f j)).sum = k * (l.map f).sum := by
    intro l k f
    induction l with
    | nil => simp
    | cons x l ih => simp only [List.map_cons, List.sum_cons, ih]; ring
  have inj : ∀ (q : ℝ), 0 < q → ∀ (x : Fl ℝ) (y : ℝ), times q x = fin y → x = fin (q⁻¹ * y) := by
    intro q hq x y h
    cases x with
    | fin x =>
      simp only [times, Fl.fin.injEq] at h
      rw [← h]
      congr 1
      field_simp
    | nan => cases h
    | pinf => cases h
    | ninf => cases h
  constructor
  · rintro ⟨hl, h⟩
    refine ⟨hl, fun i hi => ?_⟩
    obtain ⟨a, y, c, h1, h2, h3, h4⟩ := h i hi
    refine ⟨fun j => (D i)⁻¹ * a j, y, (D i)⁻¹ * c, fun j hj hj1 hj2 => ?_, h2, ?_, ?_⟩
    · have := h1 j hj hj1 hj2
      rw [hb i j hi hj hj1 hj2] at this
      exact inj _ (hD i) _ _ this
    · rw [he i hi] at h3
      cases hx : err[i]? with
      | none => rw [hx] at h3; cases h3
      | some x =>
        rw [hx] at h3
        exact congrArg some (inj _ (hD i) _ _ (Option.some.inj h3))
    · rw [← h4, ← sum_mul]
      congr 1
      refine List.map_congr_left fun j _ => ?_
      split_ifs
      · ring
      · ring
  · rintro ⟨hl, h⟩
    refine ⟨hl, fun i hi => ?_⟩
    obtain ⟨a, y, c, h1, h2, h3, h4⟩ := h i hi
    refine ⟨fun j => D i * a j, y, D i * c, fun j hj hj1 hj2 => ?_, h2, ?_, ?_⟩
    · rw [hb i j hi hj hj1 hj2, h1 j hj hj1 hj2]; rfl
    · rw [he i hi, h3]; rfl
    · rw [← h4, ← sum_mul]
      congr 1
      refine List.map_congr_left fun j _ => ?_
      split_ifs
      · ring
      · ring

open Classical in
/-- Factors in front of the equations do not matter to it. -/
theorem only_blind (n : ℕ) : FactorBlind (onlySolver n) := by
  intro m band err band' err' h
  have e : (fun d => SolvesBand n band' err' d) = (fun d => SolvesBand n band err d) := by
    funext d
    exact propext (solves_same h d)
  have e2 : ∀ P Q : List (Fl ℝ) → Prop, P = Q →
      (if h : ∃! d, P d then SolveRes.ok h.choose else .singular) = (if h : ∃! d, Q d then SolveRes.ok h.choose else .singular) := by
    rintro P Q rfl
    rfl
  exact e2 _ _ e

theorem only_exact (n : ℕ) (band : ℕ → ℕ → Fl ℝ) (err d : List (Fl ℝ)) (h : onlySolver n band err = .ok d) : SolvesBand n band err d := by
  unfold onlySolver at h
  split at h
  · rename_i hs
    cases h
    exact hs.choose_spec.1
  · cases h

theorem only_answers (n : ℕ) (band : ℕ → ℕ → Fl ℝ) (err : List (Fl ℝ)) (h : ∃! d, SolvesBand n band err d) : ∃ d, onlySolver n band err = .ok d := by
  unfold onlySolver
  rw [dif_pos h]
  exact ⟨_, rfl⟩

/-- The river of C143, with twice the width, twice the inflow, and reaches of 40 m in place of 10 m, also stays as it is. -/
example (steps : ℕ) :
    solveFullPreissmann { riverPars with n := 0.015, P := 0, dt := 4 } false (onlySolver 200) ((List.range 99).map fun _ => fin 40)
      ((List.range 100).map fun k => ⟨fin (river k).z, fin 100, fin 0, fin 0, fin 1, fin 2⟩) (List.replicate steps (200, (river 99).z + 1)) =
        .ok (held 100 river) := by
  have h0 : hold riverPars (onlySolver 200) 100 river (fun _ => 10) (2 * (50 * 1)) ((river 99).z + 1) steps = .ok (held 100 river) := by
    refine C143_partial_held riverPars (by norm_num [riverPars]) (by norm_num [riverPars]) (by norm_num [riverPars]) (by norm_num [riverPars])
      (by norm_num [riverPars]) (by norm_num [riverPars]) 100 (by norm_num) river (fun _ => 10) (by intros; norm_num)
      (by intros; norm_num [river]) (by intros; norm_num [river]) (by intros; norm_num [river]) (by intros; norm_num [river])
      (by intros; norm_num [river]) _ _
      (uniform_steady riverPars.g riverPars.n riverPars.Beta riverPars.P 100 (by norm_num) (flowOf river (fun _ => 10)) 50 1 2
        (river_uniform 100) (by intros; norm_num [riverPars])) ?_ (onlySolver 200) (only_exact 200) (only_answers 200) steps
    intro r _
    have hv : |(2 : ℝ)| = 2 := abs_of_pos (by norm_num)
    constructor
    · norm_num [riverPars, flowOf, river]
    · norm_num [riverPars, flowOf, river]
    · simp only [riverPars, flowOf, river, Flow.area, Flow.friction, hv, Real.one_rpow]
      push_cast
      ring_nf
      norm_num
    · simp only [riverPars, flowOf, river, Flow.area, Flow.friction, hv, Real.one_rpow]
      push_cast
      ring_nf
      norm_num
  rw [← h0]
  have e := C176_unsteady 4 2 (by norm_num) (by norm_num) riverPars false (onlySolver 200) (only_blind 200) ((List.range 99).map fun _ => fin 10)
    ((List.range 100).map fun k => finNode (river k)) (List.replicate steps (2 * (50 * 1), (river 99).z + 1))
  have e4 : √(4:ℝ) = 2 := by rw [show (4:ℝ) = 2 ^ 2 by norm_num, sqrt_sq (by norm_num)]
  have ep : stretchPars 4 2 riverPars = { riverPars with n := 0.015, P := 0, dt := 4 } := by
    unfold stretchPars riverPars
    rw [e4]
    norm_num
  rw [ep, List.map_map, List.map_map, List.map_replicate] at e
  refine Eq.trans ?_ e
  have e1 : (fun _ : ℕ => fin (40:ℝ)) = times 4 ∘ fun _ => fin 10 := by
    funext k
    show fin _ = fin _
    norm_num
  have e2 : (fun k => (⟨fin (river k).z, fin 100, fin 0, fin 0, fin 1, fin 2⟩ : ChanNode (Fl ℝ))) = stretchNode 4 2 ∘ fun k => finNode (river k) := by
    funext k
    simp only [stretchNode, finNode, river, times, Function.comp]
    norm_num
  have e3 : ((200:ℝ), (river 99).z + 1) = (2 * (2 * (50 * 1)), (river 99).z + 1) := by norm_num
  rw [e1, e2, e3]

end Verif.Props
