import Verif.Spec.Moved

set_option autoImplicit false

/-! # Specification: the same coast with another vertical datum -/

namespace Verif.Spec
open Verif Fl Model

variable {K : Type} [Field K] [LinearOrder K]

/-- A transect with all levels higher by `d`; positions are the same. -/
def liftT (d : K) (t : Transect K) : Transect K :=
  { t with z0 := sh d t.z0, z1 := sh d t.z1, z2 := sh d t.z2, z3 := sh d t.z3 }

/-- A coast with all levels higher by `d`. -/
def liftRows (d : K) (l : List (Transect K)) : List (Transect K) := l.map (liftT d)

/-- The parameters with all levels higher by `d`.  The closure depth is counted down from the datum. -/
def liftPars (d : K) (p : PhysPars K) : PhysPars K :=
  { p with ClosureDepth := p.ClosureDepth - d, BackshoreElev := p.BackshoreElev + d, MaxOutletElev := p.MaxOutletElev + d,
           BeachTopElev := p.BeachTopElev + d, BarRatInt := p.BarRatInt + d }

/-- Stored hydraulics with the water level of the lagoon higher by `d` (the other entries are depths and velocities). -/
def liftHyd (d : K) (h : HydStore K) : HydStore K := { h with LagoonWL := h.LagoonWL.map (sh d) }

/-- A channel with all bed levels higher by `d`. -/
def liftChan (d : K) (c : ChanOut K) : ChanOut K := { c with elev := c.elev.map (sh d) }

/-- The initial condition with all levels higher by `d`. -/
def liftLoad (d : K) (l : LoadOut K) : LoadOut K :=
  { l with rows := liftRows d l.rows, RiverElev := l.RiverElev.map (sh d), EndElev := sh d l.EndElev,
           RiverWL := l.RiverWL.map (sh d), LagoonWL := l.LagoonWL.map (sh d) }

/-- An output record with all levels higher by `d`. -/
def liftSnap (d : K) (s : Snapshot K) : Snapshot K :=
  { s with SeaLevel := sh d s.SeaLevel, rows := liftRows d s.rows, LagoonWL := s.LagoonWL.map (sh d),
           RiverElev := s.RiverElev.map (sh d), EndElev := sh d s.EndElev }

/-- A time series record with all levels higher by `d`. -/
def liftTs (d : K) (r : TsRec K) : TsRec K := { r with SeaLevel := sh d r.SeaLevel, MeanLagoonWl := sh d r.MeanLagoonWl }

/-- The state of the simulation, and its records, with all levels higher by `d`. -/
def liftSt (d : K) (s : CoreSt K) : CoreSt K :=
  { s with rows := liftRows d s.rows, EndElev := sh d s.EndElev, RiverElev := s.RiverElev.map (sh d), hyd := liftHyd d s.hyd,
           outs := s.outs.map (liftSnap d), ts := s.ts.map (liftTs d) }

/-- The result of a morphological update with all levels higher by `d`. -/
def liftMor (d : K) (m : MorOut K) : MorOut K :=
  { m with rows := liftRows d m.rows, EndElev := sh d m.EndElev, RiverElev := m.RiverElev.map (sh d) }

/-- What is computed in a pass, with all levels higher by `d`. -/
def liftPass (d : K) (p : PassOut K) : PassOut K :=
  { p with chan := liftChan d p.chan, sea := sh d p.sea, hyd := liftHyd d p.hyd, mor := liftMor d p.mor }

/-- The functions of river, waves and coast `p'` for levels higher by `d` do what `p` does. -/
structure Lifted (d : K) (p p' : Parts K) : Prop where
  unsteady : ∀ c l, p'.unsteady (liftChan d c) (l.map (fun x => (x.1, sh d x.2))) = p.unsteady c l
  steady : ∀ c q w, p'.steady (liftChan d c) q (sh d w) = p.steady c q w
  bedload : p'.bedload = p.bedload
  lst : p'.lst = p.lst
  runup : p'.runup = p.runup
  overtop : ∀ r s rows, p'.overtop r (sh d s) (liftRows d rows) = p.overtop r s rows

/-- The surroundings of the simulation with all levels higher by `d`, and with the functions `p'`. -/
def liftEnv (d : K) (p' : Parts K) (e : Env K) : Env K :=
  { e with pp := liftPars d e.pp, parts := p', sea := e.sea.map (fun r => (r.1, sh d r.2)) }

/-- The number that marks transects without water (mor.py 54). -/
def dryMark : Fl K := fin (-99999 / 10)

/-- In the pass from `s` no water level happens to be the number that marks transects without water, and no crest is below it,
neither with the levels as they are nor with levels higher by `d`. -/
structure Above (d : K) (s : CoreSt K) (p : PassOut K) : Prop where
  lagoon : ∀ v ∈ p.hyd.LagoonWL, v ≠ dryMark
  outlet : ∀ (i : ℕ) (r : Transect K) (v : Fl K), s.rows[i]? = some r → p.hyd.OutletDep[i]? = some v → v + r.z1 ≠ dryMark
  crest : ∀ r ∈ p.mor.rows, (r.z0 <? dryMark) = false ∧ (sh d r.z0 <? dryMark) = false

/-- A closed lagoon in the pass from `s`: no breach, and no transect loses its channel. -/
structure KeepsRelics (s : CoreSt K) (p : PassOut K) : Prop where
  closed : p.chan.closed = true
  breach : p.mor.Breach = false
  kept : ∀ (i : ℕ) (r r' : Transect K), s.rows[i]? = some r → p.mor.rows[i]? = some r' → r'.y1 = nan → r.y1 = nan

end Verif.Spec
