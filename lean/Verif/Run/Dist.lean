import Verif.Run.Inside
import Verif.Distmem.Exchange

/-!
# Whole runs with distributed memory (C107)

Sources: src/particles_ctor.ipp:36-58 (which edges are open, which are shared), src/particles_step.ipp:338-504 (`step_async`), src/impl/boundary_conditions/particles_impl_bcnd.ipp:148-204,
src/impl/distributed_memory/particles_impl_mpi_exchange.ipp, particles_impl_post_copy.ipp:19-40; with several GPUs src/impl_multi_gpu/particles_multi_gpu_impl_step_async_and_copy.ipp.

Each subdomain goes through condensation, coalescence, transport, sources and boundary conditions as in `Run.Model`; then super-droplets are exchanged (`Distmem.exchange`).
No recycling (rejected with several GPUs), no chemistry (its attributes are not exchanged), no ice.
-/
namespace LCP.Run
open LCP

/-- options of a run on `m + 1` subdomains: common options, extents of the subdomains in their own coordinates, capacities -/
structure DCfg (m : ℕ) where
  base : Cfg
  x0 : Fin (m + 1) → ℝ
  x1 : Fin (m + 1) → ℝ
  nSdMax : Fin (m + 1) → ℕ

/-- boundaries of subdomain `r` (particles_ctor.ipp:36-58): with open side walls the left edge of the first and the right edge of the last subdomain are open, all other
edges are shared with a neighbour -/
def DCfg.edges {m : ℕ} (D : DCfg m) (r : Fin (m + 1)) : Bool × Bool :=
  (D.base.bcnd.openSide && decide (r.val = 0), D.base.bcnd.openSide && decide (r.val = m))

/-- options seen by subdomain `r` -/
def DCfg.cfg {m : ℕ} (D : DCfg m) (r : Fin (m + 1)) : Cfg :=
  { D.base with bcnd := { D.base.bcnd with x0 := D.x0 r, x1 := D.x1 r, dist := some (D.edges r) } }

/-- attributes that are sent (particles_impl.ipp:440-491), numbered -/
def Drop.code (d : Drop) : ℕ → ℝ
  | 0 => d.rw2 | 1 => d.rd3 | 2 => d.kpa | 3 => d.vt | 4 => d.y | 5 => d.z | 6 => d.inc | 7 => d.rc2 | _ => 0

/-- a droplet as seen by the exchange -/
def Drop.toSd (d : Drop) : Distmem.Sd := { n := d.n, x := d.x, attr := d.code }

/-- and back -/
def ofSd (s : Distmem.Sd) : Drop :=
  { n := s.n, x := s.x, rw2 := s.attr 0, rd3 := s.attr 1, kpa := s.attr 2, vt := s.attr 3, y := s.attr 4, z := s.attr 5, inc := s.attr 6, rc2 := s.attr 7, chem := fun _ => 0 }

/-- the population of a subdomain as seen by the exchange; `cap` is the size of its buffers -/
def toRank (o : Bcnd.Opts) (cap nSdMax : ℕ) (s : St) : Distmem.Rank :=
  { x0 := o.x0, x1 := o.x1, sds := (List.range s.N).map fun i => (s.sd i).toSd, cap := cap, nSdMax := nSdMax
    openL := (o.dist.getD (false, false)).1, openR := (o.dist.getD (false, false)).2 }

/-- population of a subdomain after the exchange; the puddle is not exchanged -/
def ofRank (p : Bcnd.Q → ℝ) (R : Distmem.Rank) : St :=
  { N := R.sds.length, sd := fun i => ofSd (R.sds.getD i ⟨0, 0, fun _ => 0⟩), puddle := p }

/-- all subdomains after their boundary conditions, before the exchange -/
noncomputable def atExchange {m : ℕ} (D : DCfg m) (cap : Fin (m + 1) → ℕ) (t : Fin (m + 1) → Trace) : Fin (m + 1) → Distmem.Rank :=
  fun r => toRank (D.cfg r).bcnd (cap r) (D.nSdMax r) (bcndRun (D.cfg r).bcnd (t r).atWalls)

/-- a time step of all subdomains together: they begin in `s` with buffers `cap`, end in `s'` with buffers `cap'`; the step is possible only if the exchange goes well -/
structure DStep {m : ℕ} (D : DCfg m) (s : Fin (m + 1) → St) (cap : Fin (m + 1) → ℕ) (t : Fin (m + 1) → Trace) (s' : Fin (m + 1) → St) (cap' : Fin (m + 1) → ℕ) : Prop where
  beg : ∀ r, (t r).a = s r
  step : ∀ r, TimeStep (D.cfg r) (t r)
  norcyc : ∀ r, (t r).rcyc = none
  exch : ∃ R, Distmem.exchange (atExchange D cap t) = some R ∧
    ∀ r, s' r = ofRank (bcndRun (D.cfg r).bcnd (t r).atWalls).puddle (R r) ∧ cap' r = (R r).cap

/-- a run of `T` steps -/
def DHistory {m : ℕ} (D : DCfg m) (T : ℕ) (s : ℕ → Fin (m + 1) → St) (cap : ℕ → Fin (m + 1) → ℕ) (t : ℕ → Fin (m + 1) → Trace) : Prop :=
  ∀ k < T, DStep D (s k) (cap k) (t k) (s (k + 1)) (cap (k + 1))

end LCP.Run
