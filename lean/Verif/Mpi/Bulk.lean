import Verif.Mpi.Program

/-!
# The run as it is meant: all processes together, stage by stage

No messages, no waiting: every stage is a function of the memories of all processes.
-/
namespace LCP.Mpi
open LCP.E2L LCP.Grid LCP.Distmem

variable {m : ℕ}

/-- memories of all processes -/
abbrev World (m : ℕ) := Fin (m + 1) → Mem

/-- everybody knows where the neighbours' domains begin -/
noncomputable def bulkDom (c : Cfg m) (W : World m) : World m := fun r =>
  { W r with
    lftX1 := if c.linkL r then c.x1 (lftRank r) else (W r).lftX1
    rgtX0 := if c.linkR r then c.x0 (rgtRank r) else (W r).rgtX0 }

/-- left halos of one component -/
noncomputable def bulkRight (c : Cfg m) (co : Comp) (W : World m) : World m := fun r =>
  if c.linkL r then wrCour co 0 (haloLen (c.dims r) c.h co)
    (rdCour co (rgtInternal (c.dims (lftRank r)) co) (haloLen (c.dims (lftRank r)) c.h co) (W (lftRank r))) (W r) else W r

/-- right halos of one component -/
noncomputable def bulkLeft (c : Cfg m) (co : Comp) (W : World m) : World m := fun r =>
  if c.linkR r then wrCour co (rgtHalo (c.dims r) c.h co) (haloLen (c.dims r) c.h co)
    (rdCour co (lftInternal (c.dims (rgtRank r)) c.h co) (haloLen (c.dims (rgtRank r)) c.h co) (W (rgtRank r))) (W r) else W r

/-- halos of all components -/
noncomputable def bulkCour (c : Cfg m) (W : World m) : World m :=
  if c.h = 0 then W else
    (comps (c.dims 0)).foldl (fun W co => bulkLeft c co W) ((comps (c.dims 0)).foldl (fun W co => bulkRight c co W) W)

/-- what is sent left is packed -/
noncomputable def ex1 (c : Cfg m) (r : Fin (m + 1)) (M : Mem) : Mem :=
  if c.linkL r then packRL c (remoteL c r (packNL M)) else M

/-- messages from the right are taken, what is sent right is packed -/
noncomputable def ex2 (c : Cfg m) (r : Fin (m + 1)) (W : World m) : Mem :=
  if c.linkR r then
    packRR c (unpackR c r (remoteR c r (packNR (unpackN (getCount
      { W r with inN := (W (rgtRank r)).outN, inR := (W (rgtRank r)).outR })))))
  else W r

/-- messages from the left are taken, those who left are flagged -/
noncomputable def ex3 (c : Cfg m) (r : Fin (m + 1)) (W : World m) : Mem :=
  let M1 := if c.linkL r then unpackN (getCount { W r with inN := (W (lftRank r)).outN }) else W r
  let M2 := if c.linkL r then flagL M1 else M1
  let M3 := if c.linkR r then flagR M2 else M2
  let M4 := if c.linkL r then unpackR c r { M3 with inR := (W (lftRank r)).outR } else M3
  resizeM c r M4

/-- exchange of super-droplets -/
noncomputable def bulkExch (c : Cfg m) (W : World m) : World m :=
  let W1 : World m := fun r => ex1 c r (W r)
  let W2 : World m := fun r => ex2 c r W1
  fun r => ex3 c r W2

/-- one time step -/
noncomputable def bulkStep (c : Cfg m) (k : ℕ) (W : World m) : World m :=
  let W1 := bulkCour c (fun r => syncCour c (k + 1) r (W r))
  let W2 : World m := fun r => bcndM c r (dynM c k r (W1 r))
  let W3 := if c.adve k then bulkExch c W2 else W2
  fun r => postM c (W3 r)

/-- time steps `k`, ..., `j` of them -/
noncomputable def bulkSteps (c : Cfg m) : ℕ → ℕ → World m → World m
  | _, 0, W => W
  | k, j + 1, W => bulkSteps c (k + 1) j (bulkStep c k W)

/-- a run of `K` steps -/
noncomputable def bulkRun (c : Cfg m) (K : ℕ) (W : World m) : World m :=
  bulkSteps c 0 K (bulkDom c (bulkCour c (fun r => syncCour c 0 r (W r))))

end LCP.Mpi
