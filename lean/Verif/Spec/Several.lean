import Verif.Spec.Firewall
import Verif.Model.Several

/-!
# Specification: several runs of letmeinfwd
-/

namespace Letmein.Spec

/-- Other programs leave the chain alone. -/
def HostEventFair (n : NftNames) (h : FwHost) : HostEvent → Prop
  | .act i op => ∀ p, h.procs[i]? = some p → OpFair n (p.state h.kernel) op
  | .others k => OwnUnchanged n h.kernel k
  | _ => True

/-- Every event of the history is fair. -/
def HostFair (n : NftNames) : FwHost → List HostEvent → Prop
  | _, [] => True
  | h, e :: rest => HostEventFair n h e ∧ HostFair n (hostStep h e).2 rest

/-- Every configuration read names the chain. -/
def SameChain (n : NftNames) (evs : List HostEvent) : Prop := ∀ conf ok, HostEvent.start conf ok ∈ evs → ChainOf conf n

/-- letmeinfwd is only started when none is there. -/
def OneAtATime : FwHost → List HostEvent → Prop
  | _, [] => True
  | h, e :: rest =>
    (∀ conf ok, e = .start conf ok → ∀ p ∈ h.procs, p.phase.alive = false) ∧ OneAtATime (hostStep h e).2 rest

/-- The grants of the latest run: nothing when it starts, later its own answers. -/
def latestStep (h : FwHost) (g : Grants) (e : HostEvent) (out : HostOut) : Grants :=
  match e, out with
  | .start _ _, .started => Grants.none
  | .act i op, .reply m =>
    match h.procs[i]? with
    | some p => if i + 1 = h.procs.length then g.step p.conf.nftTimeout op m else g
    | none => g
  | _, _ => g

/-- The grants of the latest run after a history. -/
def latestGrants : FwHost → Grants → List HostEvent → Grants
  | _, g, [] => g
  | h, g, e :: rest => latestGrants (hostStep h e).2 (latestStep h g e (hostStep h e).1) rest

/-- The chain accepts the packets to the control port and those granted, and no others. -/
def AcceptsExactly (n : NftNames) (k : Kernel) (conf : Config) (g : Grants) : Prop :=
  ∀ pkt, chainAccepts n k pkt = true ↔
    (familySees n.family pkt.src = true ∧ toControlPort conf pkt) ∨ ∃ a p e, g a p = some e ∧ covers a p pkt

/-! ### The grants of all runs -/

/-- What is gone together with an emptied chain: the grants of the runs that have ended. -/
def swept (procs : List FwInstance) (ts : List (Option Grants)) : List (Option Grants) :=
  List.zipWith (fun p t => if p.phase.alive then t else none) procs ts

/-- The grants of every run. A run that has ended keeps its grants until the chain is emptied; maintenance that failed has closed
nothing. -/
def tablesStep (h : FwHost) (ts : List (Option Grants)) (e : HostEvent) (out : HostOut) (h' : FwHost) : List (Option Grants) :=
  match e, out with
  | .start _ _, .started => swept h'.procs (ts ++ [some Grants.none])
  | .act i op, .reply m =>
    match h.procs[i]?, h'.procs[i]?, ts[i]? with
    | some p, some p', some (some g) =>
      match op with
      | .terminate ok => if ok && p.phase.alive then swept h'.procs ts else ts
      | .maintain _ _ => if p'.phase = .running then ts.set i (some (g.step p.conf.nftTimeout op m)) else ts
      | _ => ts.set i (some (g.step p.conf.nftTimeout op m))
    | _, _, _ => ts
  | _, _ => ts

/-- The grants of every run after a history. -/
def tables : FwHost → List (Option Grants) → List HostEvent → List (Option Grants)
  | _, ts, [] => ts
  | h, ts, e :: rest => tables (hostStep h e).2 (tablesStep h ts e (hostStep h e).1 (hostStep h e).2) rest

end Letmein.Spec
