import Verif.Protocol.Conform.LeaveGroup
/-!
Generated by tools/gen_protocol.py: the LeaveGroup request is read as the protocol says.
-/
namespace Kafka.Msg

open Protocol

/-- What `MemberIdentity13` holds after reading the value `x` into `t0`. -/
def MemberIdentity13.of (v : Int16) (x : Val) (t0 : MemberIdentity13) : MemberIdentity13 :=
  { MemberId := if v ≥ 3 then (x.get "MemberId").toStr else t0.MemberId,
    GroupInstanceId := if v ≥ 3 then (x.get "GroupInstanceId").toStr else t0.GroupInstanceId }

theorem MemberIdentity13.decodes {v : Int16} (_hv : 0 ≤ v) (x : Val) (h : Protocol.MemberIdentity.Valid false v x) (t0 : MemberIdentity13) :
    Reads (MemberIdentity13.decode v t0) (Protocol.MemberIdentity.wire false v x) (MemberIdentity13.of v x t0) :=
  Reads.congr (((Step.optField (c := v ≥ 3) (set := fun (t : MemberIdentity13) x => { t with MemberId := x }) (·.MemberId) (fun _ => rfl) fun hc => read_string (Fields.Valid.head (h) hc))
      |>.andThen (Step.optField (c := v ≥ 3) (set := fun (t : MemberIdentity13) x => { t with GroupInstanceId := x }) (·.GroupInstanceId) (fun _ => rfl) fun hc => read_string (Fields.Valid.head (Fields.Valid.tail h) hc)) : Step _ _ _) t0)
    (Writes.eq (fs := Protocol.MemberIdentity) (v := v) (x := x) <| Writes.since rfl <| Writes.since rfl <| Writes.done).symm rfl

theorem MemberIdentity13.parses {v : Int16} (_hv : 0 ≤ v) (t0 : MemberIdentity13) :
    Parses (MemberIdentity13.decode v t0) ((Ty.struct Protocol.MemberIdentity).parse v) (fun x => MemberIdentity13.of v x t0) :=
  FParses.parses (fs := Protocol.MemberIdentity)
    (FParses.optField (c := v ≥ 3) Iff.rfl (set := fun (t : MemberIdentity13) x => { t with MemberId := x }) (·.MemberId) (fun _ => rfl) par_string <|
    FParses.optField (c := v ≥ 3) Iff.rfl (set := fun (t : MemberIdentity13) x => { t with GroupInstanceId := x }) (·.GroupInstanceId) (fun _ => rfl) par_string <|
    FParses.done)
    (by simp only [MemberIdentity13.decode, Dec.andThen_nop]) (Fields.distinct_nodup _ (by decide +kernel)) (fun _ _ => rfl) t0

theorem MemberIdentity13.shown {v : Int16} (_hv : 0 ≤ v) (x : Val) (h : Protocol.MemberIdentity.Typed v x) :
    Protocol.MemberIdentity.shows v x (MemberIdentity13.val (MemberIdentity13.of v x {})) = true :=
  Shows.since (fun s => .str (some s)) rfl (fun hc => show_string (Fields.Typed.head (h) hc)) rfl <|
    Shows.since (fun s => .str (some s)) rfl (fun hc => show_string (Fields.Typed.head (Fields.Typed.tail h) hc)) rfl <|
    rfl

/-- What `LeaveGroupRequest` holds after reading the value `x` into `t0`. -/
def LeaveGroupRequest.of (v : Int16) (x : Val) (t0 : LeaveGroupRequest) : LeaveGroupRequest :=
  { GroupId := (x.get "GroupId").toStr,
    MemberId := if v ≥ 0 ∧ v ≤ 2 then (x.get "MemberId").toStr else t0.MemberId,
    Members := if v ≥ 3 then (x.get "Members").toSliceOr (fun y => MemberIdentity13.of v y {}) t0.Members else t0.Members }

theorem LeaveGroupRequest.decodes {v : Int16} (hv : 0 ≤ v) (x : Val) (h : Protocol.LeaveGroupRequest.Valid false v x) (t0 : LeaveGroupRequest) :
    Reads (LeaveGroupRequest.decode v t0) (Protocol.LeaveGroupRequest.wire false v x) (LeaveGroupRequest.of v x t0) :=
  Reads.congr (((Step.field (set := fun (t : LeaveGroupRequest) x => { t with GroupId := x }) (read_string (Fields.Valid.head (h) hv)))
      |>.andThen (Step.optField (c := v ≥ 0 ∧ v ≤ 2) (set := fun (t : LeaveGroupRequest) x => { t with MemberId := x }) (·.MemberId) (fun _ => rfl) fun hc => read_string (Fields.Valid.head (Fields.Valid.tail h) hc))
      |>.andThen (Step.readOptStructs (c := v ≥ 3) (get := fun (t : LeaveGroupRequest) => t.Members) (set := fun (t : LeaveGroupRequest) x => { t with Members := x }) (fun _ => rfl) (fun y hy => MemberIdentity13.decodes hv y hy {}) fun hc => Fields.Valid.head (Fields.Valid.tail (Fields.Valid.tail h)) hc) : Step _ _ _) t0)
    (Writes.eq (fs := Protocol.LeaveGroupRequest) (v := v) (x := x) <| Writes.all hv rfl <| Writes.between rfl <| Writes.since rfl <| Writes.done).symm rfl

theorem LeaveGroupRequest.parses {v : Int16} (hv : 0 ≤ v) (t0 : LeaveGroupRequest) :
    Parses (LeaveGroupRequest.decode v t0) ((Ty.struct Protocol.LeaveGroupRequest).parse v) (fun x => LeaveGroupRequest.of v x t0) :=
  FParses.parses (fs := Protocol.LeaveGroupRequest)
    (FParses.field hv (set := fun (t : LeaveGroupRequest) x => { t with GroupId := x }) par_string <|
    FParses.optField (c := v ≥ 0 ∧ v ≤ 2) Iff.rfl (set := fun (t : LeaveGroupRequest) x => { t with MemberId := x }) (·.MemberId) (fun _ => rfl) par_string <|
    FParses.optStructs (c := v ≥ 3) Iff.rfl (get := fun (t : LeaveGroupRequest) => t.Members) (set := fun (t : LeaveGroupRequest) x => { t with Members := x }) (fun _ => rfl) (MemberIdentity13.parses hv {}) <|
    FParses.done)
    (by simp only [LeaveGroupRequest.decode, Dec.andThen_assoc, Dec.andThen_nop]) (Fields.distinct_nodup _ (by decide +kernel)) (fun _ _ => rfl) t0

theorem LeaveGroupRequest.shown {v : Int16} (hv : 0 ≤ v) (x : Val) (h : Protocol.LeaveGroupRequest.Typed v x) :
    Protocol.LeaveGroupRequest.shows v x (LeaveGroupRequest.val (LeaveGroupRequest.of v x {})) = true :=
  Shows.all hv (show_string (Fields.Typed.head (h) hv)) <|
    Shows.between (fun s => .str (some s)) rfl (fun hc => show_string (Fields.Typed.head (Fields.Typed.tail h) hc)) rfl <|
    Shows.since (ofStructs MemberIdentity13.val) rfl (fun hc => show_structs (f := MemberIdentity13.val) (g := fun y => MemberIdentity13.of v y {}) (fun y hy => MemberIdentity13.shown hv y hy) (Fields.Typed.head (Fields.Typed.tail (Fields.Typed.tail h)) hc)) rfl <|
    rfl

end Kafka.Msg
