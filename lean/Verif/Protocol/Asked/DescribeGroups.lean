import Verif.Protocol.Conform.DescribeGroups
/-!
Generated by tools/gen_protocol.py: the DescribeGroups request is read as the protocol says.
-/
namespace Kafka.Msg

open Protocol

/-- What `DescribeGroupsRequest` holds after reading the value `x` into `t0`. -/
def DescribeGroupsRequest.of (v : Int16) (x : Val) (t0 : DescribeGroupsRequest) : DescribeGroupsRequest :=
  { Groups := (x.get "Groups").toSlice Val.toStr,
    IncludeAuthorizedOperations := if v ≥ 3 then (x.get "IncludeAuthorizedOperations").toBool else t0.IncludeAuthorizedOperations }

theorem DescribeGroupsRequest.decodes {v : Int16} (hv : 0 ≤ v) (x : Val) (h : Protocol.DescribeGroupsRequest.Valid false v x) (t0 : DescribeGroupsRequest) :
    Reads (DescribeGroupsRequest.decode v t0) (Protocol.DescribeGroupsRequest.wire false v x) (DescribeGroupsRequest.of v x t0) :=
  Reads.congr (((Step.field (set := fun (t : DescribeGroupsRequest) x => { t with Groups := x }) (read_stringArray (Fields.Valid.head (h) hv)))
      |>.andThen (Step.optField (c := v ≥ 3) (set := fun (t : DescribeGroupsRequest) x => { t with IncludeAuthorizedOperations := x }) (·.IncludeAuthorizedOperations) (fun _ => rfl) fun hc => read_bool (Fields.Valid.head (Fields.Valid.tail h) hc)) : Step _ _ _) t0)
    (Writes.eq (fs := Protocol.DescribeGroupsRequest) (v := v) (x := x) <| Writes.all hv rfl <| Writes.since rfl <| Writes.done).symm rfl

theorem DescribeGroupsRequest.parses {v : Int16} (hv : 0 ≤ v) (t0 : DescribeGroupsRequest) :
    Parses (DescribeGroupsRequest.decode v t0) ((Ty.struct Protocol.DescribeGroupsRequest).parse v) (fun x => DescribeGroupsRequest.of v x t0) :=
  FParses.parses (fs := Protocol.DescribeGroupsRequest)
    (FParses.field hv (set := fun (t : DescribeGroupsRequest) x => { t with Groups := x }) par_stringArray <|
    FParses.optField (c := v ≥ 3) Iff.rfl (set := fun (t : DescribeGroupsRequest) x => { t with IncludeAuthorizedOperations := x }) (·.IncludeAuthorizedOperations) (fun _ => rfl) par_bool <|
    FParses.done)
    (by simp only [DescribeGroupsRequest.decode, Dec.andThen_nop]) (Fields.distinct_nodup _ (by decide +kernel)) (fun _ _ => rfl) t0

theorem DescribeGroupsRequest.shown {v : Int16} (hv : 0 ≤ v) (x : Val) (h : Protocol.DescribeGroupsRequest.Typed v x) :
    Protocol.DescribeGroupsRequest.shows v x (DescribeGroupsRequest.val (DescribeGroupsRequest.of v x {})) = true :=
  Shows.all hv (show_stringArray (Fields.Typed.head (h) hv)) <|
    Shows.since (.bool) rfl (fun hc => show_bool (Fields.Typed.head (Fields.Typed.tail h) hc)) rfl <|
    rfl

end Kafka.Msg
