import Verif.Protocol.Conform.DeleteGroups
/-!
Generated by tools/gen_protocol.py: the DeleteGroups request is read as the protocol says.
-/
namespace Kafka.Msg

open Protocol

/-- What `DeleteGroupsRequest` holds after reading the value `x` into `t0`. -/
def DeleteGroupsRequest.of (_v : Int16) (x : Val) (_t0 : DeleteGroupsRequest) : DeleteGroupsRequest :=
  { GroupsNames := (x.get "GroupsNames").toSlice Val.toStr }

theorem DeleteGroupsRequest.decodes {v : Int16} (hv : 0 ≤ v) (x : Val) (h : Protocol.DeleteGroupsRequest.Valid false v x) (t0 : DeleteGroupsRequest) :
    Reads (DeleteGroupsRequest.decode v t0) (Protocol.DeleteGroupsRequest.wire false v x) (DeleteGroupsRequest.of v x t0) :=
  Reads.congr (((Step.field (set := fun (t : DeleteGroupsRequest) x => { t with GroupsNames := x }) (read_stringArray (Fields.Valid.head (h) hv))) : Step _ _ _) t0)
    (Writes.eq (fs := Protocol.DeleteGroupsRequest) (v := v) (x := x) <| Writes.all hv rfl <| Writes.done).symm rfl

theorem DeleteGroupsRequest.parses {v : Int16} (hv : 0 ≤ v) (t0 : DeleteGroupsRequest) :
    Parses (DeleteGroupsRequest.decode v t0) ((Ty.struct Protocol.DeleteGroupsRequest).parse v) (fun x => DeleteGroupsRequest.of v x t0) :=
  FParses.parses (fs := Protocol.DeleteGroupsRequest)
    (FParses.field hv (set := fun (t : DeleteGroupsRequest) x => { t with GroupsNames := x }) par_stringArray <|
    FParses.done)
    (by simp only [DeleteGroupsRequest.decode, Dec.andThen_nop]) (Fields.distinct_nodup _ (by decide +kernel)) (fun _ _ => rfl) t0

theorem DeleteGroupsRequest.shown {v : Int16} (hv : 0 ≤ v) (x : Val) (h : Protocol.DeleteGroupsRequest.Typed v x) :
    Protocol.DeleteGroupsRequest.shows v x (DeleteGroupsRequest.val (DeleteGroupsRequest.of v x {})) = true :=
  Shows.all hv (show_stringArray (Fields.Typed.head (h) hv)) <|
    rfl

end Kafka.Msg
