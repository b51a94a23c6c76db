import Verif.Protocol.Conform.ListGroups
/-!
Generated by tools/gen_protocol.py: the ListGroups request is read as the protocol says.
-/
namespace Kafka.Msg

open Protocol

/-- What `ListGroupsRequest` holds after reading the value `x` into `t0`. -/
def ListGroupsRequest.of (_v : Int16) (_x : Val) (_t0 : ListGroupsRequest) : ListGroupsRequest :=
  {  }

theorem ListGroupsRequest.decodes {v : Int16} (_hv : 0 ≤ v) (x : Val) (_h : Protocol.ListGroupsRequest.Valid false v x) (t0 : ListGroupsRequest) :
    Reads (ListGroupsRequest.decode v t0) (Protocol.ListGroupsRequest.wire false v x) (ListGroupsRequest.of v x t0) := Reads.pure _

theorem ListGroupsRequest.parses {v : Int16} (_hv : 0 ≤ v) (t0 : ListGroupsRequest) :
    Parses (ListGroupsRequest.decode v t0) ((Ty.struct Protocol.ListGroupsRequest).parse v) (fun x => ListGroupsRequest.of v x t0) :=
  fun d _ => ⟨Nat.zero_le _, by rw [Decoder.skip_zero]; rfl⟩

theorem ListGroupsRequest.shown {v : Int16} (_hv : 0 ≤ v) (x : Val) (_h : Protocol.ListGroupsRequest.Typed v x) :
    Protocol.ListGroupsRequest.shows v x (ListGroupsRequest.val (ListGroupsRequest.of v x {})) = true := rfl

end Kafka.Msg
