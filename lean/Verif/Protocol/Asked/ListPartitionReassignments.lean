import Verif.Protocol.Conform.ListPartitionReassignments
/-!
Generated by tools/gen_protocol.py: the ListPartitionReassignments request is read as the protocol says.
-/
namespace Kafka.Msg

open Protocol

/-- What `ListPartitionReassignmentsTopics46` holds after reading the value `x` into `t0`. -/
def ListPartitionReassignmentsTopics46.of (_v : Int16) (x : Val) (_t0 : ListPartitionReassignmentsTopics46) : ListPartitionReassignmentsTopics46 :=
  { Name := (x.get "Name").toStr,
    PartitionIndexes := (x.get "PartitionIndexes").toSlice Val.toInt32 }

theorem ListPartitionReassignmentsTopics46.decodes {v : Int16} (hv : 0 ≤ v) (x : Val) (h : Protocol.ListPartitionReassignmentsTopics.Valid false v x) (t0 : ListPartitionReassignmentsTopics46) :
    Reads (ListPartitionReassignmentsTopics46.decode v t0) (Protocol.ListPartitionReassignmentsTopics.wire false v x) (ListPartitionReassignmentsTopics46.of v x t0) :=
  Reads.congr (((Step.field (set := fun (t : ListPartitionReassignmentsTopics46) x => { t with Name := x }) (read_string (Fields.Valid.head (h) hv)))
      |>.andThen (Step.field (set := fun (t : ListPartitionReassignmentsTopics46) x => { t with PartitionIndexes := x }) (read_int32Array (Fields.Valid.head (Fields.Valid.tail h) hv))) : Step _ _ _) t0)
    (Writes.eq (fs := Protocol.ListPartitionReassignmentsTopics) (v := v) (x := x) <| Writes.all hv rfl <| Writes.all hv rfl <| Writes.done).symm rfl

theorem ListPartitionReassignmentsTopics46.parses {v : Int16} (hv : 0 ≤ v) (t0 : ListPartitionReassignmentsTopics46) :
    Parses (ListPartitionReassignmentsTopics46.decode v t0) ((Ty.struct Protocol.ListPartitionReassignmentsTopics).parse v) (fun x => ListPartitionReassignmentsTopics46.of v x t0) :=
  FParses.parses (fs := Protocol.ListPartitionReassignmentsTopics)
    (FParses.field hv (set := fun (t : ListPartitionReassignmentsTopics46) x => { t with Name := x }) par_string <|
    FParses.field hv (set := fun (t : ListPartitionReassignmentsTopics46) x => { t with PartitionIndexes := x }) par_int32Array <|
    FParses.done)
    (by simp only [ListPartitionReassignmentsTopics46.decode, Dec.andThen_nop]) (Fields.distinct_nodup _ (by decide +kernel)) (fun _ _ => rfl) t0

theorem ListPartitionReassignmentsTopics46.shown {v : Int16} (hv : 0 ≤ v) (x : Val) (h : Protocol.ListPartitionReassignmentsTopics.Typed v x) :
    Protocol.ListPartitionReassignmentsTopics.shows v x (ListPartitionReassignmentsTopics46.val (ListPartitionReassignmentsTopics46.of v x {})) = true :=
  Shows.all hv (show_string (Fields.Typed.head (h) hv)) <|
    Shows.all hv (show_int32Array (Fields.Typed.head (Fields.Typed.tail h) hv)) <|
    rfl

/-- What `ListPartitionReassignmentsRequest` holds after reading the value `x` into `t0`. -/
def ListPartitionReassignmentsRequest.of (v : Int16) (x : Val) (t0 : ListPartitionReassignmentsRequest) : ListPartitionReassignmentsRequest :=
  { TimeoutMs := (x.get "TimeoutMs").toInt32,
    Topics := (x.get "Topics").toSliceOr (fun y => ListPartitionReassignmentsTopics46.of v y {}) t0.Topics }

theorem ListPartitionReassignmentsRequest.decodes {v : Int16} (hv : 0 ≤ v) (x : Val) (h : Protocol.ListPartitionReassignmentsRequest.Valid false v x) (t0 : ListPartitionReassignmentsRequest) :
    Reads (ListPartitionReassignmentsRequest.decode v t0) (Protocol.ListPartitionReassignmentsRequest.wire false v x) (ListPartitionReassignmentsRequest.of v x t0) :=
  Reads.congr (((Step.field (set := fun (t : ListPartitionReassignmentsRequest) x => { t with TimeoutMs := x }) (read_int32 (Fields.Valid.head (h) hv)))
      |>.andThen (Step.readStructs (get := fun (t : ListPartitionReassignmentsRequest) => t.Topics) (set := fun (t : ListPartitionReassignmentsRequest) x => { t with Topics := x }) (fun y hy => ListPartitionReassignmentsTopics46.decodes hv y hy {}) (Fields.Valid.head (Fields.Valid.tail h) hv)) : Step _ _ _) t0)
    (Writes.eq (fs := Protocol.ListPartitionReassignmentsRequest) (v := v) (x := x) <| Writes.all hv rfl <| Writes.all hv rfl <| Writes.done).symm rfl

theorem ListPartitionReassignmentsRequest.parses {v : Int16} (hv : 0 ≤ v) (t0 : ListPartitionReassignmentsRequest) :
    Parses (ListPartitionReassignmentsRequest.decode v t0) ((Ty.struct Protocol.ListPartitionReassignmentsRequest).parse v) (fun x => ListPartitionReassignmentsRequest.of v x t0) :=
  FParses.parses (fs := Protocol.ListPartitionReassignmentsRequest)
    (FParses.field hv (set := fun (t : ListPartitionReassignmentsRequest) x => { t with TimeoutMs := x }) par_int32 <|
    FParses.structs hv (get := fun (t : ListPartitionReassignmentsRequest) => t.Topics) (set := fun (t : ListPartitionReassignmentsRequest) x => { t with Topics := x }) (ListPartitionReassignmentsTopics46.parses hv {}) <|
    FParses.done)
    (by simp only [ListPartitionReassignmentsRequest.decode, Dec.andThen_nop]) (Fields.distinct_nodup _ (by decide +kernel)) (fun _ _ => rfl) t0

theorem ListPartitionReassignmentsRequest.shown {v : Int16} (hv : 0 ≤ v) (x : Val) (h : Protocol.ListPartitionReassignmentsRequest.Typed v x) :
    Protocol.ListPartitionReassignmentsRequest.shows v x (ListPartitionReassignmentsRequest.val (ListPartitionReassignmentsRequest.of v x {})) = true :=
  Shows.all hv (show_int32 (Fields.Typed.head (h) hv)) <|
    Shows.all hv (show_structs (f := ListPartitionReassignmentsTopics46.val) (g := fun y => ListPartitionReassignmentsTopics46.of v y {}) (fun y hy => ListPartitionReassignmentsTopics46.shown hv y hy) (Fields.Typed.head (Fields.Typed.tail h) hv)) <|
    rfl

end Kafka.Msg
