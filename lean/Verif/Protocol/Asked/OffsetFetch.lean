import Verif.Protocol.Conform.OffsetFetch
/-!
Generated by tools/gen_protocol.py: the OffsetFetch request is read as the protocol says.
-/
namespace Kafka.Msg

open Protocol

/-- What `OffsetFetchRequestTopic9` holds after reading the value `x` into `t0`. -/
def OffsetFetchRequestTopic9.of (_v : Int16) (x : Val) (_t0 : OffsetFetchRequestTopic9) : OffsetFetchRequestTopic9 :=
  { Name := (x.get "Name").toStr,
    PartitionIndexes := (x.get "PartitionIndexes").toSlice Val.toInt32 }

theorem OffsetFetchRequestTopic9.decodes {v : Int16} (hv : 0 ≤ v) (x : Val) (h : Protocol.OffsetFetchRequestTopic.Valid false v x) (t0 : OffsetFetchRequestTopic9) :
    Reads (OffsetFetchRequestTopic9.decode v t0) (Protocol.OffsetFetchRequestTopic.wire false v x) (OffsetFetchRequestTopic9.of v x t0) :=
  Reads.congr (((Step.field (set := fun (t : OffsetFetchRequestTopic9) x => { t with Name := x }) (read_string (Fields.Valid.head (h) hv)))
      |>.andThen (Step.field (set := fun (t : OffsetFetchRequestTopic9) x => { t with PartitionIndexes := x }) (read_int32Array (Fields.Valid.head (Fields.Valid.tail h) hv))) : Step _ _ _) t0)
    (Writes.eq (fs := Protocol.OffsetFetchRequestTopic) (v := v) (x := x) <| Writes.all hv rfl <| Writes.all hv rfl <| Writes.done).symm rfl

theorem OffsetFetchRequestTopic9.parses {v : Int16} (hv : 0 ≤ v) (t0 : OffsetFetchRequestTopic9) :
    Parses (OffsetFetchRequestTopic9.decode v t0) ((Ty.struct Protocol.OffsetFetchRequestTopic).parse v) (fun x => OffsetFetchRequestTopic9.of v x t0) :=
  FParses.parses (fs := Protocol.OffsetFetchRequestTopic)
    (FParses.field hv (set := fun (t : OffsetFetchRequestTopic9) x => { t with Name := x }) par_string <|
    FParses.field hv (set := fun (t : OffsetFetchRequestTopic9) x => { t with PartitionIndexes := x }) par_int32Array <|
    FParses.done)
    (by simp only [OffsetFetchRequestTopic9.decode, Dec.andThen_nop]) (Fields.distinct_nodup _ (by decide +kernel)) (fun _ _ => rfl) t0

theorem OffsetFetchRequestTopic9.shown {v : Int16} (hv : 0 ≤ v) (x : Val) (h : Protocol.OffsetFetchRequestTopic.Typed v x) :
    Protocol.OffsetFetchRequestTopic.shows v x (OffsetFetchRequestTopic9.val (OffsetFetchRequestTopic9.of v x {})) = true :=
  Shows.all hv (show_string (Fields.Typed.head (h) hv)) <|
    Shows.all hv (show_int32Array (Fields.Typed.head (Fields.Typed.tail h) hv)) <|
    rfl

/-- What `OffsetFetchRequest` holds after reading the value `x` into `t0`. -/
def OffsetFetchRequest.of (v : Int16) (x : Val) (t0 : OffsetFetchRequest) : OffsetFetchRequest :=
  { GroupId := (x.get "GroupId").toStr,
    Topics := (x.get "Topics").toSliceOr (fun y => OffsetFetchRequestTopic9.of v y {}) t0.Topics }

theorem OffsetFetchRequest.decodes {v : Int16} (hv : 0 ≤ v) (x : Val) (h : Protocol.OffsetFetchRequest.Valid false v x) (t0 : OffsetFetchRequest) :
    Reads (OffsetFetchRequest.decode v t0) (Protocol.OffsetFetchRequest.wire false v x) (OffsetFetchRequest.of v x t0) :=
  Reads.congr (((Step.field (set := fun (t : OffsetFetchRequest) x => { t with GroupId := x }) (read_string (Fields.Valid.head (h) hv)))
      |>.andThen (Step.readStructs (get := fun (t : OffsetFetchRequest) => t.Topics) (set := fun (t : OffsetFetchRequest) x => { t with Topics := x }) (fun y hy => OffsetFetchRequestTopic9.decodes hv y hy {}) (Fields.Valid.head (Fields.Valid.tail h) hv)) : Step _ _ _) t0)
    (Writes.eq (fs := Protocol.OffsetFetchRequest) (v := v) (x := x) <| Writes.all hv rfl <| Writes.all hv rfl <| Writes.done).symm rfl

theorem OffsetFetchRequest.parses {v : Int16} (hv : 0 ≤ v) (t0 : OffsetFetchRequest) :
    Parses (OffsetFetchRequest.decode v t0) ((Ty.struct Protocol.OffsetFetchRequest).parse v) (fun x => OffsetFetchRequest.of v x t0) :=
  FParses.parses (fs := Protocol.OffsetFetchRequest)
    (FParses.field hv (set := fun (t : OffsetFetchRequest) x => { t with GroupId := x }) par_string <|
    FParses.structs hv (get := fun (t : OffsetFetchRequest) => t.Topics) (set := fun (t : OffsetFetchRequest) x => { t with Topics := x }) (OffsetFetchRequestTopic9.parses hv {}) <|
    FParses.done)
    (by simp only [OffsetFetchRequest.decode, Dec.andThen_nop]) (Fields.distinct_nodup _ (by decide +kernel)) (fun _ _ => rfl) t0

theorem OffsetFetchRequest.shown {v : Int16} (hv : 0 ≤ v) (x : Val) (h : Protocol.OffsetFetchRequest.Typed v x) :
    Protocol.OffsetFetchRequest.shows v x (OffsetFetchRequest.val (OffsetFetchRequest.of v x {})) = true :=
  Shows.all hv (show_string (Fields.Typed.head (h) hv)) <|
    Shows.all hv (show_structs (f := OffsetFetchRequestTopic9.val) (g := fun y => OffsetFetchRequestTopic9.of v y {}) (fun y hy => OffsetFetchRequestTopic9.shown hv y hy) (Fields.Typed.head (Fields.Typed.tail h) hv)) <|
    rfl

end Kafka.Msg
