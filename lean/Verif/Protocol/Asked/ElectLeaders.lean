import Verif.Protocol.Conform.ElectLeaders
/-!
Generated by tools/gen_protocol.py: the ElectLeaders request is read as the protocol says.
-/
namespace Kafka.Msg

open Protocol

/-- What `TopicPartitions43` holds after reading the value `x` into `t0`. -/
def TopicPartitions43.of (_v : Int16) (x : Val) (_t0 : TopicPartitions43) : TopicPartitions43 :=
  { Topic := (x.get "Topic").toStr,
    PartitionId := (x.get "PartitionId").toSlice Val.toInt32 }

theorem TopicPartitions43.decodes {v : Int16} (hv : 0 ≤ v) (x : Val) (h : Protocol.TopicPartitions.Valid false v x) (t0 : TopicPartitions43) :
    Reads (TopicPartitions43.decode v t0) (Protocol.TopicPartitions.wire false v x) (TopicPartitions43.of v x t0) :=
  Reads.congr (((Step.field (set := fun (t : TopicPartitions43) x => { t with Topic := x }) (read_string (Fields.Valid.head (h) hv)))
      |>.andThen (Step.field (set := fun (t : TopicPartitions43) x => { t with PartitionId := x }) (read_int32Array (Fields.Valid.head (Fields.Valid.tail h) hv))) : Step _ _ _) t0)
    (Writes.eq (fs := Protocol.TopicPartitions) (v := v) (x := x) <| Writes.all hv rfl <| Writes.all hv rfl <| Writes.done).symm rfl

theorem TopicPartitions43.parses {v : Int16} (hv : 0 ≤ v) (t0 : TopicPartitions43) :
    Parses (TopicPartitions43.decode v t0) ((Ty.struct Protocol.TopicPartitions).parse v) (fun x => TopicPartitions43.of v x t0) :=
  FParses.parses (fs := Protocol.TopicPartitions)
    (FParses.field hv (set := fun (t : TopicPartitions43) x => { t with Topic := x }) par_string <|
    FParses.field hv (set := fun (t : TopicPartitions43) x => { t with PartitionId := x }) par_int32Array <|
    FParses.done)
    (by simp only [TopicPartitions43.decode, Dec.andThen_nop]) (Fields.distinct_nodup _ (by decide +kernel)) (fun _ _ => rfl) t0

theorem TopicPartitions43.shown {v : Int16} (hv : 0 ≤ v) (x : Val) (h : Protocol.TopicPartitions.Typed v x) :
    Protocol.TopicPartitions.shows v x (TopicPartitions43.val (TopicPartitions43.of v x {})) = true :=
  Shows.all hv (show_string (Fields.Typed.head (h) hv)) <|
    Shows.all hv (show_int32Array (Fields.Typed.head (Fields.Typed.tail h) hv)) <|
    rfl

/-- What `ElectLeadersRequest` holds after reading the value `x` into `t0`. -/
def ElectLeadersRequest.of (v : Int16) (x : Val) (t0 : ElectLeadersRequest) : ElectLeadersRequest :=
  { ElectionType := if v ≥ 1 then (x.get "ElectionType").toInt8 else t0.ElectionType,
    TopicPartitions := (x.get "TopicPartitions").toSliceOr (fun y => TopicPartitions43.of v y {}) t0.TopicPartitions,
    TimeoutMs := (x.get "TimeoutMs").toInt32 }

theorem ElectLeadersRequest.decodes {v : Int16} (hv : 0 ≤ v) (x : Val) (h : Protocol.ElectLeadersRequest.Valid false v x) (t0 : ElectLeadersRequest) :
    Reads (ElectLeadersRequest.decode v t0) (Protocol.ElectLeadersRequest.wire false v x) (ElectLeadersRequest.of v x t0) :=
  Reads.congr (((Step.optField (c := v ≥ 1) (set := fun (t : ElectLeadersRequest) x => { t with ElectionType := x }) (·.ElectionType) (fun _ => rfl) fun hc => read_int8 (Fields.Valid.head (h) hc))
      |>.andThen (Step.readStructs (get := fun (t : ElectLeadersRequest) => t.TopicPartitions) (set := fun (t : ElectLeadersRequest) x => { t with TopicPartitions := x }) (fun y hy => TopicPartitions43.decodes hv y hy {}) (Fields.Valid.head (Fields.Valid.tail h) hv))
      |>.andThen (Step.field (set := fun (t : ElectLeadersRequest) x => { t with TimeoutMs := x }) (read_int32 (Fields.Valid.head (Fields.Valid.tail (Fields.Valid.tail h)) hv))) : Step _ _ _) t0)
    (Writes.eq (fs := Protocol.ElectLeadersRequest) (v := v) (x := x) <| Writes.since rfl <| Writes.all hv rfl <| Writes.all hv rfl <| Writes.done).symm rfl

theorem ElectLeadersRequest.parses {v : Int16} (hv : 0 ≤ v) (t0 : ElectLeadersRequest) :
    Parses (ElectLeadersRequest.decode v t0) ((Ty.struct Protocol.ElectLeadersRequest).parse v) (fun x => ElectLeadersRequest.of v x t0) :=
  FParses.parses (fs := Protocol.ElectLeadersRequest)
    (FParses.optField (c := v ≥ 1) Iff.rfl (set := fun (t : ElectLeadersRequest) x => { t with ElectionType := x }) (·.ElectionType) (fun _ => rfl) par_int8 <|
    FParses.structs hv (get := fun (t : ElectLeadersRequest) => t.TopicPartitions) (set := fun (t : ElectLeadersRequest) x => { t with TopicPartitions := x }) (TopicPartitions43.parses hv {}) <|
    FParses.field hv (set := fun (t : ElectLeadersRequest) x => { t with TimeoutMs := x }) par_int32 <|
    FParses.done)
    (by simp only [ElectLeadersRequest.decode, Dec.andThen_assoc, Dec.andThen_nop]) (Fields.distinct_nodup _ (by decide +kernel)) (fun _ _ => rfl) t0

theorem ElectLeadersRequest.shown {v : Int16} (hv : 0 ≤ v) (x : Val) (h : Protocol.ElectLeadersRequest.Typed v x) :
    Protocol.ElectLeadersRequest.shows v x (ElectLeadersRequest.val (ElectLeadersRequest.of v x {})) = true :=
  Shows.since (.int8) rfl (fun hc => show_int8 (Fields.Typed.head (h) hc)) rfl <|
    Shows.all hv (show_structs (f := TopicPartitions43.val) (g := fun y => TopicPartitions43.of v y {}) (fun y hy => TopicPartitions43.shown hv y hy) (Fields.Typed.head (Fields.Typed.tail h) hv)) <|
    Shows.all hv (show_int32 (Fields.Typed.head (Fields.Typed.tail (Fields.Typed.tail h)) hv)) <|
    rfl

end Kafka.Msg
