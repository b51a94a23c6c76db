import Verif.Protocol.ParseLemmas
import Verif.Gen.Spec.ElectLeaders
/-!
Generated by tools/gen_protocol.py: the ElectLeaders messages are written and read as the protocol says.
-/
namespace Kafka.Msg

open Protocol

/-- `TopicPartitions43` as a value of the protocol. -/
def TopicPartitions43.val (t : TopicPartitions43) : Val :=
  .struct [("Topic", .str (some t.Topic)),
    ("PartitionId", ofScalars .int32 t.PartitionId)]

theorem TopicPartitions43.conforms {v : Int16} (hv : 0 ≤ v) (t : TopicPartitions43) :
    Protocol.TopicPartitions.wire false v (TopicPartitions43.val t) = TopicPartitions43.wire v t :=
  Writes.eq <|
    Writes.all hv (Protocol.wire_string v t.Topic) <|
    Writes.all hv (Protocol.wire_int32Array v t.PartitionId) <|
    Writes.done

/-- No slice of scalars is nil where the protocol has no null. -/
structure TopicPartitions43.Full (v : Int16) (t : TopicPartitions43) : Prop where
  PartitionId : t.PartitionId.NotNil

theorem TopicPartitions43.valid {v : Int16} (_hv : 0 ≤ v) (t : TopicPartitions43) (h : t.Fits v) (hf : t.Full v) :
    Protocol.TopicPartitions.Valid true v (TopicPartitions43.val t) :=
  Valids.all (valid_string (h.Topic)) <|
    Valids.all (valid_int32Array (h.PartitionId) (.inr (hf.PartitionId))) <|
    trivial

/-- `ElectLeadersRequest` as a value of the protocol. -/
def ElectLeadersRequest.val (t : ElectLeadersRequest) : Val :=
  .struct [("ElectionType", .int8 t.ElectionType),
    ("TopicPartitions", ofStructs TopicPartitions43.val t.TopicPartitions),
    ("TimeoutMs", .int32 t.TimeoutMs)]

theorem ElectLeadersRequest.conforms {v : Int16} (hv : 0 ≤ v) (t : ElectLeadersRequest) :
    Protocol.ElectLeadersRequest.wire false v (ElectLeadersRequest.val t) = ElectLeadersRequest.wire v t :=
  Writes.eq <|
    Writes.since (Protocol.wire_int8 v t.ElectionType) <|
    Writes.all hv (Protocol.wire_structs v (TopicPartitions43.conforms hv) t.TopicPartitions) <|
    Writes.all hv (Protocol.wire_int32 v t.TimeoutMs) <|
    Writes.done

/-- No slice of scalars is nil where the protocol has no null. -/
structure ElectLeadersRequest.Full (v : Int16) (t : ElectLeadersRequest) : Prop where
  TopicPartitions : FullAll (TopicPartitions43.Full v) t.TopicPartitions

theorem ElectLeadersRequest.valid {v : Int16} (hv : 0 ≤ v) (t : ElectLeadersRequest) (h : t.Fits v) (hf : t.Full v) :
    Protocol.ElectLeadersRequest.Valid true v (ElectLeadersRequest.val t) :=
  Valids.since (fun _ => trivial) <|
    Valids.all (valid_structs (fun y h hf => TopicPartitions43.valid hv y h hf) (h.TopicPartitions) (hf.TopicPartitions)) <|
    Valids.all trivial <|
    trivial

/-- `PartitionResult43` as a value of the protocol. -/
def PartitionResult43.val (t : PartitionResult43) : Val :=
  .struct [("PartitionId", .int32 t.PartitionId),
    ("ErrorCode", .int16 t.ErrorCode),
    ("ErrorMessage", .str (some t.ErrorMessage))]

theorem PartitionResult43.conforms {v : Int16} (hv : 0 ≤ v) (t : PartitionResult43) :
    Protocol.PartitionResult.wire false v (PartitionResult43.val t) = PartitionResult43.wire v t :=
  Writes.eq <|
    Writes.all hv (Protocol.wire_int32 v t.PartitionId) <|
    Writes.all hv (Protocol.wire_int16 v t.ErrorCode) <|
    Writes.all hv (Protocol.wire_string v t.ErrorMessage) <|
    Writes.done

/-- There is nothing that may not be nil. -/
def PartitionResult43.Full (_v : Int16) (_t : PartitionResult43) : Prop := True

theorem PartitionResult43.valid {v : Int16} (_hv : 0 ≤ v) (t : PartitionResult43) (h : t.Fits v) (_hf : t.Full v) :
    Protocol.PartitionResult.Valid true v (PartitionResult43.val t) :=
  Valids.all trivial <|
    Valids.all trivial <|
    Valids.all (valid_string (h.ErrorMessage)) <|
    trivial

/-- What `PartitionResult43` holds after reading the value `x` into `t0`. -/
def PartitionResult43.of (_v : Int16) (x : Val) (_t0 : PartitionResult43) : PartitionResult43 :=
  { PartitionId := (x.get "PartitionId").toInt32,
    ErrorCode := (x.get "ErrorCode").toInt16,
    ErrorMessage := (x.get "ErrorMessage").toStr }

theorem PartitionResult43.decodes {v : Int16} (hv : 0 ≤ v) (x : Val) (h : Protocol.PartitionResult.Valid false v x) (t0 : PartitionResult43) :
    Reads (PartitionResult43.decode v t0) (Protocol.PartitionResult.wire false v x) (PartitionResult43.of v x t0) :=
  Reads.congr (((Step.field (set := fun (t : PartitionResult43) x => { t with PartitionId := x }) (read_int32 (Fields.Valid.head (h) hv)))
      |>.andThen (Step.field (set := fun (t : PartitionResult43) x => { t with ErrorCode := x }) (read_int16 (Fields.Valid.head (Fields.Valid.tail h) hv)))
      |>.andThen (Step.field (set := fun (t : PartitionResult43) x => { t with ErrorMessage := x }) (read_string (Fields.Valid.head (Fields.Valid.tail (Fields.Valid.tail h)) hv))) : Step _ _ _) t0)
    (Writes.eq (fs := Protocol.PartitionResult) (v := v) (x := x) <| Writes.all hv rfl <| Writes.all hv rfl <| Writes.all hv rfl <| Writes.done).symm rfl

theorem PartitionResult43.parses {v : Int16} (hv : 0 ≤ v) (t0 : PartitionResult43) :
    Parses (PartitionResult43.decode v t0) ((Ty.struct Protocol.PartitionResult).parse v) (fun x => PartitionResult43.of v x t0) :=
  FParses.parses (fs := Protocol.PartitionResult)
    (FParses.field hv (set := fun (t : PartitionResult43) x => { t with PartitionId := x }) par_int32 <|
    FParses.field hv (set := fun (t : PartitionResult43) x => { t with ErrorCode := x }) par_int16 <|
    FParses.field hv (set := fun (t : PartitionResult43) x => { t with ErrorMessage := x }) par_string <|
    FParses.done)
    (by simp only [PartitionResult43.decode, Dec.andThen_assoc, Dec.andThen_nop]) (Fields.distinct_nodup _ (by decide +kernel)) (fun _ _ => rfl) t0

theorem PartitionResult43.shown {v : Int16} (hv : 0 ≤ v) (x : Val) (h : Protocol.PartitionResult.Typed v x) :
    Protocol.PartitionResult.shows v x (PartitionResult43.val (PartitionResult43.of v x {})) = true :=
  Shows.all hv (show_int32 (Fields.Typed.head (h) hv)) <|
    Shows.all hv (show_int16 (Fields.Typed.head (Fields.Typed.tail h) hv)) <|
    Shows.all hv (show_string (Fields.Typed.head (Fields.Typed.tail (Fields.Typed.tail h)) hv)) <|
    rfl

/-- `ReplicaElectionResult43` as a value of the protocol. -/
def ReplicaElectionResult43.val (t : ReplicaElectionResult43) : Val :=
  .struct [("Topic", .str (some t.Topic)),
    ("PartitionResult", ofStructs PartitionResult43.val t.PartitionResult)]

theorem ReplicaElectionResult43.conforms {v : Int16} (hv : 0 ≤ v) (t : ReplicaElectionResult43) :
    Protocol.ReplicaElectionResult.wire false v (ReplicaElectionResult43.val t) = ReplicaElectionResult43.wire v t :=
  Writes.eq <|
    Writes.all hv (Protocol.wire_string v t.Topic) <|
    Writes.all hv (Protocol.wire_structs v (PartitionResult43.conforms hv) t.PartitionResult) <|
    Writes.done

/-- There is nothing that may not be nil. -/
def ReplicaElectionResult43.Full (_v : Int16) (_t : ReplicaElectionResult43) : Prop := True

theorem ReplicaElectionResult43.valid {v : Int16} (hv : 0 ≤ v) (t : ReplicaElectionResult43) (h : t.Fits v) (_hf : t.Full v) :
    Protocol.ReplicaElectionResult.Valid true v (ReplicaElectionResult43.val t) :=
  Valids.all (valid_string (h.Topic)) <|
    Valids.all (valid_structs (fun y h hf => PartitionResult43.valid hv y h hf) (h.PartitionResult) (fun _ _ => trivial)) <|
    trivial

/-- What `ReplicaElectionResult43` holds after reading the value `x` into `t0`. -/
def ReplicaElectionResult43.of (v : Int16) (x : Val) (t0 : ReplicaElectionResult43) : ReplicaElectionResult43 :=
  { Topic := (x.get "Topic").toStr,
    PartitionResult := (x.get "PartitionResult").toSliceOr (fun y => PartitionResult43.of v y {}) t0.PartitionResult }

theorem ReplicaElectionResult43.decodes {v : Int16} (hv : 0 ≤ v) (x : Val) (h : Protocol.ReplicaElectionResult.Valid false v x) (t0 : ReplicaElectionResult43) :
    Reads (ReplicaElectionResult43.decode v t0) (Protocol.ReplicaElectionResult.wire false v x) (ReplicaElectionResult43.of v x t0) :=
  Reads.congr (((Step.field (set := fun (t : ReplicaElectionResult43) x => { t with Topic := x }) (read_string (Fields.Valid.head (h) hv)))
      |>.andThen (Step.readStructs (get := fun (t : ReplicaElectionResult43) => t.PartitionResult) (set := fun (t : ReplicaElectionResult43) x => { t with PartitionResult := x }) (fun y hy => PartitionResult43.decodes hv y hy {}) (Fields.Valid.head (Fields.Valid.tail h) hv)) : Step _ _ _) t0)
    (Writes.eq (fs := Protocol.ReplicaElectionResult) (v := v) (x := x) <| Writes.all hv rfl <| Writes.all hv rfl <| Writes.done).symm rfl

theorem ReplicaElectionResult43.parses {v : Int16} (hv : 0 ≤ v) (t0 : ReplicaElectionResult43) :
    Parses (ReplicaElectionResult43.decode v t0) ((Ty.struct Protocol.ReplicaElectionResult).parse v) (fun x => ReplicaElectionResult43.of v x t0) :=
  FParses.parses (fs := Protocol.ReplicaElectionResult)
    (FParses.field hv (set := fun (t : ReplicaElectionResult43) x => { t with Topic := x }) par_string <|
    FParses.structs hv (get := fun (t : ReplicaElectionResult43) => t.PartitionResult) (set := fun (t : ReplicaElectionResult43) x => { t with PartitionResult := x }) (PartitionResult43.parses hv {}) <|
    FParses.done)
    (by simp only [ReplicaElectionResult43.decode, Dec.andThen_nop]) (Fields.distinct_nodup _ (by decide +kernel)) (fun _ _ => rfl) t0

theorem ReplicaElectionResult43.shown {v : Int16} (hv : 0 ≤ v) (x : Val) (h : Protocol.ReplicaElectionResult.Typed v x) :
    Protocol.ReplicaElectionResult.shows v x (ReplicaElectionResult43.val (ReplicaElectionResult43.of v x {})) = true :=
  Shows.all hv (show_string (Fields.Typed.head (h) hv)) <|
    Shows.all hv (show_structs (f := PartitionResult43.val) (g := fun y => PartitionResult43.of v y {}) (fun y hy => PartitionResult43.shown hv y hy) (Fields.Typed.head (Fields.Typed.tail h) hv)) <|
    rfl

/-- `ElectLeadersResponse` as a value of the protocol. -/
def ElectLeadersResponse.val (t : ElectLeadersResponse) : Val :=
  .struct [("ThrottleTimeMs", .int32 t.ThrottleTimeMs),
    ("ErrorCode", .int16 t.ErrorCode),
    ("ReplicaElectionResults", ofStructs ReplicaElectionResult43.val t.ReplicaElectionResults)]

theorem ElectLeadersResponse.conforms {v : Int16} (hv : 0 ≤ v) (t : ElectLeadersResponse) :
    Protocol.ElectLeadersResponse.wire false v (ElectLeadersResponse.val t) = ElectLeadersResponse.wire v t :=
  Writes.eq <|
    Writes.all hv (Protocol.wire_int32 v t.ThrottleTimeMs) <|
    Writes.since (Protocol.wire_int16 v t.ErrorCode) <|
    Writes.all hv (Protocol.wire_structs v (ReplicaElectionResult43.conforms hv) t.ReplicaElectionResults) <|
    Writes.done

/-- There is nothing that may not be nil. -/
def ElectLeadersResponse.Full (_v : Int16) (_t : ElectLeadersResponse) : Prop := True

theorem ElectLeadersResponse.valid {v : Int16} (hv : 0 ≤ v) (t : ElectLeadersResponse) (h : t.Fits v) (_hf : t.Full v) :
    Protocol.ElectLeadersResponse.Valid true v (ElectLeadersResponse.val t) :=
  Valids.all trivial <|
    Valids.since (fun _ => trivial) <|
    Valids.all (valid_structs (fun y h hf => ReplicaElectionResult43.valid hv y h hf) (h.ReplicaElectionResults) (fun _ _ => trivial)) <|
    trivial

/-- What `ElectLeadersResponse` holds after reading the value `x` into `t0`. -/
def ElectLeadersResponse.of (v : Int16) (x : Val) (t0 : ElectLeadersResponse) : ElectLeadersResponse :=
  { ThrottleTimeMs := (x.get "ThrottleTimeMs").toInt32,
    ErrorCode := if v ≥ 1 then (x.get "ErrorCode").toInt16 else t0.ErrorCode,
    ReplicaElectionResults := (x.get "ReplicaElectionResults").toSliceOr (fun y => ReplicaElectionResult43.of v y {}) t0.ReplicaElectionResults }

theorem ElectLeadersResponse.decodes {v : Int16} (hv : 0 ≤ v) (x : Val) (h : Protocol.ElectLeadersResponse.Valid false v x) (t0 : ElectLeadersResponse) :
    Reads (ElectLeadersResponse.decode v t0) (Protocol.ElectLeadersResponse.wire false v x) (ElectLeadersResponse.of v x t0) :=
  Reads.congr (((Step.field (set := fun (t : ElectLeadersResponse) x => { t with ThrottleTimeMs := x }) (read_int32 (Fields.Valid.head (h) hv)))
      |>.andThen (Step.optField (c := v ≥ 1) (set := fun (t : ElectLeadersResponse) x => { t with ErrorCode := x }) (·.ErrorCode) (fun _ => rfl) fun hc => read_int16 (Fields.Valid.head (Fields.Valid.tail h) hc))
      |>.andThen (Step.readStructs (get := fun (t : ElectLeadersResponse) => t.ReplicaElectionResults) (set := fun (t : ElectLeadersResponse) x => { t with ReplicaElectionResults := x }) (fun y hy => ReplicaElectionResult43.decodes hv y hy {}) (Fields.Valid.head (Fields.Valid.tail (Fields.Valid.tail h)) hv)) : Step _ _ _) t0)
    (Writes.eq (fs := Protocol.ElectLeadersResponse) (v := v) (x := x) <| Writes.all hv rfl <| Writes.since rfl <| Writes.all hv rfl <| Writes.done).symm rfl

theorem ElectLeadersResponse.parses {v : Int16} (hv : 0 ≤ v) (t0 : ElectLeadersResponse) :
    Parses (ElectLeadersResponse.decode v t0) ((Ty.struct Protocol.ElectLeadersResponse).parse v) (fun x => ElectLeadersResponse.of v x t0) :=
  FParses.parses (fs := Protocol.ElectLeadersResponse)
    (FParses.field hv (set := fun (t : ElectLeadersResponse) x => { t with ThrottleTimeMs := x }) par_int32 <|
    FParses.optField (c := v ≥ 1) Iff.rfl (set := fun (t : ElectLeadersResponse) x => { t with ErrorCode := x }) (·.ErrorCode) (fun _ => rfl) par_int16 <|
    FParses.structs hv (get := fun (t : ElectLeadersResponse) => t.ReplicaElectionResults) (set := fun (t : ElectLeadersResponse) x => { t with ReplicaElectionResults := x }) (ReplicaElectionResult43.parses hv {}) <|
    FParses.done)
    (by simp only [ElectLeadersResponse.decode, Dec.andThen_assoc, Dec.andThen_nop]) (Fields.distinct_nodup _ (by decide +kernel)) (fun _ _ => rfl) t0

theorem ElectLeadersResponse.shown {v : Int16} (hv : 0 ≤ v) (x : Val) (h : Protocol.ElectLeadersResponse.Typed v x) :
    Protocol.ElectLeadersResponse.shows v x (ElectLeadersResponse.val (ElectLeadersResponse.of v x {})) = true :=
  Shows.all hv (show_int32 (Fields.Typed.head (h) hv)) <|
    Shows.since (.int16) rfl (fun hc => show_int16 (Fields.Typed.head (Fields.Typed.tail h) hc)) rfl <|
    Shows.all hv (show_structs (f := ReplicaElectionResult43.val) (g := fun y => ReplicaElectionResult43.of v y {}) (fun y hy => ReplicaElectionResult43.shown hv y hy) (Fields.Typed.head (Fields.Typed.tail (Fields.Typed.tail h)) hv)) <|
    rfl

end Kafka.Msg
