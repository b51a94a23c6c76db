import Verif.Protocol.Conform.Metadata
/-!
Generated by tools/gen_protocol.py: the Metadata request is read as the protocol says.
-/
namespace Kafka.Msg

open Protocol

/-- What `MetadataRequestTopic3` holds after reading the value `x` into `t0`. -/
def MetadataRequestTopic3.of (_v : Int16) (x : Val) (_t0 : MetadataRequestTopic3) : MetadataRequestTopic3 :=
  { Name := (x.get "Name").toStr }

theorem MetadataRequestTopic3.decodes {v : Int16} (hv : 0 ≤ v) (x : Val) (h : Protocol.MetadataRequestTopic.Valid false v x) (t0 : MetadataRequestTopic3) :
    Reads (MetadataRequestTopic3.decode v t0) (Protocol.MetadataRequestTopic.wire false v x) (MetadataRequestTopic3.of v x t0) :=
  Reads.congr (((Step.field (set := fun (t : MetadataRequestTopic3) x => { t with Name := x }) (read_string (Fields.Valid.head (h) hv))) : Step _ _ _) t0)
    (Writes.eq (fs := Protocol.MetadataRequestTopic) (v := v) (x := x) <| Writes.all hv rfl <| Writes.done).symm rfl

theorem MetadataRequestTopic3.parses {v : Int16} (hv : 0 ≤ v) (t0 : MetadataRequestTopic3) :
    Parses (MetadataRequestTopic3.decode v t0) ((Ty.struct Protocol.MetadataRequestTopic).parse v) (fun x => MetadataRequestTopic3.of v x t0) :=
  FParses.parses (fs := Protocol.MetadataRequestTopic)
    (FParses.field hv (set := fun (t : MetadataRequestTopic3) x => { t with Name := x }) par_string <|
    FParses.done)
    (by simp only [MetadataRequestTopic3.decode, Dec.andThen_nop]) (Fields.distinct_nodup _ (by decide +kernel)) (fun _ _ => rfl) t0

theorem MetadataRequestTopic3.shown {v : Int16} (hv : 0 ≤ v) (x : Val) (h : Protocol.MetadataRequestTopic.Typed v x) :
    Protocol.MetadataRequestTopic.shows v x (MetadataRequestTopic3.val (MetadataRequestTopic3.of v x {})) = true :=
  Shows.all hv (show_string (Fields.Typed.head (h) hv)) <|
    rfl

/-- What `MetadataRequest` holds after reading the value `x` into `t0`. -/
def MetadataRequest.of (v : Int16) (x : Val) (t0 : MetadataRequest) : MetadataRequest :=
  { Topics := (x.get "Topics").toSliceOr (fun y => MetadataRequestTopic3.of v y {}) t0.Topics,
    AllowAutoTopicCreation := if v ≥ 4 then (x.get "AllowAutoTopicCreation").toBool else t0.AllowAutoTopicCreation,
    IncludeClusterAuthorizedOperations := if v ≥ 8 then (x.get "IncludeClusterAuthorizedOperations").toBool else t0.IncludeClusterAuthorizedOperations,
    IncludeTopicAuthorizedOperations := if v ≥ 8 then (x.get "IncludeTopicAuthorizedOperations").toBool else t0.IncludeTopicAuthorizedOperations }

theorem MetadataRequest.decodes {v : Int16} (hv : 0 ≤ v) (x : Val) (h : Protocol.MetadataRequest.Valid false v x) (t0 : MetadataRequest) :
    Reads (MetadataRequest.decode v t0) (Protocol.MetadataRequest.wire false v x) (MetadataRequest.of v x t0) :=
  Reads.congr (((Step.readStructs (get := fun (t : MetadataRequest) => t.Topics) (set := fun (t : MetadataRequest) x => { t with Topics := x }) (fun y hy => MetadataRequestTopic3.decodes hv y hy {}) (Fields.Valid.head (h) hv))
      |>.andThen (Step.optField (c := v ≥ 4) (set := fun (t : MetadataRequest) x => { t with AllowAutoTopicCreation := x }) (·.AllowAutoTopicCreation) (fun _ => rfl) fun hc => read_bool (Fields.Valid.head (Fields.Valid.tail h) hc))
      |>.andThen (Step.optField (c := v ≥ 8) (set := fun (t : MetadataRequest) x => { t with IncludeClusterAuthorizedOperations := x }) (·.IncludeClusterAuthorizedOperations) (fun _ => rfl) fun hc => read_bool (Fields.Valid.head (Fields.Valid.tail (Fields.Valid.tail h)) hc))
      |>.andThen (Step.optField (c := v ≥ 8) (set := fun (t : MetadataRequest) x => { t with IncludeTopicAuthorizedOperations := x }) (·.IncludeTopicAuthorizedOperations) (fun _ => rfl) fun hc => read_bool (Fields.Valid.head (Fields.Valid.tail (Fields.Valid.tail (Fields.Valid.tail h))) hc)) : Step _ _ _) t0)
    (Writes.eq (fs := Protocol.MetadataRequest) (v := v) (x := x) <| Writes.all hv rfl <| Writes.since rfl <| Writes.since rfl <| Writes.since rfl <| Writes.done).symm rfl

theorem MetadataRequest.parses {v : Int16} (hv : 0 ≤ v) (t0 : MetadataRequest) :
    Parses (MetadataRequest.decode v t0) ((Ty.struct Protocol.MetadataRequest).parse v) (fun x => MetadataRequest.of v x t0) :=
  FParses.parses (fs := Protocol.MetadataRequest)
    (FParses.structs hv (get := fun (t : MetadataRequest) => t.Topics) (set := fun (t : MetadataRequest) x => { t with Topics := x }) (MetadataRequestTopic3.parses hv {}) <|
    FParses.optField (c := v ≥ 4) Iff.rfl (set := fun (t : MetadataRequest) x => { t with AllowAutoTopicCreation := x }) (·.AllowAutoTopicCreation) (fun _ => rfl) par_bool <|
    FParses.optField (c := v ≥ 8) Iff.rfl (set := fun (t : MetadataRequest) x => { t with IncludeClusterAuthorizedOperations := x }) (·.IncludeClusterAuthorizedOperations) (fun _ => rfl) par_bool <|
    FParses.optField (c := v ≥ 8) Iff.rfl (set := fun (t : MetadataRequest) x => { t with IncludeTopicAuthorizedOperations := x }) (·.IncludeTopicAuthorizedOperations) (fun _ => rfl) par_bool <|
    FParses.done)
    (by simp only [MetadataRequest.decode, Dec.andThen_assoc, Dec.andThen_nop]) (Fields.distinct_nodup _ (by decide +kernel)) (fun _ _ => rfl) t0

theorem MetadataRequest.shown {v : Int16} (hv : 0 ≤ v) (x : Val) (h : Protocol.MetadataRequest.Typed v x) :
    Protocol.MetadataRequest.shows v x (MetadataRequest.val (MetadataRequest.of v x {})) = true :=
  Shows.all hv (show_structs (f := MetadataRequestTopic3.val) (g := fun y => MetadataRequestTopic3.of v y {}) (fun y hy => MetadataRequestTopic3.shown hv y hy) (Fields.Typed.head (h) hv)) <|
    Shows.since (.bool) rfl (fun hc => show_bool (Fields.Typed.head (Fields.Typed.tail h) hc)) rfl <|
    Shows.since (.bool) rfl (fun hc => show_bool (Fields.Typed.head (Fields.Typed.tail (Fields.Typed.tail h)) hc)) rfl <|
    Shows.since (.bool) rfl (fun hc => show_bool (Fields.Typed.head (Fields.Typed.tail (Fields.Typed.tail (Fields.Typed.tail h))) hc)) rfl <|
    rfl

end Kafka.Msg
