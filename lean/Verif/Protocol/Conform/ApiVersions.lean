import Verif.Protocol.ParseLemmas
import Verif.Gen.Spec.ApiVersions
/-!
Generated by tools/gen_protocol.py: the ApiVersions messages are written and read as the protocol says.
-/
namespace Kafka.Msg

open Protocol

/-- `ApiVersionsRequest` as a value of the protocol. -/
def ApiVersionsRequest.val (t : ApiVersionsRequest) : Val :=
  .struct [("ClientSoftwareName", .str (some t.ClientSoftwareName)),
    ("ClientSoftwareVersion", .str (some t.ClientSoftwareVersion))]

theorem ApiVersionsRequest.conforms {v : Int16} (_hv : 0 ≤ v) (t : ApiVersionsRequest) :
    Protocol.ApiVersionsRequest.wire false v (ApiVersionsRequest.val t) = ApiVersionsRequest.wire v t :=
  Writes.eq <|
    Writes.since (Protocol.wire_string v t.ClientSoftwareName) <|
    Writes.since (Protocol.wire_string v t.ClientSoftwareVersion) <|
    Writes.done

/-- There is nothing that may not be nil. -/
def ApiVersionsRequest.Full (_v : Int16) (_t : ApiVersionsRequest) : Prop := True

theorem ApiVersionsRequest.valid {v : Int16} (_hv : 0 ≤ v) (t : ApiVersionsRequest) (h : t.Fits v) (_hf : t.Full v) :
    Protocol.ApiVersionsRequest.Valid true v (ApiVersionsRequest.val t) :=
  Valids.since (fun hc => valid_string (h.ClientSoftwareName hc)) <|
    Valids.since (fun hc => valid_string (h.ClientSoftwareVersion hc)) <|
    trivial

/-- `ApiVersionsResponseKey18` as a value of the protocol. -/
def ApiVersionsResponseKey18.val (t : ApiVersionsResponseKey18) : Val :=
  .struct [("ApiKey", .int16 t.ApiKey),
    ("MinVersion", .int16 t.MinVersion),
    ("MaxVersion", .int16 t.MaxVersion)]

theorem ApiVersionsResponseKey18.conforms {v : Int16} (hv : 0 ≤ v) (t : ApiVersionsResponseKey18) :
    Protocol.ApiVersionsResponseKey.wire false v (ApiVersionsResponseKey18.val t) = ApiVersionsResponseKey18.wire v t :=
  Writes.eq <|
    Writes.all hv (Protocol.wire_int16 v t.ApiKey) <|
    Writes.all hv (Protocol.wire_int16 v t.MinVersion) <|
    Writes.all hv (Protocol.wire_int16 v t.MaxVersion) <|
    Writes.done

/-- There is nothing that may not be nil. -/
def ApiVersionsResponseKey18.Full (_v : Int16) (_t : ApiVersionsResponseKey18) : Prop := True

theorem ApiVersionsResponseKey18.valid {v : Int16} (_hv : 0 ≤ v) (t : ApiVersionsResponseKey18) (_h : t.Fits v) (_hf : t.Full v) :
    Protocol.ApiVersionsResponseKey.Valid true v (ApiVersionsResponseKey18.val t) :=
  Valids.all trivial <|
    Valids.all trivial <|
    Valids.all trivial <|
    trivial

/-- What `ApiVersionsResponseKey18` holds after reading the value `x` into `t0`. -/
def ApiVersionsResponseKey18.of (_v : Int16) (x : Val) (_t0 : ApiVersionsResponseKey18) : ApiVersionsResponseKey18 :=
  { ApiKey := (x.get "ApiKey").toInt16,
    MinVersion := (x.get "MinVersion").toInt16,
    MaxVersion := (x.get "MaxVersion").toInt16 }

theorem ApiVersionsResponseKey18.decodes {v : Int16} (hv : 0 ≤ v) (x : Val) (h : Protocol.ApiVersionsResponseKey.Valid false v x) (t0 : ApiVersionsResponseKey18) :
    Reads (ApiVersionsResponseKey18.decode v t0) (Protocol.ApiVersionsResponseKey.wire false v x) (ApiVersionsResponseKey18.of v x t0) :=
  Reads.congr (((Step.field (set := fun (t : ApiVersionsResponseKey18) x => { t with ApiKey := x }) (read_int16 (Fields.Valid.head (h) hv)))
      |>.andThen (Step.field (set := fun (t : ApiVersionsResponseKey18) x => { t with MinVersion := x }) (read_int16 (Fields.Valid.head (Fields.Valid.tail h) hv)))
      |>.andThen (Step.field (set := fun (t : ApiVersionsResponseKey18) x => { t with MaxVersion := x }) (read_int16 (Fields.Valid.head (Fields.Valid.tail (Fields.Valid.tail h)) hv))) : Step _ _ _) t0)
    (Writes.eq (fs := Protocol.ApiVersionsResponseKey) (v := v) (x := x) <| Writes.all hv rfl <| Writes.all hv rfl <| Writes.all hv rfl <| Writes.done).symm rfl

theorem ApiVersionsResponseKey18.parses {v : Int16} (hv : 0 ≤ v) (t0 : ApiVersionsResponseKey18) :
    Parses (ApiVersionsResponseKey18.decode v t0) ((Ty.struct Protocol.ApiVersionsResponseKey).parse v) (fun x => ApiVersionsResponseKey18.of v x t0) :=
  FParses.parses (fs := Protocol.ApiVersionsResponseKey)
    (FParses.field hv (set := fun (t : ApiVersionsResponseKey18) x => { t with ApiKey := x }) par_int16 <|
    FParses.field hv (set := fun (t : ApiVersionsResponseKey18) x => { t with MinVersion := x }) par_int16 <|
    FParses.field hv (set := fun (t : ApiVersionsResponseKey18) x => { t with MaxVersion := x }) par_int16 <|
    FParses.done)
    (by simp only [ApiVersionsResponseKey18.decode, Dec.andThen_assoc, Dec.andThen_nop]) (Fields.distinct_nodup _ (by decide +kernel)) (fun _ _ => rfl) t0

theorem ApiVersionsResponseKey18.shown {v : Int16} (hv : 0 ≤ v) (x : Val) (h : Protocol.ApiVersionsResponseKey.Typed v x) :
    Protocol.ApiVersionsResponseKey.shows v x (ApiVersionsResponseKey18.val (ApiVersionsResponseKey18.of v x {})) = true :=
  Shows.all hv (show_int16 (Fields.Typed.head (h) hv)) <|
    Shows.all hv (show_int16 (Fields.Typed.head (Fields.Typed.tail h) hv)) <|
    Shows.all hv (show_int16 (Fields.Typed.head (Fields.Typed.tail (Fields.Typed.tail h)) hv)) <|
    rfl

/-- `ApiVersionsResponse` as a value of the protocol. -/
def ApiVersionsResponse.val (t : ApiVersionsResponse) : Val :=
  .struct [("ErrorCode", .int16 t.ErrorCode),
    ("ApiKeys", ofStructs ApiVersionsResponseKey18.val t.ApiKeys),
    ("ThrottleTimeMs", .int32 t.ThrottleTimeMs)]

theorem ApiVersionsResponse.conforms {v : Int16} (hv : 0 ≤ v) (t : ApiVersionsResponse) :
    Protocol.ApiVersionsResponse.wire false v (ApiVersionsResponse.val t) = ApiVersionsResponse.wire v t :=
  Writes.eq <|
    Writes.all hv (Protocol.wire_int16 v t.ErrorCode) <|
    Writes.all hv (Protocol.wire_structs v (ApiVersionsResponseKey18.conforms hv) t.ApiKeys) <|
    Writes.since (Protocol.wire_int32 v t.ThrottleTimeMs) <|
    Writes.done

/-- There is nothing that may not be nil. -/
def ApiVersionsResponse.Full (_v : Int16) (_t : ApiVersionsResponse) : Prop := True

theorem ApiVersionsResponse.valid {v : Int16} (hv : 0 ≤ v) (t : ApiVersionsResponse) (h : t.Fits v) (_hf : t.Full v) :
    Protocol.ApiVersionsResponse.Valid true v (ApiVersionsResponse.val t) :=
  Valids.all trivial <|
    Valids.all (valid_structs (fun y h hf => ApiVersionsResponseKey18.valid hv y h hf) (h.ApiKeys) (fun _ _ => trivial)) <|
    Valids.since (fun _ => trivial) <|
    trivial

/-- What `ApiVersionsResponse` holds after reading the value `x` into `t0`. -/
def ApiVersionsResponse.of (v : Int16) (x : Val) (t0 : ApiVersionsResponse) : ApiVersionsResponse :=
  { ErrorCode := (x.get "ErrorCode").toInt16,
    ApiKeys := (x.get "ApiKeys").toSliceOr (fun y => ApiVersionsResponseKey18.of v y {}) t0.ApiKeys,
    ThrottleTimeMs := if v ≥ 1 then (x.get "ThrottleTimeMs").toInt32 else t0.ThrottleTimeMs }

theorem ApiVersionsResponse.decodes {v : Int16} (hv : 0 ≤ v) (x : Val) (h : Protocol.ApiVersionsResponse.Valid false v x) (t0 : ApiVersionsResponse) :
    Reads (ApiVersionsResponse.decode v t0) (Protocol.ApiVersionsResponse.wire false v x) (ApiVersionsResponse.of v x t0) :=
  Reads.congr (((Step.field (set := fun (t : ApiVersionsResponse) x => { t with ErrorCode := x }) (read_int16 (Fields.Valid.head (h) hv)))
      |>.andThen (Step.readStructs (get := fun (t : ApiVersionsResponse) => t.ApiKeys) (set := fun (t : ApiVersionsResponse) x => { t with ApiKeys := x }) (fun y hy => ApiVersionsResponseKey18.decodes hv y hy {}) (Fields.Valid.head (Fields.Valid.tail h) hv))
      |>.andThen (Step.optField (c := v ≥ 1) (set := fun (t : ApiVersionsResponse) x => { t with ThrottleTimeMs := x }) (·.ThrottleTimeMs) (fun _ => rfl) fun hc => read_int32 (Fields.Valid.head (Fields.Valid.tail (Fields.Valid.tail h)) hc)) : Step _ _ _) t0)
    (Writes.eq (fs := Protocol.ApiVersionsResponse) (v := v) (x := x) <| Writes.all hv rfl <| Writes.all hv rfl <| Writes.since rfl <| Writes.done).symm rfl

theorem ApiVersionsResponse.parses {v : Int16} (hv : 0 ≤ v) (t0 : ApiVersionsResponse) :
    Parses (ApiVersionsResponse.decode v t0) ((Ty.struct Protocol.ApiVersionsResponse).parse v) (fun x => ApiVersionsResponse.of v x t0) :=
  FParses.parses (fs := Protocol.ApiVersionsResponse)
    (FParses.field hv (set := fun (t : ApiVersionsResponse) x => { t with ErrorCode := x }) par_int16 <|
    FParses.structs hv (get := fun (t : ApiVersionsResponse) => t.ApiKeys) (set := fun (t : ApiVersionsResponse) x => { t with ApiKeys := x }) (ApiVersionsResponseKey18.parses hv {}) <|
    FParses.optField (c := v ≥ 1) Iff.rfl (set := fun (t : ApiVersionsResponse) x => { t with ThrottleTimeMs := x }) (·.ThrottleTimeMs) (fun _ => rfl) par_int32 <|
    FParses.done)
    (by simp only [ApiVersionsResponse.decode, Dec.andThen_assoc, Dec.andThen_nop]) (Fields.distinct_nodup _ (by decide +kernel)) (fun _ _ => rfl) t0

theorem ApiVersionsResponse.shown {v : Int16} (hv : 0 ≤ v) (x : Val) (h : Protocol.ApiVersionsResponse.Typed v x) :
    Protocol.ApiVersionsResponse.shows v x (ApiVersionsResponse.val (ApiVersionsResponse.of v x {})) = true :=
  Shows.all hv (show_int16 (Fields.Typed.head (h) hv)) <|
    Shows.all hv (show_structs (f := ApiVersionsResponseKey18.val) (g := fun y => ApiVersionsResponseKey18.of v y {}) (fun y hy => ApiVersionsResponseKey18.shown hv y hy) (Fields.Typed.head (Fields.Typed.tail h) hv)) <|
    Shows.since (.int32) rfl (fun hc => show_int32 (Fields.Typed.head (Fields.Typed.tail (Fields.Typed.tail h)) hc)) rfl <|
    rfl

end Kafka.Msg
