import Verif.Message.StepLemmas
import Verif.Gen.Spec.ApiVersions
/-!
Generated by tools/gen_messages.py: laws of the ApiVersions messages.
-/
namespace Kafka.Msg

theorem ApiVersionsRequest.emits (version : Int16) (t : ApiVersionsRequest) :
    Emits (ApiVersionsRequest.encode version t) (ApiVersionsRequest.wire version t) :=
  (Emits.onlyIf (emits_string t.ClientSoftwareName))
    |>.andThen (Emits.onlyIf (emits_string t.ClientSoftwareVersion))
theorem ApiVersionsRequest.sized (version : Int16) (t : ApiVersionsRequest) :
    Sized (ApiVersionsRequest.size version t) (ApiVersionsRequest.wire version t) :=
  Grows.sized ((Grows.onlyIf (Grows.add (sized_string t.ClientSoftwareName)))
    |>.andThen (Grows.onlyIf (Grows.add (sized_string t.ClientSoftwareVersion))))
theorem ApiVersionsRequest.reads (version : Int16) (t : ApiVersionsRequest) (h : t.Fits version) (t0 : ApiVersionsRequest) :
    Reads (ApiVersionsRequest.decode version t0) (ApiVersionsRequest.wire version t) (t.seen version t0) :=
  ((Step.optField (c := version ≥ 3) (set := fun (t : ApiVersionsRequest) x => { t with ClientSoftwareName := x }) (·.ClientSoftwareName) (fun _ => rfl) fun hc => reads_string (h.ClientSoftwareName hc))
    |>.andThen (Step.optField (c := version ≥ 3) (set := fun (t : ApiVersionsRequest) x => { t with ClientSoftwareVersion := x }) (·.ClientSoftwareVersion) (fun _ => rfl) fun hc => reads_string (h.ClientSoftwareVersion hc)) : Step _ _ _) t0
theorem ApiVersionsRequest.tame (version : Int16) (t0 : ApiVersionsRequest) : Tame (ApiVersionsRequest.decode version t0) :=
  ((TameStep.onlyIf (TameStep.field tame_string))
    |>.andThen (TameStep.onlyIf (TameStep.field tame_string)) : TameStep _) t0
theorem ApiVersionsRequest.calm (version : Int16) (t0 : ApiVersionsRequest) :
    Calm (ApiVersionsRequest.decode version t0) (fun _ => True) :=
  ((CalmStep.onlyIf (CalmStep.field tame_string calm_string))
    |>.andThen (CalmStep.onlyIf (CalmStep.field tame_string calm_string)) : CalmStep _).2 t0
theorem ApiVersionsRequest.canon (version : Int16) (t : ApiVersionsRequest) (h : t.Canon version) :
    t.seen version {} = t :=
  ApiVersionsRequest.ext (canon_opt h.ClientSoftwareName) (canon_opt h.ClientSoftwareVersion)
theorem ApiVersionsRequest.again (version : Int16) (t t0 : ApiVersionsRequest) :
    ApiVersionsRequest.wire version (t.seen version t0) = ApiVersionsRequest.wire version t :=
  app_congr (again_opt Wire.string t.ClientSoftwareName t0.ClientSoftwareName) (again_opt Wire.string t.ClientSoftwareVersion t0.ClientSoftwareVersion)
theorem ApiVersionsRequest.lawful : Lawful ApiVersionsRequest.type ApiVersionsRequest.layout :=
  ⟨ApiVersionsRequest.emits, ApiVersionsRequest.sized, ApiVersionsRequest.reads, ApiVersionsRequest.tame, ApiVersionsRequest.calm, ApiVersionsRequest.canon, ApiVersionsRequest.again⟩

theorem ApiVersionsResponseKey18.emits (version : Int16) (t : ApiVersionsResponseKey18) :
    Emits (ApiVersionsResponseKey18.encode version t) (ApiVersionsResponseKey18.wire version t) :=
  (emits_int16 t.ApiKey)
    |>.andThen (emits_int16 t.MinVersion)
    |>.andThen (emits_int16 t.MaxVersion)
theorem ApiVersionsResponseKey18.sized (version : Int16) (t : ApiVersionsResponseKey18) :
    Sized (ApiVersionsResponseKey18.size version t) (ApiVersionsResponseKey18.wire version t) :=
  Grows.sized ((Grows.add (sized_int16 t.ApiKey))
    |>.andThen (Grows.add (sized_int16 t.MinVersion))
    |>.andThen (Grows.add (sized_int16 t.MaxVersion)))
theorem ApiVersionsResponseKey18.reads (version : Int16) (t : ApiVersionsResponseKey18) (_h : t.Fits version) (t0 : ApiVersionsResponseKey18) :
    Reads (ApiVersionsResponseKey18.decode version t0) (ApiVersionsResponseKey18.wire version t) (t.seen version t0) :=
  ((Step.field (set := fun (t : ApiVersionsResponseKey18) x => { t with ApiKey := x }) (reads_int16 t.ApiKey))
    |>.andThen (Step.field (set := fun (t : ApiVersionsResponseKey18) x => { t with MinVersion := x }) (reads_int16 t.MinVersion))
    |>.andThen (Step.field (set := fun (t : ApiVersionsResponseKey18) x => { t with MaxVersion := x }) (reads_int16 t.MaxVersion)) : Step _ _ _) t0
theorem ApiVersionsResponseKey18.tame (version : Int16) (t0 : ApiVersionsResponseKey18) : Tame (ApiVersionsResponseKey18.decode version t0) :=
  ((TameStep.field tame_int16)
    |>.andThen (TameStep.field tame_int16)
    |>.andThen (TameStep.field tame_int16) : TameStep _) t0
theorem ApiVersionsResponseKey18.calm (version : Int16) (t0 : ApiVersionsResponseKey18) :
    Calm (ApiVersionsResponseKey18.decode version t0) (fun _ => True) :=
  ((CalmStep.field tame_int16 calm_int16)
    |>.andThen (CalmStep.field tame_int16 calm_int16)
    |>.andThen (CalmStep.field tame_int16 calm_int16) : CalmStep _).2 t0
theorem ApiVersionsResponseKey18.canon (version : Int16) (t : ApiVersionsResponseKey18) (_h : t.Canon version) :
    t.seen version {} = t :=
  ApiVersionsResponseKey18.ext rfl rfl rfl
theorem ApiVersionsResponseKey18.again (version : Int16) (t t0 : ApiVersionsResponseKey18) :
    ApiVersionsResponseKey18.wire version (t.seen version t0) = ApiVersionsResponseKey18.wire version t :=
  app_congr (app_congr (rfl) (rfl)) (rfl)
theorem ApiVersionsResponseKey18.lawful : Lawful ApiVersionsResponseKey18.type ApiVersionsResponseKey18.layout :=
  ⟨ApiVersionsResponseKey18.emits, ApiVersionsResponseKey18.sized, ApiVersionsResponseKey18.reads, ApiVersionsResponseKey18.tame, ApiVersionsResponseKey18.calm, ApiVersionsResponseKey18.canon, ApiVersionsResponseKey18.again⟩

theorem ApiVersionsResponse.emits (version : Int16) (t : ApiVersionsResponse) :
    Emits (ApiVersionsResponse.encode version t) (ApiVersionsResponse.wire version t) :=
  (emits_int16 t.ErrorCode)
    |>.andThen (emits_structs (ApiVersionsResponseKey18.emits version) t.ApiKeys)
    |>.andThen (Emits.onlyIf (emits_int32 t.ThrottleTimeMs))
theorem ApiVersionsResponse.sized (version : Int16) (t : ApiVersionsResponse) :
    Sized (ApiVersionsResponse.size version t) (ApiVersionsResponse.wire version t) :=
  Grows.sized ((Grows.add (sized_int16 t.ErrorCode))
    |>.andThen (Grows.structs (ApiVersionsResponseKey18.sized version) t.ApiKeys)
    |>.andThen (Grows.onlyIf (Grows.add (sized_int32 t.ThrottleTimeMs))))
theorem ApiVersionsResponse.reads (version : Int16) (t : ApiVersionsResponse) (h : t.Fits version) (t0 : ApiVersionsResponse) :
    Reads (ApiVersionsResponse.decode version t0) (ApiVersionsResponse.wire version t) (t.seen version t0) :=
  ((Step.field (set := fun (t : ApiVersionsResponse) x => { t with ErrorCode := x }) (reads_int16 t.ErrorCode))
    |>.andThen (Step.structs (get := fun (t : ApiVersionsResponse) => t.ApiKeys) (set := fun (t : ApiVersionsResponse) x => { t with ApiKeys := x }) (fun x hx => ApiVersionsResponseKey18.reads version x hx {}) h.ApiKeys)
    |>.andThen (Step.optField (c := version ≥ 1) (set := fun (t : ApiVersionsResponse) x => { t with ThrottleTimeMs := x }) (·.ThrottleTimeMs) (fun _ => rfl) fun _ => reads_int32 t.ThrottleTimeMs) : Step _ _ _) t0
theorem ApiVersionsResponse.tame (version : Int16) (t0 : ApiVersionsResponse) : Tame (ApiVersionsResponse.decode version t0) :=
  ((TameStep.field tame_int16)
    |>.andThen (TameStep.structs (ApiVersionsResponseKey18.tame version {}))
    |>.andThen (TameStep.onlyIf (TameStep.field tame_int32)) : TameStep _) t0
theorem ApiVersionsResponse.calm (version : Int16) (t0 : ApiVersionsResponse) :
    Calm (ApiVersionsResponse.decode version t0) (fun _ => True) :=
  ((CalmStep.field tame_int16 calm_int16)
    |>.andThen (CalmStep.structs (ApiVersionsResponseKey18.tame version {}) (ApiVersionsResponseKey18.calm version {}))
    |>.andThen (CalmStep.onlyIf (CalmStep.field tame_int32 calm_int32)) : CalmStep _).2 t0
theorem ApiVersionsResponse.canon (version : Int16) (t : ApiVersionsResponse) (h : t.Canon version) :
    t.seen version {} = t :=
  ApiVersionsResponse.ext rfl (canon_structs (ApiVersionsResponseKey18.canon version) h.ApiKeys) (canon_opt h.ThrottleTimeMs)
theorem ApiVersionsResponse.again (version : Int16) (t t0 : ApiVersionsResponse) :
    ApiVersionsResponse.wire version (t.seen version t0) = ApiVersionsResponse.wire version t :=
  app_congr (app_congr (rfl) (again_structs (fun x => ApiVersionsResponseKey18.again version x {}) t.ApiKeys)) (again_opt Wire.int32 t.ThrottleTimeMs t0.ThrottleTimeMs)
theorem ApiVersionsResponse.lawful : Lawful ApiVersionsResponse.type ApiVersionsResponse.layout :=
  ⟨ApiVersionsResponse.emits, ApiVersionsResponse.sized, ApiVersionsResponse.reads, ApiVersionsResponse.tame, ApiVersionsResponse.calm, ApiVersionsResponse.canon, ApiVersionsResponse.again⟩

end Kafka.Msg
