import Verif.Message.Gate
import Verif.Gen.Spec.ApiVersions
/-!
Generated by tools/gen_messages.py: the version-dependent fields of the ApiVersions messages.
-/
set_option linter.unusedSimpArgs false
namespace Kafka.Msg

/-- `t.ClientSoftwareName = x` -/
def ApiVersionsRequest_with_ClientSoftwareName (t : ApiVersionsRequest) (x : GoString) : ApiVersionsRequest := { t with ClientSoftwareName := x }
/-- `ApiVersionsRequest.ClientSoftwareName` -/
def ApiVersionsRequest.gateClientSoftwareName : Gate :=
  { M := ApiVersionsRequest.type, L := ApiVersionsRequest.layout, field := "ClientSoftwareName", α := GoString, present := fun v => v ≥ 3,
    get := fun t => ApiVersionsRequest.ClientSoftwareName t, set := fun t x => ApiVersionsRequest_with_ClientSoftwareName t x }
theorem ApiVersionsRequest.gateClientSoftwareName_holds : ApiVersionsRequest.gateClientSoftwareName.Holds where
  get_set _ _ := rfl
  encode v h t x := by
    change ApiVersionsRequest.encode v (ApiVersionsRequest_with_ClientSoftwareName t x) = ApiVersionsRequest.encode v t
    change ¬(v ≥ 3) at h
    simp only [ApiVersionsRequest.encode, ApiVersionsRequest_with_ClientSoftwareName, onlyIf_neg h]
  size v h t x := by
    change ApiVersionsRequest.size v (ApiVersionsRequest_with_ClientSoftwareName t x) = ApiVersionsRequest.size v t
    change ¬(v ≥ 3) at h
    simp only [ApiVersionsRequest.size, ApiVersionsRequest_with_ClientSoftwareName, onlyIf_neg h]
  decode v h := by
    change ¬(v ≥ 3) at h
    refine (?_ : Keeps (fun t : ApiVersionsRequest => t.ClientSoftwareName) (ApiVersionsRequest.decode v))
    unfold ApiVersionsRequest.decode
    repeat' first
      | exact Keeps.absent h
      | apply Keeps.andThen
      | exact Keeps.field fun _ _ => rfl
      | exact Keeps.fieldStructs fun _ _ => rfl
      | apply Keeps.onlyIf
  carried v h t t0 t1 := by
    change (ApiVersionsRequest.seen v t t0).ClientSoftwareName = (ApiVersionsRequest.seen v t t1).ClientSoftwareName
    change v ≥ 3 at h
    simp only [ApiVersionsRequest.seen, if_pos h]

/-- `t.ClientSoftwareVersion = x` -/
def ApiVersionsRequest_with_ClientSoftwareVersion (t : ApiVersionsRequest) (x : GoString) : ApiVersionsRequest := { t with ClientSoftwareVersion := x }
/-- `ApiVersionsRequest.ClientSoftwareVersion` -/
def ApiVersionsRequest.gateClientSoftwareVersion : Gate :=
  { M := ApiVersionsRequest.type, L := ApiVersionsRequest.layout, field := "ClientSoftwareVersion", α := GoString, present := fun v => v ≥ 3,
    get := fun t => ApiVersionsRequest.ClientSoftwareVersion t, set := fun t x => ApiVersionsRequest_with_ClientSoftwareVersion t x }
theorem ApiVersionsRequest.gateClientSoftwareVersion_holds : ApiVersionsRequest.gateClientSoftwareVersion.Holds where
  get_set _ _ := rfl
  encode v h t x := by
    change ApiVersionsRequest.encode v (ApiVersionsRequest_with_ClientSoftwareVersion t x) = ApiVersionsRequest.encode v t
    change ¬(v ≥ 3) at h
    simp only [ApiVersionsRequest.encode, ApiVersionsRequest_with_ClientSoftwareVersion, onlyIf_neg h]
  size v h t x := by
    change ApiVersionsRequest.size v (ApiVersionsRequest_with_ClientSoftwareVersion t x) = ApiVersionsRequest.size v t
    change ¬(v ≥ 3) at h
    simp only [ApiVersionsRequest.size, ApiVersionsRequest_with_ClientSoftwareVersion, onlyIf_neg h]
  decode v h := by
    change ¬(v ≥ 3) at h
    refine (?_ : Keeps (fun t : ApiVersionsRequest => t.ClientSoftwareVersion) (ApiVersionsRequest.decode v))
    unfold ApiVersionsRequest.decode
    repeat' first
      | exact Keeps.absent h
      | apply Keeps.andThen
      | exact Keeps.field fun _ _ => rfl
      | exact Keeps.fieldStructs fun _ _ => rfl
      | apply Keeps.onlyIf
  carried v h t t0 t1 := by
    change (ApiVersionsRequest.seen v t t0).ClientSoftwareVersion = (ApiVersionsRequest.seen v t t1).ClientSoftwareVersion
    change v ≥ 3 at h
    simp only [ApiVersionsRequest.seen, if_pos h]

/-- `t.ThrottleTimeMs = x` -/
def ApiVersionsResponse_with_ThrottleTimeMs (t : ApiVersionsResponse) (x : Int32) : ApiVersionsResponse := { t with ThrottleTimeMs := x }
/-- `ApiVersionsResponse.ThrottleTimeMs` -/
def ApiVersionsResponse.gateThrottleTimeMs : Gate :=
  { M := ApiVersionsResponse.type, L := ApiVersionsResponse.layout, field := "ThrottleTimeMs", α := Int32, present := fun v => v ≥ 1,
    get := fun t => ApiVersionsResponse.ThrottleTimeMs t, set := fun t x => ApiVersionsResponse_with_ThrottleTimeMs t x }
theorem ApiVersionsResponse.gateThrottleTimeMs_holds : ApiVersionsResponse.gateThrottleTimeMs.Holds where
  get_set _ _ := rfl
  encode v h t x := by
    change ApiVersionsResponse.encode v (ApiVersionsResponse_with_ThrottleTimeMs t x) = ApiVersionsResponse.encode v t
    change ¬(v ≥ 1) at h
    simp only [ApiVersionsResponse.encode, ApiVersionsResponse_with_ThrottleTimeMs, onlyIf_neg h]
  size v h t x := by
    change ApiVersionsResponse.size v (ApiVersionsResponse_with_ThrottleTimeMs t x) = ApiVersionsResponse.size v t
    change ¬(v ≥ 1) at h
    simp only [ApiVersionsResponse.size, ApiVersionsResponse_with_ThrottleTimeMs, onlyIf_neg h]
  decode v h := by
    change ¬(v ≥ 1) at h
    refine (?_ : Keeps (fun t : ApiVersionsResponse => t.ThrottleTimeMs) (ApiVersionsResponse.decode v))
    unfold ApiVersionsResponse.decode
    repeat' first
      | exact Keeps.absent h
      | apply Keeps.andThen
      | exact Keeps.field fun _ _ => rfl
      | exact Keeps.fieldStructs fun _ _ => rfl
      | apply Keeps.onlyIf
  carried v h t t0 t1 := by
    change (ApiVersionsResponse.seen v t t0).ThrottleTimeMs = (ApiVersionsResponse.seen v t t1).ThrottleTimeMs
    change v ≥ 1 at h
    simp only [ApiVersionsResponse.seen, if_pos h]

/-- The version-dependent fields of the ApiVersions messages. -/
def gatesApiVersions : List Gate :=
  [ApiVersionsRequest.gateClientSoftwareName,
   ApiVersionsRequest.gateClientSoftwareVersion,
   ApiVersionsResponse.gateThrottleTimeMs]

theorem gatesApiVersions_hold : ∀ g ∈ gatesApiVersions, g.Holds := by
  unfold gatesApiVersions
  simp only [List.forall_mem_cons]
  exact ⟨ApiVersionsRequest.gateClientSoftwareName_holds,
    ApiVersionsRequest.gateClientSoftwareVersion_holds,
    ApiVersionsResponse.gateThrottleTimeMs_holds,
    fun _ h => absurd h (by simp)⟩

end Kafka.Msg
