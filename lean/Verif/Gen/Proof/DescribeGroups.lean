import Verif.Message.StepLemmas
import Verif.Gen.Spec.DescribeGroups
/-!
Generated by tools/gen_messages.py: laws of the DescribeGroups messages.
-/
namespace Kafka.Msg

theorem DescribeGroupsRequest.emits (version : Int16) (t : DescribeGroupsRequest) :
    Emits (DescribeGroupsRequest.encode version t) (DescribeGroupsRequest.wire version t) :=
  (emits_stringArray t.Groups)
    |>.andThen (Emits.onlyIf (emits_bool t.IncludeAuthorizedOperations))
theorem DescribeGroupsRequest.sized (version : Int16) (t : DescribeGroupsRequest) :
    Sized (DescribeGroupsRequest.size version t) (DescribeGroupsRequest.wire version t) :=
  Grows.sized ((Grows.add (sized_stringArray t.Groups))
    |>.andThen (Grows.onlyIf (Grows.add (sized_bool t.IncludeAuthorizedOperations))))
theorem DescribeGroupsRequest.reads (version : Int16) (t : DescribeGroupsRequest) (h : t.Fits version) (t0 : DescribeGroupsRequest) :
    Reads (DescribeGroupsRequest.decode version t0) (DescribeGroupsRequest.wire version t) (t.seen version t0) :=
  ((Step.field (set := fun (t : DescribeGroupsRequest) x => { t with Groups := x }) (reads_stringArray h.Groups))
    |>.andThen (Step.optField (c := version ≥ 3) (set := fun (t : DescribeGroupsRequest) x => { t with IncludeAuthorizedOperations := x }) (·.IncludeAuthorizedOperations) (fun _ => rfl) fun _ => reads_bool t.IncludeAuthorizedOperations) : Step _ _ _) t0
theorem DescribeGroupsRequest.tame (version : Int16) (t0 : DescribeGroupsRequest) : Tame (DescribeGroupsRequest.decode version t0) :=
  ((TameStep.field tame_stringArray)
    |>.andThen (TameStep.onlyIf (TameStep.field tame_bool)) : TameStep _) t0
theorem DescribeGroupsRequest.calm (version : Int16) (t0 : DescribeGroupsRequest) :
    Calm (DescribeGroupsRequest.decode version t0) (fun _ => True) :=
  ((CalmStep.field tame_stringArray calm_stringArray)
    |>.andThen (CalmStep.onlyIf (CalmStep.field tame_bool calm_bool)) : CalmStep _).2 t0
theorem DescribeGroupsRequest.canon (version : Int16) (t : DescribeGroupsRequest) (h : t.Canon version) :
    t.seen version {} = t :=
  DescribeGroupsRequest.ext rfl (canon_opt h.IncludeAuthorizedOperations)
theorem DescribeGroupsRequest.again (version : Int16) (t t0 : DescribeGroupsRequest) :
    DescribeGroupsRequest.wire version (t.seen version t0) = DescribeGroupsRequest.wire version t :=
  app_congr (rfl) (again_opt Wire.bool t.IncludeAuthorizedOperations t0.IncludeAuthorizedOperations)
theorem DescribeGroupsRequest.lawful : Lawful DescribeGroupsRequest.type DescribeGroupsRequest.layout :=
  ⟨DescribeGroupsRequest.emits, DescribeGroupsRequest.sized, DescribeGroupsRequest.reads, DescribeGroupsRequest.tame, DescribeGroupsRequest.calm, DescribeGroupsRequest.canon, DescribeGroupsRequest.again⟩

theorem DescribedGroupMember15.emits (version : Int16) (t : DescribedGroupMember15) :
    Emits (DescribedGroupMember15.encode version t) (DescribedGroupMember15.wire version t) :=
  (emits_string t.MemberId)
    |>.andThen (Emits.onlyIf (emits_string t.GroupInstanceId))
    |>.andThen (emits_string t.ClientId)
    |>.andThen (emits_string t.ClientHost)
    |>.andThen (emits_bytes t.MemberMetadata)
    |>.andThen (emits_bytes t.MemberAssignment)
theorem DescribedGroupMember15.sized (version : Int16) (t : DescribedGroupMember15) :
    Sized (DescribedGroupMember15.size version t) (DescribedGroupMember15.wire version t) :=
  Grows.sized ((Grows.add (sized_string t.MemberId))
    |>.andThen (Grows.onlyIf (Grows.add (sized_string t.GroupInstanceId)))
    |>.andThen (Grows.add (sized_string t.ClientId))
    |>.andThen (Grows.add (sized_string t.ClientHost))
    |>.andThen (Grows.add (sized_bytes t.MemberMetadata))
    |>.andThen (Grows.add (sized_bytes t.MemberAssignment)))
theorem DescribedGroupMember15.reads (version : Int16) (t : DescribedGroupMember15) (h : t.Fits version) (t0 : DescribedGroupMember15) :
    Reads (DescribedGroupMember15.decode version t0) (DescribedGroupMember15.wire version t) (t.seen version t0) :=
  ((Step.field (set := fun (t : DescribedGroupMember15) x => { t with MemberId := x }) (reads_string h.MemberId))
    |>.andThen (Step.optField (c := version ≥ 4) (set := fun (t : DescribedGroupMember15) x => { t with GroupInstanceId := x }) (·.GroupInstanceId) (fun _ => rfl) fun hc => reads_string (h.GroupInstanceId hc))
    |>.andThen (Step.field (set := fun (t : DescribedGroupMember15) x => { t with ClientId := x }) (reads_string h.ClientId))
    |>.andThen (Step.field (set := fun (t : DescribedGroupMember15) x => { t with ClientHost := x }) (reads_string h.ClientHost))
    |>.andThen (Step.field (set := fun (t : DescribedGroupMember15) x => { t with MemberMetadata := x }) (reads_bytes h.MemberMetadata))
    |>.andThen (Step.field (set := fun (t : DescribedGroupMember15) x => { t with MemberAssignment := x }) (reads_bytes h.MemberAssignment)) : Step _ _ _) t0
theorem DescribedGroupMember15.tame (version : Int16) (t0 : DescribedGroupMember15) : Tame (DescribedGroupMember15.decode version t0) :=
  ((TameStep.field tame_string)
    |>.andThen (TameStep.onlyIf (TameStep.field tame_string))
    |>.andThen (TameStep.field tame_string)
    |>.andThen (TameStep.field tame_string)
    |>.andThen (TameStep.field tame_bytes)
    |>.andThen (TameStep.field tame_bytes) : TameStep _) t0
theorem DescribedGroupMember15.calm (version : Int16) (t0 : DescribedGroupMember15) :
    Calm (DescribedGroupMember15.decode version t0) (fun _ => True) :=
  ((CalmStep.field tame_string calm_string)
    |>.andThen (CalmStep.onlyIf (CalmStep.field tame_string calm_string))
    |>.andThen (CalmStep.field tame_string calm_string)
    |>.andThen (CalmStep.field tame_string calm_string)
    |>.andThen (CalmStep.field tame_bytes calm_bytes)
    |>.andThen (CalmStep.field tame_bytes calm_bytes) : CalmStep _).2 t0
theorem DescribedGroupMember15.canon (version : Int16) (t : DescribedGroupMember15) (h : t.Canon version) :
    t.seen version {} = t :=
  DescribedGroupMember15.ext rfl (canon_opt h.GroupInstanceId) rfl rfl (canon_nonNil h.MemberMetadata) (canon_nonNil h.MemberAssignment)
theorem DescribedGroupMember15.again (version : Int16) (t t0 : DescribedGroupMember15) :
    DescribedGroupMember15.wire version (t.seen version t0) = DescribedGroupMember15.wire version t :=
  app_congr (app_congr (app_congr (app_congr (app_congr (rfl) (again_opt Wire.string t.GroupInstanceId t0.GroupInstanceId)) (rfl)) (rfl)) (rfl)) (rfl)
theorem DescribedGroupMember15.lawful : Lawful DescribedGroupMember15.type DescribedGroupMember15.layout :=
  ⟨DescribedGroupMember15.emits, DescribedGroupMember15.sized, DescribedGroupMember15.reads, DescribedGroupMember15.tame, DescribedGroupMember15.calm, DescribedGroupMember15.canon, DescribedGroupMember15.again⟩

theorem DescribedGroup15.emits (version : Int16) (t : DescribedGroup15) :
    Emits (DescribedGroup15.encode version t) (DescribedGroup15.wire version t) :=
  (emits_int16 t.ErrorCode)
    |>.andThen (emits_string t.GroupId)
    |>.andThen (emits_string t.GroupState)
    |>.andThen (emits_string t.ProtocolType)
    |>.andThen (emits_string t.ProtocolData)
    |>.andThen (emits_structs (DescribedGroupMember15.emits version) t.Members)
    |>.andThen (Emits.onlyIf (emits_int32 t.AuthorizedOperations))
theorem DescribedGroup15.sized (version : Int16) (t : DescribedGroup15) :
    Sized (DescribedGroup15.size version t) (DescribedGroup15.wire version t) :=
  Grows.sized ((Grows.add (sized_int16 t.ErrorCode))
    |>.andThen (Grows.add (sized_string t.GroupId))
    |>.andThen (Grows.add (sized_string t.GroupState))
    |>.andThen (Grows.add (sized_string t.ProtocolType))
    |>.andThen (Grows.add (sized_string t.ProtocolData))
    |>.andThen (Grows.structs (DescribedGroupMember15.sized version) t.Members)
    |>.andThen (Grows.onlyIf (Grows.add (sized_int32 t.AuthorizedOperations))))
theorem DescribedGroup15.reads (version : Int16) (t : DescribedGroup15) (h : t.Fits version) (t0 : DescribedGroup15) :
    Reads (DescribedGroup15.decode version t0) (DescribedGroup15.wire version t) (t.seen version t0) :=
  ((Step.field (set := fun (t : DescribedGroup15) x => { t with ErrorCode := x }) (reads_int16 t.ErrorCode))
    |>.andThen (Step.field (set := fun (t : DescribedGroup15) x => { t with GroupId := x }) (reads_string h.GroupId))
    |>.andThen (Step.field (set := fun (t : DescribedGroup15) x => { t with GroupState := x }) (reads_string h.GroupState))
    |>.andThen (Step.field (set := fun (t : DescribedGroup15) x => { t with ProtocolType := x }) (reads_string h.ProtocolType))
    |>.andThen (Step.field (set := fun (t : DescribedGroup15) x => { t with ProtocolData := x }) (reads_string h.ProtocolData))
    |>.andThen (Step.structs (get := fun (t : DescribedGroup15) => t.Members) (set := fun (t : DescribedGroup15) x => { t with Members := x }) (fun x hx => DescribedGroupMember15.reads version x hx {}) h.Members)
    |>.andThen (Step.optField (c := version ≥ 3) (set := fun (t : DescribedGroup15) x => { t with AuthorizedOperations := x }) (·.AuthorizedOperations) (fun _ => rfl) fun _ => reads_int32 t.AuthorizedOperations) : Step _ _ _) t0
theorem DescribedGroup15.tame (version : Int16) (t0 : DescribedGroup15) : Tame (DescribedGroup15.decode version t0) :=
  ((TameStep.field tame_int16)
    |>.andThen (TameStep.field tame_string)
    |>.andThen (TameStep.field tame_string)
    |>.andThen (TameStep.field tame_string)
    |>.andThen (TameStep.field tame_string)
    |>.andThen (TameStep.structs (DescribedGroupMember15.tame version {}))
    |>.andThen (TameStep.onlyIf (TameStep.field tame_int32)) : TameStep _) t0
theorem DescribedGroup15.calm (version : Int16) (t0 : DescribedGroup15) :
    Calm (DescribedGroup15.decode version t0) (fun _ => True) :=
  ((CalmStep.field tame_int16 calm_int16)
    |>.andThen (CalmStep.field tame_string calm_string)
    |>.andThen (CalmStep.field tame_string calm_string)
    |>.andThen (CalmStep.field tame_string calm_string)
    |>.andThen (CalmStep.field tame_string calm_string)
    |>.andThen (CalmStep.structs (DescribedGroupMember15.tame version {}) (DescribedGroupMember15.calm version {}))
    |>.andThen (CalmStep.onlyIf (CalmStep.field tame_int32 calm_int32)) : CalmStep _).2 t0
theorem DescribedGroup15.canon (version : Int16) (t : DescribedGroup15) (h : t.Canon version) :
    t.seen version {} = t :=
  DescribedGroup15.ext rfl rfl rfl rfl rfl (canon_structs (DescribedGroupMember15.canon version) h.Members) (canon_opt h.AuthorizedOperations)
theorem DescribedGroup15.again (version : Int16) (t t0 : DescribedGroup15) :
    DescribedGroup15.wire version (t.seen version t0) = DescribedGroup15.wire version t :=
  app_congr (app_congr (app_congr (app_congr (app_congr (app_congr (rfl) (rfl)) (rfl)) (rfl)) (rfl)) (again_structs (fun x => DescribedGroupMember15.again version x {}) t.Members)) (again_opt Wire.int32 t.AuthorizedOperations t0.AuthorizedOperations)
theorem DescribedGroup15.lawful : Lawful DescribedGroup15.type DescribedGroup15.layout :=
  ⟨DescribedGroup15.emits, DescribedGroup15.sized, DescribedGroup15.reads, DescribedGroup15.tame, DescribedGroup15.calm, DescribedGroup15.canon, DescribedGroup15.again⟩

theorem DescribeGroupsResponse.emits (version : Int16) (t : DescribeGroupsResponse) :
    Emits (DescribeGroupsResponse.encode version t) (DescribeGroupsResponse.wire version t) :=
  (Emits.onlyIf (emits_int32 t.ThrottleTimeMs))
    |>.andThen (emits_structs (DescribedGroup15.emits version) t.Groups)
theorem DescribeGroupsResponse.sized (version : Int16) (t : DescribeGroupsResponse) :
    Sized (DescribeGroupsResponse.size version t) (DescribeGroupsResponse.wire version t) :=
  Grows.sized ((Grows.onlyIf (Grows.add (sized_int32 t.ThrottleTimeMs)))
    |>.andThen (Grows.structs (DescribedGroup15.sized version) t.Groups))
theorem DescribeGroupsResponse.reads (version : Int16) (t : DescribeGroupsResponse) (h : t.Fits version) (t0 : DescribeGroupsResponse) :
    Reads (DescribeGroupsResponse.decode version t0) (DescribeGroupsResponse.wire version t) (t.seen version t0) :=
  ((Step.optField (c := version ≥ 1) (set := fun (t : DescribeGroupsResponse) x => { t with ThrottleTimeMs := x }) (·.ThrottleTimeMs) (fun _ => rfl) fun _ => reads_int32 t.ThrottleTimeMs)
    |>.andThen (Step.structs (get := fun (t : DescribeGroupsResponse) => t.Groups) (set := fun (t : DescribeGroupsResponse) x => { t with Groups := x }) (fun x hx => DescribedGroup15.reads version x hx {}) h.Groups) : Step _ _ _) t0
theorem DescribeGroupsResponse.tame (version : Int16) (t0 : DescribeGroupsResponse) : Tame (DescribeGroupsResponse.decode version t0) :=
  ((TameStep.onlyIf (TameStep.field tame_int32))
    |>.andThen (TameStep.structs (DescribedGroup15.tame version {})) : TameStep _) t0
theorem DescribeGroupsResponse.calm (version : Int16) (t0 : DescribeGroupsResponse) :
    Calm (DescribeGroupsResponse.decode version t0) (fun _ => True) :=
  ((CalmStep.onlyIf (CalmStep.field tame_int32 calm_int32))
    |>.andThen (CalmStep.structs (DescribedGroup15.tame version {}) (DescribedGroup15.calm version {})) : CalmStep _).2 t0
theorem DescribeGroupsResponse.canon (version : Int16) (t : DescribeGroupsResponse) (h : t.Canon version) :
    t.seen version {} = t :=
  DescribeGroupsResponse.ext (canon_opt h.ThrottleTimeMs) (canon_structs (DescribedGroup15.canon version) h.Groups)
theorem DescribeGroupsResponse.again (version : Int16) (t t0 : DescribeGroupsResponse) :
    DescribeGroupsResponse.wire version (t.seen version t0) = DescribeGroupsResponse.wire version t :=
  app_congr (again_opt Wire.int32 t.ThrottleTimeMs t0.ThrottleTimeMs) (again_structs (fun x => DescribedGroup15.again version x {}) t.Groups)
theorem DescribeGroupsResponse.lawful : Lawful DescribeGroupsResponse.type DescribeGroupsResponse.layout :=
  ⟨DescribeGroupsResponse.emits, DescribeGroupsResponse.sized, DescribeGroupsResponse.reads, DescribeGroupsResponse.tame, DescribeGroupsResponse.calm, DescribeGroupsResponse.canon, DescribeGroupsResponse.again⟩

end Kafka.Msg
