import Verif.Message.StepLemmas
import Verif.Gen.Spec.JoinGroup
/-!
Generated by tools/gen_messages.py: laws of the JoinGroup messages.
-/
namespace Kafka.Msg

theorem JoinGroupRequestProtocol11.emits (version : Int16) (t : JoinGroupRequestProtocol11) :
    Emits (JoinGroupRequestProtocol11.encode version t) (JoinGroupRequestProtocol11.wire version t) :=
  (emits_string t.Name)
    |>.andThen (emits_bytes t.Metadata)
theorem JoinGroupRequestProtocol11.sized (version : Int16) (t : JoinGroupRequestProtocol11) :
    Sized (JoinGroupRequestProtocol11.size version t) (JoinGroupRequestProtocol11.wire version t) :=
  Grows.sized ((Grows.add (sized_string t.Name))
    |>.andThen (Grows.add (sized_bytes t.Metadata)))
theorem JoinGroupRequestProtocol11.reads (version : Int16) (t : JoinGroupRequestProtocol11) (h : t.Fits version) (t0 : JoinGroupRequestProtocol11) :
    Reads (JoinGroupRequestProtocol11.decode version t0) (JoinGroupRequestProtocol11.wire version t) (t.seen version t0) :=
  ((Step.field (set := fun (t : JoinGroupRequestProtocol11) x => { t with Name := x }) (reads_string h.Name))
    |>.andThen (Step.field (set := fun (t : JoinGroupRequestProtocol11) x => { t with Metadata := x }) (reads_bytes h.Metadata)) : Step _ _ _) t0
theorem JoinGroupRequestProtocol11.tame (version : Int16) (t0 : JoinGroupRequestProtocol11) : Tame (JoinGroupRequestProtocol11.decode version t0) :=
  ((TameStep.field tame_string)
    |>.andThen (TameStep.field tame_bytes) : TameStep _) t0
theorem JoinGroupRequestProtocol11.calm (version : Int16) (t0 : JoinGroupRequestProtocol11) :
    Calm (JoinGroupRequestProtocol11.decode version t0) (fun _ => True) :=
  ((CalmStep.field tame_string calm_string)
    |>.andThen (CalmStep.field tame_bytes calm_bytes) : CalmStep _).2 t0
theorem JoinGroupRequestProtocol11.canon (version : Int16) (t : JoinGroupRequestProtocol11) (h : t.Canon version) :
    t.seen version {} = t :=
  JoinGroupRequestProtocol11.ext rfl (canon_nonNil h.Metadata)
theorem JoinGroupRequestProtocol11.again (version : Int16) (t t0 : JoinGroupRequestProtocol11) :
    JoinGroupRequestProtocol11.wire version (t.seen version t0) = JoinGroupRequestProtocol11.wire version t :=
  app_congr (rfl) (rfl)
theorem JoinGroupRequestProtocol11.lawful : Lawful JoinGroupRequestProtocol11.type JoinGroupRequestProtocol11.layout :=
  ⟨JoinGroupRequestProtocol11.emits, JoinGroupRequestProtocol11.sized, JoinGroupRequestProtocol11.reads, JoinGroupRequestProtocol11.tame, JoinGroupRequestProtocol11.calm, JoinGroupRequestProtocol11.canon, JoinGroupRequestProtocol11.again⟩

theorem JoinGroupRequest.emits (version : Int16) (t : JoinGroupRequest) :
    Emits (JoinGroupRequest.encode version t) (JoinGroupRequest.wire version t) :=
  (emits_string t.GroupId)
    |>.andThen (emits_int32 t.SessionTimeoutMs)
    |>.andThen (Emits.onlyIf (emits_int32 t.RebalanceTimeoutMs))
    |>.andThen (emits_string t.MemberId)
    |>.andThen (Emits.onlyIf (emits_string t.GroupInstanceId))
    |>.andThen (emits_string t.ProtocolType)
    |>.andThen (emits_structs (JoinGroupRequestProtocol11.emits version) t.Protocols)
theorem JoinGroupRequest.sized (version : Int16) (t : JoinGroupRequest) :
    Sized (JoinGroupRequest.size version t) (JoinGroupRequest.wire version t) :=
  Grows.sized ((Grows.add (sized_string t.GroupId))
    |>.andThen (Grows.add (sized_int32 t.SessionTimeoutMs))
    |>.andThen (Grows.onlyIf (Grows.add (sized_int32 t.RebalanceTimeoutMs)))
    |>.andThen (Grows.add (sized_string t.MemberId))
    |>.andThen (Grows.onlyIf (Grows.add (sized_string t.GroupInstanceId)))
    |>.andThen (Grows.add (sized_string t.ProtocolType))
    |>.andThen (Grows.structs (JoinGroupRequestProtocol11.sized version) t.Protocols))
theorem JoinGroupRequest.reads (version : Int16) (t : JoinGroupRequest) (h : t.Fits version) (t0 : JoinGroupRequest) :
    Reads (JoinGroupRequest.decode version t0) (JoinGroupRequest.wire version t) (t.seen version t0) :=
  ((Step.field (set := fun (t : JoinGroupRequest) x => { t with GroupId := x }) (reads_string h.GroupId))
    |>.andThen (Step.field (set := fun (t : JoinGroupRequest) x => { t with SessionTimeoutMs := x }) (reads_int32 t.SessionTimeoutMs))
    |>.andThen (Step.optField (c := version ≥ 1) (set := fun (t : JoinGroupRequest) x => { t with RebalanceTimeoutMs := x }) (·.RebalanceTimeoutMs) (fun _ => rfl) fun _ => reads_int32 t.RebalanceTimeoutMs)
    |>.andThen (Step.field (set := fun (t : JoinGroupRequest) x => { t with MemberId := x }) (reads_string h.MemberId))
    |>.andThen (Step.optField (c := version ≥ 5) (set := fun (t : JoinGroupRequest) x => { t with GroupInstanceId := x }) (·.GroupInstanceId) (fun _ => rfl) fun hc => reads_string (h.GroupInstanceId hc))
    |>.andThen (Step.field (set := fun (t : JoinGroupRequest) x => { t with ProtocolType := x }) (reads_string h.ProtocolType))
    |>.andThen (Step.structs (get := fun (t : JoinGroupRequest) => t.Protocols) (set := fun (t : JoinGroupRequest) x => { t with Protocols := x }) (fun x hx => JoinGroupRequestProtocol11.reads version x hx {}) h.Protocols) : Step _ _ _) t0
theorem JoinGroupRequest.tame (version : Int16) (t0 : JoinGroupRequest) : Tame (JoinGroupRequest.decode version t0) :=
  ((TameStep.field tame_string)
    |>.andThen (TameStep.field tame_int32)
    |>.andThen (TameStep.onlyIf (TameStep.field tame_int32))
    |>.andThen (TameStep.field tame_string)
    |>.andThen (TameStep.onlyIf (TameStep.field tame_string))
    |>.andThen (TameStep.field tame_string)
    |>.andThen (TameStep.structs (JoinGroupRequestProtocol11.tame version {})) : TameStep _) t0
theorem JoinGroupRequest.calm (version : Int16) (t0 : JoinGroupRequest) :
    Calm (JoinGroupRequest.decode version t0) (fun _ => True) :=
  ((CalmStep.field tame_string calm_string)
    |>.andThen (CalmStep.field tame_int32 calm_int32)
    |>.andThen (CalmStep.onlyIf (CalmStep.field tame_int32 calm_int32))
    |>.andThen (CalmStep.field tame_string calm_string)
    |>.andThen (CalmStep.onlyIf (CalmStep.field tame_string calm_string))
    |>.andThen (CalmStep.field tame_string calm_string)
    |>.andThen (CalmStep.structs (JoinGroupRequestProtocol11.tame version {}) (JoinGroupRequestProtocol11.calm version {})) : CalmStep _).2 t0
theorem JoinGroupRequest.canon (version : Int16) (t : JoinGroupRequest) (h : t.Canon version) :
    t.seen version {} = t :=
  JoinGroupRequest.ext rfl rfl (canon_opt h.RebalanceTimeoutMs) rfl (canon_opt h.GroupInstanceId) rfl (canon_structs (JoinGroupRequestProtocol11.canon version) h.Protocols)
theorem JoinGroupRequest.again (version : Int16) (t t0 : JoinGroupRequest) :
    JoinGroupRequest.wire version (t.seen version t0) = JoinGroupRequest.wire version t :=
  app_congr (app_congr (app_congr (app_congr (app_congr (app_congr (rfl) (rfl)) (again_opt Wire.int32 t.RebalanceTimeoutMs t0.RebalanceTimeoutMs)) (rfl)) (again_opt Wire.string t.GroupInstanceId t0.GroupInstanceId)) (rfl)) (again_structs (fun x => JoinGroupRequestProtocol11.again version x {}) t.Protocols)
theorem JoinGroupRequest.lawful : Lawful JoinGroupRequest.type JoinGroupRequest.layout :=
  ⟨JoinGroupRequest.emits, JoinGroupRequest.sized, JoinGroupRequest.reads, JoinGroupRequest.tame, JoinGroupRequest.calm, JoinGroupRequest.canon, JoinGroupRequest.again⟩

theorem JoinGroupResponseMember11.emits (version : Int16) (t : JoinGroupResponseMember11) :
    Emits (JoinGroupResponseMember11.encode version t) (JoinGroupResponseMember11.wire version t) :=
  (emits_string t.MemberId)
    |>.andThen (Emits.onlyIf (emits_string t.GroupInstanceId))
    |>.andThen (emits_bytes t.Metadata)
theorem JoinGroupResponseMember11.sized (version : Int16) (t : JoinGroupResponseMember11) :
    Sized (JoinGroupResponseMember11.size version t) (JoinGroupResponseMember11.wire version t) :=
  Grows.sized ((Grows.add (sized_string t.MemberId))
    |>.andThen (Grows.onlyIf (Grows.add (sized_string t.GroupInstanceId)))
    |>.andThen (Grows.add (sized_bytes t.Metadata)))
theorem JoinGroupResponseMember11.reads (version : Int16) (t : JoinGroupResponseMember11) (h : t.Fits version) (t0 : JoinGroupResponseMember11) :
    Reads (JoinGroupResponseMember11.decode version t0) (JoinGroupResponseMember11.wire version t) (t.seen version t0) :=
  ((Step.field (set := fun (t : JoinGroupResponseMember11) x => { t with MemberId := x }) (reads_string h.MemberId))
    |>.andThen (Step.optField (c := version ≥ 5) (set := fun (t : JoinGroupResponseMember11) x => { t with GroupInstanceId := x }) (·.GroupInstanceId) (fun _ => rfl) fun hc => reads_string (h.GroupInstanceId hc))
    |>.andThen (Step.field (set := fun (t : JoinGroupResponseMember11) x => { t with Metadata := x }) (reads_bytes h.Metadata)) : Step _ _ _) t0
theorem JoinGroupResponseMember11.tame (version : Int16) (t0 : JoinGroupResponseMember11) : Tame (JoinGroupResponseMember11.decode version t0) :=
  ((TameStep.field tame_string)
    |>.andThen (TameStep.onlyIf (TameStep.field tame_string))
    |>.andThen (TameStep.field tame_bytes) : TameStep _) t0
theorem JoinGroupResponseMember11.calm (version : Int16) (t0 : JoinGroupResponseMember11) :
    Calm (JoinGroupResponseMember11.decode version t0) (fun _ => True) :=
  ((CalmStep.field tame_string calm_string)
    |>.andThen (CalmStep.onlyIf (CalmStep.field tame_string calm_string))
    |>.andThen (CalmStep.field tame_bytes calm_bytes) : CalmStep _).2 t0
theorem JoinGroupResponseMember11.canon (version : Int16) (t : JoinGroupResponseMember11) (h : t.Canon version) :
    t.seen version {} = t :=
  JoinGroupResponseMember11.ext rfl (canon_opt h.GroupInstanceId) (canon_nonNil h.Metadata)
theorem JoinGroupResponseMember11.again (version : Int16) (t t0 : JoinGroupResponseMember11) :
    JoinGroupResponseMember11.wire version (t.seen version t0) = JoinGroupResponseMember11.wire version t :=
  app_congr (app_congr (rfl) (again_opt Wire.string t.GroupInstanceId t0.GroupInstanceId)) (rfl)
theorem JoinGroupResponseMember11.lawful : Lawful JoinGroupResponseMember11.type JoinGroupResponseMember11.layout :=
  ⟨JoinGroupResponseMember11.emits, JoinGroupResponseMember11.sized, JoinGroupResponseMember11.reads, JoinGroupResponseMember11.tame, JoinGroupResponseMember11.calm, JoinGroupResponseMember11.canon, JoinGroupResponseMember11.again⟩

theorem JoinGroupResponse.emits (version : Int16) (t : JoinGroupResponse) :
    Emits (JoinGroupResponse.encode version t) (JoinGroupResponse.wire version t) :=
  (Emits.onlyIf (emits_int32 t.ThrottleTimeMs))
    |>.andThen (emits_int16 t.ErrorCode)
    |>.andThen (emits_int32 t.GenerationId)
    |>.andThen (emits_string t.ProtocolName)
    |>.andThen (emits_string t.Leader)
    |>.andThen (emits_string t.MemberId)
    |>.andThen (emits_structs (JoinGroupResponseMember11.emits version) t.Members)
theorem JoinGroupResponse.sized (version : Int16) (t : JoinGroupResponse) :
    Sized (JoinGroupResponse.size version t) (JoinGroupResponse.wire version t) :=
  Grows.sized ((Grows.onlyIf (Grows.add (sized_int32 t.ThrottleTimeMs)))
    |>.andThen (Grows.add (sized_int16 t.ErrorCode))
    |>.andThen (Grows.add (sized_int32 t.GenerationId))
    |>.andThen (Grows.add (sized_string t.ProtocolName))
    |>.andThen (Grows.add (sized_string t.Leader))
    |>.andThen (Grows.add (sized_string t.MemberId))
    |>.andThen (Grows.structs (JoinGroupResponseMember11.sized version) t.Members))
theorem JoinGroupResponse.reads (version : Int16) (t : JoinGroupResponse) (h : t.Fits version) (t0 : JoinGroupResponse) :
    Reads (JoinGroupResponse.decode version t0) (JoinGroupResponse.wire version t) (t.seen version t0) :=
  ((Step.optField (c := version ≥ 2) (set := fun (t : JoinGroupResponse) x => { t with ThrottleTimeMs := x }) (·.ThrottleTimeMs) (fun _ => rfl) fun _ => reads_int32 t.ThrottleTimeMs)
    |>.andThen (Step.field (set := fun (t : JoinGroupResponse) x => { t with ErrorCode := x }) (reads_int16 t.ErrorCode))
    |>.andThen (Step.field (set := fun (t : JoinGroupResponse) x => { t with GenerationId := x }) (reads_int32 t.GenerationId))
    |>.andThen (Step.field (set := fun (t : JoinGroupResponse) x => { t with ProtocolName := x }) (reads_string h.ProtocolName))
    |>.andThen (Step.field (set := fun (t : JoinGroupResponse) x => { t with Leader := x }) (reads_string h.Leader))
    |>.andThen (Step.field (set := fun (t : JoinGroupResponse) x => { t with MemberId := x }) (reads_string h.MemberId))
    |>.andThen (Step.structs (get := fun (t : JoinGroupResponse) => t.Members) (set := fun (t : JoinGroupResponse) x => { t with Members := x }) (fun x hx => JoinGroupResponseMember11.reads version x hx {}) h.Members) : Step _ _ _) t0
theorem JoinGroupResponse.tame (version : Int16) (t0 : JoinGroupResponse) : Tame (JoinGroupResponse.decode version t0) :=
  ((TameStep.onlyIf (TameStep.field tame_int32))
    |>.andThen (TameStep.field tame_int16)
    |>.andThen (TameStep.field tame_int32)
    |>.andThen (TameStep.field tame_string)
    |>.andThen (TameStep.field tame_string)
    |>.andThen (TameStep.field tame_string)
    |>.andThen (TameStep.structs (JoinGroupResponseMember11.tame version {})) : TameStep _) t0
theorem JoinGroupResponse.calm (version : Int16) (t0 : JoinGroupResponse) :
    Calm (JoinGroupResponse.decode version t0) (fun _ => True) :=
  ((CalmStep.onlyIf (CalmStep.field tame_int32 calm_int32))
    |>.andThen (CalmStep.field tame_int16 calm_int16)
    |>.andThen (CalmStep.field tame_int32 calm_int32)
    |>.andThen (CalmStep.field tame_string calm_string)
    |>.andThen (CalmStep.field tame_string calm_string)
    |>.andThen (CalmStep.field tame_string calm_string)
    |>.andThen (CalmStep.structs (JoinGroupResponseMember11.tame version {}) (JoinGroupResponseMember11.calm version {})) : CalmStep _).2 t0
theorem JoinGroupResponse.canon (version : Int16) (t : JoinGroupResponse) (h : t.Canon version) :
    t.seen version {} = t :=
  JoinGroupResponse.ext (canon_opt h.ThrottleTimeMs) rfl rfl rfl rfl rfl (canon_structs (JoinGroupResponseMember11.canon version) h.Members)
theorem JoinGroupResponse.again (version : Int16) (t t0 : JoinGroupResponse) :
    JoinGroupResponse.wire version (t.seen version t0) = JoinGroupResponse.wire version t :=
  app_congr (app_congr (app_congr (app_congr (app_congr (app_congr (again_opt Wire.int32 t.ThrottleTimeMs t0.ThrottleTimeMs) (rfl)) (rfl)) (rfl)) (rfl)) (rfl)) (again_structs (fun x => JoinGroupResponseMember11.again version x {}) t.Members)
theorem JoinGroupResponse.lawful : Lawful JoinGroupResponse.type JoinGroupResponse.layout :=
  ⟨JoinGroupResponse.emits, JoinGroupResponse.sized, JoinGroupResponse.reads, JoinGroupResponse.tame, JoinGroupResponse.calm, JoinGroupResponse.canon, JoinGroupResponse.again⟩

end Kafka.Msg
