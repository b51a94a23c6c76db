import Verif.Message.StepLemmas
import Verif.Gen.Spec.Heartbeat
/-!
Generated by tools/gen_messages.py: laws of the Heartbeat messages.
-/
namespace Kafka.Msg

theorem HeartbeatRequest.emits (version : Int16) (t : HeartbeatRequest) :
    Emits (HeartbeatRequest.encode version t) (HeartbeatRequest.wire version t) :=
  (emits_string t.GroupId)
    |>.andThen (emits_int32 t.GenerationId)
    |>.andThen (emits_string t.MemberId)
    |>.andThen (Emits.onlyIf (emits_string t.GroupInstanceId))
theorem HeartbeatRequest.sized (version : Int16) (t : HeartbeatRequest) :
    Sized (HeartbeatRequest.size version t) (HeartbeatRequest.wire version t) :=
  Grows.sized ((Grows.add (sized_string t.GroupId))
    |>.andThen (Grows.add (sized_int32 t.GenerationId))
    |>.andThen (Grows.add (sized_string t.MemberId))
    |>.andThen (Grows.onlyIf (Grows.add (sized_string t.GroupInstanceId))))
theorem HeartbeatRequest.reads (version : Int16) (t : HeartbeatRequest) (h : t.Fits version) (t0 : HeartbeatRequest) :
    Reads (HeartbeatRequest.decode version t0) (HeartbeatRequest.wire version t) (t.seen version t0) :=
  ((Step.field (set := fun (t : HeartbeatRequest) x => { t with GroupId := x }) (reads_string h.GroupId))
    |>.andThen (Step.field (set := fun (t : HeartbeatRequest) x => { t with GenerationId := x }) (reads_int32 t.GenerationId))
    |>.andThen (Step.field (set := fun (t : HeartbeatRequest) x => { t with MemberId := x }) (reads_string h.MemberId))
    |>.andThen (Step.optField (c := version ≥ 3) (set := fun (t : HeartbeatRequest) x => { t with GroupInstanceId := x }) (·.GroupInstanceId) (fun _ => rfl) fun hc => reads_string (h.GroupInstanceId hc)) : Step _ _ _) t0
theorem HeartbeatRequest.tame (version : Int16) (t0 : HeartbeatRequest) : Tame (HeartbeatRequest.decode version t0) :=
  ((TameStep.field tame_string)
    |>.andThen (TameStep.field tame_int32)
    |>.andThen (TameStep.field tame_string)
    |>.andThen (TameStep.onlyIf (TameStep.field tame_string)) : TameStep _) t0
theorem HeartbeatRequest.calm (version : Int16) (t0 : HeartbeatRequest) :
    Calm (HeartbeatRequest.decode version t0) (fun _ => True) :=
  ((CalmStep.field tame_string calm_string)
    |>.andThen (CalmStep.field tame_int32 calm_int32)
    |>.andThen (CalmStep.field tame_string calm_string)
    |>.andThen (CalmStep.onlyIf (CalmStep.field tame_string calm_string)) : CalmStep _).2 t0
theorem HeartbeatRequest.canon (version : Int16) (t : HeartbeatRequest) (h : t.Canon version) :
    t.seen version {} = t :=
  HeartbeatRequest.ext rfl rfl rfl (canon_opt h.GroupInstanceId)
theorem HeartbeatRequest.again (version : Int16) (t t0 : HeartbeatRequest) :
    HeartbeatRequest.wire version (t.seen version t0) = HeartbeatRequest.wire version t :=
  app_congr (app_congr (app_congr (rfl) (rfl)) (rfl)) (again_opt Wire.string t.GroupInstanceId t0.GroupInstanceId)
theorem HeartbeatRequest.lawful : Lawful HeartbeatRequest.type HeartbeatRequest.layout :=
  ⟨HeartbeatRequest.emits, HeartbeatRequest.sized, HeartbeatRequest.reads, HeartbeatRequest.tame, HeartbeatRequest.calm, HeartbeatRequest.canon, HeartbeatRequest.again⟩

theorem HeartbeatResponse.emits (version : Int16) (t : HeartbeatResponse) :
    Emits (HeartbeatResponse.encode version t) (HeartbeatResponse.wire version t) :=
  (Emits.onlyIf (emits_int32 t.ThrottleTimeMs))
    |>.andThen (emits_int16 t.ErrorCode)
theorem HeartbeatResponse.sized (version : Int16) (t : HeartbeatResponse) :
    Sized (HeartbeatResponse.size version t) (HeartbeatResponse.wire version t) :=
  Grows.sized ((Grows.onlyIf (Grows.add (sized_int32 t.ThrottleTimeMs)))
    |>.andThen (Grows.add (sized_int16 t.ErrorCode)))
theorem HeartbeatResponse.reads (version : Int16) (t : HeartbeatResponse) (_h : t.Fits version) (t0 : HeartbeatResponse) :
    Reads (HeartbeatResponse.decode version t0) (HeartbeatResponse.wire version t) (t.seen version t0) :=
  ((Step.optField (c := version ≥ 1) (set := fun (t : HeartbeatResponse) x => { t with ThrottleTimeMs := x }) (·.ThrottleTimeMs) (fun _ => rfl) fun _ => reads_int32 t.ThrottleTimeMs)
    |>.andThen (Step.field (set := fun (t : HeartbeatResponse) x => { t with ErrorCode := x }) (reads_int16 t.ErrorCode)) : Step _ _ _) t0
theorem HeartbeatResponse.tame (version : Int16) (t0 : HeartbeatResponse) : Tame (HeartbeatResponse.decode version t0) :=
  ((TameStep.onlyIf (TameStep.field tame_int32))
    |>.andThen (TameStep.field tame_int16) : TameStep _) t0
theorem HeartbeatResponse.calm (version : Int16) (t0 : HeartbeatResponse) :
    Calm (HeartbeatResponse.decode version t0) (fun _ => True) :=
  ((CalmStep.onlyIf (CalmStep.field tame_int32 calm_int32))
    |>.andThen (CalmStep.field tame_int16 calm_int16) : CalmStep _).2 t0
theorem HeartbeatResponse.canon (version : Int16) (t : HeartbeatResponse) (h : t.Canon version) :
    t.seen version {} = t :=
  HeartbeatResponse.ext (canon_opt h.ThrottleTimeMs) rfl
theorem HeartbeatResponse.again (version : Int16) (t t0 : HeartbeatResponse) :
    HeartbeatResponse.wire version (t.seen version t0) = HeartbeatResponse.wire version t :=
  app_congr (again_opt Wire.int32 t.ThrottleTimeMs t0.ThrottleTimeMs) (rfl)
theorem HeartbeatResponse.lawful : Lawful HeartbeatResponse.type HeartbeatResponse.layout :=
  ⟨HeartbeatResponse.emits, HeartbeatResponse.sized, HeartbeatResponse.reads, HeartbeatResponse.tame, HeartbeatResponse.calm, HeartbeatResponse.canon, HeartbeatResponse.again⟩

end Kafka.Msg
