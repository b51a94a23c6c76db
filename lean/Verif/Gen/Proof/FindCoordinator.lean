import Verif.Message.StepLemmas
import Verif.Gen.Spec.FindCoordinator
/-!
Generated by tools/gen_messages.py: laws of the FindCoordinator messages.
-/
namespace Kafka.Msg

theorem FindCoordinatorRequest.emits (version : Int16) (t : FindCoordinatorRequest) :
    Emits (FindCoordinatorRequest.encode version t) (FindCoordinatorRequest.wire version t) :=
  (emits_string t.Key)
    |>.andThen (Emits.onlyIf (emits_int8 t.KeyType))
theorem FindCoordinatorRequest.sized (version : Int16) (t : FindCoordinatorRequest) :
    Sized (FindCoordinatorRequest.size version t) (FindCoordinatorRequest.wire version t) :=
  Grows.sized ((Grows.add (sized_string t.Key))
    |>.andThen (Grows.onlyIf (Grows.add (sized_int8 t.KeyType))))
theorem FindCoordinatorRequest.reads (version : Int16) (t : FindCoordinatorRequest) (h : t.Fits version) (t0 : FindCoordinatorRequest) :
    Reads (FindCoordinatorRequest.decode version t0) (FindCoordinatorRequest.wire version t) (t.seen version t0) :=
  ((Step.field (set := fun (t : FindCoordinatorRequest) x => { t with Key := x }) (reads_string h.Key))
    |>.andThen (Step.optField (c := version ≥ 1) (set := fun (t : FindCoordinatorRequest) x => { t with KeyType := x }) (·.KeyType) (fun _ => rfl) fun _ => reads_int8 t.KeyType) : Step _ _ _) t0
theorem FindCoordinatorRequest.tame (version : Int16) (t0 : FindCoordinatorRequest) : Tame (FindCoordinatorRequest.decode version t0) :=
  ((TameStep.field tame_string)
    |>.andThen (TameStep.onlyIf (TameStep.field tame_int8)) : TameStep _) t0
theorem FindCoordinatorRequest.calm (version : Int16) (t0 : FindCoordinatorRequest) :
    Calm (FindCoordinatorRequest.decode version t0) (fun _ => True) :=
  ((CalmStep.field tame_string calm_string)
    |>.andThen (CalmStep.onlyIf (CalmStep.field tame_int8 calm_int8)) : CalmStep _).2 t0
theorem FindCoordinatorRequest.canon (version : Int16) (t : FindCoordinatorRequest) (h : t.Canon version) :
    t.seen version {} = t :=
  FindCoordinatorRequest.ext rfl (canon_opt h.KeyType)
theorem FindCoordinatorRequest.again (version : Int16) (t t0 : FindCoordinatorRequest) :
    FindCoordinatorRequest.wire version (t.seen version t0) = FindCoordinatorRequest.wire version t :=
  app_congr (rfl) (again_opt Wire.int8 t.KeyType t0.KeyType)
theorem FindCoordinatorRequest.lawful : Lawful FindCoordinatorRequest.type FindCoordinatorRequest.layout :=
  ⟨FindCoordinatorRequest.emits, FindCoordinatorRequest.sized, FindCoordinatorRequest.reads, FindCoordinatorRequest.tame, FindCoordinatorRequest.calm, FindCoordinatorRequest.canon, FindCoordinatorRequest.again⟩

theorem FindCoordinatorResponse.emits (version : Int16) (t : FindCoordinatorResponse) :
    Emits (FindCoordinatorResponse.encode version t) (FindCoordinatorResponse.wire version t) :=
  (Emits.onlyIf (emits_int32 t.ThrottleTimeMs))
    |>.andThen (emits_int16 t.ErrorCode)
    |>.andThen (Emits.onlyIf (emits_string t.ErrorMessage))
    |>.andThen (emits_int32 t.NodeId)
    |>.andThen (emits_string t.Host)
    |>.andThen (emits_int32 t.Port)
theorem FindCoordinatorResponse.sized (version : Int16) (t : FindCoordinatorResponse) :
    Sized (FindCoordinatorResponse.size version t) (FindCoordinatorResponse.wire version t) :=
  Grows.sized ((Grows.onlyIf (Grows.add (sized_int32 t.ThrottleTimeMs)))
    |>.andThen (Grows.add (sized_int16 t.ErrorCode))
    |>.andThen (Grows.onlyIf (Grows.add (sized_string t.ErrorMessage)))
    |>.andThen (Grows.add (sized_int32 t.NodeId))
    |>.andThen (Grows.add (sized_string t.Host))
    |>.andThen (Grows.add (sized_int32 t.Port)))
theorem FindCoordinatorResponse.reads (version : Int16) (t : FindCoordinatorResponse) (h : t.Fits version) (t0 : FindCoordinatorResponse) :
    Reads (FindCoordinatorResponse.decode version t0) (FindCoordinatorResponse.wire version t) (t.seen version t0) :=
  ((Step.optField (c := version ≥ 1) (set := fun (t : FindCoordinatorResponse) x => { t with ThrottleTimeMs := x }) (·.ThrottleTimeMs) (fun _ => rfl) fun _ => reads_int32 t.ThrottleTimeMs)
    |>.andThen (Step.field (set := fun (t : FindCoordinatorResponse) x => { t with ErrorCode := x }) (reads_int16 t.ErrorCode))
    |>.andThen (Step.optField (c := version ≥ 1) (set := fun (t : FindCoordinatorResponse) x => { t with ErrorMessage := x }) (·.ErrorMessage) (fun _ => rfl) fun hc => reads_string (h.ErrorMessage hc))
    |>.andThen (Step.field (set := fun (t : FindCoordinatorResponse) x => { t with NodeId := x }) (reads_int32 t.NodeId))
    |>.andThen (Step.field (set := fun (t : FindCoordinatorResponse) x => { t with Host := x }) (reads_string h.Host))
    |>.andThen (Step.field (set := fun (t : FindCoordinatorResponse) x => { t with Port := x }) (reads_int32 t.Port)) : Step _ _ _) t0
theorem FindCoordinatorResponse.tame (version : Int16) (t0 : FindCoordinatorResponse) : Tame (FindCoordinatorResponse.decode version t0) :=
  ((TameStep.onlyIf (TameStep.field tame_int32))
    |>.andThen (TameStep.field tame_int16)
    |>.andThen (TameStep.onlyIf (TameStep.field tame_string))
    |>.andThen (TameStep.field tame_int32)
    |>.andThen (TameStep.field tame_string)
    |>.andThen (TameStep.field tame_int32) : TameStep _) t0
theorem FindCoordinatorResponse.calm (version : Int16) (t0 : FindCoordinatorResponse) :
    Calm (FindCoordinatorResponse.decode version t0) (fun _ => True) :=
  ((CalmStep.onlyIf (CalmStep.field tame_int32 calm_int32))
    |>.andThen (CalmStep.field tame_int16 calm_int16)
    |>.andThen (CalmStep.onlyIf (CalmStep.field tame_string calm_string))
    |>.andThen (CalmStep.field tame_int32 calm_int32)
    |>.andThen (CalmStep.field tame_string calm_string)
    |>.andThen (CalmStep.field tame_int32 calm_int32) : CalmStep _).2 t0
theorem FindCoordinatorResponse.canon (version : Int16) (t : FindCoordinatorResponse) (h : t.Canon version) :
    t.seen version {} = t :=
  FindCoordinatorResponse.ext (canon_opt h.ThrottleTimeMs) rfl (canon_opt h.ErrorMessage) rfl rfl rfl
theorem FindCoordinatorResponse.again (version : Int16) (t t0 : FindCoordinatorResponse) :
    FindCoordinatorResponse.wire version (t.seen version t0) = FindCoordinatorResponse.wire version t :=
  app_congr (app_congr (app_congr (app_congr (app_congr (again_opt Wire.int32 t.ThrottleTimeMs t0.ThrottleTimeMs) (rfl)) (again_opt Wire.string t.ErrorMessage t0.ErrorMessage)) (rfl)) (rfl)) (rfl)
theorem FindCoordinatorResponse.lawful : Lawful FindCoordinatorResponse.type FindCoordinatorResponse.layout :=
  ⟨FindCoordinatorResponse.emits, FindCoordinatorResponse.sized, FindCoordinatorResponse.reads, FindCoordinatorResponse.tame, FindCoordinatorResponse.calm, FindCoordinatorResponse.canon, FindCoordinatorResponse.again⟩

end Kafka.Msg
