import Verif.Message.AllocLemmas
import Verif.Gen.Model.JoinGroup
/-!
Generated by tools/gen_messages.py: memory asked for by decoding the JoinGroup messages.
-/
namespace Kafka.Msg

/-- message/messages.gen.go:4129-4140 `JoinGroupRequestProtocol11.Decode`, with the memory it asks for -/
def JoinGroupRequestProtocol11.decodeA (_version : Int16) : JoinGroupRequestProtocol11 → ADec JoinGroupRequestProtocol11 :=
    ADec.field ADec.string (fun t x => { t with Name := x }) ;>>
    ADec.field ADec.bytes (fun t x => { t with Metadata := x })
theorem JoinGroupRequestProtocol11.erases (version : Int16) (t : JoinGroupRequestProtocol11) : Erases (JoinGroupRequestProtocol11.decodeA version t) (JoinGroupRequestProtocol11.decode version t) :=
  ((ErasesStep.field .string)
    |>.andThen (ErasesStep.field (.free _)) : ErasesStep _ _) t
theorem JoinGroupRequestProtocol11.within (version : Int16) (t : JoinGroupRequestProtocol11) : Within (JoinGroupRequestProtocol11.decodeA version t) 6 0 :=
  (((WithinStep.field .string)
    |>.andThen (WithinStep.field .bytes) : WithinStep _ _ _) t).mono (by decide) (by decide)

/-- message/messages.gen.go:4063-4107 `JoinGroupRequest.Decode`, with the memory it asks for -/
def JoinGroupRequest.decodeA (version : Int16) : JoinGroupRequest → ADec JoinGroupRequest :=
    ADec.field ADec.string (fun t x => { t with GroupId := x }) ;>>
    ADec.field ADec.int32 (fun t x => { t with SessionTimeoutMs := x }) ;>>
    ADec.onlyIf (version ≥ 1) (ADec.field ADec.int32 (fun t x => { t with RebalanceTimeoutMs := x })) ;>>
    ADec.field ADec.string (fun t x => { t with MemberId := x }) ;>>
    ADec.onlyIf (version ≥ 5) (ADec.field ADec.string (fun t x => { t with GroupInstanceId := x })) ;>>
    ADec.field ADec.string (fun t x => { t with ProtocolType := x }) ;>>
    ADec.fieldStructs (JoinGroupRequestProtocol11.decodeA version {}) (·.Protocols) (fun t x => { t with Protocols := x })
theorem JoinGroupRequest.erases (version : Int16) (t : JoinGroupRequest) : Erases (JoinGroupRequest.decodeA version t) (JoinGroupRequest.decode version t) :=
  ((ErasesStep.field .string)
    |>.andThen (ErasesStep.field (.free _))
    |>.andThen (ErasesStep.onlyIf (ErasesStep.field (.free _)))
    |>.andThen (ErasesStep.field .string)
    |>.andThen (ErasesStep.onlyIf (ErasesStep.field .string))
    |>.andThen (ErasesStep.field .string)
    |>.andThen (ErasesStep.structs (JoinGroupRequestProtocol11.erases version {})) : ErasesStep _ _) t
theorem JoinGroupRequest.within (version : Int16) (t : JoinGroupRequest) : Within (JoinGroupRequest.decodeA version t) 14 1 :=
  (((WithinStep.field .string)
    |>.andThen (WithinStep.field .int32)
    |>.andThen (WithinStep.onlyIf (fun _ => WithinStep.field .int32))
    |>.andThen (WithinStep.field .string)
    |>.andThen (WithinStep.onlyIf (fun _ => WithinStep.field .string))
    |>.andThen (WithinStep.field .string)
    |>.andThen (WithinStep.structs ((JoinGroupRequestProtocol11.within version {}).mono (by decide) (Nat.le_refl _))) : WithinStep _ _ _) t).mono (by decide) (by decide)

/-- message/messages.gen.go:4261-4278 `JoinGroupResponseMember11.Decode`, with the memory it asks for -/
def JoinGroupResponseMember11.decodeA (version : Int16) : JoinGroupResponseMember11 → ADec JoinGroupResponseMember11 :=
    ADec.field ADec.string (fun t x => { t with MemberId := x }) ;>>
    ADec.onlyIf (version ≥ 5) (ADec.field ADec.string (fun t x => { t with GroupInstanceId := x })) ;>>
    ADec.field ADec.bytes (fun t x => { t with Metadata := x })
theorem JoinGroupResponseMember11.erases (version : Int16) (t : JoinGroupResponseMember11) : Erases (JoinGroupResponseMember11.decodeA version t) (JoinGroupResponseMember11.decode version t) :=
  ((ErasesStep.field .string)
    |>.andThen (ErasesStep.onlyIf (ErasesStep.field .string))
    |>.andThen (ErasesStep.field (.free _)) : ErasesStep _ _) t
theorem JoinGroupResponseMember11.within (version : Int16) (t : JoinGroupResponseMember11) : Within (JoinGroupResponseMember11.decodeA version t) 6 0 :=
  (((WithinStep.field .string)
    |>.andThen (WithinStep.onlyIf (fun _ => WithinStep.field .string))
    |>.andThen (WithinStep.field .bytes) : WithinStep _ _ _) t).mono (by decide) (by decide)

/-- message/messages.gen.go:4190-4232 `JoinGroupResponse.Decode`, with the memory it asks for -/
def JoinGroupResponse.decodeA (version : Int16) : JoinGroupResponse → ADec JoinGroupResponse :=
    ADec.onlyIf (version ≥ 2) (ADec.field ADec.int32 (fun t x => { t with ThrottleTimeMs := x })) ;>>
    ADec.field ADec.int16 (fun t x => { t with ErrorCode := x }) ;>>
    ADec.field ADec.int32 (fun t x => { t with GenerationId := x }) ;>>
    ADec.field ADec.string (fun t x => { t with ProtocolName := x }) ;>>
    ADec.field ADec.string (fun t x => { t with Leader := x }) ;>>
    ADec.field ADec.string (fun t x => { t with MemberId := x }) ;>>
    ADec.fieldStructs (JoinGroupResponseMember11.decodeA version {}) (·.Members) (fun t x => { t with Members := x })
theorem JoinGroupResponse.erases (version : Int16) (t : JoinGroupResponse) : Erases (JoinGroupResponse.decodeA version t) (JoinGroupResponse.decode version t) :=
  ((ErasesStep.onlyIf (ErasesStep.field (.free _)))
    |>.andThen (ErasesStep.field (.free _))
    |>.andThen (ErasesStep.field (.free _))
    |>.andThen (ErasesStep.field .string)
    |>.andThen (ErasesStep.field .string)
    |>.andThen (ErasesStep.field .string)
    |>.andThen (ErasesStep.structs (JoinGroupResponseMember11.erases version {})) : ErasesStep _ _) t
theorem JoinGroupResponse.within (version : Int16) (t : JoinGroupResponse) : Within (JoinGroupResponse.decodeA version t) 16 1 :=
  (((WithinStep.onlyIf (fun _ => WithinStep.field .int32))
    |>.andThen (WithinStep.field .int16)
    |>.andThen (WithinStep.field .int32)
    |>.andThen (WithinStep.field .string)
    |>.andThen (WithinStep.field .string)
    |>.andThen (WithinStep.field .string)
    |>.andThen (WithinStep.structs ((JoinGroupResponseMember11.within version {}).mono (by decide) (Nat.le_refl _))) : WithinStep _ _ _) t).mono (by decide) (by decide)

end Kafka.Msg
