import Verif.Message.Work
import Verif.Gen.Model.JoinGroup
/-!
Generated by tools/gen_messages.py: steps taken by decoding the JoinGroup messages.
-/
namespace Kafka.Msg

/-- message/messages.gen.go:4129-4140 `JoinGroupRequestProtocol11.Decode`, with the steps it takes -/
def JoinGroupRequestProtocol11.decodeW (_version : Int16) : JoinGroupRequestProtocol11 → ADec JoinGroupRequestProtocol11 :=
    ADec.field WDec.string (fun t x => { t with Name := x }) ;>>
    ADec.field WDec.bytes (fun t x => { t with Metadata := x })
theorem JoinGroupRequestProtocol11.erasesW (version : Int16) (t : JoinGroupRequestProtocol11) : Erases (JoinGroupRequestProtocol11.decodeW version t) (JoinGroupRequestProtocol11.decode version t) :=
  ((ErasesStep.field .stringW)
    |>.andThen (ErasesStep.field (.read _)) : ErasesStep _ _) t
theorem JoinGroupRequestProtocol11.spends (version : Int16) (t : JoinGroupRequestProtocol11) : Spends (JoinGroupRequestProtocol11.decodeW version t) 10 1 :=
  (((SpendsStep.field .string)
    |>.andThen (SpendsStep.field .bytes) : SpendsStep _ _) t).mono (by decide) (by decide)
theorem JoinGroupRequestProtocol11.spends0 (version : Int16) (t : JoinGroupRequestProtocol11) : Spends (JoinGroupRequestProtocol11.decodeW version t) 0 1 :=
  (JoinGroupRequestProtocol11.spends version t).mono (Nat.zero_le _) (Nat.le_refl _)

/-- message/messages.gen.go:4063-4107 `JoinGroupRequest.Decode`, with the steps it takes -/
def JoinGroupRequest.decodeW (version : Int16) : JoinGroupRequest → ADec JoinGroupRequest :=
    ADec.field WDec.string (fun t x => { t with GroupId := x }) ;>>
    ADec.field WDec.int32 (fun t x => { t with SessionTimeoutMs := x }) ;>>
    ADec.onlyIf (version ≥ 1) (ADec.field WDec.int32 (fun t x => { t with RebalanceTimeoutMs := x })) ;>>
    ADec.field WDec.string (fun t x => { t with MemberId := x }) ;>>
    ADec.onlyIf (version ≥ 5) (ADec.field WDec.string (fun t x => { t with GroupInstanceId := x })) ;>>
    ADec.field WDec.string (fun t x => { t with ProtocolType := x }) ;>>
    WDec.fieldStructs (JoinGroupRequestProtocol11.decodeW version {}) (·.Protocols) (fun t x => { t with Protocols := x })
theorem JoinGroupRequest.erasesW (version : Int16) (t : JoinGroupRequest) : Erases (JoinGroupRequest.decodeW version t) (JoinGroupRequest.decode version t) :=
  ((ErasesStep.field .stringW)
    |>.andThen (ErasesStep.field (.read _))
    |>.andThen (ErasesStep.onlyIf (ErasesStep.field (.read _)))
    |>.andThen (ErasesStep.field .stringW)
    |>.andThen (ErasesStep.onlyIf (ErasesStep.field .stringW))
    |>.andThen (ErasesStep.field .stringW)
    |>.andThen (ErasesStep.structsW (JoinGroupRequestProtocol11.erasesW version {})) : ErasesStep _ _) t
theorem JoinGroupRequest.spends (version : Int16) (t : JoinGroupRequest) : Spends (JoinGroupRequest.decodeW version t) 23 1 :=
  (((SpendsStep.field .string)
    |>.andThen (SpendsStep.field .int32)
    |>.andThen (SpendsStep.onlyIf (fun _ => SpendsStep.field .int32))
    |>.andThen (SpendsStep.field .string)
    |>.andThen (SpendsStep.onlyIf (fun _ => SpendsStep.field .string))
    |>.andThen (SpendsStep.field .string)
    |>.andThen (SpendsStep.structs ((JoinGroupRequestProtocol11.spends version {}).mono (by decide) (Nat.le_refl _))) : SpendsStep _ _) t).mono (by decide) (by decide)
theorem JoinGroupRequest.spends0 (version : Int16) (t : JoinGroupRequest) : Spends (JoinGroupRequest.decodeW version t) 0 1 :=
  (JoinGroupRequest.spends version t).mono (Nat.zero_le _) (Nat.le_refl _)

/-- message/messages.gen.go:4261-4278 `JoinGroupResponseMember11.Decode`, with the steps it takes -/
def JoinGroupResponseMember11.decodeW (version : Int16) : JoinGroupResponseMember11 → ADec JoinGroupResponseMember11 :=
    ADec.field WDec.string (fun t x => { t with MemberId := x }) ;>>
    ADec.onlyIf (version ≥ 5) (ADec.field WDec.string (fun t x => { t with GroupInstanceId := x })) ;>>
    ADec.field WDec.bytes (fun t x => { t with Metadata := x })
theorem JoinGroupResponseMember11.erasesW (version : Int16) (t : JoinGroupResponseMember11) : Erases (JoinGroupResponseMember11.decodeW version t) (JoinGroupResponseMember11.decode version t) :=
  ((ErasesStep.field .stringW)
    |>.andThen (ErasesStep.onlyIf (ErasesStep.field .stringW))
    |>.andThen (ErasesStep.field (.read _)) : ErasesStep _ _) t
theorem JoinGroupResponseMember11.spends (version : Int16) (t : JoinGroupResponseMember11) : Spends (JoinGroupResponseMember11.decodeW version t) 10 1 :=
  (((SpendsStep.field .string)
    |>.andThen (SpendsStep.onlyIf (fun _ => SpendsStep.field .string))
    |>.andThen (SpendsStep.field .bytes) : SpendsStep _ _) t).mono (by decide) (by decide)
theorem JoinGroupResponseMember11.spends0 (version : Int16) (t : JoinGroupResponseMember11) : Spends (JoinGroupResponseMember11.decodeW version t) 0 1 :=
  (JoinGroupResponseMember11.spends version t).mono (Nat.zero_le _) (Nat.le_refl _)

/-- message/messages.gen.go:4190-4232 `JoinGroupResponse.Decode`, with the steps it takes -/
def JoinGroupResponse.decodeW (version : Int16) : JoinGroupResponse → ADec JoinGroupResponse :=
    ADec.onlyIf (version ≥ 2) (ADec.field WDec.int32 (fun t x => { t with ThrottleTimeMs := x })) ;>>
    ADec.field WDec.int16 (fun t x => { t with ErrorCode := x }) ;>>
    ADec.field WDec.int32 (fun t x => { t with GenerationId := x }) ;>>
    ADec.field WDec.string (fun t x => { t with ProtocolName := x }) ;>>
    ADec.field WDec.string (fun t x => { t with Leader := x }) ;>>
    ADec.field WDec.string (fun t x => { t with MemberId := x }) ;>>
    WDec.fieldStructs (JoinGroupResponseMember11.decodeW version {}) (·.Members) (fun t x => { t with Members := x })
theorem JoinGroupResponse.erasesW (version : Int16) (t : JoinGroupResponse) : Erases (JoinGroupResponse.decodeW version t) (JoinGroupResponse.decode version t) :=
  ((ErasesStep.onlyIf (ErasesStep.field (.read _)))
    |>.andThen (ErasesStep.field (.read _))
    |>.andThen (ErasesStep.field (.read _))
    |>.andThen (ErasesStep.field .stringW)
    |>.andThen (ErasesStep.field .stringW)
    |>.andThen (ErasesStep.field .stringW)
    |>.andThen (ErasesStep.structsW (JoinGroupResponseMember11.erasesW version {})) : ErasesStep _ _) t
theorem JoinGroupResponse.spends (version : Int16) (t : JoinGroupResponse) : Spends (JoinGroupResponse.decodeW version t) 26 1 :=
  (((SpendsStep.onlyIf (fun _ => SpendsStep.field .int32))
    |>.andThen (SpendsStep.field .int16)
    |>.andThen (SpendsStep.field .int32)
    |>.andThen (SpendsStep.field .string)
    |>.andThen (SpendsStep.field .string)
    |>.andThen (SpendsStep.field .string)
    |>.andThen (SpendsStep.structs ((JoinGroupResponseMember11.spends version {}).mono (by decide) (Nat.le_refl _))) : SpendsStep _ _) t).mono (by decide) (by decide)
theorem JoinGroupResponse.spends0 (version : Int16) (t : JoinGroupResponse) : Spends (JoinGroupResponse.decodeW version t) 0 1 :=
  (JoinGroupResponse.spends version t).mono (Nat.zero_le _) (Nat.le_refl _)

/-- The structures of the JoinGroup messages. -/
def workJoinGroup : List (Σ M : MsgType, Int16 → M.T → ADec M.T) :=
  [⟨JoinGroupRequest.type, JoinGroupRequest.decodeW⟩,
   ⟨JoinGroupRequestProtocol11.type, JoinGroupRequestProtocol11.decodeW⟩,
   ⟨JoinGroupResponse.type, JoinGroupResponse.decodeW⟩,
   ⟨JoinGroupResponseMember11.type, JoinGroupResponseMember11.decodeW⟩]
theorem workJoinGroup_erases : ∀ p ∈ workJoinGroup, ∀ v t, Erases (p.2 v t) (p.1.decode v t) := by
  unfold workJoinGroup
  simp only [List.forall_mem_cons]
  exact ⟨JoinGroupRequest.erasesW, JoinGroupRequestProtocol11.erasesW, JoinGroupResponse.erasesW, JoinGroupResponseMember11.erasesW, fun _ h => absurd h (by simp)⟩
theorem workJoinGroup_spends : ∀ p ∈ workJoinGroup, ∀ v t, Spends (p.2 v t) 0 1 := by
  unfold workJoinGroup
  simp only [List.forall_mem_cons]
  exact ⟨JoinGroupRequest.spends0, JoinGroupRequestProtocol11.spends0, JoinGroupResponse.spends0, JoinGroupResponseMember11.spends0, fun _ h => absurd h (by simp)⟩

end Kafka.Msg
