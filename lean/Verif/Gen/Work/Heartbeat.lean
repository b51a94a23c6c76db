import Verif.Message.Work
import Verif.Gen.Model.Heartbeat
/-!
Generated by tools/gen_messages.py: steps taken by decoding the Heartbeat messages.
-/
namespace Kafka.Msg

/-- message/messages.gen.go:4311-4332 `HeartbeatRequest.Decode`, with the steps it takes -/
def HeartbeatRequest.decodeW (version : Int16) : HeartbeatRequest → ADec HeartbeatRequest :=
    ADec.field WDec.string (fun t x => { t with GroupId := x }) ;>>
    ADec.field WDec.int32 (fun t x => { t with GenerationId := x }) ;>>
    ADec.field WDec.string (fun t x => { t with MemberId := x }) ;>>
    ADec.onlyIf (version ≥ 3) (ADec.field WDec.string (fun t x => { t with GroupInstanceId := x }))
theorem HeartbeatRequest.erasesW (version : Int16) (t : HeartbeatRequest) : Erases (HeartbeatRequest.decodeW version t) (HeartbeatRequest.decode version t) :=
  ((ErasesStep.field .stringW)
    |>.andThen (ErasesStep.field (.read _))
    |>.andThen (ErasesStep.field .stringW)
    |>.andThen (ErasesStep.onlyIf (ErasesStep.field .stringW)) : ErasesStep _ _) t
theorem HeartbeatRequest.spends (version : Int16) (t : HeartbeatRequest) : Spends (HeartbeatRequest.decodeW version t) 13 1 :=
  (((SpendsStep.field .string)
    |>.andThen (SpendsStep.field .int32)
    |>.andThen (SpendsStep.field .string)
    |>.andThen (SpendsStep.onlyIf (fun _ => SpendsStep.field .string)) : SpendsStep _ _) t).mono (by decide) (by decide)
theorem HeartbeatRequest.spends0 (version : Int16) (t : HeartbeatRequest) : Spends (HeartbeatRequest.decodeW version t) 0 1 :=
  (HeartbeatRequest.spends version t).mono (Nat.zero_le _) (Nat.le_refl _)

/-- message/messages.gen.go:4359-4372 `HeartbeatResponse.Decode`, with the steps it takes -/
def HeartbeatResponse.decodeW (version : Int16) : HeartbeatResponse → ADec HeartbeatResponse :=
    ADec.onlyIf (version ≥ 1) (ADec.field WDec.int32 (fun t x => { t with ThrottleTimeMs := x })) ;>>
    ADec.field WDec.int16 (fun t x => { t with ErrorCode := x })
theorem HeartbeatResponse.erasesW (version : Int16) (t : HeartbeatResponse) : Erases (HeartbeatResponse.decodeW version t) (HeartbeatResponse.decode version t) :=
  ((ErasesStep.onlyIf (ErasesStep.field (.read _)))
    |>.andThen (ErasesStep.field (.read _)) : ErasesStep _ _) t
theorem HeartbeatResponse.spends (version : Int16) (t : HeartbeatResponse) : Spends (HeartbeatResponse.decodeW version t) 3 1 :=
  (((SpendsStep.onlyIf (fun _ => SpendsStep.field .int32))
    |>.andThen (SpendsStep.field .int16) : SpendsStep _ _) t).mono (by decide) (by decide)
theorem HeartbeatResponse.spends0 (version : Int16) (t : HeartbeatResponse) : Spends (HeartbeatResponse.decodeW version t) 0 1 :=
  (HeartbeatResponse.spends version t).mono (Nat.zero_le _) (Nat.le_refl _)

/-- The structures of the Heartbeat messages. -/
def workHeartbeat : List (Σ M : MsgType, Int16 → M.T → ADec M.T) :=
  [⟨HeartbeatRequest.type, HeartbeatRequest.decodeW⟩,
   ⟨HeartbeatResponse.type, HeartbeatResponse.decodeW⟩]
theorem workHeartbeat_erases : ∀ p ∈ workHeartbeat, ∀ v t, Erases (p.2 v t) (p.1.decode v t) := by
  unfold workHeartbeat
  simp only [List.forall_mem_cons]
  exact ⟨HeartbeatRequest.erasesW, HeartbeatResponse.erasesW, fun _ h => absurd h (by simp)⟩
theorem workHeartbeat_spends : ∀ p ∈ workHeartbeat, ∀ v t, Spends (p.2 v t) 0 1 := by
  unfold workHeartbeat
  simp only [List.forall_mem_cons]
  exact ⟨HeartbeatRequest.spends0, HeartbeatResponse.spends0, fun _ h => absurd h (by simp)⟩

end Kafka.Msg
