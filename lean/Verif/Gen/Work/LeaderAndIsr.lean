import Verif.Message.Work
import Verif.Gen.Model.LeaderAndIsr
/-!
Generated by tools/gen_messages.py: steps taken by decoding the LeaderAndIsr messages.
-/
namespace Kafka.Msg

/-- message/messages.gen.go:2240-2295 `LeaderAndIsrPartitionState4.Decode`, with the steps it takes -/
def LeaderAndIsrPartitionState4.decodeW (version : Int16) : LeaderAndIsrPartitionState4 → ADec LeaderAndIsrPartitionState4 :=
    ADec.onlyIf (version ≥ 0 ∧ version ≤ 1) (ADec.field WDec.string (fun t x => { t with TopicName := x })) ;>>
    ADec.field WDec.int32 (fun t x => { t with PartitionIndex := x }) ;>>
    ADec.field WDec.int32 (fun t x => { t with ControllerEpoch := x }) ;>>
    ADec.field WDec.int32 (fun t x => { t with Leader := x }) ;>>
    ADec.field WDec.int32 (fun t x => { t with LeaderEpoch := x }) ;>>
    ADec.field WDec.int32Array (fun t x => { t with Isr := x }) ;>>
    ADec.field WDec.int32 (fun t x => { t with ZkVersion := x }) ;>>
    ADec.field WDec.int32Array (fun t x => { t with Replicas := x }) ;>>
    ADec.onlyIf (version ≥ 3) (ADec.field WDec.int32Array (fun t x => { t with AddingReplicas := x })) ;>>
    ADec.onlyIf (version ≥ 3) (ADec.field WDec.int32Array (fun t x => { t with RemovingReplicas := x })) ;>>
    ADec.onlyIf (version ≥ 1) (ADec.field WDec.bool (fun t x => { t with IsNew := x }))
theorem LeaderAndIsrPartitionState4.erasesW (version : Int16) (t : LeaderAndIsrPartitionState4) : Erases (LeaderAndIsrPartitionState4.decodeW version t) (LeaderAndIsrPartitionState4.decode version t) :=
  ((ErasesStep.onlyIf (ErasesStep.field .stringW))
    |>.andThen (ErasesStep.field (.read _))
    |>.andThen (ErasesStep.field (.read _))
    |>.andThen (ErasesStep.field (.read _))
    |>.andThen (ErasesStep.field (.read _))
    |>.andThen (ErasesStep.field (.arrayOfW (.read _)))
    |>.andThen (ErasesStep.field (.read _))
    |>.andThen (ErasesStep.field (.arrayOfW (.read _)))
    |>.andThen (ErasesStep.onlyIf (ErasesStep.field (.arrayOfW (.read _))))
    |>.andThen (ErasesStep.onlyIf (ErasesStep.field (.arrayOfW (.read _))))
    |>.andThen (ErasesStep.onlyIf (ErasesStep.field (.read _))) : ErasesStep _ _) t
theorem LeaderAndIsrPartitionState4.spends (version : Int16) (t : LeaderAndIsrPartitionState4) : Spends (LeaderAndIsrPartitionState4.decodeW version t) 49 1 :=
  (((SpendsStep.onlyIf (fun _ => SpendsStep.field .string))
    |>.andThen (SpendsStep.field .int32)
    |>.andThen (SpendsStep.field .int32)
    |>.andThen (SpendsStep.field .int32)
    |>.andThen (SpendsStep.field .int32)
    |>.andThen (SpendsStep.field .int32Array)
    |>.andThen (SpendsStep.field .int32)
    |>.andThen (SpendsStep.field .int32Array)
    |>.andThen (SpendsStep.onlyIf (fun _ => SpendsStep.field .int32Array))
    |>.andThen (SpendsStep.onlyIf (fun _ => SpendsStep.field .int32Array))
    |>.andThen (SpendsStep.onlyIf (fun _ => SpendsStep.field .bool)) : SpendsStep _ _) t).mono (by decide) (by decide)
theorem LeaderAndIsrPartitionState4.spends0 (version : Int16) (t : LeaderAndIsrPartitionState4) : Spends (LeaderAndIsrPartitionState4.decodeW version t) 0 1 :=
  (LeaderAndIsrPartitionState4.spends version t).mono (Nat.zero_le _) (Nat.le_refl _)

/-- message/messages.gen.go:2111-2135 `LeaderAndIsrTopicState4.Decode`, with the steps it takes -/
def LeaderAndIsrTopicState4.decodeW (version : Int16) : LeaderAndIsrTopicState4 → ADec LeaderAndIsrTopicState4 :=
    ADec.onlyIf (version ≥ 2) (ADec.field WDec.string (fun t x => { t with TopicName := x })) ;>>
    ADec.onlyIf (version ≥ 2) (WDec.fieldStructs (LeaderAndIsrPartitionState4.decodeW version {}) (·.PartitionStates) (fun t x => { t with PartitionStates := x }))
theorem LeaderAndIsrTopicState4.erasesW (version : Int16) (t : LeaderAndIsrTopicState4) : Erases (LeaderAndIsrTopicState4.decodeW version t) (LeaderAndIsrTopicState4.decode version t) :=
  ((ErasesStep.onlyIf (ErasesStep.field .stringW))
    |>.andThen (ErasesStep.onlyIf (ErasesStep.structsW (LeaderAndIsrPartitionState4.erasesW version {}))) : ErasesStep _ _) t
theorem LeaderAndIsrTopicState4.spends (version : Int16) (t : LeaderAndIsrTopicState4) (h : version ≥ 2) : Spends (LeaderAndIsrTopicState4.decodeW version t) 3 1 :=
  (((SpendsStep.present h (SpendsStep.field .string))
    |>.andThen (SpendsStep.onlyIf (fun _ => SpendsStep.structs ((LeaderAndIsrPartitionState4.spends version {}).mono (by decide) (Nat.le_refl _)))) : SpendsStep _ _) t).mono (by decide) (by decide)
theorem LeaderAndIsrTopicState4.spends0 (version : Int16) (t : LeaderAndIsrTopicState4) : Spends (LeaderAndIsrTopicState4.decodeW version t) 0 1 :=
  (((SpendsStep.onlyIf (fun _ => SpendsStep.field .string))
    |>.andThen (SpendsStep.onlyIf (fun _ => SpendsStep.structs ((LeaderAndIsrPartitionState4.spends version {}).mono (by decide) (Nat.le_refl _)))) : SpendsStep _ _) t).mono (by decide) (by decide)

/-- message/messages.gen.go:2160-2175 `LeaderAndIsrLiveLeader4.Decode`, with the steps it takes -/
def LeaderAndIsrLiveLeader4.decodeW (_version : Int16) : LeaderAndIsrLiveLeader4 → ADec LeaderAndIsrLiveLeader4 :=
    ADec.field WDec.int32 (fun t x => { t with BrokerId := x }) ;>>
    ADec.field WDec.string (fun t x => { t with HostName := x }) ;>>
    ADec.field WDec.int32 (fun t x => { t with Port := x })
theorem LeaderAndIsrLiveLeader4.erasesW (version : Int16) (t : LeaderAndIsrLiveLeader4) : Erases (LeaderAndIsrLiveLeader4.decodeW version t) (LeaderAndIsrLiveLeader4.decode version t) :=
  ((ErasesStep.field (.read _))
    |>.andThen (ErasesStep.field .stringW)
    |>.andThen (ErasesStep.field (.read _)) : ErasesStep _ _) t
theorem LeaderAndIsrLiveLeader4.spends (version : Int16) (t : LeaderAndIsrLiveLeader4) : Spends (LeaderAndIsrLiveLeader4.decodeW version t) 17 1 :=
  (((SpendsStep.field .int32)
    |>.andThen (SpendsStep.field .string)
    |>.andThen (SpendsStep.field .int32) : SpendsStep _ _) t).mono (by decide) (by decide)
theorem LeaderAndIsrLiveLeader4.spends0 (version : Int16) (t : LeaderAndIsrLiveLeader4) : Spends (LeaderAndIsrLiveLeader4.decodeW version t) 0 1 :=
  (LeaderAndIsrLiveLeader4.spends version t).mono (Nat.zero_le _) (Nat.le_refl _)

/-- message/messages.gen.go:2013-2073 `LeaderAndIsrRequest.Decode`, with the steps it takes -/
def LeaderAndIsrRequest.decodeW (version : Int16) : LeaderAndIsrRequest → ADec LeaderAndIsrRequest :=
    ADec.field WDec.int32 (fun t x => { t with ControllerId := x }) ;>>
    ADec.field WDec.int32 (fun t x => { t with ControllerEpoch := x }) ;>>
    ADec.onlyIf (version ≥ 2) (ADec.field WDec.int64 (fun t x => { t with BrokerEpoch := x })) ;>>
    ADec.onlyIf (version ≥ 0 ∧ version ≤ 1) (WDec.fieldStructs (LeaderAndIsrPartitionState4.decodeW version {}) (·.UngroupedPartitionStates) (fun t x => { t with UngroupedPartitionStates := x })) ;>>
    ADec.onlyIf (version ≥ 2) (WDec.fieldStructs (LeaderAndIsrTopicState4.decodeW version {}) (·.TopicStates) (fun t x => { t with TopicStates := x })) ;>>
    WDec.fieldStructs (LeaderAndIsrLiveLeader4.decodeW version {}) (·.LiveLeaders) (fun t x => { t with LiveLeaders := x })
theorem LeaderAndIsrRequest.erasesW (version : Int16) (t : LeaderAndIsrRequest) : Erases (LeaderAndIsrRequest.decodeW version t) (LeaderAndIsrRequest.decode version t) :=
  ((ErasesStep.field (.read _))
    |>.andThen (ErasesStep.field (.read _))
    |>.andThen (ErasesStep.onlyIf (ErasesStep.field (.read _)))
    |>.andThen (ErasesStep.onlyIf (ErasesStep.structsW (LeaderAndIsrPartitionState4.erasesW version {})))
    |>.andThen (ErasesStep.onlyIf (ErasesStep.structsW (LeaderAndIsrTopicState4.erasesW version {})))
    |>.andThen (ErasesStep.structsW (LeaderAndIsrLiveLeader4.erasesW version {})) : ErasesStep _ _) t
theorem LeaderAndIsrRequest.spends (version : Int16) (t : LeaderAndIsrRequest) : Spends (LeaderAndIsrRequest.decodeW version t) 21 1 :=
  (((SpendsStep.field .int32)
    |>.andThen (SpendsStep.field .int32)
    |>.andThen (SpendsStep.onlyIf (fun _ => SpendsStep.field .int64))
    |>.andThen (SpendsStep.onlyIf (fun _ => SpendsStep.structs ((LeaderAndIsrPartitionState4.spends version {}).mono (by decide) (Nat.le_refl _))))
    |>.andThen (SpendsStep.onlyIf (fun h => SpendsStep.structs ((LeaderAndIsrTopicState4.spends version {} h).mono (by decide) (Nat.le_refl _))))
    |>.andThen (SpendsStep.structs ((LeaderAndIsrLiveLeader4.spends version {}).mono (by decide) (Nat.le_refl _))) : SpendsStep _ _) t).mono (by decide) (by decide)
theorem LeaderAndIsrRequest.spends0 (version : Int16) (t : LeaderAndIsrRequest) : Spends (LeaderAndIsrRequest.decodeW version t) 0 1 :=
  (LeaderAndIsrRequest.spends version t).mono (Nat.zero_le _) (Nat.le_refl _)

/-- message/messages.gen.go:2371-2386 `LeaderAndIsrPartitionError4.Decode`, with the steps it takes -/
def LeaderAndIsrPartitionError4.decodeW (_version : Int16) : LeaderAndIsrPartitionError4 → ADec LeaderAndIsrPartitionError4 :=
    ADec.field WDec.string (fun t x => { t with TopicName := x }) ;>>
    ADec.field WDec.int32 (fun t x => { t with PartitionIndex := x }) ;>>
    ADec.field WDec.int16 (fun t x => { t with ErrorCode := x })
theorem LeaderAndIsrPartitionError4.erasesW (version : Int16) (t : LeaderAndIsrPartitionError4) : Erases (LeaderAndIsrPartitionError4.decodeW version t) (LeaderAndIsrPartitionError4.decode version t) :=
  ((ErasesStep.field .stringW)
    |>.andThen (ErasesStep.field (.read _))
    |>.andThen (ErasesStep.field (.read _)) : ErasesStep _ _) t
theorem LeaderAndIsrPartitionError4.spends (version : Int16) (t : LeaderAndIsrPartitionError4) : Spends (LeaderAndIsrPartitionError4.decodeW version t) 13 1 :=
  (((SpendsStep.field .string)
    |>.andThen (SpendsStep.field .int32)
    |>.andThen (SpendsStep.field .int16) : SpendsStep _ _) t).mono (by decide) (by decide)
theorem LeaderAndIsrPartitionError4.spends0 (version : Int16) (t : LeaderAndIsrPartitionError4) : Spends (LeaderAndIsrPartitionError4.decodeW version t) 0 1 :=
  (LeaderAndIsrPartitionError4.spends version t).mono (Nat.zero_le _) (Nat.le_refl _)

/-- message/messages.gen.go:2326-2346 `LeaderAndIsrResponse.Decode`, with the steps it takes -/
def LeaderAndIsrResponse.decodeW (version : Int16) : LeaderAndIsrResponse → ADec LeaderAndIsrResponse :=
    ADec.field WDec.int16 (fun t x => { t with ErrorCode := x }) ;>>
    WDec.fieldStructs (LeaderAndIsrPartitionError4.decodeW version {}) (·.PartitionErrors) (fun t x => { t with PartitionErrors := x })
theorem LeaderAndIsrResponse.erasesW (version : Int16) (t : LeaderAndIsrResponse) : Erases (LeaderAndIsrResponse.decodeW version t) (LeaderAndIsrResponse.decode version t) :=
  ((ErasesStep.field (.read _))
    |>.andThen (ErasesStep.structsW (LeaderAndIsrPartitionError4.erasesW version {})) : ErasesStep _ _) t
theorem LeaderAndIsrResponse.spends (version : Int16) (t : LeaderAndIsrResponse) : Spends (LeaderAndIsrResponse.decodeW version t) 10 1 :=
  (((SpendsStep.field .int16)
    |>.andThen (SpendsStep.structs ((LeaderAndIsrPartitionError4.spends version {}).mono (by decide) (Nat.le_refl _))) : SpendsStep _ _) t).mono (by decide) (by decide)
theorem LeaderAndIsrResponse.spends0 (version : Int16) (t : LeaderAndIsrResponse) : Spends (LeaderAndIsrResponse.decodeW version t) 0 1 :=
  (LeaderAndIsrResponse.spends version t).mono (Nat.zero_le _) (Nat.le_refl _)

/-- The structures of the LeaderAndIsr messages. -/
def workLeaderAndIsr : List (Σ M : MsgType, Int16 → M.T → ADec M.T) :=
  [⟨LeaderAndIsrRequest.type, LeaderAndIsrRequest.decodeW⟩,
   ⟨LeaderAndIsrTopicState4.type, LeaderAndIsrTopicState4.decodeW⟩,
   ⟨LeaderAndIsrLiveLeader4.type, LeaderAndIsrLiveLeader4.decodeW⟩,
   ⟨LeaderAndIsrPartitionState4.type, LeaderAndIsrPartitionState4.decodeW⟩,
   ⟨LeaderAndIsrResponse.type, LeaderAndIsrResponse.decodeW⟩,
   ⟨LeaderAndIsrPartitionError4.type, LeaderAndIsrPartitionError4.decodeW⟩]
theorem workLeaderAndIsr_erases : ∀ p ∈ workLeaderAndIsr, ∀ v t, Erases (p.2 v t) (p.1.decode v t) := by
  unfold workLeaderAndIsr
  simp only [List.forall_mem_cons]
  exact ⟨LeaderAndIsrRequest.erasesW, LeaderAndIsrTopicState4.erasesW, LeaderAndIsrLiveLeader4.erasesW, LeaderAndIsrPartitionState4.erasesW, LeaderAndIsrResponse.erasesW, LeaderAndIsrPartitionError4.erasesW, fun _ h => absurd h (by simp)⟩
theorem workLeaderAndIsr_spends : ∀ p ∈ workLeaderAndIsr, ∀ v t, Spends (p.2 v t) 0 1 := by
  unfold workLeaderAndIsr
  simp only [List.forall_mem_cons]
  exact ⟨LeaderAndIsrRequest.spends0, LeaderAndIsrTopicState4.spends0, LeaderAndIsrLiveLeader4.spends0, LeaderAndIsrPartitionState4.spends0, LeaderAndIsrResponse.spends0, LeaderAndIsrPartitionError4.spends0, fun _ h => absurd h (by simp)⟩

end Kafka.Msg
