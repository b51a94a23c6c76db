import Verif.Message.Work
import Verif.Gen.Model.UpdateMetadata
/-!
Generated by tools/gen_messages.py: steps taken by decoding the UpdateMetadata messages.
-/
namespace Kafka.Msg

/-- message/messages.gen.go:3091-3134 `UpdateMetadataPartitionState6.Decode`, with the steps it takes -/
def UpdateMetadataPartitionState6.decodeW (version : Int16) : UpdateMetadataPartitionState6 → ADec UpdateMetadataPartitionState6 :=
    ADec.onlyIf (version ≥ 0 ∧ version ≤ 4) (ADec.field WDec.string (fun t x => { t with TopicName := x })) ;>>
    ADec.field WDec.int32 (fun t x => { t with PartitionIndex := x }) ;>>
    ADec.field WDec.int32 (fun t x => { t with ControllerEpoch := x }) ;>>
    ADec.field WDec.int32 (fun t x => { t with Leader := x }) ;>>
    ADec.field WDec.int32 (fun t x => { t with LeaderEpoch := x }) ;>>
    ADec.field WDec.int32Array (fun t x => { t with Isr := x }) ;>>
    ADec.field WDec.int32 (fun t x => { t with ZkVersion := x }) ;>>
    ADec.field WDec.int32Array (fun t x => { t with Replicas := x }) ;>>
    ADec.onlyIf (version ≥ 4) (ADec.field WDec.int32Array (fun t x => { t with OfflineReplicas := x }))
theorem UpdateMetadataPartitionState6.erasesW (version : Int16) (t : UpdateMetadataPartitionState6) : Erases (UpdateMetadataPartitionState6.decodeW version t) (UpdateMetadataPartitionState6.decode version t) :=
  ((ErasesStep.onlyIf (ErasesStep.field .stringW))
    |>.andThen (ErasesStep.field (.read _))
    |>.andThen (ErasesStep.field (.read _))
    |>.andThen (ErasesStep.field (.read _))
    |>.andThen (ErasesStep.field (.read _))
    |>.andThen (ErasesStep.field (.arrayOfW (.read _)))
    |>.andThen (ErasesStep.field (.read _))
    |>.andThen (ErasesStep.field (.arrayOfW (.read _)))
    |>.andThen (ErasesStep.onlyIf (ErasesStep.field (.arrayOfW (.read _)))) : ErasesStep _ _) t
theorem UpdateMetadataPartitionState6.spends (version : Int16) (t : UpdateMetadataPartitionState6) : Spends (UpdateMetadataPartitionState6.decodeW version t) 49 1 :=
  (((SpendsStep.onlyIf (fun _ => SpendsStep.field .string))
    |>.andThen (SpendsStep.field .int32)
    |>.andThen (SpendsStep.field .int32)
    |>.andThen (SpendsStep.field .int32)
    |>.andThen (SpendsStep.field .int32)
    |>.andThen (SpendsStep.field .int32Array)
    |>.andThen (SpendsStep.field .int32)
    |>.andThen (SpendsStep.field .int32Array)
    |>.andThen (SpendsStep.onlyIf (fun _ => SpendsStep.field .int32Array)) : SpendsStep _ _) t).mono (by decide) (by decide)
theorem UpdateMetadataPartitionState6.spends0 (version : Int16) (t : UpdateMetadataPartitionState6) : Spends (UpdateMetadataPartitionState6.decodeW version t) 0 1 :=
  (UpdateMetadataPartitionState6.spends version t).mono (Nat.zero_le _) (Nat.le_refl _)

/-- message/messages.gen.go:2850-2874 `UpdateMetadataTopicState6.Decode`, with the steps it takes -/
def UpdateMetadataTopicState6.decodeW (version : Int16) : UpdateMetadataTopicState6 → ADec UpdateMetadataTopicState6 :=
    ADec.onlyIf (version ≥ 5) (ADec.field WDec.string (fun t x => { t with TopicName := x })) ;>>
    ADec.onlyIf (version ≥ 5) (WDec.fieldStructs (UpdateMetadataPartitionState6.decodeW version {}) (·.PartitionStates) (fun t x => { t with PartitionStates := x }))
theorem UpdateMetadataTopicState6.erasesW (version : Int16) (t : UpdateMetadataTopicState6) : Erases (UpdateMetadataTopicState6.decodeW version t) (UpdateMetadataTopicState6.decode version t) :=
  ((ErasesStep.onlyIf (ErasesStep.field .stringW))
    |>.andThen (ErasesStep.onlyIf (ErasesStep.structsW (UpdateMetadataPartitionState6.erasesW version {}))) : ErasesStep _ _) t
theorem UpdateMetadataTopicState6.spends (version : Int16) (t : UpdateMetadataTopicState6) (h : version ≥ 5) : Spends (UpdateMetadataTopicState6.decodeW version t) 3 1 :=
  (((SpendsStep.present h (SpendsStep.field .string))
    |>.andThen (SpendsStep.onlyIf (fun _ => SpendsStep.structs ((UpdateMetadataPartitionState6.spends version {}).mono (by decide) (Nat.le_refl _)))) : SpendsStep _ _) t).mono (by decide) (by decide)
theorem UpdateMetadataTopicState6.spends0 (version : Int16) (t : UpdateMetadataTopicState6) : Spends (UpdateMetadataTopicState6.decodeW version t) 0 1 :=
  (((SpendsStep.onlyIf (fun _ => SpendsStep.field .string))
    |>.andThen (SpendsStep.onlyIf (fun _ => SpendsStep.structs ((UpdateMetadataPartitionState6.spends version {}).mono (by decide) (Nat.le_refl _)))) : SpendsStep _ _) t).mono (by decide) (by decide)

/-- message/messages.gen.go:3013-3040 `UpdateMetadataEndpoint6.Decode`, with the steps it takes -/
def UpdateMetadataEndpoint6.decodeW (version : Int16) : UpdateMetadataEndpoint6 → ADec UpdateMetadataEndpoint6 :=
    ADec.onlyIf (version ≥ 1) (ADec.field WDec.int32 (fun t x => { t with Port := x })) ;>>
    ADec.onlyIf (version ≥ 1) (ADec.field WDec.string (fun t x => { t with Host := x })) ;>>
    ADec.onlyIf (version ≥ 3) (ADec.field WDec.string (fun t x => { t with Listener := x })) ;>>
    ADec.onlyIf (version ≥ 1) (ADec.field WDec.int16 (fun t x => { t with SecurityProtocol := x }))
theorem UpdateMetadataEndpoint6.erasesW (version : Int16) (t : UpdateMetadataEndpoint6) : Erases (UpdateMetadataEndpoint6.decodeW version t) (UpdateMetadataEndpoint6.decode version t) :=
  ((ErasesStep.onlyIf (ErasesStep.field (.read _)))
    |>.andThen (ErasesStep.onlyIf (ErasesStep.field .stringW))
    |>.andThen (ErasesStep.onlyIf (ErasesStep.field .stringW))
    |>.andThen (ErasesStep.onlyIf (ErasesStep.field (.read _))) : ErasesStep _ _) t
theorem UpdateMetadataEndpoint6.spends (version : Int16) (t : UpdateMetadataEndpoint6) (h : version ≥ 1) : Spends (UpdateMetadataEndpoint6.decodeW version t) 7 1 :=
  (((SpendsStep.present h (SpendsStep.field .int32))
    |>.andThen (SpendsStep.onlyIf (fun _ => SpendsStep.field .string))
    |>.andThen (SpendsStep.onlyIf (fun _ => SpendsStep.field .string))
    |>.andThen (SpendsStep.onlyIf (fun _ => SpendsStep.field .int16)) : SpendsStep _ _) t).mono (by decide) (by decide)
theorem UpdateMetadataEndpoint6.spends0 (version : Int16) (t : UpdateMetadataEndpoint6) : Spends (UpdateMetadataEndpoint6.decodeW version t) 0 1 :=
  (((SpendsStep.onlyIf (fun _ => SpendsStep.field .int32))
    |>.andThen (SpendsStep.onlyIf (fun _ => SpendsStep.field .string))
    |>.andThen (SpendsStep.onlyIf (fun _ => SpendsStep.field .string))
    |>.andThen (SpendsStep.onlyIf (fun _ => SpendsStep.field .int16)) : SpendsStep _ _) t).mono (by decide) (by decide)

/-- message/messages.gen.go:2929-2969 `UpdateMetadataBroker6.Decode`, with the steps it takes -/
def UpdateMetadataBroker6.decodeW (version : Int16) : UpdateMetadataBroker6 → ADec UpdateMetadataBroker6 :=
    ADec.field WDec.int32 (fun t x => { t with Id := x }) ;>>
    ADec.onlyIf (version ≥ 0 ∧ version ≤ 0) (ADec.field WDec.string (fun t x => { t with V0Host := x })) ;>>
    ADec.onlyIf (version ≥ 0 ∧ version ≤ 0) (ADec.field WDec.int32 (fun t x => { t with V0Port := x })) ;>>
    ADec.onlyIf (version ≥ 1) (WDec.fieldStructs (UpdateMetadataEndpoint6.decodeW version {}) (·.Endpoints) (fun t x => { t with Endpoints := x })) ;>>
    ADec.onlyIf (version ≥ 2) (ADec.field WDec.string (fun t x => { t with Rack := x }))
theorem UpdateMetadataBroker6.erasesW (version : Int16) (t : UpdateMetadataBroker6) : Erases (UpdateMetadataBroker6.decodeW version t) (UpdateMetadataBroker6.decode version t) :=
  ((ErasesStep.field (.read _))
    |>.andThen (ErasesStep.onlyIf (ErasesStep.field .stringW))
    |>.andThen (ErasesStep.onlyIf (ErasesStep.field (.read _)))
    |>.andThen (ErasesStep.onlyIf (ErasesStep.structsW (UpdateMetadataEndpoint6.erasesW version {})))
    |>.andThen (ErasesStep.onlyIf (ErasesStep.field .stringW)) : ErasesStep _ _) t
theorem UpdateMetadataBroker6.spends (version : Int16) (t : UpdateMetadataBroker6) : Spends (UpdateMetadataBroker6.decodeW version t) 7 1 :=
  (((SpendsStep.field .int32)
    |>.andThen (SpendsStep.onlyIf (fun _ => SpendsStep.field .string))
    |>.andThen (SpendsStep.onlyIf (fun _ => SpendsStep.field .int32))
    |>.andThen (SpendsStep.onlyIf (fun h => SpendsStep.structs ((UpdateMetadataEndpoint6.spends version {} h).mono (by decide) (Nat.le_refl _))))
    |>.andThen (SpendsStep.onlyIf (fun _ => SpendsStep.field .string)) : SpendsStep _ _) t).mono (by decide) (by decide)
theorem UpdateMetadataBroker6.spends0 (version : Int16) (t : UpdateMetadataBroker6) : Spends (UpdateMetadataBroker6.decodeW version t) 0 1 :=
  (UpdateMetadataBroker6.spends version t).mono (Nat.zero_le _) (Nat.le_refl _)

/-- message/messages.gen.go:2752-2812 `UpdateMetadataRequest.Decode`, with the steps it takes -/
def UpdateMetadataRequest.decodeW (version : Int16) : UpdateMetadataRequest → ADec UpdateMetadataRequest :=
    ADec.field WDec.int32 (fun t x => { t with ControllerId := x }) ;>>
    ADec.field WDec.int32 (fun t x => { t with ControllerEpoch := x }) ;>>
    ADec.onlyIf (version ≥ 5) (ADec.field WDec.int64 (fun t x => { t with BrokerEpoch := x })) ;>>
    ADec.onlyIf (version ≥ 0 ∧ version ≤ 4) (WDec.fieldStructs (UpdateMetadataPartitionState6.decodeW version {}) (·.UngroupedPartitionStates) (fun t x => { t with UngroupedPartitionStates := x })) ;>>
    ADec.onlyIf (version ≥ 5) (WDec.fieldStructs (UpdateMetadataTopicState6.decodeW version {}) (·.TopicStates) (fun t x => { t with TopicStates := x })) ;>>
    WDec.fieldStructs (UpdateMetadataBroker6.decodeW version {}) (·.LiveBrokers) (fun t x => { t with LiveBrokers := x })
theorem UpdateMetadataRequest.erasesW (version : Int16) (t : UpdateMetadataRequest) : Erases (UpdateMetadataRequest.decodeW version t) (UpdateMetadataRequest.decode version t) :=
  ((ErasesStep.field (.read _))
    |>.andThen (ErasesStep.field (.read _))
    |>.andThen (ErasesStep.onlyIf (ErasesStep.field (.read _)))
    |>.andThen (ErasesStep.onlyIf (ErasesStep.structsW (UpdateMetadataPartitionState6.erasesW version {})))
    |>.andThen (ErasesStep.onlyIf (ErasesStep.structsW (UpdateMetadataTopicState6.erasesW version {})))
    |>.andThen (ErasesStep.structsW (UpdateMetadataBroker6.erasesW version {})) : ErasesStep _ _) t
theorem UpdateMetadataRequest.spends (version : Int16) (t : UpdateMetadataRequest) : Spends (UpdateMetadataRequest.decodeW version t) 21 1 :=
  (((SpendsStep.field .int32)
    |>.andThen (SpendsStep.field .int32)
    |>.andThen (SpendsStep.onlyIf (fun _ => SpendsStep.field .int64))
    |>.andThen (SpendsStep.onlyIf (fun _ => SpendsStep.structs ((UpdateMetadataPartitionState6.spends version {}).mono (by decide) (Nat.le_refl _))))
    |>.andThen (SpendsStep.onlyIf (fun h => SpendsStep.structs ((UpdateMetadataTopicState6.spends version {} h).mono (by decide) (Nat.le_refl _))))
    |>.andThen (SpendsStep.structs ((UpdateMetadataBroker6.spends version {}).mono (by decide) (Nat.le_refl _))) : SpendsStep _ _) t).mono (by decide) (by decide)
theorem UpdateMetadataRequest.spends0 (version : Int16) (t : UpdateMetadataRequest) : Spends (UpdateMetadataRequest.decodeW version t) 0 1 :=
  (UpdateMetadataRequest.spends version t).mono (Nat.zero_le _) (Nat.le_refl _)

/-- message/messages.gen.go:3154-3161 `UpdateMetadataResponse.Decode`, with the steps it takes -/
def UpdateMetadataResponse.decodeW (_version : Int16) : UpdateMetadataResponse → ADec UpdateMetadataResponse :=
    ADec.field WDec.int16 (fun t x => { t with ErrorCode := x })
theorem UpdateMetadataResponse.erasesW (version : Int16) (t : UpdateMetadataResponse) : Erases (UpdateMetadataResponse.decodeW version t) (UpdateMetadataResponse.decode version t) :=
  (ErasesStep.field (.read _) : ErasesStep _ _) t
theorem UpdateMetadataResponse.spends (version : Int16) (t : UpdateMetadataResponse) : Spends (UpdateMetadataResponse.decodeW version t) 3 1 :=
  ((SpendsStep.field .int16 : SpendsStep _ _) t).mono (by decide) (by decide)
theorem UpdateMetadataResponse.spends0 (version : Int16) (t : UpdateMetadataResponse) : Spends (UpdateMetadataResponse.decodeW version t) 0 1 :=
  (UpdateMetadataResponse.spends version t).mono (Nat.zero_le _) (Nat.le_refl _)

/-- The structures of the UpdateMetadata messages. -/
def workUpdateMetadata : List (Σ M : MsgType, Int16 → M.T → ADec M.T) :=
  [⟨UpdateMetadataRequest.type, UpdateMetadataRequest.decodeW⟩,
   ⟨UpdateMetadataTopicState6.type, UpdateMetadataTopicState6.decodeW⟩,
   ⟨UpdateMetadataBroker6.type, UpdateMetadataBroker6.decodeW⟩,
   ⟨UpdateMetadataEndpoint6.type, UpdateMetadataEndpoint6.decodeW⟩,
   ⟨UpdateMetadataPartitionState6.type, UpdateMetadataPartitionState6.decodeW⟩,
   ⟨UpdateMetadataResponse.type, UpdateMetadataResponse.decodeW⟩]
theorem workUpdateMetadata_erases : ∀ p ∈ workUpdateMetadata, ∀ v t, Erases (p.2 v t) (p.1.decode v t) := by
  unfold workUpdateMetadata
  simp only [List.forall_mem_cons]
  exact ⟨UpdateMetadataRequest.erasesW, UpdateMetadataTopicState6.erasesW, UpdateMetadataBroker6.erasesW, UpdateMetadataEndpoint6.erasesW, UpdateMetadataPartitionState6.erasesW, UpdateMetadataResponse.erasesW, fun _ h => absurd h (by simp)⟩
theorem workUpdateMetadata_spends : ∀ p ∈ workUpdateMetadata, ∀ v t, Spends (p.2 v t) 0 1 := by
  unfold workUpdateMetadata
  simp only [List.forall_mem_cons]
  exact ⟨UpdateMetadataRequest.spends0, UpdateMetadataTopicState6.spends0, UpdateMetadataBroker6.spends0, UpdateMetadataEndpoint6.spends0, UpdateMetadataPartitionState6.spends0, UpdateMetadataResponse.spends0, fun _ h => absurd h (by simp)⟩

end Kafka.Msg
