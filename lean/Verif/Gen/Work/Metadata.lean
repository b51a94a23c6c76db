import Verif.Message.Work
import Verif.Gen.Model.Metadata
/-!
Generated by tools/gen_messages.py: steps taken by decoding the Metadata messages.
-/
namespace Kafka.Msg

/-- message/messages.gen.go:1599-1606 `MetadataRequestTopic3.Decode`, with the steps it takes -/
def MetadataRequestTopic3.decodeW (_version : Int16) : MetadataRequestTopic3 → ADec MetadataRequestTopic3 :=
    ADec.field WDec.string (fun t x => { t with Name := x })
theorem MetadataRequestTopic3.erasesW (version : Int16) (t : MetadataRequestTopic3) : Erases (MetadataRequestTopic3.decodeW version t) (MetadataRequestTopic3.decode version t) :=
  (ErasesStep.field .stringW : ErasesStep _ _) t
theorem MetadataRequestTopic3.spends (version : Int16) (t : MetadataRequestTopic3) : Spends (MetadataRequestTopic3.decodeW version t) 3 1 :=
  ((SpendsStep.field .string : SpendsStep _ _) t).mono (by decide) (by decide)
theorem MetadataRequestTopic3.spends0 (version : Int16) (t : MetadataRequestTopic3) : Spends (MetadataRequestTopic3.decodeW version t) 0 1 :=
  (MetadataRequestTopic3.spends version t).mono (Nat.zero_le _) (Nat.le_refl _)

/-- message/messages.gen.go:1546-1580 `MetadataRequest.Decode`, with the steps it takes -/
def MetadataRequest.decodeW (version : Int16) : MetadataRequest → ADec MetadataRequest :=
    WDec.fieldStructs (MetadataRequestTopic3.decodeW version {}) (·.Topics) (fun t x => { t with Topics := x }) ;>>
    ADec.onlyIf (version ≥ 4) (ADec.field WDec.bool (fun t x => { t with AllowAutoTopicCreation := x })) ;>>
    ADec.onlyIf (version ≥ 8) (ADec.field WDec.bool (fun t x => { t with IncludeClusterAuthorizedOperations := x })) ;>>
    ADec.onlyIf (version ≥ 8) (ADec.field WDec.bool (fun t x => { t with IncludeTopicAuthorizedOperations := x }))
theorem MetadataRequest.erasesW (version : Int16) (t : MetadataRequest) : Erases (MetadataRequest.decodeW version t) (MetadataRequest.decode version t) :=
  ((ErasesStep.structsW (MetadataRequestTopic3.erasesW version {}))
    |>.andThen (ErasesStep.onlyIf (ErasesStep.field (.read _)))
    |>.andThen (ErasesStep.onlyIf (ErasesStep.field (.read _)))
    |>.andThen (ErasesStep.onlyIf (ErasesStep.field (.read _))) : ErasesStep _ _) t
theorem MetadataRequest.spends (version : Int16) (t : MetadataRequest) : Spends (MetadataRequest.decodeW version t) 7 1 :=
  (((SpendsStep.structs ((MetadataRequestTopic3.spends version {}).mono (by decide) (Nat.le_refl _)))
    |>.andThen (SpendsStep.onlyIf (fun _ => SpendsStep.field .bool))
    |>.andThen (SpendsStep.onlyIf (fun _ => SpendsStep.field .bool))
    |>.andThen (SpendsStep.onlyIf (fun _ => SpendsStep.field .bool)) : SpendsStep _ _) t).mono (by decide) (by decide)
theorem MetadataRequest.spends0 (version : Int16) (t : MetadataRequest) : Spends (MetadataRequest.decodeW version t) 0 1 :=
  (MetadataRequest.spends version t).mono (Nat.zero_le _) (Nat.le_refl _)

/-- message/messages.gen.go:1758-1779 `MetadataResponseBroker3.Decode`, with the steps it takes -/
def MetadataResponseBroker3.decodeW (version : Int16) : MetadataResponseBroker3 → ADec MetadataResponseBroker3 :=
    ADec.field WDec.int32 (fun t x => { t with NodeId := x }) ;>>
    ADec.field WDec.string (fun t x => { t with Host := x }) ;>>
    ADec.field WDec.int32 (fun t x => { t with Port := x }) ;>>
    ADec.onlyIf (version ≥ 1) (ADec.field WDec.string (fun t x => { t with Rack := x }))
theorem MetadataResponseBroker3.erasesW (version : Int16) (t : MetadataResponseBroker3) : Erases (MetadataResponseBroker3.decodeW version t) (MetadataResponseBroker3.decode version t) :=
  ((ErasesStep.field (.read _))
    |>.andThen (ErasesStep.field .stringW)
    |>.andThen (ErasesStep.field (.read _))
    |>.andThen (ErasesStep.onlyIf (ErasesStep.field .stringW)) : ErasesStep _ _) t
theorem MetadataResponseBroker3.spends (version : Int16) (t : MetadataResponseBroker3) : Spends (MetadataResponseBroker3.decodeW version t) 17 1 :=
  (((SpendsStep.field .int32)
    |>.andThen (SpendsStep.field .string)
    |>.andThen (SpendsStep.field .int32)
    |>.andThen (SpendsStep.onlyIf (fun _ => SpendsStep.field .string)) : SpendsStep _ _) t).mono (by decide) (by decide)
theorem MetadataResponseBroker3.spends0 (version : Int16) (t : MetadataResponseBroker3) : Spends (MetadataResponseBroker3.decodeW version t) 0 1 :=
  (MetadataResponseBroker3.spends version t).mono (Nat.zero_le _) (Nat.le_refl _)

/-- message/messages.gen.go:1907-1942 `MetadataResponsePartition3.Decode`, with the steps it takes -/
def MetadataResponsePartition3.decodeW (version : Int16) : MetadataResponsePartition3 → ADec MetadataResponsePartition3 :=
    ADec.field WDec.int16 (fun t x => { t with ErrorCode := x }) ;>>
    ADec.field WDec.int32 (fun t x => { t with PartitionIndex := x }) ;>>
    ADec.field WDec.int32 (fun t x => { t with LeaderId := x }) ;>>
    ADec.onlyIf (version ≥ 7) (ADec.field WDec.int32 (fun t x => { t with LeaderEpoch := x })) ;>>
    ADec.field WDec.int32Array (fun t x => { t with ReplicaNodes := x }) ;>>
    ADec.field WDec.int32Array (fun t x => { t with IsrNodes := x }) ;>>
    ADec.onlyIf (version ≥ 5) (ADec.field WDec.int32Array (fun t x => { t with OfflineReplicas := x }))
theorem MetadataResponsePartition3.erasesW (version : Int16) (t : MetadataResponsePartition3) : Erases (MetadataResponsePartition3.decodeW version t) (MetadataResponsePartition3.decode version t) :=
  ((ErasesStep.field (.read _))
    |>.andThen (ErasesStep.field (.read _))
    |>.andThen (ErasesStep.field (.read _))
    |>.andThen (ErasesStep.onlyIf (ErasesStep.field (.read _)))
    |>.andThen (ErasesStep.field (.arrayOfW (.read _)))
    |>.andThen (ErasesStep.field (.arrayOfW (.read _)))
    |>.andThen (ErasesStep.onlyIf (ErasesStep.field (.arrayOfW (.read _)))) : ErasesStep _ _) t
theorem MetadataResponsePartition3.spends (version : Int16) (t : MetadataResponsePartition3) : Spends (MetadataResponsePartition3.decodeW version t) 31 1 :=
  (((SpendsStep.field .int16)
    |>.andThen (SpendsStep.field .int32)
    |>.andThen (SpendsStep.field .int32)
    |>.andThen (SpendsStep.onlyIf (fun _ => SpendsStep.field .int32))
    |>.andThen (SpendsStep.field .int32Array)
    |>.andThen (SpendsStep.field .int32Array)
    |>.andThen (SpendsStep.onlyIf (fun _ => SpendsStep.field .int32Array)) : SpendsStep _ _) t).mono (by decide) (by decide)
theorem MetadataResponsePartition3.spends0 (version : Int16) (t : MetadataResponsePartition3) : Spends (MetadataResponsePartition3.decodeW version t) 0 1 :=
  (MetadataResponsePartition3.spends version t).mono (Nat.zero_le _) (Nat.le_refl _)

/-- message/messages.gen.go:1826-1862 `MetadataResponseTopic3.Decode`, with the steps it takes -/
def MetadataResponseTopic3.decodeW (version : Int16) : MetadataResponseTopic3 → ADec MetadataResponseTopic3 :=
    ADec.field WDec.int16 (fun t x => { t with ErrorCode := x }) ;>>
    ADec.field WDec.string (fun t x => { t with Name := x }) ;>>
    ADec.onlyIf (version ≥ 1) (ADec.field WDec.bool (fun t x => { t with IsInternal := x })) ;>>
    WDec.fieldStructs (MetadataResponsePartition3.decodeW version {}) (·.Partitions) (fun t x => { t with Partitions := x }) ;>>
    ADec.onlyIf (version ≥ 8) (ADec.field WDec.int32 (fun t x => { t with TopicAuthorizedOperations := x }))
theorem MetadataResponseTopic3.erasesW (version : Int16) (t : MetadataResponseTopic3) : Erases (MetadataResponseTopic3.decodeW version t) (MetadataResponseTopic3.decode version t) :=
  ((ErasesStep.field (.read _))
    |>.andThen (ErasesStep.field .stringW)
    |>.andThen (ErasesStep.onlyIf (ErasesStep.field (.read _)))
    |>.andThen (ErasesStep.structsW (MetadataResponsePartition3.erasesW version {}))
    |>.andThen (ErasesStep.onlyIf (ErasesStep.field (.read _))) : ErasesStep _ _) t
theorem MetadataResponseTopic3.spends (version : Int16) (t : MetadataResponseTopic3) : Spends (MetadataResponseTopic3.decodeW version t) 13 1 :=
  (((SpendsStep.field .int16)
    |>.andThen (SpendsStep.field .string)
    |>.andThen (SpendsStep.onlyIf (fun _ => SpendsStep.field .bool))
    |>.andThen (SpendsStep.structs ((MetadataResponsePartition3.spends version {}).mono (by decide) (Nat.le_refl _)))
    |>.andThen (SpendsStep.onlyIf (fun _ => SpendsStep.field .int32)) : SpendsStep _ _) t).mono (by decide) (by decide)
theorem MetadataResponseTopic3.spends0 (version : Int16) (t : MetadataResponseTopic3) : Spends (MetadataResponseTopic3.decodeW version t) 0 1 :=
  (MetadataResponseTopic3.spends version t).mono (Nat.zero_le _) (Nat.le_refl _)

/-- message/messages.gen.go:1673-1726 `MetadataResponse.Decode`, with the steps it takes -/
def MetadataResponse.decodeW (version : Int16) : MetadataResponse → ADec MetadataResponse :=
    ADec.onlyIf (version ≥ 3) (ADec.field WDec.int32 (fun t x => { t with ThrottleTimeMs := x })) ;>>
    WDec.fieldStructs (MetadataResponseBroker3.decodeW version {}) (·.Brokers) (fun t x => { t with Brokers := x }) ;>>
    ADec.onlyIf (version ≥ 2) (ADec.field WDec.string (fun t x => { t with ClusterId := x })) ;>>
    ADec.onlyIf (version ≥ 1) (ADec.field WDec.int32 (fun t x => { t with ControllerId := x })) ;>>
    WDec.fieldStructs (MetadataResponseTopic3.decodeW version {}) (·.Topics) (fun t x => { t with Topics := x }) ;>>
    ADec.onlyIf (version ≥ 8) (ADec.field WDec.int32 (fun t x => { t with ClusterAuthorizedOperations := x }))
theorem MetadataResponse.erasesW (version : Int16) (t : MetadataResponse) : Erases (MetadataResponse.decodeW version t) (MetadataResponse.decode version t) :=
  ((ErasesStep.onlyIf (ErasesStep.field (.read _)))
    |>.andThen (ErasesStep.structsW (MetadataResponseBroker3.erasesW version {}))
    |>.andThen (ErasesStep.onlyIf (ErasesStep.field .stringW))
    |>.andThen (ErasesStep.onlyIf (ErasesStep.field (.read _)))
    |>.andThen (ErasesStep.structsW (MetadataResponseTopic3.erasesW version {}))
    |>.andThen (ErasesStep.onlyIf (ErasesStep.field (.read _))) : ErasesStep _ _) t
theorem MetadataResponse.spends (version : Int16) (t : MetadataResponse) : Spends (MetadataResponse.decodeW version t) 14 1 :=
  (((SpendsStep.onlyIf (fun _ => SpendsStep.field .int32))
    |>.andThen (SpendsStep.structs ((MetadataResponseBroker3.spends version {}).mono (by decide) (Nat.le_refl _)))
    |>.andThen (SpendsStep.onlyIf (fun _ => SpendsStep.field .string))
    |>.andThen (SpendsStep.onlyIf (fun _ => SpendsStep.field .int32))
    |>.andThen (SpendsStep.structs ((MetadataResponseTopic3.spends version {}).mono (by decide) (Nat.le_refl _)))
    |>.andThen (SpendsStep.onlyIf (fun _ => SpendsStep.field .int32)) : SpendsStep _ _) t).mono (by decide) (by decide)
theorem MetadataResponse.spends0 (version : Int16) (t : MetadataResponse) : Spends (MetadataResponse.decodeW version t) 0 1 :=
  (MetadataResponse.spends version t).mono (Nat.zero_le _) (Nat.le_refl _)

/-- The structures of the Metadata messages. -/
def workMetadata : List (Σ M : MsgType, Int16 → M.T → ADec M.T) :=
  [⟨MetadataRequest.type, MetadataRequest.decodeW⟩,
   ⟨MetadataRequestTopic3.type, MetadataRequestTopic3.decodeW⟩,
   ⟨MetadataResponse.type, MetadataResponse.decodeW⟩,
   ⟨MetadataResponseBroker3.type, MetadataResponseBroker3.decodeW⟩,
   ⟨MetadataResponseTopic3.type, MetadataResponseTopic3.decodeW⟩,
   ⟨MetadataResponsePartition3.type, MetadataResponsePartition3.decodeW⟩]
theorem workMetadata_erases : ∀ p ∈ workMetadata, ∀ v t, Erases (p.2 v t) (p.1.decode v t) := by
  unfold workMetadata
  simp only [List.forall_mem_cons]
  exact ⟨MetadataRequest.erasesW, MetadataRequestTopic3.erasesW, MetadataResponse.erasesW, MetadataResponseBroker3.erasesW, MetadataResponseTopic3.erasesW, MetadataResponsePartition3.erasesW, fun _ h => absurd h (by simp)⟩
theorem workMetadata_spends : ∀ p ∈ workMetadata, ∀ v t, Spends (p.2 v t) 0 1 := by
  unfold workMetadata
  simp only [List.forall_mem_cons]
  exact ⟨MetadataRequest.spends0, MetadataRequestTopic3.spends0, MetadataResponse.spends0, MetadataResponseBroker3.spends0, MetadataResponseTopic3.spends0, MetadataResponsePartition3.spends0, fun _ h => absurd h (by simp)⟩

end Kafka.Msg
