import Verif.Message.Work
import Verif.Gen.Model.ElectLeaders
/-!
Generated by tools/gen_messages.py: steps taken by decoding the ElectLeaders messages.
-/
namespace Kafka.Msg

/-- message/messages.gen.go:10676-10687 `TopicPartitions43.Decode`, with the steps it takes -/
def TopicPartitions43.decodeW (_version : Int16) : TopicPartitions43 → ADec TopicPartitions43 :=
    ADec.field WDec.string (fun t x => { t with Topic := x }) ;>>
    ADec.field WDec.int32Array (fun t x => { t with PartitionId := x })
theorem TopicPartitions43.erasesW (version : Int16) (t : TopicPartitions43) : Erases (TopicPartitions43.decodeW version t) (TopicPartitions43.decode version t) :=
  ((ErasesStep.field .stringW)
    |>.andThen (ErasesStep.field (.arrayOfW (.read _))) : ErasesStep _ _) t
theorem TopicPartitions43.spends (version : Int16) (t : TopicPartitions43) : Spends (TopicPartitions43.decodeW version t) 10 1 :=
  (((SpendsStep.field .string)
    |>.andThen (SpendsStep.field .int32Array) : SpendsStep _ _) t).mono (by decide) (by decide)
theorem TopicPartitions43.spends0 (version : Int16) (t : TopicPartitions43) : Spends (TopicPartitions43.decodeW version t) 0 1 :=
  (TopicPartitions43.spends version t).mono (Nat.zero_le _) (Nat.le_refl _)

/-- message/messages.gen.go:10628-10654 `ElectLeadersRequest.Decode`, with the steps it takes -/
def ElectLeadersRequest.decodeW (version : Int16) : ElectLeadersRequest → ADec ElectLeadersRequest :=
    ADec.onlyIf (version ≥ 1) (ADec.field WDec.int8 (fun t x => { t with ElectionType := x })) ;>>
    WDec.fieldStructs (TopicPartitions43.decodeW version {}) (·.TopicPartitions) (fun t x => { t with TopicPartitions := x }) ;>>
    ADec.field WDec.int32 (fun t x => { t with TimeoutMs := x })
theorem ElectLeadersRequest.erasesW (version : Int16) (t : ElectLeadersRequest) : Erases (ElectLeadersRequest.decodeW version t) (ElectLeadersRequest.decode version t) :=
  ((ErasesStep.onlyIf (ErasesStep.field (.read _)))
    |>.andThen (ErasesStep.structsW (TopicPartitions43.erasesW version {}))
    |>.andThen (ErasesStep.field (.read _)) : ErasesStep _ _) t
theorem ElectLeadersRequest.spends (version : Int16) (t : ElectLeadersRequest) : Spends (ElectLeadersRequest.decodeW version t) 14 1 :=
  (((SpendsStep.onlyIf (fun _ => SpendsStep.field .int8))
    |>.andThen (SpendsStep.structs ((TopicPartitions43.spends version {}).mono (by decide) (Nat.le_refl _)))
    |>.andThen (SpendsStep.field .int32) : SpendsStep _ _) t).mono (by decide) (by decide)
theorem ElectLeadersRequest.spends0 (version : Int16) (t : ElectLeadersRequest) : Spends (ElectLeadersRequest.decodeW version t) 0 1 :=
  (ElectLeadersRequest.spends version t).mono (Nat.zero_le _) (Nat.le_refl _)

/-- message/messages.gen.go:10826-10841 `PartitionResult43.Decode`, with the steps it takes -/
def PartitionResult43.decodeW (_version : Int16) : PartitionResult43 → ADec PartitionResult43 :=
    ADec.field WDec.int32 (fun t x => { t with PartitionId := x }) ;>>
    ADec.field WDec.int16 (fun t x => { t with ErrorCode := x }) ;>>
    ADec.field WDec.string (fun t x => { t with ErrorMessage := x })
theorem PartitionResult43.erasesW (version : Int16) (t : PartitionResult43) : Erases (PartitionResult43.decodeW version t) (PartitionResult43.decode version t) :=
  ((ErasesStep.field (.read _))
    |>.andThen (ErasesStep.field (.read _))
    |>.andThen (ErasesStep.field .stringW) : ErasesStep _ _) t
theorem PartitionResult43.spends (version : Int16) (t : PartitionResult43) : Spends (PartitionResult43.decodeW version t) 13 1 :=
  (((SpendsStep.field .int32)
    |>.andThen (SpendsStep.field .int16)
    |>.andThen (SpendsStep.field .string) : SpendsStep _ _) t).mono (by decide) (by decide)
theorem PartitionResult43.spends0 (version : Int16) (t : PartitionResult43) : Spends (PartitionResult43.decodeW version t) 0 1 :=
  (PartitionResult43.spends version t).mono (Nat.zero_le _) (Nat.le_refl _)

/-- message/messages.gen.go:10781-10801 `ReplicaElectionResult43.Decode`, with the steps it takes -/
def ReplicaElectionResult43.decodeW (version : Int16) : ReplicaElectionResult43 → ADec ReplicaElectionResult43 :=
    ADec.field WDec.string (fun t x => { t with Topic := x }) ;>>
    WDec.fieldStructs (PartitionResult43.decodeW version {}) (·.PartitionResult) (fun t x => { t with PartitionResult := x })
theorem ReplicaElectionResult43.erasesW (version : Int16) (t : ReplicaElectionResult43) : Erases (ReplicaElectionResult43.decodeW version t) (ReplicaElectionResult43.decode version t) :=
  ((ErasesStep.field .stringW)
    |>.andThen (ErasesStep.structsW (PartitionResult43.erasesW version {})) : ErasesStep _ _) t
theorem ReplicaElectionResult43.spends (version : Int16) (t : ReplicaElectionResult43) : Spends (ReplicaElectionResult43.decodeW version t) 10 1 :=
  (((SpendsStep.field .string)
    |>.andThen (SpendsStep.structs ((PartitionResult43.spends version {}).mono (by decide) (Nat.le_refl _))) : SpendsStep _ _) t).mono (by decide) (by decide)
theorem ReplicaElectionResult43.spends0 (version : Int16) (t : ReplicaElectionResult43) : Spends (ReplicaElectionResult43.decodeW version t) 0 1 :=
  (ReplicaElectionResult43.spends version t).mono (Nat.zero_le _) (Nat.le_refl _)

/-- message/messages.gen.go:10725-10751 `ElectLeadersResponse.Decode`, with the steps it takes -/
def ElectLeadersResponse.decodeW (version : Int16) : ElectLeadersResponse → ADec ElectLeadersResponse :=
    ADec.field WDec.int32 (fun t x => { t with ThrottleTimeMs := x }) ;>>
    ADec.onlyIf (version ≥ 1) (ADec.field WDec.int16 (fun t x => { t with ErrorCode := x })) ;>>
    WDec.fieldStructs (ReplicaElectionResult43.decodeW version {}) (·.ReplicaElectionResults) (fun t x => { t with ReplicaElectionResults := x })
theorem ElectLeadersResponse.erasesW (version : Int16) (t : ElectLeadersResponse) : Erases (ElectLeadersResponse.decodeW version t) (ElectLeadersResponse.decode version t) :=
  ((ErasesStep.field (.read _))
    |>.andThen (ErasesStep.onlyIf (ErasesStep.field (.read _)))
    |>.andThen (ErasesStep.structsW (ReplicaElectionResult43.erasesW version {})) : ErasesStep _ _) t
theorem ElectLeadersResponse.spends (version : Int16) (t : ElectLeadersResponse) : Spends (ElectLeadersResponse.decodeW version t) 14 1 :=
  (((SpendsStep.field .int32)
    |>.andThen (SpendsStep.onlyIf (fun _ => SpendsStep.field .int16))
    |>.andThen (SpendsStep.structs ((ReplicaElectionResult43.spends version {}).mono (by decide) (Nat.le_refl _))) : SpendsStep _ _) t).mono (by decide) (by decide)
theorem ElectLeadersResponse.spends0 (version : Int16) (t : ElectLeadersResponse) : Spends (ElectLeadersResponse.decodeW version t) 0 1 :=
  (ElectLeadersResponse.spends version t).mono (Nat.zero_le _) (Nat.le_refl _)

/-- The structures of the ElectLeaders messages. -/
def workElectLeaders : List (Σ M : MsgType, Int16 → M.T → ADec M.T) :=
  [⟨ElectLeadersRequest.type, ElectLeadersRequest.decodeW⟩,
   ⟨TopicPartitions43.type, TopicPartitions43.decodeW⟩,
   ⟨ElectLeadersResponse.type, ElectLeadersResponse.decodeW⟩,
   ⟨ReplicaElectionResult43.type, ReplicaElectionResult43.decodeW⟩,
   ⟨PartitionResult43.type, PartitionResult43.decodeW⟩]
theorem workElectLeaders_erases : ∀ p ∈ workElectLeaders, ∀ v t, Erases (p.2 v t) (p.1.decode v t) := by
  unfold workElectLeaders
  simp only [List.forall_mem_cons]
  exact ⟨ElectLeadersRequest.erasesW, TopicPartitions43.erasesW, ElectLeadersResponse.erasesW, ReplicaElectionResult43.erasesW, PartitionResult43.erasesW, fun _ h => absurd h (by simp)⟩
theorem workElectLeaders_spends : ∀ p ∈ workElectLeaders, ∀ v t, Spends (p.2 v t) 0 1 := by
  unfold workElectLeaders
  simp only [List.forall_mem_cons]
  exact ⟨ElectLeadersRequest.spends0, TopicPartitions43.spends0, ElectLeadersResponse.spends0, ReplicaElectionResult43.spends0, PartitionResult43.spends0, fun _ h => absurd h (by simp)⟩

end Kafka.Msg
