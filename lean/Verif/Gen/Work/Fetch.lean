import Verif.Message.Work
import Verif.Gen.Model.Fetch
/-!
Generated by tools/gen_messages.py: steps taken by decoding the Fetch messages.
-/
namespace Kafka.Msg

/-- message/messages.gen.go:766-793 `FetchPartition1.Decode`, with the steps it takes -/
def FetchPartition1.decodeW (version : Int16) : FetchPartition1 → ADec FetchPartition1 :=
    ADec.field WDec.int32 (fun t x => { t with PartitionIndex := x }) ;>>
    ADec.onlyIf (version ≥ 9) (ADec.field WDec.int32 (fun t x => { t with CurrentLeaderEpoch := x })) ;>>
    ADec.field WDec.int64 (fun t x => { t with FetchOffset := x }) ;>>
    ADec.onlyIf (version ≥ 5) (ADec.field WDec.int64 (fun t x => { t with LogStartOffset := x })) ;>>
    ADec.field WDec.int32 (fun t x => { t with MaxBytes := x })
theorem FetchPartition1.erasesW (version : Int16) (t : FetchPartition1) : Erases (FetchPartition1.decodeW version t) (FetchPartition1.decode version t) :=
  ((ErasesStep.field (.read _))
    |>.andThen (ErasesStep.onlyIf (ErasesStep.field (.read _)))
    |>.andThen (ErasesStep.field (.read _))
    |>.andThen (ErasesStep.onlyIf (ErasesStep.field (.read _)))
    |>.andThen (ErasesStep.field (.read _)) : ErasesStep _ _) t
theorem FetchPartition1.spends (version : Int16) (t : FetchPartition1) : Spends (FetchPartition1.decodeW version t) 29 1 :=
  (((SpendsStep.field .int32)
    |>.andThen (SpendsStep.onlyIf (fun _ => SpendsStep.field .int32))
    |>.andThen (SpendsStep.field .int64)
    |>.andThen (SpendsStep.onlyIf (fun _ => SpendsStep.field .int64))
    |>.andThen (SpendsStep.field .int32) : SpendsStep _ _) t).mono (by decide) (by decide)
theorem FetchPartition1.spends0 (version : Int16) (t : FetchPartition1) : Spends (FetchPartition1.decodeW version t) 0 1 :=
  (FetchPartition1.spends version t).mono (Nat.zero_le _) (Nat.le_refl _)

/-- message/messages.gen.go:707-727 `FetchableTopic1.Decode`, with the steps it takes -/
def FetchableTopic1.decodeW (version : Int16) : FetchableTopic1 → ADec FetchableTopic1 :=
    ADec.field WDec.string (fun t x => { t with Name := x }) ;>>
    WDec.fieldStructs (FetchPartition1.decodeW version {}) (·.FetchPartitions) (fun t x => { t with FetchPartitions := x })
theorem FetchableTopic1.erasesW (version : Int16) (t : FetchableTopic1) : Erases (FetchableTopic1.decodeW version t) (FetchableTopic1.decode version t) :=
  ((ErasesStep.field .stringW)
    |>.andThen (ErasesStep.structsW (FetchPartition1.erasesW version {})) : ErasesStep _ _) t
theorem FetchableTopic1.spends (version : Int16) (t : FetchableTopic1) : Spends (FetchableTopic1.decodeW version t) 10 1 :=
  (((SpendsStep.field .string)
    |>.andThen (SpendsStep.structs ((FetchPartition1.spends version {}).mono (by decide) (Nat.le_refl _))) : SpendsStep _ _) t).mono (by decide) (by decide)
theorem FetchableTopic1.spends0 (version : Int16) (t : FetchableTopic1) : Spends (FetchableTopic1.decodeW version t) 0 1 :=
  (FetchableTopic1.spends version t).mono (Nat.zero_le _) (Nat.le_refl _)

/-- message/messages.gen.go:823-838 `ForgottenTopic1.Decode`, with the steps it takes -/
def ForgottenTopic1.decodeW (version : Int16) : ForgottenTopic1 → ADec ForgottenTopic1 :=
    ADec.onlyIf (version ≥ 7) (ADec.field WDec.string (fun t x => { t with Name := x })) ;>>
    ADec.onlyIf (version ≥ 7) (ADec.field WDec.int32Array (fun t x => { t with ForgottenPartitionIndexes := x }))
theorem ForgottenTopic1.erasesW (version : Int16) (t : ForgottenTopic1) : Erases (ForgottenTopic1.decodeW version t) (ForgottenTopic1.decode version t) :=
  ((ErasesStep.onlyIf (ErasesStep.field .stringW))
    |>.andThen (ErasesStep.onlyIf (ErasesStep.field (.arrayOfW (.read _)))) : ErasesStep _ _) t
theorem ForgottenTopic1.spends (version : Int16) (t : ForgottenTopic1) (h : version ≥ 7) : Spends (ForgottenTopic1.decodeW version t) 3 1 :=
  (((SpendsStep.present h (SpendsStep.field .string))
    |>.andThen (SpendsStep.onlyIf (fun _ => SpendsStep.field .int32Array)) : SpendsStep _ _) t).mono (by decide) (by decide)
theorem ForgottenTopic1.spends0 (version : Int16) (t : ForgottenTopic1) : Spends (ForgottenTopic1.decodeW version t) 0 1 :=
  (((SpendsStep.onlyIf (fun _ => SpendsStep.field .string))
    |>.andThen (SpendsStep.onlyIf (fun _ => SpendsStep.field .int32Array)) : SpendsStep _ _) t).mono (by decide) (by decide)

/-- message/messages.gen.go:604-677 `FetchRequest.Decode`, with the steps it takes -/
def FetchRequest.decodeW (version : Int16) : FetchRequest → ADec FetchRequest :=
    ADec.field WDec.int32 (fun t x => { t with ReplicaId := x }) ;>>
    ADec.field WDec.int32 (fun t x => { t with MaxWait := x }) ;>>
    ADec.field WDec.int32 (fun t x => { t with MinBytes := x }) ;>>
    ADec.onlyIf (version ≥ 3) (ADec.field WDec.int32 (fun t x => { t with MaxBytes := x })) ;>>
    ADec.onlyIf (version ≥ 4) (ADec.field WDec.int8 (fun t x => { t with IsolationLevel := x })) ;>>
    ADec.onlyIf (version ≥ 7) (ADec.field WDec.int32 (fun t x => { t with SessionId := x })) ;>>
    ADec.onlyIf (version ≥ 7) (ADec.field WDec.int32 (fun t x => { t with Epoch := x })) ;>>
    WDec.fieldStructs (FetchableTopic1.decodeW version {}) (·.Topics) (fun t x => { t with Topics := x }) ;>>
    ADec.onlyIf (version ≥ 7) (WDec.fieldStructs (ForgottenTopic1.decodeW version {}) (·.Forgotten) (fun t x => { t with Forgotten := x })) ;>>
    ADec.onlyIf (version ≥ 11) (ADec.field WDec.string (fun t x => { t with RackId := x }))
theorem FetchRequest.erasesW (version : Int16) (t : FetchRequest) : Erases (FetchRequest.decodeW version t) (FetchRequest.decode version t) :=
  ((ErasesStep.field (.read _))
    |>.andThen (ErasesStep.field (.read _))
    |>.andThen (ErasesStep.field (.read _))
    |>.andThen (ErasesStep.onlyIf (ErasesStep.field (.read _)))
    |>.andThen (ErasesStep.onlyIf (ErasesStep.field (.read _)))
    |>.andThen (ErasesStep.onlyIf (ErasesStep.field (.read _)))
    |>.andThen (ErasesStep.onlyIf (ErasesStep.field (.read _)))
    |>.andThen (ErasesStep.structsW (FetchableTopic1.erasesW version {}))
    |>.andThen (ErasesStep.onlyIf (ErasesStep.structsW (ForgottenTopic1.erasesW version {})))
    |>.andThen (ErasesStep.onlyIf (ErasesStep.field .stringW)) : ErasesStep _ _) t
theorem FetchRequest.spends (version : Int16) (t : FetchRequest) : Spends (FetchRequest.decodeW version t) 28 1 :=
  (((SpendsStep.field .int32)
    |>.andThen (SpendsStep.field .int32)
    |>.andThen (SpendsStep.field .int32)
    |>.andThen (SpendsStep.onlyIf (fun _ => SpendsStep.field .int32))
    |>.andThen (SpendsStep.onlyIf (fun _ => SpendsStep.field .int8))
    |>.andThen (SpendsStep.onlyIf (fun _ => SpendsStep.field .int32))
    |>.andThen (SpendsStep.onlyIf (fun _ => SpendsStep.field .int32))
    |>.andThen (SpendsStep.structs ((FetchableTopic1.spends version {}).mono (by decide) (Nat.le_refl _)))
    |>.andThen (SpendsStep.onlyIf (fun h => SpendsStep.structs ((ForgottenTopic1.spends version {} h).mono (by decide) (Nat.le_refl _))))
    |>.andThen (SpendsStep.onlyIf (fun _ => SpendsStep.field .string)) : SpendsStep _ _) t).mono (by decide) (by decide)
theorem FetchRequest.spends0 (version : Int16) (t : FetchRequest) : Spends (FetchRequest.decodeW version t) 0 1 :=
  (FetchRequest.spends version t).mono (Nat.zero_le _) (Nat.le_refl _)

/-- message/messages.gen.go:1117-1132 `AbortedTransaction1.Decode`, with the steps it takes -/
def AbortedTransaction1.decodeW (version : Int16) : AbortedTransaction1 → ADec AbortedTransaction1 :=
    ADec.onlyIf (version ≥ 4) (ADec.field WDec.int64 (fun t x => { t with ProducerId := x })) ;>>
    ADec.onlyIf (version ≥ 4) (ADec.field WDec.int64 (fun t x => { t with FirstOffset := x }))
theorem AbortedTransaction1.erasesW (version : Int16) (t : AbortedTransaction1) : Erases (AbortedTransaction1.decodeW version t) (AbortedTransaction1.decode version t) :=
  ((ErasesStep.onlyIf (ErasesStep.field (.read _)))
    |>.andThen (ErasesStep.onlyIf (ErasesStep.field (.read _))) : ErasesStep _ _) t
theorem AbortedTransaction1.spends (version : Int16) (t : AbortedTransaction1) (h : version ≥ 4) : Spends (AbortedTransaction1.decodeW version t) 15 1 :=
  (((SpendsStep.present h (SpendsStep.field .int64))
    |>.andThen (SpendsStep.onlyIf (fun _ => SpendsStep.field .int64)) : SpendsStep _ _) t).mono (by decide) (by decide)
theorem AbortedTransaction1.spends0 (version : Int16) (t : AbortedTransaction1) : Spends (AbortedTransaction1.decodeW version t) 0 1 :=
  (((SpendsStep.onlyIf (fun _ => SpendsStep.field .int64))
    |>.andThen (SpendsStep.onlyIf (fun _ => SpendsStep.field .int64)) : SpendsStep _ _) t).mono (by decide) (by decide)

/-- message/messages.gen.go:1035-1087 `FetchablePartitionResponse1.Decode`, with the steps it takes -/
def FetchablePartitionResponse1.decodeW (version : Int16) : FetchablePartitionResponse1 → ADec FetchablePartitionResponse1 :=
    ADec.field WDec.int32 (fun t x => { t with PartitionIndex := x }) ;>>
    ADec.field WDec.int16 (fun t x => { t with ErrorCode := x }) ;>>
    ADec.field WDec.int64 (fun t x => { t with HighWatermark := x }) ;>>
    ADec.onlyIf (version ≥ 4) (ADec.field WDec.int64 (fun t x => { t with LastStableOffset := x })) ;>>
    ADec.onlyIf (version ≥ 5) (ADec.field WDec.int64 (fun t x => { t with LogStartOffset := x })) ;>>
    ADec.onlyIf (version ≥ 4) (WDec.fieldStructs (AbortedTransaction1.decodeW version {}) (·.Aborted) (fun t x => { t with Aborted := x })) ;>>
    ADec.onlyIf (version ≥ 11) (ADec.field WDec.int32 (fun t x => { t with PreferredReadReplica := x })) ;>>
    ADec.field WDec.bytes (fun t x => { t with Records := x })
theorem FetchablePartitionResponse1.erasesW (version : Int16) (t : FetchablePartitionResponse1) : Erases (FetchablePartitionResponse1.decodeW version t) (FetchablePartitionResponse1.decode version t) :=
  ((ErasesStep.field (.read _))
    |>.andThen (ErasesStep.field (.read _))
    |>.andThen (ErasesStep.field (.read _))
    |>.andThen (ErasesStep.onlyIf (ErasesStep.field (.read _)))
    |>.andThen (ErasesStep.onlyIf (ErasesStep.field (.read _)))
    |>.andThen (ErasesStep.onlyIf (ErasesStep.structsW (AbortedTransaction1.erasesW version {})))
    |>.andThen (ErasesStep.onlyIf (ErasesStep.field (.read _)))
    |>.andThen (ErasesStep.field (.read _)) : ErasesStep _ _) t
theorem FetchablePartitionResponse1.spends (version : Int16) (t : FetchablePartitionResponse1) : Spends (FetchablePartitionResponse1.decodeW version t) 32 1 :=
  (((SpendsStep.field .int32)
    |>.andThen (SpendsStep.field .int16)
    |>.andThen (SpendsStep.field .int64)
    |>.andThen (SpendsStep.onlyIf (fun _ => SpendsStep.field .int64))
    |>.andThen (SpendsStep.onlyIf (fun _ => SpendsStep.field .int64))
    |>.andThen (SpendsStep.onlyIf (fun h => SpendsStep.structs ((AbortedTransaction1.spends version {} h).mono (by decide) (Nat.le_refl _))))
    |>.andThen (SpendsStep.onlyIf (fun _ => SpendsStep.field .int32))
    |>.andThen (SpendsStep.field .bytes) : SpendsStep _ _) t).mono (by decide) (by decide)
theorem FetchablePartitionResponse1.spends0 (version : Int16) (t : FetchablePartitionResponse1) : Spends (FetchablePartitionResponse1.decodeW version t) 0 1 :=
  (FetchablePartitionResponse1.spends version t).mono (Nat.zero_le _) (Nat.le_refl _)

/-- message/messages.gen.go:951-971 `FetchableTopicResponse1.Decode`, with the steps it takes -/
def FetchableTopicResponse1.decodeW (version : Int16) : FetchableTopicResponse1 → ADec FetchableTopicResponse1 :=
    ADec.field WDec.string (fun t x => { t with Name := x }) ;>>
    WDec.fieldStructs (FetchablePartitionResponse1.decodeW version {}) (·.Partitions) (fun t x => { t with Partitions := x })
theorem FetchableTopicResponse1.erasesW (version : Int16) (t : FetchableTopicResponse1) : Erases (FetchableTopicResponse1.decodeW version t) (FetchableTopicResponse1.decode version t) :=
  ((ErasesStep.field .stringW)
    |>.andThen (ErasesStep.structsW (FetchablePartitionResponse1.erasesW version {})) : ErasesStep _ _) t
theorem FetchableTopicResponse1.spends (version : Int16) (t : FetchableTopicResponse1) : Spends (FetchableTopicResponse1.decodeW version t) 10 1 :=
  (((SpendsStep.field .string)
    |>.andThen (SpendsStep.structs ((FetchablePartitionResponse1.spends version {}).mono (by decide) (Nat.le_refl _))) : SpendsStep _ _) t).mono (by decide) (by decide)
theorem FetchableTopicResponse1.spends0 (version : Int16) (t : FetchableTopicResponse1) : Spends (FetchableTopicResponse1.decodeW version t) 0 1 :=
  (FetchableTopicResponse1.spends version t).mono (Nat.zero_le _) (Nat.le_refl _)

/-- message/messages.gen.go:887-921 `FetchResponse.Decode`, with the steps it takes -/
def FetchResponse.decodeW (version : Int16) : FetchResponse → ADec FetchResponse :=
    ADec.onlyIf (version ≥ 1) (ADec.field WDec.int32 (fun t x => { t with ThrottleTimeMs := x })) ;>>
    ADec.onlyIf (version ≥ 7) (ADec.field WDec.int16 (fun t x => { t with ErrorCode := x })) ;>>
    ADec.onlyIf (version ≥ 7) (ADec.field WDec.int32 (fun t x => { t with SessionId := x })) ;>>
    WDec.fieldStructs (FetchableTopicResponse1.decodeW version {}) (·.Topics) (fun t x => { t with Topics := x })
theorem FetchResponse.erasesW (version : Int16) (t : FetchResponse) : Erases (FetchResponse.decodeW version t) (FetchResponse.decode version t) :=
  ((ErasesStep.onlyIf (ErasesStep.field (.read _)))
    |>.andThen (ErasesStep.onlyIf (ErasesStep.field (.read _)))
    |>.andThen (ErasesStep.onlyIf (ErasesStep.field (.read _)))
    |>.andThen (ErasesStep.structsW (FetchableTopicResponse1.erasesW version {})) : ErasesStep _ _) t
theorem FetchResponse.spends (version : Int16) (t : FetchResponse) : Spends (FetchResponse.decodeW version t) 7 1 :=
  (((SpendsStep.onlyIf (fun _ => SpendsStep.field .int32))
    |>.andThen (SpendsStep.onlyIf (fun _ => SpendsStep.field .int16))
    |>.andThen (SpendsStep.onlyIf (fun _ => SpendsStep.field .int32))
    |>.andThen (SpendsStep.structs ((FetchableTopicResponse1.spends version {}).mono (by decide) (Nat.le_refl _))) : SpendsStep _ _) t).mono (by decide) (by decide)
theorem FetchResponse.spends0 (version : Int16) (t : FetchResponse) : Spends (FetchResponse.decodeW version t) 0 1 :=
  (FetchResponse.spends version t).mono (Nat.zero_le _) (Nat.le_refl _)

/-- The structures of the Fetch messages. -/
def workFetch : List (Σ M : MsgType, Int16 → M.T → ADec M.T) :=
  [⟨FetchRequest.type, FetchRequest.decodeW⟩,
   ⟨FetchableTopic1.type, FetchableTopic1.decodeW⟩,
   ⟨FetchPartition1.type, FetchPartition1.decodeW⟩,
   ⟨ForgottenTopic1.type, ForgottenTopic1.decodeW⟩,
   ⟨FetchResponse.type, FetchResponse.decodeW⟩,
   ⟨FetchableTopicResponse1.type, FetchableTopicResponse1.decodeW⟩,
   ⟨FetchablePartitionResponse1.type, FetchablePartitionResponse1.decodeW⟩,
   ⟨AbortedTransaction1.type, AbortedTransaction1.decodeW⟩]
theorem workFetch_erases : ∀ p ∈ workFetch, ∀ v t, Erases (p.2 v t) (p.1.decode v t) := by
  unfold workFetch
  simp only [List.forall_mem_cons]
  exact ⟨FetchRequest.erasesW, FetchableTopic1.erasesW, FetchPartition1.erasesW, ForgottenTopic1.erasesW, FetchResponse.erasesW, FetchableTopicResponse1.erasesW, FetchablePartitionResponse1.erasesW, AbortedTransaction1.erasesW, fun _ h => absurd h (by simp)⟩
theorem workFetch_spends : ∀ p ∈ workFetch, ∀ v t, Spends (p.2 v t) 0 1 := by
  unfold workFetch
  simp only [List.forall_mem_cons]
  exact ⟨FetchRequest.spends0, FetchableTopic1.spends0, FetchPartition1.spends0, ForgottenTopic1.spends0, FetchResponse.spends0, FetchableTopicResponse1.spends0, FetchablePartitionResponse1.spends0, AbortedTransaction1.spends0, fun _ h => absurd h (by simp)⟩

end Kafka.Msg
