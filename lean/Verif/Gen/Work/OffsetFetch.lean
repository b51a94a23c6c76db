import Verif.Message.Work
import Verif.Gen.Model.OffsetFetch
/-!
Generated by tools/gen_messages.py: steps taken by decoding the OffsetFetch messages.
-/
namespace Kafka.Msg

/-- message/messages.gen.go:3704-3715 `OffsetFetchRequestTopic9.Decode`, with the steps it takes -/
def OffsetFetchRequestTopic9.decodeW (_version : Int16) : OffsetFetchRequestTopic9 → ADec OffsetFetchRequestTopic9 :=
    ADec.field WDec.string (fun t x => { t with Name := x }) ;>>
    ADec.field WDec.int32Array (fun t x => { t with PartitionIndexes := x })
theorem OffsetFetchRequestTopic9.erasesW (version : Int16) (t : OffsetFetchRequestTopic9) : Erases (OffsetFetchRequestTopic9.decodeW version t) (OffsetFetchRequestTopic9.decode version t) :=
  ((ErasesStep.field .stringW)
    |>.andThen (ErasesStep.field (.arrayOfW (.read _))) : ErasesStep _ _) t
theorem OffsetFetchRequestTopic9.spends (version : Int16) (t : OffsetFetchRequestTopic9) : Spends (OffsetFetchRequestTopic9.decodeW version t) 10 1 :=
  (((SpendsStep.field .string)
    |>.andThen (SpendsStep.field .int32Array) : SpendsStep _ _) t).mono (by decide) (by decide)
theorem OffsetFetchRequestTopic9.spends0 (version : Int16) (t : OffsetFetchRequestTopic9) : Spends (OffsetFetchRequestTopic9.decodeW version t) 0 1 :=
  (OffsetFetchRequestTopic9.spends version t).mono (Nat.zero_le _) (Nat.le_refl _)

/-- message/messages.gen.go:3662-3682 `OffsetFetchRequest.Decode`, with the steps it takes -/
def OffsetFetchRequest.decodeW (version : Int16) : OffsetFetchRequest → ADec OffsetFetchRequest :=
    ADec.field WDec.string (fun t x => { t with GroupId := x }) ;>>
    WDec.fieldStructs (OffsetFetchRequestTopic9.decodeW version {}) (·.Topics) (fun t x => { t with Topics := x })
theorem OffsetFetchRequest.erasesW (version : Int16) (t : OffsetFetchRequest) : Erases (OffsetFetchRequest.decodeW version t) (OffsetFetchRequest.decode version t) :=
  ((ErasesStep.field .stringW)
    |>.andThen (ErasesStep.structsW (OffsetFetchRequestTopic9.erasesW version {})) : ErasesStep _ _) t
theorem OffsetFetchRequest.spends (version : Int16) (t : OffsetFetchRequest) : Spends (OffsetFetchRequest.decodeW version t) 10 1 :=
  (((SpendsStep.field .string)
    |>.andThen (SpendsStep.structs ((OffsetFetchRequestTopic9.spends version {}).mono (by decide) (Nat.le_refl _))) : SpendsStep _ _) t).mono (by decide) (by decide)
theorem OffsetFetchRequest.spends0 (version : Int16) (t : OffsetFetchRequest) : Spends (OffsetFetchRequest.decodeW version t) 0 1 :=
  (OffsetFetchRequest.spends version t).mono (Nat.zero_le _) (Nat.le_refl _)

/-- message/messages.gen.go:3870-3895 `OffsetFetchResponsePartition9.Decode`, with the steps it takes -/
def OffsetFetchResponsePartition9.decodeW (version : Int16) : OffsetFetchResponsePartition9 → ADec OffsetFetchResponsePartition9 :=
    ADec.field WDec.int32 (fun t x => { t with PartitionIndex := x }) ;>>
    ADec.field WDec.int64 (fun t x => { t with CommittedOffset := x }) ;>>
    ADec.onlyIf (version ≥ 5) (ADec.field WDec.int32 (fun t x => { t with CommittedLeaderEpoch := x })) ;>>
    ADec.field WDec.string (fun t x => { t with Metadata := x }) ;>>
    ADec.field WDec.int16 (fun t x => { t with ErrorCode := x })
theorem OffsetFetchResponsePartition9.erasesW (version : Int16) (t : OffsetFetchResponsePartition9) : Erases (OffsetFetchResponsePartition9.decodeW version t) (OffsetFetchResponsePartition9.decode version t) :=
  ((ErasesStep.field (.read _))
    |>.andThen (ErasesStep.field (.read _))
    |>.andThen (ErasesStep.onlyIf (ErasesStep.field (.read _)))
    |>.andThen (ErasesStep.field .stringW)
    |>.andThen (ErasesStep.field (.read _)) : ErasesStep _ _) t
theorem OffsetFetchResponsePartition9.spends (version : Int16) (t : OffsetFetchResponsePartition9) : Spends (OffsetFetchResponsePartition9.decodeW version t) 28 1 :=
  (((SpendsStep.field .int32)
    |>.andThen (SpendsStep.field .int64)
    |>.andThen (SpendsStep.onlyIf (fun _ => SpendsStep.field .int32))
    |>.andThen (SpendsStep.field .string)
    |>.andThen (SpendsStep.field .int16) : SpendsStep _ _) t).mono (by decide) (by decide)
theorem OffsetFetchResponsePartition9.spends0 (version : Int16) (t : OffsetFetchResponsePartition9) : Spends (OffsetFetchResponsePartition9.decodeW version t) 0 1 :=
  (OffsetFetchResponsePartition9.spends version t).mono (Nat.zero_le _) (Nat.le_refl _)

/-- message/messages.gen.go:3815-3835 `OffsetFetchResponseTopic9.Decode`, with the steps it takes -/
def OffsetFetchResponseTopic9.decodeW (version : Int16) : OffsetFetchResponseTopic9 → ADec OffsetFetchResponseTopic9 :=
    ADec.field WDec.string (fun t x => { t with Name := x }) ;>>
    WDec.fieldStructs (OffsetFetchResponsePartition9.decodeW version {}) (·.Partitions) (fun t x => { t with Partitions := x })
theorem OffsetFetchResponseTopic9.erasesW (version : Int16) (t : OffsetFetchResponseTopic9) : Erases (OffsetFetchResponseTopic9.decodeW version t) (OffsetFetchResponseTopic9.decode version t) :=
  ((ErasesStep.field .stringW)
    |>.andThen (ErasesStep.structsW (OffsetFetchResponsePartition9.erasesW version {})) : ErasesStep _ _) t
theorem OffsetFetchResponseTopic9.spends (version : Int16) (t : OffsetFetchResponseTopic9) : Spends (OffsetFetchResponseTopic9.decodeW version t) 10 1 :=
  (((SpendsStep.field .string)
    |>.andThen (SpendsStep.structs ((OffsetFetchResponsePartition9.spends version {}).mono (by decide) (Nat.le_refl _))) : SpendsStep _ _) t).mono (by decide) (by decide)
theorem OffsetFetchResponseTopic9.spends0 (version : Int16) (t : OffsetFetchResponseTopic9) : Spends (OffsetFetchResponseTopic9.decodeW version t) 0 1 :=
  (OffsetFetchResponseTopic9.spends version t).mono (Nat.zero_le _) (Nat.le_refl _)

/-- message/messages.gen.go:3757-3785 `OffsetFetchResponse.Decode`, with the steps it takes -/
def OffsetFetchResponse.decodeW (version : Int16) : OffsetFetchResponse → ADec OffsetFetchResponse :=
    ADec.onlyIf (version ≥ 3) (ADec.field WDec.int32 (fun t x => { t with ThrottleTimeMs := x })) ;>>
    WDec.fieldStructs (OffsetFetchResponseTopic9.decodeW version {}) (·.Topics) (fun t x => { t with Topics := x }) ;>>
    ADec.onlyIf (version ≥ 2) (ADec.field WDec.int16 (fun t x => { t with ErrorCode := x }))
theorem OffsetFetchResponse.erasesW (version : Int16) (t : OffsetFetchResponse) : Erases (OffsetFetchResponse.decodeW version t) (OffsetFetchResponse.decode version t) :=
  ((ErasesStep.onlyIf (ErasesStep.field (.read _)))
    |>.andThen (ErasesStep.structsW (OffsetFetchResponseTopic9.erasesW version {}))
    |>.andThen (ErasesStep.onlyIf (ErasesStep.field (.read _))) : ErasesStep _ _) t
theorem OffsetFetchResponse.spends (version : Int16) (t : OffsetFetchResponse) : Spends (OffsetFetchResponse.decodeW version t) 7 1 :=
  (((SpendsStep.onlyIf (fun _ => SpendsStep.field .int32))
    |>.andThen (SpendsStep.structs ((OffsetFetchResponseTopic9.spends version {}).mono (by decide) (Nat.le_refl _)))
    |>.andThen (SpendsStep.onlyIf (fun _ => SpendsStep.field .int16)) : SpendsStep _ _) t).mono (by decide) (by decide)
theorem OffsetFetchResponse.spends0 (version : Int16) (t : OffsetFetchResponse) : Spends (OffsetFetchResponse.decodeW version t) 0 1 :=
  (OffsetFetchResponse.spends version t).mono (Nat.zero_le _) (Nat.le_refl _)

/-- The structures of the OffsetFetch messages. -/
def workOffsetFetch : List (Σ M : MsgType, Int16 → M.T → ADec M.T) :=
  [⟨OffsetFetchRequest.type, OffsetFetchRequest.decodeW⟩,
   ⟨OffsetFetchRequestTopic9.type, OffsetFetchRequestTopic9.decodeW⟩,
   ⟨OffsetFetchResponse.type, OffsetFetchResponse.decodeW⟩,
   ⟨OffsetFetchResponseTopic9.type, OffsetFetchResponseTopic9.decodeW⟩,
   ⟨OffsetFetchResponsePartition9.type, OffsetFetchResponsePartition9.decodeW⟩]
theorem workOffsetFetch_erases : ∀ p ∈ workOffsetFetch, ∀ v t, Erases (p.2 v t) (p.1.decode v t) := by
  unfold workOffsetFetch
  simp only [List.forall_mem_cons]
  exact ⟨OffsetFetchRequest.erasesW, OffsetFetchRequestTopic9.erasesW, OffsetFetchResponse.erasesW, OffsetFetchResponseTopic9.erasesW, OffsetFetchResponsePartition9.erasesW, fun _ h => absurd h (by simp)⟩
theorem workOffsetFetch_spends : ∀ p ∈ workOffsetFetch, ∀ v t, Spends (p.2 v t) 0 1 := by
  unfold workOffsetFetch
  simp only [List.forall_mem_cons]
  exact ⟨OffsetFetchRequest.spends0, OffsetFetchRequestTopic9.spends0, OffsetFetchResponse.spends0, OffsetFetchResponseTopic9.spends0, OffsetFetchResponsePartition9.spends0, fun _ h => absurd h (by simp)⟩

end Kafka.Msg
