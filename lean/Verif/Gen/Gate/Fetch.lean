import Verif.Message.Gate
import Verif.Gen.Spec.Fetch
/-!
Generated by tools/gen_messages.py: the version-dependent fields of the Fetch messages.
-/
set_option linter.unusedSimpArgs false
namespace Kafka.Msg

/-- `t.MaxBytes = x` -/
def FetchRequest_with_MaxBytes (t : FetchRequest) (x : Int32) : FetchRequest := { t with MaxBytes := x }
/-- `FetchRequest.MaxBytes` -/
def FetchRequest.gateMaxBytes : Gate :=
  { M := FetchRequest.type, L := FetchRequest.layout, field := "MaxBytes", α := Int32, present := fun v => v ≥ 3,
    get := fun t => FetchRequest.MaxBytes t, set := fun t x => FetchRequest_with_MaxBytes t x }
theorem FetchRequest.gateMaxBytes_holds : FetchRequest.gateMaxBytes.Holds where
  get_set _ _ := rfl
  encode v h t x := by
    change FetchRequest.encode v (FetchRequest_with_MaxBytes t x) = FetchRequest.encode v t
    change ¬(v ≥ 3) at h
    simp only [FetchRequest.encode, FetchRequest_with_MaxBytes, onlyIf_neg h]
  size v h t x := by
    change FetchRequest.size v (FetchRequest_with_MaxBytes t x) = FetchRequest.size v t
    change ¬(v ≥ 3) at h
    simp only [FetchRequest.size, FetchRequest_with_MaxBytes, onlyIf_neg h]
  decode v h := by
    change ¬(v ≥ 3) at h
    refine (?_ : Keeps (fun t : FetchRequest => t.MaxBytes) (FetchRequest.decode v))
    unfold FetchRequest.decode
    repeat' first
      | exact Keeps.absent h
      | apply Keeps.andThen
      | exact Keeps.field fun _ _ => rfl
      | exact Keeps.fieldStructs fun _ _ => rfl
      | apply Keeps.onlyIf
  carried v h t t0 t1 := by
    change (FetchRequest.seen v t t0).MaxBytes = (FetchRequest.seen v t t1).MaxBytes
    change v ≥ 3 at h
    simp only [FetchRequest.seen, if_pos h]

/-- `t.IsolationLevel = x` -/
def FetchRequest_with_IsolationLevel (t : FetchRequest) (x : Int8) : FetchRequest := { t with IsolationLevel := x }
/-- `FetchRequest.IsolationLevel` -/
def FetchRequest.gateIsolationLevel : Gate :=
  { M := FetchRequest.type, L := FetchRequest.layout, field := "IsolationLevel", α := Int8, present := fun v => v ≥ 4,
    get := fun t => FetchRequest.IsolationLevel t, set := fun t x => FetchRequest_with_IsolationLevel t x }
theorem FetchRequest.gateIsolationLevel_holds : FetchRequest.gateIsolationLevel.Holds where
  get_set _ _ := rfl
  encode v h t x := by
    change FetchRequest.encode v (FetchRequest_with_IsolationLevel t x) = FetchRequest.encode v t
    change ¬(v ≥ 4) at h
    simp only [FetchRequest.encode, FetchRequest_with_IsolationLevel, onlyIf_neg h]
  size v h t x := by
    change FetchRequest.size v (FetchRequest_with_IsolationLevel t x) = FetchRequest.size v t
    change ¬(v ≥ 4) at h
    simp only [FetchRequest.size, FetchRequest_with_IsolationLevel, onlyIf_neg h]
  decode v h := by
    change ¬(v ≥ 4) at h
    refine (?_ : Keeps (fun t : FetchRequest => t.IsolationLevel) (FetchRequest.decode v))
    unfold FetchRequest.decode
    repeat' first
      | exact Keeps.absent h
      | apply Keeps.andThen
      | exact Keeps.field fun _ _ => rfl
      | exact Keeps.fieldStructs fun _ _ => rfl
      | apply Keeps.onlyIf
  carried v h t t0 t1 := by
    change (FetchRequest.seen v t t0).IsolationLevel = (FetchRequest.seen v t t1).IsolationLevel
    change v ≥ 4 at h
    simp only [FetchRequest.seen, if_pos h]

/-- `t.SessionId = x` -/
def FetchRequest_with_SessionId (t : FetchRequest) (x : Int32) : FetchRequest := { t with SessionId := x }
/-- `FetchRequest.SessionId` -/
def FetchRequest.gateSessionId : Gate :=
  { M := FetchRequest.type, L := FetchRequest.layout, field := "SessionId", α := Int32, present := fun v => v ≥ 7,
    get := fun t => FetchRequest.SessionId t, set := fun t x => FetchRequest_with_SessionId t x }
theorem FetchRequest.gateSessionId_holds : FetchRequest.gateSessionId.Holds where
  get_set _ _ := rfl
  encode v h t x := by
    change FetchRequest.encode v (FetchRequest_with_SessionId t x) = FetchRequest.encode v t
    change ¬(v ≥ 7) at h
    simp only [FetchRequest.encode, FetchRequest_with_SessionId, onlyIf_neg h]
  size v h t x := by
    change FetchRequest.size v (FetchRequest_with_SessionId t x) = FetchRequest.size v t
    change ¬(v ≥ 7) at h
    simp only [FetchRequest.size, FetchRequest_with_SessionId, onlyIf_neg h]
  decode v h := by
    change ¬(v ≥ 7) at h
    refine (?_ : Keeps (fun t : FetchRequest => t.SessionId) (FetchRequest.decode v))
    unfold FetchRequest.decode
    repeat' first
      | exact Keeps.absent h
      | apply Keeps.andThen
      | exact Keeps.field fun _ _ => rfl
      | exact Keeps.fieldStructs fun _ _ => rfl
      | apply Keeps.onlyIf
  carried v h t t0 t1 := by
    change (FetchRequest.seen v t t0).SessionId = (FetchRequest.seen v t t1).SessionId
    change v ≥ 7 at h
    simp only [FetchRequest.seen, if_pos h]

/-- `t.Epoch = x` -/
def FetchRequest_with_Epoch (t : FetchRequest) (x : Int32) : FetchRequest := { t with Epoch := x }
/-- `FetchRequest.Epoch` -/
def FetchRequest.gateEpoch : Gate :=
  { M := FetchRequest.type, L := FetchRequest.layout, field := "Epoch", α := Int32, present := fun v => v ≥ 7,
    get := fun t => FetchRequest.Epoch t, set := fun t x => FetchRequest_with_Epoch t x }
theorem FetchRequest.gateEpoch_holds : FetchRequest.gateEpoch.Holds where
  get_set _ _ := rfl
  encode v h t x := by
    change FetchRequest.encode v (FetchRequest_with_Epoch t x) = FetchRequest.encode v t
    change ¬(v ≥ 7) at h
    simp only [FetchRequest.encode, FetchRequest_with_Epoch, onlyIf_neg h]
  size v h t x := by
    change FetchRequest.size v (FetchRequest_with_Epoch t x) = FetchRequest.size v t
    change ¬(v ≥ 7) at h
    simp only [FetchRequest.size, FetchRequest_with_Epoch, onlyIf_neg h]
  decode v h := by
    change ¬(v ≥ 7) at h
    refine (?_ : Keeps (fun t : FetchRequest => t.Epoch) (FetchRequest.decode v))
    unfold FetchRequest.decode
    repeat' first
      | exact Keeps.absent h
      | apply Keeps.andThen
      | exact Keeps.field fun _ _ => rfl
      | exact Keeps.fieldStructs fun _ _ => rfl
      | apply Keeps.onlyIf
  carried v h t t0 t1 := by
    change (FetchRequest.seen v t t0).Epoch = (FetchRequest.seen v t t1).Epoch
    change v ≥ 7 at h
    simp only [FetchRequest.seen, if_pos h]

/-- `t.Forgotten = x` -/
def FetchRequest_with_Forgotten (t : FetchRequest) (x : Slice ForgottenTopic1) : FetchRequest := { t with Forgotten := x }
/-- `FetchRequest.Forgotten` -/
def FetchRequest.gateForgotten : Gate :=
  { M := FetchRequest.type, L := FetchRequest.layout, field := "Forgotten", α := Slice ForgottenTopic1, present := fun v => v ≥ 7,
    get := fun t => FetchRequest.Forgotten t, set := fun t x => FetchRequest_with_Forgotten t x }
theorem FetchRequest.gateForgotten_holds : FetchRequest.gateForgotten.Holds where
  get_set _ _ := rfl
  encode v h t x := by
    change FetchRequest.encode v (FetchRequest_with_Forgotten t x) = FetchRequest.encode v t
    change ¬(v ≥ 7) at h
    simp only [FetchRequest.encode, FetchRequest_with_Forgotten, onlyIf_neg h]
  size v h t x := by
    change FetchRequest.size v (FetchRequest_with_Forgotten t x) = FetchRequest.size v t
    change ¬(v ≥ 7) at h
    simp only [FetchRequest.size, FetchRequest_with_Forgotten, onlyIf_neg h]
  decode v h := by
    change ¬(v ≥ 7) at h
    refine (?_ : Keeps (fun t : FetchRequest => t.Forgotten) (FetchRequest.decode v))
    unfold FetchRequest.decode
    repeat' first
      | exact Keeps.absent h
      | apply Keeps.andThen
      | exact Keeps.field fun _ _ => rfl
      | exact Keeps.fieldStructs fun _ _ => rfl
      | apply Keeps.onlyIf
  carried v h t t0 t1 := by
    change (FetchRequest.seen v t t0).Forgotten = (FetchRequest.seen v t t1).Forgotten
    change v ≥ 7 at h
    simp only [FetchRequest.seen, if_pos h]

/-- `t.RackId = x` -/
def FetchRequest_with_RackId (t : FetchRequest) (x : GoString) : FetchRequest := { t with RackId := x }
/-- `FetchRequest.RackId` -/
def FetchRequest.gateRackId : Gate :=
  { M := FetchRequest.type, L := FetchRequest.layout, field := "RackId", α := GoString, present := fun v => v ≥ 11,
    get := fun t => FetchRequest.RackId t, set := fun t x => FetchRequest_with_RackId t x }
theorem FetchRequest.gateRackId_holds : FetchRequest.gateRackId.Holds where
  get_set _ _ := rfl
  encode v h t x := by
    change FetchRequest.encode v (FetchRequest_with_RackId t x) = FetchRequest.encode v t
    change ¬(v ≥ 11) at h
    simp only [FetchRequest.encode, FetchRequest_with_RackId, onlyIf_neg h]
  size v h t x := by
    change FetchRequest.size v (FetchRequest_with_RackId t x) = FetchRequest.size v t
    change ¬(v ≥ 11) at h
    simp only [FetchRequest.size, FetchRequest_with_RackId, onlyIf_neg h]
  decode v h := by
    change ¬(v ≥ 11) at h
    refine (?_ : Keeps (fun t : FetchRequest => t.RackId) (FetchRequest.decode v))
    unfold FetchRequest.decode
    repeat' first
      | exact Keeps.absent h
      | apply Keeps.andThen
      | exact Keeps.field fun _ _ => rfl
      | exact Keeps.fieldStructs fun _ _ => rfl
      | apply Keeps.onlyIf
  carried v h t t0 t1 := by
    change (FetchRequest.seen v t t0).RackId = (FetchRequest.seen v t t1).RackId
    change v ≥ 11 at h
    simp only [FetchRequest.seen, if_pos h]

/-- `t.CurrentLeaderEpoch = x` -/
def FetchPartition1_with_CurrentLeaderEpoch (t : FetchPartition1) (x : Int32) : FetchPartition1 := { t with CurrentLeaderEpoch := x }
/-- `FetchPartition1.CurrentLeaderEpoch` -/
def FetchPartition1.gateCurrentLeaderEpoch : Gate :=
  { M := FetchPartition1.type, L := FetchPartition1.layout, field := "CurrentLeaderEpoch", α := Int32, present := fun v => v ≥ 9,
    get := fun t => FetchPartition1.CurrentLeaderEpoch t, set := fun t x => FetchPartition1_with_CurrentLeaderEpoch t x }
theorem FetchPartition1.gateCurrentLeaderEpoch_holds : FetchPartition1.gateCurrentLeaderEpoch.Holds where
  get_set _ _ := rfl
  encode v h t x := by
    change FetchPartition1.encode v (FetchPartition1_with_CurrentLeaderEpoch t x) = FetchPartition1.encode v t
    change ¬(v ≥ 9) at h
    simp only [FetchPartition1.encode, FetchPartition1_with_CurrentLeaderEpoch, onlyIf_neg h]
  size v h t x := by
    change FetchPartition1.size v (FetchPartition1_with_CurrentLeaderEpoch t x) = FetchPartition1.size v t
    change ¬(v ≥ 9) at h
    simp only [FetchPartition1.size, FetchPartition1_with_CurrentLeaderEpoch, onlyIf_neg h]
  decode v h := by
    change ¬(v ≥ 9) at h
    refine (?_ : Keeps (fun t : FetchPartition1 => t.CurrentLeaderEpoch) (FetchPartition1.decode v))
    unfold FetchPartition1.decode
    repeat' first
      | exact Keeps.absent h
      | apply Keeps.andThen
      | exact Keeps.field fun _ _ => rfl
      | exact Keeps.fieldStructs fun _ _ => rfl
      | apply Keeps.onlyIf
  carried v h t t0 t1 := by
    change (FetchPartition1.seen v t t0).CurrentLeaderEpoch = (FetchPartition1.seen v t t1).CurrentLeaderEpoch
    change v ≥ 9 at h
    simp only [FetchPartition1.seen, if_pos h]

/-- `t.LogStartOffset = x` -/
def FetchPartition1_with_LogStartOffset (t : FetchPartition1) (x : Int64) : FetchPartition1 := { t with LogStartOffset := x }
/-- `FetchPartition1.LogStartOffset` -/
def FetchPartition1.gateLogStartOffset : Gate :=
  { M := FetchPartition1.type, L := FetchPartition1.layout, field := "LogStartOffset", α := Int64, present := fun v => v ≥ 5,
    get := fun t => FetchPartition1.LogStartOffset t, set := fun t x => FetchPartition1_with_LogStartOffset t x }
theorem FetchPartition1.gateLogStartOffset_holds : FetchPartition1.gateLogStartOffset.Holds where
  get_set _ _ := rfl
  encode v h t x := by
    change FetchPartition1.encode v (FetchPartition1_with_LogStartOffset t x) = FetchPartition1.encode v t
    change ¬(v ≥ 5) at h
    simp only [FetchPartition1.encode, FetchPartition1_with_LogStartOffset, onlyIf_neg h]
  size v h t x := by
    change FetchPartition1.size v (FetchPartition1_with_LogStartOffset t x) = FetchPartition1.size v t
    change ¬(v ≥ 5) at h
    simp only [FetchPartition1.size, FetchPartition1_with_LogStartOffset, onlyIf_neg h]
  decode v h := by
    change ¬(v ≥ 5) at h
    refine (?_ : Keeps (fun t : FetchPartition1 => t.LogStartOffset) (FetchPartition1.decode v))
    unfold FetchPartition1.decode
    repeat' first
      | exact Keeps.absent h
      | apply Keeps.andThen
      | exact Keeps.field fun _ _ => rfl
      | exact Keeps.fieldStructs fun _ _ => rfl
      | apply Keeps.onlyIf
  carried v h t t0 t1 := by
    change (FetchPartition1.seen v t t0).LogStartOffset = (FetchPartition1.seen v t t1).LogStartOffset
    change v ≥ 5 at h
    simp only [FetchPartition1.seen, if_pos h]

/-- `t.Name = x` -/
def ForgottenTopic1_with_Name (t : ForgottenTopic1) (x : GoString) : ForgottenTopic1 := { t with Name := x }
/-- `ForgottenTopic1.Name` -/
def ForgottenTopic1.gateName : Gate :=
  { M := ForgottenTopic1.type, L := ForgottenTopic1.layout, field := "Name", α := GoString, present := fun v => v ≥ 7,
    get := fun t => ForgottenTopic1.Name t, set := fun t x => ForgottenTopic1_with_Name t x }
theorem ForgottenTopic1.gateName_holds : ForgottenTopic1.gateName.Holds where
  get_set _ _ := rfl
  encode v h t x := by
    change ForgottenTopic1.encode v (ForgottenTopic1_with_Name t x) = ForgottenTopic1.encode v t
    change ¬(v ≥ 7) at h
    simp only [ForgottenTopic1.encode, ForgottenTopic1_with_Name, onlyIf_neg h]
  size v h t x := by
    change ForgottenTopic1.size v (ForgottenTopic1_with_Name t x) = ForgottenTopic1.size v t
    change ¬(v ≥ 7) at h
    simp only [ForgottenTopic1.size, ForgottenTopic1_with_Name, onlyIf_neg h]
  decode v h := by
    change ¬(v ≥ 7) at h
    refine (?_ : Keeps (fun t : ForgottenTopic1 => t.Name) (ForgottenTopic1.decode v))
    unfold ForgottenTopic1.decode
    repeat' first
      | exact Keeps.absent h
      | apply Keeps.andThen
      | exact Keeps.field fun _ _ => rfl
      | exact Keeps.fieldStructs fun _ _ => rfl
      | apply Keeps.onlyIf
  carried v h t t0 t1 := by
    change (ForgottenTopic1.seen v t t0).Name = (ForgottenTopic1.seen v t t1).Name
    change v ≥ 7 at h
    simp only [ForgottenTopic1.seen, if_pos h]

/-- `t.ForgottenPartitionIndexes = x` -/
def ForgottenTopic1_with_ForgottenPartitionIndexes (t : ForgottenTopic1) (x : Slice Int32) : ForgottenTopic1 := { t with ForgottenPartitionIndexes := x }
/-- `ForgottenTopic1.ForgottenPartitionIndexes` -/
def ForgottenTopic1.gateForgottenPartitionIndexes : Gate :=
  { M := ForgottenTopic1.type, L := ForgottenTopic1.layout, field := "ForgottenPartitionIndexes", α := Slice Int32, present := fun v => v ≥ 7,
    get := fun t => ForgottenTopic1.ForgottenPartitionIndexes t, set := fun t x => ForgottenTopic1_with_ForgottenPartitionIndexes t x }
theorem ForgottenTopic1.gateForgottenPartitionIndexes_holds : ForgottenTopic1.gateForgottenPartitionIndexes.Holds where
  get_set _ _ := rfl
  encode v h t x := by
    change ForgottenTopic1.encode v (ForgottenTopic1_with_ForgottenPartitionIndexes t x) = ForgottenTopic1.encode v t
    change ¬(v ≥ 7) at h
    simp only [ForgottenTopic1.encode, ForgottenTopic1_with_ForgottenPartitionIndexes, onlyIf_neg h]
  size v h t x := by
    change ForgottenTopic1.size v (ForgottenTopic1_with_ForgottenPartitionIndexes t x) = ForgottenTopic1.size v t
    change ¬(v ≥ 7) at h
    simp only [ForgottenTopic1.size, ForgottenTopic1_with_ForgottenPartitionIndexes, onlyIf_neg h]
  decode v h := by
    change ¬(v ≥ 7) at h
    refine (?_ : Keeps (fun t : ForgottenTopic1 => t.ForgottenPartitionIndexes) (ForgottenTopic1.decode v))
    unfold ForgottenTopic1.decode
    repeat' first
      | exact Keeps.absent h
      | apply Keeps.andThen
      | exact Keeps.field fun _ _ => rfl
      | exact Keeps.fieldStructs fun _ _ => rfl
      | apply Keeps.onlyIf
  carried v h t t0 t1 := by
    change (ForgottenTopic1.seen v t t0).ForgottenPartitionIndexes = (ForgottenTopic1.seen v t t1).ForgottenPartitionIndexes
    change v ≥ 7 at h
    simp only [ForgottenTopic1.seen, if_pos h]

/-- `t.ThrottleTimeMs = x` -/
def FetchResponse_with_ThrottleTimeMs (t : FetchResponse) (x : Int32) : FetchResponse := { t with ThrottleTimeMs := x }
/-- `FetchResponse.ThrottleTimeMs` -/
def FetchResponse.gateThrottleTimeMs : Gate :=
  { M := FetchResponse.type, L := FetchResponse.layout, field := "ThrottleTimeMs", α := Int32, present := fun v => v ≥ 1,
    get := fun t => FetchResponse.ThrottleTimeMs t, set := fun t x => FetchResponse_with_ThrottleTimeMs t x }
theorem FetchResponse.gateThrottleTimeMs_holds : FetchResponse.gateThrottleTimeMs.Holds where
  get_set _ _ := rfl
  encode v h t x := by
    change FetchResponse.encode v (FetchResponse_with_ThrottleTimeMs t x) = FetchResponse.encode v t
    change ¬(v ≥ 1) at h
    simp only [FetchResponse.encode, FetchResponse_with_ThrottleTimeMs, onlyIf_neg h]
  size v h t x := by
    change FetchResponse.size v (FetchResponse_with_ThrottleTimeMs t x) = FetchResponse.size v t
    change ¬(v ≥ 1) at h
    simp only [FetchResponse.size, FetchResponse_with_ThrottleTimeMs, onlyIf_neg h]
  decode v h := by
    change ¬(v ≥ 1) at h
    refine (?_ : Keeps (fun t : FetchResponse => t.ThrottleTimeMs) (FetchResponse.decode v))
    unfold FetchResponse.decode
    repeat' first
      | exact Keeps.absent h
      | apply Keeps.andThen
      | exact Keeps.field fun _ _ => rfl
      | exact Keeps.fieldStructs fun _ _ => rfl
      | apply Keeps.onlyIf
  carried v h t t0 t1 := by
    change (FetchResponse.seen v t t0).ThrottleTimeMs = (FetchResponse.seen v t t1).ThrottleTimeMs
    change v ≥ 1 at h
    simp only [FetchResponse.seen, if_pos h]

/-- `t.ErrorCode = x` -/
def FetchResponse_with_ErrorCode (t : FetchResponse) (x : Int16) : FetchResponse := { t with ErrorCode := x }
/-- `FetchResponse.ErrorCode` -/
def FetchResponse.gateErrorCode : Gate :=
  { M := FetchResponse.type, L := FetchResponse.layout, field := "ErrorCode", α := Int16, present := fun v => v ≥ 7,
    get := fun t => FetchResponse.ErrorCode t, set := fun t x => FetchResponse_with_ErrorCode t x }
theorem FetchResponse.gateErrorCode_holds : FetchResponse.gateErrorCode.Holds where
  get_set _ _ := rfl
  encode v h t x := by
    change FetchResponse.encode v (FetchResponse_with_ErrorCode t x) = FetchResponse.encode v t
    change ¬(v ≥ 7) at h
    simp only [FetchResponse.encode, FetchResponse_with_ErrorCode, onlyIf_neg h]
  size v h t x := by
    change FetchResponse.size v (FetchResponse_with_ErrorCode t x) = FetchResponse.size v t
    change ¬(v ≥ 7) at h
    simp only [FetchResponse.size, FetchResponse_with_ErrorCode, onlyIf_neg h]
  decode v h := by
    change ¬(v ≥ 7) at h
    refine (?_ : Keeps (fun t : FetchResponse => t.ErrorCode) (FetchResponse.decode v))
    unfold FetchResponse.decode
    repeat' first
      | exact Keeps.absent h
      | apply Keeps.andThen
      | exact Keeps.field fun _ _ => rfl
      | exact Keeps.fieldStructs fun _ _ => rfl
      | apply Keeps.onlyIf
  carried v h t t0 t1 := by
    change (FetchResponse.seen v t t0).ErrorCode = (FetchResponse.seen v t t1).ErrorCode
    change v ≥ 7 at h
    simp only [FetchResponse.seen, if_pos h]

/-- `t.SessionId = x` -/
def FetchResponse_with_SessionId (t : FetchResponse) (x : Int32) : FetchResponse := { t with SessionId := x }
/-- `FetchResponse.SessionId` -/
def FetchResponse.gateSessionId : Gate :=
  { M := FetchResponse.type, L := FetchResponse.layout, field := "SessionId", α := Int32, present := fun v => v ≥ 7,
    get := fun t => FetchResponse.SessionId t, set := fun t x => FetchResponse_with_SessionId t x }
theorem FetchResponse.gateSessionId_holds : FetchResponse.gateSessionId.Holds where
  get_set _ _ := rfl
  encode v h t x := by
    change FetchResponse.encode v (FetchResponse_with_SessionId t x) = FetchResponse.encode v t
    change ¬(v ≥ 7) at h
    simp only [FetchResponse.encode, FetchResponse_with_SessionId, onlyIf_neg h]
  size v h t x := by
    change FetchResponse.size v (FetchResponse_with_SessionId t x) = FetchResponse.size v t
    change ¬(v ≥ 7) at h
    simp only [FetchResponse.size, FetchResponse_with_SessionId, onlyIf_neg h]
  decode v h := by
    change ¬(v ≥ 7) at h
    refine (?_ : Keeps (fun t : FetchResponse => t.SessionId) (FetchResponse.decode v))
    unfold FetchResponse.decode
    repeat' first
      | exact Keeps.absent h
      | apply Keeps.andThen
      | exact Keeps.field fun _ _ => rfl
      | exact Keeps.fieldStructs fun _ _ => rfl
      | apply Keeps.onlyIf
  carried v h t t0 t1 := by
    change (FetchResponse.seen v t t0).SessionId = (FetchResponse.seen v t t1).SessionId
    change v ≥ 7 at h
    simp only [FetchResponse.seen, if_pos h]

/-- `t.LastStableOffset = x` -/
def FetchablePartitionResponse1_with_LastStableOffset (t : FetchablePartitionResponse1) (x : Int64) : FetchablePartitionResponse1 := { t with LastStableOffset := x }
/-- `FetchablePartitionResponse1.LastStableOffset` -/
def FetchablePartitionResponse1.gateLastStableOffset : Gate :=
  { M := FetchablePartitionResponse1.type, L := FetchablePartitionResponse1.layout, field := "LastStableOffset", α := Int64, present := fun v => v ≥ 4,
    get := fun t => FetchablePartitionResponse1.LastStableOffset t, set := fun t x => FetchablePartitionResponse1_with_LastStableOffset t x }
theorem FetchablePartitionResponse1.gateLastStableOffset_holds : FetchablePartitionResponse1.gateLastStableOffset.Holds where
  get_set _ _ := rfl
  encode v h t x := by
    change FetchablePartitionResponse1.encode v (FetchablePartitionResponse1_with_LastStableOffset t x) = FetchablePartitionResponse1.encode v t
    change ¬(v ≥ 4) at h
    simp only [FetchablePartitionResponse1.encode, FetchablePartitionResponse1_with_LastStableOffset, onlyIf_neg h]
  size v h t x := by
    change FetchablePartitionResponse1.size v (FetchablePartitionResponse1_with_LastStableOffset t x) = FetchablePartitionResponse1.size v t
    change ¬(v ≥ 4) at h
    simp only [FetchablePartitionResponse1.size, FetchablePartitionResponse1_with_LastStableOffset, onlyIf_neg h]
  decode v h := by
    change ¬(v ≥ 4) at h
    refine (?_ : Keeps (fun t : FetchablePartitionResponse1 => t.LastStableOffset) (FetchablePartitionResponse1.decode v))
    unfold FetchablePartitionResponse1.decode
    repeat' first
      | exact Keeps.absent h
      | apply Keeps.andThen
      | exact Keeps.field fun _ _ => rfl
      | exact Keeps.fieldStructs fun _ _ => rfl
      | apply Keeps.onlyIf
  carried v h t t0 t1 := by
    change (FetchablePartitionResponse1.seen v t t0).LastStableOffset = (FetchablePartitionResponse1.seen v t t1).LastStableOffset
    change v ≥ 4 at h
    simp only [FetchablePartitionResponse1.seen, if_pos h]

/-- `t.LogStartOffset = x` -/
def FetchablePartitionResponse1_with_LogStartOffset (t : FetchablePartitionResponse1) (x : Int64) : FetchablePartitionResponse1 := { t with LogStartOffset := x }
/-- `FetchablePartitionResponse1.LogStartOffset` -/
def FetchablePartitionResponse1.gateLogStartOffset : Gate :=
  { M := FetchablePartitionResponse1.type, L := FetchablePartitionResponse1.layout, field := "LogStartOffset", α := Int64, present := fun v => v ≥ 5,
    get := fun t => FetchablePartitionResponse1.LogStartOffset t, set := fun t x => FetchablePartitionResponse1_with_LogStartOffset t x }
theorem FetchablePartitionResponse1.gateLogStartOffset_holds : FetchablePartitionResponse1.gateLogStartOffset.Holds where
  get_set _ _ := rfl
  encode v h t x := by
    change FetchablePartitionResponse1.encode v (FetchablePartitionResponse1_with_LogStartOffset t x) = FetchablePartitionResponse1.encode v t
    change ¬(v ≥ 5) at h
    simp only [FetchablePartitionResponse1.encode, FetchablePartitionResponse1_with_LogStartOffset, onlyIf_neg h]
  size v h t x := by
    change FetchablePartitionResponse1.size v (FetchablePartitionResponse1_with_LogStartOffset t x) = FetchablePartitionResponse1.size v t
    change ¬(v ≥ 5) at h
    simp only [FetchablePartitionResponse1.size, FetchablePartitionResponse1_with_LogStartOffset, onlyIf_neg h]
  decode v h := by
    change ¬(v ≥ 5) at h
    refine (?_ : Keeps (fun t : FetchablePartitionResponse1 => t.LogStartOffset) (FetchablePartitionResponse1.decode v))
    unfold FetchablePartitionResponse1.decode
    repeat' first
      | exact Keeps.absent h
      | apply Keeps.andThen
      | exact Keeps.field fun _ _ => rfl
      | exact Keeps.fieldStructs fun _ _ => rfl
      | apply Keeps.onlyIf
  carried v h t t0 t1 := by
    change (FetchablePartitionResponse1.seen v t t0).LogStartOffset = (FetchablePartitionResponse1.seen v t t1).LogStartOffset
    change v ≥ 5 at h
    simp only [FetchablePartitionResponse1.seen, if_pos h]

/-- `t.Aborted = x` -/
def FetchablePartitionResponse1_with_Aborted (t : FetchablePartitionResponse1) (x : Slice AbortedTransaction1) : FetchablePartitionResponse1 := { t with Aborted := x }
/-- `FetchablePartitionResponse1.Aborted` -/
def FetchablePartitionResponse1.gateAborted : Gate :=
  { M := FetchablePartitionResponse1.type, L := FetchablePartitionResponse1.layout, field := "Aborted", α := Slice AbortedTransaction1, present := fun v => v ≥ 4,
    get := fun t => FetchablePartitionResponse1.Aborted t, set := fun t x => FetchablePartitionResponse1_with_Aborted t x }
theorem FetchablePartitionResponse1.gateAborted_holds : FetchablePartitionResponse1.gateAborted.Holds where
  get_set _ _ := rfl
  encode v h t x := by
    change FetchablePartitionResponse1.encode v (FetchablePartitionResponse1_with_Aborted t x) = FetchablePartitionResponse1.encode v t
    change ¬(v ≥ 4) at h
    simp only [FetchablePartitionResponse1.encode, FetchablePartitionResponse1_with_Aborted, onlyIf_neg h]
  size v h t x := by
    change FetchablePartitionResponse1.size v (FetchablePartitionResponse1_with_Aborted t x) = FetchablePartitionResponse1.size v t
    change ¬(v ≥ 4) at h
    simp only [FetchablePartitionResponse1.size, FetchablePartitionResponse1_with_Aborted, onlyIf_neg h]
  decode v h := by
    change ¬(v ≥ 4) at h
    refine (?_ : Keeps (fun t : FetchablePartitionResponse1 => t.Aborted) (FetchablePartitionResponse1.decode v))
    unfold FetchablePartitionResponse1.decode
    repeat' first
      | exact Keeps.absent h
      | apply Keeps.andThen
      | exact Keeps.field fun _ _ => rfl
      | exact Keeps.fieldStructs fun _ _ => rfl
      | apply Keeps.onlyIf
  carried v h t t0 t1 := by
    change (FetchablePartitionResponse1.seen v t t0).Aborted = (FetchablePartitionResponse1.seen v t t1).Aborted
    change v ≥ 4 at h
    simp only [FetchablePartitionResponse1.seen, if_pos h]

/-- `t.PreferredReadReplica = x` -/
def FetchablePartitionResponse1_with_PreferredReadReplica (t : FetchablePartitionResponse1) (x : Int32) : FetchablePartitionResponse1 := { t with PreferredReadReplica := x }
/-- `FetchablePartitionResponse1.PreferredReadReplica` -/
def FetchablePartitionResponse1.gatePreferredReadReplica : Gate :=
  { M := FetchablePartitionResponse1.type, L := FetchablePartitionResponse1.layout, field := "PreferredReadReplica", α := Int32, present := fun v => v ≥ 11,
    get := fun t => FetchablePartitionResponse1.PreferredReadReplica t, set := fun t x => FetchablePartitionResponse1_with_PreferredReadReplica t x }
theorem FetchablePartitionResponse1.gatePreferredReadReplica_holds : FetchablePartitionResponse1.gatePreferredReadReplica.Holds where
  get_set _ _ := rfl
  encode v h t x := by
    change FetchablePartitionResponse1.encode v (FetchablePartitionResponse1_with_PreferredReadReplica t x) = FetchablePartitionResponse1.encode v t
    change ¬(v ≥ 11) at h
    simp only [FetchablePartitionResponse1.encode, FetchablePartitionResponse1_with_PreferredReadReplica, onlyIf_neg h]
  size v h t x := by
    change FetchablePartitionResponse1.size v (FetchablePartitionResponse1_with_PreferredReadReplica t x) = FetchablePartitionResponse1.size v t
    change ¬(v ≥ 11) at h
    simp only [FetchablePartitionResponse1.size, FetchablePartitionResponse1_with_PreferredReadReplica, onlyIf_neg h]
  decode v h := by
    change ¬(v ≥ 11) at h
    refine (?_ : Keeps (fun t : FetchablePartitionResponse1 => t.PreferredReadReplica) (FetchablePartitionResponse1.decode v))
    unfold FetchablePartitionResponse1.decode
    repeat' first
      | exact Keeps.absent h
      | apply Keeps.andThen
      | exact Keeps.field fun _ _ => rfl
      | exact Keeps.fieldStructs fun _ _ => rfl
      | apply Keeps.onlyIf
  carried v h t t0 t1 := by
    change (FetchablePartitionResponse1.seen v t t0).PreferredReadReplica = (FetchablePartitionResponse1.seen v t t1).PreferredReadReplica
    change v ≥ 11 at h
    simp only [FetchablePartitionResponse1.seen, if_pos h]

/-- `t.ProducerId = x` -/
def AbortedTransaction1_with_ProducerId (t : AbortedTransaction1) (x : Int64) : AbortedTransaction1 := { t with ProducerId := x }
/-- `AbortedTransaction1.ProducerId` -/
def AbortedTransaction1.gateProducerId : Gate :=
  { M := AbortedTransaction1.type, L := AbortedTransaction1.layout, field := "ProducerId", α := Int64, present := fun v => v ≥ 4,
    get := fun t => AbortedTransaction1.ProducerId t, set := fun t x => AbortedTransaction1_with_ProducerId t x }
theorem AbortedTransaction1.gateProducerId_holds : AbortedTransaction1.gateProducerId.Holds where
  get_set _ _ := rfl
  encode v h t x := by
    change AbortedTransaction1.encode v (AbortedTransaction1_with_ProducerId t x) = AbortedTransaction1.encode v t
    change ¬(v ≥ 4) at h
    simp only [AbortedTransaction1.encode, AbortedTransaction1_with_ProducerId, onlyIf_neg h]
  size v h t x := by
    change AbortedTransaction1.size v (AbortedTransaction1_with_ProducerId t x) = AbortedTransaction1.size v t
    change ¬(v ≥ 4) at h
    simp only [AbortedTransaction1.size, AbortedTransaction1_with_ProducerId, onlyIf_neg h]
  decode v h := by
    change ¬(v ≥ 4) at h
    refine (?_ : Keeps (fun t : AbortedTransaction1 => t.ProducerId) (AbortedTransaction1.decode v))
    unfold AbortedTransaction1.decode
    repeat' first
      | exact Keeps.absent h
      | apply Keeps.andThen
      | exact Keeps.field fun _ _ => rfl
      | exact Keeps.fieldStructs fun _ _ => rfl
      | apply Keeps.onlyIf
  carried v h t t0 t1 := by
    change (AbortedTransaction1.seen v t t0).ProducerId = (AbortedTransaction1.seen v t t1).ProducerId
    change v ≥ 4 at h
    simp only [AbortedTransaction1.seen, if_pos h]

/-- `t.FirstOffset = x` -/
def AbortedTransaction1_with_FirstOffset (t : AbortedTransaction1) (x : Int64) : AbortedTransaction1 := { t with FirstOffset := x }
/-- `AbortedTransaction1.FirstOffset` -/
def AbortedTransaction1.gateFirstOffset : Gate :=
  { M := AbortedTransaction1.type, L := AbortedTransaction1.layout, field := "FirstOffset", α := Int64, present := fun v => v ≥ 4,
    get := fun t => AbortedTransaction1.FirstOffset t, set := fun t x => AbortedTransaction1_with_FirstOffset t x }
theorem AbortedTransaction1.gateFirstOffset_holds : AbortedTransaction1.gateFirstOffset.Holds where
  get_set _ _ := rfl
  encode v h t x := by
    change AbortedTransaction1.encode v (AbortedTransaction1_with_FirstOffset t x) = AbortedTransaction1.encode v t
    change ¬(v ≥ 4) at h
    simp only [AbortedTransaction1.encode, AbortedTransaction1_with_FirstOffset, onlyIf_neg h]
  size v h t x := by
    change AbortedTransaction1.size v (AbortedTransaction1_with_FirstOffset t x) = AbortedTransaction1.size v t
    change ¬(v ≥ 4) at h
    simp only [AbortedTransaction1.size, AbortedTransaction1_with_FirstOffset, onlyIf_neg h]
  decode v h := by
    change ¬(v ≥ 4) at h
    refine (?_ : Keeps (fun t : AbortedTransaction1 => t.FirstOffset) (AbortedTransaction1.decode v))
    unfold AbortedTransaction1.decode
    repeat' first
      | exact Keeps.absent h
      | apply Keeps.andThen
      | exact Keeps.field fun _ _ => rfl
      | exact Keeps.fieldStructs fun _ _ => rfl
      | apply Keeps.onlyIf
  carried v h t t0 t1 := by
    change (AbortedTransaction1.seen v t t0).FirstOffset = (AbortedTransaction1.seen v t t1).FirstOffset
    change v ≥ 4 at h
    simp only [AbortedTransaction1.seen, if_pos h]

/-- The version-dependent fields of the Fetch messages. -/
def gatesFetch : List Gate :=
  [FetchRequest.gateMaxBytes,
   FetchRequest.gateIsolationLevel,
   FetchRequest.gateSessionId,
   FetchRequest.gateEpoch,
   FetchRequest.gateForgotten,
   FetchRequest.gateRackId,
   FetchPartition1.gateCurrentLeaderEpoch,
   FetchPartition1.gateLogStartOffset,
   ForgottenTopic1.gateName,
   ForgottenTopic1.gateForgottenPartitionIndexes,
   FetchResponse.gateThrottleTimeMs,
   FetchResponse.gateErrorCode,
   FetchResponse.gateSessionId,
   FetchablePartitionResponse1.gateLastStableOffset,
   FetchablePartitionResponse1.gateLogStartOffset,
   FetchablePartitionResponse1.gateAborted,
   FetchablePartitionResponse1.gatePreferredReadReplica,
   AbortedTransaction1.gateProducerId,
   AbortedTransaction1.gateFirstOffset]

theorem gatesFetch_hold : ∀ g ∈ gatesFetch, g.Holds := by
  unfold gatesFetch
  simp only [List.forall_mem_cons]
  exact ⟨FetchRequest.gateMaxBytes_holds,
    FetchRequest.gateIsolationLevel_holds,
    FetchRequest.gateSessionId_holds,
    FetchRequest.gateEpoch_holds,
    FetchRequest.gateForgotten_holds,
    FetchRequest.gateRackId_holds,
    FetchPartition1.gateCurrentLeaderEpoch_holds,
    FetchPartition1.gateLogStartOffset_holds,
    ForgottenTopic1.gateName_holds,
    ForgottenTopic1.gateForgottenPartitionIndexes_holds,
    FetchResponse.gateThrottleTimeMs_holds,
    FetchResponse.gateErrorCode_holds,
    FetchResponse.gateSessionId_holds,
    FetchablePartitionResponse1.gateLastStableOffset_holds,
    FetchablePartitionResponse1.gateLogStartOffset_holds,
    FetchablePartitionResponse1.gateAborted_holds,
    FetchablePartitionResponse1.gatePreferredReadReplica_holds,
    AbortedTransaction1.gateProducerId_holds,
    AbortedTransaction1.gateFirstOffset_holds,
    fun _ h => absurd h (by simp)⟩

end Kafka.Msg
