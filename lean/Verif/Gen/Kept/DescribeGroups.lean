import Verif.Message.KeptLemmas
import Verif.Gen.Proof.DescribeGroups
/-!
Generated by tools/gen_messages.py: what is in the DescribeGroups messages after an error.
-/
set_option linter.unusedVariables false
namespace Kafka.Msg

/-- message/messages.gen.go:4800-4813 `DescribeGroupsRequest.Decode`, with the receiver kept -/
def DescribeGroupsRequest.decodeK (version : Int16) : KDec DescribeGroupsRequest :=
    KDec.field Dec.stringArray none (fun t x => { t with Groups := x }) ;|>
    KDec.onlyIf (version ≥ 3) (KDec.field Dec.bool false (fun t x => { t with IncludeAuthorizedOperations := x }))

/-- Where the fields of `DescribeGroupsRequest` end. -/
def DescribeGroupsRequest.ends (version : Int16) (t : DescribeGroupsRequest) : Nat → Nat :=
  Cut.ends 0 [Wire.stringArray t.Groups,
    Wire.when (version ≥ 3) (Wire.bool t.IncludeAuthorizedOperations)]

/-- What is left of `t` if only its first `n` bytes are there. -/
def DescribeGroupsRequest.cut (version : Int16) (n : Nat) (t : DescribeGroupsRequest) : DescribeGroupsRequest :=
  { Groups := Cut.field n (t.ends version 0) t.Groups none,
    IncludeAuthorizedOperations := Cut.gate (version ≥ 3) (Cut.field n (t.ends version 1) t.IncludeAuthorizedOperations false) false }

/-- The same after the first `k` statements of `Decode`. -/
def DescribeGroupsRequest.cutAt (version : Int16) (t : DescribeGroupsRequest) (k n : Nat) : DescribeGroupsRequest :=
  { Groups := upto k 0 (Cut.field n (t.ends version 0) t.Groups none) none,
    IncludeAuthorizedOperations := upto k 1 (Cut.gate (version ≥ 3) (Cut.field n (t.ends version 1) t.IncludeAuthorizedOperations false) false) false }

/-- The first `k` fields of `y`, and zeros. -/
def DescribeGroupsRequest.first (k : Nat) (y : DescribeGroupsRequest) : DescribeGroupsRequest :=
  { Groups := upto k 0 y.Groups none,
    IncludeAuthorizedOperations := upto k 1 y.IncludeAuthorizedOperations false }

/-- `r` is a beginning of `y`, and zeros. -/
def DescribeGroupsRequest.Part (r y : DescribeGroupsRequest) : Prop :=
  (∃ k, k < 2 ∧ r = y.first k)

/-- `DescribeGroupsRequest` with its receiver kept. -/
def DescribeGroupsRequest.keeps : KeptMsg DescribeGroupsRequest.type := { decode := DescribeGroupsRequest.decodeK, cut := DescribeGroupsRequest.cut, Part := DescribeGroupsRequest.Part }

theorem DescribeGroupsRequest.sameK (version : Int16) : KStep (DescribeGroupsRequest.decodeK version) (DescribeGroupsRequest.decode version) :=
  (KStep.field)
    |>.andThen (KStep.onlyIf (KStep.field))
theorem DescribeGroupsRequest.cutsK (version : Int16) (t : DescribeGroupsRequest) (h : t.Fits version) :
    Cuts (DescribeGroupsRequest.decodeK version) 0 (DescribeGroupsRequest.wire version t) (DescribeGroupsRequest.ends version t 1) (DescribeGroupsRequest.cutAt version t 0) (DescribeGroupsRequest.cutAt version t 2) :=
  (.field (reads_stringArray h.Groups) (fun _ => rfl) (fun _ => rfl) : Cuts _ 0 _ (DescribeGroupsRequest.ends version t 0) (DescribeGroupsRequest.cutAt version t 0) (DescribeGroupsRequest.cutAt version t 1))
    |>.andThen (.optField (fun _ => reads_bool t.IncludeAuthorizedOperations) (fun _ => rfl) (fun _ => rfl) : Cuts _ (DescribeGroupsRequest.ends version t 0) _ (DescribeGroupsRequest.ends version t 1) (DescribeGroupsRequest.cutAt version t 1) (DescribeGroupsRequest.cutAt version t 2))
theorem DescribeGroupsRequest.partsK (version : Int16) : Parts (DescribeGroupsRequest.decodeK version) (DescribeGroupsRequest.first 0) (DescribeGroupsRequest.first 2) (fun r y => ((r = DescribeGroupsRequest.first 0 y) ∨ (r = DescribeGroupsRequest.first 1 y))) :=
  (.field Longer.stringArray (fun _ => rfl) (fun _ _ => rfl) (fun _ _ => rfl) (fun _ => rfl) : Parts (KDec.field Dec.stringArray none (fun t x => { t with Groups := x })) (DescribeGroupsRequest.first 0) (DescribeGroupsRequest.first 1) (fun r y => r = DescribeGroupsRequest.first 0 y))
    |>.andThen (.onlyIf (.field Longer.bool (fun _ => rfl) (fun _ _ => rfl) (fun _ _ => rfl) (fun _ => rfl)) (fun _ => rfl) : Parts (KDec.onlyIf (version ≥ 3) (KDec.field Dec.bool false (fun t x => { t with IncludeAuthorizedOperations := x }))) (DescribeGroupsRequest.first 1) (DescribeGroupsRequest.first 2) (fun r y => r = DescribeGroupsRequest.first 1 y))
theorem DescribeGroupsRequest.filled (version : Int16) : FilledStep 5 4295000071 (DescribeGroupsRequest.decode version) :=
  ((FilledStep.field .stringArray)
    |>.andThen (FilledStep.onlyIf (FilledStep.field .bool))).mono (by decide) (by decide)
theorem DescribeGroupsRequest.part_of (r y : DescribeGroupsRequest) (h : ((r = DescribeGroupsRequest.first 0 y) ∨ (r = DescribeGroupsRequest.first 1 y))) : DescribeGroupsRequest.Part r y :=
  match h with
    | (.inl h) => ⟨0, by decide, h⟩
    | (.inr h) => ⟨1, by decide, h⟩
theorem DescribeGroupsRequest.keeps_holds : DescribeGroupsRequest.keeps.Holds DescribeGroupsRequest.layout :=
  KeptMsg.holds DescribeGroupsRequest.lawful DescribeGroupsRequest.sameK (stop := fun v t => DescribeGroupsRequest.ends v t 1) (c := fun v t => DescribeGroupsRequest.cutAt v t 0) (fun _ _ _ => rfl) DescribeGroupsRequest.cutsK (c0 := DescribeGroupsRequest.first 0) rfl DescribeGroupsRequest.partsK DescribeGroupsRequest.part_of DescribeGroupsRequest.filled (by decide) (by decide)

/-- message/messages.gen.go:4999-5028 `DescribedGroupMember15.Decode`, with the receiver kept -/
def DescribedGroupMember15.decodeK (version : Int16) : KDec DescribedGroupMember15 :=
    KDec.field Dec.string [] (fun t x => { t with MemberId := x }) ;|>
    KDec.onlyIf (version ≥ 4) (KDec.field Dec.string [] (fun t x => { t with GroupInstanceId := x })) ;|>
    KDec.field Dec.string [] (fun t x => { t with ClientId := x }) ;|>
    KDec.field Dec.string [] (fun t x => { t with ClientHost := x }) ;|>
    KDec.field Dec.bytes none (fun t x => { t with MemberMetadata := x }) ;|>
    KDec.field Dec.bytes none (fun t x => { t with MemberAssignment := x })

/-- Where the fields of `DescribedGroupMember15` end. -/
def DescribedGroupMember15.ends (version : Int16) (t : DescribedGroupMember15) : Nat → Nat :=
  Cut.ends 0 [Wire.string t.MemberId,
    Wire.when (version ≥ 4) (Wire.string t.GroupInstanceId),
    Wire.string t.ClientId,
    Wire.string t.ClientHost,
    Wire.bytes t.MemberMetadata,
    Wire.bytes t.MemberAssignment]

/-- What is left of `t` if only its first `n` bytes are there. -/
def DescribedGroupMember15.cut (version : Int16) (n : Nat) (t : DescribedGroupMember15) : DescribedGroupMember15 :=
  { MemberId := Cut.field n (t.ends version 0) t.MemberId [],
    GroupInstanceId := Cut.gate (version ≥ 4) (Cut.field n (t.ends version 1) t.GroupInstanceId []) [],
    ClientId := Cut.field n (t.ends version 2) t.ClientId [],
    ClientHost := Cut.field n (t.ends version 3) t.ClientHost [],
    MemberMetadata := Cut.field n (t.ends version 4) t.MemberMetadata.nonNil none,
    MemberAssignment := Cut.field n (t.ends version 5) t.MemberAssignment.nonNil none }

/-- The same after the first `k` statements of `Decode`. -/
def DescribedGroupMember15.cutAt (version : Int16) (t : DescribedGroupMember15) (k n : Nat) : DescribedGroupMember15 :=
  { MemberId := upto k 0 (Cut.field n (t.ends version 0) t.MemberId []) [],
    GroupInstanceId := upto k 1 (Cut.gate (version ≥ 4) (Cut.field n (t.ends version 1) t.GroupInstanceId []) []) [],
    ClientId := upto k 2 (Cut.field n (t.ends version 2) t.ClientId []) [],
    ClientHost := upto k 3 (Cut.field n (t.ends version 3) t.ClientHost []) [],
    MemberMetadata := upto k 4 (Cut.field n (t.ends version 4) t.MemberMetadata.nonNil none) none,
    MemberAssignment := upto k 5 (Cut.field n (t.ends version 5) t.MemberAssignment.nonNil none) none }

/-- The first `k` fields of `y`, and zeros. -/
def DescribedGroupMember15.first (k : Nat) (y : DescribedGroupMember15) : DescribedGroupMember15 :=
  { MemberId := upto k 0 y.MemberId [],
    GroupInstanceId := upto k 1 y.GroupInstanceId [],
    ClientId := upto k 2 y.ClientId [],
    ClientHost := upto k 3 y.ClientHost [],
    MemberMetadata := upto k 4 y.MemberMetadata none,
    MemberAssignment := upto k 5 y.MemberAssignment none }

/-- `r` is a beginning of `y`, and zeros. -/
def DescribedGroupMember15.Part (r y : DescribedGroupMember15) : Prop :=
  (∃ k, k < 6 ∧ r = y.first k)

/-- `DescribedGroupMember15` with its receiver kept. -/
def DescribedGroupMember15.keeps : KeptMsg DescribedGroupMember15.type := { decode := DescribedGroupMember15.decodeK, cut := DescribedGroupMember15.cut, Part := DescribedGroupMember15.Part }

theorem DescribedGroupMember15.sameK (version : Int16) : KStep (DescribedGroupMember15.decodeK version) (DescribedGroupMember15.decode version) :=
  (KStep.field)
    |>.andThen (KStep.onlyIf (KStep.field))
    |>.andThen (KStep.field)
    |>.andThen (KStep.field)
    |>.andThen (KStep.field)
    |>.andThen (KStep.field)
theorem DescribedGroupMember15.cutsK (version : Int16) (t : DescribedGroupMember15) (h : t.Fits version) :
    Cuts (DescribedGroupMember15.decodeK version) 0 (DescribedGroupMember15.wire version t) (DescribedGroupMember15.ends version t 5) (DescribedGroupMember15.cutAt version t 0) (DescribedGroupMember15.cutAt version t 6) :=
  (.field (reads_string h.MemberId) (fun _ => rfl) (fun _ => rfl) : Cuts _ 0 _ (DescribedGroupMember15.ends version t 0) (DescribedGroupMember15.cutAt version t 0) (DescribedGroupMember15.cutAt version t 1))
    |>.andThen (.optField (fun hc => reads_string (h.GroupInstanceId hc)) (fun _ => rfl) (fun _ => rfl) : Cuts _ (DescribedGroupMember15.ends version t 0) _ (DescribedGroupMember15.ends version t 1) (DescribedGroupMember15.cutAt version t 1) (DescribedGroupMember15.cutAt version t 2))
    |>.andThen (.field (reads_string h.ClientId) (fun _ => rfl) (fun _ => rfl) : Cuts _ (DescribedGroupMember15.ends version t 1) _ (DescribedGroupMember15.ends version t 2) (DescribedGroupMember15.cutAt version t 2) (DescribedGroupMember15.cutAt version t 3))
    |>.andThen (.field (reads_string h.ClientHost) (fun _ => rfl) (fun _ => rfl) : Cuts _ (DescribedGroupMember15.ends version t 2) _ (DescribedGroupMember15.ends version t 3) (DescribedGroupMember15.cutAt version t 3) (DescribedGroupMember15.cutAt version t 4))
    |>.andThen (.field (reads_bytes h.MemberMetadata) (fun _ => rfl) (fun _ => rfl) : Cuts _ (DescribedGroupMember15.ends version t 3) _ (DescribedGroupMember15.ends version t 4) (DescribedGroupMember15.cutAt version t 4) (DescribedGroupMember15.cutAt version t 5))
    |>.andThen (.field (reads_bytes h.MemberAssignment) (fun _ => rfl) (fun _ => rfl) : Cuts _ (DescribedGroupMember15.ends version t 4) _ (DescribedGroupMember15.ends version t 5) (DescribedGroupMember15.cutAt version t 5) (DescribedGroupMember15.cutAt version t 6))
theorem DescribedGroupMember15.partsK (version : Int16) : Parts (DescribedGroupMember15.decodeK version) (DescribedGroupMember15.first 0) (DescribedGroupMember15.first 6) (fun r y => ((((((r = DescribedGroupMember15.first 0 y) ∨ (r = DescribedGroupMember15.first 1 y)) ∨ (r = DescribedGroupMember15.first 2 y)) ∨ (r = DescribedGroupMember15.first 3 y)) ∨ (r = DescribedGroupMember15.first 4 y)) ∨ (r = DescribedGroupMember15.first 5 y))) :=
  (.field Longer.string (fun _ => rfl) (fun _ _ => rfl) (fun _ _ => rfl) (fun _ => rfl) : Parts (KDec.field Dec.string [] (fun t x => { t with MemberId := x })) (DescribedGroupMember15.first 0) (DescribedGroupMember15.first 1) (fun r y => r = DescribedGroupMember15.first 0 y))
    |>.andThen (.onlyIf (.field Longer.string (fun _ => rfl) (fun _ _ => rfl) (fun _ _ => rfl) (fun _ => rfl)) (fun _ => rfl) : Parts (KDec.onlyIf (version ≥ 4) (KDec.field Dec.string [] (fun t x => { t with GroupInstanceId := x }))) (DescribedGroupMember15.first 1) (DescribedGroupMember15.first 2) (fun r y => r = DescribedGroupMember15.first 1 y))
    |>.andThen (.field Longer.string (fun _ => rfl) (fun _ _ => rfl) (fun _ _ => rfl) (fun _ => rfl) : Parts (KDec.field Dec.string [] (fun t x => { t with ClientId := x })) (DescribedGroupMember15.first 2) (DescribedGroupMember15.first 3) (fun r y => r = DescribedGroupMember15.first 2 y))
    |>.andThen (.field Longer.string (fun _ => rfl) (fun _ _ => rfl) (fun _ _ => rfl) (fun _ => rfl) : Parts (KDec.field Dec.string [] (fun t x => { t with ClientHost := x })) (DescribedGroupMember15.first 3) (DescribedGroupMember15.first 4) (fun r y => r = DescribedGroupMember15.first 3 y))
    |>.andThen (.field Longer.bytes (fun _ => rfl) (fun _ _ => rfl) (fun _ _ => rfl) (fun _ => rfl) : Parts (KDec.field Dec.bytes none (fun t x => { t with MemberMetadata := x })) (DescribedGroupMember15.first 4) (DescribedGroupMember15.first 5) (fun r y => r = DescribedGroupMember15.first 4 y))
    |>.andThen (.field Longer.bytes (fun _ => rfl) (fun _ _ => rfl) (fun _ _ => rfl) (fun _ => rfl) : Parts (KDec.field Dec.bytes none (fun t x => { t with MemberAssignment := x })) (DescribedGroupMember15.first 5) (DescribedGroupMember15.first 6) (fun r y => r = DescribedGroupMember15.first 5 y))
theorem DescribedGroupMember15.filled (version : Int16) : FilledStep 16 2147483656 (DescribedGroupMember15.decode version) :=
  ((FilledStep.field .string)
    |>.andThen (FilledStep.onlyIf (FilledStep.field .string))
    |>.andThen (FilledStep.field .string)
    |>.andThen (FilledStep.field .string)
    |>.andThen (FilledStep.field .bytes)
    |>.andThen (FilledStep.field .bytes)).mono (by decide) (by decide)
theorem DescribedGroupMember15.part_of (r y : DescribedGroupMember15) (h : ((((((r = DescribedGroupMember15.first 0 y) ∨ (r = DescribedGroupMember15.first 1 y)) ∨ (r = DescribedGroupMember15.first 2 y)) ∨ (r = DescribedGroupMember15.first 3 y)) ∨ (r = DescribedGroupMember15.first 4 y)) ∨ (r = DescribedGroupMember15.first 5 y))) : DescribedGroupMember15.Part r y :=
  match h with
    | (.inl (.inl (.inl (.inl (.inl h))))) => ⟨0, by decide, h⟩
    | (.inl (.inl (.inl (.inl (.inr h))))) => ⟨1, by decide, h⟩
    | (.inl (.inl (.inl (.inr h)))) => ⟨2, by decide, h⟩
    | (.inl (.inl (.inr h))) => ⟨3, by decide, h⟩
    | (.inl (.inr h)) => ⟨4, by decide, h⟩
    | (.inr h) => ⟨5, by decide, h⟩
theorem DescribedGroupMember15.keeps_holds : DescribedGroupMember15.keeps.Holds DescribedGroupMember15.layout :=
  KeptMsg.holds DescribedGroupMember15.lawful DescribedGroupMember15.sameK (stop := fun v t => DescribedGroupMember15.ends v t 5) (c := fun v t => DescribedGroupMember15.cutAt v t 0) (fun _ _ _ => rfl) DescribedGroupMember15.cutsK (c0 := DescribedGroupMember15.first 0) rfl DescribedGroupMember15.partsK DescribedGroupMember15.part_of DescribedGroupMember15.filled (by decide) (by decide)

/-- message/messages.gen.go:4919-4961 `DescribedGroup15.Decode`, with the receiver kept -/
def DescribedGroup15.decodeK (version : Int16) : KDec DescribedGroup15 :=
    KDec.field Dec.int16 0 (fun t x => { t with ErrorCode := x }) ;|>
    KDec.field Dec.string [] (fun t x => { t with GroupId := x }) ;|>
    KDec.field Dec.string [] (fun t x => { t with GroupState := x }) ;|>
    KDec.field Dec.string [] (fun t x => { t with ProtocolType := x }) ;|>
    KDec.field Dec.string [] (fun t x => { t with ProtocolData := x }) ;|>
    KDec.fieldStructs (DescribedGroupMember15.decodeK version {}) {} (fun t x => { t with Members := x }) ;|>
    KDec.onlyIf (version ≥ 3) (KDec.field Dec.int32 0 (fun t x => { t with AuthorizedOperations := x }))

/-- Where the fields of `DescribedGroup15` end. -/
def DescribedGroup15.ends (version : Int16) (t : DescribedGroup15) : Nat → Nat :=
  Cut.ends 0 [Wire.int16 t.ErrorCode,
    Wire.string t.GroupId,
    Wire.string t.GroupState,
    Wire.string t.ProtocolType,
    Wire.string t.ProtocolData,
    Wire.array (DescribedGroupMember15.wire version) t.Members,
    Wire.when (version ≥ 3) (Wire.int32 t.AuthorizedOperations)]

/-- What is left of `t` if only its first `n` bytes are there. -/
def DescribedGroup15.cut (version : Int16) (n : Nat) (t : DescribedGroup15) : DescribedGroup15 :=
  { ErrorCode := Cut.field n (t.ends version 0) t.ErrorCode 0,
    GroupId := Cut.field n (t.ends version 1) t.GroupId [],
    GroupState := Cut.field n (t.ends version 2) t.GroupState [],
    ProtocolType := Cut.field n (t.ends version 3) t.ProtocolType [],
    ProtocolData := Cut.field n (t.ends version 4) t.ProtocolData [],
    Members := Cut.array n (t.ends version 4) (DescribedGroupMember15.wire version) (fun x => x.seen version {}) {} t.Members,
    AuthorizedOperations := Cut.gate (version ≥ 3) (Cut.field n (t.ends version 6) t.AuthorizedOperations 0) 0 }

/-- The same after the first `k` statements of `Decode`. -/
def DescribedGroup15.cutAt (version : Int16) (t : DescribedGroup15) (k n : Nat) : DescribedGroup15 :=
  { ErrorCode := upto k 0 (Cut.field n (t.ends version 0) t.ErrorCode 0) 0,
    GroupId := upto k 1 (Cut.field n (t.ends version 1) t.GroupId []) [],
    GroupState := upto k 2 (Cut.field n (t.ends version 2) t.GroupState []) [],
    ProtocolType := upto k 3 (Cut.field n (t.ends version 3) t.ProtocolType []) [],
    ProtocolData := upto k 4 (Cut.field n (t.ends version 4) t.ProtocolData []) [],
    Members := upto k 5 (Cut.array n (t.ends version 4) (DescribedGroupMember15.wire version) (fun x => x.seen version {}) {} t.Members) none,
    AuthorizedOperations := upto k 6 (Cut.gate (version ≥ 3) (Cut.field n (t.ends version 6) t.AuthorizedOperations 0) 0) 0 }

/-- The first `k` fields of `y`, and zeros. -/
def DescribedGroup15.first (k : Nat) (y : DescribedGroup15) : DescribedGroup15 :=
  { ErrorCode := upto k 0 y.ErrorCode 0,
    GroupId := upto k 1 y.GroupId [],
    GroupState := upto k 2 y.GroupState [],
    ProtocolType := upto k 3 y.ProtocolType [],
    ProtocolData := upto k 4 y.ProtocolData [],
    Members := upto k 5 y.Members none,
    AuthorizedOperations := upto k 6 y.AuthorizedOperations 0 }

/-- `r` is a beginning of `y`, and zeros. -/
def DescribedGroup15.Part (r y : DescribedGroup15) : Prop :=
  (∃ k, k < 7 ∧ r = y.first k) ∨
    Cut.begun {} (fun t => t.Members) (fun t x => { t with Members := x }) (DescribedGroup15.first 5) r y

/-- `DescribedGroup15` with its receiver kept. -/
def DescribedGroup15.keeps : KeptMsg DescribedGroup15.type := { decode := DescribedGroup15.decodeK, cut := DescribedGroup15.cut, Part := DescribedGroup15.Part }

theorem DescribedGroup15.sameK (version : Int16) : KStep (DescribedGroup15.decodeK version) (DescribedGroup15.decode version) :=
  (KStep.field)
    |>.andThen (KStep.field)
    |>.andThen (KStep.field)
    |>.andThen (KStep.field)
    |>.andThen (KStep.field)
    |>.andThen (KStep.structs (fun _ => rfl) (DescribedGroupMember15.sameK version {}))
    |>.andThen (KStep.onlyIf (KStep.field))
theorem DescribedGroup15.cutsK (version : Int16) (t : DescribedGroup15) (h : t.Fits version) :
    Cuts (DescribedGroup15.decodeK version) 0 (DescribedGroup15.wire version t) (DescribedGroup15.ends version t 6) (DescribedGroup15.cutAt version t 0) (DescribedGroup15.cutAt version t 7) :=
  (.field (reads_int16 t.ErrorCode) (fun _ => rfl) (fun _ => rfl) : Cuts _ 0 _ (DescribedGroup15.ends version t 0) (DescribedGroup15.cutAt version t 0) (DescribedGroup15.cutAt version t 1))
    |>.andThen (.field (reads_string h.GroupId) (fun _ => rfl) (fun _ => rfl) : Cuts _ (DescribedGroup15.ends version t 0) _ (DescribedGroup15.ends version t 1) (DescribedGroup15.cutAt version t 1) (DescribedGroup15.cutAt version t 2))
    |>.andThen (.field (reads_string h.GroupState) (fun _ => rfl) (fun _ => rfl) : Cuts _ (DescribedGroup15.ends version t 1) _ (DescribedGroup15.ends version t 2) (DescribedGroup15.cutAt version t 2) (DescribedGroup15.cutAt version t 3))
    |>.andThen (.field (reads_string h.ProtocolType) (fun _ => rfl) (fun _ => rfl) : Cuts _ (DescribedGroup15.ends version t 2) _ (DescribedGroup15.ends version t 3) (DescribedGroup15.cutAt version t 3) (DescribedGroup15.cutAt version t 4))
    |>.andThen (.field (reads_string h.ProtocolData) (fun _ => rfl) (fun _ => rfl) : Cuts _ (DescribedGroup15.ends version t 3) _ (DescribedGroup15.ends version t 4) (DescribedGroup15.cutAt version t 4) (DescribedGroup15.cutAt version t 5))
    |>.andThen (.structs (DescribedGroupMember15.sameK version {}) (fun x hx => DescribedGroupMember15.reads version x hx {}) h.Members (fun _ => rfl) (fun _ => rfl) : Cuts _ (DescribedGroup15.ends version t 4) _ (DescribedGroup15.ends version t 5) (DescribedGroup15.cutAt version t 5) (DescribedGroup15.cutAt version t 6))
    |>.andThen (.optField (fun _ => reads_int32 t.AuthorizedOperations) (fun _ => rfl) (fun _ => rfl) : Cuts _ (DescribedGroup15.ends version t 5) _ (DescribedGroup15.ends version t 6) (DescribedGroup15.cutAt version t 6) (DescribedGroup15.cutAt version t 7))
theorem DescribedGroup15.partsK (version : Int16) : Parts (DescribedGroup15.decodeK version) (DescribedGroup15.first 0) (DescribedGroup15.first 7) (fun r y => (((((((r = DescribedGroup15.first 0 y) ∨ (r = DescribedGroup15.first 1 y)) ∨ (r = DescribedGroup15.first 2 y)) ∨ (r = DescribedGroup15.first 3 y)) ∨ (r = DescribedGroup15.first 4 y)) ∨ (r = DescribedGroup15.first 5 y ∨ Cut.begun {} (fun t => t.Members) (fun t x => { t with Members := x }) (DescribedGroup15.first 5) r y)) ∨ (r = DescribedGroup15.first 6 y))) :=
  (.field Longer.int16 (fun _ => rfl) (fun _ _ => rfl) (fun _ _ => rfl) (fun _ => rfl) : Parts (KDec.field Dec.int16 0 (fun t x => { t with ErrorCode := x })) (DescribedGroup15.first 0) (DescribedGroup15.first 1) (fun r y => r = DescribedGroup15.first 0 y))
    |>.andThen (.field Longer.string (fun _ => rfl) (fun _ _ => rfl) (fun _ _ => rfl) (fun _ => rfl) : Parts (KDec.field Dec.string [] (fun t x => { t with GroupId := x })) (DescribedGroup15.first 1) (DescribedGroup15.first 2) (fun r y => r = DescribedGroup15.first 1 y))
    |>.andThen (.field Longer.string (fun _ => rfl) (fun _ _ => rfl) (fun _ _ => rfl) (fun _ => rfl) : Parts (KDec.field Dec.string [] (fun t x => { t with GroupState := x })) (DescribedGroup15.first 2) (DescribedGroup15.first 3) (fun r y => r = DescribedGroup15.first 2 y))
    |>.andThen (.field Longer.string (fun _ => rfl) (fun _ _ => rfl) (fun _ _ => rfl) (fun _ => rfl) : Parts (KDec.field Dec.string [] (fun t x => { t with ProtocolType := x })) (DescribedGroup15.first 3) (DescribedGroup15.first 4) (fun r y => r = DescribedGroup15.first 3 y))
    |>.andThen (.field Longer.string (fun _ => rfl) (fun _ _ => rfl) (fun _ _ => rfl) (fun _ => rfl) : Parts (KDec.field Dec.string [] (fun t x => { t with ProtocolData := x })) (DescribedGroup15.first 4) (DescribedGroup15.first 5) (fun r y => r = DescribedGroup15.first 4 y))
    |>.andThen (.structs (get := fun (t : DescribedGroup15) => t.Members) ((DescribedGroupMember15.partsK version).longer {}) (fun _ => rfl) (fun _ => rfl) (fun _ _ => rfl) (fun _ _ => rfl) (fun _ _ => rfl) (fun _ => rfl) (fun _ => rfl) : Parts (KDec.fieldStructs (DescribedGroupMember15.decodeK version {}) {} (fun t x => { t with Members := x })) (DescribedGroup15.first 5) (DescribedGroup15.first 6) (fun r y => r = DescribedGroup15.first 5 y ∨ Cut.begun {} (fun t => t.Members) (fun t x => { t with Members := x }) (DescribedGroup15.first 5) r y))
    |>.andThen (.onlyIf (.field Longer.int32 (fun _ => rfl) (fun _ _ => rfl) (fun _ _ => rfl) (fun _ => rfl)) (fun _ => rfl) : Parts (KDec.onlyIf (version ≥ 3) (KDec.field Dec.int32 0 (fun t x => { t with AuthorizedOperations := x }))) (DescribedGroup15.first 6) (DescribedGroup15.first 7) (fun r y => r = DescribedGroup15.first 6 y))
theorem DescribedGroup15.filled (version : Int16) : FilledStep 18 36507222032 (DescribedGroup15.decode version) :=
  ((FilledStep.field .int16)
    |>.andThen (FilledStep.field .string)
    |>.andThen (FilledStep.field .string)
    |>.andThen (FilledStep.field .string)
    |>.andThen (FilledStep.field .string)
    |>.andThen (FilledStep.structs (DescribedGroupMember15.filled version {}))
    |>.andThen (FilledStep.onlyIf (FilledStep.field .int32))).mono (by decide) (by decide)
theorem DescribedGroup15.part_of (r y : DescribedGroup15) (h : (((((((r = DescribedGroup15.first 0 y) ∨ (r = DescribedGroup15.first 1 y)) ∨ (r = DescribedGroup15.first 2 y)) ∨ (r = DescribedGroup15.first 3 y)) ∨ (r = DescribedGroup15.first 4 y)) ∨ (r = DescribedGroup15.first 5 y ∨ Cut.begun {} (fun t => t.Members) (fun t x => { t with Members := x }) (DescribedGroup15.first 5) r y)) ∨ (r = DescribedGroup15.first 6 y))) : DescribedGroup15.Part r y :=
  match h with
    | (.inl (.inl (.inl (.inl (.inl (.inl h)))))) => .inl ⟨0, by decide, h⟩
    | (.inl (.inl (.inl (.inl (.inl (.inr h)))))) => .inl ⟨1, by decide, h⟩
    | (.inl (.inl (.inl (.inl (.inr h))))) => .inl ⟨2, by decide, h⟩
    | (.inl (.inl (.inl (.inr h)))) => .inl ⟨3, by decide, h⟩
    | (.inl (.inl (.inr h))) => .inl ⟨4, by decide, h⟩
    | (.inl (.inr (.inl h))) => .inl ⟨5, by decide, h⟩
    | (.inl (.inr (.inr h))) => (.inr h)
    | (.inr h) => .inl ⟨6, by decide, h⟩
theorem DescribedGroup15.keeps_holds : DescribedGroup15.keeps.Holds DescribedGroup15.layout :=
  KeptMsg.holds DescribedGroup15.lawful DescribedGroup15.sameK (stop := fun v t => DescribedGroup15.ends v t 6) (c := fun v t => DescribedGroup15.cutAt v t 0) (fun _ _ _ => rfl) DescribedGroup15.cutsK (c0 := DescribedGroup15.first 0) rfl DescribedGroup15.partsK DescribedGroup15.part_of DescribedGroup15.filled (by decide) (by decide)

/-- message/messages.gen.go:4848-4870 `DescribeGroupsResponse.Decode`, with the receiver kept -/
def DescribeGroupsResponse.decodeK (version : Int16) : KDec DescribeGroupsResponse :=
    KDec.onlyIf (version ≥ 1) (KDec.field Dec.int32 0 (fun t x => { t with ThrottleTimeMs := x })) ;|>
    KDec.fieldStructs (DescribedGroup15.decodeK version {}) {} (fun t x => { t with Groups := x })

/-- Where the fields of `DescribeGroupsResponse` end. -/
def DescribeGroupsResponse.ends (version : Int16) (t : DescribeGroupsResponse) : Nat → Nat :=
  Cut.ends 0 [Wire.when (version ≥ 1) (Wire.int32 t.ThrottleTimeMs),
    Wire.array (DescribedGroup15.wire version) t.Groups]

/-- What is left of `t` if only its first `n` bytes are there. -/
def DescribeGroupsResponse.cut (version : Int16) (n : Nat) (t : DescribeGroupsResponse) : DescribeGroupsResponse :=
  { ThrottleTimeMs := Cut.gate (version ≥ 1) (Cut.field n (t.ends version 0) t.ThrottleTimeMs 0) 0,
    Groups := Cut.array n (t.ends version 0) (DescribedGroup15.wire version) (fun x => x.seen version {}) {} t.Groups }

/-- The same after the first `k` statements of `Decode`. -/
def DescribeGroupsResponse.cutAt (version : Int16) (t : DescribeGroupsResponse) (k n : Nat) : DescribeGroupsResponse :=
  { ThrottleTimeMs := upto k 0 (Cut.gate (version ≥ 1) (Cut.field n (t.ends version 0) t.ThrottleTimeMs 0) 0) 0,
    Groups := upto k 1 (Cut.array n (t.ends version 0) (DescribedGroup15.wire version) (fun x => x.seen version {}) {} t.Groups) none }

/-- The first `k` fields of `y`, and zeros. -/
def DescribeGroupsResponse.first (k : Nat) (y : DescribeGroupsResponse) : DescribeGroupsResponse :=
  { ThrottleTimeMs := upto k 0 y.ThrottleTimeMs 0,
    Groups := upto k 1 y.Groups none }

/-- `r` is a beginning of `y`, and zeros. -/
def DescribeGroupsResponse.Part (r y : DescribeGroupsResponse) : Prop :=
  (∃ k, k < 2 ∧ r = y.first k) ∨
    Cut.begun {} (fun t => t.Groups) (fun t x => { t with Groups := x }) (DescribeGroupsResponse.first 1) r y

/-- `DescribeGroupsResponse` with its receiver kept. -/
def DescribeGroupsResponse.keeps : KeptMsg DescribeGroupsResponse.type := { decode := DescribeGroupsResponse.decodeK, cut := DescribeGroupsResponse.cut, Part := DescribeGroupsResponse.Part }

theorem DescribeGroupsResponse.sameK (version : Int16) : KStep (DescribeGroupsResponse.decodeK version) (DescribeGroupsResponse.decode version) :=
  (KStep.onlyIf (KStep.field))
    |>.andThen (KStep.structs (fun _ => rfl) (DescribedGroup15.sameK version {}))
theorem DescribeGroupsResponse.cutsK (version : Int16) (t : DescribeGroupsResponse) (h : t.Fits version) :
    Cuts (DescribeGroupsResponse.decodeK version) 0 (DescribeGroupsResponse.wire version t) (DescribeGroupsResponse.ends version t 1) (DescribeGroupsResponse.cutAt version t 0) (DescribeGroupsResponse.cutAt version t 2) :=
  (.optField (fun _ => reads_int32 t.ThrottleTimeMs) (fun _ => rfl) (fun _ => rfl) : Cuts _ 0 _ (DescribeGroupsResponse.ends version t 0) (DescribeGroupsResponse.cutAt version t 0) (DescribeGroupsResponse.cutAt version t 1))
    |>.andThen (.structs (DescribedGroup15.sameK version {}) (fun x hx => DescribedGroup15.reads version x hx {}) h.Groups (fun _ => rfl) (fun _ => rfl) : Cuts _ (DescribeGroupsResponse.ends version t 0) _ (DescribeGroupsResponse.ends version t 1) (DescribeGroupsResponse.cutAt version t 1) (DescribeGroupsResponse.cutAt version t 2))
theorem DescribeGroupsResponse.partsK (version : Int16) : Parts (DescribeGroupsResponse.decodeK version) (DescribeGroupsResponse.first 0) (DescribeGroupsResponse.first 2) (fun r y => ((r = DescribeGroupsResponse.first 0 y) ∨ (r = DescribeGroupsResponse.first 1 y ∨ Cut.begun {} (fun t => t.Groups) (fun t x => { t with Groups := x }) (DescribeGroupsResponse.first 1) r y))) :=
  (.onlyIf (.field Longer.int32 (fun _ => rfl) (fun _ _ => rfl) (fun _ _ => rfl) (fun _ => rfl)) (fun _ => rfl) : Parts (KDec.onlyIf (version ≥ 1) (KDec.field Dec.int32 0 (fun t x => { t with ThrottleTimeMs := x }))) (DescribeGroupsResponse.first 0) (DescribeGroupsResponse.first 1) (fun r y => r = DescribeGroupsResponse.first 0 y))
    |>.andThen (.structs (get := fun (t : DescribeGroupsResponse) => t.Groups) ((DescribedGroup15.partsK version).longer {}) (fun _ => rfl) (fun _ => rfl) (fun _ _ => rfl) (fun _ _ => rfl) (fun _ _ => rfl) (fun _ => rfl) (fun _ => rfl) : Parts (KDec.fieldStructs (DescribedGroup15.decodeK version {}) {} (fun t x => { t with Groups := x })) (DescribeGroupsResponse.first 1) (DescribeGroupsResponse.first 2) (fun r y => r = DescribeGroupsResponse.first 1 y ∨ Cut.begun {} (fun t => t.Groups) (fun t x => { t with Groups := x }) (DescribeGroupsResponse.first 1) r y))
theorem DescribeGroupsResponse.filled (version : Int16) : FilledStep 8 75161927700 (DescribeGroupsResponse.decode version) :=
  ((FilledStep.onlyIf (FilledStep.field .int32))
    |>.andThen (FilledStep.structs (DescribedGroup15.filled version {}))).mono (by decide) (by decide)
theorem DescribeGroupsResponse.part_of (r y : DescribeGroupsResponse) (h : ((r = DescribeGroupsResponse.first 0 y) ∨ (r = DescribeGroupsResponse.first 1 y ∨ Cut.begun {} (fun t => t.Groups) (fun t x => { t with Groups := x }) (DescribeGroupsResponse.first 1) r y))) : DescribeGroupsResponse.Part r y :=
  match h with
    | (.inl h) => .inl ⟨0, by decide, h⟩
    | (.inr (.inl h)) => .inl ⟨1, by decide, h⟩
    | (.inr (.inr h)) => (.inr h)
theorem DescribeGroupsResponse.keeps_holds : DescribeGroupsResponse.keeps.Holds DescribeGroupsResponse.layout :=
  KeptMsg.holds DescribeGroupsResponse.lawful DescribeGroupsResponse.sameK (stop := fun v t => DescribeGroupsResponse.ends v t 1) (c := fun v t => DescribeGroupsResponse.cutAt v t 0) (fun _ _ _ => rfl) DescribeGroupsResponse.cutsK (c0 := DescribeGroupsResponse.first 0) rfl DescribeGroupsResponse.partsK DescribeGroupsResponse.part_of DescribeGroupsResponse.filled (by decide) (by decide)

/-- The structures of the DescribeGroups messages. -/
def keptDescribeGroups : List (Σ (M : MsgType) (_ : Layout M), KeptMsg M) :=
  [⟨DescribeGroupsRequest.type, DescribeGroupsRequest.layout, DescribeGroupsRequest.keeps⟩,
   ⟨DescribeGroupsResponse.type, DescribeGroupsResponse.layout, DescribeGroupsResponse.keeps⟩,
   ⟨DescribedGroup15.type, DescribedGroup15.layout, DescribedGroup15.keeps⟩,
   ⟨DescribedGroupMember15.type, DescribedGroupMember15.layout, DescribedGroupMember15.keeps⟩]
theorem keptDescribeGroups_holds : ∀ p ∈ keptDescribeGroups, p.2.2.Holds p.2.1 := by
  unfold keptDescribeGroups
  simp only [List.forall_mem_cons]
  exact ⟨DescribeGroupsRequest.keeps_holds, DescribeGroupsResponse.keeps_holds, DescribedGroup15.keeps_holds, DescribedGroupMember15.keeps_holds, fun _ h => absurd h (by simp)⟩

end Kafka.Msg
