import Verif.Message.KeptLemmas
import Verif.Gen.Proof.JoinGroup
/-!
Generated by tools/gen_messages.py: what is in the JoinGroup messages after an error.
-/
set_option linter.unusedVariables false
namespace Kafka.Msg

/-- message/messages.gen.go:4129-4140 `JoinGroupRequestProtocol11.Decode`, with the receiver kept -/
def JoinGroupRequestProtocol11.decodeK (_version : Int16) : KDec JoinGroupRequestProtocol11 :=
    KDec.field Dec.string [] (fun t x => { t with Name := x }) ;|>
    KDec.field Dec.bytes none (fun t x => { t with Metadata := x })

/-- Where the fields of `JoinGroupRequestProtocol11` end. -/
def JoinGroupRequestProtocol11.ends (_version : Int16) (t : JoinGroupRequestProtocol11) : Nat → Nat :=
  Cut.ends 0 [Wire.string t.Name,
    Wire.bytes t.Metadata]

/-- What is left of `t` if only its first `n` bytes are there. -/
def JoinGroupRequestProtocol11.cut (version : Int16) (n : Nat) (t : JoinGroupRequestProtocol11) : JoinGroupRequestProtocol11 :=
  { Name := Cut.field n (t.ends version 0) t.Name [],
    Metadata := Cut.field n (t.ends version 1) t.Metadata.nonNil none }

/-- The same after the first `k` statements of `Decode`. -/
def JoinGroupRequestProtocol11.cutAt (version : Int16) (t : JoinGroupRequestProtocol11) (k n : Nat) : JoinGroupRequestProtocol11 :=
  { Name := upto k 0 (Cut.field n (t.ends version 0) t.Name []) [],
    Metadata := upto k 1 (Cut.field n (t.ends version 1) t.Metadata.nonNil none) none }

/-- The first `k` fields of `y`, and zeros. -/
def JoinGroupRequestProtocol11.first (k : Nat) (y : JoinGroupRequestProtocol11) : JoinGroupRequestProtocol11 :=
  { Name := upto k 0 y.Name [],
    Metadata := upto k 1 y.Metadata none }

/-- `r` is a beginning of `y`, and zeros. -/
def JoinGroupRequestProtocol11.Part (r y : JoinGroupRequestProtocol11) : Prop :=
  (∃ k, k < 2 ∧ r = y.first k)

/-- `JoinGroupRequestProtocol11` with its receiver kept. -/
def JoinGroupRequestProtocol11.keeps : KeptMsg JoinGroupRequestProtocol11.type := { decode := JoinGroupRequestProtocol11.decodeK, cut := JoinGroupRequestProtocol11.cut, Part := JoinGroupRequestProtocol11.Part }

theorem JoinGroupRequestProtocol11.sameK (version : Int16) : KStep (JoinGroupRequestProtocol11.decodeK version) (JoinGroupRequestProtocol11.decode version) :=
  (KStep.field)
    |>.andThen (KStep.field)
theorem JoinGroupRequestProtocol11.cutsK (version : Int16) (t : JoinGroupRequestProtocol11) (h : t.Fits version) :
    Cuts (JoinGroupRequestProtocol11.decodeK version) 0 (JoinGroupRequestProtocol11.wire version t) (JoinGroupRequestProtocol11.ends version t 1) (JoinGroupRequestProtocol11.cutAt version t 0) (JoinGroupRequestProtocol11.cutAt version t 2) :=
  (.field (reads_string h.Name) (fun _ => rfl) (fun _ => rfl) : Cuts _ 0 _ (JoinGroupRequestProtocol11.ends version t 0) (JoinGroupRequestProtocol11.cutAt version t 0) (JoinGroupRequestProtocol11.cutAt version t 1))
    |>.andThen (.field (reads_bytes h.Metadata) (fun _ => rfl) (fun _ => rfl) : Cuts _ (JoinGroupRequestProtocol11.ends version t 0) _ (JoinGroupRequestProtocol11.ends version t 1) (JoinGroupRequestProtocol11.cutAt version t 1) (JoinGroupRequestProtocol11.cutAt version t 2))
theorem JoinGroupRequestProtocol11.partsK (version : Int16) : Parts (JoinGroupRequestProtocol11.decodeK version) (JoinGroupRequestProtocol11.first 0) (JoinGroupRequestProtocol11.first 2) (fun r y => ((r = JoinGroupRequestProtocol11.first 0 y) ∨ (r = JoinGroupRequestProtocol11.first 1 y))) :=
  (.field Longer.string (fun _ => rfl) (fun _ _ => rfl) (fun _ _ => rfl) (fun _ => rfl) : Parts (KDec.field Dec.string [] (fun t x => { t with Name := x })) (JoinGroupRequestProtocol11.first 0) (JoinGroupRequestProtocol11.first 1) (fun r y => r = JoinGroupRequestProtocol11.first 0 y))
    |>.andThen (.field Longer.bytes (fun _ => rfl) (fun _ _ => rfl) (fun _ _ => rfl) (fun _ => rfl) : Parts (KDec.field Dec.bytes none (fun t x => { t with Metadata := x })) (JoinGroupRequestProtocol11.first 1) (JoinGroupRequestProtocol11.first 2) (fun r y => r = JoinGroupRequestProtocol11.first 1 y))
theorem JoinGroupRequestProtocol11.filled (version : Int16) : FilledStep 6 2147483652 (JoinGroupRequestProtocol11.decode version) :=
  ((FilledStep.field .string)
    |>.andThen (FilledStep.field .bytes)).mono (by decide) (by decide)
theorem JoinGroupRequestProtocol11.part_of (r y : JoinGroupRequestProtocol11) (h : ((r = JoinGroupRequestProtocol11.first 0 y) ∨ (r = JoinGroupRequestProtocol11.first 1 y))) : JoinGroupRequestProtocol11.Part r y :=
  match h with
    | (.inl h) => ⟨0, by decide, h⟩
    | (.inr h) => ⟨1, by decide, h⟩
theorem JoinGroupRequestProtocol11.keeps_holds : JoinGroupRequestProtocol11.keeps.Holds JoinGroupRequestProtocol11.layout :=
  KeptMsg.holds JoinGroupRequestProtocol11.lawful JoinGroupRequestProtocol11.sameK (stop := fun v t => JoinGroupRequestProtocol11.ends v t 1) (c := fun v t => JoinGroupRequestProtocol11.cutAt v t 0) (fun _ _ _ => rfl) JoinGroupRequestProtocol11.cutsK (c0 := JoinGroupRequestProtocol11.first 0) rfl JoinGroupRequestProtocol11.partsK JoinGroupRequestProtocol11.part_of JoinGroupRequestProtocol11.filled (by decide) (by decide)

/-- message/messages.gen.go:4063-4107 `JoinGroupRequest.Decode`, with the receiver kept -/
def JoinGroupRequest.decodeK (version : Int16) : KDec JoinGroupRequest :=
    KDec.field Dec.string [] (fun t x => { t with GroupId := x }) ;|>
    KDec.field Dec.int32 0 (fun t x => { t with SessionTimeoutMs := x }) ;|>
    KDec.onlyIf (version ≥ 1) (KDec.field Dec.int32 0 (fun t x => { t with RebalanceTimeoutMs := x })) ;|>
    KDec.field Dec.string [] (fun t x => { t with MemberId := x }) ;|>
    KDec.onlyIf (version ≥ 5) (KDec.field Dec.string [] (fun t x => { t with GroupInstanceId := x })) ;|>
    KDec.field Dec.string [] (fun t x => { t with ProtocolType := x }) ;|>
    KDec.fieldStructs (JoinGroupRequestProtocol11.decodeK version {}) {} (fun t x => { t with Protocols := x })

/-- Where the fields of `JoinGroupRequest` end. -/
def JoinGroupRequest.ends (version : Int16) (t : JoinGroupRequest) : Nat → Nat :=
  Cut.ends 0 [Wire.string t.GroupId,
    Wire.int32 t.SessionTimeoutMs,
    Wire.when (version ≥ 1) (Wire.int32 t.RebalanceTimeoutMs),
    Wire.string t.MemberId,
    Wire.when (version ≥ 5) (Wire.string t.GroupInstanceId),
    Wire.string t.ProtocolType,
    Wire.array (JoinGroupRequestProtocol11.wire version) t.Protocols]

/-- What is left of `t` if only its first `n` bytes are there. -/
def JoinGroupRequest.cut (version : Int16) (n : Nat) (t : JoinGroupRequest) : JoinGroupRequest :=
  { GroupId := Cut.field n (t.ends version 0) t.GroupId [],
    SessionTimeoutMs := Cut.field n (t.ends version 1) t.SessionTimeoutMs 0,
    RebalanceTimeoutMs := Cut.gate (version ≥ 1) (Cut.field n (t.ends version 2) t.RebalanceTimeoutMs 0) 0,
    MemberId := Cut.field n (t.ends version 3) t.MemberId [],
    GroupInstanceId := Cut.gate (version ≥ 5) (Cut.field n (t.ends version 4) t.GroupInstanceId []) [],
    ProtocolType := Cut.field n (t.ends version 5) t.ProtocolType [],
    Protocols := Cut.array n (t.ends version 5) (JoinGroupRequestProtocol11.wire version) (fun x => x.seen version {}) {} t.Protocols }

/-- The same after the first `k` statements of `Decode`. -/
def JoinGroupRequest.cutAt (version : Int16) (t : JoinGroupRequest) (k n : Nat) : JoinGroupRequest :=
  { GroupId := upto k 0 (Cut.field n (t.ends version 0) t.GroupId []) [],
    SessionTimeoutMs := upto k 1 (Cut.field n (t.ends version 1) t.SessionTimeoutMs 0) 0,
    RebalanceTimeoutMs := upto k 2 (Cut.gate (version ≥ 1) (Cut.field n (t.ends version 2) t.RebalanceTimeoutMs 0) 0) 0,
    MemberId := upto k 3 (Cut.field n (t.ends version 3) t.MemberId []) [],
    GroupInstanceId := upto k 4 (Cut.gate (version ≥ 5) (Cut.field n (t.ends version 4) t.GroupInstanceId []) []) [],
    ProtocolType := upto k 5 (Cut.field n (t.ends version 5) t.ProtocolType []) [],
    Protocols := upto k 6 (Cut.array n (t.ends version 5) (JoinGroupRequestProtocol11.wire version) (fun x => x.seen version {}) {} t.Protocols) none }

/-- The first `k` fields of `y`, and zeros. -/
def JoinGroupRequest.first (k : Nat) (y : JoinGroupRequest) : JoinGroupRequest :=
  { GroupId := upto k 0 y.GroupId [],
    SessionTimeoutMs := upto k 1 y.SessionTimeoutMs 0,
    RebalanceTimeoutMs := upto k 2 y.RebalanceTimeoutMs 0,
    MemberId := upto k 3 y.MemberId [],
    GroupInstanceId := upto k 4 y.GroupInstanceId [],
    ProtocolType := upto k 5 y.ProtocolType [],
    Protocols := upto k 6 y.Protocols none }

/-- `r` is a beginning of `y`, and zeros. -/
def JoinGroupRequest.Part (r y : JoinGroupRequest) : Prop :=
  (∃ k, k < 7 ∧ r = y.first k) ∨
    Cut.begun {} (fun t => t.Protocols) (fun t x => { t with Protocols := x }) (JoinGroupRequest.first 6) r y

/-- `JoinGroupRequest` with its receiver kept. -/
def JoinGroupRequest.keeps : KeptMsg JoinGroupRequest.type := { decode := JoinGroupRequest.decodeK, cut := JoinGroupRequest.cut, Part := JoinGroupRequest.Part }

theorem JoinGroupRequest.sameK (version : Int16) : KStep (JoinGroupRequest.decodeK version) (JoinGroupRequest.decode version) :=
  (KStep.field)
    |>.andThen (KStep.field)
    |>.andThen (KStep.onlyIf (KStep.field))
    |>.andThen (KStep.field)
    |>.andThen (KStep.onlyIf (KStep.field))
    |>.andThen (KStep.field)
    |>.andThen (KStep.structs (fun _ => rfl) (JoinGroupRequestProtocol11.sameK version {}))
theorem JoinGroupRequest.cutsK (version : Int16) (t : JoinGroupRequest) (h : t.Fits version) :
    Cuts (JoinGroupRequest.decodeK version) 0 (JoinGroupRequest.wire version t) (JoinGroupRequest.ends version t 6) (JoinGroupRequest.cutAt version t 0) (JoinGroupRequest.cutAt version t 7) :=
  (.field (reads_string h.GroupId) (fun _ => rfl) (fun _ => rfl) : Cuts _ 0 _ (JoinGroupRequest.ends version t 0) (JoinGroupRequest.cutAt version t 0) (JoinGroupRequest.cutAt version t 1))
    |>.andThen (.field (reads_int32 t.SessionTimeoutMs) (fun _ => rfl) (fun _ => rfl) : Cuts _ (JoinGroupRequest.ends version t 0) _ (JoinGroupRequest.ends version t 1) (JoinGroupRequest.cutAt version t 1) (JoinGroupRequest.cutAt version t 2))
    |>.andThen (.optField (fun _ => reads_int32 t.RebalanceTimeoutMs) (fun _ => rfl) (fun _ => rfl) : Cuts _ (JoinGroupRequest.ends version t 1) _ (JoinGroupRequest.ends version t 2) (JoinGroupRequest.cutAt version t 2) (JoinGroupRequest.cutAt version t 3))
    |>.andThen (.field (reads_string h.MemberId) (fun _ => rfl) (fun _ => rfl) : Cuts _ (JoinGroupRequest.ends version t 2) _ (JoinGroupRequest.ends version t 3) (JoinGroupRequest.cutAt version t 3) (JoinGroupRequest.cutAt version t 4))
    |>.andThen (.optField (fun hc => reads_string (h.GroupInstanceId hc)) (fun _ => rfl) (fun _ => rfl) : Cuts _ (JoinGroupRequest.ends version t 3) _ (JoinGroupRequest.ends version t 4) (JoinGroupRequest.cutAt version t 4) (JoinGroupRequest.cutAt version t 5))
    |>.andThen (.field (reads_string h.ProtocolType) (fun _ => rfl) (fun _ => rfl) : Cuts _ (JoinGroupRequest.ends version t 4) _ (JoinGroupRequest.ends version t 5) (JoinGroupRequest.cutAt version t 5) (JoinGroupRequest.cutAt version t 6))
    |>.andThen (.structs (JoinGroupRequestProtocol11.sameK version {}) (fun x hx => JoinGroupRequestProtocol11.reads version x hx {}) h.Protocols (fun _ => rfl) (fun _ => rfl) : Cuts _ (JoinGroupRequest.ends version t 5) _ (JoinGroupRequest.ends version t 6) (JoinGroupRequest.cutAt version t 6) (JoinGroupRequest.cutAt version t 7))
theorem JoinGroupRequest.partsK (version : Int16) : Parts (JoinGroupRequest.decodeK version) (JoinGroupRequest.first 0) (JoinGroupRequest.first 7) (fun r y => (((((((r = JoinGroupRequest.first 0 y) ∨ (r = JoinGroupRequest.first 1 y)) ∨ (r = JoinGroupRequest.first 2 y)) ∨ (r = JoinGroupRequest.first 3 y)) ∨ (r = JoinGroupRequest.first 4 y)) ∨ (r = JoinGroupRequest.first 5 y)) ∨ (r = JoinGroupRequest.first 6 y ∨ Cut.begun {} (fun t => t.Protocols) (fun t x => { t with Protocols := x }) (JoinGroupRequest.first 6) r y))) :=
  (.field Longer.string (fun _ => rfl) (fun _ _ => rfl) (fun _ _ => rfl) (fun _ => rfl) : Parts (KDec.field Dec.string [] (fun t x => { t with GroupId := x })) (JoinGroupRequest.first 0) (JoinGroupRequest.first 1) (fun r y => r = JoinGroupRequest.first 0 y))
    |>.andThen (.field Longer.int32 (fun _ => rfl) (fun _ _ => rfl) (fun _ _ => rfl) (fun _ => rfl) : Parts (KDec.field Dec.int32 0 (fun t x => { t with SessionTimeoutMs := x })) (JoinGroupRequest.first 1) (JoinGroupRequest.first 2) (fun r y => r = JoinGroupRequest.first 1 y))
    |>.andThen (.onlyIf (.field Longer.int32 (fun _ => rfl) (fun _ _ => rfl) (fun _ _ => rfl) (fun _ => rfl)) (fun _ => rfl) : Parts (KDec.onlyIf (version ≥ 1) (KDec.field Dec.int32 0 (fun t x => { t with RebalanceTimeoutMs := x }))) (JoinGroupRequest.first 2) (JoinGroupRequest.first 3) (fun r y => r = JoinGroupRequest.first 2 y))
    |>.andThen (.field Longer.string (fun _ => rfl) (fun _ _ => rfl) (fun _ _ => rfl) (fun _ => rfl) : Parts (KDec.field Dec.string [] (fun t x => { t with MemberId := x })) (JoinGroupRequest.first 3) (JoinGroupRequest.first 4) (fun r y => r = JoinGroupRequest.first 3 y))
    |>.andThen (.onlyIf (.field Longer.string (fun _ => rfl) (fun _ _ => rfl) (fun _ _ => rfl) (fun _ => rfl)) (fun _ => rfl) : Parts (KDec.onlyIf (version ≥ 5) (KDec.field Dec.string [] (fun t x => { t with GroupInstanceId := x }))) (JoinGroupRequest.first 4) (JoinGroupRequest.first 5) (fun r y => r = JoinGroupRequest.first 4 y))
    |>.andThen (.field Longer.string (fun _ => rfl) (fun _ _ => rfl) (fun _ _ => rfl) (fun _ => rfl) : Parts (KDec.field Dec.string [] (fun t x => { t with ProtocolType := x })) (JoinGroupRequest.first 5) (JoinGroupRequest.first 6) (fun r y => r = JoinGroupRequest.first 5 y))
    |>.andThen (.structs (get := fun (t : JoinGroupRequest) => t.Protocols) ((JoinGroupRequestProtocol11.partsK version).longer {}) (fun _ => rfl) (fun _ => rfl) (fun _ _ => rfl) (fun _ _ => rfl) (fun _ _ => rfl) (fun _ => rfl) (fun _ => rfl) : Parts (KDec.fieldStructs (JoinGroupRequestProtocol11.decodeK version {}) {} (fun t x => { t with Protocols := x })) (JoinGroupRequest.first 6) (JoinGroupRequest.first 7) (fun r y => r = JoinGroupRequest.first 6 y ∨ Cut.begun {} (fun t => t.Protocols) (fun t x => { t with Protocols := x }) (JoinGroupRequest.first 6) r y))
theorem JoinGroupRequest.filled (version : Int16) : FilledStep 20 15032385544 (JoinGroupRequest.decode version) :=
  ((FilledStep.field .string)
    |>.andThen (FilledStep.field .int32)
    |>.andThen (FilledStep.onlyIf (FilledStep.field .int32))
    |>.andThen (FilledStep.field .string)
    |>.andThen (FilledStep.onlyIf (FilledStep.field .string))
    |>.andThen (FilledStep.field .string)
    |>.andThen (FilledStep.structs (JoinGroupRequestProtocol11.filled version {}))).mono (by decide) (by decide)
theorem JoinGroupRequest.part_of (r y : JoinGroupRequest) (h : (((((((r = JoinGroupRequest.first 0 y) ∨ (r = JoinGroupRequest.first 1 y)) ∨ (r = JoinGroupRequest.first 2 y)) ∨ (r = JoinGroupRequest.first 3 y)) ∨ (r = JoinGroupRequest.first 4 y)) ∨ (r = JoinGroupRequest.first 5 y)) ∨ (r = JoinGroupRequest.first 6 y ∨ Cut.begun {} (fun t => t.Protocols) (fun t x => { t with Protocols := x }) (JoinGroupRequest.first 6) r y))) : JoinGroupRequest.Part r y :=
  match h with
    | (.inl (.inl (.inl (.inl (.inl (.inl h)))))) => .inl ⟨0, by decide, h⟩
    | (.inl (.inl (.inl (.inl (.inl (.inr h)))))) => .inl ⟨1, by decide, h⟩
    | (.inl (.inl (.inl (.inl (.inr h))))) => .inl ⟨2, by decide, h⟩
    | (.inl (.inl (.inl (.inr h)))) => .inl ⟨3, by decide, h⟩
    | (.inl (.inl (.inr h))) => .inl ⟨4, by decide, h⟩
    | (.inl (.inr h)) => .inl ⟨5, by decide, h⟩
    | (.inr (.inl h)) => .inl ⟨6, by decide, h⟩
    | (.inr (.inr h)) => (.inr h)
theorem JoinGroupRequest.keeps_holds : JoinGroupRequest.keeps.Holds JoinGroupRequest.layout :=
  KeptMsg.holds JoinGroupRequest.lawful JoinGroupRequest.sameK (stop := fun v t => JoinGroupRequest.ends v t 6) (c := fun v t => JoinGroupRequest.cutAt v t 0) (fun _ _ _ => rfl) JoinGroupRequest.cutsK (c0 := JoinGroupRequest.first 0) rfl JoinGroupRequest.partsK JoinGroupRequest.part_of JoinGroupRequest.filled (by decide) (by decide)

/-- message/messages.gen.go:4261-4278 `JoinGroupResponseMember11.Decode`, with the receiver kept -/
def JoinGroupResponseMember11.decodeK (version : Int16) : KDec JoinGroupResponseMember11 :=
    KDec.field Dec.string [] (fun t x => { t with MemberId := x }) ;|>
    KDec.onlyIf (version ≥ 5) (KDec.field Dec.string [] (fun t x => { t with GroupInstanceId := x })) ;|>
    KDec.field Dec.bytes none (fun t x => { t with Metadata := x })

/-- Where the fields of `JoinGroupResponseMember11` end. -/
def JoinGroupResponseMember11.ends (version : Int16) (t : JoinGroupResponseMember11) : Nat → Nat :=
  Cut.ends 0 [Wire.string t.MemberId,
    Wire.when (version ≥ 5) (Wire.string t.GroupInstanceId),
    Wire.bytes t.Metadata]

/-- What is left of `t` if only its first `n` bytes are there. -/
def JoinGroupResponseMember11.cut (version : Int16) (n : Nat) (t : JoinGroupResponseMember11) : JoinGroupResponseMember11 :=
  { MemberId := Cut.field n (t.ends version 0) t.MemberId [],
    GroupInstanceId := Cut.gate (version ≥ 5) (Cut.field n (t.ends version 1) t.GroupInstanceId []) [],
    Metadata := Cut.field n (t.ends version 2) t.Metadata.nonNil none }

/-- The same after the first `k` statements of `Decode`. -/
def JoinGroupResponseMember11.cutAt (version : Int16) (t : JoinGroupResponseMember11) (k n : Nat) : JoinGroupResponseMember11 :=
  { MemberId := upto k 0 (Cut.field n (t.ends version 0) t.MemberId []) [],
    GroupInstanceId := upto k 1 (Cut.gate (version ≥ 5) (Cut.field n (t.ends version 1) t.GroupInstanceId []) []) [],
    Metadata := upto k 2 (Cut.field n (t.ends version 2) t.Metadata.nonNil none) none }

/-- The first `k` fields of `y`, and zeros. -/
def JoinGroupResponseMember11.first (k : Nat) (y : JoinGroupResponseMember11) : JoinGroupResponseMember11 :=
  { MemberId := upto k 0 y.MemberId [],
    GroupInstanceId := upto k 1 y.GroupInstanceId [],
    Metadata := upto k 2 y.Metadata none }

/-- `r` is a beginning of `y`, and zeros. -/
def JoinGroupResponseMember11.Part (r y : JoinGroupResponseMember11) : Prop :=
  (∃ k, k < 3 ∧ r = y.first k)

/-- `JoinGroupResponseMember11` with its receiver kept. -/
def JoinGroupResponseMember11.keeps : KeptMsg JoinGroupResponseMember11.type := { decode := JoinGroupResponseMember11.decodeK, cut := JoinGroupResponseMember11.cut, Part := JoinGroupResponseMember11.Part }

theorem JoinGroupResponseMember11.sameK (version : Int16) : KStep (JoinGroupResponseMember11.decodeK version) (JoinGroupResponseMember11.decode version) :=
  (KStep.field)
    |>.andThen (KStep.onlyIf (KStep.field))
    |>.andThen (KStep.field)
theorem JoinGroupResponseMember11.cutsK (version : Int16) (t : JoinGroupResponseMember11) (h : t.Fits version) :
    Cuts (JoinGroupResponseMember11.decodeK version) 0 (JoinGroupResponseMember11.wire version t) (JoinGroupResponseMember11.ends version t 2) (JoinGroupResponseMember11.cutAt version t 0) (JoinGroupResponseMember11.cutAt version t 3) :=
  (.field (reads_string h.MemberId) (fun _ => rfl) (fun _ => rfl) : Cuts _ 0 _ (JoinGroupResponseMember11.ends version t 0) (JoinGroupResponseMember11.cutAt version t 0) (JoinGroupResponseMember11.cutAt version t 1))
    |>.andThen (.optField (fun hc => reads_string (h.GroupInstanceId hc)) (fun _ => rfl) (fun _ => rfl) : Cuts _ (JoinGroupResponseMember11.ends version t 0) _ (JoinGroupResponseMember11.ends version t 1) (JoinGroupResponseMember11.cutAt version t 1) (JoinGroupResponseMember11.cutAt version t 2))
    |>.andThen (.field (reads_bytes h.Metadata) (fun _ => rfl) (fun _ => rfl) : Cuts _ (JoinGroupResponseMember11.ends version t 1) _ (JoinGroupResponseMember11.ends version t 2) (JoinGroupResponseMember11.cutAt version t 2) (JoinGroupResponseMember11.cutAt version t 3))
theorem JoinGroupResponseMember11.partsK (version : Int16) : Parts (JoinGroupResponseMember11.decodeK version) (JoinGroupResponseMember11.first 0) (JoinGroupResponseMember11.first 3) (fun r y => (((r = JoinGroupResponseMember11.first 0 y) ∨ (r = JoinGroupResponseMember11.first 1 y)) ∨ (r = JoinGroupResponseMember11.first 2 y))) :=
  (.field Longer.string (fun _ => rfl) (fun _ _ => rfl) (fun _ _ => rfl) (fun _ => rfl) : Parts (KDec.field Dec.string [] (fun t x => { t with MemberId := x })) (JoinGroupResponseMember11.first 0) (JoinGroupResponseMember11.first 1) (fun r y => r = JoinGroupResponseMember11.first 0 y))
    |>.andThen (.onlyIf (.field Longer.string (fun _ => rfl) (fun _ _ => rfl) (fun _ _ => rfl) (fun _ => rfl)) (fun _ => rfl) : Parts (KDec.onlyIf (version ≥ 5) (KDec.field Dec.string [] (fun t x => { t with GroupInstanceId := x }))) (JoinGroupResponseMember11.first 1) (JoinGroupResponseMember11.first 2) (fun r y => r = JoinGroupResponseMember11.first 1 y))
    |>.andThen (.field Longer.bytes (fun _ => rfl) (fun _ _ => rfl) (fun _ _ => rfl) (fun _ => rfl) : Parts (KDec.field Dec.bytes none (fun t x => { t with Metadata := x })) (JoinGroupResponseMember11.first 2) (JoinGroupResponseMember11.first 3) (fun r y => r = JoinGroupResponseMember11.first 2 y))
theorem JoinGroupResponseMember11.filled (version : Int16) : FilledStep 8 2147483652 (JoinGroupResponseMember11.decode version) :=
  ((FilledStep.field .string)
    |>.andThen (FilledStep.onlyIf (FilledStep.field .string))
    |>.andThen (FilledStep.field .bytes)).mono (by decide) (by decide)
theorem JoinGroupResponseMember11.part_of (r y : JoinGroupResponseMember11) (h : (((r = JoinGroupResponseMember11.first 0 y) ∨ (r = JoinGroupResponseMember11.first 1 y)) ∨ (r = JoinGroupResponseMember11.first 2 y))) : JoinGroupResponseMember11.Part r y :=
  match h with
    | (.inl (.inl h)) => ⟨0, by decide, h⟩
    | (.inl (.inr h)) => ⟨1, by decide, h⟩
    | (.inr h) => ⟨2, by decide, h⟩
theorem JoinGroupResponseMember11.keeps_holds : JoinGroupResponseMember11.keeps.Holds JoinGroupResponseMember11.layout :=
  KeptMsg.holds JoinGroupResponseMember11.lawful JoinGroupResponseMember11.sameK (stop := fun v t => JoinGroupResponseMember11.ends v t 2) (c := fun v t => JoinGroupResponseMember11.cutAt v t 0) (fun _ _ _ => rfl) JoinGroupResponseMember11.cutsK (c0 := JoinGroupResponseMember11.first 0) rfl JoinGroupResponseMember11.partsK JoinGroupResponseMember11.part_of JoinGroupResponseMember11.filled (by decide) (by decide)

/-- message/messages.gen.go:4190-4232 `JoinGroupResponse.Decode`, with the receiver kept -/
def JoinGroupResponse.decodeK (version : Int16) : KDec JoinGroupResponse :=
    KDec.onlyIf (version ≥ 2) (KDec.field Dec.int32 0 (fun t x => { t with ThrottleTimeMs := x })) ;|>
    KDec.field Dec.int16 0 (fun t x => { t with ErrorCode := x }) ;|>
    KDec.field Dec.int32 0 (fun t x => { t with GenerationId := x }) ;|>
    KDec.field Dec.string [] (fun t x => { t with ProtocolName := x }) ;|>
    KDec.field Dec.string [] (fun t x => { t with Leader := x }) ;|>
    KDec.field Dec.string [] (fun t x => { t with MemberId := x }) ;|>
    KDec.fieldStructs (JoinGroupResponseMember11.decodeK version {}) {} (fun t x => { t with Members := x })

/-- Where the fields of `JoinGroupResponse` end. -/
def JoinGroupResponse.ends (version : Int16) (t : JoinGroupResponse) : Nat → Nat :=
  Cut.ends 0 [Wire.when (version ≥ 2) (Wire.int32 t.ThrottleTimeMs),
    Wire.int16 t.ErrorCode,
    Wire.int32 t.GenerationId,
    Wire.string t.ProtocolName,
    Wire.string t.Leader,
    Wire.string t.MemberId,
    Wire.array (JoinGroupResponseMember11.wire version) t.Members]

/-- What is left of `t` if only its first `n` bytes are there. -/
def JoinGroupResponse.cut (version : Int16) (n : Nat) (t : JoinGroupResponse) : JoinGroupResponse :=
  { ThrottleTimeMs := Cut.gate (version ≥ 2) (Cut.field n (t.ends version 0) t.ThrottleTimeMs 0) 0,
    ErrorCode := Cut.field n (t.ends version 1) t.ErrorCode 0,
    GenerationId := Cut.field n (t.ends version 2) t.GenerationId 0,
    ProtocolName := Cut.field n (t.ends version 3) t.ProtocolName [],
    Leader := Cut.field n (t.ends version 4) t.Leader [],
    MemberId := Cut.field n (t.ends version 5) t.MemberId [],
    Members := Cut.array n (t.ends version 5) (JoinGroupResponseMember11.wire version) (fun x => x.seen version {}) {} t.Members }

/-- The same after the first `k` statements of `Decode`. -/
def JoinGroupResponse.cutAt (version : Int16) (t : JoinGroupResponse) (k n : Nat) : JoinGroupResponse :=
  { ThrottleTimeMs := upto k 0 (Cut.gate (version ≥ 2) (Cut.field n (t.ends version 0) t.ThrottleTimeMs 0) 0) 0,
    ErrorCode := upto k 1 (Cut.field n (t.ends version 1) t.ErrorCode 0) 0,
    GenerationId := upto k 2 (Cut.field n (t.ends version 2) t.GenerationId 0) 0,
    ProtocolName := upto k 3 (Cut.field n (t.ends version 3) t.ProtocolName []) [],
    Leader := upto k 4 (Cut.field n (t.ends version 4) t.Leader []) [],
    MemberId := upto k 5 (Cut.field n (t.ends version 5) t.MemberId []) [],
    Members := upto k 6 (Cut.array n (t.ends version 5) (JoinGroupResponseMember11.wire version) (fun x => x.seen version {}) {} t.Members) none }

/-- The first `k` fields of `y`, and zeros. -/
def JoinGroupResponse.first (k : Nat) (y : JoinGroupResponse) : JoinGroupResponse :=
  { ThrottleTimeMs := upto k 0 y.ThrottleTimeMs 0,
    ErrorCode := upto k 1 y.ErrorCode 0,
    GenerationId := upto k 2 y.GenerationId 0,
    ProtocolName := upto k 3 y.ProtocolName [],
    Leader := upto k 4 y.Leader [],
    MemberId := upto k 5 y.MemberId [],
    Members := upto k 6 y.Members none }

/-- `r` is a beginning of `y`, and zeros. -/
def JoinGroupResponse.Part (r y : JoinGroupResponse) : Prop :=
  (∃ k, k < 7 ∧ r = y.first k) ∨
    Cut.begun {} (fun t => t.Members) (fun t x => { t with Members := x }) (JoinGroupResponse.first 6) r y

/-- `JoinGroupResponse` with its receiver kept. -/
def JoinGroupResponse.keeps : KeptMsg JoinGroupResponse.type := { decode := JoinGroupResponse.decodeK, cut := JoinGroupResponse.cut, Part := JoinGroupResponse.Part }

theorem JoinGroupResponse.sameK (version : Int16) : KStep (JoinGroupResponse.decodeK version) (JoinGroupResponse.decode version) :=
  (KStep.onlyIf (KStep.field))
    |>.andThen (KStep.field)
    |>.andThen (KStep.field)
    |>.andThen (KStep.field)
    |>.andThen (KStep.field)
    |>.andThen (KStep.field)
    |>.andThen (KStep.structs (fun _ => rfl) (JoinGroupResponseMember11.sameK version {}))
theorem JoinGroupResponse.cutsK (version : Int16) (t : JoinGroupResponse) (h : t.Fits version) :
    Cuts (JoinGroupResponse.decodeK version) 0 (JoinGroupResponse.wire version t) (JoinGroupResponse.ends version t 6) (JoinGroupResponse.cutAt version t 0) (JoinGroupResponse.cutAt version t 7) :=
  (.optField (fun _ => reads_int32 t.ThrottleTimeMs) (fun _ => rfl) (fun _ => rfl) : Cuts _ 0 _ (JoinGroupResponse.ends version t 0) (JoinGroupResponse.cutAt version t 0) (JoinGroupResponse.cutAt version t 1))
    |>.andThen (.field (reads_int16 t.ErrorCode) (fun _ => rfl) (fun _ => rfl) : Cuts _ (JoinGroupResponse.ends version t 0) _ (JoinGroupResponse.ends version t 1) (JoinGroupResponse.cutAt version t 1) (JoinGroupResponse.cutAt version t 2))
    |>.andThen (.field (reads_int32 t.GenerationId) (fun _ => rfl) (fun _ => rfl) : Cuts _ (JoinGroupResponse.ends version t 1) _ (JoinGroupResponse.ends version t 2) (JoinGroupResponse.cutAt version t 2) (JoinGroupResponse.cutAt version t 3))
    |>.andThen (.field (reads_string h.ProtocolName) (fun _ => rfl) (fun _ => rfl) : Cuts _ (JoinGroupResponse.ends version t 2) _ (JoinGroupResponse.ends version t 3) (JoinGroupResponse.cutAt version t 3) (JoinGroupResponse.cutAt version t 4))
    |>.andThen (.field (reads_string h.Leader) (fun _ => rfl) (fun _ => rfl) : Cuts _ (JoinGroupResponse.ends version t 3) _ (JoinGroupResponse.ends version t 4) (JoinGroupResponse.cutAt version t 4) (JoinGroupResponse.cutAt version t 5))
    |>.andThen (.field (reads_string h.MemberId) (fun _ => rfl) (fun _ => rfl) : Cuts _ (JoinGroupResponse.ends version t 4) _ (JoinGroupResponse.ends version t 5) (JoinGroupResponse.cutAt version t 5) (JoinGroupResponse.cutAt version t 6))
    |>.andThen (.structs (JoinGroupResponseMember11.sameK version {}) (fun x hx => JoinGroupResponseMember11.reads version x hx {}) h.Members (fun _ => rfl) (fun _ => rfl) : Cuts _ (JoinGroupResponse.ends version t 5) _ (JoinGroupResponse.ends version t 6) (JoinGroupResponse.cutAt version t 6) (JoinGroupResponse.cutAt version t 7))
theorem JoinGroupResponse.partsK (version : Int16) : Parts (JoinGroupResponse.decodeK version) (JoinGroupResponse.first 0) (JoinGroupResponse.first 7) (fun r y => (((((((r = JoinGroupResponse.first 0 y) ∨ (r = JoinGroupResponse.first 1 y)) ∨ (r = JoinGroupResponse.first 2 y)) ∨ (r = JoinGroupResponse.first 3 y)) ∨ (r = JoinGroupResponse.first 4 y)) ∨ (r = JoinGroupResponse.first 5 y)) ∨ (r = JoinGroupResponse.first 6 y ∨ Cut.begun {} (fun t => t.Members) (fun t x => { t with Members := x }) (JoinGroupResponse.first 6) r y))) :=
  (.onlyIf (.field Longer.int32 (fun _ => rfl) (fun _ _ => rfl) (fun _ _ => rfl) (fun _ => rfl)) (fun _ => rfl) : Parts (KDec.onlyIf (version ≥ 2) (KDec.field Dec.int32 0 (fun t x => { t with ThrottleTimeMs := x }))) (JoinGroupResponse.first 0) (JoinGroupResponse.first 1) (fun r y => r = JoinGroupResponse.first 0 y))
    |>.andThen (.field Longer.int16 (fun _ => rfl) (fun _ _ => rfl) (fun _ _ => rfl) (fun _ => rfl) : Parts (KDec.field Dec.int16 0 (fun t x => { t with ErrorCode := x })) (JoinGroupResponse.first 1) (JoinGroupResponse.first 2) (fun r y => r = JoinGroupResponse.first 1 y))
    |>.andThen (.field Longer.int32 (fun _ => rfl) (fun _ _ => rfl) (fun _ _ => rfl) (fun _ => rfl) : Parts (KDec.field Dec.int32 0 (fun t x => { t with GenerationId := x })) (JoinGroupResponse.first 2) (JoinGroupResponse.first 3) (fun r y => r = JoinGroupResponse.first 2 y))
    |>.andThen (.field Longer.string (fun _ => rfl) (fun _ _ => rfl) (fun _ _ => rfl) (fun _ => rfl) : Parts (KDec.field Dec.string [] (fun t x => { t with ProtocolName := x })) (JoinGroupResponse.first 3) (JoinGroupResponse.first 4) (fun r y => r = JoinGroupResponse.first 3 y))
    |>.andThen (.field Longer.string (fun _ => rfl) (fun _ _ => rfl) (fun _ _ => rfl) (fun _ => rfl) : Parts (KDec.field Dec.string [] (fun t x => { t with Leader := x })) (JoinGroupResponse.first 4) (JoinGroupResponse.first 5) (fun r y => r = JoinGroupResponse.first 4 y))
    |>.andThen (.field Longer.string (fun _ => rfl) (fun _ _ => rfl) (fun _ _ => rfl) (fun _ => rfl) : Parts (KDec.field Dec.string [] (fun t x => { t with MemberId := x })) (JoinGroupResponse.first 5) (JoinGroupResponse.first 6) (fun r y => r = JoinGroupResponse.first 5 y))
    |>.andThen (.structs (get := fun (t : JoinGroupResponse) => t.Members) ((JoinGroupResponseMember11.partsK version).longer {}) (fun _ => rfl) (fun _ => rfl) (fun _ _ => rfl) (fun _ _ => rfl) (fun _ _ => rfl) (fun _ => rfl) (fun _ => rfl) : Parts (KDec.fieldStructs (JoinGroupResponseMember11.decodeK version {}) {} (fun t x => { t with Members := x })) (JoinGroupResponse.first 6) (JoinGroupResponse.first 7) (fun r y => r = JoinGroupResponse.first 6 y ∨ Cut.begun {} (fun t => t.Members) (fun t x => { t with Members := x }) (JoinGroupResponse.first 6) r y))
theorem JoinGroupResponse.filled (version : Int16) : FilledStep 20 19327352840 (JoinGroupResponse.decode version) :=
  ((FilledStep.onlyIf (FilledStep.field .int32))
    |>.andThen (FilledStep.field .int16)
    |>.andThen (FilledStep.field .int32)
    |>.andThen (FilledStep.field .string)
    |>.andThen (FilledStep.field .string)
    |>.andThen (FilledStep.field .string)
    |>.andThen (FilledStep.structs (JoinGroupResponseMember11.filled version {}))).mono (by decide) (by decide)
theorem JoinGroupResponse.part_of (r y : JoinGroupResponse) (h : (((((((r = JoinGroupResponse.first 0 y) ∨ (r = JoinGroupResponse.first 1 y)) ∨ (r = JoinGroupResponse.first 2 y)) ∨ (r = JoinGroupResponse.first 3 y)) ∨ (r = JoinGroupResponse.first 4 y)) ∨ (r = JoinGroupResponse.first 5 y)) ∨ (r = JoinGroupResponse.first 6 y ∨ Cut.begun {} (fun t => t.Members) (fun t x => { t with Members := x }) (JoinGroupResponse.first 6) r y))) : JoinGroupResponse.Part r y :=
  match h with
    | (.inl (.inl (.inl (.inl (.inl (.inl h)))))) => .inl ⟨0, by decide, h⟩
    | (.inl (.inl (.inl (.inl (.inl (.inr h)))))) => .inl ⟨1, by decide, h⟩
    | (.inl (.inl (.inl (.inl (.inr h))))) => .inl ⟨2, by decide, h⟩
    | (.inl (.inl (.inl (.inr h)))) => .inl ⟨3, by decide, h⟩
    | (.inl (.inl (.inr h))) => .inl ⟨4, by decide, h⟩
    | (.inl (.inr h)) => .inl ⟨5, by decide, h⟩
    | (.inr (.inl h)) => .inl ⟨6, by decide, h⟩
    | (.inr (.inr h)) => (.inr h)
theorem JoinGroupResponse.keeps_holds : JoinGroupResponse.keeps.Holds JoinGroupResponse.layout :=
  KeptMsg.holds JoinGroupResponse.lawful JoinGroupResponse.sameK (stop := fun v t => JoinGroupResponse.ends v t 6) (c := fun v t => JoinGroupResponse.cutAt v t 0) (fun _ _ _ => rfl) JoinGroupResponse.cutsK (c0 := JoinGroupResponse.first 0) rfl JoinGroupResponse.partsK JoinGroupResponse.part_of JoinGroupResponse.filled (by decide) (by decide)

/-- The structures of the JoinGroup messages. -/
def keptJoinGroup : List (Σ (M : MsgType) (_ : Layout M), KeptMsg M) :=
  [⟨JoinGroupRequest.type, JoinGroupRequest.layout, JoinGroupRequest.keeps⟩,
   ⟨JoinGroupRequestProtocol11.type, JoinGroupRequestProtocol11.layout, JoinGroupRequestProtocol11.keeps⟩,
   ⟨JoinGroupResponse.type, JoinGroupResponse.layout, JoinGroupResponse.keeps⟩,
   ⟨JoinGroupResponseMember11.type, JoinGroupResponseMember11.layout, JoinGroupResponseMember11.keeps⟩]
theorem keptJoinGroup_holds : ∀ p ∈ keptJoinGroup, p.2.2.Holds p.2.1 := by
  unfold keptJoinGroup
  simp only [List.forall_mem_cons]
  exact ⟨JoinGroupRequest.keeps_holds, JoinGroupRequestProtocol11.keeps_holds, JoinGroupResponse.keeps_holds, JoinGroupResponseMember11.keeps_holds, fun _ h => absurd h (by simp)⟩

end Kafka.Msg
