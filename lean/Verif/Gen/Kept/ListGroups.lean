import Verif.Message.KeptLemmas
import Verif.Gen.Proof.ListGroups
/-!
Generated by tools/gen_messages.py: what is in the ListGroups messages after an error.
-/
set_option linter.unusedVariables false
namespace Kafka.Msg

/-- message/messages.gen.go:5045-5048 `ListGroupsRequest.Decode`, with the receiver kept -/
def ListGroupsRequest.decodeK (_version : Int16) : KDec ListGroupsRequest :=
    KDec.nop

/-- Where the fields of `ListGroupsRequest` end. -/
def ListGroupsRequest.ends (_version : Int16) (_t : ListGroupsRequest) : Nat → Nat :=
  Cut.ends 0 []

/-- What is left of `t` if only its first `n` bytes are there. -/
def ListGroupsRequest.cut (_version : Int16) (_n : Nat) (_t : ListGroupsRequest) : ListGroupsRequest :=
  {}

/-- The same after the first `k` statements of `Decode`. -/
def ListGroupsRequest.cutAt (_version : Int16) (_t : ListGroupsRequest) (_k _n : Nat) : ListGroupsRequest :=
  {}

/-- The first `k` fields of `y`, and zeros. -/
def ListGroupsRequest.first (_k : Nat) (_y : ListGroupsRequest) : ListGroupsRequest :=
  {}

/-- `r` is a beginning of `y`, and zeros. -/
def ListGroupsRequest.Part (r y : ListGroupsRequest) : Prop :=
  (∃ k, k < 0 ∧ r = y.first k)

/-- `ListGroupsRequest` with its receiver kept. -/
def ListGroupsRequest.keeps : KeptMsg ListGroupsRequest.type := { decode := ListGroupsRequest.decodeK, cut := ListGroupsRequest.cut, Part := ListGroupsRequest.Part }

theorem ListGroupsRequest.sameK (version : Int16) : KStep (ListGroupsRequest.decodeK version) (ListGroupsRequest.decode version) :=
  KStep.nop
theorem ListGroupsRequest.cutsK (version : Int16) (t : ListGroupsRequest) (h : t.Fits version) :
    Cuts (ListGroupsRequest.decodeK version) 0 (ListGroupsRequest.wire version t) (0) (ListGroupsRequest.cutAt version t 0) (ListGroupsRequest.cutAt version t 0) :=
  .nop
theorem ListGroupsRequest.partsK (version : Int16) : Parts (ListGroupsRequest.decodeK version) (ListGroupsRequest.first 0) (ListGroupsRequest.first 0) (fun r y => False) :=
  .nop (fun _ => rfl)
theorem ListGroupsRequest.filled (version : Int16) : FilledStep 0 0 (ListGroupsRequest.decode version) :=
  .nop
theorem ListGroupsRequest.part_of (r y : ListGroupsRequest) (h : False) : ListGroupsRequest.Part r y :=
  h.elim
theorem ListGroupsRequest.keeps_holds : ListGroupsRequest.keeps.Holds ListGroupsRequest.layout :=
  KeptMsg.holds ListGroupsRequest.lawful ListGroupsRequest.sameK (stop := fun v t => 0) (c := fun v t => ListGroupsRequest.cutAt v t 0) (fun _ _ _ => rfl) ListGroupsRequest.cutsK (c0 := ListGroupsRequest.first 0) rfl ListGroupsRequest.partsK ListGroupsRequest.part_of ListGroupsRequest.filled (by decide) (by decide)

/-- message/messages.gen.go:5134-5145 `ListedGroup16.Decode`, with the receiver kept -/
def ListedGroup16.decodeK (_version : Int16) : KDec ListedGroup16 :=
    KDec.field Dec.string [] (fun t x => { t with GroupId := x }) ;|>
    KDec.field Dec.string [] (fun t x => { t with ProtocolType := x })

/-- Where the fields of `ListedGroup16` end. -/
def ListedGroup16.ends (_version : Int16) (t : ListedGroup16) : Nat → Nat :=
  Cut.ends 0 [Wire.string t.GroupId,
    Wire.string t.ProtocolType]

/-- What is left of `t` if only its first `n` bytes are there. -/
def ListedGroup16.cut (version : Int16) (n : Nat) (t : ListedGroup16) : ListedGroup16 :=
  { GroupId := Cut.field n (t.ends version 0) t.GroupId [],
    ProtocolType := Cut.field n (t.ends version 1) t.ProtocolType [] }

/-- The same after the first `k` statements of `Decode`. -/
def ListedGroup16.cutAt (version : Int16) (t : ListedGroup16) (k n : Nat) : ListedGroup16 :=
  { GroupId := upto k 0 (Cut.field n (t.ends version 0) t.GroupId []) [],
    ProtocolType := upto k 1 (Cut.field n (t.ends version 1) t.ProtocolType []) [] }

/-- The first `k` fields of `y`, and zeros. -/
def ListedGroup16.first (k : Nat) (y : ListedGroup16) : ListedGroup16 :=
  { GroupId := upto k 0 y.GroupId [],
    ProtocolType := upto k 1 y.ProtocolType [] }

/-- `r` is a beginning of `y`, and zeros. -/
def ListedGroup16.Part (r y : ListedGroup16) : Prop :=
  (∃ k, k < 2 ∧ r = y.first k)

/-- `ListedGroup16` with its receiver kept. -/
def ListedGroup16.keeps : KeptMsg ListedGroup16.type := { decode := ListedGroup16.decodeK, cut := ListedGroup16.cut, Part := ListedGroup16.Part }

theorem ListedGroup16.sameK (version : Int16) : KStep (ListedGroup16.decodeK version) (ListedGroup16.decode version) :=
  (KStep.field)
    |>.andThen (KStep.field)
theorem ListedGroup16.cutsK (version : Int16) (t : ListedGroup16) (h : t.Fits version) :
    Cuts (ListedGroup16.decodeK version) 0 (ListedGroup16.wire version t) (ListedGroup16.ends version t 1) (ListedGroup16.cutAt version t 0) (ListedGroup16.cutAt version t 2) :=
  (.field (reads_string h.GroupId) (fun _ => rfl) (fun _ => rfl) : Cuts _ 0 _ (ListedGroup16.ends version t 0) (ListedGroup16.cutAt version t 0) (ListedGroup16.cutAt version t 1))
    |>.andThen (.field (reads_string h.ProtocolType) (fun _ => rfl) (fun _ => rfl) : Cuts _ (ListedGroup16.ends version t 0) _ (ListedGroup16.ends version t 1) (ListedGroup16.cutAt version t 1) (ListedGroup16.cutAt version t 2))
theorem ListedGroup16.partsK (version : Int16) : Parts (ListedGroup16.decodeK version) (ListedGroup16.first 0) (ListedGroup16.first 2) (fun r y => ((r = ListedGroup16.first 0 y) ∨ (r = ListedGroup16.first 1 y))) :=
  (.field Longer.string (fun _ => rfl) (fun _ _ => rfl) (fun _ _ => rfl) (fun _ => rfl) : Parts (KDec.field Dec.string [] (fun t x => { t with GroupId := x })) (ListedGroup16.first 0) (ListedGroup16.first 1) (fun r y => r = ListedGroup16.first 0 y))
    |>.andThen (.field Longer.string (fun _ => rfl) (fun _ _ => rfl) (fun _ _ => rfl) (fun _ => rfl) : Parts (KDec.field Dec.string [] (fun t x => { t with ProtocolType := x })) (ListedGroup16.first 1) (ListedGroup16.first 2) (fun r y => r = ListedGroup16.first 1 y))
theorem ListedGroup16.filled (version : Int16) : FilledStep 4 32772 (ListedGroup16.decode version) :=
  ((FilledStep.field .string)
    |>.andThen (FilledStep.field .string)).mono (by decide) (by decide)
theorem ListedGroup16.part_of (r y : ListedGroup16) (h : ((r = ListedGroup16.first 0 y) ∨ (r = ListedGroup16.first 1 y))) : ListedGroup16.Part r y :=
  match h with
    | (.inl h) => ⟨0, by decide, h⟩
    | (.inr h) => ⟨1, by decide, h⟩
theorem ListedGroup16.keeps_holds : ListedGroup16.keeps.Holds ListedGroup16.layout :=
  KeptMsg.holds ListedGroup16.lawful ListedGroup16.sameK (stop := fun v t => ListedGroup16.ends v t 1) (c := fun v t => ListedGroup16.cutAt v t 0) (fun _ _ _ => rfl) ListedGroup16.cutsK (c0 := ListedGroup16.first 0) rfl ListedGroup16.partsK ListedGroup16.part_of ListedGroup16.filled (by decide) (by decide)

/-- message/messages.gen.go:5086-5112 `ListGroupsResponse.Decode`, with the receiver kept -/
def ListGroupsResponse.decodeK (version : Int16) : KDec ListGroupsResponse :=
    KDec.onlyIf (version ≥ 1) (KDec.field Dec.int32 0 (fun t x => { t with ThrottleTimeMs := x })) ;|>
    KDec.field Dec.int16 0 (fun t x => { t with ErrorCode := x }) ;|>
    KDec.fieldStructs (ListedGroup16.decodeK version {}) {} (fun t x => { t with Groups := x })

/-- Where the fields of `ListGroupsResponse` end. -/
def ListGroupsResponse.ends (version : Int16) (t : ListGroupsResponse) : Nat → Nat :=
  Cut.ends 0 [Wire.when (version ≥ 1) (Wire.int32 t.ThrottleTimeMs),
    Wire.int16 t.ErrorCode,
    Wire.array (ListedGroup16.wire version) t.Groups]

/-- What is left of `t` if only its first `n` bytes are there. -/
def ListGroupsResponse.cut (version : Int16) (n : Nat) (t : ListGroupsResponse) : ListGroupsResponse :=
  { ThrottleTimeMs := Cut.gate (version ≥ 1) (Cut.field n (t.ends version 0) t.ThrottleTimeMs 0) 0,
    ErrorCode := Cut.field n (t.ends version 1) t.ErrorCode 0,
    Groups := Cut.array n (t.ends version 1) (ListedGroup16.wire version) (fun x => x.seen version {}) {} t.Groups }

/-- The same after the first `k` statements of `Decode`. -/
def ListGroupsResponse.cutAt (version : Int16) (t : ListGroupsResponse) (k n : Nat) : ListGroupsResponse :=
  { ThrottleTimeMs := upto k 0 (Cut.gate (version ≥ 1) (Cut.field n (t.ends version 0) t.ThrottleTimeMs 0) 0) 0,
    ErrorCode := upto k 1 (Cut.field n (t.ends version 1) t.ErrorCode 0) 0,
    Groups := upto k 2 (Cut.array n (t.ends version 1) (ListedGroup16.wire version) (fun x => x.seen version {}) {} t.Groups) none }

/-- The first `k` fields of `y`, and zeros. -/
def ListGroupsResponse.first (k : Nat) (y : ListGroupsResponse) : ListGroupsResponse :=
  { ThrottleTimeMs := upto k 0 y.ThrottleTimeMs 0,
    ErrorCode := upto k 1 y.ErrorCode 0,
    Groups := upto k 2 y.Groups none }

/-- `r` is a beginning of `y`, and zeros. -/
def ListGroupsResponse.Part (r y : ListGroupsResponse) : Prop :=
  (∃ k, k < 3 ∧ r = y.first k) ∨
    Cut.begun {} (fun t => t.Groups) (fun t x => { t with Groups := x }) (ListGroupsResponse.first 2) r y

/-- `ListGroupsResponse` with its receiver kept. -/
def ListGroupsResponse.keeps : KeptMsg ListGroupsResponse.type := { decode := ListGroupsResponse.decodeK, cut := ListGroupsResponse.cut, Part := ListGroupsResponse.Part }

theorem ListGroupsResponse.sameK (version : Int16) : KStep (ListGroupsResponse.decodeK version) (ListGroupsResponse.decode version) :=
  (KStep.onlyIf (KStep.field))
    |>.andThen (KStep.field)
    |>.andThen (KStep.structs (fun _ => rfl) (ListedGroup16.sameK version {}))
theorem ListGroupsResponse.cutsK (version : Int16) (t : ListGroupsResponse) (h : t.Fits version) :
    Cuts (ListGroupsResponse.decodeK version) 0 (ListGroupsResponse.wire version t) (ListGroupsResponse.ends version t 2) (ListGroupsResponse.cutAt version t 0) (ListGroupsResponse.cutAt version t 3) :=
  (.optField (fun _ => reads_int32 t.ThrottleTimeMs) (fun _ => rfl) (fun _ => rfl) : Cuts _ 0 _ (ListGroupsResponse.ends version t 0) (ListGroupsResponse.cutAt version t 0) (ListGroupsResponse.cutAt version t 1))
    |>.andThen (.field (reads_int16 t.ErrorCode) (fun _ => rfl) (fun _ => rfl) : Cuts _ (ListGroupsResponse.ends version t 0) _ (ListGroupsResponse.ends version t 1) (ListGroupsResponse.cutAt version t 1) (ListGroupsResponse.cutAt version t 2))
    |>.andThen (.structs (ListedGroup16.sameK version {}) (fun x hx => ListedGroup16.reads version x hx {}) h.Groups (fun _ => rfl) (fun _ => rfl) : Cuts _ (ListGroupsResponse.ends version t 1) _ (ListGroupsResponse.ends version t 2) (ListGroupsResponse.cutAt version t 2) (ListGroupsResponse.cutAt version t 3))
theorem ListGroupsResponse.partsK (version : Int16) : Parts (ListGroupsResponse.decodeK version) (ListGroupsResponse.first 0) (ListGroupsResponse.first 3) (fun r y => (((r = ListGroupsResponse.first 0 y) ∨ (r = ListGroupsResponse.first 1 y)) ∨ (r = ListGroupsResponse.first 2 y ∨ Cut.begun {} (fun t => t.Groups) (fun t x => { t with Groups := x }) (ListGroupsResponse.first 2) r y))) :=
  (.onlyIf (.field Longer.int32 (fun _ => rfl) (fun _ _ => rfl) (fun _ _ => rfl) (fun _ => rfl)) (fun _ => rfl) : Parts (KDec.onlyIf (version ≥ 1) (KDec.field Dec.int32 0 (fun t x => { t with ThrottleTimeMs := x }))) (ListGroupsResponse.first 0) (ListGroupsResponse.first 1) (fun r y => r = ListGroupsResponse.first 0 y))
    |>.andThen (.field Longer.int16 (fun _ => rfl) (fun _ _ => rfl) (fun _ _ => rfl) (fun _ => rfl) : Parts (KDec.field Dec.int16 0 (fun t x => { t with ErrorCode := x })) (ListGroupsResponse.first 1) (ListGroupsResponse.first 2) (fun r y => r = ListGroupsResponse.first 1 y))
    |>.andThen (.structs (get := fun (t : ListGroupsResponse) => t.Groups) ((ListedGroup16.partsK version).longer {}) (fun _ => rfl) (fun _ => rfl) (fun _ _ => rfl) (fun _ _ => rfl) (fun _ _ => rfl) (fun _ => rfl) (fun _ => rfl) : Parts (KDec.fieldStructs (ListedGroup16.decodeK version {}) {} (fun t x => { t with Groups := x })) (ListGroupsResponse.first 2) (ListGroupsResponse.first 3) (fun r y => r = ListGroupsResponse.first 2 y ∨ Cut.begun {} (fun t => t.Groups) (fun t x => { t with Groups := x }) (ListGroupsResponse.first 2) r y))
theorem ListGroupsResponse.filled (version : Int16) : FilledStep 10 8589967368 (ListGroupsResponse.decode version) :=
  ((FilledStep.onlyIf (FilledStep.field .int32))
    |>.andThen (FilledStep.field .int16)
    |>.andThen (FilledStep.structs (ListedGroup16.filled version {}))).mono (by decide) (by decide)
theorem ListGroupsResponse.part_of (r y : ListGroupsResponse) (h : (((r = ListGroupsResponse.first 0 y) ∨ (r = ListGroupsResponse.first 1 y)) ∨ (r = ListGroupsResponse.first 2 y ∨ Cut.begun {} (fun t => t.Groups) (fun t x => { t with Groups := x }) (ListGroupsResponse.first 2) r y))) : ListGroupsResponse.Part r y :=
  match h with
    | (.inl (.inl h)) => .inl ⟨0, by decide, h⟩
    | (.inl (.inr h)) => .inl ⟨1, by decide, h⟩
    | (.inr (.inl h)) => .inl ⟨2, by decide, h⟩
    | (.inr (.inr h)) => (.inr h)
theorem ListGroupsResponse.keeps_holds : ListGroupsResponse.keeps.Holds ListGroupsResponse.layout :=
  KeptMsg.holds ListGroupsResponse.lawful ListGroupsResponse.sameK (stop := fun v t => ListGroupsResponse.ends v t 2) (c := fun v t => ListGroupsResponse.cutAt v t 0) (fun _ _ _ => rfl) ListGroupsResponse.cutsK (c0 := ListGroupsResponse.first 0) rfl ListGroupsResponse.partsK ListGroupsResponse.part_of ListGroupsResponse.filled (by decide) (by decide)

/-- The structures of the ListGroups messages. -/
def keptListGroups : List (Σ (M : MsgType) (_ : Layout M), KeptMsg M) :=
  [⟨ListGroupsRequest.type, ListGroupsRequest.layout, ListGroupsRequest.keeps⟩,
   ⟨ListGroupsResponse.type, ListGroupsResponse.layout, ListGroupsResponse.keeps⟩,
   ⟨ListedGroup16.type, ListedGroup16.layout, ListedGroup16.keeps⟩]
theorem keptListGroups_holds : ∀ p ∈ keptListGroups, p.2.2.Holds p.2.1 := by
  unfold keptListGroups
  simp only [List.forall_mem_cons]
  exact ⟨ListGroupsRequest.keeps_holds, ListGroupsResponse.keeps_holds, ListedGroup16.keeps_holds, fun _ h => absurd h (by simp)⟩

end Kafka.Msg
